import Verif.Model.Config

/-!
# Setting calls: the C setters and `PyRegPT.set_precision`, `set_running_uvcutoff`, `clear`

Generic in the number type.  A node count is a natural number (`ctypes.c_size_t`).
-/

namespace Verif

variable {α : Type} [Histo α]

open Histo (lit)

/-! ## C setters -/

/-- Store a precision. -/
def Cfg.setPrec (c : Cfg α) (p : PName) (v : Precision α) : Cfg α := { c with prec := fun p' => if p' = p then v else c.prec p' }

/-- Store an interpolation mode. -/
def Cfg.setInterp (c : Cfg α) (i : IName) (v : Interpol) : Cfg α := { c with interp := fun i' => if i' = i then v else c.interp i' }

/-- Store a cutoff. -/
def Cfg.setUv (c : Cfg α) (i : IName) (v : α) : Cfg α := { c with uv := fun i' => if i' = i then v else c.uv i' }

/-- What a setter with prefix `set_precision_` writes to. -/
inductive Target
  | prec (p : PName)
  | mode (i : IName)
  | cut (i : IName)
deriving DecidableEq

/-- Parameter lists of the setters with prefix `set_precision_`. -/
inductive Sig
  | nodesRange   -- (size_t n_,histo_t min_,histo_t max_,char* interpol_)
  | range        -- (histo_t min_,histo_t max_,char* interpol_)
  | nodes        -- (size_t n_,char* interpol_)
  | mode         -- (char* interpol_)
  | cutoff       -- (histo_t uvcutoff_)
deriving DecidableEq

/-- The exported functions whose name begins with `set_precision_`, with the rest of the name, parameter list and target:
`src/gamma1_1loop.c:72`, `src/gamma1_2loop.c:138`, `src/calc_pkcorr_from_gamma2.c:86,91`, `src/gamma2d_1loop.c:1897`,
`src/gamma2t_1loop.c:1874`, `src/calc_pkcorr_from_gamma3.c:15`, `src/calc_pkcorr_from_bias_1loop.c:33,38`,
`src/calc_pkcorr_from_A_1loop.c:87,92`, `src/calc_pkcorr_from_A_2loop_I.c:69,74`, `src/calc_pkcorr_from_A_2loop_II_III.c:26`,
`src/calc_pkcorr_from_B.c:57,62`, `src/spectrum_1loop.c:17`, `src/spectrum_2loop.c:16`, `src/spectrum_bias_1loop.c:50`,
`src/bispectrum_1loop.c:63`, `src/spectrum_A_1loop.c:19,24`, `src/spectrum_A_2loop.c:17,22`, `src/spectrum_B.c:19`. -/
def cSetters : List (String × Sig × Target) :=
  [("gamma1_1loop_q", .nodesRange, .prec .gamma1_1loop_q),
   ("gamma1_2loop_q", .nodesRange, .prec .gamma1_2loop_q),
   ("gamma2_tree_q", .nodesRange, .prec .gamma2_tree_q),
   ("gamma2_tree_mu", .nodes, .prec .gamma2_tree_mu),
   ("gamma2d_1loop_q", .nodesRange, .prec .gamma2d_1loop_q),
   ("gamma2t_1loop_q", .nodesRange, .prec .gamma2t_1loop_q),
   ("gamma3_tree_q", .range, .prec .gamma3_tree_q),
   ("bias_1loop_q", .nodesRange, .prec .bias_1loop_q),
   ("bias_1loop_mu", .nodes, .prec .bias_1loop_mu),
   ("A_1loop_q", .nodesRange, .prec .A_1loop_q),
   ("A_1loop_mu", .nodes, .prec .A_1loop_mu),
   ("A_2loop_I_q", .nodesRange, .prec .A_2loop_I_q),
   ("A_2loop_I_mu", .nodes, .prec .A_2loop_I_mu),
   ("A_2loop_II_III_q", .range, .prec .A_2loop_II_III_q),
   ("B_q", .nodesRange, .prec .B_q),
   ("B_mu", .nodes, .prec .B_mu),
   ("spectrum_1loop_pk_lin", .mode, .mode .spectrum_1loop),
   ("spectrum_2loop_pk_lin", .mode, .mode .spectrum_2loop),
   ("bias_1loop_pk_lin", .mode, .mode .bias_1loop),
   ("bispectrum_1loop_pk_lin", .mode, .mode .bispectrum_1loop),
   ("A_1loop_pk_lin", .mode, .mode .A_1loop),
   ("A_1loop_sigmad2", .cutoff, .cut .A_1loop),
   ("A_2loop_pk_lin", .mode, .mode .A_2loop),
   ("A_2loop_sigmad2", .cutoff, .cut .A_2loop),
   ("B_pk_lin", .mode, .mode .B)]

/-- The four values a Python call passes on (`pyregpt/pyregpt.py:266`). -/
structure Args (α : Type) where
  n : ℕ
  min : α
  max : α
  interpol : String

/-- A setter with parameters `(n,min,max,interpol)`, e.g. `set_precision_gamma1_1loop_q` (`src/gamma1_1loop.c:72-75`). -/
def setNodesRange (p : PName) (a : Args α) (c : Cfg α) : Cfg α :=
  c.setPrec p (setPrecision (c.prec p) a.n a.min a.max a.interpol (defaultPrec p)).1

/-- A setter with parameters `(min,max,interpol)`: `set_precision_gamma3_tree_q` (`src/calc_pkcorr_from_gamma3.c:15-18`),
`set_precision_A_2loop_II_III_q` (`src/calc_pkcorr_from_A_2loop_II_III.c:26-29`). -/
def setRange (p : PName) (a : Args α) (c : Cfg α) : Cfg α :=
  c.setPrec p (setPrecision (c.prec p) 0 a.min a.max a.interpol (defaultPrec p)).1

/-- A setter with parameters `(n,interpol)`, e.g. `set_precision_gamma2_tree_mu` (`src/calc_pkcorr_from_gamma2.c:91-94`). -/
def setNodes (p : PName) (a : Args α) (c : Cfg α) : Cfg α :=
  c.setPrec p (setPrecision (c.prec p) a.n (lit 1) (lit (-1)) a.interpol (defaultPrec p)).1

/-- A setter with parameter `interpol`, e.g. `set_precision_spectrum_1loop_pk_lin` (`src/spectrum_1loop.c:17-20`). -/
def setMode (i : IName) (a : Args α) (c : Cfg α) : Cfg α := c.setInterp i (setInterpol (c.interp i) a.interpol).1

/-! ## Python -/

/-- Outcome of a Python call: completed, exception (with the state it leaves), or a C call with wrong arguments. -/
inductive PyRes (σ : Type)
  | done (s : σ)
  | raised (why : String) (s : σ)
  | ub (why : String)

/-- Sequencing. -/
def PyRes.andThen {σ : Type} (r : PyRes σ) (f : σ → PyRes σ) : PyRes σ :=
  match r with
  | done s => f s
  | raised w s => raised w s
  | ub w => ub w

/-- Python `sub in s` on lists of characters. -/
def infixOf (sub : List Char) : List Char → Bool
  | [] => sub.isEmpty
  | c :: l => sub.isPrefixOf (c :: l) || infixOf sub l

/-- The argument list chosen by `set_precision` for a setter (`pyregpt/pyregpt.py:300-311`). -/
def argSig (calculation : String) : Sig :=
  if infixOf "pk_lin".toList calculation.toList then .mode
  else if calculation = "gamma3_tree_q" ∨ calculation = "A_2loop_II_III_q" then .range
  else if infixOf "mu".toList calculation.toList then .nodes
  else .nodesRange

/-- Call of a C setter with the argument list `sig` (`pyregpt/pyregpt.py:300-311`).  An argument list other than the declared one
is undefined behaviour. -/
def callSetter (sig : Sig) (s : Sig × Target) (a : Args α) (c : Cfg α) : PyRes (Cfg α) :=
  match sig, s with
  | .nodesRange, (.nodesRange, .prec p) => .done (setNodesRange p a c)
  | .range, (.range, .prec p) => .done (setRange p a c)
  | .nodes, (.nodes, .prec p) => .done (setNodes p a c)
  | .mode, (.mode, .mode i) => .done (setMode i a c)
  | _, _ => .ub "argument list of the setter"

/-- The end of `set_precision` (`pyregpt/pyregpt.py:299-311`). -/
def pyLeaf (calculation : String) (a : Args α) (c : Cfg α) : PyRes (Cfg α) :=
  match cSetters.lookup calculation with
  | none => .raised "AttributeError" c
  | some s => callSetter (argSig calculation) s a c

/-- `for calculation in names: f(calculation)`. -/
def pyEach {σ : Type} (f : String → σ → PyRes σ) : List String → σ → PyRes σ
  | [], s => .done s
  | x :: l, s => (f x s).andThen (pyEach f l)

/-- `PyRegPT.set_precision` (`pyregpt/pyregpt.py:266-311`), with a bound on the depth of the recursion (`RecursionError` below
it; `C36_depth` shows that five levels are enough).  The branch `'spectrum_1loop_q'` has no `return`: it continues with
`calculation` equal to the last member. -/
def pySetPrecision : ℕ → String → Args α → Cfg α → PyRes (Cfg α)
  | 0, _, _, c => .raised "RecursionError" c
  | d + 1, calculation, a, c =>
    let each := pyEach fun name => pySetPrecision d name a
    if calculation = "all" then each ["all_q", "all_mu"] c
    else if calculation = "all_q" then each ["spectrum_2loop_q", "bias_1loop_q", "A_2loop_q", "B_q"] c
    else if calculation = "all_mu" then each ["gamma2_tree_mu", "bias_1loop_mu", "A_2loop_I_mu", "B_mu"] c
    else if calculation = "spectrum_1loop_q" then
      (each ["gamma1_1loop_q", "gamma2_tree_q"] c).andThen (pyLeaf "gamma2_tree_q" a)
    else if calculation = "spectrum_2loop_q" then
      each ["gamma1_1loop_q", "gamma1_2loop_q", "gamma2_tree_q", "gamma2_1loop_q", "gamma3_tree_q"] c
    else if calculation = "gamma2_1loop_q" then each ["gamma2d_1loop_q", "gamma2t_1loop_q"] c
    else if calculation = "A_2loop_q" then each ["A_2loop_I_q", "A_2loop_II_III_q"] c
    else if calculation = "all_pklin" then
      each ["spectrum_1loop_pk_lin", "spectrum_2loop_pk_lin", "bias_pk_lin", "bispectrum_1loop_pk_lin", "spectrum_A_2loop_pklin",
        "spectrum_B_2loop_pklin"] c
    else pyLeaf calculation a c

/-- `set_precision` called by the user: the recursion limit of Python is far above the five levels needed. -/
def pySetPrec (calculation : String) (a : Args α) (c : Cfg α) : PyRes (Cfg α) := pySetPrecision 1000 calculation a c

/-- The exported functions whose name begins with `set_running_uvcutoff_`: `src/spectrum_1loop.c:22`, `src/spectrum_2loop.c:21`,
`src/bispectrum_1loop.c:68`, `src/spectrum_bias_1loop.c:55`, `src/spectrum_B.c:24`. -/
def cCutoffs : List (String × IName) :=
  [("spectrum_1loop", .spectrum_1loop), ("spectrum_2loop", .spectrum_2loop), ("bispectrum_1loop", .bispectrum_1loop),
   ("bias_1loop", .bias_1loop), ("B", .B)]

/-- End of `set_running_uvcutoff` (`pyregpt/pyregpt.py:319-321`); each C setter stores its argument. -/
def pyCutLeaf (v : α) (calculation : String) (c : Cfg α) : PyRes (Cfg α) :=
  match cCutoffs.lookup calculation with
  | none => .raised "AttributeError" c
  | some i => .done (c.setUv i v)

/-- `PyRegPT.set_running_uvcutoff` (`pyregpt/pyregpt.py:313-321`); the recursion has depth two. -/
def pySetUv (calculation : String) (v : α) (c : Cfg α) : PyRes (Cfg α) :=
  if calculation = "all" then pyEach (pyCutLeaf v) ["spectrum_1loop", "spectrum_2loop", "bispectrum_1loop", "bias_1loop"] c
  else pyCutLeaf v calculation c

/-- `PyRegPT.clear` (`pyregpt/pyregpt.py:333-337`) without its last line, which sets the verbosity. -/
def pyClear (c : Cfg α) : PyRes (Cfg α) :=
  (pySetPrec "all" ⟨0, lit 1, lit (-1), "test"⟩ c).andThen (pySetUv "all" (lit (1 / 2)))

end Verif
