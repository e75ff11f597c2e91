import Verif.Model.Base
import Mathlib.Data.Finset.Basic

/-!
# Allocations, releases and uses of heap blocks during the runs

A run is described by the sequence of its actions on pointer variables: `calloc`/`malloc` into a variable, `free` of a variable, access
through a variable, assignment of a pointer.  Values do not matter here, so the accesses made by the numerical code are left open: a
trace may contain any number of them in any order, through the variables its code can reach.  A failing `calloc` is not modelled, and
the integrator library is not part of the traces.
-/

namespace Verif

/-- The quadrature tables, one pair of static variables per source file (`gauss_legendre_q` in `src/gamma1_1loop.c:7`,
`src/gamma1_2loop.c:7`, `src/calc_pkcorr_from_gamma2.c:8`, `src/gamma2d_1loop.c:1892`, `src/gamma2t_1loop.c:1869`,
`src/calc_pkcorr_from_bias_1loop.c:8`, `src/calc_pkcorr_from_A_1loop.c:10`, `src/calc_pkcorr_from_A_2loop_I.c:13`,
`src/calc_pkcorr_from_B.c:14`; `gauss_legendre_mu` on the following lines). -/
inductive Tab
  | gamma1_1loop | gamma1_2loop | gamma2_q | gamma2_mu | gamma2d | gamma2t | bias_q | bias_mu | A1_q | A1_mu | A2_q | A2_mu | B_q | B_mu
deriving DecidableEq

/-- The kinds of term runs. -/
inductive RunKind
  | s1 | s2 | bias | a1 | a2 | b
deriving DecidableEq

/-- Pointer variables: the fields of the tables, private to a thread (`#pragma omp threadprivate`, e.g. `src/gamma1_1loop.c:8`), the two
local arrays of `interpol_poly` (`src/common.c:120-121`), the linear spectrum (`src/define.c:7`), the two spectra of the B term
(`src/spectrum_B.c:16-17`), their copies in `src/calc_pkcorr_from_B.c:13`, and the term arrays (`src/spectrum_1loop.c:14`,
`src/spectrum_2loop.c:14`, ...). -/
inductive Var
  | tab (th : ℕ) (T : Tab) (field : String)
  | scratch (th : ℕ) (second : Bool)
  | lin (field : String)
  | dt (field : String)
  | tt (field : String)
  | kernelB
  | terms (r : RunKind) (field : String)
deriving DecidableEq

/-- Actions.  `assign` stands for an assignment without effect on the blocks considered here. -/
inductive Act
  | alloc (v : Var)
  | free (v : Var)
  | use (v : Var)
  | copy (v w : Var)
  | assign (v : Var)
deriving DecidableEq

/-- Pointer variables (`none`: null), the blocks in use, the number of the next block, and the blocks released so far. -/
structure HeapSt where
  ptr : Var → Option ℕ
  live : Finset ℕ
  next : ℕ
  freed : List ℕ

namespace HeapSt

/-- One action.  Releasing a null pointer does nothing; releasing a block twice and access through a null pointer or to a released
block are undefined (C11 7.22.3.3). -/
def step (s : HeapSt) : Act → Res HeapSt
  | .alloc v => .ok { ptr := fun u => if u = v then some s.next else s.ptr u, live := insert s.next s.live, next := s.next + 1, freed := s.freed }
  | .free v =>
    match s.ptr v with
    | none => .ok s
    | some b => if b ∈ s.live then .ok { s with live := s.live.erase b, freed := s.freed ++ [b] } else .ub "block released twice"
  | .use v =>
    match s.ptr v with
    | none => .ub "null pointer"
    | some b => if b ∈ s.live then .ok s else .ub "released block"
  | .copy v w => .ok { s with ptr := fun u => if u = v then s.ptr w else s.ptr u }
  | .assign _ => .ok s

/-- A sequence of actions. -/
def exec (s : HeapSt) : List Act → Res HeapSt
  | [] => .ok s
  | a :: l => s.step a >>= fun s => s.exec l

end HeapSt

/-! ## The quadrature tables -/

/-- Whether a table is a `GaussLegendreMu` (`src/define.h:37-43`) or a `GaussLegendreQ` (`src/define.h:28-35`). -/
def Tab.isMu : Tab → Bool
  | .gamma2_mu | .bias_mu | .A1_mu | .A2_mu | .B_mu => true
  | _ => false

/-- The fields allocated by `init_gauss_legendre_q` (`src/common.c:318-321`) and `init_gauss_legendre_mu` (`src/common.c:356-359`). -/
def Tab.allocated (T : Tab) : List String := if T.isMu then ["muref", "wref", "mu", "w"] else ["x", "q", "w", "pk"]

/-- The fields released by `free_gauss_legendre_q` (`src/common.c:343-346`) and `free_gauss_legendre_mu` (`src/common.c:384-387`). -/
def Tab.released (T : Tab) : List String := if T.isMu then ["muref", "wref", "mu", "w"] else ["x", "q", "w", "pk"]

/-- The allocations of an initialisation by thread `th`. -/
def Tab.allocs (T : Tab) (th : ℕ) : List Act := T.allocated.map fun f => .alloc (.tab th T f)

/-- The releases by thread `th`. -/
def Tab.frees (T : Tab) (th : ℕ) : List Act := T.released.map fun f => .free (.tab th T f)

/-! ## Accesses -/

/-- Pieces of numerical code: an access, or a call of `interpol_poly` (`src/common.c:117-154`) with any accesses to its two arrays in
between (the accesses to the interpolated table are separate). -/
inductive Ev
  | touch (v : Var)
  | interp (us : List Bool)

/-- Their actions. -/
def Ev.acts (th : ℕ) : Ev → List Act
  | touch v => [.use v]
  | interp us => [.alloc (.scratch th false), .alloc (.scratch th true)] ++ us.map (fun b => .use (.scratch th b)) ++
      [.free (.scratch th false), .free (.scratch th true)]

/-- Code of thread `th` that reaches only the variables `A`. -/
def Body (th : ℕ) (A : Var → Prop) (l : List Act) : Prop := ∃ evs : List Ev, (∀ v, .touch v ∈ evs → A v) ∧ l = evs.flatMap (Ev.acts th)

/-- What filling a table reaches: the table, and the linear spectrum (`src/common.c:310-313`, `src/common.c:330`). -/
def Tab.fillVars (T : Tab) (th : ℕ) (v : Var) : Prop := (∃ f ∈ T.allocated, v = .tab th T f) ∨ v = .lin "k" ∨ v = .lin "pk"

/-! ## The runs -/

namespace RunKind

/-- The tables initialised at the start of the parallel region, in order: `src/spectrum_1loop.c:84-85` (`src/gamma1_1loop.c:79`,
`src/calc_pkcorr_from_gamma2.c:98-99`), `src/spectrum_2loop.c:78-82` (`src/gamma1_2loop.c:145`, `src/gamma2d_1loop.c:1904`,
`src/gamma2t_1loop.c:1881`), `src/spectrum_bias_1loop.c:94` (`src/calc_pkcorr_from_bias_1loop.c:45-46`), `src/spectrum_A_1loop.c:55`
(`src/calc_pkcorr_from_A_1loop.c:99-100`), `src/spectrum_A_2loop.c:54` (`src/calc_pkcorr_from_A_2loop_I.c:81-83`,
`src/bispectrum_1loop.c:85-87`), `src/spectrum_B.c:120` (`src/calc_pkcorr_from_B.c:71-72`). -/
def inits : RunKind → List Tab
  | s1 => [.gamma1_1loop, .gamma2_q, .gamma2_mu]
  | s2 => [.gamma1_1loop, .gamma1_2loop, .gamma2_q, .gamma2_mu, .gamma2d, .gamma2t]
  | bias => [.bias_q, .bias_mu]
  | a1 => [.A1_q, .A1_mu]
  | a2 => [.A2_q, .A2_mu, .gamma1_1loop, .gamma2d, .gamma2t]
  | b => [.B_q, .B_mu]

/-- The tables released at the end of the parallel region, in order: `src/spectrum_1loop.c:97-98`, `src/spectrum_2loop.c:92-96`,
`src/spectrum_bias_1loop.c:111`, `src/spectrum_A_1loop.c:64`, `src/spectrum_A_2loop.c:71` (`src/calc_pkcorr_from_A_2loop_I.c:88-90`,
`src/bispectrum_1loop.c:92-94`), `src/spectrum_B.c:138` (`src/calc_pkcorr_from_B.c:77-78`). -/
def frees : RunKind → List Tab
  | s1 => [.gamma1_1loop, .gamma2_q, .gamma2_mu]
  | s2 => [.gamma1_1loop, .gamma1_2loop, .gamma2_q, .gamma2_mu, .gamma2d, .gamma2t]
  | bias => [.bias_q, .bias_mu]
  | a1 => [.A1_q, .A1_mu]
  | a2 => [.A2_q, .A2_mu, .gamma1_1loop, .gamma2d, .gamma2t]
  | b => [.B_q, .B_mu]

/-- The tables reached by the calculations of the parallel loop: `gamma1_1loop`, `calc_pk_gamma2_tree` (`src/spectrum_1loop.c:89-93`);
`calc_pk_gamma1_2loop` (`src/calc_pkcorr_from_gamma1.c:20-38`), `calc_pk_gamma2_1loop` (`src/calc_pkcorr_from_gamma2.c:120-157`, with
`gamma2d_1loop` and `gamma2t_1loop` in its kernel); `calc_pk_bias_1loop`; `calc_pk_A_1loop`; `calc_pk_A_2loop_I` (with
`bispectrum_1loop_I`, `src/bispectrum_1loop.c:98-143`); `calc_pk_B`. -/
def reached : RunKind → List Tab
  | s1 => [.gamma1_1loop, .gamma2_q, .gamma2_mu]
  | s2 => [.gamma1_1loop, .gamma1_2loop, .gamma2_q, .gamma2_mu, .gamma2d, .gamma2t]
  | bias => [.bias_q, .bias_mu]
  | a1 => [.A1_q, .A1_mu]
  | a2 => [.A2_q, .A2_mu, .gamma1_1loop, .gamma2d, .gamma2t]
  | b => [.B_q, .B_mu]

/-- The term arrays (`src/spectrum_1loop.c:40-54`, `src/spectrum_2loop.c:39-58`, `src/spectrum_bias_1loop.c:61-74`,
`src/spectrum_A_1loop.c:29-41`, `src/spectrum_A_2loop.c:27-39`, `src/spectrum_B.c:43-55`). -/
def arrays : RunKind → List String
  | s1 => ["k", "pk_lin", "sigmad2", "gamma1a_1loop", "gamma1b_1loop", "pk_gamma2_tree_tree"]
  | s2 => ["k", "pk_lin", "sigmad2", "gamma1a_1loop", "gamma1a_2loop", "gamma1b_1loop", "gamma1b_2loop", "pk_gamma2_tree_tree",
      "pk_gamma2_tree_1loop", "pk_gamma2_1loop_1loop", "pk_gamma3_tree"]
  | bias => ["k", "pk_lin", "sigmad2", "pk_b2d", "pk_bs2d", "pk_b2t", "pk_bs2t", "pk_b22", "pk_b2s2", "pk_bs22", "sigma3sq"]
  | a1 => ["k", "pk_lin", "sigmad2", "A"]
  | a2 => ["k", "pk_lin", "sigmad2", "A"]
  | b => ["k", "pk_lin", "sigmad2", "B"]

/-- The shared arrays a run reaches: the linear spectrum, its term arrays and, for the B term, the two spectra (whose copies in
`src/calc_pkcorr_from_B.c:13` are not distinguished from the originals here). -/
def shared (r : RunKind) (v : Var) : Prop :=
  v = .lin "k" ∨ v = .lin "pk" ∨ (∃ f ∈ r.arrays, v = .terms r f) ∨
    (r = b ∧ (v = .dt "k" ∨ v = .dt "pk" ∨ v = .tt "k" ∨ v = .tt "pk"))

/-- Assignments to static variables that are not private to a thread, made by every thread in the parallel region:
`src/calc_pkcorr_from_B.c:69-70`. -/
def assigns : RunKind → List Act
  | b => [.assign .kernelB]
  | _ => []

/-- What the loop of a parallel region reaches. -/
def loopVars (r : RunKind) (th : ℕ) (v : Var) : Prop := (∃ T ∈ r.reached, ∃ f ∈ T.allocated, v = .tab th T f) ∨ r.shared v

/-- The actions of thread `th` in the parallel region (`src/spectrum_1loop.c:82-100`, `src/spectrum_2loop.c:76-98`,
`src/spectrum_bias_1loop.c:92-113`, `src/spectrum_A_1loop.c:53-66`, `src/spectrum_A_2loop.c:52-73`, `src/spectrum_B.c:118-140`). -/
def ThreadTrace (r : RunKind) (th : ℕ) (l : List Act) : Prop :=
  ∃ (fill : Tab → List Act) (loop : List Act), (∀ T, Body th (T.fillVars th) (fill T)) ∧ Body th (r.loopVars th) loop ∧
    l = r.assigns ++ (r.inits.flatMap fun T => T.allocs th ++ fill T) ++ loop ++ r.frees.flatMap fun T => T.frees th

/-- An interleaving of the actions of `m` threads. -/
def _root_.Verif.Interleaving (m : ℕ) (progs : ℕ → List Act) (l : List (ℕ × Act)) : Prop :=
  (∀ x ∈ l, x.1 < m) ∧ ∀ th < m, (l.filter fun x => x.1 = th).map Prod.snd = progs th

/-- The actions of a whole run with `m` threads: lookups by the main thread (`src/spectrum_1loop.c:80-81` and the like), the parallel
region, and for the two-loop runs the integrations by the main thread after it (`src/spectrum_2loop.c:99-104`,
`src/spectrum_A_2loop.c:74-85`).  Accesses after the region are allowed for every kind of run, which covers the output of the terms for
debugging (`src/spectrum_1loop.c:102`). -/
def Trace (r : RunKind) (m : ℕ) (l : List Act) : Prop :=
  ∃ (pre post : List Act) (progs : ℕ → List Act) (par : List (ℕ × Act)), Body 0 r.shared pre ∧ (∀ th < m, r.ThreadTrace th (progs th)) ∧
    Interleaving m progs par ∧ Body 0 r.shared post ∧ l = pre ++ par.map Prod.snd ++ post

/-- The arrays allocated by `run_spectrum_1loop` (`src/spectrum_1loop.c:132`). -/
def callocs : List Act := ["pk_lin", "sigmad2", "gamma1a_1loop", "gamma1b_1loop", "pk_gamma2_tree_tree"].map fun f => .alloc (.terms s1 f)

/-- The arrays released by `free_terms_spectrum_1loop` (`src/spectrum_1loop.c:56-63`). -/
def freeTerms : List Act := ["pk_lin", "sigmad2", "gamma1a_1loop", "gamma1b_1loop", "pk_gamma2_tree_tree"].map fun f => .free (.terms s1 f)

/-- `run_spectrum_1loop` (`src/spectrum_1loop.c:127-136`) for the spectrum whose modes are those of the linear spectrum and whose values
go to `out` (as called at `src/spectrum_B.c:83-84` and `src/spectrum_B.c:90-91`). -/
def SpectrumTrace (m : ℕ) (out : Var) (l : List Act) : Prop :=
  ∃ run asm : List Act, Trace s1 m run ∧ Body 0 (fun v => s1.shared v ∨ v = out) asm ∧
    l = callocs ++ [.copy (.terms s1 "k") (.lin "k")] ++ run ++ asm ++ freeTerms

/-- `run_terms_B` when a spectrum is missing (`src/spectrum_B.c:100-143` with `run_spectra_B_1loop`, `src/spectrum_B.c:75-92`, and
`free_spectra_B`, `src/spectrum_B.c:94-98`). -/
def FallbackTrace (m : ℕ) (l : List Act) : Prop :=
  ∃ (pre s1dt s1tt debug : List Act) (progs : ℕ → List Act) (par : List (ℕ × Act)),
    Body 0 (fun v => v = .lin "k" ∨ v = .lin "pk" ∨ v = .terms b "k" ∨ v = .terms b "pk_lin" ∨ v = .terms b "sigmad2") pre ∧
    SpectrumTrace m (.dt "pk") s1dt ∧ SpectrumTrace m (.tt "pk") s1tt ∧ Body 0 b.shared debug ∧ (∀ th < m, b.ThreadTrace th (progs th)) ∧
    Interleaving m progs par ∧
    l = pre ++ ([.copy (.dt "k") (.lin "k"), .alloc (.dt "pk")] ++ s1dt ++ [.copy (.tt "k") (.lin "k"), .alloc (.tt "pk")] ++ s1tt) ++ debug ++
      par.map Prod.snd ++ [.free (.dt "pk"), .free (.tt "pk")]

end RunKind

end Verif
