import Verif.Model.Driver

/-!
# The library as a state machine: shared C state, heap arrays, Python objects

All objects of `pyregpt/pyregpt.py` load the same shared library (`pyregpt/pyregpt.py:194,199`), so there is one C state for all of
them.  Arrays live at addresses (numbers); an address is never used twice.  Reading or storing through a dangling or missing pointer is
undefined behaviour.  The numerical content of a run is a parameter (`Num`); `driverNum` is the one of `Verif.Model.Driver`.  Precision
settings are part of that parameter: their calls change nothing in the state below (see `Verif.Model.Settings`).
-/

namespace Verif

/-- `VERBOSITY` (`src/define.h:17`). -/
inductive Verb
  | quiet | info | debug
deriving DecidableEq

/-- The file-scope structures `terms_*`: `src/spectrum_1loop.c:14`, `src/spectrum_2loop.c:14`, `src/spectrum_bias_1loop.c:15`,
`src/spectrum_A_1loop.c:17`, `src/spectrum_A_2loop.c:15`, `src/spectrum_B.c:15`. -/
inductive Slot
  | s1 | s2 | bias | a1 | a2 | b
deriving DecidableEq

/-- `Pk` with its pointers (`src/define.h:45-49`); `none` is the null pointer. -/
structure CPk where
  nk : ℕ
  k : Option ℕ
  pk : Option ℕ
deriving DecidableEq

/-- A `terms_*` structure (`src/define.h:51-105`): number of modes, the array `k`, the arrays of the following fields. -/
structure CTerms where
  nk : ℕ
  k : Option ℕ
  cols : List ℕ
deriving DecidableEq

/-- The C state: `verbose`, what was printed, `pk_lin` (`src/define.c:6-7`), `pk_dt`, `pk_tt` (`src/spectrum_B.c:16-17`), the
`terms_*` structures, the heap (`none`: not allocated or freed) and the next fresh address. -/
structure CState (α : Type) where
  verb : Verb
  out : List String
  lin : CPk
  dt : CPk
  tt : CPk
  terms : Slot → CTerms
  mem : ℕ → Option (List α)
  next : ℕ

/-- Numerical content of the calls, for fixed settings: columns after `k` computed by a run from the linear spectrum, `pk_dt`,
`pk_tt` and the requested modes; the one-loop spectrum assembled from its terms; the lookup `find_pk_lin`. -/
structure Num (α : Type) where
  zero : α
  run : Slot → Field → Field → Pk α → Pk α → Pk α → List α → Res (List (List α))
  asm : List α → List (List α) → List α
  look : Pk α → List α → Res (List α)

/-- Names the undefined behaviour of `r`. -/
def Res.tag {β : Type} (r : Res β) (w : String) : Res β :=
  match r with
  | .ok b => .ok b
  | .ub _ => .ub w

/-- `set_flag` (`src/regpt.c:64-69`). -/
def setFlag (flag : String) : Field :=
  if flag = "delta" then .delta else if flag = "theta" then .theta else .delta

namespace CState

variable {α : Type}

/-- `calloc`, `malloc` or a NumPy allocation with contents `l`. -/
def alloc (s : CState α) (l : List α) : CState α × ℕ :=
  ({ s with mem := Function.update s.mem s.next (some l), next := s.next + 1 }, s.next)

/-- Several allocations. -/
def allocs (s : CState α) : List (List α) → CState α × List ℕ
  | [] => (s, [])
  | l :: ls =>
    let r := (s.alloc l).1.allocs ls
    (r.1, (s.alloc l).2 :: r.2)

/-- `free`. -/
def free (s : CState α) (a : ℕ) : Res (CState α) :=
  match s.mem a with
  | none => .ub "double free"
  | some _ => .ok { s with mem := Function.update s.mem a none }

/-- Several calls of `free`. -/
def frees (s : CState α) : List ℕ → Res (CState α)
  | [] => .ok s
  | a :: as => do
    let s ← s.free a
    s.frees as

/-- The array behind a pointer. -/
def raw (s : CState α) : Option ℕ → Res (List α)
  | none => .ub "null pointer"
  | some a =>
    match s.mem a with
    | none => .ub "freed memory"
    | some l => .ok l

/-- The first `n` elements behind a pointer; nothing is read for `n = 0`. -/
def arr (s : CState α) (p : Option ℕ) (n : ℕ) : Res (List α) :=
  if n = 0 then .ok []
  else do
    let l ← s.raw p
    if n ≤ l.length then .ok (l.take n) else .ub "out of bounds read"

/-- The table behind a `Pk`.  A run is taken to read all of it. -/
def pkv (s : CState α) (p : CPk) : Res (Pk α) := do
  let k ← s.arr p.k p.nk
  let v ← s.arr p.pk p.nk
  .ok ⟨p.nk, k, v⟩

/-- Stores `l` from the start of the array at `a`. -/
def store (s : CState α) (a : ℕ) (l : List α) : Res (CState α) :=
  match s.mem a with
  | none => .ub "store to freed memory"
  | some l0 =>
    if l.length ≤ l0.length then .ok { s with mem := Function.update s.mem a (some (l ++ l0.drop l.length)) }
    else .ub "out of bounds write"

/-- Stores the columns of a run. -/
def storeAll (s : CState α) : List ℕ → List (List α) → Res (CState α)
  | [], [] => .ok s
  | a :: as, l :: ls => do
    let s ← s.store a l
    s.storeAll as ls
  | _, _ => .ub "missing column"

/-- `if (verbose == INFO) printf(...)`. -/
def say (s : CState α) (msg : String) : CState α := if s.verb = .info then { s with out := s.out ++ [msg] } else s

/-- `set_verbosity` (`src/regpt.c:25-30`). -/
def setVerbosity (s : CState α) (mode : String) : CState α :=
  let s := if mode = "quiet" then { s with verb := .quiet } else s
  let s := if mode = "info" then { s with verb := .info } else s
  if mode = "debug" then { s with verb := .debug } else s

/-- `if (verbose == INFO) print_k(k,nk)`, also the range line of `print_pk_lin`: reads `k[0]` and `k[nk-1]` (`src/regpt.c:32-44`). -/
def printK (s : CState α) (p : Option ℕ) (nk : ℕ) : Res (CState α) :=
  if s.verb = .info then do
    let l ← s.raw p
    let _ ← rd l 0
    let _ ← rd l (subSize nk 1)
    .ok (s.say "range")
  else .ok s

/-- `set_pk_lin` (`src/regpt.c:71-80`). -/
def setPkLin (s : CState α) (k pk : Option ℕ) (nk : ℕ) : Res (CState α) :=
  let s := { s with lin := ⟨nk, k, pk⟩ }
  s.printK k nk

/-- `set_terms_*` (`src/spectrum_1loop.c:40-54`, `src/spectrum_2loop.c:39-58`, `src/spectrum_bias_1loop.c:61-80`,
`src/spectrum_A_1loop.c:29-41`, `src/spectrum_A_2loop.c:27-39`, `src/spectrum_B.c:43-55`). -/
def setTerms (s : CState α) (sl : Slot) (nk : ℕ) (k : Option ℕ) (cols : List ℕ) : Res (CState α) :=
  let s := { s with terms := Function.update s.terms sl ⟨nk, k, cols⟩ }
  s.printK k nk

/-- `set_spectra_B` (`src/spectrum_B.c:57-73`); the first condition contains the assignment `b=THETA`. -/
def setSpectraB (s : CState α) (a_ b_ : String) (nk : ℕ) (k pk : Option ℕ) : CState α :=
  let pk_ab : CPk := ⟨nk, k, pk⟩
  let a := setFlag a_
  let b := setFlag b_
  let b' := if a = .delta then .theta else b
  let s := if (a = .delta ∧ b' ≠ .delta) ∨ (a = .theta ∧ b' = .delta) then { s.say " - setting P_delta_theta" with dt := pk_ab } else s
  if a = .theta ∧ b' = .theta then { s.say " - setting P_theta_theta" with tt := pk_ab } else s

/-- The spectra `pk_dt`, `pk_tt` read by `calc_pk_B` only (`src/calc_pkcorr_from_B.c:67-73,93-121`). -/
def bSpectrum (s : CState α) (sl : Slot) (p : CPk) : Res (Pk α) :=
  if sl = .b then (s.pkv p).tag "B spectrum" else .ok ⟨0, [], []⟩

/-- Stores through a pointer. -/
def storeAt (s : CState α) (p : Option ℕ) (l : List α) : Res (CState α) :=
  match p with
  | none => .ub "null pointer"
  | some a => s.store a l

/-- The part of `run_terms_*` between the messages: lookup, dispersion and parallel region (`Verif.Model.Driver`), for the spectra
and arrays the pointers lead to. -/
def runCore (N : Num α) (sl : Slot) (a b : Field) (s : CState α) : Res (CState α) := do
  let t := s.terms sl
  let ks ← s.arr t.k t.nk
  let lin ← s.pkv s.lin
  let dt ← s.bSpectrum sl s.dt
  let tt ← s.bSpectrum sl s.tt
  let r ← N.run sl a b lin dt tt ks
  s.storeAll t.cols r

/-- `set_spectrum_1loop` then `run_spectrum_1loop` (`src/spectrum_1loop.c:120-136`): five temporary arrays, terms, spectrum into
`p.pk`, five calls of `free`. -/
def runSpectrum1 (N : Num α) (a b : Field) (p : CPk) (s : CState α) : Res (CState α) := do
  let r := s.allocs (List.replicate 5 (List.replicate p.nk N.zero))
  let s ← r.1.setTerms .s1 p.nk p.k r.2
  let s := s.say "*** Calculation of power spectrum at 1 loop"
  let s ← s.runCore N .s1 a b
  let ks ← s.arr p.k p.nk
  let cs ← r.2.mapM fun a => s.arr (some a) p.nk
  let s ← s.storeAt p.pk (N.asm ks cs)
  s.frees r.2

/-- `run_terms_B` (`src/spectrum_B.c:100-143`), with `run_spectra_B_1loop` (`src/spectrum_B.c:75-92`) when a spectrum is missing and
`free_spectra_B` (`src/spectrum_B.c:94-98`) afterwards, which leaves `nk` as it is. -/
def runB (N : Num α) (s : CState α) : Res (CState α) := do
  let s := s.say "*** Calculation of B term"
  if s.dt.nk = 0 ∨ s.tt.nk = 0 then do
    let d := s.alloc (List.replicate s.lin.nk N.zero)
    let s := { d.1 with dt := ⟨d.1.lin.nk, d.1.lin.k, some d.2⟩ }
    let s ← s.runSpectrum1 N .delta .theta s.dt
    let e := s.alloc (List.replicate s.lin.nk N.zero)
    let s := { e.1 with tt := ⟨e.1.lin.nk, e.1.lin.k, some e.2⟩ }
    let s ← s.runSpectrum1 N .theta .theta s.tt
    let s ← s.runCore N .b .delta .delta
    let s ← s.free d.2
    s.free e.2
  else s.runCore N .b .delta .delta

/-- `run_terms_*`; the fields are used by the one- and two-loop spectra only. -/
def run (N : Num α) (sl : Slot) (a b : Field) (s : CState α) : Res (CState α) :=
  if sl = .b then s.runB N else (s.say "*** Calculation").runCore N sl a b

/-- `find_pk_lin` called from Python (`src/common.c:207-210` through `pyregpt/pyregpt.py:227-235`): looks the modes up in
`pk_lin`. -/
def lookup (N : Num α) (s : CState α) (ks : List α) : Res (List α) := do
  let lin ← s.pkv s.lin
  N.look lin ks

end CState

/-- The classes deriving from `PyRegPT` (`pyregpt/pyregpt.py:340-608`). -/
inductive Kind
  | s1 | s2 | bias | a1 | a2 | b1 | b2
deriving DecidableEq

/-- Which `terms_*` structure the calls of a class use. -/
def Kind.slot : Kind → Slot
  | .s1 => .s1
  | .s2 => .s2
  | .bias => .bias
  | .a1 => .a1
  | .a2 => .a2
  | .b1 => .b
  | .b2 => .b

/-- Class attributes. -/
def Kind.cls : Kind → PyClass
  | .s1 => cls1
  | .s2 => cls2
  | .bias => clsBias
  | .a1 => clsA
  | .a2 => clsA
  | .b1 => clsB
  | .b2 => clsB

/-- Number of components of the columns after `k` (`Terms.zeros`, `pyregpt/pyregpt.py:117-122`). -/
def Kind.widths (κ : Kind) : List ℕ := κ.cls.fields.tail.map fun f => (κ.cls.shape.lookup f).getD 1

/-- A Python object: class, dictionary `self.columns`, `self.spectrum_lin` (its arrays `k` and `pk`). -/
structure PObj where
  kind : Kind
  dict : ℕ
  lin : Option (ℕ × ℕ)
deriving DecidableEq

/-- Everything: the C state, the dictionaries (arrays in the order of `FIELDS`; `[]` before `set_terms`), the objects (`none` once
deleted), the arrays the caller holds. -/
structure World (α : Type) where
  c : CState α
  dicts : List (List ℕ)
  objs : List (Option PObj)
  vars : List ℕ

/-- The state when the library is first loaded: `verbose` is zero-initialised to `QUIET` (`src/define.c:6`, `src/define.h:17`). -/
def World.start (α : Type) : World α :=
  ⟨⟨.quiet, [], ⟨0, none, none⟩, ⟨0, none, none⟩, ⟨0, none, none⟩, fun _ => ⟨0, none, []⟩, fun _ => none, 0⟩, [], [], []⟩

namespace World

variable {α : Type}

/-- A live object. -/
def obj (w : World α) (i : ℕ) : Option PObj := (w.objs[i]?).join

/-- The arrays of a dictionary. -/
def dict (w : World α) (d : ℕ) : List ℕ := w.dicts.getD d []

/-- The array at an address can be reached from a Python name. -/
def reach (w : World α) (a : ℕ) : Bool :=
  w.vars.contains a || w.objs.any fun o =>
    match o with
    | none => false
    | some o => (w.dict o.dict).contains a || match o.lin with
      | none => false
      | some (k, p) => a == k || a == p

/-- `PyRegPT.__init__` (`pyregpt/pyregpt.py:196-200`): a fresh object has no attribute `_verbose`, so `set_verbosity('info')` is
called. -/
def newObj (κ : Kind) (w : World α) : World α :=
  { w with c := w.c.setVerbosity "info", dicts := w.dicts ++ [[]], objs := w.objs ++ [some ⟨κ, w.dicts.length, none⟩] }

/-- `set_spectrum_lin` (`pyregpt/pyregpt.py:252-257`): the arrays are kept as they are.  Arrays of different lengths are refused by
the argument check of `ctypes`, after the attribute was set. -/
def setSpectrumLin (w : World α) (i : ℕ) (o : PObj) (k p : ℕ) : Res (World α) :=
  let w := { w with objs := w.objs.set i (some { o with lin := some (k, p) }) }
  match w.c.mem k, w.c.mem p with
  | some lk, some lp =>
    if lk.length = lp.length then do
      let c ← w.c.setPkLin (some k) (some p) lk.length
      .ok { w with c := c }
    else .ok w
  | _, _ => .ok w

/-- `set_pk_lin` (`pyregpt/pyregpt.py:259-264`): copies of both arrays. -/
def setPkLin (w : World α) (i : ℕ) (o : PObj) (lk lp : List α) : Res (World α) :=
  let rk := w.c.alloc lk
  let rp := rk.1.alloc lp
  { w with c := rp.1 }.setSpectrumLin i o rk.2 rp.2

/-- `set_terms` of every class (`pyregpt/pyregpt.py:345-350`, `379-384`, `459-464`, `494-499`, `522-528`, `550-556`) with `zeros`
(`pyregpt/pyregpt.py:117-122`): a copy of the modes and fresh columns replace the entries of the dictionary. -/
def setTerms (N : Num α) (w : World α) (o : PObj) (l : List α) : Res (World α) := do
  let rk := w.c.alloc l
  let rc := rk.1.allocs (o.kind.widths.map fun m => List.replicate (l.length * m) N.zero)
  let w := { w with c := rc.1, dicts := w.dicts.set o.dict (rk.2 :: rc.2) }
  let c ← w.c.setTerms o.kind.slot l.length (some rk.2) rc.2
  .ok { w with c := c }

/-- `set_spectra_B` for both spectra, then `run_terms_B` (`pyregpt/pyregpt.py:560-565`, `598-608`); `d`, `t` are the arrays of the two
spectra.  Arrays of another length than `k` are refused by `ctypes`. -/
def runB (N : Num α) (w : World α) (k d t : ℕ) : Res (World α) :=
  match w.c.mem k, w.c.mem d, w.c.mem t with
  | some lk, some ld, some lt =>
    if ld.length = lk.length ∧ lt.length = lk.length then do
      let c := w.c.setSpectraB "delta" "theta" lk.length (some k) (some d)
      let c := c.setSpectraB "theta" "theta" lk.length (some k) (some t)
      let c ← c.run N .b .delta .delta
      .ok { w with c := c }
    else .ok w
  | _, _, _ => .ok w

/-- A `Spectrum1Loop` built inside `B2Loop.run_terms` (`pyregpt/pyregpt.py:590-592`, `594-596`), and the array of its spectrum
(`pyregpt/pyregpt.py:601-602`, `361-371`). -/
def runSub (N : Num α) (w : World α) (a : Field) (lk : List α) : Res (World α × ℕ) := do
  let o : PObj := ⟨.s1, w.dicts.length, none⟩
  let w := w.newObj .s1
  let w ← w.setTerms N o lk
  let c ← w.c.run N .s1 a .theta
  let cs ← (w.dict o.dict).tail.mapM fun x => c.raw (some x)
  let r := c.alloc (N.asm lk cs)
  .ok ({ w with c := r.1 }, r.2)

/-- `run_terms` of the classes. -/
def runTerms (N : Num α) (w : World α) (o : PObj) (a b : Field) : Res (World α) :=
  match o.kind with
  | .b1 =>
    match o.lin with
    | none => .ok w
    | some (k, p) => w.runB N k p p
  | .b2 =>
    match o.lin with
    | none => .ok w
    | some (k, _) =>
      match w.c.mem k with
      | none => .ok w
      | some lk => do
        let r ← w.runSub N .delta lk
        let r' ← r.1.runSub N .theta lk
        r'.1.runB N k r.2 r'.2
  | κ => do
    let c ← w.c.run N κ.slot a b
    .ok { w with c := c }

/-- `copy` (`pyregpt/pyregpt.py:88-91`): the attributes of the new object are those of the old one. -/
def copy (w : World α) (o : PObj) : World α :=
  { w with c := w.c.setVerbosity "info", objs := w.objs ++ [some o] }

/-- `PyRegPT.deepcopy` (`pyregpt/pyregpt.py:323-326`, `93-97`): fresh copies of all columns and of the linear spectrum.  Without a
linear spectrum it raises after the new object was built. -/
def deepcopy (w : World α) (o : PObj) : World α :=
  let w := { w with c := w.c.setVerbosity "info" }
  match o.lin with
  | none => w
  | some (k, p) =>
    let r := w.c.allocs ((w.dict o.dict).map fun a => (w.c.mem a).getD [])
    let rl := r.1.allocs [(w.c.mem k).getD [], (w.c.mem p).getD []]
    { w with
      c := rl.1, dicts := w.dicts ++ [r.2],
      objs := w.objs ++ [some ⟨o.kind, w.dicts.length, some (rl.2.getD 0 0, rl.2.getD 1 0)⟩] }

end World

/-- What a Python program can do.  `write` is a modification in place of an array that some name leads to; `assign` replaces column
`j` of an object (`obj[name] = array`, also what `pad_k` does); `hold` keeps a reference to an array; `collect` is the release of an
array no name leads to, at any time. -/
inductive PyEvent (α : Type)
  | new (κ : Kind)
  | setPkLin (i : ℕ) (kv pv : ℕ)
  | setSpectrumLin (i : ℕ) (kv pv : ℕ)
  | setTerms (i : ℕ) (kv : ℕ)
  | run (i : ℕ) (a b : Field)
  | lookup (kv : ℕ)
  | copy (i : ℕ)
  | deepcopy (i : ℕ)
  | setVerbosity (mode : String)
  | clear
  | newArr (l : List α)
  | write (a : ℕ) (l : List α)
  | assign (i j : ℕ) (a : ℕ)
  | hold (a : ℕ)
  | drop (a : ℕ)
  | del (i : ℕ)
  | collect (a : ℕ)

namespace World

variable {α : Type}

/-- One event.  Calls on missing objects or arrays raise in Python and change nothing.  `clear` resets the verbosity
(`pyregpt/pyregpt.py:333-337`); its effect on the settings is in `Verif.Model.Settings`. -/
def step (N : Num α) (w : World α) : PyEvent α → Res (World α)
  | .new κ => .ok (w.newObj κ)
  | .setPkLin i kv pv =>
    match w.obj i, w.c.mem kv, w.c.mem pv with
    | some o, some lk, some lp => w.setPkLin i o lk lp
    | _, _, _ => .ok w
  | .setSpectrumLin i kv pv =>
    match w.obj i with
    | some o => if w.reach kv && w.reach pv then w.setSpectrumLin i o kv pv else .ok w
    | none => .ok w
  | .setTerms i kv =>
    match w.obj i, w.c.mem kv with
    | some o, some l => w.setTerms N o l
    | _, _ => .ok w
  | .run i a b =>
    match w.obj i with
    | some o => w.runTerms N o a b
    | none => .ok w
  | .lookup kv =>
    match w.c.mem kv with
    | some l => do
      let r ← w.c.lookup N l
      .ok { w with c := (w.c.alloc r).1, vars := (w.c.alloc r).2 :: w.vars }
    | none => .ok w
  | .copy i =>
    match w.obj i with
    | some o => .ok (w.copy o)
    | none => .ok w
  | .deepcopy i =>
    match w.obj i with
    | some o => .ok (w.deepcopy o)
    | none => .ok w
  | .setVerbosity mode => .ok { w with c := w.c.setVerbosity mode }
  | .clear => .ok { w with c := w.c.setVerbosity "info" }
  | .newArr l => .ok { w with c := (w.c.alloc l).1, vars := (w.c.alloc l).2 :: w.vars }
  | .write a l =>
    match w.c.mem a with
    | some l0 =>
      if w.reach a && l.length == l0.length then .ok { w with c := { w.c with mem := Function.update w.c.mem a (some l) } } else .ok w
    | none => .ok w
  | .assign i j a =>
    match w.obj i with
    | some o => if w.reach a then .ok { w with dicts := w.dicts.set o.dict ((w.dict o.dict).set j a) } else .ok w
    | none => .ok w
  | .hold a => if w.reach a then .ok { w with vars := a :: w.vars } else .ok w
  | .drop a => .ok { w with vars := w.vars.erase a }
  | .del i => .ok { w with objs := w.objs.set i none }
  | .collect a =>
    if w.reach a then .ok w else .ok { w with c := { w.c with mem := Function.update w.c.mem a none } }

/-- A history. -/
def exec (N : Num α) : World α → List (PyEvent α) → Res (World α)
  | w, [] => .ok w
  | w, e :: h => do
    let w ← w.step N e
    w.exec N h

/-- Contents of the columns of an object. -/
def columns (w : World α) (i : ℕ) : Option (List (List α)) :=
  match w.obj i with
  | none => none
  | some o => (w.dict o.dict).mapM w.c.mem

end World

noncomputable section

/-- Arrays filled with zeros, as handed to a run. -/
def zeroCols (κ : Kind) (ks : List ℝ) : Mem
  | 0 => ks.map some
  | j + 1 => List.replicate (ks.length * κ.widths.getD j 0) (some 0)

/-- The columns after `k` as lists. -/
def readCols (κ : Kind) (μ : Mem) : Res (List (List ℝ)) := (List.range κ.widths.length).mapM fun j => (μ (j + 1)).contents

/-- The numerical content of the calls according to `Verif.Model.Driver`, for settings `cfg`, outcomes `rt` of the root search,
cubature routines `q1`, `q2` and schedules `es m n` for `n` rows of `m` results. -/
def driverNum (cfg : Cfg ℝ) (rt : ℕ → ℕ → ℝ × ℝ) (q1 : Cuba ℝ) (q2 : Cuba (Fin 12 → ℝ)) (es : ℕ → ℕ → List Event) : Num ℝ where
  zero := 0
  run sl a b t dt tt ks :=
    match sl with
    | .s1 => do
      let μ ← runTerms1 ⟨cfg, rt, t, ks⟩ a b (es 3 ks.length) (zeroCols .s1 ks)
      readCols .s1 μ
    | .s2 => do
      let μ ← runTerms2 q1 ⟨cfg, rt, t, ks⟩ a b (es 7 ks.length) (zeroCols .s2 ks)
      readCols .s2 μ.2
    | .bias => do
      let μ ← runTermsBias ⟨cfg, rt, t, ks⟩ (es 8 ks.length) (zeroCols .bias ks)
      readCols .bias μ
    | .a1 => do
      let μ ← runTermsA1 ⟨cfg, rt, t, ks⟩ (es 5 ks.length) (zeroCols .a1 ks)
      readCols .a1 μ
    | .a2 => do
      let μ ← runTermsA2 q2 ⟨cfg, rt, t, ks⟩ (es 5 ks.length) (zeroCols .a2 ks)
      readCols .a2 μ.2
    | .b => do
      let μ ← runTermsB ⟨cfg, rt, t, ks⟩ dt tt (es 9 ks.length) (zeroCols .b1 ks)
      readCols .b1 μ
  asm ks cs := (List.range ks.length).map (Terms.pk1 ⟨cls1.fields.zip (ks :: cs)⟩ 1 none)
  look t ks := findPk t ks .poly

end

end Verif
