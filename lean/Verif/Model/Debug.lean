import Verif.Model.Library

/-!
# Debugging output: files written by the runs, the exit of the process, elapsed times

With verbosity `DEBUG` some runs write files into the working directory.  If a file cannot be opened the process ends.  Numbers are kept
as they are; their rounding to six decimals by `%f` is not modelled.
-/

namespace Verif

/-- Outcome of a C call within a process: it returns, having written files (name and columns); it ends the process; or its behaviour is
undefined. -/
inductive Proc (α β : Type)
  | done (b : β) (files : List (String × List (List α)))
  | exit (code : ℕ)
  | ub (why : String)
deriving DecidableEq

namespace Proc

variable {α β γ : Type}

/-- Sequencing: files accumulate. -/
def bind (r : Proc α β) (f : β → Proc α γ) : Proc α γ :=
  match r with
  | done b fs =>
    match f b with
    | done c gs => done c (fs ++ gs)
    | exit n => exit n
    | ub w => ub w
  | exit n => exit n
  | ub w => ub w

/-- A call that writes no file. -/
def ofRes (r : Res β) : Proc α β :=
  match r with
  | .ok b => done b []
  | .ub w => ub w

/-- What the call returns, if it returns. -/
def state? (r : Proc α β) : Option β :=
  match r with
  | done b _ => some b
  | _ => none

end Proc

namespace CState

variable {α : Type}

/-- `write_terms_spectrum_1loop`, `write_terms_spectrum_2loop`, `write_spectra_B` (`src/spectrum_1loop.c:27-38`,
`src/spectrum_2loop.c:26-37`, `src/spectrum_B.c:30-41`): row `ik < n` holds element `ik` of every array; here the columns.  When `fopen`
fails, `error_open_file` calls `exit(1)` (`src/common.c:446-452`).  `w`: the file can be opened. -/
def writeFile (w : Bool) (s : CState α) (fn : String) (n : ℕ) (ps : List (Option ℕ)) : Proc α (CState α) :=
  if w then
    match ps.mapM fun p => s.arr p n with
    | .ok cols => .done s [(fn, cols)]
    | .ub e => .ub e
  else .exit 1

/-- `if (verbose == DEBUG) write_terms_spectrum_*loop("debug_terms_spectrum_*loop.dat")` (`src/spectrum_1loop.c:102`,
`src/spectrum_2loop.c:106`): `k` and all arrays after `pk_lin` and `sigmad2`.  The other runs write nothing here. -/
def debugTerms (w : Bool) (sl : Slot) (s : CState α) : Proc α (CState α) :=
  let t := s.terms sl
  if s.verb = .debug then
    match sl with
    | .s1 => s.writeFile w "debug_terms_spectrum_1loop.dat" t.nk (t.k :: (t.cols.drop 2).map some)
    | .s2 => s.writeFile w "debug_terms_spectrum_2loop.dat" t.nk (t.k :: (t.cols.drop 2).map some)
    | _ => .done s []
  else .done s []

/-- `if (verbose == DEBUG) write_spectra_B("debug_spectra_B.dat")` (`src/spectrum_B.c:117`): the number of rows is that of `pk_dt`. -/
def debugB (w : Bool) (s : CState α) : Proc α (CState α) :=
  if s.verb = .debug then s.writeFile w "debug_spectra_B.dat" s.dt.nk [s.dt.k, s.dt.pk, s.tt.pk] else .done s []

/-- `run_spectrum_1loop` (`CState.runSpectrum1`, `src/spectrum_1loop.c:127-136`) with the file of its `run_terms_spectrum_1loop`. -/
def runSpectrum1D (w : Bool) (N : Num α) (a b : Field) (p : CPk) (s : CState α) : Proc α (CState α) :=
  let r := s.allocs (List.replicate 5 (List.replicate p.nk N.zero))
  (Proc.ofRes (r.1.setTerms .s1 p.nk p.k r.2)).bind fun s =>
  let s := s.say "*** Calculation of power spectrum at 1 loop"
  (Proc.ofRes (s.runCore N .s1 a b)).bind fun s =>
  (s.debugTerms w .s1).bind fun s =>
  Proc.ofRes do
    let ks ← s.arr p.k p.nk
    let cs ← r.2.mapM fun a => s.arr (some a) p.nk
    let s ← s.storeAt p.pk (N.asm ks cs)
    s.frees r.2

/-- `run_terms_B` (`CState.runB`, `src/spectrum_B.c:100-143`) with its file and those of `run_spectra_B_1loop`.  The file is written
before the parallel region, which is here part of `runCore`; the lookup and the dispersion, which come before the file, too. -/
def runBD (w : Bool) (N : Num α) (s : CState α) : Proc α (CState α) :=
  let s := s.say "*** Calculation of B term"
  if s.dt.nk = 0 ∨ s.tt.nk = 0 then
    let d := s.alloc (List.replicate s.lin.nk N.zero)
    let s := { d.1 with dt := ⟨d.1.lin.nk, d.1.lin.k, some d.2⟩ }
    (s.runSpectrum1D w N .delta .theta s.dt).bind fun s =>
    let e := s.alloc (List.replicate s.lin.nk N.zero)
    let s := { e.1 with tt := ⟨e.1.lin.nk, e.1.lin.k, some e.2⟩ }
    (s.runSpectrum1D w N .theta .theta s.tt).bind fun s =>
    (s.debugB w).bind fun s =>
    Proc.ofRes do
      let s ← s.runCore N .b .delta .delta
      let s ← s.free d.2
      s.free e.2
  else (s.debugB w).bind fun s => Proc.ofRes (s.runCore N .b .delta .delta)

/-- `run_terms_*` with the files written. -/
def runD (w : Bool) (N : Num α) (sl : Slot) (a b : Field) (s : CState α) : Proc α (CState α) :=
  if sl = .b then s.runBD w N
  else (Proc.ofRes ((s.say "*** Calculation").runCore N sl a b)).bind fun s => s.debugTerms w sl

end CState

/-- The three numbers printed by `timer` for `diff` seconds (`src/common.c:426-427`); `_HAVE_OMP` is defined nowhere.  C division of
`int` truncates. -/
def timerHMS (diff : ℤ) : ℤ × ℤ × ℤ := (diff.tdiv 3600, (diff.tdiv 60).tmod 60, diff.tmod 60)

end Verif
