import Verif.Model.Driver
import Verif.Model.Settings

/-!
# Histories of calls that set the spectrum, set precisions and run terms
-/

namespace Verif

noncomputable section

/-- The settings and the linear spectrum of the library (`src/define.h:104-105`, `Verif.Model.Config`). -/
structure LibState where
  cfg : Cfg ℝ
  t : Pk ℝ

/-- A call: `set_pk_lin` (`pyregpt/pyregpt.py:259-264`), `set_precision` (`pyregpt/pyregpt.py:266-311`) or one of the runs.  A run
carries the outcomes `rt` of the root search, the requested modes `ks`, the schedule `es` and the arrays `μ` of its object. -/
inductive LibCall
  | setPkLin (t : Pk ℝ)
  | setPrec (name : String) (a : Args ℝ)
  | run1 (rt : ℕ → ℕ → ℝ × ℝ) (ks : List ℝ) (a b : Field) (es : List Event) (μ : Mem)
  | run2 (cuba : Cuba ℝ) (rt : ℕ → ℕ → ℝ × ℝ) (ks : List ℝ) (a b : Field) (es : List Event) (μ : Mem)
  | runBias (rt : ℕ → ℕ → ℝ × ℝ) (ks : List ℝ) (es : List Event) (μ : Mem)
  | runA1 (rt : ℕ → ℕ → ℝ × ℝ) (ks : List ℝ) (es : List Event) (μ : Mem)
  | runA2 (cuba : Cuba (Fin 12 → ℝ)) (rt : ℕ → ℕ → ℝ × ℝ) (ks : List ℝ) (es : List Event) (μ : Mem)
  | runB (dt tt : Pk ℝ) (rt : ℕ → ℕ → ℝ × ℝ) (ks : List ℝ) (es : List Event) (μ : Mem)

/-- The state after a call.  An exception leaves the settings made before it. -/
def LibState.step (s : LibState) : LibCall → Res LibState
  | .setPkLin t => .ok { s with t := t }
  | .setPrec name a => match pySetPrec name a s.cfg with
    | .done c => .ok { s with cfg := c }
    | .raised _ c => .ok { s with cfg := c }
    | .ub w => .ub w
  | .run1 rt ks a b es μ => do
    let _ ← runTerms1 ⟨s.cfg, rt, s.t, ks⟩ a b es μ
    .ok s
  | .run2 cuba rt ks a b es μ => do
    let r ← runTerms2 cuba ⟨s.cfg, rt, s.t, ks⟩ a b es μ
    .ok { s with cfg := r.1 }
  | .runBias rt ks es μ => do
    let _ ← runTermsBias ⟨s.cfg, rt, s.t, ks⟩ es μ
    .ok s
  | .runA1 rt ks es μ => do
    let _ ← runTermsA1 ⟨s.cfg, rt, s.t, ks⟩ es μ
    .ok s
  | .runA2 cuba rt ks es μ => do
    let r ← runTermsA2 cuba ⟨s.cfg, rt, s.t, ks⟩ es μ
    .ok { s with cfg := r.1 }
  | .runB dt tt rt ks es μ => do
    let _ ← runTermsB ⟨s.cfg, rt, s.t, ks⟩ dt tt es μ
    .ok s

/-- The state after a list of calls. -/
def LibState.exec : LibState → List LibCall → Res LibState
  | s, [] => .ok s
  | s, c :: h => do
    let s ← s.step c
    s.exec h

end

end Verif
