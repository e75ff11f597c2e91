import Verif.Proofs.Sim
import Mathlib.Algebra.BigOperators.Ring.Finset
import Mathlib.Algebra.Order.BigOperators.Group.Finset

/-!
# The double loop as a rule

A defined execution of `quadLoop` is a weighted sum of values of the integrand; points and weights do not depend on the integrand.
-/

namespace Verif

/-- The outcome of a defined computation (zero otherwise). -/
def Res.val {ι : Type} : Res (ι → ℝ) → ι → ℝ
  | .ok v => v
  | .ub _ => fun _ => 0

theorem rd_eq_ok {l : List ℝ} {i : ℕ} {v : ℝ} (h : rd l i = .ok v) : l.getD i 0 = v ∧ i < l.length := by
  by_cases hi : i < l.length
  · rw [rd_ok hi] at h
    cases h
    exact ⟨by simp [List.getD_eq_getElem?_getD, hi], hi⟩
  · simp [rd, hi] at h

/-- The angular range of node `iq`, if there is one. -/
noncomputable def quadRange (half : Bool) (g : GLQ ℝ) (iq : ℕ) : Option (ℝ × ℝ) :=
  match muRange half g.x g.nq (g.x.getD iq 0) with
  | .ok r => r
  | .ub _ => none

/-- Angle of point `(iq, imu)`. -/
noncomputable def quadMu (half : Bool) (g : GLQ ℝ) (gm : GLMu ℝ) (iq imu : ℕ) : ℝ :=
  match quadRange half g iq with
  | none => 0
  | some (lo, hi) => (updateGLMu gm lo hi).mu.getD imu 0

/-- Weight of point `(iq, imu)`. -/
noncomputable def quadWeight (half : Bool) (g : GLQ ℝ) (gm : GLMu ℝ) (wt : ℝ → ℝ → ℝ) (iq imu : ℕ) : ℝ :=
  match quadRange half g iq with
  | none => 0
  | some (lo, hi) => (updateGLMu gm lo hi).w.getD imu 0 * wt (g.x.getD iq 0) (g.w.getD iq 0)

/-- The inner loop as a sum. -/
theorem muLoop_sum {ι : Type} {gm : GLMu ℝ} {kern : ℝ → Res (ι → ℝ)} {s : ι → ℝ}
    (h : forRange 0 gm.nmu (fun _ : ι => (0 : ℝ)) (fun imu acc => do
        let mu ← rd gm.mu imu
        let kr ← kern mu
        let w ← rd gm.w imu
        .ok (fun i : ι => acc i + kr i * w)) = .ok s) :
    (∀ imu < gm.nmu, kern (gm.mu.getD imu 0) = .ok (kern (gm.mu.getD imu 0)).val ∧ imu < gm.mu.length ∧ imu < gm.w.length) ∧
    ∀ i, s i = ∑ imu ∈ Finset.range gm.nmu, gm.w.getD imu 0 * (kern (gm.mu.getD imu 0)).val i := by
  refine forRange_post (P := fun n s => (∀ imu < n, kern (gm.mu.getD imu 0) = .ok (kern (gm.mu.getD imu 0)).val ∧
    imu < gm.mu.length ∧ imu < gm.w.length) ∧
    ∀ i, s i = ∑ imu ∈ Finset.range n, gm.w.getD imu 0 * (kern (gm.mu.getD imu 0)).val i) h ⟨by simp, by simp⟩ ?_
  rintro j a a' hj ⟨h1, h2⟩ hb
  simp only [Res.bind_eq_ok] at hb
  obtain ⟨mu, hmu, kr, hkr, w, hw, e⟩ := hb
  cases e
  obtain ⟨rfl, l1⟩ := rd_eq_ok hmu
  obtain ⟨rfl, l2⟩ := rd_eq_ok hw
  refine ⟨fun imu himu => ?_, fun i => ?_⟩
  · rcases Nat.lt_succ_iff_lt_or_eq.mp himu with h | rfl
    · exact h1 imu h
    · exact ⟨by rw [hkr]; rfl, l1, l2⟩
  · rw [Finset.sum_range_succ, ← h2, hkr]
    simp only [Res.val]
    ring

/-- The double loop as a sum: points and weights of the rule depend on the nodes only, and the integrand was defined at every point of a
node with an angular range. -/
theorem quadLoop_sum {ι : Type} {half : Bool} {g : GLQ ℝ} {gm : GLMu ℝ} {kern : ℕ → ℝ → Res (ι → ℝ)} {wt : ℝ → ℝ → ℝ}
    {r : GLMu ℝ × (ι → ℝ)} (h : quadLoop half g gm kern noExtra wt = .ok r) :
    (∀ iq < g.nq, quadRange half g iq ≠ none → ∀ imu < gm.nmu,
      kern iq (quadMu half g gm iq imu) = .ok (kern iq (quadMu half g gm iq imu)).val) ∧
    ∀ i, r.2 i = ∑ iq ∈ Finset.range g.nq, ∑ imu ∈ Finset.range gm.nmu,
      quadWeight half g gm wt iq imu * (kern iq (quadMu half g gm iq imu)).val i := by
  rw [quadLoop_eq] at h
  have := forRange_post (P := fun n s => SameMu s.1 gm ∧ (∀ iq < n, quadRange half g iq ≠ none → ∀ imu < gm.nmu,
      kern iq (quadMu half g gm iq imu) = .ok (kern iq (quadMu half g gm iq imu)).val) ∧
    ∀ i, s.2 i = ∑ iq ∈ Finset.range n, ∑ imu ∈ Finset.range gm.nmu,
      quadWeight half g gm wt iq imu * (kern iq (quadMu half g gm iq imu)).val i) h ⟨SameMu.refl _, by simp, by simp⟩ ?_
  · exact this.2
  rintro iq ⟨gm', s⟩ ⟨gm'', s'⟩ hiq ⟨hs, hd, hsum⟩ hb
  simp only [quadBody, Res.bind_eq_ok] at hb
  obtain ⟨x, hx, rg, hr, hb⟩ := hb
  obtain ⟨rfl, lx⟩ := rd_eq_ok hx
  have hq : quadRange half g iq = rg := by unfold quadRange; rw [hr]
  rcases rg with _ | ⟨lo, hi⟩
  · cases hb
    refine ⟨hs, fun j hj hne => ?_, fun i => ?_⟩
    · rcases Nat.lt_succ_iff_lt_or_eq.mp hj with h | rfl
      · exact hd j h hne
      · exact absurd hq hne
    · rw [Finset.sum_range_succ, ← hsum i]
      simp [quadWeight, hq]
  · dsimp only at hb
    rw [hs.update_eq lo hi] at hb
    simp only [Res.bind_eq_ok] at hb
    obtain ⟨integ, hint, ex, hex, w, hw, e⟩ := hb
    obtain ⟨rfl, lw⟩ := rd_eq_ok hw
    cases hex
    cases e
    obtain ⟨k1, k2⟩ := muLoop_sum (gm := updateGLMu gm lo hi) (kern := kern iq) hint
    have hm : ∀ imu, quadMu half g gm iq imu = (updateGLMu gm lo hi).mu.getD imu 0 := fun imu => by simp only [quadMu, hq]
    refine ⟨sameMu_update gm lo hi, fun j hj hne => ?_, fun i => ?_⟩
    · rcases Nat.lt_succ_iff_lt_or_eq.mp hj with h | rfl
      · exact hd j h hne
      · intro imu himu
        rw [hm]
        exact (k1 imu himu).1
    · rw [Finset.sum_range_succ, ← hsum i]
      simp only [k2, add_zero]
      rw [Finset.sum_mul]
      congr 1
      refine Finset.sum_congr rfl fun imu _ => ?_
      simp only [quadWeight, hq, hm]
      ring

end Verif
