import Verif.Model.Python
import Mathlib.Tactic.FieldSimp
import Mathlib.Tactic.Positivity

/-!
# C51: shot-noise damping
-/

namespace Verif

open Terms

theorem shotnoise_low {kmin kmax k : ℝ} (hk : k < kmin) (h : kmin ≤ kmax) : shotnoise kmin kmax k = Real.exp (-(kmin / k - 1) ^ 2) := by
  unfold shotnoise
  simp only [if_neg (not_lt.2 (hk.le.trans h)), if_pos hk, one_mul]

theorem shotnoise_mid {kmin kmax k : ℝ} (h1 : kmin ≤ k) (h2 : k ≤ kmax) : shotnoise kmin kmax k = 1 := by
  unfold shotnoise
  simp only [if_neg (not_lt.2 h2), if_neg (not_lt.2 h1)]

theorem shotnoise_high {kmin kmax k : ℝ} (hk : kmax < k) (h : kmin ≤ kmax) : shotnoise kmin kmax k = Real.exp (-(k / kmax - 1) ^ 2) := by
  unfold shotnoise
  simp only [if_neg (not_lt.2 (h.trans hk.le)), if_pos hk, one_mul]

/-- C51: the damping decreases strictly away from the range on both sides. -/
theorem C51_decreasing (kmin kmax : ℝ) (h0 : 0 < kmin) (h : kmin ≤ kmax) :
    (∀ k k', 0 < k → k < k' → k' ≤ kmin → shotnoise kmin kmax k < shotnoise kmin kmax k') ∧
    (∀ k k', kmax ≤ k → k < k' → shotnoise kmin kmax k' < shotnoise kmin kmax k) := by
  constructor
  · intro k k' hk hkk hk'
    have h1 : 1 ≤ kmin / k' := (one_le_div (hk.trans hkk)).2 hk'
    have h2 : kmin / k' < kmin / k := div_lt_div_of_pos_left h0 hk hkk
    rw [shotnoise_low (hkk.trans_le hk') h]
    rcases eq_or_lt_of_le hk' with rfl | hlt
    · rw [shotnoise_mid (le_refl _) h, Real.exp_lt_one_iff]
      rw [div_self h0.ne'] at h2
      nlinarith
    · rw [shotnoise_low hlt h]
      refine Real.exp_lt_exp.2 ?_
      nlinarith
  · intro k k' hk hkk
    have hm : 0 < kmax := h0.trans_le h
    have h1 : 1 ≤ k / kmax := (one_le_div hm).2 hk
    have h2 : k / kmax < k' / kmax := div_lt_div_of_pos_right hkk hm
    rw [shotnoise_high (hk.trans_lt hkk) h]
    rcases eq_or_lt_of_le hk with rfl | hlt
    · rw [shotnoise_mid h (le_refl _), Real.exp_lt_one_iff]
      rw [div_self hm.ne'] at h2
      nlinarith
    · rw [shotnoise_high hlt h]
      refine Real.exp_lt_exp.2 ?_
      nlinarith

/-- C51: the damping lies in `(0,1]` and equals `1` exactly within the range. -/
theorem C51_range (kmin kmax k : ℝ) (h0 : 0 < kmin) (h : kmin ≤ kmax) (hk : 0 < k) :
    0 < shotnoise kmin kmax k ∧ shotnoise kmin kmax k ≤ 1 ∧ (shotnoise kmin kmax k = 1 ↔ kmin ≤ k ∧ k ≤ kmax) := by
  rcases lt_or_ge k kmin with h1 | h1
  · have hlt := (C51_decreasing kmin kmax h0 h).1 k kmin hk h1 (le_refl _)
    rw [shotnoise_mid (le_refl _) h] at hlt
    refine ⟨by rw [shotnoise_low h1 h]; exact Real.exp_pos _, hlt.le, ⟨fun e => absurd e hlt.ne, fun hh => absurd hh.1 (not_le.2 h1)⟩⟩
  · rcases lt_or_ge kmax k with h2 | h2
    · have hlt := (C51_decreasing kmin kmax h0 h).2 kmax k (le_refl _) h2
      rw [shotnoise_mid h (le_refl _)] at hlt
      refine ⟨by rw [shotnoise_high h2 h]; exact Real.exp_pos _, hlt.le, ⟨fun e => absurd e hlt.ne, fun hh => absurd hh.2 (not_le.2 h2)⟩⟩
    · rw [shotnoise_mid h1 h2]
      exact ⟨one_pos, le_refl _, ⟨fun _ => ⟨h1, h2⟩, fun _ => rfl⟩⟩

/-- Non-vacuity: the default range (`pyregpt/pyregpt.py:471`) is admissible, and the damping is effective outside it. -/
example : (0 : ℝ) < 0.0005 ∧ (0.0005 : ℝ) ≤ 10 ∧ shotnoise 0.0005 10 20 < shotnoise 0.0005 10 11 ∧ shotnoise 0.0005 10 11 < 1 := by
  refine ⟨by norm_num, by norm_num, (C51_decreasing _ _ (by norm_num) (by norm_num)).2 _ _ (by norm_num) (by norm_num), ?_⟩
  have := (C51_decreasing 0.0005 10 (by norm_num) (by norm_num)).2 10 11 (le_refl _) (by norm_num)
  rwa [shotnoise_mid (k := 10) (by norm_num) (le_refl _)] at this

end Verif
