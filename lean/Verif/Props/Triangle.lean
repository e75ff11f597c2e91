import Verif.Model.Kernels
import Verif.Props.Powers
import Mathlib.Analysis.SpecialFunctions.Log.Deriv
import Mathlib.Analysis.SpecificLimits.Normed

/-!
# C19, C20 – triangle functions and the auxiliary beta function
-/

namespace Verif

/-- Side lengths of a non-degenerate triangle. -/
structure Triangle (k1 k2 k3 : ℝ) : Prop where
  pos1 : 0 < k1
  pos2 : 0 < k2
  pos3 : 0 < k3
  lt1 : k1 < k2 + k3
  lt2 : k2 < k1 + k3
  lt3 : k3 < k1 + k2

theorem tri_S_pos {k1 k2 k3 : ℝ} (h : Triangle k1 k2 k3) (q : ℝ) : 0 < (k1 * k1 - q * q) * (k2 * k2 - q * q) + k3 * q * (k3 * q) := by
  obtain ⟨p1, p2, p3, l1, l2, l3⟩ := h
  have heron : 0 < (k1 + k2 + k3) * (k2 + k3 - k1) * (k1 + k3 - k2) * (k1 + k2 - k3) := by
    have : 0 < k2 + k3 - k1 := by linarith
    have : 0 < k1 + k3 - k2 := by linarith
    have : 0 < k1 + k2 - k3 := by linarith
    positivity
  nlinarith [sq_nonneg (2 * q * q - (k1 * k1 + k2 * k2 - k3 * k3))]

/-- C19: the square root arguments are non-negative, degenerate triangles included. -/
theorem C19_sqrt_nonneg (k1 k2 k3 q : ℝ) (h1 : 0 ≤ k1) (h2 : 0 ≤ k2) (h3 : 0 ≤ k3)
    (l1 : k1 ≤ k2 + k3) (l2 : k2 ≤ k1 + k3) (l3 : k3 ≤ k1 + k2) :
    0 ≤ k1 * k1 * (k2 * k2) + (-(k1 * k1) - k2 * k2 + k3 * k3) * (q * q) + q * q * (q * q) ∧
    0 ≤ (k1 * k1 - q * q) * (k2 * k2 - q * q) + k3 * q * (k3 * q) := by
  have heron : 0 ≤ (k1 + k2 + k3) * (k2 + k3 - k1) * (k1 + k3 - k2) * (k1 + k2 - k3) := by
    have : 0 ≤ k2 + k3 - k1 := by linarith
    have : 0 ≤ k1 + k3 - k2 := by linarith
    have : 0 ≤ k1 + k2 - k3 := by linarith
    positivity
  constructor <;> nlinarith [sq_nonneg (2 * q * q - (k1 * k1 + k2 * k2 - k3 * k3))]

theorem chkDiv_ok {a b : ℝ} (h : b ≠ 0) : chkDiv a b = .ok (a / b) := if_neg h
theorem chkLog_ok {a : ℝ} (h : 0 < a) : chkLog a = .ok (Real.log a) := if_neg (not_le.mpr h)
theorem chkSqrt_ok {a : ℝ} (h : 0 ≤ a) : chkSqrt a = .ok (Real.sqrt a) := if_neg (not_lt.mpr h)

/-- C19: `LFunc` has no domain error unless `q` equals `k`. -/
theorem C19_LFunc (k q : ℝ) (hk : 0 < k) (hq : 0 < q) (hne : q ≠ k) : LFuncC k q = .ok (LFunc k q) := by
  unfold LFuncC LFunc
  have h1 : k - q ≠ 0 := sub_ne_zero.mpr hne.symm
  rw [chkDiv_ok h1]
  simp only [Res.ok_bind]
  rw [chkLog_ok (abs_pos.mpr (div_ne_zero (by positivity) h1))]
  rfl

/-- C19: `WFunc` has no domain error on a non-degenerate triangle unless `q` equals one of the first two sides, and equals
`2 log|(s+k3 q)/(s-k3 q)|` with `s` the square root it takes. -/
theorem C19_WFunc (k1 k2 k3 q : ℝ) (h : Triangle k1 k2 k3) (hq : 0 < q) (h1 : q ≠ k1) (h2 : q ≠ k2) :
    WFuncC k1 k2 k3 q = .ok (WFunc k1 k2 k3 q) ∧
    ∃ s, 0 < s ∧ s ^ 2 = (k1 ^ 2 - q ^ 2) * (k2 ^ 2 - q ^ 2) + (k3 * q) ^ 2 ∧ s ≠ k3 * q ∧
      WFunc k1 k2 k3 q = 2 * Real.log |(s + k3 * q) / (s - k3 * q)| := by
  have hS := tri_S_pos h q
  obtain ⟨p1, p2, p3, -, -, -⟩ := h
  have e : k1 * k1 * (k2 * k2) + (-(k1 * k1) - k2 * k2 + k3 * k3) * (q * q) + q * q * (q * q) =
    (k1 * k1 - q * q) * (k2 * k2 - q * q) + k3 * q * (k3 * q) := by ring
  set S := (k1 * k1 - q * q) * (k2 * k2 - q * q) + k3 * q * (k3 * q) with hSd
  have hs := Real.sqrt_pos.mpr hS
  have hss : Real.sqrt S * Real.sqrt S = S := Real.mul_self_sqrt hS.le
  set s := Real.sqrt S with hsd
  have ha : 0 < k3 * q := by positivity
  have hne : s ≠ k3 * q := by
    intro hc
    have h3 : (k1 * k1 - q * q) * (k2 * k2 - q * q) = 0 := by
      have : s * s = k3 * q * (k3 * q) := by rw [hc]
      linarith
    rcases mul_eq_zero.mp h3 with h4 | h4
    · rcases mul_self_eq_mul_self_iff.mp (sub_eq_zero.mp h4) with h5 | h5
      · exact h1 h5.symm
      · linarith
    · rcases mul_self_eq_mul_self_iff.mp (sub_eq_zero.mp h4) with h5 | h5
      · exact h2 h5.symm
      · linarith
  have hsub : s - k3 * q ≠ 0 := sub_ne_zero.mpr hne
  have eaa : -4 * (k3 * k3) * (q * q) - 2 * (k1 * k1 - q * q) * (k2 * k2 - q * q) = -2 * (s * s) - 2 * (k3 * q * (k3 * q)) := by
    rw [hss]; ring
  have em : -2 * (s * s) - 2 * (k3 * q * (k3 * q)) - 4 * k3 * q * s = -2 * (s + k3 * q) ^ 2 := by ring
  have ep : -2 * (s * s) - 2 * (k3 * q * (k3 * q)) + 4 * k3 * q * s = -2 * (s - k3 * q) ^ 2 := by ring
  have hden : (-2 * (s - k3 * q) ^ 2 : ℝ) ≠ 0 := mul_ne_zero (by norm_num) (pow_ne_zero _ hsub)
  have hr : (-2 * (s + k3 * q) ^ 2) / (-2 * (s - k3 * q) ^ 2) = |(s + k3 * q) / (s - k3 * q)| ^ 2 := by
    rw [sq_abs, div_pow, mul_div_mul_left _ _ (by norm_num)]
  have hpos : 0 < |(s + k3 * q) / (s - k3 * q)| := abs_pos.mpr (div_ne_zero (by positivity) hsub)
  constructor
  · unfold WFuncC WFunc
    dsimp only
    rw [e, chkSqrt_ok hS.le]
    simp only [Res.ok_bind]
    rw [← hsd, eaa, em, ep, chkDiv_ok hden]
    simp only [Res.ok_bind]
    rw [chkLog_ok (by rw [hr]; positivity)]
  · refine ⟨s, hs, by rw [sq, hss, hSd]; ring, hne, ?_⟩
    unfold WFunc
    dsimp only
    rw [e, ← hsd, eaa, em, ep, hr, Real.log_pow]
    norm_num

theorem betafuncC_ok {a : ℕ} {z : ℝ} (ha : a = 2 ∨ a = 4 ∨ a = 6) (hz : z < 1) : betafuncC a z = .ok (betafunc a z) := by
  unfold betafuncC
  by_cases c : z ≤ 1 / 10
  · rw [if_pos c, chkDiv_ok (by rcases ha with rfl | rfl | rfl <;> norm_num)]
    rfl
  · rw [if_neg c, if_pos ha, chkDiv_ok (by intro h; apply c; rw [h]; norm_num)]
    simp only [Res.ok_bind]
    rw [chkLog_ok (by linarith)]
    rfl

/-- C19, C20: `small_beta` has no domain error and passes an argument in `(0,1)` to `betafunc`. -/
theorem C19_small_beta (k q : ℝ) (hk : 0 < k) (hq : 0 < q) : smallBetaC k q = .ok (smallBeta k q) := by
  unfold smallBetaC smallBeta
  rw [chkDiv_ok (by positivity)]
  simp only [Res.ok_bind]
  by_cases c : |(k - q) / (k + q)| ≤ 1 / 1000000
  · rw [if_pos c, if_pos c]
  · rw [if_neg c, if_neg c]
    have : 0 < (k - q) / (k + q) * ((k - q) / (k + q)) := by
      apply mul_self_pos.mpr
      intro h; apply c; rw [h]; norm_num
    rw [betafuncC_ok (by norm_num) (by linarith)]
    rfl

/-- C19: `big_beta` has no domain error on a non-degenerate triangle, whatever `q>0`. -/
theorem C19_big_beta (k1 k2 k3 q : ℝ) (h : Triangle k1 k2 k3) (hq : 0 < q) : bigBetaC k1 k2 k3 q = .ok (bigBeta k1 k2 k3 q) := by
  have hS := tri_S_pos h q
  have p3 := h.pos3
  unfold bigBetaC bigBeta
  dsimp only
  have ha : 0 < k3 * q := by positivity
  rw [chkSqrt_ok hS.le]
  simp only [Res.ok_bind]
  rw [chkDiv_ok ha.ne']
  simp only [Res.ok_bind]
  have hy : 0 < Real.sqrt ((k1 * k1 - q * q) * (k2 * k2 - q * q) + k3 * q * (k3 * q)) / (k3 * q) := div_pos (Real.sqrt_pos.mpr hS) ha
  generalize Real.sqrt ((k1 * k1 - q * q) * (k2 * k2 - q * q) + k3 * q * (k3 * q)) / (k3 * q) = y at *
  by_cases c : |y - 1| ≤ 1 / 100000
  · rw [if_pos c, if_pos c]
  · rw [if_neg c, if_neg c]
    have hy1 : 0 < |y - 1| := by
      rw [not_le] at c
      exact lt_trans (by norm_num) c
    by_cases c2 : |y - 1| ≤ 1 / 100
    · rw [if_pos c2, if_pos c2, chkLog_ok hy1]
      rfl
    · rw [if_neg c2, if_neg c2, chkDiv_ok (by positivity)]
      simp only [Res.ok_bind]
      rw [chkDiv_ok (by positivity)]
      simp only [Res.ok_bind]
      have : 0 < |y - 1| * |y - 1| / (1 + y) / (1 + y) := by positivity
      rw [betafuncC_ok (by norm_num) (by linarith)]
      simp only [Res.ok_bind]
      rw [chkDiv_ok (by positivity)]

example : Triangle 3 4 5 := ⟨by norm_num, by norm_num, by norm_num, by norm_num, by norm_num, by norm_num⟩
example : ∃ v, WFuncC 3 4 5 2 = .ok v :=
  ⟨_, (C19_WFunc 3 4 5 2 ⟨by norm_num, by norm_num, by norm_num, by norm_num, by norm_num, by norm_num⟩ (by norm_num) (by norm_num)
    (by norm_num)).1⟩

/-- C19: the exclusion is needed, at `q=k1` the logarithm argument is a division by zero. -/
theorem C19_WFunc_singular (k1 k2 k3 : ℝ) (h : Triangle k1 k2 k3) : (WFuncC k1 k2 k3 k1).isUB := by
  obtain ⟨p1, p2, p3, -, -, -⟩ := h
  unfold WFuncC
  dsimp only
  have e : k1 * k1 * (k2 * k2) + (-(k1 * k1) - k2 * k2 + k3 * k3) * (k1 * k1) + k1 * k1 * (k1 * k1) = (k3 * k1) * (k3 * k1) := by ring
  rw [e, chkSqrt_ok (by positivity), Real.sqrt_mul_self (by positivity)]
  simp only [Res.ok_bind]
  have e2 : -4 * (k3 * k3) * (k1 * k1) - 2 * (k1 * k1 - k1 * k1) * (k2 * k2 - k1 * k1) + 4 * k3 * k1 * (k3 * k1) = 0 := by ring
  rw [e2]
  exact ⟨"division by zero", by simp [chkDiv]⟩

/-! ## C20 -/

theorem hasSum_tail (a : ℕ) (z : ℝ) (h0 : 0 ≤ z) (h1 : z < 1) :
    HasSum (fun n : ℕ => z ^ (n + a + 1) / ((n + a + 1 : ℕ) : ℝ)) (-Real.log (1 - z) - ∑ n ∈ Finset.range a, z ^ (n + 1) / ((n + 1 : ℕ) : ℝ)) := by
  have h := Real.hasSum_pow_div_log_of_abs_lt_one (x := z) (by rw [abs_of_nonneg h0]; exact h1)
  have h2 := (hasSum_nat_add_iff' a).mpr h
  simpa only [Nat.cast_add, Nat.cast_one] using h2

/-- C20: in the closed-form range `betafunc(a,z)` is the sum of `z^n/n` over `n>=a`. -/
theorem C20_betafunc_closed (a : ℕ) (ha : a = 2 ∨ a = 4 ∨ a = 6) (z : ℝ) (h0 : 1 / 10 < z) (h1 : z < 1) :
    HasSum (fun n : ℕ => z ^ (n + a) / ((n + a : ℕ) : ℝ)) (betafunc a z) := by
  have hz : z ≠ 0 := by positivity
  have hc : ¬ z ≤ 1 / 10 := not_le.mpr h0
  unfold betafunc
  dsimp only
  rcases ha with rfl | rfl | rfl
  · have h := hasSum_tail 1 z (by linarith) h1
    simp only [if_neg hc]
    convert h using 1
    norm_num [Finset.sum_range_succ]
    field_simp
    ring
  · have h := hasSum_tail 3 z (by linarith) h1
    simp only [if_neg hc]
    convert h using 1
    norm_num [Finset.sum_range_succ]
    field_simp
    ring
  · have h := hasSum_tail 5 z (by linarith) h1
    simp only [if_neg hc]
    convert h using 1
    norm_num [Finset.sum_range_succ]
    field_simp
    ring

/-- C20: in the series range `betafunc(a,z)` is below the sum by at most `z^(a+7)/((a+7)(1-z))` (every `a>=1`). -/
theorem C20_betafunc_series (a : ℕ) (ha : 1 ≤ a) (z : ℝ) (h0 : 0 ≤ z) (h1 : z ≤ 1 / 10) :
    ∃ S, HasSum (fun n : ℕ => z ^ (n + a) / ((n + a : ℕ) : ℝ)) S ∧ 0 ≤ S - betafunc a z ∧
      S - betafunc a z ≤ z ^ (a + 7) / ((a + 7) * (1 - z)) := by
  obtain ⟨b, rfl⟩ : ∃ b, a = b + 1 := ⟨a - 1, by omega⟩
  have h := hasSum_tail b z h0 (by linarith)
  set S := -Real.log (1 - z) - ∑ n ∈ Finset.range b, z ^ (n + 1) / ((n + 1 : ℕ) : ℝ)
  refine ⟨S, h, ?_⟩
  have h7 := (hasSum_nat_add_iff' 7).mpr h
  have hb : betafunc (b + 1) z = ∑ i ∈ Finset.range 7, z ^ (i + b + 1) / ((i + b + 1 : ℕ) : ℝ) := by
    unfold betafunc
    dsimp only
    rw [if_pos h1, C01_power]
    have : (b : ℝ) + 1 ≠ 0 := by positivity
    simp only [Finset.sum_range_succ, Finset.sum_range_zero]
    push_cast
    ring
  rw [← hb] at h7
  constructor
  · exact h7.nonneg fun n => by positivity
  · have hg := (hasSum_geometric_of_lt_one h0 (by linarith : z < 1)).mul_left (z ^ (b + 1 + 7) / ((b + 1 + 7 : ℕ) : ℝ))
    refine (hasSum_le ?_ h7 hg).trans (le_of_eq ?_)
    · intro n
      have e : z ^ (n + 7 + b + 1) = z ^ (b + 1 + 7) * z ^ n := by ring
      rw [e, div_mul_eq_mul_div]
      apply div_le_div_of_nonneg_left (by positivity) (by positivity)
      exact_mod_cast (by omega)
    · push_cast
      have : (1 - z) ≠ 0 := by linarith
      field_simp

/-- C20: the callers stay in `[0,1)`: `small_beta`'s argument. -/
theorem C20_small_beta_arg (k q : ℝ) (hk : 0 < k) (hq : 0 < q) (hy : 1 / 1000000 < |(k - q) / (k + q)|) :
    0 < 1 - (k - q) / (k + q) * ((k - q) / (k + q)) ∧ 1 - (k - q) / (k + q) * ((k - q) / (k + q)) < 1 := by
  have h1 : |(k - q) / (k + q)| < 1 := by
    rw [abs_div, abs_of_pos (by positivity : 0 < k + q), div_lt_one (by positivity), abs_lt]
    constructor <;> linarith
  rw [← abs_mul_abs_self]
  constructor <;> nlinarith [abs_nonneg ((k - q) / (k + q))]

/-- C20: the callers stay in `[0,1)`: `big_beta`'s argument, with `y>0` the ratio it computes. -/
theorem C20_big_beta_arg (k1 k2 k3 q : ℝ) (h : Triangle k1 k2 k3) (hq : 0 < q) (y : ℝ)
    (hy : y = Real.sqrt ((k1 * k1 - q * q) * (k2 * k2 - q * q) + k3 * q * (k3 * q)) / (k3 * q)) (hy1 : 1 / 100 < |y - 1|) :
    0 < 1 - |y - 1| * |y - 1| / (1 + y) / (1 + y) ∧ 1 - |y - 1| * |y - 1| / (1 + y) / (1 + y) < 1 := by
  have hS := tri_S_pos h q
  have hy0 : 0 < y := by
    rw [hy]; exact div_pos (Real.sqrt_pos.mpr hS) (mul_pos h.pos3 hq)
  have hpos : 0 < |y - 1| * |y - 1| / (1 + y) / (1 + y) := by
    have : 0 < |y - 1| := lt_trans (by norm_num) hy1
    positivity
  refine ⟨?_, by linarith⟩
  rw [abs_mul_abs_self, div_div, sub_pos, div_lt_one (by positivity)]
  nlinarith

example : HasSum (fun n : ℕ => (1 / 2 : ℝ) ^ (n + 4) / ((n + 4 : ℕ) : ℝ)) (betafunc 4 (1 / 2)) :=
  C20_betafunc_closed 4 (by norm_num) _ (by norm_num) (by norm_num)

end Verif
