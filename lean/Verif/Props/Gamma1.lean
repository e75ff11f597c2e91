import Verif.Model.Gamma1
import Verif.Spec.Propagator
import Verif.Props.Triangle
import Mathlib.Data.List.GetD

/-!
# C21, C22, C23 – propagator kernels
-/

namespace Verif

open Spec

theorem log_abs_sq (x : ℝ) : Real.log (|(1 - x) / (1 + x)| ^ 2) = 2 * Real.log |(x - 1) / (1 + x)| := by
  rw [Real.log_pow, show (1 - x) / (1 + x) = -((x - 1) / (1 + x)) by ring, abs_neg]
  norm_num

/-! ## C21 -/

/-- C21: away from the expanded ranges the density kernel is the closed form. -/
theorem C21_ff_middle (x : ℝ) (h1 : 0.01 ≤ |x - 1|) (h2 : x ≤ 10) : kernelFF x = x * ffClosed x := by
  unfold kernelFF ffClosed
  dsimp only
  rw [if_neg (not_lt.mpr h1), if_neg (not_lt.mpr h2), C01_power, log_abs_sq]
  norm_num
  ring

/-- C21: away from the expanded ranges the velocity kernel is the closed form. -/
theorem C21_gg_middle (x : ℝ) (h1 : 0.01 ≤ |x - 1|) (h2 : x ≤ 10) : kernelGG x = x * ggClosed x := by
  unfold kernelGG ggClosed
  dsimp only
  rw [if_neg (not_lt.mpr h1), if_neg (not_lt.mpr h2), C01_power, log_abs_sq]
  norm_num
  ring

/-- C21: near `x=1` the density expansion is within `|x-1|^3 (1+|log|)/4` of the closed form. -/
theorem C21_ff_near (x : ℝ) (h : |x - 1| < 0.01) :
    |kernelFF x - x * ffClosed x| ≤ |x - 1| ^ 3 / 4 * (1 + |Real.log (|(x - 1) / (1 + x)|)|) := by
  unfold kernelFF ffClosed
  dsimp only
  rw [if_pos h, log_abs_sq]
  generalize Real.log |(x - 1) / (1 + x)| = L
  obtain ⟨d, rfl⟩ : ∃ d, x = 1 + d := ⟨x - 1, by ring⟩
  rw [add_sub_cancel_left] at *
  have hd := abs_lt.mp h
  norm_num at hd
  have hx : (0 : ℝ) < 1 + d := by linarith
  have e : (-(11 / 126) + d / 126 - 29 / 252 * d * d) * (1 + d) - (1 + d) * ((6 / (1 + d) ^ 2 - 79 + 50 * (1 + d) ^ 2 - 21 * (1 + d) ^ 4
      + 3 / 4 * (1 / (1 + d) - (1 + d)) ^ 3 * (2 + 7 * (1 + d) ^ 2) * (2 * L)) / 504)
      = d ^ 3 * ((108 + 207 * d + 126 * d ^ 2 + 21 * d ^ 3) / (504 * (1 + d)))
        + d ^ 3 * ((2 + d) ^ 3 * (2 + 7 * (1 + d) ^ 2) / (336 * (1 + d) ^ 2)) * L := by
    field_simp
    ring
  rw [e]
  refine (abs_add_le _ _).trans ?_
  rw [abs_mul, abs_mul, abs_mul, abs_pow]
  have b1 : |(108 + 207 * d + 126 * d ^ 2 + 21 * d ^ 3) / (504 * (1 + d))| ≤ 1 / 4 := by
    rw [abs_le]
    constructor
    · rw [le_div_iff₀ (by positivity)]; nlinarith [sq_nonneg d, pow_nonneg hx.le 3]
    · rw [div_le_iff₀ (by positivity)]; nlinarith [sq_nonneg d, pow_nonneg hx.le 3]
  have b2 : |(2 + d) ^ 3 * (2 + 7 * (1 + d) ^ 2) / (336 * (1 + d) ^ 2)| ≤ 1 / 4 := by
    rw [abs_le]
    have h2 : 0 < 2 + d := by linarith
    constructor
    · exact le_trans (by norm_num : -(1 / 4 : ℝ) ≤ 0) (by positivity)
    · rw [div_le_iff₀ (by positivity)]
      have : (2 + d) ^ 3 ≤ 9 := by
        calc (2 + d) ^ 3 ≤ 2.01 ^ 3 := by gcongr; linarith
          _ ≤ 9 := by norm_num
      nlinarith [sq_nonneg (1 + d)]
  nlinarith [mul_le_mul_of_nonneg_left b1 (pow_nonneg (abs_nonneg d) 3),
    mul_le_mul_of_nonneg_right (mul_le_mul_of_nonneg_left b2 (pow_nonneg (abs_nonneg d) 3)) (abs_nonneg L)]

/-- C21: near `x=1` the velocity expansion is within `|x-1|^3 (1+|log|)/4` of the closed form. -/
theorem C21_gg_near (x : ℝ) (h : |x - 1| < 0.01) :
    |kernelGG x - x * ggClosed x| ≤ |x - 1| ^ 3 / 4 * (1 + |Real.log (|(x - 1) / (1 + x)|)|) := by
  unfold kernelGG ggClosed
  dsimp only
  rw [if_pos h, log_abs_sq]
  generalize Real.log |(x - 1) / (1 + x)| = L
  obtain ⟨d, rfl⟩ : ∃ d, x = 1 + d := ⟨x - 1, by ring⟩
  rw [add_sub_cancel_left] at *
  have hd := abs_lt.mp h
  norm_num at hd
  have hx : (0 : ℝ) < 1 + d := by linarith
  have e : (-(3 / 14) - 5 / 42 * d + d * d / 84) * (1 + d) - (1 + d) * ((6 / (1 + d) ^ 2 - 41 + 2 * (1 + d) ^ 2 - 3 * (1 + d) ^ 4
      + 3 / 4 * (1 / (1 + d) - (1 + d)) ^ 3 * (2 + (1 + d) ^ 2) * (2 * L)) / 168)
      = d ^ 3 * ((36 + 45 * d + 18 * d ^ 2 + 3 * d ^ 3) / (168 * (1 + d)))
        + d ^ 3 * ((2 + d) ^ 3 * (2 + (1 + d) ^ 2) / (112 * (1 + d) ^ 2)) * L := by
    field_simp
    ring
  rw [e]
  refine (abs_add_le _ _).trans ?_
  rw [abs_mul, abs_mul, abs_mul, abs_pow]
  have b1 : |(36 + 45 * d + 18 * d ^ 2 + 3 * d ^ 3) / (168 * (1 + d))| ≤ 1 / 4 := by
    rw [abs_le]
    constructor
    · rw [le_div_iff₀ (by positivity)]; nlinarith [sq_nonneg d, pow_nonneg hx.le 3]
    · rw [div_le_iff₀ (by positivity)]; nlinarith [sq_nonneg d, pow_nonneg hx.le 3]
  have b2 : |(2 + d) ^ 3 * (2 + (1 + d) ^ 2) / (112 * (1 + d) ^ 2)| ≤ 1 / 4 := by
    rw [abs_le]
    have h2 : 0 < 2 + d := by linarith
    constructor
    · exact le_trans (by norm_num : -(1 / 4 : ℝ) ≤ 0) (by positivity)
    · rw [div_le_iff₀ (by positivity)]
      have : (2 + d) ^ 3 ≤ 9 := by
        calc (2 + d) ^ 3 ≤ 2.01 ^ 3 := by gcongr; linarith
          _ ≤ 9 := by norm_num
      nlinarith [sq_nonneg (1 + d)]
  nlinarith [mul_le_mul_of_nonneg_left b1 (pow_nonneg (abs_nonneg d) 3),
    mul_le_mul_of_nonneg_right (mul_le_mul_of_nonneg_left b2 (pow_nonneg (abs_nonneg d) 3)) (abs_nonneg L)]

/-- Six terms of the series of `log((1+u)/(1-u))`, with remainder. -/
theorem artanh_six (u : ℝ) (h0 : 0 < u) (h1 : u < 1) : ∃ r, 0 ≤ r ∧ r ≤ (u ^ 2) ^ 6 / (13 * (1 - u ^ 2)) ∧
    Real.log (1 + u) - Real.log (1 - u) = 2 * u * (1 + u ^ 2 / 3 + u ^ 4 / 5 + u ^ 6 / 7 + u ^ 8 / 9 + u ^ 10 / 11 + r) := by
  have h := Real.hasSum_log_sub_log_of_abs_lt_one (x := u) (by rw [abs_of_pos h0]; exact h1)
  have h6 := (hasSum_nat_add_iff' 6).mpr h
  set T := Real.log (1 + u) - Real.log (1 - u)
  refine ⟨T / (2 * u) - (1 + u ^ 2 / 3 + u ^ 4 / 5 + u ^ 6 / 7 + u ^ 8 / 9 + u ^ 10 / 11), ?_, ?_, ?_⟩
  · have hn := h6.nonneg fun n => by positivity
    have e : T - ∑ i ∈ Finset.range 6, (2 : ℝ) * (1 / (2 * i + 1)) * u ^ (2 * i + 1)
      = 2 * u * (T / (2 * u) - (1 + u ^ 2 / 3 + u ^ 4 / 5 + u ^ 6 / 7 + u ^ 8 / 9 + u ^ 10 / 11)) := by
      norm_num [Finset.sum_range_succ]
      field_simp
    rw [e] at hn
    exact nonneg_of_mul_nonneg_right hn (by positivity)
  · have hu2 : u ^ 2 < 1 := by nlinarith
    have hg := (hasSum_geometric_of_lt_one (sq_nonneg u) hu2).mul_left (2 * u * ((u ^ 2) ^ 6 / 13))
    have hle := hasSum_le (fun n => ?_) h6 hg
    · have e : T - ∑ i ∈ Finset.range 6, (2 : ℝ) * (1 / (2 * i + 1)) * u ^ (2 * i + 1)
        = 2 * u * (T / (2 * u) - (1 + u ^ 2 / 3 + u ^ 4 / 5 + u ^ 6 / 7 + u ^ 8 / 9 + u ^ 10 / 11)) := by
        norm_num [Finset.sum_range_succ]
        field_simp
      rw [e, mul_assoc (2 * u)] at hle
      refine (le_of_mul_le_mul_left hle (by positivity)).trans (le_of_eq ?_)
      have : 1 - u ^ 2 ≠ 0 := by linarith
      field_simp
    · have e : (u : ℝ) ^ (2 * (n + 6) + 1) = u * (u ^ 2) ^ 6 * (u ^ 2) ^ n := by ring
      rw [e]
      have : (1 : ℝ) / (2 * ((n + 6 : ℕ) : ℝ) + 1) ≤ 1 / 13 := by
        apply one_div_le_one_div_of_le (by norm_num)
        push_cast
        linarith [Nat.cast_nonneg (α := ℝ) n]
      calc 2 * (1 / (2 * ((n + 6 : ℕ) : ℝ) + 1)) * (u * (u ^ 2) ^ 6 * (u ^ 2) ^ n)
          ≤ 2 * (1 / 13) * (u * (u ^ 2) ^ 6 * (u ^ 2) ^ n) := by gcongr
        _ = _ := by ring
  · field_simp
    ring

theorem small_powers {v : ℝ} (h0 : 0 < v) (h1 : v < 1 / 100) : v ^ 2 ≤ v / 100 ∧ v ^ 3 ≤ v / 10000 ∧ v ^ 4 ≤ v / 10000 := by
  have a2 : v ^ 2 ≤ v / 100 := by nlinarith
  have a3 : v ^ 3 ≤ v / 10000 := by nlinarith
  refine ⟨a2, a3, ?_⟩
  have : v ^ 4 = v ^ 3 * v := by ring
  have := pow_pos h0 3
  nlinarith

theorem log_far (x : ℝ) (h : 10 < x) : Real.log |(x - 1) / (1 + x)| = -(Real.log (1 + 1 / x) - Real.log (1 - 1 / x)) := by
  have hx : 0 < x := by linarith
  have e : (x - 1) / (1 + x) = (1 - 1 / x) / (1 + 1 / x) := by
    field_simp
    ring
  have h1 : 0 < 1 - 1 / x := by
    rw [sub_pos, div_lt_one hx]; linarith
  have h2 : 0 < 1 + 1 / x := by positivity
  rw [e, abs_of_pos (by positivity), Real.log_div h1.ne' h2.ne']
  ring

/-- C21: for `x>10` the density expansion is within `1/(800 x^5)` of the closed form (`x` times the next order `x^-6`). -/
theorem C21_ff_far (x : ℝ) (h : 10 < x) : |kernelFF x - x * ffClosed x| ≤ 1 / (800 * x ^ 5) := by
  have hx : 0 < x := by linarith
  have hn : ¬ |x - 1| < 0.01 := by
    rw [not_lt, abs_of_pos (by linarith)]
    norm_num
    linarith
  unfold kernelFF ffClosed
  dsimp only
  rw [if_neg hn, if_pos h, log_abs_sq, log_far x h]
  obtain ⟨u, rfl⟩ : ∃ u, x = 1 / u := ⟨1 / x, by simp⟩
  have hu : 0 < u := by
    rw [one_div] at hx
    exact inv_pos.mp hx
  have hu1 : u < 1 / 10 := by
    rw [lt_div_iff₀ hu] at h
    linarith
  obtain ⟨r, r0, r1, hr⟩ := artanh_six u hu (by linarith)
  rw [one_div_one_div, hr]
  obtain ⟨v, hv⟩ : ∃ v, v = u ^ 2 := ⟨_, rfl⟩
  have hv0 : 0 < v := by rw [hv]; positivity
  have hv1 : v < 1 / 100 := by rw [hv]; nlinarith
  have hr2 : r ≤ v ^ 6 / 12 := by
    rw [← hv] at r1
    refine r1.trans ?_
    apply div_le_div_of_nonneg_left (by positivity) (by norm_num) (by linarith)
  have e : (-(61 / 630) + 2 / 105 / (1 / u * (1 / u)) - 10 / 1323 / (1 / u * (1 / u)) / (1 / u * (1 / u))) * (1 / u)
      - 1 / u * ((6 / (1 / u) ^ 2 - 79 + 50 * (1 / u) ^ 2 - 21 * (1 / u) ^ 4 + 3 / 4 * (u - 1 / u) ^ 3 * (2 + 7 * (1 / u) ^ 2) *
        (2 * -(2 * u * (1 + u ^ 2 / 3 + u ^ 4 / 5 + u ^ 6 / 7 + u ^ 8 / 9 + u ^ 10 / 11 + r)))) / 504)
      = u ^ 5 * ((688 / 1155 + 697 / 385 * v - 670 / 231 * v ^ 2 + 31 / 33 * v ^ 3 + 6 / 11 * v ^ 4 - 3 * ((1 - v) ^ 3 * (7 + 2 * v) * (r / v ^ 5))) / 504) := by
    rw [hv]
    field_simp
    ring
  rw [e, abs_mul, abs_of_pos (by positivity)]
  have hq0 : 0 ≤ r / v ^ 5 := by positivity
  have hq1 : r / v ^ 5 ≤ v / 12 := by
    rw [div_le_iff₀ (by positivity)]
    refine hr2.trans (le_of_eq ?_)
    ring
  have hc0 : 0 ≤ (1 - v) ^ 3 * (7 + 2 * v) := mul_nonneg (pow_nonneg (by linarith) 3) (by linarith)
  have hc1 : (1 - v) ^ 3 * (7 + 2 * v) ≤ 7 := by
    have := pow_le_of_le_one (by linarith : 0 ≤ 1 - v) (by linarith) (by norm_num : 3 ≠ 0)
    nlinarith
  have hp0 : 0 ≤ (1 - v) ^ 3 * (7 + 2 * v) * (r / v ^ 5) := mul_nonneg hc0 hq0
  have hp1 : (1 - v) ^ 3 * (7 + 2 * v) * (r / v ^ 5) ≤ 7 * (v / 12) := mul_le_mul hc1 hq1 hq0 (by norm_num)
  generalize (1 - v) ^ 3 * (7 + 2 * v) * (r / v ^ 5) = t at *
  obtain ⟨v2, v3, v4⟩ := small_powers hv0 hv1
  have hb : |(688 / 1155 + 697 / 385 * v - 670 / 231 * v ^ 2 + 31 / 33 * v ^ 3 + 6 / 11 * v ^ 4 - 3 * t) / 504| ≤ 1 / 800 := by
    rw [abs_le]
    constructor <;> linarith [pow_nonneg hv0.le 3, pow_nonneg hv0.le 2, pow_nonneg hv0.le 4]
  calc u ^ 5 * _ ≤ u ^ 5 * (1 / 800) := by gcongr
    _ = _ := by field_simp

/-- C21: for `x>10` the velocity expansion is within `1/(450 x^5)` of the closed form. -/
theorem C21_gg_far (x : ℝ) (h : 10 < x) : |kernelGG x - x * ggClosed x| ≤ 1 / (450 * x ^ 5) := by
  have hx : 0 < x := by linarith
  have hn : ¬ |x - 1| < 0.01 := by
    rw [not_lt, abs_of_pos (by linarith)]
    norm_num
    linarith
  unfold kernelGG ggClosed
  dsimp only
  rw [if_neg hn, if_pos h, log_abs_sq, log_far x h]
  obtain ⟨u, rfl⟩ : ∃ u, x = 1 / u := ⟨1 / x, by simp⟩
  have hu : 0 < u := by
    rw [one_div] at hx
    exact inv_pos.mp hx
  have hu1 : u < 1 / 10 := by
    rw [lt_div_iff₀ hu] at h
    linarith
  obtain ⟨r, r0, r1, hr⟩ := artanh_six u hu (by linarith)
  rw [one_div_one_div, hr]
  obtain ⟨v, hv⟩ : ∃ v, v = u ^ 2 := ⟨_, rfl⟩
  have hv0 : 0 < v := by rw [hv]; positivity
  have hv1 : v < 1 / 100 := by rw [hv]; nlinarith
  have hr2 : r ≤ v ^ 6 / 12 := by
    rw [← hv] at r1
    refine r1.trans ?_
    apply div_le_div_of_nonneg_left (by positivity) (by norm_num) (by linarith)
  have e : (-(3 / 10) + 26 / 245 / (1 / u * (1 / u)) - 38 / 2205 / (1 / u * (1 / u)) / (1 / u * (1 / u))) * (1 / u)
      - 1 / u * ((6 / (1 / u) ^ 2 - 41 + 2 * (1 / u) ^ 2 - 3 * (1 / u) ^ 4 + 3 / 4 * (u - 1 / u) ^ 3 * (2 + (1 / u) ^ 2) *
        (2 * -(2 * u * (1 + u ^ 2 / 3 + u ^ 4 / 5 + u ^ 6 / 7 + u ^ 8 / 9 + u ^ 10 / 11 + r)))) / 168)
      = u ^ 5 * ((80 / 231 + 127 / 385 * v + 2 / 231 * v ^ 2 - 23 / 33 * v ^ 3 + 6 / 11 * v ^ 4 - 3 * ((1 - v) ^ 3 * (1 + 2 * v) * (r / v ^ 5))) / 168) := by
    rw [hv]
    field_simp
    ring
  rw [e, abs_mul, abs_of_pos (by positivity)]
  have hq0 : 0 ≤ r / v ^ 5 := by positivity
  have hq1 : r / v ^ 5 ≤ v / 12 := by
    rw [div_le_iff₀ (by positivity)]
    refine hr2.trans (le_of_eq ?_)
    ring
  have hc0 : 0 ≤ (1 - v) ^ 3 * (1 + 2 * v) := mul_nonneg (pow_nonneg (by linarith) 3) (by linarith)
  have hc1 : (1 - v) ^ 3 * (1 + 2 * v) ≤ 1 := by
    have := pow_le_of_le_one (by linarith : 0 ≤ 1 - v) (by linarith) (by norm_num : 3 ≠ 0)
    nlinarith
  have hp0 : 0 ≤ (1 - v) ^ 3 * (1 + 2 * v) * (r / v ^ 5) := mul_nonneg hc0 hq0
  have hp1 : (1 - v) ^ 3 * (1 + 2 * v) * (r / v ^ 5) ≤ 1 * (v / 12) := mul_le_mul hc1 hq1 hq0 (by norm_num)
  generalize (1 - v) ^ 3 * (1 + 2 * v) * (r / v ^ 5) = t at *
  obtain ⟨v2, v3, v4⟩ := small_powers hv0 hv1
  have hb : |(80 / 231 + 127 / 385 * v + 2 / 231 * v ^ 2 - 23 / 33 * v ^ 3 + 6 / 11 * v ^ 4 - 3 * t) / 168| ≤ 1 / 450 := by
    rw [abs_le]
    constructor <;> linarith [pow_nonneg hv0.le 3, pow_nonneg hv0.le 2, pow_nonneg hv0.le 4]
  calc u ^ 5 * _ ≤ u ^ 5 * (1 / 450) := by gcongr
    _ = _ := by field_simp

/-! ## C22 -/

theorem ratio_range (q1 q2 : ℝ) (h1 : 0 < q1) (h2 : 0 < q2) : 0 ≤ |(q1 - q2) / (q1 + q2)| ∧ |(q1 - q2) / (q1 + q2)| < 1 := by
  refine ⟨abs_nonneg _, ?_⟩
  rw [abs_div, abs_of_pos (by positivity : 0 < q1 + q2), div_lt_one (by positivity), abs_lt]
  constructor <;> linarith

/-- Twelve terms of the series of `log(1-d)`, with remainder. -/
theorem log_twelve (d : ℝ) (h0 : 0 < d) (h1 : d < 0.05) : ∃ r, 0 ≤ r ∧ r ≤ d / 12 ∧
    Real.log (1 - d) = -(d + d ^ 2 / 2 + d ^ 3 / 3 + d ^ 4 / 4 + d ^ 5 / 5 + d ^ 6 / 6 + d ^ 7 / 7 + d ^ 8 / 8 + d ^ 9 / 9
      + d ^ 10 / 10 + d ^ 11 / 11 + d ^ 12 / 12 + d ^ 12 * r) := by
  norm_num at h1
  have h := hasSum_tail 12 d h0.le (by linarith)
  set T := -Real.log (1 - d) - ∑ n ∈ Finset.range 12, d ^ (n + 1) / ((n + 1 : ℕ) : ℝ) with hT
  have hT0 : 0 ≤ T := h.nonneg fun n => by positivity
  have hT1 : T ≤ d ^ 13 / 13 * (1 - d)⁻¹ := by
    refine hasSum_le (fun n => ?_) h ((hasSum_geometric_of_lt_one h0.le (by linarith)).mul_left (d ^ 13 / 13))
    have e : d ^ (n + 12 + 1) = d ^ 13 * d ^ n := by ring
    rw [e, div_mul_eq_mul_div]
    apply div_le_div_of_nonneg_left (by positivity) (by norm_num)
    push_cast
    linarith [Nat.cast_nonneg (α := ℝ) n]
  refine ⟨T / d ^ 12, by positivity, ?_, ?_⟩
  · rw [div_le_iff₀ (by positivity)]
    refine hT1.trans ?_
    have : (1 - d)⁻¹ ≤ 13 / 12 := by
      rw [inv_le_comm₀ (by linarith) (by norm_num)]
      norm_num
      linarith
    calc d ^ 13 / 13 * (1 - d)⁻¹ ≤ d ^ 13 / 13 * (13 / 12) := by gcongr
      _ = d / 12 * d ^ 12 := by ring
  · rw [mul_div_cancel₀ _ (by positivity), hT]
    norm_num [Finset.sum_range_succ]

theorem powers_bound {d : ℝ} (h0 : 0 < d) (h1 : d < 0.05) (n : ℕ) : 0 ≤ d ^ n ∧ d ^ (n + 1) ≤ d ^ n / 20 := by
  norm_num at h1
  have := pow_nonneg h0.le n
  refine ⟨this, ?_⟩
  rw [pow_succ]
  nlinarith

/-- The quotient common to both fields: a bound on the numerator gives a bound on the error. -/
theorem beta_error {d A B : ℝ} (h0 : 0 < d) (h1 : d < 0.05) (hB : 0 < B) (hA : |A| ≤ 107 * B / 500) :
    |d ^ 5 * (A / (B * (2 - d) ^ 7))| ≤ d ^ 5 / 500 := by
  norm_num at h1
  have h2 : (107 : ℝ) ≤ (2 - d) ^ 7 := by
    calc (107 : ℝ) ≤ 1.95 ^ 7 := by norm_num
      _ ≤ (2 - d) ^ 7 := by
        gcongr
        linarith
  rw [abs_mul, abs_of_pos (by positivity), abs_div, abs_of_pos (by positivity : 0 < B * (2 - d) ^ 7)]
  have : |A| / (B * (2 - d) ^ 7) ≤ 1 / 500 := by
    rw [div_le_iff₀ (by positivity)]
    nlinarith
  calc d ^ 5 * (|A| / (B * (2 - d) ^ 7)) ≤ d ^ 5 * (1 / 500) := by gcongr
    _ = _ := by ring

/-- The density closed form around `y=1`. -/
theorem betaDelta_near (d : ℝ) (h0 : 0 < d) (h1 : d < 0.05) :
    |120424 / 3009825 + 2792 * d ^ 2 / 429975 + 2792 * d ^ 3 / 429975 + 392606 * d ^ 4 / 99324225 - betaDelta (1 - d)| ≤ d ^ 5 / 500 := by
  obtain ⟨r, r0, r1, hr⟩ := log_twelve d h0 h1
  have hd2 : d < 1 / 20 := by norm_num at h1; linarith
  have e : 120424 / 3009825 + 2792 * d ^ 2 / 429975 + 2792 * d ^ 3 / 429975 + 392606 * d ^ 4 / 99324225 - betaDelta (1 - d)
      = d ^ 5 * ((-17953280 / 231 + 39537152 / 77 * d - 58642688 / 33 * d ^ 2 + 338168192 / 77 * d ^ 3 - 1844949760 / 231 * d ^ 4 + 802615392 / 77 * d ^ 5 - 66915448 / 7 * d ^ 6 + 198870400 / 33 * d ^ 7 - 27506728 / 11 * d ^ 8 + 6795320 / 11 * d ^ 9 - 69340 * d ^ 10 - 240 * (1 + (1 - d) ^ 2) * (1 - d) ^ 4 * (3467 - 790 * (1 - d) ^ 2 + 3467 * (1 - d) ^ 4) * r)
        / (429975 * (2 - d) ^ 7)) := by
    unfold betaDelta
    rw [Real.log_pow, hr, show (1 - d) ^ 2 - 1 = -(d * (2 - d)) by ring]
    have : 2 - d ≠ 0 := by linarith
    push_cast
    field_simp
    ring
  rw [e]
  apply beta_error h0 h1 (by norm_num)
  have hc0 : 0 ≤ (1 + (1 - d) ^ 2) * (1 - d) ^ 4 * (3467 - 790 * (1 - d) ^ 2 + 3467 * (1 - d) ^ 4) := by
    have a : 0 ≤ 1 - d := by linarith
    have b : (1 - d) ^ 2 ≤ 1 := pow_le_one₀ a (by linarith)
    have : 0 ≤ 3467 - 790 * (1 - d) ^ 2 + 3467 * (1 - d) ^ 4 := by nlinarith [pow_nonneg a 4]
    positivity
  have hc1 : (1 + (1 - d) ^ 2) * (1 - d) ^ 4 * (3467 - 790 * (1 - d) ^ 2 + 3467 * (1 - d) ^ 4) ≤ 2 * 1 * 6144 := by
    have a : 0 ≤ 1 - d := by linarith
    have b : (1 - d) ^ 2 ≤ 1 := pow_le_one₀ a (by linarith)
    have c : (1 - d) ^ 4 ≤ 1 := pow_le_one₀ a (by linarith)
    have : 3467 - 790 * (1 - d) ^ 2 + 3467 * (1 - d) ^ 4 ≤ 6144 := by nlinarith [sq_nonneg (1 - d), show (1 - d) ^ 4 = (1 - d) ^ 2 * (1 - d) ^ 2 by ring]
    have : 0 ≤ 3467 - 790 * (1 - d) ^ 2 + 3467 * (1 - d) ^ 4 := by nlinarith [pow_nonneg a 4]
    gcongr
    linarith
  have hc := mul_le_mul hc1 r1 r0 (by norm_num)
  have hc' := mul_nonneg hc0 r0
  rw [show 240 * (1 + (1 - d) ^ 2) * (1 - d) ^ 4 * (3467 - 790 * (1 - d) ^ 2 + 3467 * (1 - d) ^ 4) * r
    = 240 * ((1 + (1 - d) ^ 2) * (1 - d) ^ 4 * (3467 - 790 * (1 - d) ^ 2 + 3467 * (1 - d) ^ 4) * r) by ring]
  generalize (1 + (1 - d) ^ 2) * (1 - d) ^ 4 * (3467 - 790 * (1 - d) ^ 2 + 3467 * (1 - d) ^ 4) * r = t at *
  obtain ⟨p1, p1'⟩ := powers_bound h0 h1 1
  obtain ⟨p2, p2'⟩ := powers_bound h0 h1 2
  obtain ⟨p3, p3'⟩ := powers_bound h0 h1 3
  obtain ⟨p4, p4'⟩ := powers_bound h0 h1 4
  obtain ⟨p5, p5'⟩ := powers_bound h0 h1 5
  obtain ⟨p6, p6'⟩ := powers_bound h0 h1 6
  obtain ⟨p7, p7'⟩ := powers_bound h0 h1 7
  obtain ⟨p8, p8'⟩ := powers_bound h0 h1 8
  obtain ⟨p9, p9'⟩ := powers_bound h0 h1 9
  norm_num at p1 p1' p2' p3' p4' p5' p6' p7' p8' p9'
  have p10 := pow_nonneg h0.le 10
  clear e hr
  rw [abs_le]
  constructor <;> linarith

/-- The velocity closed form around `y=1`: all four coefficients are positive. -/
theorem betaTheta_near (d : ℝ) (h0 : 0 < d) (h1 : d < 0.05) :
    |594232 / 33108075 + 91912 * d ^ 2 / 33108075 + 91912 * d ^ 3 / 33108075 + 1818458 * d ^ 4 / 1092566475 - betaTheta (1 - d)| ≤ d ^ 5 / 500 := by
  obtain ⟨r, r0, r1, hr⟩ := log_twelve d h0 h1
  have hd2 : d < 1 / 20 := by norm_num at h1; linarith
  have e : 594232 / 33108075 + 91912 * d ^ 2 / 33108075 + 91912 * d ^ 3 / 33108075 + 1818458 * d ^ 4 / 1092566475 - betaTheta (1 - d)
      = d ^ 5 * ((-11041280 / 33 + 1955328 * d - 196162304 / 33 * d ^ 2 + 1095974016 / 77 * d ^ 3 - 6294165760 / 231 * d ^ 4 + 2933004576 / 77 * d ^ 5 - 2847684984 / 77 * d ^ 6 + 801616000 / 33 * d ^ 7 - 113903224 / 11 * d ^ 8 + 28539560 / 11 * d ^ 9 - 291220 * d ^ 10 - 240 * (1 + (1 - d) ^ 2) * (1 - d) ^ 4 * (14561 - 10690 * (1 - d) ^ 2 + 14561 * (1 - d) ^ 4) * r)
        / (4729725 * (2 - d) ^ 7)) := by
    unfold betaTheta
    rw [Real.log_pow, hr, show (1 - d) ^ 2 - 1 = -(d * (2 - d)) by ring]
    have : 2 - d ≠ 0 := by linarith
    push_cast
    field_simp
    ring
  rw [e]
  apply beta_error h0 h1 (by norm_num)
  have hc0 : 0 ≤ (1 + (1 - d) ^ 2) * (1 - d) ^ 4 * (14561 - 10690 * (1 - d) ^ 2 + 14561 * (1 - d) ^ 4) := by
    have a : 0 ≤ 1 - d := by linarith
    have b : (1 - d) ^ 2 ≤ 1 := pow_le_one₀ a (by linarith)
    have : 0 ≤ 14561 - 10690 * (1 - d) ^ 2 + 14561 * (1 - d) ^ 4 := by nlinarith [pow_nonneg a 4]
    positivity
  have hc1 : (1 + (1 - d) ^ 2) * (1 - d) ^ 4 * (14561 - 10690 * (1 - d) ^ 2 + 14561 * (1 - d) ^ 4) ≤ 2 * 1 * 18432 := by
    have a : 0 ≤ 1 - d := by linarith
    have b : (1 - d) ^ 2 ≤ 1 := pow_le_one₀ a (by linarith)
    have c : (1 - d) ^ 4 ≤ 1 := pow_le_one₀ a (by linarith)
    have : 14561 - 10690 * (1 - d) ^ 2 + 14561 * (1 - d) ^ 4 ≤ 18432 := by nlinarith [sq_nonneg (1 - d), show (1 - d) ^ 4 = (1 - d) ^ 2 * (1 - d) ^ 2 by ring]
    have : 0 ≤ 14561 - 10690 * (1 - d) ^ 2 + 14561 * (1 - d) ^ 4 := by nlinarith [pow_nonneg a 4]
    gcongr
    linarith
  have hc := mul_le_mul hc1 r1 r0 (by norm_num)
  have hc' := mul_nonneg hc0 r0
  rw [show 240 * (1 + (1 - d) ^ 2) * (1 - d) ^ 4 * (14561 - 10690 * (1 - d) ^ 2 + 14561 * (1 - d) ^ 4) * r
    = 240 * ((1 + (1 - d) ^ 2) * (1 - d) ^ 4 * (14561 - 10690 * (1 - d) ^ 2 + 14561 * (1 - d) ^ 4) * r) by ring]
  generalize (1 + (1 - d) ^ 2) * (1 - d) ^ 4 * (14561 - 10690 * (1 - d) ^ 2 + 14561 * (1 - d) ^ 4) * r = t at *
  obtain ⟨p1, p1'⟩ := powers_bound h0 h1 1
  obtain ⟨p2, p2'⟩ := powers_bound h0 h1 2
  obtain ⟨p3, p3'⟩ := powers_bound h0 h1 3
  obtain ⟨p4, p4'⟩ := powers_bound h0 h1 4
  obtain ⟨p5, p5'⟩ := powers_bound h0 h1 5
  obtain ⟨p6, p6'⟩ := powers_bound h0 h1 6
  obtain ⟨p7, p7'⟩ := powers_bound h0 h1 7
  obtain ⟨p8, p8'⟩ := powers_bound h0 h1 8
  obtain ⟨p9, p9'⟩ := powers_bound h0 h1 9
  norm_num at p1 p1' p2' p3' p4' p5' p6' p7' p8' p9'
  have p10 := pow_nonneg h0.le 10
  clear e hr
  rw [abs_le]
  constructor <;> linarith

/-- C22: the density expansion for strongly unequal wavenumbers agrees with the closed form to fifth order. -/
theorem C22_delta_near (q1 q2 y : ℝ) (h1 : 0 < q1) (h2 : 0 < q2) (hy : y = |(q1 - q2) / (q1 + q2)|) (h : |1 - y| < 0.05) :
    |beta2 .delta q1 q2 - betaDelta y| ≤ (1 - y) ^ 5 / 500 := by
  obtain ⟨-, hlt⟩ := ratio_range q1 q2 h1 h2
  unfold beta2
  dsimp only
  rw [← hy] at hlt ⊢
  rw [if_pos h]
  have h0 : 0 < 1 - y := by linarith
  rw [abs_of_pos h0] at h
  have hb := betaDelta_near (1 - y) h0 h
  rw [sub_sub_cancel] at hb
  refine le_trans (le_of_eq ?_) hb
  congr 1
  norm_num
  ring

/-- C22: the velocity expansion agrees with the closed form to fifth order only after its cubic term is given the opposite
sign; as written it is below it by twice that term. -/
theorem C22_theta_near_partial (q1 q2 y : ℝ) (h1 : 0 < q1) (h2 : 0 < q2) (hy : y = |(q1 - q2) / (q1 + q2)|) (h : |1 - y| < 0.05) :
    |beta2 .theta q1 q2 + 2 * (91912 * (1 - y) ^ 3 / 33108075) - betaTheta y| ≤ (1 - y) ^ 5 / 500 := by
  obtain ⟨-, hlt⟩ := ratio_range q1 q2 h1 h2
  unfold beta2
  dsimp only
  rw [← hy] at hlt ⊢
  rw [if_pos h]
  have h0 : 0 < 1 - y := by linarith
  rw [abs_of_pos h0] at h
  have hb := betaTheta_near (1 - y) h0 h
  rw [sub_sub_cancel] at hb
  refine le_trans (le_of_eq ?_) hb
  congr 1
  ring

/-- C22: the velocity expansion does not agree with the closed form to fifth order, whatever the constant. -/
theorem C22_theta_near_violation : ¬ ∃ C : ℝ, ∀ q1 q2 y : ℝ, 0 < q1 → 0 < q2 → y = |(q1 - q2) / (q1 + q2)| → |1 - y| < 0.05 →
    |beta2 .theta q1 q2 - betaTheta y| ≤ C * (1 - y) ^ 5 := by
  rintro ⟨C, hC⟩
  obtain ⟨d, hd⟩ : ∃ d, d = 1 / (400 * (|C| + 1)) := ⟨_, rfl⟩
  have hC0 := abs_nonneg C
  have hd0 : 0 < d := by rw [hd]; positivity
  have hd1 : d ≤ 1 / 400 := by
    rw [hd]
    apply one_div_le_one_div_of_le (by norm_num)
    linarith
  have hd2 : (|C| + 1) * d = 1 / 400 := by
    rw [hd]; field_simp
  have hy : 1 - d = |((2 - d) - d) / ((2 - d) + d)| := by
    rw [abs_of_nonneg (div_nonneg (by linarith) (by linarith))]
    field_simp
    ring
  have hs : |1 - (1 - d)| < 0.05 := by
    rw [sub_sub_cancel, abs_of_pos hd0]
    norm_num
    linarith
  have a := hC (2 - d) d (1 - d) (by linarith) hd0 hy hs
  have b := C22_theta_near_partial (2 - d) d (1 - d) (by linarith) hd0 hy hs
  rw [sub_sub_cancel] at a b
  have a' := abs_le.mp a
  have b' := abs_le.mp b
  have h5 : C * d ^ 5 ≤ |C| * d ^ 5 := by
    have := le_abs_self C
    gcongr
  have : 2 * (91912 * d ^ 3 / 33108075) ≤ (|C| + 1) * d * (d * d ^ 3) := by nlinarith [pow_pos hd0 5]
  rw [hd2] at this
  have h3 := pow_pos hd0 3
  have h4 : d * d ^ 3 ≤ 1 / 400 * d ^ 3 := by gcongr
  linarith

/-- C22: for nearly equal wavenumbers the density expansion agrees with the closed form up to `y^4` terms. -/
theorem C22_delta_small (q1 q2 y : ℝ) (hy : y = |(q1 - q2) / (q1 + q2)|) (h : y < 0.01) :
    |beta2 .delta q1 q2 - betaDelta y| ≤ 3 * y ^ 4 * (1 + |Real.log y|) := by
  have hy0 : 0 ≤ y := by rw [hy]; exact abs_nonneg _
  have hn : ¬ |1 - y| < 0.05 := by
    norm_num at h
    rw [not_lt, abs_of_pos (by linarith)]
    norm_num
    linarith
  unfold beta2
  dsimp only
  rw [← hy, if_neg hn, if_pos h]
  norm_num at h
  have hw0 : 0 ≤ y ^ 2 := sq_nonneg y
  have hw1 : y ^ 2 ≤ 1 / 10000 := by nlinarith
  have hden : 0.999 ≤ (1 - y ^ 2) ^ 7 := by
    calc (0.999 : ℝ) ≤ (1 - 1 / 10000) ^ 7 := by norm_num
      _ ≤ (1 - y ^ 2) ^ 7 := by gcongr
  have e : 22382 / 429975 - 57052 * y * y / 429975 - betaDelta y
      = y ^ 4 * ((1069064 - 2017892 * y ^ 2 + 2816620 * (y ^ 2) ^ 2 - 2666520 * (y ^ 2) ^ 3 + 1141040 * (y ^ 2) ^ 4 - 399364 * (y ^ 2) ^ 5
          + 57052 * (y ^ 2) ^ 6) / (429975 * (1 - y ^ 2) ^ 7))
        + y ^ 4 * (240 * (1 + y ^ 2) * (3467 - 790 * y ^ 2 + 3467 * (y ^ 2) ^ 2) / (429975 * (1 - y ^ 2) ^ 7)) * Real.log y := by
    unfold betaDelta
    have : 1 - y ^ 2 ≠ 0 := by linarith
    have e1 : y ^ 2 - 1 = -(1 - y ^ 2) := by ring
    rw [Real.log_pow, e1]
    push_cast
    field_simp
    ring
  rw [e]
  generalize y ^ 2 = w at *
  have hp : ∀ n : ℕ, 0 ≤ w ^ n ∧ w ^ (n + 1) ≤ w ^ n / 10000 := by
    intro n
    have := pow_nonneg hw0 n
    refine ⟨this, ?_⟩
    rw [pow_succ]
    nlinarith
  obtain ⟨-, q1'⟩ := hp 1
  obtain ⟨q2, q2'⟩ := hp 2
  obtain ⟨q3, q3'⟩ := hp 3
  obtain ⟨q4, q4'⟩ := hp 4
  obtain ⟨q5, q5'⟩ := hp 5
  obtain ⟨q6, -⟩ := hp 6
  norm_num at q1' q2' q3' q4' q5' q6 hden
  have b1 : |(1069064 - 2017892 * w + 2816620 * w ^ 2 - 2666520 * w ^ 3 + 1141040 * w ^ 4 - 399364 * w ^ 5
      + 57052 * w ^ 6) / (429975 * (1 - w) ^ 7)| ≤ 3 := by
    rw [abs_div, abs_of_pos (by linarith : 0 < 429975 * (1 - w) ^ 7), div_le_iff₀ (by linarith), abs_le]
    constructor <;> linarith
  have b2 : |240 * (1 + w) * (3467 - 790 * w + 3467 * w ^ 2) / (429975 * (1 - w) ^ 7)| ≤ 3 := by
    rw [abs_div, abs_of_pos (by linarith : 0 < 429975 * (1 - w) ^ 7), div_le_iff₀ (by linarith), abs_le]
    constructor <;> nlinarith
  refine (abs_add_le _ _).trans ?_
  rw [abs_mul, abs_mul, abs_mul, abs_of_nonneg (pow_nonneg hy0 4)]
  have hy4 := pow_nonneg hy0 4
  calc _ ≤ y ^ 4 * 3 + y ^ 4 * 3 * |Real.log y| := by gcongr
    _ = _ := by ring

/-- C22: for nearly equal wavenumbers the velocity expansion agrees with the closed form up to `y^4` terms. -/
theorem C22_theta_small (q1 q2 y : ℝ) (hy : y = |(q1 - q2) / (q1 + q2)|) (h : y < 0.01) :
    |beta2 .theta q1 q2 - betaTheta y| ≤ y ^ 4 * (1 + |Real.log y|) := by
  have hy0 : 0 ≤ y := by rw [hy]; exact abs_nonneg _
  have hn : ¬ |1 - y| < 0.05 := by
    norm_num at h
    rw [not_lt, abs_of_pos (by linarith)]
    norm_num
    linarith
  unfold beta2
  dsimp only
  rw [← hy, if_neg hn, if_pos h]
  norm_num at h
  have hw0 : 0 ≤ y ^ 2 := sq_nonneg y
  have hw1 : y ^ 2 ≤ 1 / 10000 := by nlinarith
  have hden : 0.999 ≤ (1 - y ^ 2) ^ 7 := by
    calc (0.999 : ℝ) ≤ (1 - 1 / 10000) ^ 7 := by norm_num
      _ ≤ (1 - y ^ 2) ^ 7 := by gcongr
  have e : 9886 / 429975 - 254356 * y * y / 4729725 - betaTheta y
      = y ^ 4 * ((4371992 - 9964076 * y ^ 2 + 13525060 * (y ^ 2) ^ 2 - 11493960 * (y ^ 2) ^ 3 + 5087120 * (y ^ 2) ^ 4 - 1780492 * (y ^ 2) ^ 5
          + 254356 * (y ^ 2) ^ 6) / (4729725 * (1 - y ^ 2) ^ 7))
        + y ^ 4 * (240 * (1 + y ^ 2) * (14561 - 10690 * y ^ 2 + 14561 * (y ^ 2) ^ 2) / (4729725 * (1 - y ^ 2) ^ 7)) * Real.log y := by
    unfold betaTheta
    have : 1 - y ^ 2 ≠ 0 := by linarith
    have e1 : y ^ 2 - 1 = -(1 - y ^ 2) := by ring
    rw [Real.log_pow, e1]
    push_cast
    field_simp
    ring
  rw [e]
  generalize y ^ 2 = w at *
  have hp : ∀ n : ℕ, 0 ≤ w ^ n ∧ w ^ (n + 1) ≤ w ^ n / 10000 := by
    intro n
    have := pow_nonneg hw0 n
    refine ⟨this, ?_⟩
    rw [pow_succ]
    nlinarith
  obtain ⟨-, q1'⟩ := hp 1
  obtain ⟨q2, q2'⟩ := hp 2
  obtain ⟨q3, q3'⟩ := hp 3
  obtain ⟨q4, q4'⟩ := hp 4
  obtain ⟨q5, q5'⟩ := hp 5
  obtain ⟨q6, -⟩ := hp 6
  norm_num at q1' q2' q3' q4' q5' q6 hden
  have b1 : |(4371992 - 9964076 * w + 13525060 * w ^ 2 - 11493960 * w ^ 3 + 5087120 * w ^ 4 - 1780492 * w ^ 5
      + 254356 * w ^ 6) / (4729725 * (1 - w) ^ 7)| ≤ 1 := by
    rw [abs_div, abs_of_pos (by linarith : 0 < 4729725 * (1 - w) ^ 7), div_le_iff₀ (by linarith), abs_le]
    constructor <;> linarith
  have b2 : |240 * (1 + w) * (14561 - 10690 * w + 14561 * w ^ 2) / (4729725 * (1 - w) ^ 7)| ≤ 1 := by
    rw [abs_div, abs_of_pos (by linarith : 0 < 4729725 * (1 - w) ^ 7), div_le_iff₀ (by linarith), abs_le]
    constructor <;> nlinarith
  refine (abs_add_le _ _).trans ?_
  rw [abs_mul, abs_mul, abs_mul, abs_of_nonneg (pow_nonneg hy0 4)]
  have hy4 := pow_nonneg hy0 4
  calc _ ≤ y ^ 4 * 1 + y ^ 4 * 1 * |Real.log y| := by gcongr
    _ = _ := by ring

/-- C22: between the expanded ranges both kernels are the closed forms. -/
theorem C22_middle (q1 q2 y : ℝ) (hy : y = |(q1 - q2) / (q1 + q2)|) (h1 : 0.05 ≤ |1 - y|) (h2 : 0.01 ≤ y) :
    beta2 .delta q1 q2 = betaDelta y ∧ beta2 .theta q1 q2 = betaTheta y := by
  unfold beta2
  dsimp only
  rw [← hy]
  simp only [if_neg (not_lt.mpr h1), if_neg (not_lt.mpr h2), C01_power]
  unfold betaDelta betaTheta
  rw [Real.log_pow]
  constructor
  · congr 1
    · push_cast
      ring
    · ring
  · congr 1
    · push_cast
      ring
    · norm_num
      ring

example : |beta2 .delta 1.99 0.01 - betaDelta 0.99| ≤ (1 - 0.99) ^ 5 / 500 :=
  C22_delta_near 1.99 0.01 0.99 (by norm_num) (by norm_num) (by norm_num [abs_of_pos]) (by norm_num [abs_of_pos])
example : beta2 .theta 3 1 = betaTheta (1 / 2) :=
  (C22_middle 3 1 (1 / 2) (by norm_num [abs_of_pos]) (by norm_num [abs_of_pos]) (by norm_num)).2
example : |kernelFF 20 - 20 * ffClosed 20| ≤ 1 / (800 * 20 ^ 5) := C21_ff_far 20 (by norm_num)
example : |kernelGG 1.005 - 1.005 * ggClosed 1.005| ≤ |1.005 - 1| ^ 3 / 4 * (1 + |Real.log (|(1.005 - 1) / (1 + 1.005)|)|) :=
  C21_gg_near 1.005 (by norm_num [abs_of_pos])

/-! ## C23 -/

/-- C23: the integrand is symmetric in the loop momenta. -/
theorem C23_symm (a : Field) (k q1 q2 : ℝ) : integGamma12 a k q1 q2 = integGamma12 a k q2 q1 := by
  have hb : ∀ x1 x2, beta2 a x1 x2 = beta2 a x2 x1 := by
    intro x1 x2
    have : |(x1 - x2) / (x1 + x2)| = |(x2 - x1) / (x2 + x1)| := by
      rw [← abs_neg]
      congr 1
      rw [← neg_div, neg_sub, add_comm]
    unfold beta2
    rw [this]
  unfold integGamma12 alpha2
  dsimp only
  rw [hb (q1 / k) (q2 / k), mul_comm (q1 / k) (q2 / k), add_comm (q1 / k * (q1 / k)) (q2 / k * (q2 / k))]

/-- C23: the integrand depends on the ratios `q1/k`, `q2/k` only. -/
theorem C23_scale (a : Field) (s k q1 q2 : ℝ) (hs : s ≠ 0) : integGamma12 a (s * k) (s * q1) (s * q2) = integGamma12 a k q1 q2 := by
  unfold integGamma12
  rw [mul_div_mul_left _ _ hs, mul_div_mul_left _ _ hs]

/-- A quadrature state with `nq` entries in every array. -/
structure GLQ.Ok (g : GLQ ℝ) : Prop where
  q : g.q.length = g.nq
  w : g.w.length = g.nq
  pk : g.pk.length = g.nq

/-- The nodes of a quadrature state as a list of (wavenumber, weight, spectrum). -/
def GLQ.nodes (g : GLQ ℝ) : List (ℝ × ℝ × ℝ) := g.q.zip (g.w.zip g.pk)

theorem nodes_sum (g : GLQ ℝ) (h : g.Ok) (f : ℝ → ℝ → ℝ → ℝ) :
    ∑ i ∈ Finset.range g.nq, f (g.q.getD i 0) (g.w.getD i 0) (g.pk.getD i 0) = (g.nodes.map fun t => f t.1 t.2.1 t.2.2).sum := by
  have hl : (g.nodes.map fun t => f t.1 t.2.1 t.2.2).length = g.nq := by
    simp [GLQ.nodes, h.q, h.w, h.pk]
  rw [← hl, Finset.sum_range, ← List.sum_ofFn]
  congr 1
  apply List.ext_getElem
  · simp
  · intro i h1 h2
    simp [GLQ.nodes, h.q, h.w, h.pk]

/-- C23: the one-loop propagator reads only initialised nodes and is the quadrature sum. -/
theorem C23_one_loop_sum (a : Field) (g : GLQ ℝ) (h : g.Ok) (k : ℝ) :
    gamma1OneLoop a g k = .ok ((g.nodes.map fun t => (match a with | .delta => kernelFF (t.1 / k) | .theta => kernelGG (t.1 / k))
      * t.2.2 * t.2.1).sum * k * k * k / (2 * Real.pi * Real.pi)) := by
  unfold gamma1OneLoop gamma1Loop1
  rw [sumLoop_ok _ _ (fun i => (match a with | .delta => kernelFF (g.q.getD i 0 / k) | .theta => kernelGG (g.q.getD i 0 / k))
    * g.pk.getD i 0 * g.w.getD i 0)]
  · simp only [Res.ok_bind]
    rw [← nodes_sum g h fun q w p => (match a with | .delta => kernelFF (q / k) | .theta => kernelGG (q / k)) * p * w]
    rfl
  · intro i hi
    simp only [updateGLQ] at hi ⊢
    rw [rd_ok (by simpa [h.q] using hi), rd_ok (by simpa [h.pk] using hi), rd_ok (by simpa [h.w] using hi)]
    simp only [Res.ok_bind, List.getElem_map]
    rw [List.getD_eq_getElem _ _ (by simpa [h.q] using hi), List.getD_eq_getElem _ _ (by simpa [h.pk] using hi),
      List.getD_eq_getElem _ _ (by simpa [h.w] using hi)]
    cases a <;> rfl

/-- C23: the two-loop propagator reads only initialised nodes and is the double sum over pairs of nodes. -/
theorem C23_two_loop_sum (a : Field) (g : GLQ ℝ) (h : g.Ok) (k : ℝ) :
    gamma1TwoLoop a g k = .ok ((g.nodes.map fun s => (g.nodes.map fun t =>
      s.2.1 * s.2.2 * s.1 ^ 3 * (t.2.1 * t.2.2 * t.1 ^ 3) * integGamma12 a k s.1 t.1).sum).sum / (4 * Real.pi ^ 4)) := by
  unfold gamma1TwoLoop
  dsimp only
  rw [C01_power]
  rw [sumLoop_ok _ _ (fun i => ∑ j ∈ Finset.range g.nq, g.w.getD i 0 * g.pk.getD i 0 * g.q.getD i 0 ^ 3 *
    (g.w.getD j 0 * g.pk.getD j 0 * g.q.getD j 0 ^ 3) * integGamma12 a k (g.q.getD i 0) (g.q.getD j 0))]
  · simp only [Res.ok_bind]
    congr 2
    rw [← nodes_sum g h fun q1 w1 p1 => (g.nodes.map fun t => w1 * p1 * q1 ^ 3 * (t.2.1 * t.2.2 * t.1 ^ 3) * integGamma12 a k q1 t.1).sum]
    apply Finset.sum_congr rfl
    intro i hi
    exact nodes_sum g h fun q2 w2 p2 => g.w.getD i 0 * g.pk.getD i 0 * g.q.getD i 0 ^ 3 * (w2 * p2 * q2 ^ 3) * integGamma12 a k (g.q.getD i 0) q2
  · intro i hi
    simp only [updateGLQ] at hi ⊢
    have gq : ∀ j < g.nq, rd g.q j = .ok (g.q.getD j 0) := fun j hj => by
      rw [rd_ok (by rw [h.q]; exact hj), List.getD_eq_getElem _ _ (by rw [h.q]; exact hj)]
    have gw : ∀ j < g.nq, rd g.w j = .ok (g.w.getD j 0) := fun j hj => by
      rw [rd_ok (by rw [h.w]; exact hj), List.getD_eq_getElem _ _ (by rw [h.w]; exact hj)]
    have gp : ∀ j < g.nq, rd g.pk j = .ok (g.pk.getD j 0) := fun j hj => by
      rw [rd_ok (by rw [h.pk]; exact hj), List.getD_eq_getElem _ _ (by rw [h.pk]; exact hj)]
    rw [gq i hi, gw i hi, gp i hi]
    simp only [Res.ok_bind]
    rw [sumLoop_ok _ _ (fun j => g.w.getD j 0 * integGamma12 a k (g.q.getD i 0) (g.q.getD j 0) * g.pk.getD j 0 *
      (g.q.getD i 0 * g.q.getD i 0 * g.q.getD i 0) * g.q.getD j 0 * g.q.getD j 0 * g.q.getD j 0)]
    · simp only [Res.ok_bind]
      congr 1
      rw [Finset.mul_sum, Finset.sum_mul]
      apply Finset.sum_congr rfl
      intro j _
      ring
    · intro j hj
      rw [gq j hj, gw j hj, gp j hj]
      rfl

/-- C23: the one-loop and two-loop propagators do not depend on the order in which the nodes are stored or visited. -/
theorem C23_order (a : Field) (g g' : GLQ ℝ) (h : g.Ok) (h' : g'.Ok) (hp : g.nodes.Perm g'.nodes) (k : ℝ) :
    gamma1OneLoop a g k = gamma1OneLoop a g' k ∧ gamma1TwoLoop a g k = gamma1TwoLoop a g' k := by
  rw [C23_one_loop_sum a g h, C23_one_loop_sum a g' h', C23_two_loop_sum a g h, C23_two_loop_sum a g' h']
  constructor
  · rw [(hp.map _).sum_eq]
  · congr 2
    rw [(hp.map _).sum_eq]
    congr 1
    apply List.map_congr_left
    intro s _
    exact (hp.map _).sum_eq

example : (⟨2, 1, [1, 2], [1, 2], [3, 4], [5, 6]⟩ : GLQ ℝ).Ok := ⟨rfl, rfl, rfl⟩
example : (⟨2, 1, [1, 2], [1, 2], [3, 4], [5, 6]⟩ : GLQ ℝ).nodes.Perm (⟨2, 1, [2, 1], [2, 1], [4, 3], [6, 5]⟩ : GLQ ℝ).nodes :=
  List.Perm.swap _ _ _

end Verif
