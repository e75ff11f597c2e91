import Verif.Proofs.TriLog
import Mathlib.Analysis.Asymptotics.SpecificAsymptotics
import Mathlib.Topology.Algebra.Order.Field

/-!
# Growth of the pieces of the second-order loop kernels at large and at small loop wavenumber
-/

namespace Verif

noncomputable section

open Asymptotics Filter Topology

/-- Expansion of the logarithm `triLog` at large `q`. -/
def triInf (a b c q : ℝ) : ℝ :=
  4 * c / q ^ 3 * (1 + (a ^ 2 + b ^ 2 - c ^ 2 + c ^ 2 / 3) / q ^ 2 +
    ((a ^ 2 + b ^ 2 - c ^ 2) ^ 2 - a ^ 2 * b ^ 2 + 2 / 3 * (a ^ 2 + b ^ 2 - c ^ 2) * c ^ 2 + c ^ 4 / 5) / q ^ 4)

/-- Expansion of the logarithm `triLog` at small `q`, with `p = 1/(a b)²` and `S = a²+b²-c²`. -/
def triZeroE (c S p q : ℝ) : ℝ :=
  4 * c * q * (p + (c ^ 2 / 3 + S) * p ^ 2 * q ^ 2 + ((c ^ 4 / 5 + S ^ 2 + 2 / 3 * c ^ 2 * S) * p ^ 3 - p ^ 2) * q ^ 4 +
    ((c ^ 6 / 7 + 3 / 5 * c ^ 4 * S + c ^ 2 * S ^ 2 + S ^ 3) * p ^ 4 - (2 / 3 * c ^ 2 + 2 * S) * p ^ 3) * q ^ 6)

/-- Expansion of the logarithm `triLog` at small `q`. -/
def triZero (a b c q : ℝ) : ℝ := triZeroE c (a ^ 2 + b ^ 2 - c ^ 2) (1 / (a ^ 2 * b ^ 2)) q

theorem tendsto_invsq : Tendsto (fun q : ℝ => (q ^ 2)⁻¹) atTop (𝓝 0) :=
  (tendsto_pow_atTop (n := 2) (by norm_num)).inv_tendsto_atTop

theorem tendsto_ratio (a b c : ℝ) : Tendsto (fun q : ℝ => q ^ 4 / triM a b c q) atTop (𝓝 1) := by
  have h : Tendsto (fun q : ℝ => (1 - (a ^ 2 + b ^ 2 - c ^ 2) * (q ^ 2)⁻¹ + a ^ 2 * b ^ 2 * ((q ^ 2)⁻¹ * (q ^ 2)⁻¹))⁻¹) atTop (𝓝 1) := by
    have := (((tendsto_const_nhds (x := (1 : ℝ))).sub (tendsto_invsq.const_mul (a ^ 2 + b ^ 2 - c ^ 2))).add
      ((tendsto_invsq.mul tendsto_invsq).const_mul (a ^ 2 * b ^ 2))).inv₀ (by norm_num)
    simpa using this
  refine h.congr' ?_
  filter_upwards [eventually_gt_atTop 0] with q hq
  rw [inv_eq_one_div, show triM a b c q = q ^ 4 * (1 - (a ^ 2 + b ^ 2 - c ^ 2) * (q ^ 2)⁻¹ + a ^ 2 * b ^ 2 * ((q ^ 2)⁻¹ * (q ^ 2)⁻¹)) from by
    unfold triM; field_simp; ring, ← div_div, div_self (by positivity)]

theorem inf_algebra (S P c u r : ℝ) (h : r = 1 + u * r * (S - P * u)) :
    r * (1 + c ^ 2 * u * r / 3 + c ^ 4 * u ^ 2 * r ^ 2 / 5) - (1 + (S + c ^ 2 / 3) * u + (S ^ 2 - P + 2 / 3 * S * c ^ 2 + c ^ 4 / 5) * u ^ 2) =
    u ^ 3 * (((S ^ 2 - P) * r * (S - P * u) - S * P * r) + c ^ 2 / 3 * (S * r * (S - P * u) * (r + 2) - P * r * (r + 1)) +
      c ^ 4 / 5 * (r * (S - P * u) * (r ^ 2 + r + 1))) := by
  have e1 : r - 1 = u * r * (S - P * u) := by linarith
  linear_combination (1 + S * u + (S ^ 2 - P) * u ^ 2 + c ^ 2 / 3 * u * ((r + 1) + S * u * (r + 2)) + c ^ 4 / 5 * u ^ 2 * (r ^ 2 + r + 1)) * h

theorem triSum_inf (a b c : ℝ) :
    (fun q => triSum 3 (c * q) (triM a b c q) - triInf a b c q) =O[atTop] fun q : ℝ => q ^ (-9 : ℤ) := by
  set S := a ^ 2 + b ^ 2 - c ^ 2 with hS
  set P := a ^ 2 * b ^ 2 with hP
  have hr := tendsto_ratio a b c
  have hu := tendsto_invsq
  have hq : Tendsto (fun q : ℝ => 4 * c * ((((S ^ 2 - P) * (q ^ 4 / triM a b c q) * (S - P * (q ^ 2)⁻¹) - S * P * (q ^ 4 / triM a b c q)) +
      c ^ 2 / 3 * (S * (q ^ 4 / triM a b c q) * (S - P * (q ^ 2)⁻¹) * ((q ^ 4 / triM a b c q) + 2) - P * (q ^ 4 / triM a b c q) * ((q ^ 4 / triM a b c q) + 1)) +
      c ^ 4 / 5 * ((q ^ 4 / triM a b c q) * (S - P * (q ^ 2)⁻¹) * ((q ^ 4 / triM a b c q) ^ 2 + (q ^ 4 / triM a b c q) + 1))))) atTop
      (𝓝 (4 * c * ((((S ^ 2 - P) * 1 * (S - P * 0) - S * P * 1) + c ^ 2 / 3 * (S * 1 * (S - P * 0) * (1 + 2) - P * 1 * (1 + 1)) +
      c ^ 4 / 5 * (1 * (S - P * 0) * (1 ^ 2 + 1 + 1)))))) := by
    have h1 := (hu.const_mul P).const_sub S
    exact ((((hr.const_mul (S ^ 2 - P)).mul h1).sub (hr.const_mul (S * P))).add
      (((((hr.const_mul S).mul h1).mul (hr.add_const 2)).sub ((hr.const_mul P).mul (hr.add_const 1))).const_mul (c ^ 2 / 3)) |>.add
      (((hr.mul h1).mul (((hr.pow 2).add hr).add_const 1)).const_mul (c ^ 4 / 5))).const_mul (4 * c)
  have hO := (hq.isBigO_one ℝ).mul (isBigO_refl (fun q : ℝ => q ^ (-9 : ℤ)) atTop)
  simp only [one_mul] at hO
  refine IsBigO.congr' hO ?_ EventuallyEq.rfl
  filter_upwards [eventually_gt_atTop 0, hr.eventually_ne (show (1 : ℝ) ≠ 0 by norm_num)] with q hq0 hr0
  have hm : triM a b c q ≠ 0 := fun h0 => hr0 (by rw [h0, div_zero])
  have hrel : q ^ 4 / triM a b c q = 1 + (q ^ 2)⁻¹ * (q ^ 4 / triM a b c q) * (S - P * (q ^ 2)⁻¹) := by
    have : triM a b c q = q ^ 4 - S * q ^ 2 + P := by rw [hS, hP]; unfold triM; ring
    field_simp
    rw [this]; ring
  have halg := inf_algebra S P c (q ^ 2)⁻¹ (q ^ 4 / triM a b c q) hrel
  have e1 : triSum 3 (c * q) (triM a b c q) = 4 * c / q ^ 3 * ((q ^ 4 / triM a b c q) * (1 + c ^ 2 * (q ^ 2)⁻¹ * (q ^ 4 / triM a b c q) / 3 +
      c ^ 4 * (q ^ 2)⁻¹ ^ 2 * (q ^ 4 / triM a b c q) ^ 2 / 5)) := by
    rw [triSum]
    simp only [Finset.sum_range_succ, Finset.sum_range_zero]
    push_cast
    field_simp
    ring
  have e2 : triInf a b c q = 4 * c / q ^ 3 * (1 + (S + c ^ 2 / 3) * (q ^ 2)⁻¹ + (S ^ 2 - P + 2 / 3 * S * c ^ 2 + c ^ 4 / 5) * (q ^ 2)⁻¹ ^ 2) := by
    rw [triInf, ← hS, ← hP]
    field_simp
  rw [e1, e2, ← mul_sub, halg]
  rw [show q ^ (-9 : ℤ) = 1 / q ^ 3 * ((q ^ 2)⁻¹) ^ 3 from by
    rw [zpow_neg, show q ^ (9 : ℤ) = q ^ 9 from by norm_cast]; field_simp]
  ring

theorem triLog_inf (a b c : ℝ) (hc : 0 < c) :
    (fun q => triLog (c * q) (triM a b c q) - triInf a b c q) =O[atTop] fun q : ℝ => q ^ (-9 : ℤ) := by
  have h1 : (fun q => triLog (c * q) (triM a b c q) - triSum 3 (c * q) (triM a b c q)) =O[atTop] fun q : ℝ => q ^ (-9 : ℤ) := by
    have hr := tendsto_ratio a b c
    refine IsBigO.of_bound (6 * c * c ^ 6 * 16) ?_
    filter_upwards [eventually_gt_atTop 0, hr.eventually (gt_mem_nhds (show (1 : ℝ) < 2 by norm_num)),
      hr.eventually (lt_mem_nhds (show (1 / 2 : ℝ) < 1 by norm_num)), eventually_gt_atTop (4 * c)] with q hq0 hr2 hr1 hqc
    have hm : 0 < triM a b c q := by
      rcases lt_trichotomy (triM a b c q) 0 with h | h | h
      · have : q ^ 4 / triM a b c q < 0 := div_neg_of_pos_of_neg (by positivity) h
        linarith
      · rw [h, div_zero] at hr1; norm_num at hr1
      · exact h
    have h4 : q ^ 4 < 2 * triM a b c q := by rwa [div_lt_iff₀ hm] at hr2
    have := triLog_near 3 (c * q) (triM a b c q) (by positivity) (by
      have : q ^ 2 * (16 * c ^ 2) ≤ q ^ 2 * q ^ 2 := by gcongr; nlinarith
      nlinarith)
    rw [Real.norm_eq_abs]
    refine this.trans ?_
    rw [Real.norm_eq_abs, abs_of_pos (by positivity)]
    have e : 6 * (c * q) / triM a b c q * ((c * q) ^ 2 / triM a b c q) ^ 3 = 6 * c * c ^ 6 * (q ^ 4 / triM a b c q) ^ 4 * q ^ (-9 : ℤ) := by
      rw [zpow_neg, show q ^ (9 : ℤ) = q ^ 9 from by norm_cast]; field_simp
    rw [e]
    have : (q ^ 4 / triM a b c q) ^ 4 ≤ 2 ^ 4 := by gcongr
    calc 6 * c * c ^ 6 * (q ^ 4 / triM a b c q) ^ 4 * q ^ (-9 : ℤ) ≤ 6 * c * c ^ 6 * 2 ^ 4 * q ^ (-9 : ℤ) := by gcongr
      _ = _ := by norm_num
  refine (h1.add (triSum_inf a b c)).congr_left fun q => by ring

theorem LFunc_inf (k : ℝ) (hk : 0 < k) : (fun q => LFunc k q - 4 * artSum 5 (k / q)) =O[atTop] fun q : ℝ => q ^ (-11 : ℤ) := by
  refine IsBigO.of_bound (6 * k ^ 11) ?_
  filter_upwards [eventually_gt_atTop (2 * k)] with q hq
  have hq0 : 0 < q := by linarith
  rw [Real.norm_eq_abs, Real.norm_eq_abs, abs_of_pos (by positivity : 0 < q ^ (-11 : ℤ))]
  refine (LFunc_large 5 k q hk hq.le).trans (le_of_eq ?_)
  rw [zpow_neg, show q ^ (11 : ℤ) = q ^ 11 from by norm_cast, div_pow]; ring

theorem LFunc_zero (k : ℝ) (hk : 0 < k) : (fun q => LFunc k q - 4 * artSum 4 (q / k)) =O[𝓝[>] 0] fun q : ℝ => q ^ (9 : ℤ) := by
  refine IsBigO.of_bound (6 / k ^ 9) ?_
  filter_upwards [Ioo_mem_nhdsGT (show 0 < k / 2 by positivity)] with q hq
  have hq0 : 0 < q := hq.1
  rw [Real.norm_eq_abs, Real.norm_eq_abs, abs_of_pos (by positivity : 0 < q ^ (9 : ℤ))]
  refine (LFunc_small 4 k q hq0 (by linarith [hq.2])).trans (le_of_eq ?_)
  rw [show q ^ (9 : ℤ) = q ^ 9 from by norm_cast, div_pow]; ring

/-- The remainder of the expansion `triZeroE`. -/
def triZeroRem (c S p u r : ℝ) : ℝ :=
  1 / 7 * c ^ 6 * S * p ^ 4 * r + 1 / 7 * c ^ 6 * S * p ^ 3 * r ^ 2 + 1 / 7 * c ^ 6 * S * p ^ 2 * r ^ 3 + 1 / 7 * c ^ 6 * S * p * r ^ 4 -
    1 / 7 * c ^ 6 * u * p ^ 4 * r - 1 / 7 * c ^ 6 * u * p ^ 3 * r ^ 2 - 1 / 7 * c ^ 6 * u * p ^ 2 * r ^ 3 - 1 / 7 * c ^ 6 * u * p * r ^ 4 +
    3 / 5 * c ^ 4 * S ^ 2 * p ^ 4 * r + 2 / 5 * c ^ 4 * S ^ 2 * p ^ 3 * r ^ 2 + 1 / 5 * c ^ 4 * S ^ 2 * p ^ 2 * r ^ 3 - 3 / 5 * c ^ 4 * S *
    u * p ^ 4 * r - 2 / 5 * c ^ 4 * S * u * p ^ 3 * r ^ 2 - 1 / 5 * c ^ 4 * S * u * p ^ 2 * r ^ 3 - 1 / 5 * c ^ 4 * p ^ 3 * r - 1 / 5 * c ^
    4 * p ^ 2 * r ^ 2 - 1 / 5 * c ^ 4 * p * r ^ 3 + c ^ 2 * S ^ 3 * p ^ 4 * r + 1 / 3 * c ^ 2 * S ^ 3 * p ^ 3 * r ^ 2 - c ^ 2 * S ^ 2 * u *
    p ^ 4 * r - 1 / 3 * c ^ 2 * S ^ 2 * u * p ^ 3 * r ^ 2 - 4 / 3 * c ^ 2 * S * p ^ 3 * r - 2 / 3 * c ^ 2 * S * p ^ 2 * r ^ 2 + 2 / 3 * c ^
    2 * u * p ^ 3 * r + 1 / 3 * c ^ 2 * u * p ^ 2 * r ^ 2 + S ^ 4 * p ^ 4 * r - S ^ 3 * u * p ^ 4 * r - 3 * S ^ 2 * p ^ 3 * r + 2 * S * u *
    p ^ 3 * r + p ^ 2 * r

theorem zero_algebra (S p c u r : ℝ) (h : r = p + u * p * r * (S - u)) :
    r * (1 + c ^ 2 * u * r / 3 + c ^ 4 * u ^ 2 * r ^ 2 / 5 + c ^ 6 * u ^ 3 * r ^ 3 / 7) -
      (p + (c ^ 2 / 3 + S) * p ^ 2 * u + ((c ^ 4 / 5 + S ^ 2 + 2 / 3 * c ^ 2 * S) * p ^ 3 - p ^ 2) * u ^ 2 +
    ((c ^ 6 / 7 + 3 / 5 * c ^ 4 * S + c ^ 2 * S ^ 2 + S ^ 3) * p ^ 4 - (2 / 3 * c ^ 2 + 2 * S) * p ^ 3) * u ^ 3) =
    u ^ 4 * triZeroRem c S p u r := by
  unfold triZeroRem
  linear_combination (1 / 7 * c ^ 6 * u ^ 3 * p ^ 3 + 1 / 7 * c ^ 6 * u ^ 3 * p ^ 2 * r + 1 / 7 * c ^ 6 * u ^ 3 * p * r ^ 2 + 1 / 7 * c ^ 6 * u ^ 3 * r ^ 3 +
    3 / 5 * c ^ 4 * S * u ^ 3 * p ^ 3 + 2 / 5 * c ^ 4 * S * u ^ 3 * p ^ 2 * r + 1 / 5 * c ^ 4 * S * u ^ 3 * p * r ^ 2 + 1 / 5 * c ^ 4 * u ^
    2 * p ^ 2 + 1 / 5 * c ^ 4 * u ^ 2 * p * r + 1 / 5 * c ^ 4 * u ^ 2 * r ^ 2 + c ^ 2 * S ^ 2 * u ^ 3 * p ^ 3 + 1 / 3 * c ^ 2 * S ^ 2 * u ^
    3 * p ^ 2 * r + 2 / 3 * c ^ 2 * S * u ^ 2 * p ^ 2 + 1 / 3 * c ^ 2 * S * u ^ 2 * p * r - 2 / 3 * c ^ 2 * u ^ 3 * p ^ 2 - 1 / 3 * c ^ 2 *
    u ^ 3 * p * r + 1 / 3 * c ^ 2 * u * p + 1 / 3 * c ^ 2 * u * r + S ^ 3 * u ^ 3 * p ^ 3 + S ^ 2 * u ^ 2 * p ^ 2 - 2 * S * u ^ 3 * p ^ 2 +
    S * u * p - u ^ 2 * p + 1) * h

theorem tendsto_ratio_zero (a b c : ℝ) (ha : 0 < a) (hb : 0 < b) : Tendsto (fun q : ℝ => 1 / triM a b c q) (𝓝[>] 0) (𝓝 (1 / (a ^ 2 * b ^ 2))) := by
  have hc : Continuous fun q => triM a b c q := by unfold triM; fun_prop
  have h0 : triM a b c 0 = a ^ 2 * b ^ 2 := by unfold triM; ring
  have := (hc.tendsto 0).inv₀ (by rw [h0]; positivity)
  rw [h0] at this
  simpa only [one_div] using this.mono_left nhdsWithin_le_nhds

theorem triSum_zero (a b c : ℝ) (ha : 0 < a) (hb : 0 < b) :
    (fun q => triSum 4 (c * q) (triM a b c q) - triZero a b c q) =O[𝓝[>] 0] fun q : ℝ => q ^ (9 : ℤ) := by
  set S := a ^ 2 + b ^ 2 - c ^ 2 with hS
  set p := 1 / (a ^ 2 * b ^ 2) with hp
  have hr := tendsto_ratio_zero a b c ha hb
  have hu : Tendsto (fun q : ℝ => q ^ 2) (𝓝[>] 0) (𝓝 (0 ^ 2)) :=
    ((continuous_pow 2).tendsto (0 : ℝ)).mono_left nhdsWithin_le_nhds
  have hcont : Continuous fun z : ℝ × ℝ => 4 * c * triZeroRem c S p z.1 z.2 := by unfold triZeroRem; fun_prop
  have hq := (hcont.tendsto _).comp (hu.prodMk_nhds hr)
  have hO := (hq.isBigO_one ℝ).mul (isBigO_refl (fun q : ℝ => q ^ (9 : ℤ)) (𝓝[>] 0))
  simp only [one_mul] at hO
  refine IsBigO.congr' hO ?_ EventuallyEq.rfl
  filter_upwards [self_mem_nhdsWithin, hr.eventually_ne (show (1 / (a ^ 2 * b ^ 2) : ℝ) ≠ 0 by positivity)] with q hq0 hr0
  have hq0 : 0 < q := hq0
  have hm : triM a b c q ≠ 0 := fun h0 => hr0 (by rw [h0, div_zero])
  have hrel : 1 / triM a b c q = p + q ^ 2 * p * (1 / triM a b c q) * (S - q ^ 2) := by
    have : triM a b c q = q ^ 4 - S * q ^ 2 + a ^ 2 * b ^ 2 := by rw [hS]; unfold triM; ring
    rw [hp]
    field_simp
    rw [this]; ring
  have halg := zero_algebra S p c (q ^ 2) (1 / triM a b c q) hrel
  have e1 : triSum 4 (c * q) (triM a b c q) = 4 * c * q * (1 / triM a b c q * (1 + c ^ 2 * q ^ 2 * (1 / triM a b c q) / 3 +
      c ^ 4 * (q ^ 2) ^ 2 * (1 / triM a b c q) ^ 2 / 5 + c ^ 6 * (q ^ 2) ^ 3 * (1 / triM a b c q) ^ 3 / 7)) := by
    rw [triSum]
    simp only [Finset.sum_range_succ, Finset.sum_range_zero]
    push_cast
    field_simp
    ring
  have e2 : triZero a b c q = 4 * c * q * (p + (c ^ 2 / 3 + S) * p ^ 2 * q ^ 2 + ((c ^ 4 / 5 + S ^ 2 + 2 / 3 * c ^ 2 * S) * p ^ 3 - p ^ 2) * (q ^ 2) ^ 2 +
    ((c ^ 6 / 7 + 3 / 5 * c ^ 4 * S + c ^ 2 * S ^ 2 + S ^ 3) * p ^ 4 - (2 / 3 * c ^ 2 + 2 * S) * p ^ 3) * (q ^ 2) ^ 3) := by
    rw [triZero, ← hS, ← hp, triZeroE]
    ring
  rw [e1, e2, ← mul_sub, halg, show q ^ (9 : ℤ) = q ^ 9 from by norm_cast]
  simp only [Function.comp_apply]
  ring

theorem triLog_zero (a b c : ℝ) (ha : 0 < a) (hb : 0 < b) (hc : 0 < c) :
    (fun q => triLog (c * q) (triM a b c q) - triZero a b c q) =O[𝓝[>] 0] fun q : ℝ => q ^ (9 : ℤ) := by
  have h1 : (fun q => triLog (c * q) (triM a b c q) - triSum 4 (c * q) (triM a b c q)) =O[𝓝[>] 0] fun q : ℝ => q ^ (9 : ℤ) := by
    have hP : 0 < a ^ 2 * b ^ 2 := by positivity
    have hC : Continuous fun q => triM a b c q := by unfold triM; fun_prop
    have h0 : triM a b c 0 = a ^ 2 * b ^ 2 := by unfold triM; ring
    have hev : ∀ᶠ q in 𝓝[>] (0 : ℝ), a ^ 2 * b ^ 2 / 2 < triM a b c q :=
      nhdsWithin_le_nhds ((hC.tendsto 0).eventually (lt_mem_nhds (by rw [h0]; linarith)))
    have hC2 : Continuous fun q : ℝ => 4 * (c * q) ^ 2 := by fun_prop
    have hev2 : ∀ᶠ q in 𝓝[>] (0 : ℝ), 4 * (c * q) ^ 2 < a ^ 2 * b ^ 2 / 2 :=
      nhdsWithin_le_nhds ((hC2.tendsto 0).eventually (gt_mem_nhds (by simpa using hP)))
    refine IsBigO.of_bound (6 * c * c ^ 8 / (a ^ 2 * b ^ 2 / 2) ^ 5) ?_
    filter_upwards [self_mem_nhdsWithin, hev, hev2] with q hq0 hm hs
    have hq0 : 0 < q := hq0
    have hm0 : 0 < triM a b c q := by linarith
    have := triLog_near 4 (c * q) (triM a b c q) (by positivity) (by linarith)
    rw [Real.norm_eq_abs]
    refine this.trans ?_
    rw [Real.norm_eq_abs, abs_of_pos (by positivity)]
    have e : 6 * (c * q) / triM a b c q * ((c * q) ^ 2 / triM a b c q) ^ 4 = 6 * c * c ^ 8 / triM a b c q ^ 5 * q ^ (9 : ℤ) := by
      rw [show q ^ (9 : ℤ) = q ^ 9 from by norm_cast]; field_simp
    rw [e]
    gcongr
  refine (h1.add (triSum_zero a b c ha hb)).congr_left fun q => by ring

/-! ### Ratios of even polynomials -/

theorem inf_mono (m n : ℤ) (h : m ≤ n) : (fun q : ℝ => q ^ m) =O[atTop] fun q : ℝ => q ^ n := by
  refine IsBigO.of_bound 1 ?_
  filter_upwards [eventually_ge_atTop 1] with q hq
  rw [one_mul, Real.norm_eq_abs, Real.norm_eq_abs, abs_of_pos (by positivity), abs_of_pos (by positivity)]
  exact zpow_le_zpow_right₀ hq h

theorem zero_mono (m n : ℤ) (h : n ≤ m) : (fun q : ℝ => q ^ m) =O[𝓝[>] 0] fun q : ℝ => q ^ n := by
  refine IsBigO.of_bound 1 ?_
  filter_upwards [Ioo_mem_nhdsGT (show (0 : ℝ) < 1 by norm_num)] with q hq
  have hq0 : 0 < q := hq.1
  rw [one_mul, Real.norm_eq_abs, Real.norm_eq_abs, abs_of_pos (by positivity), abs_of_pos (by positivity)]
  exact zpow_le_zpow_right_of_le_one₀ hq0 hq.2.le h

theorem inf_term (c d : ℝ) (m n : ℕ) (e : ℤ) (h : (m : ℤ) - n ≤ e) : (fun q : ℝ => c * q ^ m / (d * q ^ n)) =O[atTop] fun q : ℝ => q ^ e := by
  refine (((isBigO_refl (fun q : ℝ => q ^ ((m : ℤ) - n)) atTop).const_mul_left (c / d)).trans (inf_mono _ _ h)).congr' ?_ EventuallyEq.rfl
  filter_upwards [eventually_gt_atTop 0] with q hq
  rw [zpow_sub₀ hq.ne', zpow_natCast, zpow_natCast, mul_div_mul_comm]

theorem zero_term (c d : ℝ) (m n : ℕ) (e : ℤ) (h : e ≤ (m : ℤ) - n) : (fun q : ℝ => c * q ^ m / (d * q ^ n)) =O[𝓝[>] 0] fun q : ℝ => q ^ e := by
  refine (((isBigO_refl (fun q : ℝ => q ^ ((m : ℤ) - n)) (𝓝[>] 0)).const_mul_left (c / d)).trans (zero_mono _ _ h)).congr' ?_ EventuallyEq.rfl
  filter_upwards [self_mem_nhdsWithin] with q hq
  have hq : (0 : ℝ) < q := hq
  rw [zpow_sub₀ hq.ne', zpow_natCast, zpow_natCast, mul_div_mul_comm]

theorem inf_frac5 (c0 c1 c2 c3 c4 d : ℝ) (n : ℕ) (e : ℤ) (h : (8 : ℤ) - n ≤ e) :
    (fun q : ℝ => (c0 + c1 * pw q 2 + c2 * pw q 4 + c3 * pw q 6 + c4 * pw q 8) / (d * pw q n)) =O[atTop] fun q : ℝ => q ^ e := by
  refine (((((inf_term c0 d 0 n e (by push_cast at h ⊢; omega)).add (inf_term c1 d 2 n e (by push_cast at h ⊢; omega))).add (inf_term c2 d 4 n e (by push_cast at h ⊢; omega))).add (inf_term c3 d 6 n e (by push_cast at h ⊢; omega))).add (inf_term c4 d 8 n e (by push_cast at h ⊢; omega))).congr_left fun q => ?_
  simp only [pw]
  ring

theorem inf_frac6 (c0 c1 c2 c3 c4 c5 d : ℝ) (n : ℕ) (e : ℤ) (h : (10 : ℤ) - n ≤ e) :
    (fun q : ℝ => (c0 + c1 * pw q 2 + c2 * pw q 4 + c3 * pw q 6 + c4 * pw q 8 + c5 * pw q 10) / (d * pw q n)) =O[atTop] fun q : ℝ => q ^ e := by
  refine ((((((inf_term c0 d 0 n e (by push_cast at h ⊢; omega)).add (inf_term c1 d 2 n e (by push_cast at h ⊢; omega))).add (inf_term c2 d 4 n e (by push_cast at h ⊢; omega))).add (inf_term c3 d 6 n e (by push_cast at h ⊢; omega))).add (inf_term c4 d 8 n e (by push_cast at h ⊢; omega))).add (inf_term c5 d 10 n e (by push_cast at h ⊢; omega))).congr_left fun q => ?_
  simp only [pw]
  ring

theorem zero_frac5 (c0 c1 c2 c3 c4 d : ℝ) (n : ℕ) (e : ℤ) (h : e ≤ -(n : ℤ)) :
    (fun q : ℝ => (c0 + c1 * pw q 2 + c2 * pw q 4 + c3 * pw q 6 + c4 * pw q 8) / (d * pw q n)) =O[𝓝[>] 0] fun q : ℝ => q ^ e := by
  refine (((((zero_term c0 d 0 n e (by push_cast at h ⊢; omega)).add (zero_term c1 d 2 n e (by push_cast at h ⊢; omega))).add (zero_term c2 d 4 n e (by push_cast at h ⊢; omega))).add (zero_term c3 d 6 n e (by push_cast at h ⊢; omega))).add (zero_term c4 d 8 n e (by push_cast at h ⊢; omega))).congr_left fun q => ?_
  simp only [pw]
  ring

theorem zero_frac6 (c0 c1 c2 c3 c4 c5 d : ℝ) (n : ℕ) (e : ℤ) (h : e ≤ -(n : ℤ)) :
    (fun q : ℝ => (c0 + c1 * pw q 2 + c2 * pw q 4 + c3 * pw q 6 + c4 * pw q 8 + c5 * pw q 10) / (d * pw q n)) =O[𝓝[>] 0] fun q : ℝ => q ^ e := by
  refine ((((((zero_term c0 d 0 n e (by push_cast at h ⊢; omega)).add (zero_term c1 d 2 n e (by push_cast at h ⊢; omega))).add (zero_term c2 d 4 n e (by push_cast at h ⊢; omega))).add (zero_term c3 d 6 n e (by push_cast at h ⊢; omega))).add (zero_term c4 d 8 n e (by push_cast at h ⊢; omega))).add (zero_term c5 d 10 n e (by push_cast at h ⊢; omega))).congr_left fun q => ?_
  simp only [pw]
  ring

end

end Verif
