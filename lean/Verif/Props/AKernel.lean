import Verif.Spec.TreeBispectrum
import Verif.Props.Redshift
import Verif.Props.Gamma1
import Mathlib.Analysis.SpecialFunctions.Integrals.Basic

/-!
# One-loop A kernels (C53, C54)
-/

namespace Verif

/-- The part of the tree-level A correction proportional to the product of the spectra at `k` and `q`. -/
noncomputable def aCoef (x mu : ℝ) (c : Fin 5) : ℝ :=
  columnsA2 (assembleA2 x mu (treeOut 1 x (Real.sqrt (1 + x ^ 2 - 2 * mu * x)) 1 1 0)) c / x

/-- Second-order kernels of the three pairs of sides of the triangle `1, x, y`. -/
theorem gamma2Tree_sides (a : Field) (x mu y : ℝ) (hy : y * y = 1 + x ^ 2 - 2 * mu * x) :
    gamma2Tree a y 1 x = F2Fast a (1 + x ^ 2 - 2 * mu * x) 1 (x * mu - 1) ∧
    gamma2Tree a x 1 y = F2Fast a (x ^ 2) 1 (-(x * mu)) ∧
    gamma2Tree a x y 1 = F2Fast a (x ^ 2) (1 + x ^ 2 - 2 * mu * x) (x * mu - x ^ 2) ∧
    gamma2Tree a y x 1 = F2Fast a (x ^ 2) (1 + x ^ 2 - 2 * mu * x) (x * mu - x ^ 2) := by
  unfold gamma2Tree
  simp only [hy]
  refine ⟨?_, ?_, ?_, ?_⟩ <;> cases a <;> simp only [F2Fast] <;> ring

theorem a_pointwise (x mu y Y Pk Pq Pr : ℝ) (hx : x ≠ 0) (hs : y * y = 1 + x ^ 2 - 2 * mu * x) (hY : 1 + x ^ 2 - 2 * mu * x = Y)
    (hY0 : Y ≠ 0) (c : Fin 5) :
    columnsA2 (assembleA2 x mu (treeOut 1 x y Pk Pq Pr)) c / x =
      (kA1 (pw x) (pw mu) c * Pk + ktA1 (pw x) (pw mu) c * Pq) * (Pr / Y ^ 2) +
       columnsA2 (assembleA2 x mu (treeOut 1 x y 1 1 0)) c / x * (Pk * Pq) := by
  have hx2 : x * x = x ^ 2 := by ring
  unfold columnsA2 assembleA2 projA projtA treeOut treeBi kA1 ktA1 pw
  simp only [(gamma2Tree_sides _ x mu y hs).1, (gamma2Tree_sides _ x mu y hs).2.1, (gamma2Tree_sides _ x mu y hs).2.2.1,
    (gamma2Tree_sides _ x mu y hs).2.2.2, hx2, hY]
  fin_cases c <;> simp [F2Fast] <;> field_simp <;> rw [← hY] <;> ring

/-- C53: inserting the tree-level bispectrum in the two-loop projection kernels gives the one-loop kernels (pointwise), plus a part
proportional to the spectra at `k` and `q`. -/
theorem C53_pointwise (x mu Pk Pq Pr : ℝ) (hx : x ≠ 0) (hy : 0 < 1 + x ^ 2 - 2 * mu * x) (c : Fin 5) :
    columnsA2 (assembleA2 x mu (treeOut 1 x (Real.sqrt (1 + x ^ 2 - 2 * mu * x)) Pk Pq Pr)) c / x =
      (kA1 (pw x) (pw mu) c * Pk + ktA1 (pw x) (pw mu) c * Pq) * (Pr / (1 + x ^ 2 - 2 * mu * x) ^ 2) + aCoef x mu c * (Pk * Pq) :=
  a_pointwise x mu _ _ Pk Pq Pr hx (Real.mul_self_sqrt hy.le) rfl hy.ne' c

/-- The integral over the cosine of a quartic polynomial divided by the squared third side. -/
theorem quartic_over_side (x m p0 p1 p2 p3 p4 : ℝ) (hx : 0 < x) (h1 : x ≠ 1) (hm : 2 * x * m = 1 + x ^ 2) :
    (∫ mu in (-1 : ℝ)..1, (p0 + p1 * mu + p2 * mu ^ 2 + p3 * mu ^ 3 + p4 * mu ^ 4) / (1 + x ^ 2 - 2 * mu * x)) =
      (p0 + p1 * m + p2 * m ^ 2 + p3 * m ^ 3 + p4 * m ^ 4) * Real.log |(x + 1) / (x - 1)| / x
        - (p1 + m * (p2 + m * (p3 + m * p4)) + (p3 + m * p4) / 3) / x := by
  have hy : ∀ mu ∈ Set.uIcc (-1 : ℝ) 1, 0 < 1 + x ^ 2 - 2 * mu * x := by
    intro mu hmu
    rw [Set.uIcc_of_le (by norm_num)] at hmu
    have : 0 < (1 - x) ^ 2 := by have : 1 - x ≠ 0 := fun h => h1 (by linarith); positivity
    nlinarith [hmu.1, hmu.2]
  have hd : ∀ mu ∈ Set.uIcc (-1 : ℝ) 1, HasDerivAt (fun mu => -(p0 + p1 * m + p2 * m ^ 2 + p3 * m ^ 3 + p4 * m ^ 4) / (2 * x)
      * Real.log (1 + x ^ 2 - 2 * mu * x) - ((p1 + m * (p2 + m * (p3 + m * p4))) * mu + (p2 + m * (p3 + m * p4)) * mu ^ 2 / 2
        + (p3 + m * p4) * mu ^ 3 / 3 + p4 * mu ^ 4 / 4) / (2 * x))
      ((p0 + p1 * mu + p2 * mu ^ 2 + p3 * mu ^ 3 + p4 * mu ^ 4) / (1 + x ^ 2 - 2 * mu * x)) mu := by
    intro mu hmu
    have h0 := hy mu hmu
    have hl : HasDerivAt (fun mu => 1 + x ^ 2 - 2 * mu * x) (-(2 * x)) mu := by
      simpa using (((hasDerivAt_id mu).const_mul 2).mul_const x).const_sub (1 + x ^ 2)
    have i1 := hasDerivAt_id mu
    have i2 := (hasDerivAt_pow 2 mu)
    have i3 := (hasDerivAt_pow 3 mu)
    have i4 := (hasDerivAt_pow 4 mu)
    have := ((hl.log h0.ne').const_mul (-(p0 + p1 * m + p2 * m ^ 2 + p3 * m ^ 3 + p4 * m ^ 4) / (2 * x))).sub
      ((((((i1.const_mul (p1 + m * (p2 + m * (p3 + m * p4)))).add ((i2.const_mul (p2 + m * (p3 + m * p4))).div_const 2)).add
        ((i3.const_mul (p3 + m * p4)).div_const 3)).add ((i4.const_mul p4).div_const 4))).div_const (2 * x))
    refine this.congr_deriv ?_
    have e : 1 + x ^ 2 - 2 * mu * x = 2 * x * (m - mu) := by rw [← hm]; ring
    rw [e] at h0 ⊢
    have : m - mu ≠ 0 := by rintro h; rw [h] at h0; simp at h0
    push_cast
    field_simp
    ring
  have hc : ContinuousOn (fun mu : ℝ => (p0 + p1 * mu + p2 * mu ^ 2 + p3 * mu ^ 3 + p4 * mu ^ 4) / (1 + x ^ 2 - 2 * mu * x))
      (Set.uIcc (-1) 1) := by
    refine ContinuousOn.div (by fun_prop) (by fun_prop) fun mu hmu => (hy mu hmu).ne'
  rw [intervalIntegral.integral_eq_sub_of_hasDerivAt hd hc.intervalIntegrable]
  have e1 : Real.log (1 + x ^ 2 - 2 * 1 * x) = 2 * Real.log |x - 1| := by
    rw [show 1 + x ^ 2 - 2 * 1 * x = (x - 1) ^ 2 by ring, Real.log_pow, Real.log_abs]; norm_num
  have e2 : Real.log (1 + x ^ 2 - 2 * (-1) * x) = 2 * Real.log |x + 1| := by
    rw [show 1 + x ^ 2 - 2 * (-1) * x = (x + 1) ^ 2 by ring, Real.log_pow, Real.log_abs]; norm_num
  have e3 : Real.log |(x + 1) / (x - 1)| = Real.log |x + 1| - Real.log |x - 1| := by
    rw [abs_div, Real.log_div (by rw [abs_ne_zero]; positivity) (by rw [abs_ne_zero]; exact sub_ne_zero.mpr h1)]
  rw [e1, e2, e3]
  field_simp
  ring

/-- The closed form of the angular integral, `L` standing for the logarithm. -/
noncomputable def aClosed (x L : ℝ) : Fin 5 → ℝ :=
  let k1 := 1 / 112 / x ^ 3 * (2 * x * (x ^ 2 + 1) * (3 - 14 * x ^ 2 + 3 * x ^ 4) - 3 * (x ^ 2 - 1) ^ 4 * L)
  ![-1 / 84 / x * (2 * x * (19 - 24 * x ^ 2 + 9 * x ^ 4) - 9 * (x ^ 2 - 1) ^ 3 * L),
    k1,
    1 / 336 / x ^ 3 * (2 * x * (9 - 185 * x ^ 2 + 159 * x ^ 4 - 63 * x ^ 6) + 9 * (x ^ 2 - 1) ^ 3 * (7 * x ^ 2 + 1) * L),
    k1,
    1 / 336 / x ^ 3 * (2 * x * (9 - 109 * x ^ 2 + 63 * x ^ 4 - 27 * x ^ 6) + 9 * (x ^ 2 - 1) ^ 3 * (3 * x ^ 2 + 1) * L)]

/-- Numerators of `aCoef` over the squared third side: coefficients of the powers of the cosine. -/
noncomputable def aNum (x : ℝ) (c : Fin 5) : Fin 5 → ℝ :=
  let u := (1 + x ^ 2) / (2 * x)
  -- `(a0 + a1 mu + a2 mu^2) (3/7 - u mu + 4/7 mu^2)`
  let mul (a0 a1 a2 : ℝ) : Fin 5 → ℝ := ![3 / 7 * a0, 3 / 7 * a1 - u * a0, 3 / 7 * a2 - u * a1 + 4 / 7 * a0, -u * a2 + 4 / 7 * a1, 4 / 7 * a2]
  -- `2 x mu (5/7 - u mu + 2/7 mu^2) (1 + x^2 - 2 mu x)`
  let dd : Fin 5 → ℝ := ![0, 2 * x * (5 / 7) * (1 + x ^ 2), 2 * x * (-u * (1 + x ^ 2) - 2 * x * (5 / 7)),
    2 * x * (2 / 7 * (1 + x ^ 2) + 2 * x * u), -2 * x * (2 * x) * (2 / 7)]
  let c0 : Fin 5 → ℝ := fun i => mul (2 * x ^ 2) (-2 * x ^ 3) 0 i + dd i
  let c1 : Fin 5 → ℝ := mul (-x ^ 2) 0 (x ^ 2)
  let c4 : Fin 5 → ℝ := mul (x ^ 2) (2 * x) (-3 * x ^ 2)
  match c with
  | 0 => c0
  | 1 => c1
  | 2 => fun i => c0 i + c4 i
  | 3 => c1
  | 4 => c4

theorem aCoef_num (x mu : ℝ) (hx : x ≠ 0) (hy : 0 < 1 + x ^ 2 - 2 * mu * x) (c : Fin 5) : aCoef x mu c =
    (aNum x c 0 + aNum x c 1 * mu + aNum x c 2 * mu ^ 2 + aNum x c 3 * mu ^ 3 + aNum x c 4 * mu ^ 4) / (1 + x ^ 2 - 2 * mu * x) := by
  unfold aCoef
  have hs := Real.mul_self_sqrt hy.le
  have hx2 : x * x = x ^ 2 := by ring
  unfold columnsA2 assembleA2 projA projtA treeOut treeBi aNum
  simp only [(gamma2Tree_sides _ x mu _ hs).1, (gamma2Tree_sides _ x mu _ hs).2.1, (gamma2Tree_sides _ x mu _ hs).2.2.1,
    (gamma2Tree_sides _ x mu _ hs).2.2.2, hx2]
  have hY0 := hy.ne'
  generalize hY : 1 + x ^ 2 - 2 * mu * x = Y at *
  fin_cases c <;> simp [F2Fast] <;> field_simp <;> (try rw [← hY]) <;> ring

theorem aCoef_integral (x : ℝ) (hx : 0 < x) (h1 : x ≠ 1) (c : Fin 5) :
    (∫ mu in (-1 : ℝ)..1, aCoef x mu c) = aClosed x (Real.log |(x + 1) / (x - 1)|) c := by
  have hm : 2 * x * ((1 + x ^ 2) / (2 * x)) = 1 + x ^ 2 := by field_simp
  have e : (∫ mu in (-1 : ℝ)..1, aCoef x mu c) = ∫ mu in (-1 : ℝ)..1, (aNum x c 0 + aNum x c 1 * mu + aNum x c 2 * mu ^ 2
      + aNum x c 3 * mu ^ 3 + aNum x c 4 * mu ^ 4) / (1 + x ^ 2 - 2 * mu * x) := by
    refine intervalIntegral.integral_congr fun mu hmu => ?_
    rw [Set.uIcc_of_le (by norm_num)] at hmu
    refine aCoef_num x mu hx.ne' ?_ c
    have : 0 < (1 - x) ^ 2 := by have : 1 - x ≠ 0 := fun h => h1 (by linarith); positivity
    nlinarith [hmu.1, hmu.2]
  rw [e, quartic_over_side x _ _ _ _ _ _ hx h1 hm]
  generalize Real.log |(x + 1) / (x - 1)| = L
  unfold aNum aClosed
  fin_cases c <;> simp <;> field_simp <;> ring

/-- The series of `log((1+u)/(1-u))` with its remainder. -/
theorem artanh_tail (n : ℕ) (u : ℝ) (h0 : 0 < u) (h1 : u < 1) : ∃ r, 0 ≤ r ∧ r ≤ 1 / ((2 * n + 1) * (1 - u ^ 2)) ∧
    Real.log (1 + u) - Real.log (1 - u) = 2 * u * (∑ i ∈ Finset.range n, (u ^ 2) ^ i / (2 * i + 1) + (u ^ 2) ^ n * r) := by
  have h := Real.hasSum_log_sub_log_of_abs_lt_one (x := u) (by rw [abs_of_pos h0]; exact h1)
  have h6 := (hasSum_nat_add_iff' n).mpr h
  have hu2 : u ^ 2 < 1 := by nlinarith
  have hu3 : 0 < 1 - u ^ 2 := by linarith
  set T := Real.log (1 + u) - Real.log (1 - u)
  set S := ∑ i ∈ Finset.range n, (u ^ 2) ^ i / (2 * i + 1) with hS
  have e : T - ∑ i ∈ Finset.range n, (2 : ℝ) * (1 / (2 * i + 1)) * u ^ (2 * i + 1) = T - 2 * u * S := by
    rw [hS, Finset.mul_sum]
    congr 1
    refine Finset.sum_congr rfl fun i _ => ?_
    rw [pow_succ, pow_mul]
    ring
  rw [e] at h6
  have hp : 0 < 2 * u * (u ^ 2) ^ n := by positivity
  refine ⟨(T - 2 * u * S) / (2 * u * (u ^ 2) ^ n), ?_, ?_, ?_⟩
  · exact div_nonneg (h6.nonneg fun n => by positivity) hp.le
  · have hg := (hasSum_geometric_of_lt_one (sq_nonneg u) hu2).mul_left (2 * u * ((u ^ 2) ^ n / (2 * n + 1)))
    have hle := hasSum_le (fun j => ?_) h6 hg
    · rw [div_le_iff₀ hp]
      refine hle.trans (le_of_eq ?_)
      field_simp
    · have e : (u : ℝ) ^ (2 * (j + n) + 1) = u * (u ^ 2) ^ n * (u ^ 2) ^ j := by ring
      rw [e]
      have : (1 : ℝ) / (2 * ((j + n : ℕ) : ℝ) + 1) ≤ 1 / (2 * n + 1) := by
        apply one_div_le_one_div_of_le (by positivity)
        push_cast
        linarith [Nat.cast_nonneg (α := ℝ) j]
      calc 2 * (1 / (2 * ((j + n : ℕ) : ℝ) + 1)) * (u * (u ^ 2) ^ n * (u ^ 2) ^ j)
          ≤ 2 * (1 / (2 * n + 1)) * (u * (u ^ 2) ^ n * (u ^ 2) ^ j) := by gcongr
        _ = _ := by ring
  · field_simp
    ring

/-- Neglected part of the small-argument series, divided by `X^5`. -/
noncomputable def aRestSmall (X r : ℝ) : Fin 5 → ℝ :=
  ![(8/2695 : ℝ) * X ^ 0 + (8/7007 : ℝ) * X ^ 1 + (8/15015 : ℝ) * X ^ 2 + (129/10010 : ℝ) * X ^ 3 + (-3/14 : ℝ) * X ^ 3 * r + (-12/455 : ℝ) * X ^ 4 + (9/14 : ℝ) * X ^ 4 * r + (1/70 : ℝ) * X ^ 5 + (-9/14 : ℝ) * X ^ 5 * r + (3/14 : ℝ) * X ^ 6 * r,
    (-16/35035 : ℝ) * X ^ 0 + (-16/105105 : ℝ) * X ^ 1 + (53/17160 : ℝ) * X ^ 2 + (-3/56 : ℝ) * X ^ 2 * r + (-393/40040 : ℝ) * X ^ 3 + (3/14 : ℝ) * X ^ 3 * r + (37/3640 : ℝ) * X ^ 4 + (-9/28 : ℝ) * X ^ 4 * r + (-1/280 : ℝ) * X ^ 5 + (3/14 : ℝ) * X ^ 5 * r + (-3/56 : ℝ) * X ^ 6 * r,
    (192/35035 : ℝ) * X ^ 0 + (32/15015 : ℝ) * X ^ 1 + (499/120120 : ℝ) * X ^ 2 + (-3/56 : ℝ) * X ^ 2 * r + (639/40040 : ℝ) * X ^ 3 + (-3/14 : ℝ) * X ^ 3 * r + (-31/728 : ℝ) * X ^ 4 + (27/28 : ℝ) * X ^ 4 * r + (1/40 : ℝ) * X ^ 5 + (-15/14 : ℝ) * X ^ 5 * r + (3/8 : ℝ) * X ^ 6 * r,
    (-16/35035 : ℝ) * X ^ 0 + (-16/105105 : ℝ) * X ^ 1 + (53/17160 : ℝ) * X ^ 2 + (-3/56 : ℝ) * X ^ 2 * r + (-393/40040 : ℝ) * X ^ 3 + (3/14 : ℝ) * X ^ 3 * r + (37/3640 : ℝ) * X ^ 4 + (-9/28 : ℝ) * X ^ 4 * r + (-1/280 : ℝ) * X ^ 5 + (3/14 : ℝ) * X ^ 5 * r + (-3/56 : ℝ) * X ^ 6 * r,
    (8/3185 : ℝ) * X ^ 0 + (8/8085 : ℝ) * X ^ 1 + (29/8008 : ℝ) * X ^ 2 + (-3/56 : ℝ) * X ^ 2 * r + (123/40040 : ℝ) * X ^ 3 + (-59/3640 : ℝ) * X ^ 4 + (9/28 : ℝ) * X ^ 4 * r + (3/280 : ℝ) * X ^ 5 + (-3/7 : ℝ) * X ^ 5 * r + (9/56 : ℝ) * X ^ 6 * r]

/-- Neglected part of the large-argument series, divided by `X^5`. -/
noncomputable def aRestLarge (X r : ℝ) : Fin 5 → ℝ :=
  ![(-8/15015 : ℝ) * X ^ 0 + (-129/10010 : ℝ) * X ^ 1 + (3/14 : ℝ) * X ^ 1 * r + (12/455 : ℝ) * X ^ 2 + (-9/14 : ℝ) * X ^ 2 * r + (-1/70 : ℝ) * X ^ 3 + (9/14 : ℝ) * X ^ 3 * r + (-3/14 : ℝ) * X ^ 4 * r,
    (-16/105105 : ℝ) * X ^ 0 + (53/17160 : ℝ) * X ^ 1 + (-3/56 : ℝ) * X ^ 1 * r + (-393/40040 : ℝ) * X ^ 2 + (3/14 : ℝ) * X ^ 2 * r + (37/3640 : ℝ) * X ^ 3 + (-9/28 : ℝ) * X ^ 3 * r + (-1/280 : ℝ) * X ^ 4 + (3/14 : ℝ) * X ^ 4 * r + (-3/56 : ℝ) * X ^ 5 * r,
    (-128/105105 : ℝ) * X ^ 0 + (-545/24024 : ℝ) * X ^ 1 + (3/8 : ℝ) * X ^ 1 * r + (1719/40040 : ℝ) * X ^ 2 + (-15/14 : ℝ) * X ^ 2 * r + (-67/3640 : ℝ) * X ^ 3 + (27/28 : ℝ) * X ^ 3 * r + (-1/280 : ℝ) * X ^ 4 + (-3/14 : ℝ) * X ^ 4 * r + (-3/56 : ℝ) * X ^ 5 * r,
    (-16/105105 : ℝ) * X ^ 0 + (53/17160 : ℝ) * X ^ 1 + (-3/56 : ℝ) * X ^ 1 * r + (-393/40040 : ℝ) * X ^ 2 + (3/14 : ℝ) * X ^ 2 * r + (37/3640 : ℝ) * X ^ 3 + (-9/28 : ℝ) * X ^ 3 * r + (-1/280 : ℝ) * X ^ 4 + (3/14 : ℝ) * X ^ 4 * r + (-3/56 : ℝ) * X ^ 5 * r,
    (-24/35035 : ℝ) * X ^ 0 + (-107/10920 : ℝ) * X ^ 1 + (9/56 : ℝ) * X ^ 1 * r + (51/3080 : ℝ) * X ^ 2 + (-3/7 : ℝ) * X ^ 2 * r + (-3/728 : ℝ) * X ^ 3 + (9/28 : ℝ) * X ^ 3 * r + (-1/280 : ℝ) * X ^ 4 + (-3/56 : ℝ) * X ^ 5 * r]

theorem rest_bound (X r : ℝ) (h0 : 0 ≤ X) (h1 : X ≤ 1 / 10000) (hr0 : 0 ≤ r) (hr : r ≤ 1 / 16) (c : Fin 5) :
    |aRestSmall X r c| ≤ 1 / 170 ∧ |aRestLarge X r c| ≤ 1 / 600 := by
  have hp : ∀ n, 0 ≤ X ^ (n + 1) ∧ X ^ (n + 1) ≤ X := fun n => ⟨by positivity, by
    calc X ^ (n + 1) = X ^ n * X := pow_succ X n
      _ ≤ 1 * X := by gcongr; exact pow_le_one₀ h0 (by linarith)
      _ = X := one_mul X⟩
  have hq : ∀ n, 0 ≤ X ^ (n + 1) * r ∧ X ^ (n + 1) * r ≤ X := fun n => ⟨by have := (hp n).1; positivity, by
    have := mul_le_mul (hp n).2 (show r ≤ 1 by linarith) hr0 h0
    linarith⟩
  have p1 := hp 1
  have p2 := hp 2
  have p3 := hp 3
  have p4 := hp 4
  have p5 := hp 5
  have p6 := hp 6
  have q0 := hq 0
  have q1 := hq 1
  have q2 := hq 2
  have q3 := hq 3
  have q4 := hq 4
  have q5 := hq 5
  have q6 := hq 6
  norm_num at p1 p2 p3 p4 p5 p6 q0 q1 q2 q3 q4 q5 q6
  unfold aRestSmall aRestLarge
  constructor <;> rw [abs_le] <;> constructor <;> fin_cases c <;> simp <;> linarith

/-- C54: below `1e-4` the series differs from the exact angular integral by less than `x^10 / 170`. -/
theorem C54_small (x : ℝ) (h0 : 0 < x) (h1 : x < 1 / 10000) (c : Fin 5) :
    |ka1 (pw x) c - ∫ mu in (-1 : ℝ)..1, aCoef x mu c| ≤ x ^ 10 / 170 := by
  rw [aCoef_integral x h0 (by intro h; rw [h] at h1; norm_num at h1)]
  have hlog : Real.log |(x + 1) / (x - 1)| = Real.log (1 + x) - Real.log (1 - x) := by
    rw [abs_div, abs_of_pos (by linarith : 0 < x + 1), abs_sub_comm, abs_of_pos (by linarith : 0 < 1 - x),
      Real.log_div (by linarith) (by linarith), add_comm x 1]
  obtain ⟨r, hr0, hr, e⟩ := artanh_tail 8 x h0 (by linarith)
  have hX : x ^ 2 ≤ 1 / 10000 := by nlinarith
  have hr' : r ≤ 1 / 16 := by
    refine hr.trans (one_div_le_one_div_of_le (by norm_num) ?_)
    push_cast
    nlinarith
  have key : aClosed x (Real.log |(x + 1) / (x - 1)|) c - ka1 (pw x) c = (x ^ 2) ^ 5 * aRestSmall (x ^ 2) r c := by
    rw [hlog, e]
    unfold ka1 pw
    rw [if_pos (by simpa using h1)]
    norm_num [Finset.sum_range_succ]
    unfold aClosed aRestSmall
    fin_cases c <;> simp <;> field_simp <;> ring
  rw [abs_sub_comm, key, abs_mul, abs_of_pos (by positivity)]
  have := (rest_bound (x ^ 2) r (by positivity) hX hr0 hr' c).1
  calc (x ^ 2) ^ 5 * |aRestSmall (x ^ 2) r c| ≤ (x ^ 2) ^ 5 * (1 / 170) := by gcongr
    _ = x ^ 10 / 170 := by ring

/-- C54: above `100` the series differs from the exact angular integral by less than `x^-10 / 600`. -/
theorem C54_large (x : ℝ) (h1 : 100 < x) (c : Fin 5) :
    |ka1 (pw x) c - ∫ mu in (-1 : ℝ)..1, aCoef x mu c| ≤ 1 / (600 * x ^ 10) := by
  have h0 : 0 < x := by linarith
  rw [aCoef_integral x h0 (by intro h; rw [h] at h1; norm_num at h1)]
  obtain ⟨v, rfl⟩ : ∃ v, x = 1 / v := ⟨1 / x, by field_simp⟩
  have hv : 0 < v := by simpa using h0
  have hv1 : v < 1 / 100 := by rw [lt_div_iff₀ hv] at h1; linarith
  have hlog : Real.log |(1 / v + 1) / (1 / v - 1)| = Real.log (1 + v) - Real.log (1 - v) := by
    rw [show (1 / v + 1) / (1 / v - 1) = (1 + v) / (1 - v) by
      have : (1 - v) ≠ 0 := by linarith
      field_simp, abs_of_pos (div_pos (by linarith) (by linarith)), Real.log_div (by linarith) (by linarith)]
  obtain ⟨r, hr0, hr, e⟩ := artanh_tail 8 v hv (by linarith)
  have hX : v ^ 2 ≤ 1 / 10000 := by nlinarith
  have hr' : r ≤ 1 / 16 := by
    refine hr.trans (one_div_le_one_div_of_le (by norm_num) ?_)
    push_cast
    nlinarith
  have key : aClosed (1 / v) (Real.log |(1 / v + 1) / (1 / v - 1)|) c - ka1 (pw (1 / v)) c = (v ^ 2) ^ 5 * aRestLarge (v ^ 2) r c := by
    rw [hlog, e]
    unfold ka1 pw
    rw [if_neg (by simp only [pow_one]; linarith), if_pos (by simpa using h1)]
    norm_num [Finset.sum_range_succ]
    unfold aClosed aRestLarge
    fin_cases c <;> simp <;> field_simp <;> ring
  rw [abs_sub_comm, key, abs_mul, abs_of_pos (by positivity)]
  have := (rest_bound (v ^ 2) r (by positivity) hX hr0 hr' c).2
  calc (v ^ 2) ^ 5 * |aRestLarge (v ^ 2) r c| ≤ (v ^ 2) ^ 5 * (1 / 600) := by gcongr
    _ = 1 / (600 * (1 / v) ^ 10) := by field_simp

theorem ka1_middle (x : ℝ) (h0 : 1 / 10000 ≤ x) (h1 : x ≤ 100) (h : eps < |x - 1|) (c : Fin 5) :
    ka1 (pw x) c = aClosed x (Real.log |(x + 1) / (x - 1)|) c := by
  unfold ka1 pw aClosed
  rw [if_neg (by simpa using h0), if_neg (by simpa using h1), if_pos (by simpa using h)]
  simp only [C01_power, pow_one]

/-- C53: away from the point `q = k` the angle-averaged kernel is the angular integral of the remaining part. -/
theorem C53_angle (x : ℝ) (h0 : 1 / 10000 ≤ x) (h1 : x ≤ 100) (h : eps < |x - 1|) (c : Fin 5) :
    ka1 (pw x) c = ∫ mu in (-1 : ℝ)..1, aCoef x mu c := by
  rw [aCoef_integral x (by linarith) (by
    rintro rfl
    simp [eps] at h
    linarith), ka1_middle x h0 h1 h]

theorem ka1_near (x : ℝ) (h : |x - 1| ≤ eps) (c : Fin 5) : ka1 (pw x) c = aClosed x 0 c := by
  have := abs_le.mp h
  simp only [eps, lit_real] at this
  norm_num at this
  unfold ka1 pw aClosed
  rw [if_neg (by simp only [pow_one]; linarith), if_neg (by simp only [pow_one]; linarith), if_neg (by simpa using h)]
  simp only [C01_power, pow_one]

/-- C53: within `EPS` of `q = k`, where the code drops the logarithm, the error is below `1e-26`. -/
theorem C53_near (x : ℝ) (h1 : x ≠ 1) (h : |x - 1| ≤ eps) (c : Fin 5) :
    |ka1 (pw x) c - ∫ mu in (-1 : ℝ)..1, aCoef x mu c| ≤ 1 / 10 ^ 26 := by
  rw [ka1_near x h]
  have he : |x - 1| ≤ 3 / 10 ^ 14 := by
    have := h
    simp only [eps, lit_real] at this
    norm_num at this ⊢
    exact this
  have hb := abs_le.mp he
  have h0 : 0 < x := by linarith
  rw [aCoef_integral x h0 h1]
  have hd : 0 < |x - 1| := abs_pos.mpr (sub_ne_zero.mpr h1)
  have hL0 : 0 ≤ Real.log |(x + 1) / (x - 1)| := by
    apply Real.log_nonneg
    rw [abs_div, le_div_iff₀ hd, abs_of_pos (by linarith : 0 < x + 1)]
    linarith
  have hL1 : Real.log |(x + 1) / (x - 1)| ≤ (x + 1) / |x - 1| := by
    have := Real.log_le_sub_one_of_pos (x := |(x + 1) / (x - 1)|) (by
      rw [abs_div, abs_of_pos (by linarith : 0 < x + 1)]; exact div_pos (by linarith) hd)
    rw [abs_div, abs_of_pos (by linarith : 0 < x + 1)] at this ⊢
    linarith
  set L := Real.log |(x + 1) / (x - 1)| with hLd
  clear_value L
  have hM : |(x ^ 2 - 1) ^ 3 * L| ≤ 2 / 10 ^ 26 := by
    rw [abs_mul, abs_of_nonneg hL0, show x ^ 2 - 1 = (x - 1) * (x + 1) by ring, mul_pow, abs_mul, abs_pow,
      abs_of_pos (pow_pos (by linarith : 0 < x + 1) 3)]
    calc |x - 1| ^ 3 * (x + 1) ^ 3 * L ≤ |x - 1| ^ 3 * (x + 1) ^ 3 * ((x + 1) / |x - 1|) := by
          have : 0 ≤ x + 1 := by linarith
          gcongr
      _ = |x - 1| ^ 2 * (x + 1) ^ 4 := by field_simp
      _ ≤ (3 / 10 ^ 14) ^ 2 * (2001 / 1000) ^ 4 := by
          have : 0 ≤ x + 1 := by linarith
          gcongr
          linarith
      _ ≤ 2 / 10 ^ 26 := by norm_num
  have hk : ∃ s, |s| ≤ 1 / 2 ∧ aClosed x 0 c - aClosed x L c = s * ((x ^ 2 - 1) ^ 3 * L) := by
    have hx1 : 999 / 1000 ≤ x := by linarith
    have hx2 : x ≤ 1001 / 1000 := by linarith
    have i1 : 0 < 1 / x ∧ 1 / x ≤ 1002 / 1000 := ⟨by positivity, by rw [div_le_iff₀ h0]; linarith⟩
    have i3 : 0 < 1 / x ^ 3 ∧ 1 / x ^ 3 ≤ 1004 / 1000 := ⟨by positivity, by
      rw [div_le_iff₀ (by positivity)]
      have : (999 / 1000 : ℝ) ^ 3 ≤ x ^ 3 := by gcongr
      nlinarith⟩
    have s2 : 998 / 1000 ≤ x ^ 2 ∧ x ^ 2 ≤ 1003 / 1000 := ⟨by nlinarith, by nlinarith⟩
    refine ⟨(![-9 / 84 * (1 / x), 3 / 112 * ((x ^ 2 - 1) * (1 / x ^ 3)), -9 / 336 * ((7 * x ^ 2 + 1) * (1 / x ^ 3)),
      3 / 112 * ((x ^ 2 - 1) * (1 / x ^ 3)), -9 / 336 * ((3 * x ^ 2 + 1) * (1 / x ^ 3))] : Fin 5 → ℝ) c, ?_, ?_⟩
    · generalize 1 / x = a at i1
      generalize 1 / x ^ 3 = b at i3
      generalize x ^ 2 = X at s2
      rw [abs_le]
      constructor <;> fin_cases c <;> simp <;> nlinarith [mul_nonneg (sub_nonneg.mpr s2.1) i3.1.le, mul_nonneg (sub_nonneg.mpr s2.2) i3.1.le]
    · unfold aClosed
      fin_cases c <;> simp <;> field_simp <;> ring
  obtain ⟨s, hs, e⟩ := hk
  rw [e, abs_mul]
  calc |s| * |(x ^ 2 - 1) ^ 3 * L| ≤ 1 / 2 * (2 / 10 ^ 26) := by gcongr
    _ = 1 / 10 ^ 26 := by norm_num

/-- C53: at `q = k` the kernel is the (convergent) angular integral. -/
theorem C53_equal (c : Fin 5) : ka1 (pw 1) c = ∫ mu in (-1 : ℝ)..1, aCoef 1 mu c := by
  rw [ka1_near 1 (by simp [eps]; norm_num)]
  have e : (∫ mu in (-1 : ℝ)..1, aCoef 1 mu c) = ∫ mu in (-1 : ℝ)..1,
      -((aNum 1 c 1 + aNum 1 c 2 + aNum 1 c 3 + aNum 1 c 4) + (aNum 1 c 2 + aNum 1 c 3 + aNum 1 c 4) * mu
        + (aNum 1 c 3 + aNum 1 c 4) * mu ^ 2 + aNum 1 c 4 * mu ^ 3) / 2 := by
    refine intervalIntegral.integral_congr_ae ?_
    have : ∀ᵐ mu : ℝ, mu ≠ 1 := MeasureTheory.Measure.ae_ne _ 1
    filter_upwards [this] with mu hne hmu
    rw [Set.uIoc_of_le (by norm_num)] at hmu
    have hlt : mu < 1 := lt_of_le_of_ne hmu.2 hne
    rw [aCoef_num 1 mu one_ne_zero (by norm_num; linarith)]
    have hz : aNum 1 c 0 = -(aNum 1 c 1 + aNum 1 c 2 + aNum 1 c 3 + aNum 1 c 4) := by
      unfold aNum
      fin_cases c <;> simp <;> norm_num
    have : 1 + 1 ^ 2 - 2 * mu * 1 ≠ 0 := by norm_num; intro h; apply hne; linarith
    rw [hz, div_eq_div_iff this two_ne_zero]
    ring
  rw [e]
  have : ∀ a b c d : ℝ, (∫ mu in (-1 : ℝ)..1, -(a + b * mu + c * mu ^ 2 + d * mu ^ 3) / 2) = -(a + c / 3) := by
    intro a b c d
    have hd : ∀ mu ∈ Set.uIcc (-1 : ℝ) 1, HasDerivAt (fun mu => -(a * mu + b * mu ^ 2 / 2 + c * mu ^ 3 / 3 + d * mu ^ 4 / 4) / 2)
        (-(a + b * mu + c * mu ^ 2 + d * mu ^ 3) / 2) mu := by
      intro mu _
      have := ((((((hasDerivAt_id mu).const_mul a).add (((hasDerivAt_pow 2 mu).const_mul b).div_const 2)).add
        (((hasDerivAt_pow 3 mu).const_mul c).div_const 3)).add (((hasDerivAt_pow 4 mu).const_mul d).div_const 4)).neg).div_const 2
      refine this.congr_deriv ?_
      push_cast
      ring
    rw [intervalIntegral.integral_eq_sub_of_hasDerivAt hd (by apply Continuous.intervalIntegrable; fun_prop)]
    ring
  rw [this]
  unfold aNum aClosed
  fin_cases c <;> simp <;> norm_num

/-- A sample of the hypotheses of C53: an equilateral triangle, unequal spectra. -/
example : (0 : ℝ) < 1 + 1 ^ 2 - 2 * (1 / 2) * 1 ∧ (1 : ℝ) ≠ 0 ∧
    columnsA2 (assembleA2 1 (1 / 2) (treeOut 1 1 (Real.sqrt (1 + 1 ^ 2 - 2 * (1 / 2) * 1)) 1 2 3)) 0 / 1 =
      (kA1 (pw 1) (pw (1 / 2)) 0 * 1 + ktA1 (pw 1) (pw (1 / 2)) 0 * 2) * (3 / (1 + 1 ^ 2 - 2 * (1 / 2) * 1) ^ 2)
        + aCoef 1 (1 / 2) 0 * (1 * 2) :=
  ⟨by norm_num, by norm_num, C53_pointwise 1 (1 / 2) 1 2 3 (by norm_num) (by norm_num) 0⟩

/-- A sample of the hypotheses of C53 for the averaged kernel, with its value. -/
example : ka1 (pw 1) 0 = -(2 / 21) ∧ ka1 (pw 1) 0 = ∫ mu in (-1 : ℝ)..1, aCoef 1 mu 0 := by
  refine ⟨?_, C53_equal 0⟩
  rw [ka1_near 1 (by simp [eps]; norm_num)]
  simp [aClosed]
  norm_num

example : ka1 (pw 2) 1 = ∫ mu in (-1 : ℝ)..1, aCoef 2 mu 1 :=
  C53_angle 2 (by norm_num) (by norm_num) (by rw [abs_of_pos (by norm_num)]; simp [eps]; norm_num) 1

/-- Samples of the hypotheses of C54. -/
example : |ka1 (pw (1 / 20000)) 2 - ∫ mu in (-1 : ℝ)..1, aCoef (1 / 20000) mu 2| ≤ (1 / 20000) ^ 10 / 170 ∧
    |ka1 (pw 200) 2 - ∫ mu in (-1 : ℝ)..1, aCoef 200 mu 2| ≤ 1 / (600 * 200 ^ 10) :=
  ⟨C54_small _ (by norm_num) (by norm_num) 2, C54_large _ (by norm_num) 2⟩

/-- A sample of the hypotheses of `C53_near`. -/
example : |ka1 (pw (1 + 1 / 10 ^ 14)) 4 - ∫ mu in (-1 : ℝ)..1, aCoef (1 + 1 / 10 ^ 14) mu 4| ≤ 1 / 10 ^ 26 :=
  C53_near _ (by norm_num) (by simp [eps]; norm_num) 4

end Verif
