import Verif.Proofs.LegendreRoots
import Mathlib.Analysis.Calculus.Deriv.MeanValue
import Mathlib.Analysis.SpecialFunctions.Sqrt
import Mathlib.Analysis.SpecialFunctions.Trigonometric.Deriv
import Mathlib.Analysis.SpecialFunctions.Trigonometric.Bounds
import Mathlib.Analysis.SpecialFunctions.Trigonometric.Inverse

/-! Where the roots of the Legendre polynomials are: comparison (Sturm) of `√(sin θ) Pₙ(cos θ)` with a slower and with a faster
oscillation. -/

open Polynomial

namespace Verif

/-- The first derivative of a function that is positive to the right of a zero. -/
theorem deriv_right {f : ℝ → ℝ} {f' a b : ℝ} (hab : a < b) (hf : HasDerivAt f f' a) (h0 : f a = 0) (hp : ∀ t ∈ Set.Ioo a b, 0 < f t) :
    0 ≤ f' := by
  have h := hf.tendsto_slope_zero_right
  refine ge_of_tendsto h ?_
  have : Set.Ioo (0 : ℝ) (b - a) ∈ nhdsWithin (0 : ℝ) (Set.Ioi 0) := Ioo_mem_nhdsGT (by linarith)
  filter_upwards [this] with t ht
  have := hp (a + t) ⟨by linarith [ht.1], by linarith [ht.2]⟩
  rw [h0, sub_zero, smul_eq_mul]
  exact mul_nonneg (inv_nonneg.2 ht.1.le) this.le

theorem deriv_left {f : ℝ → ℝ} {f' a b : ℝ} (hab : a < b) (hf : HasDerivAt f f' b) (h0 : f b = 0) (hp : ∀ t ∈ Set.Ioo a b, 0 < f t) :
    f' ≤ 0 := by
  have h := hf.tendsto_slope_zero_left
  refine le_of_tendsto h ?_
  have : Set.Ioo (a - b) (0 : ℝ) ∈ nhdsWithin (0 : ℝ) (Set.Iio 0) := Ioo_mem_nhdsLT (by linarith)
  filter_upwards [this] with t ht
  have := hp (b + t) ⟨by linarith [ht.1], by linarith [ht.2]⟩
  rw [h0, sub_zero, smul_eq_mul]
  exact mul_nonpos_of_nonpos_of_nonneg (inv_nonpos.2 ht.2.le) this.le

/-- Sturm: between two zeros of the slower oscillation the faster one cannot keep its sign. -/
theorem sturm_pos {a b : ℝ} (hab : a < b) {u u' v v' q r : ℝ → ℝ}
    (hu : ∀ t ∈ Set.Icc a b, HasDerivAt u (u' t) t) (hu' : ∀ t ∈ Set.Icc a b, HasDerivAt u' (-(q t * u t)) t)
    (hv : ∀ t ∈ Set.Icc a b, HasDerivAt v (v' t) t) (hv' : ∀ t ∈ Set.Icc a b, HasDerivAt v' (-(r t * v t)) t)
    (hq : ∀ t ∈ Set.Ioo a b, q t < r t) (ua : u a = 0) (ub : u b = 0)
    (up : ∀ t ∈ Set.Ioo a b, 0 < u t) (vp : ∀ t ∈ Set.Ioo a b, 0 < v t) : False := by
  have hW : ∀ t ∈ Set.Icc a b, HasDerivAt (fun t => u t * v' t - u' t * v t) ((q t - r t) * (u t * v t)) t := by
    intro t ht
    have := ((hu t ht).mul (hv' t ht)).sub ((hu' t ht).mul (hv t ht))
    refine this.congr_deriv ?_
    ring
  have hanti : StrictAntiOn (fun t => u t * v' t - u' t * v t) (Set.Icc a b) := by
    refine strictAntiOn_of_deriv_neg (convex_Icc a b) (fun t ht => (hW t ht).continuousAt.continuousWithinAt) ?_
    intro t ht
    rw [interior_Icc] at ht
    rw [(hW t (Set.Ioo_subset_Icc_self ht)).deriv]
    exact mul_neg_of_neg_of_pos (by linarith [hq t ht]) (mul_pos (up t ht) (vp t ht))
  have h1 := hanti (Set.left_mem_Icc.2 hab.le) (Set.right_mem_Icc.2 hab.le) hab
  have va : 0 ≤ v a := by
    have hc : Filter.Tendsto v (nhdsWithin a (Set.Ioi a)) (nhds (v a)) :=
      (hv a (Set.left_mem_Icc.2 hab.le)).continuousAt.tendsto.mono_left nhdsWithin_le_nhds
    refine ge_of_tendsto hc ?_
    filter_upwards [Ioo_mem_nhdsGT hab] with t ht
    exact (vp t ht).le
  have vb : 0 ≤ v b := by
    have hc : Filter.Tendsto v (nhdsWithin b (Set.Iio b)) (nhds (v b)) :=
      (hv b (Set.right_mem_Icc.2 hab.le)).continuousAt.tendsto.mono_left nhdsWithin_le_nhds
    refine ge_of_tendsto hc ?_
    filter_upwards [Ioo_mem_nhdsLT hab] with t ht
    exact (vp t ht).le
  have d1 := deriv_right hab (hu a (Set.left_mem_Icc.2 hab.le)) ua up
  have d2 := deriv_left hab (hu b (Set.right_mem_Icc.2 hab.le)) ub up
  simp only [ua, ub, zero_mul, zero_sub] at h1
  have := mul_nonneg d1 va
  have := mul_nonneg (neg_nonneg.2 d2) vb
  linarith

/-- A continuous function without zero keeps its sign. -/
theorem keeps_sign {f : ℝ → ℝ} {a b : ℝ} (hf : ContinuousOn f (Set.Ioo a b)) (h : ∀ t ∈ Set.Ioo a b, f t ≠ 0) :
    (∀ t ∈ Set.Ioo a b, 0 < f t) ∨ (∀ t ∈ Set.Ioo a b, 0 < -f t) := by
  by_contra hno
  push Not at hno
  obtain ⟨⟨x, hx, hx0⟩, y, hy, hy0⟩ := hno
  obtain ⟨t, ht, h0⟩ := isPreconnected_Ioo.intermediate_value hx hy hf ⟨hx0, by linarith⟩
  exact h t ht h0

/-- Sturm without signs. -/
theorem sturm {a b : ℝ} (hab : a < b) {u u' v v' q r : ℝ → ℝ}
    (hu : ∀ t ∈ Set.Icc a b, HasDerivAt u (u' t) t) (hu' : ∀ t ∈ Set.Icc a b, HasDerivAt u' (-(q t * u t)) t)
    (hv : ∀ t ∈ Set.Icc a b, HasDerivAt v (v' t) t) (hv' : ∀ t ∈ Set.Icc a b, HasDerivAt v' (-(r t * v t)) t)
    (hq : ∀ t ∈ Set.Ioo a b, q t < r t) (ua : u a = 0) (ub : u b = 0)
    (up : ∀ t ∈ Set.Ioo a b, u t ≠ 0) (vp : ∀ t ∈ Set.Ioo a b, v t ≠ 0) : False := by
  have nu : ∀ t ∈ Set.Icc a b, HasDerivAt (fun t => -u t) (-u' t) t := fun t ht => (hu t ht).neg
  have nu' : ∀ t ∈ Set.Icc a b, HasDerivAt (fun t => -u' t) (-(q t * -u t)) t := fun t ht => (hu' t ht).neg.congr_deriv (by ring)
  have nv : ∀ t ∈ Set.Icc a b, HasDerivAt (fun t => -v t) (-v' t) t := fun t ht => (hv t ht).neg
  have nv' : ∀ t ∈ Set.Icc a b, HasDerivAt (fun t => -v' t) (-(r t * -v t)) t := fun t ht => (hv' t ht).neg.congr_deriv (by ring)
  have cu : ContinuousOn u (Set.Ioo a b) := fun t ht => (hu t (Set.Ioo_subset_Icc_self ht)).continuousAt.continuousWithinAt
  have cv : ContinuousOn v (Set.Ioo a b) := fun t ht => (hv t (Set.Ioo_subset_Icc_self ht)).continuousAt.continuousWithinAt
  rcases keeps_sign cu up with su | su <;> rcases keeps_sign cv vp with sv | sv
  · exact sturm_pos hab hu hu' hv hv' hq ua ub su sv
  · exact sturm_pos hab hu hu' nv nv' hq ua ub su sv
  · exact sturm_pos hab nu nu' hv hv' hq (by simp [ua]) (by simp [ub]) su sv
  · exact sturm_pos hab nu nu' nv nv' hq (by simp [ua]) (by simp [ub]) su sv

/-- An oscillation with a given phase. -/
theorem phase {f f1 f2 : ℝ → ℝ} {f3 t : ℝ} (h0 : HasDerivAt f (f1 t) t) (h1 : HasDerivAt f1 (f2 t) t) (h2 : HasDerivAt f2 f3 t)
    (hp : 0 < f1 t) :
    HasDerivAt (fun t => Real.sin (f t) / Real.sqrt (f1 t))
      (Real.sqrt (f1 t) * Real.cos (f t) - f2 t * Real.sin (f t) / (2 * (f1 t * Real.sqrt (f1 t)))) t ∧
    HasDerivAt (fun t => Real.sqrt (f1 t) * Real.cos (f t) - f2 t * Real.sin (f t) / (2 * (f1 t * Real.sqrt (f1 t))))
      (-((f1 t ^ 2 + f3 / (2 * f1 t) - 3 * f2 t ^ 2 / (4 * f1 t ^ 2)) * (Real.sin (f t) / Real.sqrt (f1 t)))) t := by
  have hs : 0 < Real.sqrt (f1 t) := Real.sqrt_pos.2 hp
  have hss : Real.sqrt (f1 t) ^ 2 = f1 t := Real.sq_sqrt hp.le
  have ds := h1.sqrt hp.ne'
  constructor
  · refine (h0.sin.div ds hs.ne').congr_deriv ?_
    generalize Real.sqrt (f1 t) = r at *
    rw [← hss]
    field_simp
  · refine ((ds.mul h0.cos).sub ((h2.mul h0.sin).div ((h1.mul ds).const_mul 2) (mul_pos two_pos (mul_pos hp hs)).ne')).congr_deriv ?_
    simp only [Pi.mul_apply]
    generalize Real.sqrt (f1 t) = r at *
    rw [← hss]
    field_simp
    ring

/-- `√(sin θ) Pₙ(cos θ)` and its derivative. -/
noncomputable def legWave (n : ℕ) (t : ℝ) : ℝ := Real.sqrt (Real.sin t) * (leg n).eval (Real.cos t)

noncomputable def legWave' (n : ℕ) (t : ℝ) : ℝ :=
  Real.cos t * (leg n).eval (Real.cos t) / (2 * Real.sqrt (Real.sin t)) -
    Real.sqrt (Real.sin t) * (Real.sin t * (derivative (leg n)).eval (Real.cos t))

/-- The Legendre equation at a point. -/
theorem leg_ode_at (n : ℕ) (x : ℝ) :
    (1 - x ^ 2) * (derivative (derivative (leg n))).eval x = 2 * x * (derivative (leg n)).eval x - (n : ℝ) * (n + 1) * (leg n).eval x := by
  have h := congrArg (eval x) (leg_ode n)
  simp only [derivative_mul, derivative_sub, derivative_one, derivative_pow, derivative_X, eval_add, eval_mul, eval_sub, eval_pow, eval_X,
    eval_one, eval_C, map_natCast, eval_natCast] at h
  norm_num at h
  linear_combination -h

theorem legWave_deriv (n : ℕ) {t : ℝ} (ht : 0 < Real.sin t) :
    HasDerivAt (legWave n) (legWave' n t) t ∧
    HasDerivAt (legWave' n) (-((((n : ℝ) + 1 / 2) ^ 2 + 1 / (4 * Real.sin t ^ 2)) * legWave n t)) t := by
  have hs : 0 < Real.sqrt (Real.sin t) := Real.sqrt_pos.2 ht
  have hss : Real.sqrt (Real.sin t) ^ 2 = Real.sin t := Real.sq_sqrt ht.le
  have ds := (Real.hasDerivAt_sin t).sqrt ht.ne'
  have dP : HasDerivAt (fun t => (leg n).eval (Real.cos t)) ((derivative (leg n)).eval (Real.cos t) * -Real.sin t) t :=
    ((leg n).hasDerivAt (Real.cos t)).comp t (Real.hasDerivAt_cos t)
  have dP' : HasDerivAt (fun t => (derivative (leg n)).eval (Real.cos t))
      ((derivative (derivative (leg n))).eval (Real.cos t) * -Real.sin t) t :=
    ((derivative (leg n)).hasDerivAt (Real.cos t)).comp t (Real.hasDerivAt_cos t)
  have ode := leg_ode_at n (Real.cos t)
  have tr := Real.sin_sq_add_cos_sq t
  constructor
  · refine (ds.mul dP).congr_deriv ?_
    unfold legWave'
    generalize Real.sqrt (Real.sin t) = r at *
    rw [← hss]
    field_simp
    ring
  · refine ((((Real.hasDerivAt_cos t).mul dP).div (ds.const_mul 2) (mul_pos two_pos hs).ne').sub
      (ds.mul ((Real.hasDerivAt_sin t).mul dP'))).congr_deriv ?_
    unfold legWave
    simp only [Pi.mul_apply]
    generalize Real.sqrt (Real.sin t) = r at *
    generalize (leg n).eval (Real.cos t) = p at *
    generalize (derivative (leg n)).eval (Real.cos t) = p1 at *
    generalize (derivative (derivative (leg n))).eval (Real.cos t) = p2 at *
    generalize Real.cos t = c at *
    generalize Real.sin t = s at *
    subst hss
    have tr2 : c ^ 2 = 1 - (r ^ 2) ^ 2 := by linarith
    have ode2 : (r ^ 2) ^ 2 * p2 = 2 * c * p1 - (n : ℝ) * (n + 1) * p := by rw [← ode, tr2]; ring
    field_simp
    linear_combination 16 * r ^ 4 * ode2 - 4 * p * tr2

/-- The roots of the Legendre polynomial of degree `n`, largest first. -/
structure LegRoots (n : ℕ) (z : ℕ → ℝ) : Prop where
  anti : ∀ i j, i < j → j < n → z j < z i
  gt : ∀ i < n, -1 < z i
  lt : ∀ i < n, z i < 1
  zero : ∀ i < n, (leg n).eval (z i) = 0

theorem legRoots_exist (n : ℕ) : ∃ z, LegRoots n z := by
  obtain ⟨z, h1, h2⟩ := leg_roots n
  exact ⟨z, h1, fun i hi => (h2 i hi).1, fun i hi => (h2 i hi).2.1, fun i hi => (h2 i hi).2.2⟩

/-- Where the root search starts, as an angle (`src/common.c:283`). -/
noncomputable def startAngle (n i : ℕ) : ℝ := Real.pi * (i + 3 / 4) / (n + 1 / 2)

theorem startAngle_succ (n i : ℕ) : startAngle n (i + 1) = startAngle n i + Real.pi / (n + 1 / 2) := by
  unfold startAngle
  have : (n : ℝ) + 1 / 2 ≠ 0 := by positivity
  push_cast
  field_simp
  ring

theorem startAngle_mirror {n i : ℕ} (hi : i < n) : startAngle n (n - 1 - i) = Real.pi - startAngle n i := by
  unfold startAngle
  have : (n : ℝ) + 1 / 2 ≠ 0 := by positivity
  have e : ((n - 1 - i : ℕ) : ℝ) = n - 1 - i := by
    rw [Nat.cast_sub (by omega), Nat.cast_sub (by omega)]; norm_num
  rw [e]
  field_simp
  ring

theorem startAngle_pos (n i : ℕ) : 0 < startAngle n i := by
  unfold startAngle
  have := Real.pi_pos
  positivity

/-- The phase of the faster oscillation, divided by `n + 1/2`. -/
noncomputable def fastAngle (n : ℕ) (t : ℝ) : ℝ := t - Real.cos t / (8 * (n + 1 / 2) ^ 2 * Real.sin t)

theorem fastAngle_mirror (n : ℕ) (t : ℝ) : fastAngle n (Real.pi - t) = Real.pi - fastAngle n t := by
  unfold fastAngle
  rw [Real.cos_pi_sub, Real.sin_pi_sub]
  ring

theorem fastAngle_deriv (n : ℕ) {t : ℝ} (ht : 0 < Real.sin t) :
    HasDerivAt (fun t => (n + 1 / 2) * fastAngle n t) ((n + 1 / 2) + 1 / (8 * (n + 1 / 2) * Real.sin t ^ 2)) t ∧
    HasDerivAt (fun t => ((n : ℝ) + 1 / 2) + 1 / (8 * (n + 1 / 2) * Real.sin t ^ 2)) (-Real.cos t / (4 * (n + 1 / 2) * Real.sin t ^ 3)) t ∧
    HasDerivAt (fun t => -Real.cos t / (4 * ((n : ℝ) + 1 / 2) * Real.sin t ^ 3))
      ((1 / Real.sin t ^ 2 + 3 * Real.cos t ^ 2 / Real.sin t ^ 4) / (4 * (n + 1 / 2))) t := by
  have hN : (0 : ℝ) < n + 1 / 2 := by positivity
  have ds := Real.hasDerivAt_sin t
  have dc := Real.hasDerivAt_cos t
  have tr : Real.cos t ^ 2 = 1 - Real.sin t ^ 2 := by linarith [Real.sin_sq_add_cos_sq t]
  refine ⟨?_, ?_, ?_⟩
  · have := ((hasDerivAt_id t).sub (dc.div (ds.const_mul (8 * ((n : ℝ) + 1 / 2) ^ 2)) (by positivity))).const_mul ((n : ℝ) + 1 / 2)
    refine this.congr_deriv ?_
    generalize (n : ℝ) + 1 / 2 = N at *
    field_simp
    linear_combination tr
  · have := (((ds.pow 2).const_mul (8 * ((n : ℝ) + 1 / 2))).inv (mul_pos (by positivity) (pow_pos ht 2)).ne').const_add ((n : ℝ) + 1 / 2)
    simp only [Pi.pow_apply] at this
    refine (this.congr_deriv ?_).congr_of_eventuallyEq (Filter.Eventually.of_forall fun y => by simp [one_div])
    generalize (n : ℝ) + 1 / 2 = N at *
    field_simp
    ring
  · have := dc.neg.div ((ds.pow 3).const_mul (4 * ((n : ℝ) + 1 / 2))) (mul_pos (by positivity) (pow_pos ht 3)).ne'
    simp only [Pi.pow_apply] at this
    refine this.congr_deriv ?_
    simp only [Pi.neg_apply]
    generalize (n : ℝ) + 1 / 2 = N at *
    field_simp
    ring

/-- The faster oscillation is faster. -/
theorem fast_faster (n : ℕ) {t : ℝ} (ht : 0 < Real.sin t) :
    ((n : ℝ) + 1 / 2) ^ 2 + 1 / (4 * Real.sin t ^ 2) <
      ((n + 1 / 2) + 1 / (8 * (n + 1 / 2) * Real.sin t ^ 2)) ^ 2 +
        ((1 / Real.sin t ^ 2 + 3 * Real.cos t ^ 2 / Real.sin t ^ 4) / (4 * (n + 1 / 2))) / (2 * ((n + 1 / 2) + 1 / (8 * (n + 1 / 2) * Real.sin t ^ 2))) -
        3 * (-Real.cos t / (4 * (n + 1 / 2) * Real.sin t ^ 3)) ^ 2 / (4 * ((n + 1 / 2) + 1 / (8 * (n + 1 / 2) * Real.sin t ^ 2)) ^ 2) := by
  have hN : (0 : ℝ) < n + 1 / 2 := by positivity
  have tr : Real.cos t ^ 2 = 1 - Real.sin t ^ 2 := by linarith [Real.sin_sq_add_cos_sq t]
  have hle : Real.sin t ^ 2 ≤ 1 := by nlinarith [sq_nonneg (Real.cos t)]
  rw [← sub_pos]
  generalize (n : ℝ) + 1 / 2 = N at *
  have e : (N + 1 / (8 * N * Real.sin t ^ 2)) ^ 2 +
        ((1 / Real.sin t ^ 2 + 3 * Real.cos t ^ 2 / Real.sin t ^ 4) / (4 * N)) / (2 * (N + 1 / (8 * N * Real.sin t ^ 2))) -
        3 * (-Real.cos t / (4 * N * Real.sin t ^ 3)) ^ 2 / (4 * (N + 1 / (8 * N * Real.sin t ^ 2)) ^ 2) - (N ^ 2 + 1 / (4 * Real.sin t ^ 2)) =
      1 / (64 * N ^ 2 * Real.sin t ^ 4) + (8 * N ^ 2 * (3 - 2 * Real.sin t ^ 2) + 1) / (8 * N ^ 2 * Real.sin t ^ 2 + 1) ^ 2 := by
    have f : N + 1 / (8 * N * Real.sin t ^ 2) = (8 * N ^ 2 * Real.sin t ^ 2 + 1) / (8 * N * Real.sin t ^ 2) := by field_simp
    have hd : 0 < 8 * N ^ 2 * Real.sin t ^ 2 + 1 := by positivity
    have g : (-Real.cos t / (4 * N * Real.sin t ^ 3)) ^ 2 = (1 - Real.sin t ^ 2) / (16 * N ^ 2 * Real.sin t ^ 6) := by
      rw [div_pow, neg_sq, tr]; ring
    rw [f, g, tr]
    generalize Real.sin t = s at *
    generalize hD : 8 * N ^ 2 * s ^ 2 + 1 = D at *
    field_simp
    rw [← hD]
    ring
  rw [e]
  have : 0 < 3 - 2 * Real.sin t ^ 2 := by linarith
  positivity

namespace LegRoots

variable {n : ℕ} {z : ℕ → ℝ} (h : LegRoots n z)
include h

theorem mirror {i : ℕ} (hi : i < n) : z (n - 1 - i) = -z i := leg_roots_mirror n z h.anti h.zero i hi

theorem inj : Set.InjOn z (Finset.range n) := by
  intro a ha b hb hab
  simp only [Finset.coe_range, Set.mem_Iio] at ha hb
  by_contra hne
  rcases Nat.lt_or_gt_of_ne hne with c | c
  · exact absurd hab (h.anti _ _ c hb).ne'
  · exact absurd hab (h.anti _ _ c ha).ne

theorem angle_mem {i : ℕ} (hi : i < n) : 0 < Real.arccos (z i) ∧ Real.arccos (z i) < Real.pi := by
  refine ⟨Real.arccos_pos.2 (h.lt i hi), lt_of_le_of_ne (Real.arccos_le_pi _) fun e => ?_⟩
  have := Real.arccos_eq_pi.1 e
  linarith [h.gt i hi]

theorem cos_angle {i : ℕ} (hi : i < n) : Real.cos (Real.arccos (z i)) = z i := Real.cos_arccos (h.gt i hi).le (h.lt i hi).le

theorem angle_mirror {i : ℕ} (hi : i < n) : Real.arccos (z (n - 1 - i)) = Real.pi - Real.arccos (z i) := by
  rw [h.mirror hi, Real.arccos_neg]

theorem angle_lt {i j : ℕ} (hij : i < j) (hj : j < n) : Real.arccos (z i) < Real.arccos (z j) :=
  Real.arccos_lt_arccos (h.gt j hj).le (h.anti i j hij hj) (h.lt i (by omega)).le

/-- No root between two consecutive ones. -/
theorem between {i : ℕ} (hi : i + 1 < n) {t : ℝ} (h1 : Real.arccos (z i) < t) (h2 : t < Real.arccos (z (i + 1))) : legWave n t ≠ 0 := by
  have hp := (h.angle_mem (show i < n by omega)).1
  have hp2 := (h.angle_mem hi).2
  have c1 : Real.cos t < z i := by
    rw [← h.cos_angle (show i < n by omega)]
    exact Real.cos_lt_cos_of_nonneg_of_le_pi hp.le (by linarith) h1
  have c2 : z (i + 1) < Real.cos t := by
    rw [← h.cos_angle hi]
    exact Real.cos_lt_cos_of_nonneg_of_le_pi (by linarith) hp2.le h2
  have hs : 0 < Real.sin t := Real.sin_pos_of_pos_of_lt_pi (by linarith) (by linarith)
  unfold legWave
  refine mul_ne_zero (Real.sqrt_pos.2 hs).ne' ?_
  rw [leg_factor n z h.inj h.zero]
  refine mul_ne_zero (leg_degree n).2.ne' (Finset.prod_ne_zero_iff.2 fun j hj => ?_)
  have hj := Finset.mem_range.1 hj
  rcases Nat.lt_or_ge j (i + 1) with c | c
  · have : z i ≤ z j := by
      rcases Nat.lt_or_ge j i with c' | c'
      · exact (h.anti j i c' (by omega)).le
      · rw [show j = i by omega]
    linarith
  · have : z j ≤ z (i + 1) := by
      rcases Nat.lt_or_ge (i + 1) j with c' | c'
      · exact (h.anti (i + 1) j c' hj).le
      · rw [show j = i + 1 by omega]
    linarith

theorem wave_zero {i : ℕ} (hi : i < n) : legWave n (Real.arccos (z i)) = 0 := by
  unfold legWave
  rw [h.cos_angle hi, h.zero i hi, mul_zero]

/-- Two consecutive starts are not strictly inside two consecutive roots. -/
theorem not_inside {i : ℕ} (hi : i + 1 < n) (h1 : Real.arccos (z i) < startAngle n i) :
    Real.arccos (z (i + 1)) < startAngle n (i + 1) := by
  by_contra h2
  rw [not_lt] at h2
  have hN : (0 : ℝ) < n + 1 / 2 := by positivity
  have hs := startAngle_succ n i
  have hpi := Real.pi_pos
  have hlt : startAngle n i < startAngle n (i + 1) := by rw [hs]; linarith [div_pos hpi hN]
  have hp := (h.angle_mem (show i < n by omega)).1
  have hp2 := (h.angle_mem hi).2
  have dsin : ∀ t, HasDerivAt (fun t => Real.sin ((n + 1 / 2) * (t - startAngle n i)))
      ((n + 1 / 2) * Real.cos ((n + 1 / 2) * (t - startAngle n i))) t := by
    intro t
    have := (((hasDerivAt_id t).sub_const (startAngle n i)).const_mul ((n : ℝ) + 1 / 2)).sin
    exact this.congr_deriv (by simp; ring)
  have dcos : ∀ t, HasDerivAt (fun t => (n + 1 / 2) * Real.cos ((n + 1 / 2) * (t - startAngle n i)))
      (-(((n : ℝ) + 1 / 2) ^ 2 * Real.sin ((n + 1 / 2) * (t - startAngle n i)))) t := by
    intro t
    have := (((hasDerivAt_id t).sub_const (startAngle n i)).const_mul ((n : ℝ) + 1 / 2)).cos.const_mul ((n : ℝ) + 1 / 2)
    exact this.congr_deriv (by simp; ring)
  have hsin : ∀ t ∈ Set.Icc (startAngle n i) (startAngle n (i + 1)), 0 < Real.sin t := fun t ht =>
    Real.sin_pos_of_pos_of_lt_pi (by linarith [ht.1]) (by linarith [ht.2])
  refine sturm hlt (q := fun _ => ((n : ℝ) + 1 / 2) ^ 2) (r := fun t => ((n : ℝ) + 1 / 2) ^ 2 + 1 / (4 * Real.sin t ^ 2))
    (fun t _ => dsin t) (fun t _ => dcos t) (fun t ht => (legWave_deriv n (hsin t ht)).1) (fun t ht => (legWave_deriv n (hsin t ht)).2)
    ?_ ?_ ?_ ?_ ?_
  · intro t ht
    have := hsin t (Set.Ioo_subset_Icc_self ht)
    simp only [lt_add_iff_pos_right]
    positivity
  · simp
  · rw [hs]
    have : ((n : ℝ) + 1 / 2) * (startAngle n i + Real.pi / (n + 1 / 2) - startAngle n i) = Real.pi := by field_simp; ring
    rw [this, Real.sin_pi]
  · intro t ht
    refine (Real.sin_pos_of_pos_of_lt_pi (mul_pos hN (by linarith [ht.1])) ?_).ne'
    have h3 := ht.2
    rw [hs] at h3
    have h4 : t - startAngle n i < Real.pi / (n + 1 / 2) := by linarith
    rw [lt_div_iff₀ hN] at h4
    linarith
  · intro t ht
    exact h.between hi (by linarith [ht.1]) (by linarith [ht.2])

/-- The start of the search is not beyond the root (as an angle). -/
theorem start_le {i : ℕ} (hi : 2 * i + 1 ≤ n) : startAngle n i ≤ Real.arccos (z i) := by
  by_contra hc
  rw [not_le] at hc
  have key : ∀ m, 2 * (i + m) + 1 ≤ n → Real.arccos (z (i + m)) < startAngle n (i + m) := by
    intro m
    induction m with
    | zero => exact fun _ => hc
    | succ m ih => exact fun hm => h.not_inside (i := i + m) (by omega) (ih (by omega))
  rcases Nat.even_or_odd' n with ⟨p, rfl | rfl⟩
  · have h1 := key (p - 1 - i) (by omega)
    rw [show i + (p - 1 - i) = p - 1 by omega] at h1
    have h2 := h.not_inside (i := p - 1) (by omega) h1
    have h3 := h.angle_mirror (i := p - 1) (by omega)
    have h4 := startAngle_mirror (n := 2 * p) (i := p - 1) (by omega)
    rw [show 2 * p - 1 - (p - 1) = p - 1 + 1 by omega] at h3 h4
    rw [h3, h4] at h2
    linarith
  · have h1 := key (p - i) (by omega)
    rw [show i + (p - i) = p by omega] at h1
    have h3 := h.angle_mirror (i := p) (by omega)
    have h4 := startAngle_mirror (n := 2 * p + 1) (i := p) (by omega)
    rw [show 2 * p + 1 - 1 - p = p by omega] at h3 h4
    linarith

/-- Two consecutive roots are not closer than half an oscillation of the faster wave. -/
theorem not_outside {i : ℕ} (hi : i + 1 < n) (h1 : startAngle n i < fastAngle n (Real.arccos (z i))) :
    startAngle n (i + 1) < fastAngle n (Real.arccos (z (i + 1))) := by
  by_contra h2
  rw [not_lt] at h2
  have hN : (0 : ℝ) < n + 1 / 2 := by positivity
  have hs := startAngle_succ n i
  have hlt := h.angle_lt (Nat.lt_succ_self i) hi
  have hp := (h.angle_mem (show i < n by omega)).1
  have hp2 := (h.angle_mem hi).2
  set a := Real.arccos (z i)
  set b := Real.arccos (z (i + 1))
  have hsin : ∀ t ∈ Set.Icc a b, 0 < Real.sin t := fun t ht =>
    Real.sin_pos_of_pos_of_lt_pi (by linarith [ht.1]) (by linarith [ht.2])
  have hf1 : ∀ t ∈ Set.Icc a b, 0 < ((n : ℝ) + 1 / 2) + 1 / (8 * (n + 1 / 2) * Real.sin t ^ 2) := fun t ht => by
    have := hsin t ht
    positivity
  have dshift : ∀ t ∈ Set.Icc a b, HasDerivAt (fun t => ((n : ℝ) + 1 / 2) * fastAngle n t - (n + 1 / 2) * fastAngle n a)
      ((n + 1 / 2) + 1 / (8 * (n + 1 / 2) * Real.sin t ^ 2)) t := fun t ht => (fastAngle_deriv n (hsin t ht)).1.sub_const _
  have hmono : StrictMonoOn (fun t => ((n : ℝ) + 1 / 2) * fastAngle n t - (n + 1 / 2) * fastAngle n a) (Set.Icc a b) := by
    refine strictMonoOn_of_deriv_pos (convex_Icc a b) (fun t ht => (dshift t ht).continuousAt.continuousWithinAt) ?_
    intro t ht
    rw [interior_Icc] at ht
    have ht := Set.Ioo_subset_Icc_self ht
    rw [(dshift t ht).deriv]
    exact hf1 t ht
  refine sturm hlt (q := fun t => ((n : ℝ) + 1 / 2) ^ 2 + 1 / (4 * Real.sin t ^ 2))
    (fun t ht => (legWave_deriv n (hsin t ht)).1) (fun t ht => (legWave_deriv n (hsin t ht)).2)
    (fun t ht => (phase (dshift t ht) (fastAngle_deriv n (hsin t ht)).2.1 (fastAngle_deriv n (hsin t ht)).2.2 (hf1 t ht)).1)
    (fun t ht => (phase (dshift t ht) (fastAngle_deriv n (hsin t ht)).2.1 (fastAngle_deriv n (hsin t ht)).2.2 (hf1 t ht)).2)
    (fun t ht => fast_faster n (hsin t (Set.Ioo_subset_Icc_self ht))) (h.wave_zero (by omega)) (h.wave_zero hi) ?_ ?_
  · intro t ht
    exact h.between hi ht.1 ht.2
  · intro t ht
    refine (div_pos (Real.sin_pos_of_pos_of_lt_pi ?_ ?_) (Real.sqrt_pos.2 (hf1 t (Set.Ioo_subset_Icc_self ht)))).ne'
    · have := hmono (Set.left_mem_Icc.2 hlt.le) (Set.Ioo_subset_Icc_self ht) ht.1
      simpa using this
    · have h3 := hmono (Set.Ioo_subset_Icc_self ht) (Set.right_mem_Icc.2 hlt.le) ht.2
      have h4 : fastAngle n b - fastAngle n a < Real.pi / (n + 1 / 2) := by linarith
      rw [lt_div_iff₀ hN] at h4
      simp only at h3
      linarith

/-- The root is not far beyond the start of the search (as an angle). -/
theorem fast_le {i : ℕ} (hi : 2 * i + 1 ≤ n) : fastAngle n (Real.arccos (z i)) ≤ startAngle n i := by
  by_contra hc
  rw [not_le] at hc
  have key : ∀ m, 2 * (i + m) + 1 ≤ n → startAngle n (i + m) < fastAngle n (Real.arccos (z (i + m))) := by
    intro m
    induction m with
    | zero => exact fun _ => hc
    | succ m ih => exact fun hm => h.not_outside (i := i + m) (by omega) (ih (by omega))
  rcases Nat.even_or_odd' n with ⟨p, rfl | rfl⟩
  · have h1 := key (p - 1 - i) (by omega)
    rw [show i + (p - 1 - i) = p - 1 by omega] at h1
    have h2 := h.not_outside (i := p - 1) (by omega) h1
    have h3 := h.angle_mirror (i := p - 1) (by omega)
    have h4 := startAngle_mirror (n := 2 * p) (i := p - 1) (by omega)
    rw [show 2 * p - 1 - (p - 1) = p - 1 + 1 by omega] at h3 h4
    rw [h3, h4, fastAngle_mirror] at h2
    linarith
  · have h1 := key (p - i) (by omega)
    rw [show i + (p - i) = p by omega] at h1
    have h3 := h.angle_mirror (i := p) (by omega)
    have h4 := startAngle_mirror (n := 2 * p + 1) (i := p) (by omega)
    have h5 := fastAngle_mirror (2 * p + 1) (Real.arccos (z p))
    rw [show 2 * p + 1 - 1 - p = p by omega] at h3 h4
    rw [← h3] at h5
    linarith

theorem half {i : ℕ} (hi : 2 * i + 1 ≤ n) : 0 ≤ z i ∧ (z i = 0 → 2 * i + 1 = n) := by
  have h1 := h.mirror (i := i) (by omega)
  rcases Nat.lt_or_ge i (n - 1 - i) with c | c
  · have := h.anti i (n - 1 - i) c (by omega)
    rw [h1] at this
    exact ⟨by linarith, fun h0 => by linarith⟩
  · rw [show n - 1 - i = i by omega] at h1
    exact ⟨by linarith, fun _ => by omega⟩

/-- The root in terms of the cosine where the search starts. -/
theorem start {i : ℕ} (hi : 2 * i + 1 ≤ n) :
    z i ≤ Real.cos (startAngle n i) ∧ Real.cos (startAngle n i) - z i ≤ z i / (8 * (n + 1 / 2) ^ 2) := by
  have hin : i < n := by omega
  have h1 := h.start_le hi
  have h2 := h.fast_le hi
  have hp := startAngle_pos n i
  have hm := h.angle_mem hin
  have hc := h.cos_angle hin
  have hz := (h.half hi).1
  have hs : 0 < Real.sin (Real.arccos (z i)) := Real.sin_pos_of_pos_of_lt_pi hm.1 hm.2
  unfold fastAngle at h2
  set a := Real.arccos (z i)
  set b := startAngle n i
  have hN : (0 : ℝ) < n + 1 / 2 := by positivity
  constructor
  · rw [← hc]
    exact Real.cos_le_cos_of_nonneg_of_le_pi hp.le hm.2.le h1
  · have e : Real.cos b = Real.cos a * Real.cos (a - b) + Real.sin a * Real.sin (a - b) := by
      rw [← Real.cos_sub]; congr 1; ring
    have h3 : Real.cos a * Real.cos (a - b) ≤ Real.cos a := by
      rw [hc]; exact mul_le_of_le_one_right hz (Real.cos_le_one _)
    have h4 : Real.sin a * Real.sin (a - b) ≤ Real.sin a * (a - b) := mul_le_mul_of_nonneg_left (Real.sin_le (by linarith)) hs.le
    have h5 : Real.sin a * (a - b) ≤ Real.sin a * (Real.cos a / (8 * (n + 1 / 2) ^ 2 * Real.sin a)) :=
      mul_le_mul_of_nonneg_left (by linarith) hs.le
    have h6 : Real.sin a * (Real.cos a / (8 * (n + 1 / 2) ^ 2 * Real.sin a)) = z i / (8 * (n + 1 / 2) ^ 2) := by
      rw [hc]; field_simp
    linarith

/-- The starts and the roots interlace. -/
theorem start_lt {i : ℕ} (hi : 2 * (i + 1) + 1 ≤ n) : Real.cos (startAngle n (i + 1)) < z i := by
  have hin : i < n := by omega
  have hs := startAngle_succ n i
  have h1 := h.start_le (i := i) (by omega)
  have h2 := h.fast_le (i := i) (by omega)
  have h3 := h.start_le hi
  have hp := startAngle_pos n i
  have hm := h.angle_mem hin
  have hm2 := h.angle_mem (show i + 1 < n by omega)
  have hc := h.cos_angle hin
  have hz := (h.half (i := i) (by omega)).1
  have hsin : 0 < Real.sin (Real.arccos (z i)) := Real.sin_pos_of_pos_of_lt_pi hm.1 hm.2
  have hhalf : Real.arccos (z i) ≤ Real.pi / 2 := Real.arccos_le_pi_div_two.2 hz
  have hN : (0 : ℝ) < n + 1 / 2 := by positivity
  rw [← hc]
  refine Real.cos_lt_cos_of_nonneg_of_le_pi hm.1.le (by linarith) ?_
  unfold fastAngle at h2
  rw [hs]
  set a := Real.arccos (z i)
  have hb : startAngle n i = Real.pi * (i + 3 / 4) / (n + 1 / 2) := rfl
  have hpi := Real.two_le_pi
  -- `cot a < (n + 1/2)`
  have h4 : 1 / (n + 1 / 2) ≤ startAngle n i := by
    rw [hb]
    refine div_le_div_of_nonneg_right ?_ hN.le
    nlinarith [(Nat.cast_nonneg i : (0 : ℝ) ≤ i)]
  have h5 : 2 / Real.pi * a ≤ Real.sin a := Real.mul_le_sin hm.1.le hhalf
  have h6 : Real.cos a / (8 * (n + 1 / 2) ^ 2 * Real.sin a) < Real.pi / (n + 1 / 2) := by
    rw [div_lt_div_iff₀ (by positivity) hN]
    have h7 : 1 / (n + 1 / 2) ≤ a := by linarith
    rw [div_le_iff₀ hN] at h7
    have h8 : 2 / Real.pi * a * (n + 1 / 2) ≥ 2 / Real.pi := by
      have : 0 < 2 / Real.pi := by positivity
      nlinarith
    have h9 : 2 ≤ Real.pi * (Real.sin a * (n + 1 / 2)) := by
      have : 2 / Real.pi ≤ Real.sin a * (n + 1 / 2) := by nlinarith
      rw [div_le_iff₀ Real.pi_pos] at this
      linarith
    have h10 := Real.cos_le_one a
    nlinarith
  linarith

end LegRoots

end Verif
