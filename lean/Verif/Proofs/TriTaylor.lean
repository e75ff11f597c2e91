import Verif.Proofs.Gamma2Asym
import Mathlib.Analysis.Calculus.MeanValue
import Mathlib.Analysis.SpecialFunctions.Sqrt
import Mathlib.Analysis.SpecialFunctions.Log.Deriv

/-!
# Taylor expansion of the logarithm of the second-order loop kernels in its second argument
-/

namespace Verif

noncomputable section

open Asymptotics Filter Topology

/-- First derivative of `triLog a`. -/
def tri1 (a m : ℝ) : ℝ := -(triLog a m / (2 * m)) - 2 * a / (m * (m - a ^ 2))

/-- Second derivative of `triLog a`. -/
def tri2 (a m : ℝ) : ℝ := -(tri1 a m / (2 * m)) + triLog a m / (2 * m ^ 2) + 2 * a * (2 * m - a ^ 2) / (m * (m - a ^ 2)) ^ 2

/-- Third derivative of `triLog a`. -/
def tri3 (a m : ℝ) : ℝ := -(tri2 a m / (2 * m)) + tri1 a m / m ^ 2 - triLog a m / m ^ 3 +
  4 * a * (m * (m - a ^ 2) - (2 * m - a ^ 2) ^ 2) / (m * (m - a ^ 2)) ^ 3

/-- Where `triLog` is smooth. -/
def TriDom (a m : ℝ) : Prop := 0 < a ∧ 0 < m ∧ m ≠ a ^ 2

theorem TriDom.sqrt {a m : ℝ} (h : TriDom a m) : Real.sqrt m ≠ a := fun e => h.2.2 (by rw [← e, Real.sq_sqrt h.2.1.le])

theorem hasDeriv_tri0 (a m : ℝ) (h : TriDom a m) : HasDerivAt (triLog a) (tri1 a m) m := by
  have hs := h.sqrt
  obtain ⟨ha, hm, hne⟩ := h
  have hs0 := Real.sqrt_pos.mpr hm
  have hss : Real.sqrt m ^ 2 = m := Real.sq_sqrt hm.le
  have hd := Real.hasDerivAt_sqrt hm.ne'
  have hsa : Real.sqrt m - a ≠ 0 := sub_ne_zero.mpr hs
  have hne0 : (Real.sqrt m + a) / (Real.sqrt m - a) ≠ 0 := div_ne_zero (by positivity) hsa
  have h1 := (((hd.add_const a).div (hd.sub_const a) hsa).log hne0).const_mul 2 |>.div hd hs0.ne'
  have e : triLog a = fun m => 2 * Real.log ((Real.sqrt m + a) / (Real.sqrt m - a)) / Real.sqrt m := by
    funext x; rw [triLog, Real.log_abs]
  rw [e]
  refine h1.congr_deriv ?_
  rw [tri1, triLog, Real.log_abs]
  simp only [Pi.div_apply]
  have hma : Real.sqrt m ^ 2 - a ^ 2 ≠ 0 := by rw [hss]; exact sub_ne_zero.mpr hne
  generalize Real.log ((Real.sqrt m + a) / (Real.sqrt m - a)) = l
  rw [show m * (m - a ^ 2) = Real.sqrt m ^ 2 * (Real.sqrt m ^ 2 - a ^ 2) from by rw [hss], show 2 * m = 2 * Real.sqrt m ^ 2 from by rw [hss]]
  have e3 : Real.sqrt m ^ 2 - a ^ 2 = (Real.sqrt m - a) * (Real.sqrt m + a) := by ring
  rw [e3]
  generalize Real.sqrt m = s at *
  have : s + a ≠ 0 := by positivity
  field_simp
  ring

theorem hasDeriv_tri1 (a m : ℝ) (h : TriDom a m) : HasDerivAt (tri1 a) (tri2 a m) m := by
  have h0 := hasDeriv_tri0 a m h
  obtain ⟨ha, hm, hne⟩ := h
  have hma : m - a ^ 2 ≠ 0 := sub_ne_zero.mpr hne
  have hi := hasDerivAt_id m
  have hp := (hi.mul (hi.sub_const (a ^ 2)))
  have h1 := (h0.div (hi.const_mul 2) (by simpa using hm.ne')).neg.sub ((hasDerivAt_const m (2 * a)).div hp (by simpa using ⟨hm.ne', hma⟩))
  refine h1.congr_deriv ?_
  rw [tri2]
  simp only [id, Pi.mul_apply]
  generalize triLog a m = t
  generalize tri1 a m = t1
  field_simp
  ring

theorem hasDeriv_tri2 (a m : ℝ) (h : TriDom a m) : HasDerivAt (tri2 a) (tri3 a m) m := by
  have h0 := hasDeriv_tri0 a m h
  have h1 := hasDeriv_tri1 a m h
  obtain ⟨ha, hm, hne⟩ := h
  have hma : m - a ^ 2 ≠ 0 := sub_ne_zero.mpr hne
  have hi := hasDerivAt_id m
  have hp := (hi.mul (hi.sub_const (a ^ 2))).pow 2
  have h2 := ((h1.div (hi.const_mul 2) (by simpa using hm.ne')).neg.add (h0.div ((hi.pow 2).const_mul 2) (by simpa using hm.ne'))).add
    ((((hi.const_mul 2).sub_const (a ^ 2)).const_mul (2 * a)).div hp (by simpa using ⟨hm.ne', hma⟩))
  refine h2.congr_deriv ?_
  rw [tri3]
  simp only [id, Pi.mul_apply, Pi.pow_apply]
  generalize triLog a m = t
  generalize tri1 a m = t1
  generalize tri2 a m = t2
  push_cast
  field_simp
  ring

theorem cont_tri0 (a m : ℝ) (h : TriDom a m) : ContinuousAt (fun p : ℝ × ℝ => triLog p.1 p.2) (a, m) := by
  have hs := h.sqrt
  obtain ⟨ha, hm, hne⟩ := h
  have hs0 := Real.sqrt_pos.mpr hm
  have hq : ContinuousAt (fun p : ℝ × ℝ => Real.sqrt p.2) (a, m) := (Real.continuous_sqrt.comp continuous_snd).continuousAt
  have hf : ContinuousAt (fun p : ℝ × ℝ => p.1) (a, m) := continuous_fst.continuousAt
  unfold triLog
  refine ContinuousAt.div (ContinuousAt.mul continuousAt_const (ContinuousAt.log (((hq.add hf).div (hq.sub hf) (sub_ne_zero.mpr hs)).abs) ?_)) hq hs0.ne'
  exact abs_ne_zero.mpr (div_ne_zero (by positivity) (sub_ne_zero.mpr hs))

theorem cont_tri (a m : ℝ) (h : TriDom a m) : ContinuousAt (fun p : ℝ × ℝ => tri1 p.1 p.2) (a, m) ∧
    ContinuousAt (fun p : ℝ × ℝ => tri2 p.1 p.2) (a, m) ∧ ContinuousAt (fun p : ℝ × ℝ => tri3 p.1 p.2) (a, m) := by
  have h0 := cont_tri0 a m h
  obtain ⟨ha, hm, hne⟩ := h
  have hma : m - a ^ 2 ≠ 0 := sub_ne_zero.mpr hne
  have hp : m * (m - a ^ 2) ≠ 0 := mul_ne_zero hm.ne' hma
  have c1 : ContinuousAt (fun p : ℝ × ℝ => p.1) (a, m) := continuous_fst.continuousAt
  have c2 : ContinuousAt (fun p : ℝ × ℝ => p.2) (a, m) := continuous_snd.continuousAt
  have cp : ContinuousAt (fun p : ℝ × ℝ => p.2 * (p.2 - p.1 ^ 2)) (a, m) := c2.mul (c2.sub (c1.pow 2))
  have h1 : ContinuousAt (fun p : ℝ × ℝ => tri1 p.1 p.2) (a, m) := by
    unfold tri1
    exact (h0.div (c2.const_mul 2) (by simp [hm.ne'])).neg.sub ((c1.const_mul 2).div cp hp)
  have h2 : ContinuousAt (fun p : ℝ × ℝ => tri2 p.1 p.2) (a, m) := by
    unfold tri2
    exact ((h1.div (c2.const_mul 2) (by simp [hm.ne'])).neg.add (h0.div ((c2.pow 2).const_mul 2) (by simp [hm.ne']))).add
      (((c1.const_mul 2).mul ((c2.const_mul 2).sub (c1.pow 2))).div (cp.pow 2) (pow_ne_zero 2 hp))
  refine ⟨h1, h2, ?_⟩
  unfold tri3
  exact (((h2.div (c2.const_mul 2) (by simp [hm.ne'])).neg.add (h1.div (c2.pow 2) (by simp [hm.ne']))).sub (h0.div (c2.pow 3) (by simp [hm.ne']))).add
      (((c1.const_mul 4).mul (cp.sub (((c2.const_mul 2).sub (c1.pow 2)).pow 2))).div (cp.pow 3) (pow_ne_zero 3 hp))

/-- Mean value inequality used for the remainders. -/
theorem mvt_step (f f' : ℝ → ℝ) (m h C : ℝ) (hd : ∀ x ∈ Set.uIcc m (m + h), HasDerivAt f (f' x) x) (hb : ∀ x ∈ Set.uIcc m (m + h), |f' x| ≤ C) :
    ∀ x ∈ Set.uIcc m (m + h), |f x - f m| ≤ C * |h| := by
  intro x hx
  have := (convex_uIcc m (m + h)).norm_image_sub_le_of_norm_hasDerivWithin_le (f := f) (f' := f') (C := C)
    (fun y hy => (hd y hy).hasDerivWithinAt) (fun y hy => by rw [Real.norm_eq_abs]; exact hb y hy) Set.left_mem_uIcc hx
  rw [Real.norm_eq_abs, Real.norm_eq_abs] at this
  have hC : 0 ≤ C := (abs_nonneg _).trans (hb m Set.left_mem_uIcc)
  refine this.trans (mul_le_mul_of_nonneg_left ?_ hC)
  have := Set.abs_sub_left_of_mem_uIcc hx
  simpa using this

theorem taylor_one (f f1 f2 : ℝ → ℝ) (m h C : ℝ) (d1 : ∀ x ∈ Set.uIcc m (m + h), HasDerivAt f (f1 x) x)
    (d2 : ∀ x ∈ Set.uIcc m (m + h), HasDerivAt f1 (f2 x) x) (hb : ∀ x ∈ Set.uIcc m (m + h), |f2 x| ≤ C) :
    |f (m + h) - f m - h * f1 m| ≤ C * |h| ^ 2 := by
  have s1 := mvt_step f1 f2 m h C d2 hb
  have s2 := mvt_step (fun x => f x - (x - m) * f1 m) (fun x => f1 x - f1 m) m h (C * |h|)
    (fun x hx => ((d1 x hx).sub (((hasDerivAt_id x).sub_const m).mul_const (f1 m))).congr_deriv (by simp)) s1 (m + h) Set.right_mem_uIcc
  have e : f (m + h) - (m + h - m) * f1 m - (f m - (m - m) * f1 m) = f (m + h) - f m - h * f1 m := by ring
  rw [e] at s2
  calc _ ≤ _ := s2
    _ = _ := by ring

theorem taylor_two (f f1 f2 f3 : ℝ → ℝ) (m h C : ℝ) (d1 : ∀ x ∈ Set.uIcc m (m + h), HasDerivAt f (f1 x) x)
    (d2 : ∀ x ∈ Set.uIcc m (m + h), HasDerivAt f1 (f2 x) x) (d3 : ∀ x ∈ Set.uIcc m (m + h), HasDerivAt f2 (f3 x) x)
    (hb : ∀ x ∈ Set.uIcc m (m + h), |f3 x| ≤ C) : |f (m + h) - f m - h * f1 m - h ^ 2 / 2 * f2 m| ≤ C * |h| ^ 3 := by
  have s1 := mvt_step f2 f3 m h C d3 hb
  have s2 := mvt_step (fun x => f1 x - (x - m) * f2 m) (fun x => f2 x - f2 m) m h (C * |h|)
    (fun x hx => ((d2 x hx).sub (((hasDerivAt_id x).sub_const m).mul_const (f2 m))).congr_deriv (by simp)) s1
  have s3 := mvt_step (fun x => f x - (x - m) * f1 m - (x - m) ^ 2 / 2 * f2 m) (fun x => f1 x - (x - m) * f2 m - (f1 m - (m - m) * f2 m)) m h (C * |h| * |h|)
    (fun x hx => (((d1 x hx).sub (((hasDerivAt_id x).sub_const m).mul_const (f1 m))).sub
      (((((hasDerivAt_id x).sub_const m).pow 2).div_const 2).mul_const (f2 m))).congr_deriv (by simp; ring)) s2 (m + h) Set.right_mem_uIcc
  have e : f (m + h) - (m + h - m) * f1 m - (m + h - m) ^ 2 / 2 * f2 m - (f m - (m - m) * f1 m - (m - m) ^ 2 / 2 * f2 m) =
      f (m + h) - f m - h * f1 m - h ^ 2 / 2 * f2 m := by ring
  rw [e] at s3
  calc _ ≤ _ := s3
    _ = _ := by ring

/-- A neighbourhood in which `triLog` is smooth, with bounds on the second and third derivatives. -/
theorem tri_nbhd (a m : ℝ) (h : TriDom a m) : ∃ C δ : ℝ, 0 < δ ∧ ∀ x y, |x - a| < δ → |y - m| < δ → TriDom x y ∧ |tri2 x y| ≤ C ∧ |tri3 x y| ≤ C := by
  obtain ⟨-, c2, c3⟩ := cont_tri a m h
  obtain ⟨ha, hm, hne⟩ := h
  have o1 : ∀ᶠ p : ℝ × ℝ in 𝓝 (a, m), 0 < p.1 := continuous_fst.continuousAt.eventually (lt_mem_nhds ha)
  have o2 : ∀ᶠ p : ℝ × ℝ in 𝓝 (a, m), 0 < p.2 := continuous_snd.continuousAt.eventually (lt_mem_nhds hm)
  have o3 : ∀ᶠ p : ℝ × ℝ in 𝓝 (a, m), p.2 - p.1 ^ 2 ≠ 0 :=
    (show ContinuousAt (fun p : ℝ × ℝ => p.2 - p.1 ^ 2) (a, m) by fun_prop).eventually_ne (sub_ne_zero.mpr hne)
  have o4 : ∀ᶠ p : ℝ × ℝ in 𝓝 (a, m), |tri2 p.1 p.2| < |tri2 a m| + 1 := c2.abs.eventually (gt_mem_nhds (lt_add_one _))
  have o5 : ∀ᶠ p : ℝ × ℝ in 𝓝 (a, m), |tri3 p.1 p.2| < |tri3 a m| + 1 := c3.abs.eventually (gt_mem_nhds (lt_add_one _))
  obtain ⟨δ, hδ, hball⟩ := Metric.eventually_nhds_iff.mp (o1.and (o2.and (o3.and (o4.and o5))))
  refine ⟨max (|tri2 a m| + 1) (|tri3 a m| + 1), δ, hδ, fun x y hx hy => ?_⟩
  obtain ⟨p1, p2, p3, p4, p5⟩ := hball (y := (x, y)) (by
    rw [Prod.dist_eq, Real.dist_eq, Real.dist_eq]; exact max_lt hx hy)
  exact ⟨⟨p1, p2, sub_ne_zero.mp p3⟩, p4.le.trans (le_max_left _ _), p5.le.trans (le_max_right _ _)⟩

theorem mem_uIcc_near {m h m0 δ x : ℝ} (h1 : |m - m0| < δ) (h2 : |m + h - m0| < δ) (hx : x ∈ Set.uIcc m (m + h)) : |x - m0| < δ := by
  rw [abs_lt] at *
  rcases Set.mem_uIcc.mp hx with ⟨p, q⟩ | ⟨p, q⟩ <;> constructor <;> linarith

theorem tri_taylor {X : Type*} (l : Filter X) (A M H : X → ℝ) (a m : ℝ) (h : TriDom a m) (hA : Tendsto A l (𝓝 a)) (hM : Tendsto M l (𝓝 m))
    (hH : Tendsto H l (𝓝 0)) :
    ((fun x => triLog (A x) (M x + H x) - triLog (A x) (M x) - H x * tri1 (A x) (M x)) =O[l] fun x => H x ^ 2) ∧
    ((fun x => triLog (A x) (M x + H x) - triLog (A x) (M x) - H x * tri1 (A x) (M x) - H x ^ 2 / 2 * tri2 (A x) (M x)) =O[l] fun x => H x ^ 3) := by
  obtain ⟨C, δ, hδ, hb⟩ := tri_nbhd a m h
  have hMH : Tendsto (fun x => M x + H x) l (𝓝 m) := by simpa using hM.add hH
  have e1 : ∀ᶠ x in l, |A x - a| < δ := by simpa [Real.dist_eq] using (Metric.tendsto_nhds.mp hA δ hδ)
  have e2 : ∀ᶠ x in l, |M x - m| < δ := by simpa [Real.dist_eq] using (Metric.tendsto_nhds.mp hM δ hδ)
  have e3 : ∀ᶠ x in l, |M x + H x - m| < δ := by simpa [Real.dist_eq] using (Metric.tendsto_nhds.mp hMH δ hδ)
  constructor
  · refine IsBigO.of_bound C ?_
    filter_upwards [e1, e2, e3] with x x1 x2 x3
    have hd := fun y (hy : y ∈ Set.uIcc (M x) (M x + H x)) => hb (A x) y x1 (mem_uIcc_near x2 x3 hy)
    rw [Real.norm_eq_abs, Real.norm_eq_abs, abs_pow]
    exact taylor_one (triLog (A x)) (tri1 (A x)) (tri2 (A x)) (M x) (H x) C (fun y hy => hasDeriv_tri0 _ _ (hd y hy).1)
      (fun y hy => hasDeriv_tri1 _ _ (hd y hy).1) (fun y hy => (hd y hy).2.1)
  · refine IsBigO.of_bound C ?_
    filter_upwards [e1, e2, e3] with x x1 x2 x3
    have hd := fun y (hy : y ∈ Set.uIcc (M x) (M x + H x)) => hb (A x) y x1 (mem_uIcc_near x2 x3 hy)
    rw [Real.norm_eq_abs, Real.norm_eq_abs, abs_pow]
    exact taylor_two (triLog (A x)) (tri1 (A x)) (tri2 (A x)) (tri3 (A x)) (M x) (H x) C (fun y hy => hasDeriv_tri0 _ _ (hd y hy).1)
      (fun y hy => hasDeriv_tri1 _ _ (hd y hy).1) (fun y hy => hasDeriv_tri2 _ _ (hd y hy).1) (fun y hy => (hd y hy).2.2)

end

end Verif
