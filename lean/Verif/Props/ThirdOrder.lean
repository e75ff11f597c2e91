import Verif.Proofs.Safe
import Verif.Props.Kernels
import Verif.Props.Powers
import Verif.Spec.Bias
import Verif.Spec.Table
import Mathlib.Geometry.Euclidean.PerpBisector
import Mathlib.MeasureTheory.Measure.Lebesgue.EqHaar
import Mathlib.MeasureTheory.Measure.Haar.InnerProductSpace
import Mathlib.MeasureTheory.Group.Integral
import Mathlib.MeasureTheory.Measure.Haar.Unique

/-!
# C52: the integrand of the third-order term
-/

namespace Verif

open MeasureTheory

/-- Integrand of the third-order spectrum over `p` and `q` in full space (Taruya et al. 2012, eq. 23, third term, without the
factor 6), for the spectrum `P`, at the wavevector `k` along the third axis. -/
noncomputable def specG3 (P : ℝ → ℝ) (a b : Field) (k : ℝ) (p q : Vec) : ℝ :=
  let r : Vec := (⟨0, 0, k⟩ - p) - q
  F3Sym a p q r * F3Sym b p q r * P p.modulus * P q.modulus * P r.modulus

/-- C52: the three wavevectors of a sample point sum up to `k`, and the first two have the moduli `p`, `q` within the range. -/
theorem C52_momentum (k qmin qmax : ℝ) (h0 : 0 < qmin) (h1 : qmin ≤ qmax) (xx : Fin 5 → ℝ) (hx : ∀ i, 0 ≤ xx i ∧ xx i ≤ 1) :
    let s := g3Point k (Real.log qmin) (Real.log qmax) xx
    s.pp + s.qq + s.kpq = ⟨0, 0, k⟩ ∧ s.pp.modulus = s.p ∧ s.qq.modulus = s.q ∧ qmin ≤ s.p ∧ s.p ≤ qmax ∧ qmin ≤ s.q ∧ s.q ≤ qmax := by
  intro s
  have hq : 0 < qmax := h0.trans_le h1
  have hl : Real.log qmin ≤ Real.log qmax := Real.log_le_log h0 h1
  have hb : ∀ i, qmin ≤ Real.exp (Real.log qmin + (Real.log qmax - Real.log qmin) * xx i) ∧
      Real.exp (Real.log qmin + (Real.log qmax - Real.log qmin) * xx i) ≤ qmax := fun i => by
    constructor
    · rw [← Real.log_le_iff_le_exp h0]
      nlinarith [mul_nonneg (sub_nonneg.2 hl) (hx i).1]
    · rw [← Real.le_log_iff_exp_le hq]
      nlinarith [mul_le_mul_of_nonneg_left (hx i).2 (sub_nonneg.2 hl)]
  refine ⟨?_, ?_, ?_, (hb 0).1, (hb 0).2, (hb 3).1, (hb 3).2⟩
  · show Vec.mk _ _ _ = Vec.mk _ _ _
    simp only [Vec.mk.injEq]
    refine ⟨?_, ?_, ?_⟩ <;> simp [s, g3Point]
  · unfold Vec.modulus
    have : s.pp.dot s.pp = s.p ^ 2 := by
      simp only [s, g3Point, Vec.dot]
      have h2 := Real.sin_sq_add_cos_sq (xx 1 * Real.pi)
      have h3 := Real.sin_sq_add_cos_sq (xx 2 * 2 * Real.pi)
      linear_combination (Real.exp (Real.log qmin + (Real.log qmax - Real.log qmin) * xx 0)) ^ 2 * (h2 + Real.sin (xx 1 * Real.pi) ^ 2 * h3)
    rw [this, Real.sqrt_sq (show 0 ≤ s.p from (Real.exp_pos _).le)]
  · unfold Vec.modulus
    have : s.qq.dot s.qq = s.q ^ 2 := by
      simp only [s, g3Point, Vec.dot]
      have h2 := Real.sin_sq_add_cos_sq (xx 4 * Real.pi)
      linear_combination (Real.exp (Real.log qmin + (Real.log qmax - Real.log qmin) * xx 3)) ^ 2 * h2
    rw [this, Real.sqrt_sq (show 0 ≤ s.q from (Real.exp_pos _).le)]

open Classical in
/-- C52: the integrand is evaluated exactly where the second wavevector is not longer than the third one and the third one is
within the range; its value is twice the full-space integrand times the volume element of spherical coordinates with logarithmic
radii, the azimuth of the second wavevector being integrated out. -/
theorem C52_region (t : Pk ℝ) (P : ℝ → ℝ) (interpol : Interpol) (hP : ∀ k, look t interpol k = .ok (P k)) (a b : Field)
    (k qmin qmax : ℝ) (h0 : 0 < qmin) (h1 : qmin ≤ qmax) (xx : Fin 5 → ℝ) (hx : ∀ i, 0 ≤ xx i ∧ xx i ≤ 1) :
    let s := g3Point k (Real.log qmin) (Real.log qmax) xx
    let r : Vec := (⟨0, 0, k⟩ - s.pp) - s.qq
    kernelGamma3 t interpol a b k qmin qmax xx = .ok (
      if s.qq.modulus ≤ r.modulus ∧ qmin ≤ r.modulus ∧ r.modulus ≤ qmax then
        2 * specG3 P a b k s.pp s.qq
          * (s.p ^ 3 * Real.sin (Real.pi * xx 1) * (Real.log (qmax / qmin) * Real.pi * (2 * Real.pi)))
          * (s.q ^ 3 * Real.sin (Real.pi * xx 4) * (Real.log (qmax / qmin) * Real.pi * (2 * Real.pi)))
      else 0) := by
  intro s r
  obtain ⟨hsum, hp, hq, -⟩ := C52_momentum k qmin qmax h0 h1 xx hx
  have hr : s.kpq = r := by
    show Vec.mk _ _ _ = Vec.mk _ _ _
    simp only [Vec.mk.injEq]
    refine ⟨?_, ?_, ?_⟩ <;> simp [s, g3Point]
  have hrm : Real.sqrt (s.kpq.x * s.kpq.x + s.kpq.y * s.kpq.y + s.kpq.z * s.kpq.z) = r.modulus := by
    rw [hr]; rfl
  have hkp : 0.5 * Real.sqrt (s.kp.x * s.kp.x + s.kp.y * s.kp.y + s.kp.z * s.kp.z)
      * Real.sqrt (s.kp.x * s.kp.x + s.kp.y * s.kp.y + s.kp.z * s.kp.z) = s.kp.dot s.kp / 2 := by
    rw [mul_assoc, Real.mul_self_sqrt (add_nonneg (add_nonneg (mul_self_nonneg _) (mul_self_nonneg _)) (mul_self_nonneg _))]
    unfold Vec.dot
    ring
  have hcond : s.qq.x * s.kp.x + s.qq.y * s.kp.y + s.qq.z * s.kp.z ≤ s.kp.dot s.kp / 2 ↔ s.qq.modulus ≤ r.modulus := by
    unfold Vec.modulus
    rw [Real.sqrt_le_sqrt_iff (Vec.dot_self_nonneg r)]
    have e : r = s.kp - s.qq := by
      show Vec.mk _ _ _ = Vec.mk _ _ _
      simp only [Vec.mk.injEq]
      refine ⟨?_, ?_, ?_⟩ <;> simp [s, g3Point]
    rw [e]
    simp only [Vec.dot, Vec.sub_x, Vec.sub_y, Vec.sub_z]
    constructor <;> intro h <;> nlinarith
  have hlog : Real.log qmax - Real.log qmin = Real.log (qmax / qmin) := (Real.log_div (h0.trans_le h1).ne' h0.ne').symm
  unfold kernelGamma3
  show (if _ ∧ _ ∧ _ then _ else _) = _
  rw [hrm, hkp, hP, hP, hP]
  by_cases hc : s.qq.modulus ≤ r.modulus ∧ qmin ≤ r.modulus ∧ r.modulus ≤ qmax
  · rw [if_pos ⟨hc.2.1, hc.2.2, hcond.2 hc.1⟩, if_pos hc]
    simp only [Res.ok_bind]
    congr 1
    have hs1 : s.sintheta1 = Real.sin (Real.pi * xx 1) := by simp only [s, g3Point]; rw [mul_comm]
    have hs2 : s.sintheta2 = Real.sin (Real.pi * xx 4) := by simp only [s, g3Point]; rw [mul_comm]
    rw [hlog]
    show 2 * (F3Sym a s.pp s.qq s.kpq * F3Sym b s.pp s.qq s.kpq * P s.p * P s.q * P r.modulus * (s.p * s.p * s.p * s.q * s.q * s.q *
      (Real.log (qmax / qmin) * Real.pi * 2 * Real.pi * (Real.log (qmax / qmin) * Real.pi * 2 * Real.pi * s.sintheta1 * s.sintheta2)))) = _
    rw [hs1, hs2, hr, ← hp, ← hq]
    unfold specG3
    show _ = 2 * (F3Sym a s.pp s.qq r * F3Sym b s.pp s.qq r * P s.pp.modulus * P s.qq.modulus * P r.modulus) * _ * _
    ring
  · rw [if_neg hc, if_neg fun h => hc ⟨hcond.1 h.2.2, h.1, h.2.1⟩]

/-- C52: exchanging the second and third wavevectors leaves the full-space integrand unchanged. -/
theorem C52_exchange (P : ℝ → ℝ) (a b : Field) (k : ℝ) (p q : Vec) :
    specG3 P a b k p ((⟨0, 0, k⟩ - p) - q) = specG3 P a b k p q := by
  unfold specG3
  have e : (⟨0, 0, k⟩ - p : Vec) - ((⟨0, 0, k⟩ - p) - q) = q := by
    show Vec.mk _ _ _ = Vec.mk _ _ _
    simp
  dsimp only
  rw [e, (C18_F3_perm a p q _).1, (C18_F3_perm b p q _).1]
  ring

/-! ## The half space -/

/-- Wavevectors as points of Euclidean space. -/
abbrev E3 := EuclideanSpace ℝ (Fin 3)

/-- A function symmetric under the reflection `q ↦ c - q`, `c ≠ 0`, integrates over the points nearer to the origin than to `c`
to half its full integral. -/
theorem half_space_integral (f : E3 → ℝ) (c : E3) (hc : c ≠ 0) (hf : Integrable f) (hs : ∀ q, f (c - q) = f q) :
    ∫ q, f q = 2 * ∫ q in {q | ‖q‖ ≤ ‖c - q‖}, f q := by
  have hm : MeasurableSet {q : E3 | ‖q‖ ≤ ‖c - q‖} := measurableSet_le (by fun_prop) (by fun_prop)
  rw [← integral_add_compl hm hf, two_mul]
  congr 1
  have hmp : MeasurePreserving (fun q : E3 => c - q) volume volume := Measure.measurePreserving_sub_left volume c
  have hemb : MeasurableEmbedding (fun q : E3 => c - q) := (MeasurableEquiv.subLeft c).measurableEmbedding
  have h := hmp.setIntegral_preimage_emb hemb f {q | ‖q‖ ≤ ‖c - q‖}ᶜ
  rw [← h]
  simp only [hs]
  refine setIntegral_congr_set ?_
  have hz : volume (AffineSubspace.perpBisector (0 : E3) c : Set E3) = 0 :=
    Measure.addHaar_affineSubspace _ _ (by simpa using hc.symm)
  refine (ae_iff.2 (measure_mono_null ?_ hz) : ∀ᵐ q, _ = _)
  intro q hq
  simp only [Set.mem_ofPred_eq] at hq
  show q ∈ AffineSubspace.perpBisector (0 : E3) c
  rw [AffineSubspace.mem_perpBisector_iff_dist_eq, dist_zero_right, dist_eq_norm, norm_sub_rev]
  by_contra hne
  refine hq (propext ?_)
  show ¬ (‖c - q‖ ≤ ‖c - (c - q)‖) ↔ ‖q‖ ≤ ‖c - q‖
  rw [sub_sub_cancel, not_le]
  exact ⟨le_of_lt, fun h => lt_of_le_of_ne h hne⟩

/-- The wavevector of a point of Euclidean space. -/
def toVec (q : E3) : Vec := ⟨q 0, q 1, q 2⟩

theorem toVec_modulus (q : E3) : (toVec q).modulus = ‖q‖ := by
  unfold Vec.modulus toVec Vec.dot
  rw [EuclideanSpace.norm_eq, Fin.sum_univ_three]
  congr 1
  simp only [Real.norm_eq_abs, sq_abs]
  ring

open Classical in
/-- The full-space integrand over `q` restricted to the second and third wavevectors within the range. -/
noncomputable def rangedG3 (P : ℝ → ℝ) (a b : Field) (k qmin qmax : ℝ) (p : Vec) (q : E3) : ℝ :=
  let r : Vec := (⟨0, 0, k⟩ - p) - toVec q
  if qmin ≤ ‖q‖ ∧ ‖q‖ ≤ qmax ∧ qmin ≤ r.modulus ∧ r.modulus ≤ qmax then specG3 P a b k p (toVec q) else 0

/-- C52: twice the integral over the half space where the second wavevector is not longer than the third one is the integral
over the full space, for every `p` other than `k` itself. -/
theorem C52_half_space (P : ℝ → ℝ) (a b : Field) (k qmin qmax : ℝ) (p : E3) (hp : toVec p ≠ ⟨0, 0, k⟩)
    (hi : Integrable (rangedG3 P a b k qmin qmax (toVec p))) :
    2 * ∫ q in {q : E3 | (toVec q).modulus ≤ ((⟨0, 0, k⟩ - toVec p) - toVec q).modulus}, rangedG3 P a b k qmin qmax (toVec p) q
      = ∫ q, rangedG3 P a b k qmin qmax (toVec p) q := by
  let c : E3 := !₂[0, 0, k] - p
  have hr : ∀ q : E3, (⟨0, 0, k⟩ - toVec p : Vec) - toVec q = toVec (c - q) := fun q => by
    show Vec.mk _ _ _ = Vec.mk _ _ _
    simp [c, toVec]
  have hc : c ≠ 0 := by
    intro h
    apply hp
    have h0 : ∀ i, c i = 0 := fun i => by rw [h]; rfl
    have e0 := h0 0
    have e1 := h0 1
    have e2 := h0 2
    simp [c] at e0 e1 e2
    show Vec.mk _ _ _ = Vec.mk _ _ _
    rw [e0, e1]
    congr 1
    linarith
  rw [half_space_integral _ c hc hi ?_]
  · simp only [hr, toVec_modulus]
  · intro q
    unfold rangedG3
    simp only [hr, toVec_modulus, sub_sub_cancel]
    have e : specG3 P a b k (toVec p) (toVec (c - q)) = specG3 P a b k (toVec p) (toVec q) := by
      rw [← hr, C52_exchange]
    rw [e]
    refine if_congr ?_ rfl rfl
    tauto

/-! ## A concrete case -/

/-- Index of a field in `sigmaab`. -/
def fieldNum : Field → ℕ
  | .delta => 1
  | .theta => 2

theorem F3_continuousOn (a : Field) (S : Set E3) (u v w : E3 → Vec)
    (hu : Continuous (fun q => (u q).x) ∧ Continuous (fun q => (u q).y) ∧ Continuous (fun q => (u q).z))
    (hv : Continuous (fun q => (v q).x) ∧ Continuous (fun q => (v q).y) ∧ Continuous (fun q => (v q).z))
    (hw : Continuous (fun q => (w q).x) ∧ Continuous (fun q => (w q).y) ∧ Continuous (fun q => (w q).z))
    (nu : ∀ q ∈ S, (u q).dot (u q) ≠ 0) (nv : ∀ q ∈ S, (v q).dot (v q) ≠ 0) (nw : ∀ q ∈ S, (w q).dot (w q) ≠ 0)
    (h1 : ∀ q ∈ S, ¬ tiny (v q + w q)) (h2 : ∀ q ∈ S, ¬ tiny (u q + (v q + w q))) :
    ContinuousOn (fun q => F3 a (u q) (v q) (w q)) S := by
  obtain ⟨u1, u2, u3⟩ := hu
  obtain ⟨v1, v2, v3⟩ := hv
  obtain ⟨w1, w2, w3⟩ := hw
  have nvw : ∀ q ∈ S, (v q + w q).dot (v q + w q) ≠ 0 := fun q hq => dot_ne_zero_of_not_tiny (h1 q hq)
  have hd : ∀ f g : E3 → Vec, Continuous (fun q => (f q).x) → Continuous (fun q => (f q).y) → Continuous (fun q => (f q).z) →
      Continuous (fun q => (g q).x) → Continuous (fun q => (g q).y) → Continuous (fun q => (g q).z) →
      ContinuousOn (fun q => (f q).dot (g q)) S := fun f g a b c d e f => by
    unfold Vec.dot
    exact Continuous.continuousOn (by fun_prop)
  have cu := hd u u u1 u2 u3 u1 u2 u3
  have cv := hd v v v1 v2 v3 v1 v2 v3
  have cw := hd w w w1 w2 w3 w1 w2 w3
  have cvw := hd v w v1 v2 v3 w1 w2 w3
  have cs := hd (fun q => v q + w q) (fun q => v q + w q) (v1.add w1) (v2.add w2) (v3.add w3) (v1.add w1) (v2.add w2) (v3.add w3)
  have cus := hd u (fun q => v q + w q) u1 u2 u3 (v1.add w1) (v2.add w2) (v3.add w3)
  refine ContinuousOn.congr (f := fun q => 2 * ((sigmaab 3 (fieldNum a) 1 * ((1 + (u q).dot (v q + w q) / (v q + w q).dot (v q + w q)) / 2)
      + sigmaab 3 (fieldNum a) 2 * ((u q).dot (v q + w q) * ((u q).dot (u q) + (v q + w q).dot (v q + w q) + 2 * (u q).dot (v q + w q))
        / ((u q).dot (u q) * (v q + w q).dot (v q + w q)) / 2)) * F2Fast .theta ((v q).dot (v q)) ((w q).dot (w q)) ((v q).dot (w q))
      + sigmaab 3 (fieldNum a) 1 * ((1 + (u q).dot (v q + w q) / (u q).dot (u q)) / 2)
        * F2Fast .delta ((v q).dot (v q)) ((w q).dot (w q)) ((v q).dot (w q)))) ?_ ?_
  · have cf : ∀ b, ContinuousOn (fun q => F2Fast b ((v q).dot (v q)) ((w q).dot (w q)) ((v q).dot (w q))) S := fun b => by
      cases b <;> unfold F2Fast <;> dsimp only <;> fun_prop (disch := assumption)
    have cm : ∀ q ∈ S, (u q).dot (u q) * (v q + w q).dot (v q + w q) ≠ 0 := fun q hq => mul_ne_zero (nu q hq) (nvw q hq)
    fun_prop (disch := assumption)
  · intro q hq
    unfold F3
    dsimp only
    rw [if_neg (not_or.2 ⟨h1 q hq, h2 q hq⟩)]
    cases a <;> rfl

/-- The first wavevector of the concrete case. -/
noncomputable def exP : E3 := !₂[0, 0, 8]

theorem toVec_exP : toVec exP = ⟨0, 0, 8⟩ := by simp [toVec, exP]

/-- Non-vacuity of `C52_half_space`: `k = 10` and `p = 8` along the third axis, range `[1/2, 2]`, flat spectrum. -/
theorem exG3_integrable (a b : Field) : Integrable (rangedG3 (fun _ => 1) a b 10 (1 / 2) 2 (toVec exP)) := by
  classical
  let c : E3 := !₂[0, 0, 2]
  have hr : ∀ q : E3, (⟨0, 0, 10⟩ - toVec exP : Vec) - toVec q = toVec (c - q) := fun q => by
    rw [toVec_exP]
    show Vec.mk _ _ _ = Vec.mk _ _ _
    simp [c, toVec]
    norm_num
  let S : Set E3 := {q | 1 / 2 ≤ ‖q‖ ∧ ‖q‖ ≤ 2 ∧ 1 / 2 ≤ ‖c - q‖ ∧ ‖c - q‖ ≤ 2}
  have hcl : IsClosed S := by
    have h1 : IsClosed {q : E3 | 1 / 2 ≤ ‖q‖} := isClosed_le continuous_const continuous_norm
    have h2 : IsClosed {q : E3 | ‖q‖ ≤ 2} := isClosed_le continuous_norm continuous_const
    have h3 : IsClosed {q : E3 | 1 / 2 ≤ ‖c - q‖} := isClosed_le continuous_const (by fun_prop)
    have h4 : IsClosed {q : E3 | ‖c - q‖ ≤ 2} := isClosed_le (by fun_prop) continuous_const
    exact h1.inter (h2.inter (h3.inter h4))
  have hK : IsCompact S := Metric.isCompact_of_isClosed_isBounded hcl
    (Metric.isBounded_closedBall.subset (s := S) (t := Metric.closedBall 0 2) fun q hq => by simpa using hq.2.1)
  have hind : rangedG3 (fun _ => 1) a b 10 (1 / 2) 2 (toVec exP)
      = S.indicator fun q => F3Sym a (toVec exP) (toVec q) (toVec (c - q)) * F3Sym b (toVec exP) (toVec q) (toVec (c - q)) := by
    funext q
    unfold rangedG3 specG3
    simp only [hr, toVec_modulus, mul_one]
    rw [Set.indicator_apply]
    exact if_congr Iff.rfl rfl rfl
  rw [hind, integrable_indicator_iff hcl.measurableSet]
  refine ContinuousOn.integrableOn_compact hK ?_
  have hz : ∀ q ∈ S, -2 ≤ q 2 ∧ q 2 ≤ 2 ∧ -2 ≤ (c - q) 2 ∧ (c - q) 2 ≤ 2 := fun q hq => by
    have h1 := (PiLp.norm_apply_le q 2).trans hq.2.1
    have h2 := (PiLp.norm_apply_le (c - q) 2).trans hq.2.2.2
    rw [Real.norm_eq_abs, abs_le] at h1 h2
    exact ⟨h1.1, h1.2, h2.1, h2.2⟩
  have hn : ∀ q : E3, (1 / 2 : ℝ) ≤ ‖q‖ → (toVec q).dot (toVec q) ≠ 0 := fun q h e => by
    have := toVec_modulus q
    unfold Vec.modulus at this
    rw [e, Real.sqrt_zero] at this
    linarith
  have ht : ∀ v : Vec, 1 ≤ v.z → ¬ tiny v := fun v h ht => by
    have := ht.2.2
    rw [abs_of_nonneg (by linarith)] at this
    norm_num [eps] at this
    linarith
  have ce : Continuous (fun _ : E3 => (toVec exP).x) ∧ Continuous (fun _ : E3 => (toVec exP).y) ∧ Continuous (fun _ : E3 => (toVec exP).z) :=
    ⟨continuous_const, continuous_const, continuous_const⟩
  have cq : Continuous (fun q : E3 => (toVec q).x) ∧ Continuous (fun q : E3 => (toVec q).y) ∧ Continuous (fun q : E3 => (toVec q).z) := by
    refine ⟨?_, ?_, ?_⟩ <;> simp only [toVec] <;> fun_prop
  have cr : Continuous (fun q : E3 => (toVec (c - q)).x) ∧ Continuous (fun q : E3 => (toVec (c - q)).y)
      ∧ Continuous (fun q : E3 => (toVec (c - q)).z) := by
    refine ⟨?_, ?_, ?_⟩ <;> simp only [toVec] <;> fun_prop
  have ne : ∀ q ∈ S, (toVec exP).dot (toVec exP) ≠ 0 := fun q _ => by rw [toVec_exP]; norm_num [Vec.dot]
  have nq : ∀ q ∈ S, (toVec q).dot (toVec q) ≠ 0 := fun q hq => hn q hq.1
  have nr : ∀ q ∈ S, (toVec (c - q)).dot (toVec (c - q)) ≠ 0 := fun q hq => hn _ hq.2.2.1
  have hc2 : c 2 = 2 := by simp [c]
  have key : ∀ a, ContinuousOn (fun q => F3Sym a (toVec exP) (toVec q) (toVec (c - q))) S := fun a => by
    unfold F3Sym
    refine ContinuousOn.div_const (ContinuousOn.add (ContinuousOn.add ?_ ?_) ?_) 3
    · refine F3_continuousOn a S _ _ _ ce cq cr ne nq nr (fun q hq => ht _ ?_) (fun q hq => ht _ ?_)
      · simp only [toVec, Vec.add_z, PiLp.sub_apply]; linarith
      · rw [toVec_exP]; simp only [toVec, Vec.add_z, PiLp.sub_apply]; linarith
    · refine F3_continuousOn a S _ _ _ cr ce cq nr ne nq (fun q hq => ht _ ?_) (fun q hq => ht _ ?_)
      · have := hz q hq
        rw [toVec_exP]; simp only [toVec, Vec.add_z]; linarith
      · rw [toVec_exP]; simp only [toVec, Vec.add_z, PiLp.sub_apply]; linarith
    · refine F3_continuousOn a S _ _ _ cq cr ce nq nr ne (fun q hq => ht _ ?_) (fun q hq => ht _ ?_)
      · have := hz q hq
        rw [toVec_exP]; simp only [toVec, Vec.add_z]; linarith
      · rw [toVec_exP]; simp only [toVec, Vec.add_z, PiLp.sub_apply]; linarith
  exact (key a).mul (key b)

example (a b : Field) :
    2 * ∫ q in {q : E3 | (toVec q).modulus ≤ ((⟨0, 0, 10⟩ - toVec exP) - toVec q).modulus}, rangedG3 (fun _ => 1) a b 10 (1 / 2) 2 (toVec exP) q
      = ∫ q, rangedG3 (fun _ => 1) a b 10 (1 / 2) 2 (toVec exP) q :=
  C52_half_space _ a b 10 _ _ exP (by rw [toVec_exP]; simp) (exG3_integrable a b)

/-- Non-vacuity of `C52_momentum` and `C52_region`: the middle of the cube, the example table, the default range. -/
example : (∀ i, 0 ≤ (fun _ : Fin 5 => (1 / 2 : ℝ)) i ∧ (fun _ : Fin 5 => (1 / 2 : ℝ)) i ≤ 1) ∧ (0 : ℝ) < 1 / 2000 ∧ (1 / 2000 : ℝ) ≤ 10 ∧
    ∃ P : ℝ → ℝ, ∀ k, look exTable .poly k = .ok (P k) := by
  refine ⟨fun _ => by norm_num, by norm_num, by norm_num, ?_⟩
  have h := fun k => look_safe exTable_physical.toWF (by norm_num [exTable]) k
  exact ⟨fun k => (h k).choose, fun k => (h k).choose_spec⟩

/-- C52: the term is `3! / (2π)⁶` times the integral, for every cubature routine. -/
theorem C52_normalisation (cuba : ((Fin 5 → ℝ) → Res ℝ) → Res ℝ) (t : Pk ℝ) (interpol : Interpol) (a b : Field) (qmin qmax k I : ℝ)
    (h : cuba (kernelGamma3 t interpol a b k qmin qmax) = .ok I) :
    calcGamma3 cuba t interpol a b qmin qmax k = .ok ((Nat.factorial 3 : ℝ) * (I / (2 * Real.pi) ^ 6)) := by
  unfold calcGamma3
  rw [h, Res.ok_bind, C01_power]
  norm_num [Nat.factorial]
  ring

example : calcGamma3 (fun _ => .ok 1) exTable .poly .delta .theta 1 8 2 = .ok ((Nat.factorial 3 : ℝ) * (1 / (2 * Real.pi) ^ 6)) :=
  C52_normalisation _ _ _ _ _ _ _ _ _ rfl

end Verif
