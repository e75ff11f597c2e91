import Verif.Props.ThirdOrder
import Verif.Props.Bispectrum

/-!
# C63: the loop integrand of the bispectrum is the standard one-loop integrand with the smallest momentum as integration variable
-/

namespace Verif

open MeasureTheory

/-! ## Specification -/

/-- Standard 222 integrand (Scoccimarro 1997, eq. for `B222`): three second-order kernels joined by the internal momenta
`q`, `k1-q` and `k2+q`. -/
noncomputable def spec222 (P : ℝ → ℝ) (a b c : Field) (k1 k2 q : Vec) : ℝ :=
  8 * sptSym2 a q (k1 - q) * sptSym2 b (-q) (k2 + q) * sptSym2 c (k1 - q) (k2 + q)
    * P q.modulus * P (k1 - q).modulus * P (k2 + q).modulus / (2 * Real.pi) ^ 3

/-- Standard 321 integrand of one ordered choice of legs: third-order kernel `a`, second-order kernel `b` on the leg `k2`,
linear leg `k3`; the internal momenta are `q` and `k2-q`. -/
noncomputable def spec321 (P : ℝ → ℝ) (a b : Field) (k2 k3 q : Vec) : ℝ :=
  6 * F3Sym a k3 q (k2 - q) * sptSym2 b q (k2 - q) * P q.modulus * P (k2 - q).modulus * P k3.modulus / (2 * Real.pi) ^ 3

/-! ## Splitting an integral by the smallest momentum -/

theorem toVec_sub (p q : E3) : toVec (p - q) = toVec p - toVec q := rfl

theorem toVec_add (p q : E3) : toVec (p + q) = toVec p + toVec q := rfl

theorem toVec_neg (p : E3) : toVec (-p) = -toVec p := rfl

theorem vec_norm_toVec (q : E3) : (toVec q).norm = ‖q‖ := toVec_modulus q

/-- Points at equal distance of two different points are negligible. -/
theorem ae_norm_ne (u v : E3) (h : u ≠ v) : ∀ᵐ q : E3, ‖u - q‖ ≠ ‖v - q‖ := by
  have hz : volume (AffineSubspace.perpBisector u v : Set E3) = 0 :=
    Measure.addHaar_affineSubspace _ _ (by simpa using h)
  refine ae_iff.2 (measure_mono_null ?_ hz)
  intro q hq
  simp only [ne_eq, not_not, Set.mem_ofPred_eq] at hq
  show q ∈ AffineSubspace.perpBisector u v
  rw [AffineSubspace.mem_perpBisector_iff_dist_eq, dist_eq_norm, dist_eq_norm, norm_sub_rev, hq, norm_sub_rev]

open Classical in
/-- `f` where `u` is the nearest of three points and its distance lies in `I`. -/
noncomputable def nearest (f : E3 → ℝ) (u v w : E3) (I : Set ℝ) (q : E3) : ℝ :=
  if ‖u - q‖ ∈ I ∧ ‖u - q‖ < ‖v - q‖ ∧ ‖u - q‖ < ‖w - q‖ then f q else 0

open Classical in
theorem nearest_integrable (f : E3 → ℝ) (u v w : E3) (I : Set ℝ)
    (hf : Integrable ({q : E3 | min ‖u - q‖ (min ‖v - q‖ ‖w - q‖) ∈ I}.indicator f)) : Integrable (nearest f u v w I) := by
  have hy : ∀ y : E3, MeasurableSet {q : E3 | ‖u - q‖ < ‖y - q‖} := fun y => measurableSet_lt (by fun_prop) (by fun_prop)
  have hm : MeasurableSet {q : E3 | ‖u - q‖ < ‖v - q‖ ∧ ‖u - q‖ < ‖w - q‖} := (hy v).inter (hy w)
  refine (hf.indicator hm).congr (Filter.Eventually.of_forall fun q => ?_)
  unfold nearest
  simp only [Set.indicator_apply, Set.mem_ofPred_eq]
  by_cases hc : ‖u - q‖ < ‖v - q‖ ∧ ‖u - q‖ < ‖w - q‖
  · rw [if_pos hc]
    simp only [min_eq_left (le_min hc.1.le hc.2.le), hc.1, hc.2, and_self, and_true]
  · rw [if_neg hc, if_neg (fun h => hc h.2)]

open Classical in
/-- Integral over the points whose smallest distance to `u`, `v`, `w` lies in `I`, split by the nearest one. -/
theorem three_parts (f : E3 → ℝ) (u v w : E3) (huv : u ≠ v) (huw : u ≠ w) (hvw : v ≠ w) (I : Set ℝ)
    (hf : Integrable ({q : E3 | min ‖u - q‖ (min ‖v - q‖ ‖w - q‖) ∈ I}.indicator f)) :
    Integrable (nearest f u v w I) ∧ Integrable (nearest f v u w I) ∧ Integrable (nearest f w u v I) ∧
    (∫ q, {q : E3 | min ‖u - q‖ (min ‖v - q‖ ‖w - q‖) ∈ I}.indicator f q)
      = (∫ q, nearest f u v w I q) + (∫ q, nearest f v u w I q) + (∫ q, nearest f w u v I q) := by
  have p1 := nearest_integrable f u v w I hf
  have p2 := nearest_integrable f v u w I (by simpa only [min_left_comm] using hf)
  have p3 := nearest_integrable f w u v I (by
    have e : ∀ q : E3, min ‖w - q‖ (min ‖u - q‖ ‖v - q‖) = min ‖u - q‖ (min ‖v - q‖ ‖w - q‖) := fun q => by
      rw [min_left_comm, min_comm ‖w - q‖]
    simpa only [e] using hf)
  refine ⟨p1, p2, p3, ?_⟩
  rw [← integral_add p1 p2]
  refine Eq.trans ?_ (integral_add (p1.add p2) p3)
  refine integral_congr_ae ?_
  filter_upwards [ae_norm_ne u v huv, ae_norm_ne u w huw, ae_norm_ne v w hvw] with q h1 h2 h3
  simp only [Set.indicator_apply, Set.mem_ofPred_eq, nearest]
  rcases lt_or_gt_of_ne h1 with h1 | h1 <;> rcases lt_or_gt_of_ne h2 with h2 | h2 <;> rcases lt_or_gt_of_ne h3 with h3 | h3 <;>
    first
    | (exfalso; linarith)
    | simp [h1, h2, h3, h1.not_gt, h2.not_gt, h3.not_gt, h1.le, h2.le, h3.le]

/-! ## Kernels of the specification -/

theorem sptSym2_neg (a : Field) (p q : Vec) : sptSym2 a (-p) (-q) = sptSym2 a p q := by
  have h : ∀ u v : Vec, (-u).dot (-v) = u.dot v := Vec.neg_dot_neg
  unfold sptSym2
  cases a <;> simp only [sptKernel, List.length_cons, List.length_nil, spt2, sptAlpha, sptBeta, Vec.add_dot, Vec.dot_add, h]

theorem sptSym2_comm (a : Field) (p q : Vec) : sptSym2 a p q = sptSym2 a q p := by
  unfold sptSym2
  rw [_root_.add_comm]

theorem modulus_neg (p : Vec) : (-p).modulus = p.modulus := by
  unfold Vec.modulus
  rw [Vec.neg_dot_neg]

/-- Reversing the loop momentum exchanges the first two legs. -/
theorem spec222_neg (P : ℝ → ℝ) (a b c : Field) (k1 k2 q : Vec) : spec222 P a b c k1 k2 (-q) = spec222 P b a c k2 k1 q := by
  have h1 : k1 - -q = k1 + q := by show Vec.mk _ _ _ = Vec.mk _ _ _; simp
  have h2 : k2 + -q = k2 - q := by show Vec.mk _ _ _ = Vec.mk _ _ _; simp [sub_eq_add_neg]
  have h3 : - -q = q := by show Vec.mk _ _ _ = Vec.mk _ _ _; simp
  unfold spec222
  rw [h1, h2, h3, modulus_neg, sptSym2_comm c (k1 + q)]
  ring

/-- Relabelling the internal momenta exchanges the last two legs. -/
theorem spec222_sub (P : ℝ → ℝ) (a b c : Field) (k1 k2 k3 q : Vec) (h : k1 + k2 + k3 = ⟨0, 0, 0⟩) :
    spec222 P a b c k1 k2 (k1 - q) = spec222 P a c b k1 k3 q := by
  have hx : k1.x + k2.x + k3.x = 0 := congrArg Vec.x h
  have hy : k1.y + k2.y + k3.y = 0 := congrArg Vec.y h
  have hz : k1.z + k2.z + k3.z = 0 := congrArg Vec.z h
  have h1 : k1 - (k1 - q) = q := by show Vec.mk _ _ _ = Vec.mk _ _ _; simp
  have h2 : k2 + (k1 - q) = -(k3 + q) := by
    show Vec.mk _ _ _ = Vec.mk _ _ _
    simp only [Vec.sub_x, Vec.sub_y, Vec.sub_z, Vec.mk.injEq, Vec.add_x, Vec.add_y, Vec.add_z]
    refine ⟨?_, ?_, ?_⟩ <;> linarith
  have h3 : q = - -q := by show Vec.mk _ _ _ = Vec.mk _ _ _; simp
  unfold spec222
  rw [h1, h2, sptSym2_neg, modulus_neg, sptSym2_comm a (k1 - q)]
  have e : sptSym2 c q (-(k3 + q)) = sptSym2 c (-q) (k3 + q) := by
    have := sptSym2_neg c (-q) (k3 + q)
    rwa [← h3] at this
  rw [e]
  ring

/-! ## The 222 term -/

/-- The leg derived from a (wavevector, field) pair when the lookup returns `P`. -/
noncomputable def legOf (P : ℝ → ℝ) (f : Field) (kk qq : Vec) : BiLeg :=
  ⟨f, kk, kk - qq, kk + qq, (kk - qq).norm, (kk + qq).norm, P kk.norm, P (kk - qq).norm, P (kk + qq).norm⟩

theorem biLeg_eq (t : Pk ℝ) (P : ℝ → ℝ) (interpol : Interpol) (hP : ∀ k, look t interpol k = .ok (P k)) (f : Field) (kk qq : Vec) :
    biLeg t interpol f kk qq = .ok (legOf P f kk qq) := by
  unfold biLeg
  dsimp only
  rw [hP, hP, hP]
  rfl

open Classical in
/-- One conditional sum of `bk222_abc`, away from vanishing internal momenta. -/
theorem term222_spec (P : ℝ → ℝ) (a b c : Field) (k1 k2 k3 q : E3) (hq : 0 < ‖q‖) :
    term222 (legOf P a (toVec k1) (toVec q)) (legOf P b (toVec k2) (toVec q)) (legOf P c (toVec k3) (toVec q)) (toVec q) ‖q‖ (P ‖q‖)
        * (8 / (2 * Real.pi) ^ 3)
      = if ‖q‖ < ‖k1 - q‖ ∧ ‖q‖ < ‖k2 + q‖ then spec222 P a b c (toVec k1) (toVec k2) (toVec q) else 0 := by
  have hn : ∀ v : E3, 0 < ‖v‖ → (toVec v).dot (toVec v) ≠ 0 := fun v h e => by
    have := toVec_modulus v
    unfold Vec.modulus at this
    rw [e, Real.sqrt_zero] at this
    linarith
  unfold term222 legOf
  dsimp only
  simp only [← toVec_sub, ← toVec_add, vec_norm_toVec]
  by_cases hc : ‖q‖ < ‖k1 - q‖ ∧ ‖q‖ < ‖k2 + q‖
  · rw [if_pos hc, if_pos hc]
    have n0 := hn q hq
    have n0' : (-toVec q).dot (-toVec q) ≠ 0 := by rw [Vec.neg_dot_neg]; exact n0
    have n1 := hn _ (hq.trans hc.1)
    have n2 := hn _ (hq.trans hc.2)
    rw [C17_F2_spt a _ _ n1 n0, C17_F2_spt b _ _ n2 n0', C17_F2_spt c _ _ n2 n1]
    unfold spec222
    simp only [← toVec_sub, ← toVec_add, toVec_modulus]
    rw [sptSym2_comm a (toVec q), sptSym2_comm b (-toVec q), sptSym2_comm c (toVec (k1 - q))]
    ring
  · rw [if_neg hc, if_neg hc, zero_mul]

/-- Wavenumbers of the integration range. -/
def qRange (qmin qmax : ℝ) : Set ℝ := {x | qmin ≤ x ∧ x ≤ qmax}

theorem qRange_pos {qmin qmax x : ℝ} (h0 : 0 < qmin) (h : x ∈ qRange qmin qmax) : 0 < x := h0.trans_le h.1

open Classical in
/-- The standard integrand of an ordered pair of legs where the loop momentum is the shortest internal momentum. -/
noncomputable def ordered222 (P : ℝ → ℝ) (a b c : Field) (k1 k2 : E3) (I : Set ℝ) (q : E3) : ℝ :=
  if ‖q‖ ∈ I ∧ ‖q‖ < ‖k1 - q‖ ∧ ‖q‖ < ‖k2 + q‖ then spec222 P a b c (toVec k1) (toVec k2) (toVec q) else 0

open Classical in
theorem ordered222_neg (P : ℝ → ℝ) (a b c : Field) (k1 k2 : E3) (I : Set ℝ) (q : E3) :
    ordered222 P a b c k1 k2 I (0 - q) = ordered222 P b a c k2 k1 I q := by
  unfold ordered222
  rw [zero_sub, toVec_neg, spec222_neg, norm_neg, sub_neg_eq_add, ← sub_eq_add_neg]
  exact if_congr (by tauto) rfl rfl

open Classical in
/-- The three parts of the standard integral are the three unordered pairs of legs. -/
theorem ordered222_parts (P : ℝ → ℝ) (a b c : Field) (k1 k2 k3 : E3) (h : k1 + k2 + k3 = 0) (I : Set ℝ) (q : E3) :
    let f := fun q => spec222 P a b c (toVec k1) (toVec k2) (toVec q)
    ordered222 P a b c k1 k2 I q = nearest f 0 k1 (-k2) I q ∧
    ordered222 P a c b k1 k3 I q = nearest f k1 0 (-k2) I (k1 - q) ∧
    ordered222 P c b a k3 k2 I q = nearest f (-k2) 0 k1 I (-k2 - q) := by
  intro f
  have hv : toVec k1 + toVec k2 + toVec k3 = ⟨0, 0, 0⟩ := by
    rw [← toVec_add, ← toVec_add, h]; rfl
  have hv' : toVec k2 + toVec k1 + toVec k3 = ⟨0, 0, 0⟩ := by rw [Vec.add_comm (toVec k2)]; exact hv
  have e3 : k3 = -k1 - k2 := by rw [← sub_eq_zero, ← h]; abel
  refine ⟨?_, ?_, ?_⟩
  · unfold ordered222 nearest
    have n1 : ‖(0 : E3) - q‖ = ‖q‖ := by rw [zero_sub, norm_neg]
    have n2 : ‖-k2 - q‖ = ‖k2 + q‖ := by rw [← norm_neg]; congr 1; abel
    rw [n1, n2]
  · unfold ordered222 nearest
    have n1 : k1 - (k1 - q) = q := by abel
    have n2 : ‖(0 : E3) - (k1 - q)‖ = ‖k1 - q‖ := by rw [zero_sub, norm_neg]
    have n3 : -k2 - (k1 - q) = k3 + q := by rw [e3]; abel
    rw [n1, n2, n3]
    refine if_congr Iff.rfl ?_ rfl
    show _ = spec222 P a b c _ _ (toVec k1 - toVec q)
    rw [spec222_sub P a b c _ _ _ _ hv]
  · unfold ordered222 nearest
    have n1 : -k2 - (-k2 - q) = q := by abel
    have n2 : ‖(0 : E3) - (-k2 - q)‖ = ‖k2 + q‖ := by congr 1; abel
    have n3 : ‖k1 - (-k2 - q)‖ = ‖k3 - q‖ := by rw [← norm_neg, e3]; congr 1; abel
    rw [n1, n2, n3]
    refine if_congr (by tauto) ?_ rfl
    show _ = spec222 P a b c _ _ (toVec (-k2 - q))
    have e : -k2 - q = -(k2 - -q) := by abel
    rw [e, toVec_neg, spec222_neg, toVec_sub, spec222_sub P b a c _ _ _ _ hv', toVec_neg, spec222_neg]

open Classical in
/-- C63: integrated over the loop momentum in the range, the 222 part of `bispectrum_1loop_II_III` is the standard 222 loop
integral of the three legs, over all loop momenta for which the shortest internal momentum is in the range. -/
theorem C63_loop_222 (t : Pk ℝ) (P : ℝ → ℝ) (interpol : Interpol) (hP : ∀ k, look t interpol k = .ok (P k)) (a b c : Field)
    (k1 k2 k3 : E3) (h : k1 + k2 + k3 = 0) (h1 : k1 ≠ 0) (h2 : k2 ≠ 0) (h3 : k3 ≠ 0) (qmin qmax : ℝ) (h0 : 0 < qmin)
    (hi : IntegrableOn (fun q => spec222 P a b c (toVec k1) (toVec k2) (toVec q))
      {q : E3 | min ‖q‖ (min ‖k1 - q‖ ‖k2 + q‖) ∈ qRange qmin qmax}) :
    ∃ r : E3 → ℝ × ℝ, (∀ q, bispectrumII t interpol (toVec k1) (toVec k2) (toVec k3) (toVec q) a b c = .ok (r q)) ∧
      IntegrableOn (fun q => (r q).1) {q : E3 | ‖q‖ ∈ qRange qmin qmax} ∧
      ∫ q in {q : E3 | ‖q‖ ∈ qRange qmin qmax}, (r q).1
        = ∫ q in {q : E3 | min ‖q‖ (min ‖k1 - q‖ ‖k2 + q‖) ∈ qRange qmin qmax},
            spec222 P a b c (toVec k1) (toVec k2) (toVec q) := by
  let I := qRange qmin qmax
  let A := fun q => legOf P a (toVec k1) q
  let B := fun q => legOf P b (toVec k2) q
  let C := fun q => legOf P c (toVec k3) q
  have hsum : ∀ q : E3, bispectrumII t interpol (toVec k1) (toVec k2) (toVec k3) (toVec q) a b c
      = .ok (bk222 (A (toVec q)) (B (toVec q)) (C (toVec q)) (toVec q) ‖q‖ (P ‖q‖) * (4 / power (2 * Real.pi) 3),
        bk321 (A (toVec q)) (B (toVec q)) (C (toVec q)) (toVec q) ‖q‖ (P ‖q‖) * (6 / power (2 * Real.pi) 3)) := fun q => by
    unfold bispectrumII
    dsimp only
    rw [hP, biLeg_eq t P interpol hP, biLeg_eq t P interpol hP, biLeg_eq t P interpol hP, vec_norm_toVec]
    rfl
  refine ⟨_, hsum, ?_⟩
  dsimp only
  have hmI : MeasurableSet {q : E3 | ‖q‖ ∈ I} := by
    have m1 : MeasurableSet {q : E3 | qmin ≤ ‖q‖} := measurableSet_le (by fun_prop) (by fun_prop)
    have m2 : MeasurableSet {q : E3 | ‖q‖ ≤ qmax} := measurableSet_le (by fun_prop) (by fun_prop)
    exact m1.inter m2
  have hmR : MeasurableSet {q : E3 | min ‖q‖ (min ‖k1 - q‖ ‖k2 + q‖) ∈ I} := by
    have m1 : MeasurableSet {q : E3 | qmin ≤ min ‖q‖ (min ‖k1 - q‖ ‖k2 + q‖)} := measurableSet_le (by fun_prop) (by fun_prop)
    have m2 : MeasurableSet {q : E3 | min ‖q‖ (min ‖k1 - q‖ ‖k2 + q‖) ≤ qmax} := measurableSet_le (by fun_prop) (by fun_prop)
    exact m1.inter m2
  have hR : {q : E3 | min ‖q‖ (min ‖k1 - q‖ ‖k2 + q‖) ∈ I} = {q : E3 | min ‖0 - q‖ (min ‖k1 - q‖ ‖-k2 - q‖) ∈ I} := by
    ext q
    have n1 : ‖(0 : E3) - q‖ = ‖q‖ := by rw [zero_sub, norm_neg]
    have n2 : ‖-k2 - q‖ = ‖k2 + q‖ := by rw [← norm_neg]; congr 1; abel
    show _ ∈ I ↔ _ ∈ I
    rw [n1, n2]
  have hi' := (integrable_indicator_iff hmR).2 hi
  rw [hR] at hi'
  have h12 : k1 ≠ -k2 := fun e => h3 (by rw [e] at h; simpa using h)
  obtain ⟨i1, i2, i3, hint⟩ := three_parts _ 0 k1 (-k2) h1.symm (neg_ne_zero.2 h2).symm h12 I hi'
  have hp := ordered222_parts P a b c k1 k2 k3 h I
  dsimp only at hp
  have e1 : ordered222 P a b c k1 k2 I = _ := funext fun q => (hp q).1
  have e2 : ordered222 P a c b k1 k3 I = _ := funext fun q => (hp q).2.1
  have e3 : ordered222 P c b a k3 k2 I = _ := funext fun q => (hp q).2.2
  have o1 : Integrable (ordered222 P a b c k1 k2 I) := by rw [e1]; exact i1
  have o2 : Integrable (ordered222 P a c b k1 k3 I) := by rw [e2]; exact i2.comp_sub_left k1
  have o3 : Integrable (ordered222 P c b a k3 k2 I) := by rw [e3]; exact i3.comp_sub_left (-k2)
  have r1 : ∫ q, ordered222 P a b c k1 k2 I q = ∫ q, nearest (fun q => spec222 P a b c (toVec k1) (toVec k2) (toVec q)) 0 k1 (-k2) I q := by rw [e1]
  have r2 : ∫ q, ordered222 P a c b k1 k3 I q = ∫ q, nearest (fun q => spec222 P a b c (toVec k1) (toVec k2) (toVec q)) k1 0 (-k2) I q := by
    rw [e2]; exact integral_sub_left_eq_self _ volume k1
  have r3 : ∫ q, ordered222 P c b a k3 k2 I q = ∫ q, nearest (fun q => spec222 P a b c (toVec k1) (toVec k2) (toVec q)) (-k2) 0 k1 I q := by
    rw [e3]; exact integral_sub_left_eq_self _ volume (-k2)
  have rev : ∀ (a b c : Field) (k1 k2 : E3), Integrable (ordered222 P a b c k1 k2 I) →
      Integrable (ordered222 P b a c k2 k1 I) ∧ ∫ q, ordered222 P b a c k2 k1 I q = ∫ q, ordered222 P a b c k1 k2 I q := by
    intro a b c k1 k2 ho
    have e : ordered222 P b a c k2 k1 I = _ := funext fun q => (ordered222_neg P a b c k1 k2 I q).symm
    rw [e]
    exact ⟨ho.comp_sub_left 0, integral_sub_left_eq_self _ volume 0⟩
  obtain ⟨o1', r1'⟩ := rev _ _ _ _ _ o1
  obtain ⟨o2', r2'⟩ := rev _ _ _ _ _ o2
  obtain ⟨o3', r3'⟩ := rev _ _ _ _ _ o3
  have hcode : {q : E3 | ‖q‖ ∈ I}.indicator (fun q => bk222 (A (toVec q)) (B (toVec q)) (C (toVec q)) (toVec q) ‖q‖ (P ‖q‖)
        * (4 / power (2 * Real.pi) 3))
      = fun q => (ordered222 P a b c k1 k2 I q + ordered222 P b a c k2 k1 I q + ordered222 P c b a k3 k2 I q
          + ordered222 P b c a k2 k3 I q + ordered222 P a c b k1 k3 I q + ordered222 P c a b k3 k1 I q) / 2 := by
    funext q
    by_cases hq : ‖q‖ ∈ I
    · rw [Set.indicator_of_mem (show q ∈ {q : E3 | ‖q‖ ∈ I} from hq), bk222_sum, C01_power]
      have key := fun (a b c : Field) (k1 k2 k3 : E3) => term222_spec P a b c k1 k2 k3 q (qRange_pos h0 hq)
      unfold ordered222
      simp only [hq, true_and]
      rw [← key a b c k1 k2 k3, ← key b a c k2 k1 k3, ← key c b a k3 k2 k1, ← key b c a k2 k3 k1, ← key a c b k1 k3 k2,
        ← key c a b k3 k1 k2]
      ring
    · rw [Set.indicator_of_notMem (show q ∉ {q : E3 | ‖q‖ ∈ I} from hq)]
      unfold ordered222
      simp only [hq, false_and, if_false]
      norm_num
  have hsumI := (((((o1.add o1').add o3).add o3').add o2).add o2').div_const 2
  refine ⟨(integrable_indicator_iff hmI).1 (hcode ▸ hsumI), ?_⟩
  rw [← integral_indicator hmI, ← integral_indicator hmR, hR, hint, hcode, integral_div]
  rw [← r1, ← r2, ← r3]
  have s1 := integral_add o1 o1'
  have s2 := integral_add (o1.add o1') o3
  have s3 := integral_add ((o1.add o1').add o3) o3'
  have s4 := integral_add (((o1.add o1').add o3).add o3') o2
  have s5 := integral_add ((((o1.add o1').add o3).add o3').add o2) o2'
  simp only [Pi.add_apply] at s1 s2 s3 s4 s5
  rw [s5, s4, s3, s2, s1, r1', r2', r3']
  ring

/-! ## The 321 term -/

open Classical in
/-- Integral of a function symmetric under `q ↦ c - q` over the points whose smaller distance to `0` and `c` lies in `I`. -/
theorem two_parts (f : E3 → ℝ) (c : E3) (hc : c ≠ 0) (I : Set ℝ) (hs : ∀ q, f (c - q) = f q)
    (hf : Integrable ({q : E3 | min ‖q‖ ‖c - q‖ ∈ I}.indicator f)) :
    Integrable (fun q => if ‖q‖ ∈ I ∧ ‖q‖ < ‖c - q‖ then f q else 0) ∧
    (∫ q, {q : E3 | min ‖q‖ ‖c - q‖ ∈ I}.indicator f q) = 2 * ∫ q, (if ‖q‖ ∈ I ∧ ‖q‖ < ‖c - q‖ then f q else 0) := by
  have hm : MeasurableSet {q : E3 | ‖q‖ < ‖c - q‖} := measurableSet_lt (by fun_prop) (by fun_prop)
  have p1 : Integrable (fun q => if ‖q‖ ∈ I ∧ ‖q‖ < ‖c - q‖ then f q else 0) := by
    refine (hf.indicator hm).congr (Filter.Eventually.of_forall fun q => ?_)
    simp only [Set.indicator_apply, Set.mem_ofPred_eq]
    by_cases h : ‖q‖ < ‖c - q‖
    · rw [if_pos h]
      simp only [min_eq_left h.le, h, and_true]
    · rw [if_neg h, if_neg fun e => h e.2]
  refine ⟨p1, ?_⟩
  have p2 := p1.comp_sub_left c
  have h2 := integral_sub_left_eq_self (fun q => if ‖q‖ ∈ I ∧ ‖q‖ < ‖c - q‖ then f q else 0) volume c
  rw [two_mul]
  conv_rhs => enter [2]; rw [← h2]
  refine Eq.trans ?_ (integral_add p1 p2)
  refine integral_congr_ae ?_
  filter_upwards [ae_norm_ne 0 c hc.symm] with q h
  rw [zero_sub, norm_neg] at h
  simp only [Set.indicator_apply, Set.mem_ofPred_eq, sub_sub_cancel, hs]
  rcases lt_or_gt_of_ne h with h | h <;> simp [h, h.not_gt, h.le]

/-- Exchanging the two internal momenta leaves the standard 321 integrand unchanged. -/
theorem spec321_exchange (P : ℝ → ℝ) (a b : Field) (k2 k3 q : Vec) : spec321 P a b k2 k3 (k2 - q) = spec321 P a b k2 k3 q := by
  have h1 : k2 - (k2 - q) = q := by show Vec.mk _ _ _ = Vec.mk _ _ _; simp
  unfold spec321
  rw [h1, (C18_F3_perm a k3 q (k2 - q)).1, sptSym2_comm b (k2 - q)]
  ring

/-- The standard 321 loop integral of one ordered choice of legs, over all loop momenta for which the shorter internal momentum
is in the range. -/
noncomputable def loop321 (P : ℝ → ℝ) (a b : Field) (k2 k3 : E3) (qmin qmax : ℝ) : ℝ :=
  ∫ q in {q : E3 | min ‖q‖ ‖k2 - q‖ ∈ qRange qmin qmax}, spec321 P a b (toVec k2) (toVec k3) (toVec q)

open Classical in
/-- The standard 321 integrand where the loop momentum is the shorter internal momentum. -/
noncomputable def ordered321 (P : ℝ → ℝ) (a b : Field) (k2 k3 : E3) (I : Set ℝ) (q : E3) : ℝ :=
  if ‖q‖ ∈ I ∧ ‖q‖ < ‖k2 - q‖ then spec321 P a b (toVec k2) (toVec k3) (toVec q) else 0

theorem ordered321_int (P : ℝ → ℝ) (a b : Field) (k2 k3 : E3) (h2 : k2 ≠ 0) (qmin qmax : ℝ)
    (hi : IntegrableOn (fun q => spec321 P a b (toVec k2) (toVec k3) (toVec q)) {q : E3 | min ‖q‖ ‖k2 - q‖ ∈ qRange qmin qmax}) :
    Integrable (ordered321 P a b k2 k3 (qRange qmin qmax)) ∧
    Integrable (fun q => ordered321 P a b k2 k3 (qRange qmin qmax) (0 - q)) ∧
    (∫ q, ordered321 P a b k2 k3 (qRange qmin qmax) q) + (∫ q, ordered321 P a b k2 k3 (qRange qmin qmax) (0 - q))
      = loop321 P a b k2 k3 qmin qmax := by
  have hmR : MeasurableSet {q : E3 | min ‖q‖ ‖k2 - q‖ ∈ qRange qmin qmax} := by
    have m1 : MeasurableSet {q : E3 | qmin ≤ min ‖q‖ ‖k2 - q‖} := measurableSet_le (by fun_prop) (by fun_prop)
    have m2 : MeasurableSet {q : E3 | min ‖q‖ ‖k2 - q‖ ≤ qmax} := measurableSet_le (by fun_prop) (by fun_prop)
    exact m1.inter m2
  obtain ⟨i1, e1⟩ := two_parts _ k2 h2 (qRange qmin qmax) (fun q => by
    rw [toVec_sub, spec321_exchange]) ((integrable_indicator_iff hmR).2 hi)
  refine ⟨i1, Integrable.comp_sub_left i1 0, ?_⟩
  rw [integral_sub_left_eq_self _ volume (0 : E3), ← two_mul]
  unfold loop321
  rw [← integral_indicator hmR, e1]
  rfl

open Classical in
/-- One leg of `bk321_abc`, away from vanishing internal momenta. -/
theorem term321_spec (P : ℝ → ℝ) (a b c : Field) (k1 k2 k3 q : E3) (I : Set ℝ) (hI : ‖q‖ ∈ I) (hq : 0 < ‖q‖) :
    term321 (legOf P a (toVec k1) (toVec q)) (legOf P b (toVec k2) (toVec q)) (legOf P c (toVec k3) (toVec q)) (toVec q) ‖q‖ (P ‖q‖)
        * (6 / (2 * Real.pi) ^ 3)
      = ordered321 P b a k1 k3 I q + ordered321 P c a k1 k2 I q
        + (ordered321 P b a k1 k3 I (0 - q) + ordered321 P c a k1 k2 I (0 - q)) := by
  have hn : ∀ v : E3, 0 < ‖v‖ → (toVec v).dot (toVec v) ≠ 0 := fun v h e => by
    have := toVec_modulus v
    unfold Vec.modulus at this
    rw [e, Real.sqrt_zero] at this
    linarith
  have hone : ∀ q : E3, 0 < ‖q‖ → ‖q‖ ∈ I → ∀ (b : Field) (k3 : E3),
      ordered321 P b a k1 k3 I q = if ‖q‖ < ‖k1 - q‖ then F2Full a (toVec (k1 - q)) (toVec q) * P ‖k1 - q‖ * P ‖q‖
        * (F3Sym b (toVec k3) (toVec (k1 - q)) (toVec q) * P ‖k3‖) * (6 / (2 * Real.pi) ^ 3) else 0 := by
    intro q hq hI b k3
    unfold ordered321
    simp only [hI, true_and]
    by_cases hc : ‖q‖ < ‖k1 - q‖
    · rw [if_pos hc, if_pos hc, C17_F2_spt a _ _ (hn _ (hq.trans hc)) (hn _ hq)]
      unfold spec321
      simp only [← toVec_sub, toVec_modulus]
      rw [sptSym2_comm a (toVec q), (C18_F3_perm b (toVec k3) (toVec (k1 - q)) (toVec q)).1]
      ring
    · rw [if_neg hc, if_neg hc]
  have hnq : ‖0 - q‖ = ‖q‖ := by rw [zero_sub, norm_neg]
  rw [hone q hq hI, hone q hq hI, hone (0 - q) (by rwa [hnq]) (by rwa [hnq]), hone (0 - q) (by rwa [hnq]) (by rwa [hnq])]
  have hs : k1 - (0 - q) = k1 + q := by abel
  have hv : toVec (0 - q) = -toVec q := by rw [zero_sub, toVec_neg]
  rw [hnq, hs, hv]
  unfold term321 legOf
  dsimp only
  simp only [← toVec_sub, ← toVec_add, vec_norm_toVec]
  split_ifs <;> ring

/-- C63: integrated over the loop momentum in the range, the 321 part of `bispectrum_1loop_II_III` is the sum of the six standard
321 loop integrals, one for each ordered choice of the third-order and second-order legs. -/
theorem C63_loop_321 (t : Pk ℝ) (P : ℝ → ℝ) (interpol : Interpol) (hP : ∀ k, look t interpol k = .ok (P k)) (l : Fin 3 → Field)
    (k : Fin 3 → E3) (hk : ∀ i, k i ≠ 0) (qmin qmax : ℝ) (h0 : 0 < qmin)
    (hi : ∀ i j m : Fin 3, i ≠ j → j ≠ m → i ≠ m → IntegrableOn (fun q => spec321 P (l i) (l j) (toVec (k j)) (toVec (k m)) (toVec q))
      {q : E3 | min ‖q‖ ‖k j - q‖ ∈ qRange qmin qmax}) :
    ∃ r : E3 → ℝ × ℝ,
      (∀ q, bispectrumII t interpol (toVec (k 0)) (toVec (k 1)) (toVec (k 2)) (toVec q) (l 0) (l 1) (l 2) = .ok (r q)) ∧
      IntegrableOn (fun q => (r q).2) {q : E3 | ‖q‖ ∈ qRange qmin qmax} ∧
      ∫ q in {q : E3 | ‖q‖ ∈ qRange qmin qmax}, (r q).2
        = loop321 P (l 0) (l 1) (k 1) (k 2) qmin qmax + loop321 P (l 2) (l 1) (k 1) (k 0) qmin qmax
          + loop321 P (l 0) (l 2) (k 2) (k 1) qmin qmax + loop321 P (l 1) (l 2) (k 2) (k 0) qmin qmax
          + loop321 P (l 1) (l 0) (k 0) (k 2) qmin qmax + loop321 P (l 2) (l 0) (k 0) (k 1) qmin qmax := by
  let I := qRange qmin qmax
  let L := fun i q => legOf P (l i) (toVec (k i)) q
  have hsum : ∀ q : E3, bispectrumII t interpol (toVec (k 0)) (toVec (k 1)) (toVec (k 2)) (toVec q) (l 0) (l 1) (l 2)
      = .ok (bk222 (L 0 (toVec q)) (L 1 (toVec q)) (L 2 (toVec q)) (toVec q) ‖q‖ (P ‖q‖) * (4 / power (2 * Real.pi) 3),
        bk321 (L 0 (toVec q)) (L 1 (toVec q)) (L 2 (toVec q)) (toVec q) ‖q‖ (P ‖q‖) * (6 / power (2 * Real.pi) 3)) := fun q => by
    unfold bispectrumII
    dsimp only
    rw [hP, biLeg_eq t P interpol hP, biLeg_eq t P interpol hP, biLeg_eq t P interpol hP, vec_norm_toVec]
    rfl
  refine ⟨_, hsum, ?_⟩
  dsimp only
  have hmI : MeasurableSet {q : E3 | ‖q‖ ∈ I} := by
    have m1 : MeasurableSet {q : E3 | qmin ≤ ‖q‖} := measurableSet_le (by fun_prop) (by fun_prop)
    have m2 : MeasurableSet {q : E3 | ‖q‖ ≤ qmax} := measurableSet_le (by fun_prop) (by fun_prop)
    exact m1.inter m2
  let T := fun (i j m : Fin 3) (q : E3) => ordered321 P (l i) (l j) (k j) (k m) I q + ordered321 P (l i) (l j) (k j) (k m) I (0 - q)
  have hT : ∀ i j m : Fin 3, i ≠ j → j ≠ m → i ≠ m →
      Integrable (T i j m) ∧ ∫ q, T i j m q = loop321 P (l i) (l j) (k j) (k m) qmin qmax := by
    intro i j m h1 h2 h3
    obtain ⟨i1, i2, e⟩ := ordered321_int P (l i) (l j) (k j) (k m) (hk j) qmin qmax (hi i j m h1 h2 h3)
    exact ⟨i1.add i2, (integral_add i1 i2).trans e⟩
  have hcode : {q : E3 | ‖q‖ ∈ I}.indicator (fun q => bk321 (L 0 (toVec q)) (L 1 (toVec q)) (L 2 (toVec q)) (toVec q) ‖q‖ (P ‖q‖)
        * (6 / power (2 * Real.pi) 3))
      = fun q => T 0 1 2 q + T 2 1 0 q + T 0 2 1 q + T 1 2 0 q + T 1 0 2 q + T 2 0 1 q := by
    funext q
    by_cases hq : ‖q‖ ∈ I
    · rw [Set.indicator_of_mem (show q ∈ {q : E3 | ‖q‖ ∈ I} from hq), bk321_sum, C01_power, add_mul, add_mul]
      have hp := qRange_pos h0 hq
      rw [term321_spec P (l 1) (l 0) (l 2) (k 1) (k 0) (k 2) q I hq hp, term321_spec P (l 2) (l 0) (l 1) (k 2) (k 0) (k 1) q I hq hp,
        term321_spec P (l 0) (l 1) (l 2) (k 0) (k 1) (k 2) q I hq hp]
      simp only [T]
      ring
    · rw [Set.indicator_of_notMem (show q ∉ {q : E3 | ‖q‖ ∈ I} from hq)]
      have hn : ¬ ‖0 - q‖ ∈ I := by rwa [zero_sub, norm_neg]
      simp only [T]
      unfold ordered321
      simp only [hq, hn, false_and, if_false]
      norm_num
  obtain ⟨o1, e1⟩ := hT 0 1 2 (by decide) (by decide) (by decide)
  obtain ⟨o2, e2⟩ := hT 2 1 0 (by decide) (by decide) (by decide)
  obtain ⟨o3, e3⟩ := hT 0 2 1 (by decide) (by decide) (by decide)
  obtain ⟨o4, e4⟩ := hT 1 2 0 (by decide) (by decide) (by decide)
  obtain ⟨o5, e5⟩ := hT 1 0 2 (by decide) (by decide) (by decide)
  obtain ⟨o6, e6⟩ := hT 2 0 1 (by decide) (by decide) (by decide)
  have hs := ((((o1.add o2).add o3).add o4).add o5).add o6
  refine ⟨(integrable_indicator_iff hmI).1 (hcode ▸ hs), ?_⟩
  rw [← integral_indicator hmI, hcode]
  have s1 := integral_add o1 o2
  have s2 := integral_add (o1.add o2) o3
  have s3 := integral_add ((o1.add o2).add o3) o4
  have s4 := integral_add (((o1.add o2).add o3).add o4) o5
  have s5 := integral_add ((((o1.add o2).add o3).add o4).add o5) o6
  simp only [Pi.add_apply] at s1 s2 s3 s4 s5
  rw [s5, s4, s3, s2, s1, e1, e2, e3, e4, e5, e6]

/-! ## Concrete cases -/

theorem sptSym2_continuousOn (a : Field) (S : Set E3) (u v : E3 → E3) (hu : Continuous u) (hv : Continuous v)
    (nu : ∀ q ∈ S, u q ≠ 0) (nv : ∀ q ∈ S, v q ≠ 0) : ContinuousOn (fun q => sptSym2 a (toVec (u q)) (toVec (v q))) S := by
  have hn : ∀ v : E3, v ≠ 0 → (toVec v).dot (toVec v) ≠ 0 := fun v h e => by
    have := toVec_modulus v
    unfold Vec.modulus at this
    rw [e, Real.sqrt_zero] at this
    exact h (norm_eq_zero.1 this.symm)
  have hd : ∀ f g : E3 → E3, Continuous f → Continuous g → ContinuousOn (fun q => (toVec (f q)).dot (toVec (g q))) S := by
    intro f g hf hg
    unfold Vec.dot toVec
    exact Continuous.continuousOn (by fun_prop)
  have c1 := hd u u hu hu
  have c2 := hd v v hv hv
  have c3 := hd u v hu hv
  have n1 : ∀ q ∈ S, (toVec (u q)).dot (toVec (u q)) ≠ 0 := fun q hq => hn _ (nu q hq)
  have n2 : ∀ q ∈ S, (toVec (v q)).dot (toVec (v q)) ≠ 0 := fun q hq => hn _ (nv q hq)
  refine ContinuousOn.congr (f := fun q => F2Full a (toVec (u q)) (toVec (v q))) ?_ fun q hq => (C17_F2_spt a _ _ (n1 q hq) (n2 q hq)).symm
  unfold F2Full
  cases a <;> unfold F2Fast <;> dsimp only <;> fun_prop (disch := assumption)

theorem compact_three (k1 k2 : E3) (qmin qmax : ℝ) : IsCompact {q : E3 | min ‖q‖ (min ‖k1 - q‖ ‖k2 + q‖) ∈ qRange qmin qmax} := by
  have h1 : IsClosed {q : E3 | qmin ≤ min ‖q‖ (min ‖k1 - q‖ ‖k2 + q‖)} := isClosed_le continuous_const (by fun_prop)
  have h2 : IsClosed {q : E3 | min ‖q‖ (min ‖k1 - q‖ ‖k2 + q‖) ≤ qmax} := isClosed_le (by fun_prop) continuous_const
  refine Metric.isCompact_of_isClosed_isBounded (h1.inter h2) (Metric.isBounded_closedBall.subset
    (t := Metric.closedBall 0 (qmax + ‖k1‖ + ‖k2‖)) fun q hq => ?_)
  have hq2 : min ‖q‖ (min ‖k1 - q‖ ‖k2 + q‖) ≤ qmax := hq.2
  rw [mem_closedBall_zero_iff]
  have n1 := norm_nonneg k1
  have n2 := norm_nonneg k2
  rcases min_le_iff.1 hq2 with h | h
  · linarith
  · rcases min_le_iff.1 h with h | h
    · have := norm_sub_norm_le q k1
      rw [norm_sub_rev] at this
      linarith
    · have := norm_sub_norm_le q (-k2)
      rw [norm_neg, sub_neg_eq_add, _root_.add_comm q k2] at this
      linarith

/-- The hypothesis of `C63_loop_222` holds for every continuous spectrum. -/
theorem spec222_integrable (P : ℝ → ℝ) (hP : Continuous P) (a b c : Field) (k1 k2 : E3) (qmin qmax : ℝ) (h0 : 0 < qmin) :
    IntegrableOn (fun q => spec222 P a b c (toVec k1) (toVec k2) (toVec q))
      {q : E3 | min ‖q‖ (min ‖k1 - q‖ ‖k2 + q‖) ∈ qRange qmin qmax} := by
  refine ContinuousOn.integrableOn_compact (compact_three k1 k2 qmin qmax) ?_
  have hne : ∀ v : E3, qmin ≤ ‖v‖ → v ≠ 0 := fun v h e => by rw [e, norm_zero] at h; linarith
  have n0 : ∀ q ∈ {q : E3 | min ‖q‖ (min ‖k1 - q‖ ‖k2 + q‖) ∈ qRange qmin qmax}, q ≠ 0 := fun q hq => hne _ (le_min_iff.1 hq.1).1
  have n0' : ∀ q ∈ {q : E3 | min ‖q‖ (min ‖k1 - q‖ ‖k2 + q‖) ∈ qRange qmin qmax}, -q ≠ 0 := fun q hq => neg_ne_zero.2 (n0 q hq)
  have n1 : ∀ q ∈ {q : E3 | min ‖q‖ (min ‖k1 - q‖ ‖k2 + q‖) ∈ qRange qmin qmax}, k1 - q ≠ 0 :=
    fun q hq => hne _ (le_min_iff.1 (le_min_iff.1 hq.1).2).1
  have n2 : ∀ q ∈ {q : E3 | min ‖q‖ (min ‖k1 - q‖ ‖k2 + q‖) ∈ qRange qmin qmax}, k2 + q ≠ 0 :=
    fun q hq => hne _ (le_min_iff.1 (le_min_iff.1 hq.1).2).2
  have c1 := sptSym2_continuousOn a _ (fun q => q) (fun q => k1 - q) (by fun_prop) (by fun_prop) n0 n1
  have c2 := sptSym2_continuousOn b _ (fun q => -q) (fun q => k2 + q) (by fun_prop) (by fun_prop) n0' n2
  have c3 := sptSym2_continuousOn c _ (fun q => k1 - q) (fun q => k2 + q) (by fun_prop) (by fun_prop) n1 n2
  unfold spec222
  simp only [← toVec_sub, ← toVec_add, ← toVec_neg, toVec_modulus]
  have d1 : Continuous fun q : E3 => P ‖q‖ := by fun_prop
  have d2 : Continuous fun q : E3 => P ‖k1 - q‖ := by fun_prop
  have d3 : Continuous fun q : E3 => P ‖k2 + q‖ := by fun_prop
  exact (((((continuousOn_const.mul c1).mul c2).mul c3).mul d1.continuousOn).mul d2.continuousOn |>.mul d3.continuousOn).div_const _

/-- A flat table. -/
def exFlat : Pk ℝ := ⟨3, [1, 2, 3], [1, 1, 1]⟩

theorem exFlat_physical : exFlat.Physical where
  hk := rfl
  hpk := rfl
  hsize := by norm_num [exFlat]
  incr := by norm_num [exFlat]
  kpos := by norm_num [exFlat]

theorem exFlat_look (k : ℝ) : look exFlat .poly k = .ok 1 := by
  have hi := exFlat_physical.toIncreasing
  rw [look_lookup exFlat hi (by norm_num [exFlat])]
  by_cases h1 : (3 : ℝ) < k
  · rw [lookup_high exFlat _ _ (by simpa [exFlat] using h1)]
    norm_num [extrapolHighk, slopeLoop, rd, subSize, sizeMod, ofLong, exFlat]
  · by_cases h0 : k < 1
    · rw [lookup_low exFlat _ _ (by simpa [exFlat] using h1) (by simpa [exFlat] using h0)]
      norm_num [extrapolLowk, slopeLoop, rd, subSize, sizeMod, ofLong, exFlat, show Int.toNat 2 = 2 from rfl]
    · have := C08_findPk_poly_quadratic exFlat hi (by norm_num [exFlat]) (Polynomial.C 1) (by simp) (fun i hi => by
        have : i = 0 ∨ i = 1 ∨ i = 2 := by simp [exFlat] at hi; omega
        rcases this with rfl | rfl | rfl <;> simp [exFlat]) k (by simpa [exFlat] using h0) (by simpa [exFlat] using h1)
      rw [findPk_single exFlat hi (by norm_num [exFlat]), Res.bind_eq_ok] at this
      obtain ⟨v, hv, e⟩ := this
      rw [hv]
      simpa using e

/-- Three wavevectors that add up to zero. -/
noncomputable def exLegs : Fin 3 → E3 := ![!₂[6, 0, 0], !₂[0, 8, 0], !₂[-6, -8, 0]]

theorem exLegs_sum : exLegs 0 + exLegs 1 + exLegs 2 = 0 := by
  ext i
  fin_cases i <;> simp [exLegs]

theorem exLegs_norm : ‖exLegs 0‖ = 6 ∧ ‖exLegs 1‖ = 8 ∧ ‖exLegs 2‖ = 10 := by
  have h : ∀ v : E3, ∀ r : ℝ, 0 ≤ r → v 0 ^ 2 + v 1 ^ 2 + v 2 ^ 2 = r ^ 2 → ‖v‖ = r := fun v r hr e => by
    rw [EuclideanSpace.norm_eq, Fin.sum_univ_three]
    simp only [Real.norm_eq_abs, sq_abs]
    rw [e, Real.sqrt_sq hr]
  refine ⟨h _ _ (by norm_num) ?_, h _ _ (by norm_num) ?_, h _ _ (by norm_num) ?_⟩
  · simp [exLegs]
  · simp [exLegs]
  · simp [exLegs]; norm_num

theorem exLegs_ne (i : Fin 3) : exLegs i ≠ 0 := by
  obtain ⟨h0, h1, h2⟩ := exLegs_norm
  rw [← norm_ne_zero_iff]
  fin_cases i
  · show ‖exLegs 0‖ ≠ 0; rw [h0]; norm_num
  · show ‖exLegs 1‖ ≠ 0; rw [h1]; norm_num
  · show ‖exLegs 2‖ ≠ 0; rw [h2]; norm_num

/-- `C63_loop_222` for a flat table, a triangle of sides 6, 8, 10 and the range `[1/2, 3]`. -/
example (a b c : Field) : ∃ r : E3 → ℝ × ℝ,
    (∀ q, bispectrumII exFlat .poly (toVec (exLegs 0)) (toVec (exLegs 1)) (toVec (exLegs 2)) (toVec q) a b c = .ok (r q)) ∧
    IntegrableOn (fun q => (r q).1) {q : E3 | ‖q‖ ∈ qRange (1 / 2) 3} ∧
    ∫ q in {q : E3 | ‖q‖ ∈ qRange (1 / 2) 3}, (r q).1
      = ∫ q in {q : E3 | min ‖q‖ (min ‖exLegs 0 - q‖ ‖exLegs 1 + q‖) ∈ qRange (1 / 2) 3},
          spec222 (fun _ => 1) a b c (toVec (exLegs 0)) (toVec (exLegs 1)) (toVec q) :=
  C63_loop_222 exFlat (fun _ => 1) .poly exFlat_look a b c _ _ _ exLegs_sum (exLegs_ne 0) (exLegs_ne 1) (exLegs_ne 2) _ _ (by norm_num)
    (spec222_integrable _ continuous_const a b c _ _ _ _ (by norm_num))

theorem not_tiny_of_norm (v : E3) (h : 1 ≤ ‖v‖) : ¬ tiny (toVec v) := by
  rintro ⟨h1, h2, h3⟩
  have he : (eps : ℝ) ≤ 1 / 2 := by norm_num [eps]
  have b : ∀ x : ℝ, |x| < (eps : ℝ) → x ^ 2 ≤ 1 / 4 := fun x hx => by
    have := abs_lt.1 (hx.trans_le he)
    nlinarith
  have : ‖v‖ ^ 2 = v 0 ^ 2 + v 1 ^ 2 + v 2 ^ 2 := by
    rw [EuclideanSpace.norm_sq_eq, Fin.sum_univ_three]
    simp only [Real.norm_eq_abs, sq_abs]
  have b1 := b _ h1
  have b2 := b _ h2
  have b3 := b _ h3
  simp only [toVec] at b1 b2 b3
  nlinarith

/-- The hypothesis of `C63_loop_321` holds for every continuous spectrum when the legs are longer than the range. -/
theorem spec321_integrable (P : ℝ → ℝ) (hP : Continuous P) (a b : Field) (k2 k3 : E3) (qmin qmax : ℝ) (h0 : 0 < qmin)
    (h2 : qmax + 1 ≤ ‖k2‖) (h3 : qmax + 1 ≤ ‖k3‖) (h23 : qmax + 1 ≤ ‖k2 + k3‖) :
    IntegrableOn (fun q => spec321 P a b (toVec k2) (toVec k3) (toVec q)) {q : E3 | min ‖q‖ ‖k2 - q‖ ∈ qRange qmin qmax} := by
  have hS : {q : E3 | min ‖q‖ ‖k2 - q‖ ∈ qRange qmin qmax} = {q : E3 | min ‖q‖ (min ‖k2 - q‖ ‖-k2 + q‖) ∈ qRange qmin qmax} := by
    ext q
    have : ‖-k2 + q‖ = ‖k2 - q‖ := by rw [← norm_neg]; congr 1; abel
    show _ ∈ qRange qmin qmax ↔ _ ∈ qRange qmin qmax
    rw [this, min_self]
  have hK := compact_three k2 (-k2) qmin qmax
  rw [← hS] at hK
  refine ContinuousOn.integrableOn_compact hK ?_
  set S := {q : E3 | min ‖q‖ ‖k2 - q‖ ∈ qRange qmin qmax} with hSdef
  have hle : ∀ q ∈ S, ‖q‖ ≤ qmax ∨ ‖k2 - q‖ ≤ qmax := fun q hq => min_le_iff.1 hq.2
  by_cases hq0 : qmax < 0
  · have : S = ∅ := Set.eq_empty_of_forall_notMem fun q hq => by
      rcases hle q hq with h | h <;> linarith [norm_nonneg q, norm_nonneg (k2 - q)]
    rw [this]
    exact continuousOn_empty _
  have hqp : 0 ≤ qmax := not_lt.1 hq0
  have hn : ∀ v : E3, v ≠ 0 → (toVec v).dot (toVec v) ≠ 0 := fun v h e => by
    have := toVec_modulus v
    unfold Vec.modulus at this
    rw [e, Real.sqrt_zero] at this
    exact h (norm_eq_zero.1 this.symm)
  have hne : ∀ v : E3, qmin ≤ ‖v‖ → v ≠ 0 := fun v h e => by rw [e, norm_zero] at h; linarith
  have n0 : ∀ q ∈ S, q ≠ 0 := fun q hq => hne _ (le_min_iff.1 hq.1).1
  have n1 : ∀ q ∈ S, k2 - q ≠ 0 := fun q hq => hne _ (le_min_iff.1 hq.1).2
  have n3 : k3 ≠ 0 := fun e => by rw [e, norm_zero] at h3; linarith
  have t1 : ∀ q ∈ S, 1 ≤ ‖k3 + q‖ := fun q hq => by
    rcases hle q hq with h | h
    · have := norm_sub_norm_le k3 (-q)
      rw [norm_neg, sub_neg_eq_add] at this
      linarith
    · have := norm_sub_norm_le (k2 + k3) (k2 - q)
      have e : k2 + k3 - (k2 - q) = k3 + q := by abel
      rw [e] at this
      linarith
  have t2 : ∀ q ∈ S, 1 ≤ ‖k3 + (k2 - q)‖ := fun q hq => by
    rcases hle q hq with h | h
    · have := norm_sub_norm_le (k2 + k3) q
      have e : k2 + k3 - q = k3 + (k2 - q) := by abel
      rw [e] at this
      linarith
    · have := norm_sub_norm_le k3 (-(k2 - q))
      rw [norm_neg, sub_neg_eq_add] at this
      linarith
  have cont : ∀ f : E3 → E3, Continuous f → Continuous (fun q => (toVec (f q)).x) ∧ Continuous (fun q => (toVec (f q)).y)
      ∧ Continuous (fun q => (toVec (f q)).z) := fun f hf => by
    refine ⟨?_, ?_, ?_⟩ <;> simp only [toVec] <;> fun_prop
  have cq := cont (fun q => q) (by fun_prop)
  have cr := cont (fun q => k2 - q) (by fun_prop)
  have ck := cont (fun _ => k3) (by fun_prop)
  have dq : ∀ q ∈ S, (toVec q).dot (toVec q) ≠ 0 := fun q hq => hn _ (n0 q hq)
  have dr : ∀ q ∈ S, (toVec (k2 - q)).dot (toVec (k2 - q)) ≠ 0 := fun q hq => hn _ (n1 q hq)
  have dk : ∀ q ∈ S, (toVec k3).dot (toVec k3) ≠ 0 := fun q _ => hn _ n3
  have nt : ∀ v : E3, ∀ w : Vec, toVec v = w → 1 ≤ ‖v‖ → ¬ tiny w := fun v w e h => e ▸ not_tiny_of_norm v h
  have key : ContinuousOn (fun q => F3Sym a (toVec k3) (toVec q) (toVec (k2 - q))) S := by
    unfold F3Sym
    refine ContinuousOn.div_const (ContinuousOn.add (ContinuousOn.add ?_ ?_) ?_) 3
    · refine F3_continuousOn a S _ _ _ ck cq cr dk dq dr (fun q hq => nt k2 _ ?_ (by linarith))
        (fun q hq => nt (k2 + k3) _ ?_ (by linarith))
      · rw [← toVec_add]; congr 1; abel
      · rw [← toVec_add, ← toVec_add]; congr 1; abel
    · refine F3_continuousOn a S _ _ _ cr ck cq dr dk dq (fun q hq => nt _ _ (toVec_add _ _) (t1 q hq))
        (fun q hq => nt (k2 + k3) _ ?_ (by linarith))
      rw [← toVec_add, ← toVec_add]; congr 1; abel
    · refine F3_continuousOn a S _ _ _ cq cr ck dq dr dk (fun q hq => nt (k3 + (k2 - q)) _ ?_ (t2 q hq))
        (fun q hq => nt (k2 + k3) _ ?_ (by linarith))
      · rw [← toVec_add]; congr 1; abel
      · rw [← toVec_add, ← toVec_add]; congr 1; abel
  have c1 := sptSym2_continuousOn b S (fun q => q) (fun q => k2 - q) (by fun_prop) (by fun_prop) n0 n1
  unfold spec321
  simp only [← toVec_sub, toVec_modulus]
  have d1 : Continuous fun q : E3 => P ‖q‖ := by fun_prop
  have d2 : Continuous fun q : E3 => P ‖k2 - q‖ := by fun_prop
  exact (((((continuousOn_const.mul key).mul c1).mul d1.continuousOn).mul d2.continuousOn).mul continuousOn_const).div_const _

/-- `C63_loop_321` for a flat table, a triangle of sides 6, 8, 10 and the range `[1/2, 3]`. -/
example (l : Fin 3 → Field) : ∃ r : E3 → ℝ × ℝ,
    (∀ q, bispectrumII exFlat .poly (toVec (exLegs 0)) (toVec (exLegs 1)) (toVec (exLegs 2)) (toVec q) (l 0) (l 1) (l 2) = .ok (r q)) ∧
    ∫ q in {q : E3 | ‖q‖ ∈ qRange (1 / 2) 3}, (r q).2
      = loop321 (fun _ => 1) (l 0) (l 1) (exLegs 1) (exLegs 2) (1 / 2) 3 + loop321 (fun _ => 1) (l 2) (l 1) (exLegs 1) (exLegs 0) (1 / 2) 3
        + loop321 (fun _ => 1) (l 0) (l 2) (exLegs 2) (exLegs 1) (1 / 2) 3 + loop321 (fun _ => 1) (l 1) (l 2) (exLegs 2) (exLegs 0) (1 / 2) 3
        + loop321 (fun _ => 1) (l 1) (l 0) (exLegs 0) (exLegs 2) (1 / 2) 3
        + loop321 (fun _ => 1) (l 2) (l 0) (exLegs 0) (exLegs 1) (1 / 2) 3 := by
  obtain ⟨h0, h1, h2⟩ := exLegs_norm
  have hn : ∀ i, (3 : ℝ) + 1 ≤ ‖exLegs i‖ := fun i => by
    fin_cases i
    · show (3 : ℝ) + 1 ≤ ‖exLegs 0‖; rw [h0]; norm_num
    · show (3 : ℝ) + 1 ≤ ‖exLegs 1‖; rw [h1]; norm_num
    · show (3 : ℝ) + 1 ≤ ‖exLegs 2‖; rw [h2]; norm_num
  have hc : ∀ i j m : Fin 3, i ≠ j → j ≠ m → i ≠ m → exLegs j + exLegs m = -exLegs i := fun i j m a b c => by
    rw [eq_neg_iff_add_eq_zero, ← exLegs_sum]
    fin_cases i <;> fin_cases j <;> fin_cases m <;> simp at a b c <;> simp <;> abel
  obtain ⟨r, hr, -, e⟩ := C63_loop_321 exFlat (fun _ => 1) .poly exFlat_look l exLegs exLegs_ne (1 / 2) 3 (by norm_num)
    fun i j m a b c => spec321_integrable _ continuous_const _ _ _ _ _ _ (by norm_num) (hn j) (hn m) (by
      rw [hc i j m a b c, norm_neg]; exact hn i)
  exact ⟨r, hr, e⟩

end Verif
