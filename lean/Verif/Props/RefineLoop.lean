import Verif.Props.Refine
import Verif.Props.LoopOne

/-!
# C87, part two: the stored one-loop terms against the loop integrals of the spectrum that was sampled

`C68` and `C73` compare the stored terms with loop integrals of the interpolated table.  Here the table is refined as well: for a smooth
spectrum, modes that are close enough and rules with enough nodes, the stored terms are as close as wanted to the loop integrals of the
spectrum itself.
-/

namespace Verif

open MeasureTheory

/-- A quantity computed from a spectrum changes by at most a constant times the change of the spectrum, for continuous spectra within `R` of it on
`[q0,q1]`. -/
def StableAt (F : (ℝ → ℝ) → ℝ) (P : ℝ → ℝ) (q0 q1 R : ℝ) : Prop :=
  ∃ C ≥ 0, ∀ d, 0 ≤ d → d ≤ R → ∀ Q : ℝ → ℝ, ContinuousOn Q (Set.Icc q0 q1) → (∀ x ∈ Set.Icc q0 q1, |Q x - P x| ≤ d) → |F Q - F P| ≤ C * d

theorem StableAt.const_mul {F : (ℝ → ℝ) → ℝ} {P : ℝ → ℝ} {q0 q1 R : ℝ} (h : StableAt F P q0 q1 R) (c : ℝ) : StableAt (fun Q => c * F Q) P q0 q1 R := by
  obtain ⟨C, hC, hh⟩ := h
  refine ⟨|c| * C, by positivity, fun d hd hR Q hQ hn => ?_⟩
  rw [← mul_sub, abs_mul, mul_assoc]
  exact mul_le_mul_of_nonneg_left (hh d hd hR Q hQ hn) (abs_nonneg _)

theorem norm_bothIn {P : ℝ → ℝ} {k : E3} {q0 q1 : ℝ} (hP : ContinuousOn P (Set.Icc q0 q1)) :
    ContinuousOn (fun q : E3 => P ‖q‖) (bothIn k q0 q1) ∧ ContinuousOn (fun q : E3 => P ‖k - q‖) (bothIn k q0 q1) :=
  ⟨hP.comp (by fun_prop) fun _ hq => hq.1, hP.comp (by fun_prop) fun _ hq => hq.2⟩

/-- Loop integrals of the one-loop kind are stable. -/
theorem quad_stable {k : E3} {q0 q1 R : ℝ} {u v w : E3 → ℝ} (hu : ContinuousOn u (bothIn k q0 q1)) (hv : ContinuousOn v (bothIn k q0 q1))
    (hw : ContinuousOn w (bothIn k q0 q1)) {P : ℝ → ℝ} (hP : ContinuousOn P (Set.Icc q0 q1)) :
    StableAt (fun P => ∫ q in bothIn k q0 q1, (u q * (P ‖q‖ * P ‖k - q‖) + v q * (P ‖q‖ * P ‖q‖) + w q * P ‖q‖)) P q0 q1 R := by
  have hK := bothIn_compact k q0 q1
  obtain ⟨U, bU⟩ := hK.exists_bound_of_continuousOn hu
  obtain ⟨V, bV⟩ := hK.exists_bound_of_continuousOn hv
  obtain ⟨W, bW⟩ := hK.exists_bound_of_continuousOn hw
  obtain ⟨B, bB⟩ := (isCompact_Icc (a := q0) (b := q1)).exists_bound_of_continuousOn hP
  simp only [Real.norm_eq_abs] at bU bV bW bB
  refine ⟨(((|U| + |V|) * (2 * |B| + |R|) + |W|) * volume.real (bothIn k q0 q1)), by positivity, fun d hd d1 Q hQ hn => ?_⟩
  have int : ∀ {R : ℝ → ℝ}, ContinuousOn R (Set.Icc q0 q1) →
      IntegrableOn (fun q => u q * (R ‖q‖ * R ‖k - q‖) + v q * (R ‖q‖ * R ‖q‖) + w q * R ‖q‖) (bothIn k q0 q1) := fun {R} hR => by
    obtain ⟨c1, c2⟩ := norm_bothIn (k := k) hR
    exact (((hu.mul (c1.mul c2)).add (hv.mul (c1.mul c1))).add (hw.mul c1)).integrableOn_compact hK
  show |(∫ q in bothIn k q0 q1, _) - ∫ q in bothIn k q0 q1, _| ≤ _
  rw [← integral_sub (int hQ) (int hP)]
  rw [show ((|U| + |V|) * (2 * |B| + |R|) + |W|) * volume.real (bothIn k q0 q1) * d =
    ((|U| + |V|) * (2 * |B| + |R|) + |W|) * d * volume.real (bothIn k q0 q1) by ring]
  rw [← Real.norm_eq_abs]
  refine norm_setIntegral_le_of_norm_le_const hK.measure_lt_top fun q hq => ?_
  rw [Real.norm_eq_abs]
  have prod : ∀ x ∈ Set.Icc q0 q1, ∀ y ∈ Set.Icc q0 q1, |Q x * Q y - P x * P y| ≤ (2 * |B| + |R|) * d := fun x hx y hy => by
    have e1 := (hn x hx).trans (d1.trans (le_abs_self R))
    have e1' := hn x hx
    have e2 := hn y hy
    have e3 := (bB x hx).trans (le_abs_self B)
    have e4 := (bB y hy).trans (le_abs_self B)
    rw [show Q x * Q y - P x * P y = (Q x - P x) * (Q y - P y) + (P x * (Q y - P y) + (Q x - P x) * P y) by ring]
    calc _ ≤ |Q x - P x| * |Q y - P y| + (|P x| * |Q y - P y| + |Q x - P x| * |P y|) := by
          refine (abs_add_le _ _).trans (add_le_add (abs_mul _ _).le ((abs_add_le _ _).trans (add_le_add (abs_mul _ _).le (abs_mul _ _).le)))
      _ ≤ |R| * d + (|B| * d + d * |B|) := by gcongr
      _ = _ := by ring
  have p1 := prod _ hq.1 _ hq.2
  have p2 := prod _ hq.1 _ hq.1
  have p3 := hn _ hq.1
  have u1 := (bU q hq).trans (le_abs_self U)
  have u2 := (bV q hq).trans (le_abs_self V)
  have u3 := (bW q hq).trans (le_abs_self W)
  calc _ = |u q * (Q ‖q‖ * Q ‖k - q‖ - P ‖q‖ * P ‖k - q‖) + v q * (Q ‖q‖ * Q ‖q‖ - P ‖q‖ * P ‖q‖) + w q * (Q ‖q‖ - P ‖q‖)| := by ring_nf
    _ ≤ |u q| * |Q ‖q‖ * Q ‖k - q‖ - P ‖q‖ * P ‖k - q‖| + |v q| * |Q ‖q‖ * Q ‖q‖ - P ‖q‖ * P ‖q‖| + |w q| * |Q ‖q‖ - P ‖q‖| := by
        refine (abs_add_le _ _).trans (add_le_add ((abs_add_le _ _).trans (add_le_add (abs_mul _ _).le (abs_mul _ _).le)) (abs_mul _ _).le)
    _ ≤ |U| * ((2 * |B| + |R|) * d) + |V| * ((2 * |B| + |R|) * d) + |W| * d := by
        gcongr
    _ = _ := by ring

/-- The second-order term is stable. -/
theorem tree_stable (a b : Field) (k : E3) {q0 q1 R : ℝ} (h0 : 0 < q0) {P : ℝ → ℝ} (hP : ContinuousOn P (Set.Icc q0 q1)) :
    StableAt (fun P => 1 / (2 * Real.pi) ^ 3 * ∫ q in bothIn k q0 q1, specTree P a b (toVec k) (toVec q)) P q0 q1 R := by
  refine StableAt.const_mul ?_ _
  have h := quad_stable (R := R) (k := k) (u := fun q => 2 * sptSym2 a (toVec q) (toVec k - toVec q) * sptSym2 b (toVec q) (toVec k - toVec q))
    (((continuousOn_const (c := (2 : ℝ))).mul (sptSym2_bothIn a k q0 q1 h0)).mul (sptSym2_bothIn b k q0 q1 h0))
    (continuousOn_const (c := (0 : ℝ))) (continuousOn_const (c := (0 : ℝ))) hP
  have e : ∀ P : ℝ → ℝ, ∀ q : E3, specTree P a b (toVec k) (toVec q) =
      2 * sptSym2 a (toVec q) (toVec k - toVec q) * sptSym2 b (toVec q) (toVec k - toVec q) * (P ‖q‖ * P ‖k - q‖) + 0 * (P ‖q‖ * P ‖q‖) + 0 * P ‖q‖ :=
      fun P q => by
    unfold specTree
    rw [toVec_modulus, show (toVec k - toVec q).modulus = ‖k - q‖ from toVec_modulus (k - q)]
    ring
  simp_rw [e]
  exact h

/-- The bias terms are stable. -/
theorem bias_stable (a : Field) (b : BiasTerm) (k : E3) (hk : k ≠ 0) {q0 q1 R : ℝ} (h0 : 0 < q0) {P : ℝ → ℝ} (hP : ContinuousOn P (Set.Icc q0 q1)) :
    StableAt (fun P => 1 / (2 * Real.pi) ^ 3 * ∫ q in bothIn k q0 q1, specBias P a (toVec k) (toVec q) b) P q0 q1 R := by
  refine StableAt.const_mul ?_ _
  have cF := sptSym2_bothIn a k q0 q1 h0
  have cS := specS2_bothIn k q0 q1 h0
  have cD := specD2_bothIn k hk q0 q1 h0
  have m2 : ∀ q, (toVec k - toVec q).modulus = ‖k - q‖ := fun q => by rw [← toVec_sub, toVec_modulus]
  have c0 : ContinuousOn (fun _ : E3 => (0 : ℝ)) (bothIn k q0 q1) := continuousOn_const
  have key : ∀ {u v w : E3 → ℝ}, ContinuousOn u (bothIn k q0 q1) → ContinuousOn v (bothIn k q0 q1) → ContinuousOn w (bothIn k q0 q1) →
      (∀ (P : ℝ → ℝ) q, specBias P a (toVec k) (toVec q) b = u q * (P ‖q‖ * P ‖k - q‖) + v q * (P ‖q‖ * P ‖q‖) + w q * P ‖q‖) →
      StableAt (fun P => ∫ q in bothIn k q0 q1, specBias P a (toVec k) (toVec q) b) P q0 q1 R := fun hu hv hw e => by
    simp_rw [e]
    exact quad_stable hu hv hw hP
  cases b
  · refine key cF c0 c0 fun P q => ?_
    simp only [specBias, toVec_modulus, m2]
    ring
  · refine key (cF.mul cS) c0 c0 fun P q => ?_
    simp only [specBias, toVec_modulus, m2, Pi.mul_apply]
    ring
  · refine key (u := fun _ => 1 / 2) (v := fun _ => -(1 / 2)) continuousOn_const continuousOn_const c0 fun P q => ?_
    simp only [specBias, toVec_modulus, m2]
    ring
  · refine key (v := fun _ => -(1 / 3)) ((continuousOn_const (c := (1 / 2 : ℝ))).mul cS) continuousOn_const c0 fun P q => ?_
    simp only [specBias, toVec_modulus, m2, Pi.mul_apply]
    ring
  · refine key (v := fun _ => -(2 / 9)) ((continuousOn_const (c := (1 / 2 : ℝ))).mul (cS.pow 2)) continuousOn_const c0 fun P q => ?_
    simp only [specBias, toVec_modulus, m2, Pi.mul_apply, Pi.pow_apply]
    ring
  · refine key c0 c0 ((continuousOn_const (c := (105 / 16 : ℝ))).mul ((cD.mul cS).add (continuousOn_const (c := (8 / 63 : ℝ))))) fun P q => ?_
    simp only [specBias, toVec_modulus, Pi.mul_apply, Pi.add_apply]
    ring

/-- Integrals over an interval against a continuous weight are stable. -/
theorem line_stable {q0 q1 R : ℝ} (h : q0 ≤ q1) {g : ℝ → ℝ} (hg : ContinuousOn g (Set.Icc q0 q1)) {P : ℝ → ℝ} (hP : ContinuousOn P (Set.Icc q0 q1)) :
    StableAt (fun P => ∫ q in q0..q1, g q * P q) P q0 q1 R ∧ StableAt (fun P => ∫ q in q0..q1, g q * |P q|) P q0 q1 R := by
  obtain ⟨K, bK⟩ := (isCompact_Icc (a := q0) (b := q1)).exists_bound_of_continuousOn hg
  simp only [Real.norm_eq_abs] at bK
  have hl : 0 ≤ q1 - q0 := by linarith
  have int : ∀ {R : ℝ → ℝ}, ContinuousOn R (Set.Icc q0 q1) → IntervalIntegrable (fun q => g q * R q) volume q0 q1 := fun hR =>
    ContinuousOn.intervalIntegrable_of_Icc h (hg.mul hR)
  constructor <;> refine ⟨|K| * (q1 - q0), by positivity, fun d hd d1 Q hQ hn => ?_⟩
  · show |(∫ q in q0..q1, g q * Q q) - ∫ q in q0..q1, g q * P q| ≤ _
    rw [← intervalIntegral.integral_sub (int hQ) (int hP)]
    rw [show |K| * (q1 - q0) * d = |K| * d * |q1 - q0| by rw [abs_of_nonneg hl]; ring, ← Real.norm_eq_abs]
    refine intervalIntegral.norm_integral_le_of_norm_le_const fun x hx => ?_
    rw [Set.uIoc_of_le h] at hx
    rw [← mul_sub, Real.norm_eq_abs, abs_mul]
    exact mul_le_mul ((bK x ⟨hx.1.le, hx.2⟩).trans (le_abs_self K)) (hn x ⟨hx.1.le, hx.2⟩) (abs_nonneg _) (abs_nonneg _)
  · show |(∫ q in q0..q1, g q * |Q q|) - (∫ q in q0..q1, g q * |P q|)| ≤ _
    rw [← intervalIntegral.integral_sub (int hQ.abs) (int hP.abs)]
    rw [show |K| * (q1 - q0) * d = |K| * d * |q1 - q0| by rw [abs_of_nonneg hl]; ring, ← Real.norm_eq_abs]
    refine intervalIntegral.norm_integral_le_of_norm_le_const fun x hx => ?_
    rw [Set.uIoc_of_le h] at hx
    rw [← mul_sub, Real.norm_eq_abs, abs_mul]
    exact mul_le_mul ((bK x ⟨hx.1.le, hx.2⟩).trans (le_abs_self K)) ((abs_abs_sub_abs_le_abs_sub _ _).trans (hn x ⟨hx.1.le, hx.2⟩)) (abs_nonneg _)
      (abs_nonneg _)

/-- The propagator correction of a spectrum that is continuous on the range is the radial integral. -/
theorem loopProp_radial (a : Field) (k : E3) (hk : k ≠ 0) {q0 q1 : ℝ} (h0 : 0 < q0) (h1 : q0 < q1) {P : ℝ → ℝ} (hP : ContinuousOn P (Set.Icc q0 q1)) :
    loopProp a P k q0 q1 = ‖k‖ ^ 3 / (2 * Real.pi ^ 2) * (‖k‖⁻¹ * ∫ q in q0..q1, propClosed a (q / ‖k‖) * P q) := by
  have hκ := norm_pos_iff.2 hk
  let Pc : ℝ → ℝ := Set.IccExtend h1.le (Set.domRestrict (Set.Icc q0 q1) P)
  have hc : Continuous Pc := (continuousOn_iff_continuous_domRestrict.1 hP).Icc_extend'
  have hPc : ∀ x ∈ Set.Icc q0 q1, Pc x = P x := fun x hx => by
    show Set.IccExtend h1.le _ x = _
    rw [Set.IccExtend_of_mem _ _ hx]; rfl
  have e : loopProp a P k q0 q1 = loopProp a Pc k q0 q1 := by
    unfold loopProp
    congr 1
    refine setIntegral_congr_fun ((measurableSet_le measurable_const measurable_norm).inter (measurableSet_le measurable_norm measurable_const)) fun q hq => ?_
    rw [hPc _ hq]
  rw [e]
  unfold loopProp
  rw [C65_loop a Pc (Tame.of_continuous hc) k hk q0 q1 h0 h1]
  have s := intervalIntegral.integral_comp_mul_left (a := q0 / ‖k‖) (b := q1 / ‖k‖) (fun q => propClosed a (q / ‖k‖) * Pc q) hκ.ne'
  rw [show ‖k‖ * (q0 / ‖k‖) = q0 by field_simp, show ‖k‖ * (q1 / ‖k‖) = q1 by field_simp, smul_eq_mul] at s
  rw [show (∫ x in q0 / ‖k‖..q1 / ‖k‖, propClosed a x * Pc (‖k‖ * x)) = ∫ x in q0 / ‖k‖..q1 / ‖k‖, propClosed a (‖k‖ * x / ‖k‖) * Pc (‖k‖ * x) from
    intervalIntegral.integral_congr fun x _ => by rw [mul_div_cancel_left₀ _ hκ.ne'], s]
  congr 2
  refine intervalIntegral.integral_congr fun x hx => ?_
  rw [Set.uIcc_of_le h1.le] at hx
  rw [hPc x hx]

/-- The propagator correction is stable. -/
theorem prop_stable (a : Field) (k : E3) (hk : k ≠ 0) {q0 q1 R : ℝ} (h0 : 0 < q0) (h1 : q0 < q1) {P : ℝ → ℝ} (hP : ContinuousOn P (Set.Icc q0 q1)) :
    StableAt (fun P => loopProp a P k q0 q1) P q0 q1 R := by
  have hκ := norm_pos_iff.2 hk
  have hg : ContinuousOn (fun q => propClosed a (q / ‖k‖)) (Set.Icc q0 q1) :=
    (propClosed_continuousOn a).comp (by fun_prop) fun q hq => div_pos (h0.trans_le hq.1) hκ
  obtain ⟨C, hC, h⟩ := (((line_stable (R := R) h1.le hg hP).1.const_mul ‖k‖⁻¹).const_mul (‖k‖ ^ 3 / (2 * Real.pi ^ 2)))
  refine ⟨C, hC, fun d hd hR Q hQ hn => ?_⟩
  show |loopProp a Q k q0 q1 - loopProp a P k q0 q1| ≤ _
  rw [loopProp_radial a k hk h0 h1 hQ, loopProp_radial a k hk h0 h1 hP]
  exact h d hd hR Q hQ hn

/-! ## The table -/

/-- Spec: a spectrum `D 0` with five derivatives on `[A,B]`, the second to the fifth bounded by `M`. -/
structure Smooth (D : ℕ → ℝ → ℝ) (A B M : ℝ) : Prop where
  derivs : Derivs D 5 A B
  bound : ∀ j, 2 ≤ j → j ≤ 5 → ∀ x ∈ Set.Icc A B, |D j x| ≤ M

/-- Spec: a table of at least three modes that samples `P` on `[A,B]`, with modes at both ends and no gap larger than `H`. -/
structure TableOf (t : Pk ℝ) (P : ℝ → ℝ) (A B H : ℝ) : Prop extends Sampled t P H where
  phys : t.Physical
  three : 3 ≤ t.nk
  first : t.k.getD 0 0 = A
  last : t.k.getD (t.nk - 1) 0 = B

theorem Smooth.cts {D : ℕ → ℝ → ℝ} {A B M : ℝ} (h : Smooth D A B M) {q0 q1 : ℝ} (h0 : A ≤ q0) (h1 : q1 ≤ B) : ContinuousOn (D 0) (Set.Icc q0 q1) :=
  fun x hx => (h.derivs 0 (by norm_num) x ⟨h0.trans hx.1, hx.2.trans h1⟩).continuousAt.continuousWithinAt

theorem TableOf.limitCase {t : Pk ℝ} {P : ℝ → ℝ} {A B H : ℝ} (h : TableOf t P A B H) {rt : ℕ → ℕ → ℝ × ℝ} (hr : ∀ n, NearRoots n (rt n)) {q0 q1 : ℝ}
    (h0 : A ≤ q0) (h1 : q1 ≤ B) (h2 : q0 < q1) : LimitCase t rt q0 q1 where
  phys := h.phys
  two := by have := h.three; omega
  roots := hr
  lo := by rw [h.first]; exact h0
  hi := by rw [h.last]; exact h1
  lt := h2

/-- The third-order bound of `C87_poly` for gaps of at most `R`. -/
theorem lookup_close {D : ℕ → ℝ → ℝ} {A B M : ℝ} (hD : Smooth D A B M) {R : ℝ} (hR : 0 < R) :
    ∃ C ≥ 0, ∀ t H, H ≤ R → TableOf t (D 0) A B H → ∀ P : ℝ → ℝ, (∀ k, look t .poly k = .ok (P k)) → ∀ x ∈ Set.Icc A B, |P x - D 0 x| ≤ C * H ^ 3 := by
  refine ⟨|M| * (1 / 8 + 3 * R / 32 + 9 * R ^ 2 / 160), by positivity, fun t H hH ht P hP x hx => ?_⟩
  have h0 : 0 < H := sampled_pos ht.toSampled ht.phys.toIncreasing (by have := ht.three; omega)
  have hr : t.range = Set.Icc A B := by unfold Pk.range; rw [ht.first, ht.last]
  have hb : ∀ j, 2 ≤ j → j ≤ 5 → ∀ x ∈ t.range, |D j x| ≤ |M| := fun j a b x hx => (hD.bound j a b x (hr ▸ hx)).trans (le_abs_self M)
  obtain ⟨v, e, hv⟩ := C87_poly ht.phys.toIncreasing ht.three ht.toSampled (by rw [ht.first, ht.last]; exact hD.derivs)
    (hb 3 (by norm_num) (by norm_num)) (hb 4 (by norm_num) (by norm_num)) (hb 5 (by norm_num) (by norm_num)) x (hr ▸ hx)
  have hPv : P x = v := by
    have := hP x
    unfold look at this
    rw [e, Res.ok_bind, rd_ok (by simp), Res.ok.injEq] at this
    simpa using this.symm
  rw [hPv]
  refine hv.trans ?_
  calc |M| * H ^ 3 / 8 + 3 * |M| * H ^ 4 / 32 + 9 * |M| * H ^ 5 / 160 = |M| * (1 / 8 + 3 * H / 32 + 9 * H ^ 2 / 160) * H ^ 3 := by ring
    _ ≤ _ := by gcongr

/-- C87, `Spectrum1Loop`: up to a constant times the third power of the spacing of the table, the stored second-order column tends to the loop
integral of the sampled spectrum as the numbers of nodes grow. -/
theorem C87_one_loop {D : ℕ → ℝ → ℝ} {A B M : ℝ} (hD : Smooth D A B M) {q0 q1 : ℝ} (hA : A ≤ q0) (hB : q1 ≤ B) (h0 : 0 < q0) (h1 : q0 < q1)
    (a b : Field) (k : E3) (hk : k ≠ 0) {R : ℝ} (hR : 0 < R) :
    ∃ C ≥ 0, ∀ t H, H ≤ R → TableOf t (D 0) A B H → ∀ rt : ℕ → ℕ → ℝ × ℝ, (∀ n, NearRoots n (rt n)) →
      ∃ V : ℕ → ℕ → ℝ, (∀ c > 0, ∃ N, ∀ n m, N ≤ n → N ≤ m →
        |V n m - 1 / (2 * Real.pi) ^ 3 * ∫ q in bothIn k q0 q1, specTree (D 0) a b (toVec k) (toVec q)| ≤ C * H ^ 3 + c) ∧
      ∀ (e : Env) (es : List Event) (μ ν : Mem) (ik : ℕ), e.t = t → e.rt = rt → e.DoubleRule .gamma2_tree_q .gamma2_tree_mu →
        glqRange t (e.cfg.prec .gamma2_tree_q) = .ok (q0, q1) → Room 6 e.ks.length μ → Schedule 3 e.ks.length es →
        runTerms1 e a b es μ = .ok ν → e.ks[ik]? = some ‖k‖ →
        ν.at (cellOf cls1 "pk_gamma2_tree_tree" ik) = some (some (V (e.cfg.prec .gamma2_tree_q).n (e.cfg.prec .gamma2_tree_mu).n)) := by
  obtain ⟨C1, hC1, hl⟩ := lookup_close hD hR
  obtain ⟨C2, hC2, hs⟩ := tree_stable (R := C1 * R ^ 3) a b k h0 (hD.cts hA hB)
  refine ⟨C2 * C1, by positivity, fun t H hH ht rt hr => ?_⟩
  have hH0 : 0 < H := sampled_pos ht.toSampled ht.phys.toIncreasing (by have := ht.three; omega)
  have lc := ht.limitCase hr hA hB h1
  obtain ⟨P, V, hP, hV, hrun⟩ := C68_one_loop lc a b k hk
  have near := hs (C1 * H ^ 3) (by positivity) (by gcongr) P (lc.cts hP) fun x hx => hl t H hH ht P hP x ⟨hA.trans hx.1, hx.2.trans hB⟩
  refine ⟨V, fun c hc => ?_, hrun⟩
  obtain ⟨N, hN⟩ := Metric.tendsto_atTop.1 hV c hc
  refine ⟨max N.1 N.2, fun n m n1 n2 => ?_⟩
  have h2 := hN (n, m) ⟨(le_max_left _ _).trans n1, (le_max_right _ _).trans n2⟩
  rw [Real.dist_eq] at h2
  exact (abs_sub_le _ _ _).trans ((add_le_add h2.le near).trans_eq (by ring))

/-- C87, `Bias1Loop`: the same for the eight columns. -/
theorem C87_bias {D : ℕ → ℝ → ℝ} {A B M : ℝ} (hD : Smooth D A B M) {q0 q1 : ℝ} (hA : A ≤ q0) (hB : q1 ≤ B) (h0 : 0 < q0) (h1 : q0 < q1)
    (i : Fin 8) (k : E3) (hk : k ≠ 0) {R : ℝ} (hR : 0 < R) :
    ∃ C ≥ 0, ∀ t H, H ≤ R → TableOf t (D 0) A B H → ∀ rt : ℕ → ℕ → ℝ × ℝ, (∀ n, NearRoots n (rt n)) →
      ∃ V : ℕ → ℕ → ℝ, (∀ c > 0, ∃ N, ∀ n m, N ≤ n → N ≤ m →
        |V n m - 1 / (2 * Real.pi) ^ 3 * ∫ q in bothIn k q0 q1, specBias (D 0) (biasFieldOf i) (toVec k) (toVec q) (biasTermOf i)| ≤ C * H ^ 3 + c) ∧
      ∀ (e : Env) (es : List Event) (μ ν : Mem) (ik : ℕ), e.t = t → e.rt = rt → e.DoubleRule .bias_1loop_q .bias_1loop_mu →
        glqRange t (e.cfg.prec .bias_1loop_q) = .ok (q0, q1) → Room 11 e.ks.length μ → Schedule 8 e.ks.length es →
        runTermsBias e es μ = .ok ν → e.ks[ik]? = some ‖k‖ →
        ν.at (cellOf clsBias (biasCol i).1 ik) = some (some (V (e.cfg.prec .bias_1loop_q).n (e.cfg.prec .bias_1loop_mu).n)) := by
  obtain ⟨C1, hC1, hl⟩ := lookup_close hD hR
  obtain ⟨C2, hC2, hs⟩ := bias_stable (R := C1 * R ^ 3) (biasFieldOf i) (biasTermOf i) k hk h0 (hD.cts hA hB)
  refine ⟨C2 * C1, by positivity, fun t H hH ht rt hr => ?_⟩
  have hH0 : 0 < H := sampled_pos ht.toSampled ht.phys.toIncreasing (by have := ht.three; omega)
  have lc := ht.limitCase hr hA hB h1
  obtain ⟨P, V, hP, hV, hrun⟩ := C68_bias lc i k hk
  have near := hs (C1 * H ^ 3) (by positivity) (by gcongr) P (lc.cts hP) fun x hx => hl t H hH ht P hP x ⟨hA.trans hx.1, hx.2.trans hB⟩
  refine ⟨V, fun c hc => ?_, hrun⟩
  obtain ⟨N, hN⟩ := Metric.tendsto_atTop.1 hV c hc
  refine ⟨max N.1 N.2, fun n m n1 n2 => ?_⟩
  have h2 := hN (n, m) ⟨(le_max_left _ _).trans n1, (le_max_right _ _).trans n2⟩
  rw [Real.dist_eq] at h2
  exact (abs_sub_le _ _ _).trans ((add_le_add h2.le near).trans_eq (by ring))

/-! ## The spectrum -/

/-- The displacement dispersion of a spectrum known on `[A,B]`, up to wavenumber `uv * k`. -/
noncomputable def dispersionOn (P : ℝ → ℝ) (A B uv k : ℝ) : ℝ :=
  if uv * k < A then 0 else 1 / (6 * Real.pi ^ 2) * ∫ q in A..min (uv * k) B, P q

/-- What the branches of the propagator kernels can add to the error of the one-loop spectrum (`C73_spectrum`). -/
noncomputable def branchError (k pk s ga gb d G : ℝ) : ℝ :=
  Real.exp (-(k ^ 2 * G ^ 2 * s)) * (G ^ 4 * |pk| *
    (d * |1 + k ^ 2 * G ^ 2 * s / 2 + G ^ 2 * ga| + d * |1 + k ^ 2 * G ^ 2 * s / 2 + G ^ 2 * gb| + G ^ 2 * d ^ 2))

/-- The bound on the effect of the branches of the propagator kernels on a propagator correction (`C73_propagator`). -/
noncomputable def branchProp (P : ℝ → ℝ) (k p0 p1 : ℝ) : ℝ := 1 / 500000 * (k ^ 3 / (2 * Real.pi ^ 2) * ∫ q in p0..p1, |P q| / q)

theorem branchProp_stable (k : ℝ) {p0 p1 R : ℝ} (h0 : 0 < p0) (h1 : p0 < p1) {P : ℝ → ℝ} (hP : ContinuousOn P (Set.Icc p0 p1)) :
    StableAt (fun P => branchProp P k p0 p1) P p0 p1 R := by
  have hg : ContinuousOn (fun q : ℝ => 1 / q) (Set.Icc p0 p1) := ContinuousOn.div (by fun_prop) (by fun_prop) fun q hq => (h0.trans_le hq.1).ne'
  unfold branchProp
  refine StableAt.const_mul (StableAt.const_mul ?_ _) _
  have e : ∀ (P : ℝ → ℝ) q, |P q| / q = 1 / q * |P q| := fun P q => by ring
  simp_rw [e]
  exact (line_stable h1.le hg hP).2

/-- A family of numbers that differ from `x` by at most a constant times `d`. -/
def Within {ι : Type} (d : ι → ℝ) (x : ℝ) (X : ι → ℝ) : Prop := ∃ C ≥ 0, ∀ i, |X i - x| ≤ C * d i

section
variable {ι : Type} {d : ι → ℝ} {x y : ℝ} {X Y : ι → ℝ} {R : ℝ}

theorem within_const (d : ι → ℝ) (x : ℝ) : Within d x fun _ => x := ⟨0, le_rfl, fun i => by simp⟩

theorem Within.congr (hx : Within d x X) (e : x = y) (h : ∀ i, X i = Y i) : Within d y Y := by
  obtain ⟨C, c0, hC⟩ := hx
  exact ⟨C, c0, fun i => by rw [← h, ← e]; exact hC i⟩

theorem Within.add (hx : Within d x X) (hy : Within d y Y) : Within d (x + y) fun i => X i + Y i := by
  obtain ⟨C, c0, hC⟩ := hx
  obtain ⟨E, e0, hE⟩ := hy
  refine ⟨C + E, by positivity, fun i => ?_⟩
  rw [add_sub_add_comm, add_mul]
  exact (abs_add_le _ _).trans (add_le_add (hC i) (hE i))

theorem Within.mul (hd : ∀ i, 0 ≤ d i ∧ d i ≤ R) (hx : Within d x X) (hy : Within d y Y) : Within d (x * y) fun i => X i * Y i := by
  obtain ⟨C, c0, hC⟩ := hx
  obtain ⟨E, e0, hE⟩ := hy
  refine ⟨C * E * |R| + |x| * E + C * |y|, by positivity, fun i => ?_⟩
  have h1 := hC i
  have h2 := hE i
  have d0 := (hd i).1
  have d1 := (hd i).2.trans (le_abs_self R)
  rw [show X i * Y i - x * y = (X i - x) * (Y i - y) + (x * (Y i - y) + (X i - x) * y) by ring]
  calc _ ≤ |X i - x| * |Y i - y| + (|x| * |Y i - y| + |X i - x| * |y|) := by
        refine (abs_add_le _ _).trans (add_le_add (abs_mul _ _).le ((abs_add_le _ _).trans (add_le_add (abs_mul _ _).le (abs_mul _ _).le)))
    _ ≤ C * d i * (E * d i) + (|x| * (E * d i) + C * d i * |y|) := by gcongr
    _ = (C * E * d i + |x| * E + C * |y|) * d i := by ring
    _ ≤ _ := by gcongr

theorem Within.abs (hx : Within d x X) : Within d |x| fun i => |X i| := by
  obtain ⟨C, c0, hC⟩ := hx
  exact ⟨C, c0, fun i => (abs_abs_sub_abs_le_abs_sub _ _).trans (hC i)⟩

theorem Within.exp (hd : ∀ i, 0 ≤ d i ∧ d i ≤ R) (hx : Within d x X) : Within d (Real.exp x) fun i => Real.exp (X i) := by
  obtain ⟨C, c0, hC⟩ := hx
  refine ⟨Real.exp x * Real.exp (C * |R|) * C, by positivity, fun i => ?_⟩
  have h1 := hC i
  have d1 : C * d i ≤ C * |R| := mul_le_mul_of_nonneg_left ((hd i).2.trans (le_abs_self R)) c0
  set u := X i - x with hu
  have e1 := Real.add_one_le_exp u
  have e2 := Real.add_one_le_exp (-u)
  have e3 : Real.exp (-u) * Real.exp u = 1 := by rw [← Real.exp_add]; simp
  have key : |Real.exp u - 1| ≤ Real.exp (C * |R|) * (C * d i) := by
    have hm : Real.exp u ≤ Real.exp (C * |R|) := Real.exp_le_exp.2 ((le_abs_self u).trans (h1.trans d1))
    have h1E : 1 ≤ Real.exp (C * |R|) := Real.one_le_exp (by positivity)
    have hcd : 0 ≤ C * d i := mul_nonneg c0 (hd i).1
    rw [abs_le] at h1 ⊢
    constructor
    · nlinarith
    · have : Real.exp u - 1 ≤ u * Real.exp u := by nlinarith [Real.exp_pos u]
      rcases le_or_gt u 0 with c | c
      · nlinarith [Real.exp_pos u]
      · calc Real.exp u - 1 ≤ u * Real.exp u := this
          _ ≤ (C * d i) * Real.exp (C * |R|) := by gcongr; exact h1.2
          _ = _ := by ring
  rw [show Real.exp (X i) - Real.exp x = Real.exp x * (Real.exp u - 1) by rw [mul_sub, ← Real.exp_add, hu, add_sub_cancel, mul_one], abs_mul,
    abs_of_pos (Real.exp_pos x), mul_assoc, mul_assoc]
  exact mul_le_mul_of_nonneg_left key (Real.exp_pos x).le

end

/-- The dispersion to second order for every table. -/
theorem sigma_close {D : ℕ → ℝ → ℝ} {A B M : ℝ} (hD : Smooth D A B M) {uv : ℝ} (huv : 0 ≤ uv) :
    ∃ C ≥ 0, ∀ t H, TableOf t (D 0) A B H → ∀ Pl, PiecewiseLinear t Pl → ∀ k, |sigmaSpec t Pl uv k - dispersionOn (D 0) A B uv k| ≤ C * H ^ 2 := by
  have hpi := Real.pi_pos
  refine ⟨|M| / 8 * |B - A| / (6 * Real.pi ^ 2), by positivity, fun t H ht Pl hPl k => ?_⟩
  have hr : t.range = Set.Icc A B := by unfold Pk.range; rw [ht.first, ht.last]
  have h3 := ht.three
  have hAB : A ≤ B := by rw [← ht.first, ← ht.last]; exact getD_le ht.phys.toIncreasing (by omega) (by omega)
  obtain ⟨vs, e1, e2⟩ := C87_sigma ht.phys.toIncreasing (by omega) ht.toSampled (by rw [ht.first, ht.last]; exact hD.derivs.mono (by norm_num) le_rfl le_rfl)
    (M2 := |M|) (fun x hx => (hD.bound 2 le_rfl (by norm_num) x (hr ▸ hx)).trans (le_abs_self M)) uv huv [k] (by simp)
  rw [C11_sigmad2_integral_partial t ht.phys.toIncreasing (by omega) Pl hPl uv huv [k] (by simp), Res.ok.injEq] at e1
  rw [← e1] at e2
  simp only [List.map_cons, List.map_nil, List.forall₂_cons, List.Forall₂.nil, and_true] at e2
  have hds : sigmaSpec t (D 0) uv k = dispersionOn (D 0) A B uv k := by unfold sigmaSpec dispersionOn; rw [ht.first, ht.last]
  rw [hds, ht.first, ht.last] at e2
  rw [abs_of_nonneg (by linarith : 0 ≤ B - A)]
  exact e2.trans_eq (by ring)

/-- C87, `Spectrum1Loop.pk`: for polynomial interpolation and ascending modes, up to a constant times the square of the spacing of the table and to
what the branches of the propagator kernels allow, the one-loop spectrum of the interface tends to the regularised one-loop spectrum of the sampled
spectrum as the numbers of nodes grow. -/
theorem C87_spectrum {D : ℕ → ℝ → ℝ} {A B M : ℝ} (hD : Smooth D A B M) {p0 p1 q0 q1 : ℝ} (hA : A ≤ p0) (hB : p1 ≤ B) (h0 : 0 < p0) (h1 : p0 < p1)
    (hA' : A ≤ q0) (hB' : q1 ≤ B) (h0' : 0 < q0) (h1' : q0 < q1) (a b : Field) (k : E3) (hk : k ≠ 0) (hkAB : ‖k‖ ∈ Set.Icc A B) {uv : ℝ} (huv : 0 ≤ uv)
    (G : ℝ) {R : ℝ} (hR : 0 < R) :
    let s := dispersionOn (D 0) A B uv ‖k‖
    let ga := loopProp a (D 0) k p0 p1
    let gb := loopProp b (D 0) k p0 p1
    let m := 1 / (2 * Real.pi) ^ 3 * ∫ q in bothIn k q0 q1, specTree (D 0) a b (toVec k) (toVec q)
    ∃ C ≥ 0, ∀ t H, H ≤ R → TableOf t (D 0) A B H → ∀ rt : ℕ → ℕ → ℝ × ℝ, (∀ n, NearRoots n (rt n)) →
      ∃ W : ℕ → ℕ → ℕ → ℝ, (∀ c > 0, ∃ N, ∀ n nq nm, N ≤ n → N ≤ nq → N ≤ nm →
        |W n nq nm - regOneLoop ‖k‖ (D 0 ‖k‖) s ga gb m G| ≤
          branchError ‖k‖ (D 0 ‖k‖) s ga gb (branchProp (D 0) ‖k‖ p0 p1) G + C * H ^ 2 + c) ∧
      ∀ (e : Env) (es : List Event) (μ ν : Mem) (ik : ℕ), e.t = t → e.rt = rt → e.DoubleRule .gamma1_1loop_q .gamma2_tree_mu →
        e.DoubleRule .gamma2_tree_q .gamma2_tree_mu → glqRange t (e.cfg.prec .gamma1_1loop_q) = .ok (p0, p1) →
        glqRange t (e.cfg.prec .gamma2_tree_q) = .ok (q0, q1) → e.cfg.interp .spectrum_1loop = .poly → e.cfg.uv .spectrum_1loop = uv →
        e.ks.Pairwise (· ≤ ·) → Room 6 e.ks.length μ → Schedule 3 e.ks.length es → runTerms1 e a b es μ = .ok ν → e.ks[ik]? = some ‖k‖ →
        μ.at (cellOf cls1 "k" ik) = some (some ‖k‖) →
        (viewOf cls1 ν).pk1 G none ik = W (e.cfg.prec .gamma1_1loop_q).n (e.cfg.prec .gamma2_tree_q).n (e.cfg.prec .gamma2_tree_mu).n := by
  intro s ga gb m
  obtain ⟨C1, hC1, hl⟩ := lookup_close hD hR
  obtain ⟨C2, hC2, hsig⟩ := sigma_close hD huv
  obtain ⟨E1, hE1, s1⟩ := prop_stable (R := C1 * R ^ 3) a k hk h0 h1 (hD.cts hA hB)
  obtain ⟨E2, hE2, s2⟩ := prop_stable (R := C1 * R ^ 3) b k hk h0 h1 (hD.cts hA hB)
  obtain ⟨E3', hE3, s3⟩ := tree_stable (R := C1 * R ^ 3) a b k h0' (hD.cts hA' hB')
  obtain ⟨E4, hE4, s4⟩ := branchProp_stable (R := C1 * R ^ 3) ‖k‖ h0 h1 (hD.cts hA hB)
  -- the tables, with their lookups
  let ι := {x : (Pk ℝ × ℝ) × (ℝ → ℝ) × (ℝ → ℝ) // x.1.2 ≤ R ∧ TableOf x.1.1 (D 0) A B x.1.2 ∧ (∀ k, look x.1.1 .poly k = .ok (x.2.1 k)) ∧
    PiecewiseLinear x.1.1 x.2.2}
  let d : ι → ℝ := fun i => i.1.1.2 ^ 2
  have hH0 : ∀ i : ι, 0 < i.1.1.2 := fun i =>
    sampled_pos i.2.2.1.toSampled i.2.2.1.phys.toIncreasing (by have := i.2.2.1.three; omega)
  have hd : ∀ i, 0 ≤ d i ∧ d i ≤ R ^ 2 := fun i => ⟨by positivity, by
    have := hH0 i; have := i.2.1
    show i.1.1.2 ^ 2 ≤ R ^ 2
    gcongr⟩
  have hd3 : ∀ i : ι, C1 * i.1.1.2 ^ 3 ≤ C1 * R * d i := fun i => by
    have := i.2.1
    calc C1 * i.1.1.2 ^ 3 = C1 * i.1.1.2 * i.1.1.2 ^ 2 := by ring
      _ ≤ C1 * R * i.1.1.2 ^ 2 := by gcongr
  have near : ∀ (i : ι) x, x ∈ Set.Icc A B → |i.1.2.1 x - D 0 x| ≤ C1 * i.1.1.2 ^ 3 := fun i x hx => hl _ _ i.2.1 i.2.2.1 _ i.2.2.2.1 x hx
  have cts : ∀ (i : ι) {l r : ℝ}, A ≤ l → r ≤ B → ContinuousOn i.1.2.1 (Set.Icc l r) := fun i l r hl hr =>
    (C10_continuous_inside i.1.1.1 i.2.2.1.phys.toIncreasing (by have := i.2.2.1.three; omega) _ i.2.2.2.1).mono
      (Set.Icc_subset_Icc (by rw [i.2.2.1.first]; exact hl) (by rw [i.2.2.1.last]; exact hr))
  have lift : ∀ {F : (ℝ → ℝ) → ℝ} {E l r : ℝ}, 0 ≤ E → A ≤ l → r ≤ B → (∀ d, 0 ≤ d → d ≤ C1 * R ^ 3 → ∀ Q : ℝ → ℝ, ContinuousOn Q (Set.Icc l r) →
      (∀ x ∈ Set.Icc l r, |Q x - D 0 x| ≤ d) → |F Q - F (D 0)| ≤ E * d) → Within d (F (D 0)) fun i => F i.1.2.1 := fun {F E l r} hE hl hr h => by
    refine ⟨E * (C1 * R), by positivity, fun i => ?_⟩
    have hi := hH0 i
    have hi' := i.2.1
    refine (h (C1 * i.1.1.2 ^ 3) (by positivity) (by gcongr) i.1.2.1 (cts i hl hr) fun x hx => near i x ⟨hl.trans hx.1, hx.2.trans hr⟩).trans ?_
    rw [mul_assoc E]
    exact mul_le_mul_of_nonneg_left (hd3 i) hE
  have w0 := within_const d
  have wp : Within d (D 0 ‖k‖) fun i => i.1.2.1 ‖k‖ := ⟨C1 * R, by positivity, fun i => (near i _ hkAB).trans (hd3 i)⟩
  have ws : Within d s fun i => sigmaSpec i.1.1.1 i.1.2.2 uv ‖k‖ := ⟨C2, hC2, fun i => hsig _ _ i.2.2.1 _ i.2.2.2.2 ‖k‖⟩
  have wa := lift hE1 hA hB s1
  have wb := lift hE2 hA hB s2
  have wm := lift hE3 hA' hB' s3
  have wd := lift hE4 hA hB s4
  have wF : Within d (‖k‖ ^ 2 * G ^ 2 * s / 2) fun i => ‖k‖ ^ 2 * G ^ 2 * sigmaSpec i.1.1.1 i.1.2.2 uv ‖k‖ / 2 :=
    ((w0 (‖k‖ ^ 2 * G ^ 2 / 2)).mul hd ws).congr (by ring) fun i => by ring
  have wA := ((w0 1).add wF).add ((w0 (G ^ 2)).mul hd wa)
  have wB := ((w0 1).add wF).add ((w0 (G ^ 2)).mul hd wb)
  have wreg : Within d (regOneLoop ‖k‖ (D 0 ‖k‖) s ga gb m G) fun i => regOneLoop ‖k‖ (i.1.2.1 ‖k‖) (sigmaSpec i.1.1.1 i.1.2.2 uv ‖k‖)
      (loopProp a i.1.2.1 k p0 p1) (loopProp b i.1.2.1 k p0 p1)
      (1 / (2 * Real.pi) ^ 3 * ∫ q in bothIn k q0 q1, specTree i.1.2.1 a b (toVec k) (toVec q)) G := by
    exact (((w0 (-2)).mul hd wF).exp hd).mul hd ((((((w0 (G ^ 2)).mul hd wA).mul hd wB).mul hd wp)).add ((w0 (G ^ 4)).mul hd wm))
  have wbr : Within d (branchError ‖k‖ (D 0 ‖k‖) s ga gb (branchProp (D 0) ‖k‖ p0 p1) G) fun i => branchError ‖k‖ (i.1.2.1 ‖k‖)
      (sigmaSpec i.1.1.1 i.1.2.2 uv ‖k‖) (loopProp a i.1.2.1 k p0 p1) (loopProp b i.1.2.1 k p0 p1) (branchProp i.1.2.1 ‖k‖ p0 p1) G := by
    have we : Within d (Real.exp (-(‖k‖ ^ 2 * G ^ 2 * s))) fun i => Real.exp (-(‖k‖ ^ 2 * G ^ 2 * sigmaSpec i.1.1.1 i.1.2.2 uv ‖k‖)) :=
      (((w0 (-2)).mul hd wF).congr (by ring) fun i => by ring).exp hd
    have wd2 : Within d (branchProp (D 0) ‖k‖ p0 p1 ^ 2) fun i => branchProp i.1.2.1 ‖k‖ p0 p1 ^ 2 := (wd.mul hd wd).congr (by ring) fun i => by ring
    exact we.mul hd (((w0 (G ^ 4)).mul hd wp.abs).mul hd (((wd.mul hd wA.abs).add (wd.mul hd wB.abs)).add ((w0 (G ^ 2)).mul hd wd2)))
  obtain ⟨K1, hK1, r1⟩ := wreg
  obtain ⟨K2, hK2, r2⟩ := wbr
  refine ⟨K1 + K2, by positivity, fun t H hH ht rt hr => ?_⟩
  have lp := ht.limitCase hr hA hB h1
  have lq := ht.limitCase hr hA' hB' h1'
  obtain ⟨Pl, hPl⟩ := exists_piecewiseLinear t ht.phys.toIncreasing
  obtain ⟨P, W, hP, hW, hrun⟩ := C73_spectrum lp lq a b k hk Pl hPl
  have c1 := r1 ⟨((t, H), P, Pl), hH, ht, hP, hPl⟩
  have c2 := r2 ⟨((t, H), P, Pl), hH, ht, hP, hPl⟩
  refine ⟨W (sigmaSpec t Pl uv ‖k‖) G, fun c hc => ?_, fun e es μ ν ik ht' hrt he1 he2 hr1 hr2 hpoly huv' hasc hμ hes hh hik hkc => ?_⟩
  · obtain ⟨N, hN⟩ := hW (sigmaSpec t Pl uv ‖k‖) G c hc
    refine ⟨N, fun n nq nm n1 n2 n3 => ?_⟩
    have w := hN _ _ _ n1 n2 n3
    simp only at w
    have c2' := (abs_le.1 c2).2
    simp only [d] at c1 c2'
    unfold branchError branchProp at c2' ⊢
    refine (abs_sub_le _ _ _).trans ((add_le_add w c1).trans ?_)
    linarith
  · have hv := hrun e es μ ν ik ht' hrt he1 he2 hr1 hr2 hpoly (by rw [huv']; exact huv) hasc hμ hes hh hik hkc G none
    rw [hv, Option.elim_none, huv']

/-! ## Concrete cases -/

/-- Samples of `x^2` on a range that contains the default ranges. -/
noncomputable def squareTable : Pk ℝ := ⟨4, [1 / 4000, 1 / 10, 1, 16], [1 / 16000000, 1 / 100, 1, 256]⟩

theorem square_tableOf : TableOf squareTable (powDerivs 2 0) (1 / 4000) 16 15 where
  val i hi := by
    have : i < 4 := hi
    unfold powDerivs
    interval_cases i <;> norm_num [squareTable]
  gap i hi := by
    have : i + 1 < 4 := hi
    have : i < 3 := by omega
    interval_cases i <;> norm_num [squareTable]
  phys := ⟨⟨⟨rfl, rfl, by norm_num [squareTable]⟩, by norm_num [squareTable]⟩, by norm_num [squareTable]⟩
  three := by norm_num [squareTable]
  first := by norm_num [squareTable]
  last := by norm_num [squareTable]

theorem square_smooth : Smooth (powDerivs 2) (1 / 4000) 16 2 where
  derivs := powDerivs_derivs 2 5 _ _
  bound j h1 h2 x _ := by
    interval_cases j <;> norm_num [powDerivs, Nat.descFactorial]

/-- With default settings the one-loop run on samples of `x^2` stores entries of sequences that tend, up to the bounds, to the loop integral and to the
regularised spectrum of `x^2`. -/
example : ∃ (C : ℝ) (rt : ℕ → ℕ → ℝ × ℝ) (ν : Mem) (V : ℕ → ℕ → ℝ) (W : ℕ → ℕ → ℕ → ℝ),
    (∀ n, Found n (rt n)) ∧
    runTerms1 ⟨Cfg.default, rt, squareTable, exKs⟩ .delta .theta (blocks 3 0 0 [2, 0, 3]) exMemK = .ok ν ∧
    (∀ c > 0, ∃ N, ∀ n m, N ≤ n → N ≤ m → |V n m - 1 / (2 * Real.pi) ^ 3 * ∫ q in bothIn exVec (1 / 2000) 10,
      specTree (fun x => x ^ 2) .delta .theta (toVec exVec) (toVec q)| ≤ C * 15 ^ 3 + c) ∧
    ν.at (cellOf cls1 "pk_gamma2_tree_tree" 3) = some (some (V 200 10)) ∧
    (viewOf cls1 ν).pk1 1 none 3 = W 600 200 10 := by
  choose rt hf using found_exist
  have hr := fun n => (hf n).nearRoots
  have hrt : ∀ n, n < 2 ^ 63 → RootsOrdered (rt n) n := fun n hn => nearRoots_ordered (hr n) hn
  have hphys := square_tableOf.phys
  have hok : (⟨Cfg.default, rt, squareTable, exKs⟩ : Env).Ok := ⟨hphys.toWF, by norm_num [squareTable], (exEnv_ok rt exKs).size,
    (exEnv_ok rt exKs).poly, (exEnv_ok rt exKs).interp⟩
  have hroom : Room 6 exKs.length exMemK := fun i _ => by simp only [exMemK]; split <;> simp [exKs]
  obtain ⟨ν, h⟩ := C59_one_loop hok .delta .theta (exSchedule 3) hroom
  have hv : exVec ≠ 0 := norm_pos_iff.1 (by rw [exVec_norm]; norm_num)
  obtain ⟨C, _, hC⟩ := C87_one_loop square_smooth (q0 := 1 / 2000) (q1 := 10) (by norm_num) (by norm_num) (by norm_num) (by norm_num) .delta .theta exVec hv
    (R := 15) (by norm_num)
  obtain ⟨V, h1, h2⟩ := hC _ _ le_rfl square_tableOf rt hr
  obtain ⟨C', _, hC'⟩ := C87_spectrum square_smooth (p0 := 1 / 2000) (p1 := 10) (q0 := 1 / 2000) (q1 := 10) (by norm_num) (by norm_num) (by norm_num)
    (by norm_num) (by norm_num) (by norm_num) (by norm_num) (by norm_num) .delta .theta exVec hv (by rw [exVec_norm]; norm_num) (uv := 1 / 2) (by norm_num) 1
    (R := 15) (by norm_num)
  obtain ⟨W, _, h4⟩ := hC' _ _ le_rfl square_tableOf rt hr
  have hd : ∀ p, (p = .gamma1_1loop_q ∨ p = .gamma2_tree_q) → (⟨Cfg.default, rt, squareTable, exKs⟩ : Env).DoubleRule p .gamma2_tree_mu := by
    rintro p (rfl | rfl) <;> exact ⟨hphys, hok.two, by norm_num [RangeProper, Cfg.default, defaultPrec],
      by norm_num [Cfg.default, defaultPrec], hok.size _, hok.size _, hrt _ (hok.size _), hrt _ (hok.size _), hok.poly _, hok.poly _⟩
  have e0 : powDerivs 2 0 = fun x => x ^ 2 := by ext x; simp [powDerivs]
  rw [e0] at h1
  refine ⟨C, rt, ν, V, W, hf, h, h1, ?_, ?_⟩
  · exact h2 ⟨Cfg.default, rt, squareTable, exKs⟩ _ _ ν 3 rfl rfl (hd _ (.inr rfl)) (by norm_num [glqRange, Cfg.default, defaultPrec, lit_real, le_real])
      hroom (exSchedule 3) h (by rw [exVec_norm]; simp [exKs])
  · exact h4 ⟨Cfg.default, rt, squareTable, exKs⟩ _ _ ν 3 rfl rfl (hd _ (.inl rfl)) (hd _ (.inr rfl))
      (by norm_num [glqRange, Cfg.default, defaultPrec, lit_real, le_real]) (by norm_num [glqRange, Cfg.default, defaultPrec, lit_real, le_real])
      rfl (by norm_num [Cfg.default, lit_real]) (by norm_num [exKs]) hroom (exSchedule 3) h (by rw [exVec_norm]; simp [exKs])
      (by rw [exVec_norm]; simp [Mem.at, cellOf, cls1, exMemK, exKs])

/-- The same for a bias column; `squareTable` covers the whole range that the default setting takes from the table. -/
example : ∃ (C : ℝ) (rt : ℕ → ℕ → ℝ × ℝ) (ν : Mem) (V : ℕ → ℕ → ℝ),
    (∀ n, Found n (rt n)) ∧
    runTermsBias ⟨Cfg.default, rt, squareTable, exKs⟩ (blocks 8 0 0 [2, 0, 3]) exMem = .ok ν ∧
    (∀ c > 0, ∃ N, ∀ n m, N ≤ n → N ≤ m → |V n m - 1 / (2 * Real.pi) ^ 3 * ∫ q in bothIn exVec (1 / 4000) 16,
      specBias (fun x => x ^ 2) .delta (toVec exVec) (toVec q) .sigma3sq| ≤ C * 15 ^ 3 + c) ∧
    ν.at (cellOf clsBias "sigma3sq" 3) = some (some (V 2000 20)) := by
  choose rt hf using found_exist
  have hr := fun n => (hf n).nearRoots
  have hrt : ∀ n, n < 2 ^ 63 → RootsOrdered (rt n) n := fun n hn => nearRoots_ordered (hr n) hn
  have hphys := square_tableOf.phys
  have hok : (⟨Cfg.default, rt, squareTable, exKs⟩ : Env).Ok := ⟨hphys.toWF, by norm_num [squareTable], (exEnv_ok rt exKs).size,
    (exEnv_ok rt exKs).poly, (exEnv_ok rt exKs).interp⟩
  obtain ⟨ν, h⟩ := C59_bias hok (exSchedule 8) (exRoom 11)
  obtain ⟨C, _, hC⟩ := C87_bias square_smooth (q0 := 1 / 4000) (q1 := 16) le_rfl le_rfl (by norm_num) (by norm_num) 7 exVec
    (norm_pos_iff.1 (by rw [exVec_norm]; norm_num)) (R := 15) (by norm_num)
  obtain ⟨V, h1, h2⟩ := hC _ _ le_rfl square_tableOf rt hr
  have e0 : powDerivs 2 0 = fun x => x ^ 2 := by ext x; simp [powDerivs]
  rw [e0] at h1
  refine ⟨C, rt, ν, V, hf, h, h1, ?_⟩
  exact h2 ⟨Cfg.default, rt, squareTable, exKs⟩ _ _ ν 3 rfl rfl
    ⟨hphys, hok.two, by norm_num [RangeProper, Cfg.default, defaultPrec],
      by norm_num [Cfg.default, defaultPrec], hok.size _, hok.size _, hrt _ (hok.size _), hrt _ (hok.size _), hok.poly _, hok.poly _⟩
    (by simp [glqRange, Cfg.default, defaultPrec, lit_real, le_real, squareTable, rd, subSize, sizeMod]) (exRoom 11)
    (exSchedule 8) h (by rw [exVec_norm]; simp [exKs])

end Verif
