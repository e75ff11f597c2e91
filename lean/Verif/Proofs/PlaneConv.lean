import Verif.Proofs.GaussConv
import Verif.Props.LoopQuadrature

/-! Convergence of the double rule: the angular rule uniformly in the radius and in the extreme nodes, then the radial rule. -/

namespace Verif

open MeasureTheory

/-- The radial rule of `n` nodes in the logarithm of `q`. -/
noncomputable def gaussQ (rt : ℕ → ℝ × ℝ) (n : ℕ) (qmin qmax : ℝ) (f : ℝ → ℝ) : ℝ :=
  gsum rt n (Real.log qmin) (Real.log qmax) fun t => f (Real.exp t)

/-- Lower end of the angular range. -/
noncomputable def loOf (x1 x : ℝ) : ℝ := max (-1) ((1 + x * x - x1 * x1) / 2 / x)

/-- Upper end of the angular range. -/
noncomputable def hiOf (half : Bool) (x0 x : ℝ) : ℝ := if half then min 1 (1 / 2 / x) else min 1 ((1 + x * x - x0 * x0) / 2 / x)

/-- The chosen range, with empty ranges clipped. -/
theorem range_clip (half : Bool) (x0 x1 x : ℝ) (h0 : 0 < x0) (hx0 : x0 ≤ x) (hx1 : x ≤ x1) (J : ℝ → ℝ → (ℝ → ℝ) → ℝ) (f : ℝ → ℝ)
    (hJ : ∀ c, J c c f = 0) :
    rangeForm J (muRange half [x0, x1] 2 x) f = J (loOf x1 x) (max (loOf x1 x) (hiOf half x0 x)) f := by
  have hx : 0 < x := h0.trans_le hx0
  set A := (1 + x * x - x1 * x1) / 2 / x with hA
  set B := (1 + x * x - x0 * x0) / 2 / x with hB
  have hAB : A ≤ 1 / 2 / x := by rw [hA]; gcongr; nlinarith
  have hBB : 1 / 2 / x ≤ B := by rw [hB]; gcongr; nlinarith
  have hpos : 0 < 1 / 2 / x := by positivity
  have hC : (if half && decide (1 / 2 ≤ x) then 1 / 2 / x else min 1 B) = hiOf half x0 x := by
    unfold hiOf
    cases half
    · simp [hB]
    · by_cases c : 1 / 2 ≤ x
      · have : 1 / 2 / x ≤ 1 := by rw [div_le_one hx]; exact c
        simp only [Bool.true_and, decide_eq_true_eq, if_pos c, if_true, min_eq_right this]
      · have : 1 ≤ 1 / 2 / x := by rw [one_le_div hx]; linarith
        simp only [Bool.true_and, decide_eq_true_eq, if_neg c, if_true, min_eq_left this, min_eq_left (this.trans hBB)]
  have hm : muRange half [x0, x1] 2 x = if 1 ≤ loOf x1 x ∨ min 1 B ≤ -1 ∨ min 1 B ≤ loOf x1 x then .ok none else
      .ok (some (loOf x1 x, hiOf half x0 x)) := by
    unfold muRange
    rw [show subSize 2 1 = 1 by decide, rd_ok (by norm_num), rd_ok (by norm_num)]
    simp only [Res.ok_bind, cMax_real, cMin_real, lit_real, List.getElem_cons_zero, List.getElem_cons_succ]
    push_cast
    rw [← hA, ← hB, ← hC]
    rw [show max (-1) A = loOf x1 x from rfl]
    by_cases c : 1 ≤ loOf x1 x ∨ min 1 B ≤ -1 ∨ min 1 B ≤ loOf x1 x
    · rw [if_pos c, if_pos (by simpa only [Bool.or_eq_true, le_real, or_assoc] using c)]
    · rw [if_neg c, if_neg (by simpa only [Bool.or_eq_true, le_real, or_assoc] using c)]
      congr 3
  have hle : hiOf half x0 x ≤ min 1 B := by
    unfold hiOf
    cases half
    · exact le_rfl
    · simp only [if_true]
      exact min_le_min le_rfl hBB
  have hlo : -1 ≤ loOf x1 x := le_max_left _ _
  rw [hm]
  split_ifs with c
  · have : hiOf half x0 x ≤ loOf x1 x := by
      rcases c with c | c | c
      · exact (hle.trans (min_le_left _ _)).trans c
      · exact (hle.trans c).trans hlo
      · exact hle.trans c
    rw [max_eq_left this, hJ]
    rfl
  · have : loOf x1 x ≤ hiOf half x0 x := by
      push Not at c
      unfold hiOf
      cases half
      · exact c.2.2.le
      · simp only [if_true]
        refine le_min c.1.le (max_le (by linarith) hAB)
    rw [max_eq_right this]
    rfl

/-- At every point of the clipped range `k-q` does not vanish, and unless the range is empty its length is between the extreme nodes. -/
theorem clip_len (half : Bool) (x0 x1 x mu : ℝ) (h0 : 0 < x0) (hx0 : x0 ≤ x) (hx1 : x ≤ x1) (h1 : loOf x1 x ≤ mu)
    (h2 : mu ≤ max (loOf x1 x) (hiOf half x0 x)) : 0 < 1 + x * x - 2 * mu * x ∧
      (loOf x1 x < hiOf half x0 x → x0 ^ 2 ≤ 1 + x * x - 2 * mu * x ∧ 1 + x * x - 2 * mu * x ≤ x1 ^ 2) := by
  have hx : 0 < x := h0.trans_le hx0
  by_cases c : loOf x1 x < hiOf half x0 x
  · rw [max_eq_right c.le] at h2
    have a1 : x0 ^ 2 ≤ 1 + x * x - 2 * mu * x := by
      unfold hiOf at h2
      cases half
      · have := h2.trans (min_le_right _ _)
        rw [le_div_iff₀ hx, le_div_iff₀ two_pos] at this
        nlinarith
      · have := h2.trans (min_le_right _ _)
        rw [le_div_iff₀ hx] at this
        nlinarith
    have a2 : 1 + x * x - 2 * mu * x ≤ x1 ^ 2 := by
      have := (le_max_right _ _).trans h1
      rw [div_le_iff₀ hx, div_le_iff₀ two_pos] at this
      nlinarith
    exact ⟨lt_of_lt_of_le (by positivity) a1, fun _ => ⟨a1, a2⟩⟩
  · refine ⟨?_, fun h => absurd h c⟩
    rw [max_eq_left (not_lt.1 c)] at h2
    have e : mu = loOf x1 x := le_antisymm h2 h1
    rw [e]
    unfold loOf
    rcases max_choice (-1) ((1 + x * x - x1 * x1) / 2 / x) with h | h
    · rw [h]; nlinarith
    · rw [h]
      have : 2 * ((1 + x * x - x1 * x1) / 2 / x) * x = 1 + x * x - x1 * x1 := by field_simp
      rw [this]
      nlinarith

theorem intMu_affine (a b : ℝ) (f : ℝ → ℝ) :
    intMu a b f = ∫ m in (-1 : ℝ)..1, (b - a) / 2 * f ((m + 1) * ((b - a) / 2) + a) := by
  have h5 := intervalIntegral.mul_integral_comp_add_mul (a := (-1 : ℝ)) (b := 1) (f := f) ((b - a) / 2) ((b + a) / 2)
  rw [show (b + a) / 2 + (b - a) / 2 * -1 = a by ring, show (b + a) / 2 + (b - a) / 2 * 1 = b by ring] at h5
  unfold intMu
  rw [← h5, intervalIntegral.integral_const_mul]
  congr 2
  funext m
  congr 1
  ring

section

variable {α : Type} [TopologicalSpace α] (half : Bool) (k qmin qmax : ℝ) (D : α → α → ℝ → ℝ → ℝ) (P : ℝ → α)

/-- The radii `a ≤ exp t ≤ b` within the configured range. -/
def conf : Set (ℝ × ℝ × ℝ) := {p | qmin ≤ p.1 ∧ p.1 ≤ Real.exp p.2.2 ∧ Real.exp p.2.2 ≤ p.2.1 ∧ p.2.1 ≤ qmax}

theorem conf_compact (h0 : 0 < qmin) : IsCompact (conf qmin qmax) := by
  refine IsCompact.of_isClosed_subset (s := Set.Icc qmin qmax ×ˢ Set.Icc qmin qmax ×ˢ Set.Icc (Real.log qmin) (Real.log qmax))
    (isCompact_Icc.prod (isCompact_Icc.prod isCompact_Icc)) ?_ ?_
  · have c : Continuous fun p : ℝ × ℝ × ℝ => Real.exp p.2.2 := by fun_prop
    have cb : Continuous fun p : ℝ × ℝ × ℝ => p.2.1 := by fun_prop
    exact (isClosed_le continuous_const continuous_fst).inter ((isClosed_le continuous_fst c).inter
      ((isClosed_le c cb).inter (isClosed_le cb continuous_const)))
  · rintro ⟨a, b, t⟩ ⟨h1, h2, h3, h4⟩
    dsimp only at h1 h2 h3 h4
    have : 0 < qmax := by linarith
    refine ⟨⟨h1, by linarith⟩, ⟨by linarith, h4⟩, ?_, ?_⟩
    · exact (Real.log_le_iff_le_exp h0).2 (h1.trans h2)
    · exact (Real.le_log_iff_exp_le this).2 (h3.trans h4)

/-- The angle of the reference angle `m`. -/
noncomputable def muOf (p : ℝ × ℝ × ℝ) (m : ℝ) : ℝ :=
  (m + 1) * ((max (loOf (p.2.1 / k) (Real.exp p.2.2 / k)) (hiOf half (p.1 / k) (Real.exp p.2.2 / k)) - loOf (p.2.1 / k) (Real.exp p.2.2 / k)) / 2)
    + loOf (p.2.1 / k) (Real.exp p.2.2 / k)

/-- The integrand over the reference angle, with the spectrum clamped to the configured range. -/
noncomputable def refDens (p : ℝ × ℝ × ℝ) (m : ℝ) : ℝ :=
  (Real.exp p.2.2 / k) ^ 3 *
    ((max (loOf (p.2.1 / k) (Real.exp p.2.2 / k)) (hiOf half (p.1 / k) (Real.exp p.2.2 / k)) - loOf (p.2.1 / k) (Real.exp p.2.2 / k)) / 2 *
      ((if half then 2 else 1) * D (P (Real.exp p.2.2))
        (P (max qmin (min qmax (k * Real.sqrt (1 + Real.exp p.2.2 / k * (Real.exp p.2.2 / k) - 2 * muOf half k p m * (Real.exp p.2.2 / k))))))
        (Real.exp p.2.2 / k) (muOf half k p m)))

variable {half k qmin qmax D P}

theorem muOf_mem (p : ℝ × ℝ × ℝ) {m : ℝ} (hm : m ∈ Set.Icc (-1 : ℝ) 1) : loOf (p.2.1 / k) (Real.exp p.2.2 / k) ≤ muOf half k p m ∧
    muOf half k p m ≤ max (loOf (p.2.1 / k) (Real.exp p.2.2 / k)) (hiOf half (p.1 / k) (Real.exp p.2.2 / k)) := by
  unfold muOf
  have := le_max_left (loOf (p.2.1 / k) (Real.exp p.2.2 / k)) (hiOf half (p.1 / k) (Real.exp p.2.2 / k))
  constructor <;> nlinarith [hm.1, hm.2]

theorem refDens_continuousOn (hk : 0 < k) (h0 : 0 < qmin) (hq : qmin ≤ qmax) (hP : ContinuousOn P (Set.Icc qmin qmax))
    (hD : ContinuousOn (fun z : α × α × ℝ × ℝ => D z.1 z.2.1 z.2.2.1 z.2.2.2)
      {z | 0 < z.2.2.1 ∧ 0 < 1 + z.2.2.1 * z.2.2.1 - 2 * z.2.2.2 * z.2.2.1}) :
    ContinuousOn (fun z : (ℝ × ℝ × ℝ) × ℝ => refDens half k qmin qmax D P z.1 z.2) (conf qmin qmax ×ˢ Set.Icc (-1) 1) := by
  have ce : Continuous fun z : (ℝ × ℝ × ℝ) × ℝ => Real.exp z.1.2.2 := by fun_prop
  have cx : Continuous fun z : (ℝ × ℝ × ℝ) × ℝ => Real.exp z.1.2.2 / k := by fun_prop
  have hxp : ∀ z : (ℝ × ℝ × ℝ) × ℝ, Real.exp z.1.2.2 / k ≠ 0 := fun z => (div_pos (Real.exp_pos _) hk).ne'
  have cb : Continuous fun z : (ℝ × ℝ × ℝ) × ℝ => z.1.2.1 / k := by fun_prop
  have ca : Continuous fun z : (ℝ × ℝ × ℝ) × ℝ => z.1.1 / k := by fun_prop
  have cl : Continuous fun z : (ℝ × ℝ × ℝ) × ℝ => loOf (z.1.2.1 / k) (Real.exp z.1.2.2 / k) :=
    continuous_const.max (((((continuous_const.add (cx.mul cx)).sub (cb.mul cb)).div_const 2)).div cx hxp)
  have ch : Continuous fun z : (ℝ × ℝ × ℝ) × ℝ => hiOf half (z.1.1 / k) (Real.exp z.1.2.2 / k) := by
    unfold hiOf
    cases half
    · exact continuous_const.min (((((continuous_const.add (cx.mul cx)).sub (ca.mul ca)).div_const 2)).div cx hxp)
    · exact continuous_const.min (continuous_const.div cx hxp)
  have cm : Continuous fun z : (ℝ × ℝ × ℝ) × ℝ => muOf half k z.1 z.2 :=
    ((continuous_snd.add continuous_const).mul (((cl.max ch).sub cl).div_const 2)).add cl
  have cs : Continuous fun z : (ℝ × ℝ × ℝ) × ℝ =>
      k * Real.sqrt (1 + Real.exp z.1.2.2 / k * (Real.exp z.1.2.2 / k) - 2 * muOf half k z.1 z.2 * (Real.exp z.1.2.2 / k)) :=
    continuous_const.mul ((((continuous_const.add (cx.mul cx))).sub ((continuous_const.mul cm).mul cx)).sqrt)
  have cP1 : ContinuousOn (fun z : (ℝ × ℝ × ℝ) × ℝ => P (Real.exp z.1.2.2)) (conf qmin qmax ×ˢ Set.Icc (-1) 1) :=
    hP.comp ce.continuousOn fun z hz => ⟨hz.1.1.trans hz.1.2.1, hz.1.2.2.1.trans hz.1.2.2.2⟩
  have cP2 : Continuous (fun z : (ℝ × ℝ × ℝ) × ℝ => P (max qmin (min qmax
      (k * Real.sqrt (1 + Real.exp z.1.2.2 / k * (Real.exp z.1.2.2 / k) - 2 * muOf half k z.1 z.2 * (Real.exp z.1.2.2 / k)))))) :=
    hP.comp_continuous (continuous_const.max (continuous_const.min cs)) fun z => ⟨le_max_left _ _, max_le hq (min_le_left _ _)⟩
  refine (cx.pow 3).continuousOn.mul ((((cl.max ch).sub cl).div_const 2).continuousOn.mul (continuousOn_const.mul ?_))
  refine hD.comp (cP1.prodMk (cP2.continuousOn.prodMk (cx.continuousOn.prodMk cm.continuousOn))) fun z hz => ?_
  refine ⟨div_pos (Real.exp_pos _) hk, ?_⟩
  have hm := muOf_mem (half := half) (k := k) z.1 hz.2
  have ha : 0 < z.1.1 := h0.trans_le hz.1.1
  have h1 := hz.1.2.1
  have h2 := hz.1.2.2.1
  exact (clip_len half _ _ _ _ (by positivity) (by gcongr) (by gcongr) hm.1 hm.2).1

omit [TopologicalSpace α] in
/-- The clamp does not matter. -/
theorem refDens_eq (hk : 0 < k) (h0 : 0 < qmin) {p : ℝ × ℝ × ℝ} (hp : p ∈ conf qmin qmax) {m : ℝ} (hm : m ∈ Set.Icc (-1 : ℝ) 1) :
    refDens half k qmin qmax D P p m = (Real.exp p.2.2 / k) ^ 3 *
    ((max (loOf (p.2.1 / k) (Real.exp p.2.2 / k)) (hiOf half (p.1 / k) (Real.exp p.2.2 / k)) - loOf (p.2.1 / k) (Real.exp p.2.2 / k)) / 2 *
      ((if half then 2 else 1) * D (P (Real.exp p.2.2))
        (P (k * Real.sqrt (1 + Real.exp p.2.2 / k * (Real.exp p.2.2 / k) - 2 * muOf half k p m * (Real.exp p.2.2 / k))))
        (Real.exp p.2.2 / k) (muOf half k p m))) := by
  unfold refDens
  by_cases c : loOf (p.2.1 / k) (Real.exp p.2.2 / k) < hiOf half (p.1 / k) (Real.exp p.2.2 / k)
  · have hmm := muOf_mem (half := half) (k := k) p hm
    have ha : 0 < p.1 := h0.trans_le hp.1
    have h1 := hp.2.1
    have h2 := hp.2.2.1
    have hb : 0 < p.2.1 := by linarith
    obtain ⟨r1, r2⟩ := (clip_len half _ _ _ _ (by positivity) (by gcongr) (by gcongr) hmm.1 hmm.2).2 c
    have r1 := (Real.le_sqrt' (by positivity)).2 r1
    have r2 := (Real.sqrt_le_left (by positivity)).2 r2
    rw [div_le_iff₀' hk] at r1
    rw [le_div_iff₀' hk] at r2
    rw [min_eq_right (r2.trans hp.2.2.2), max_eq_right (hp.1.trans r1)]
  · rw [max_eq_left (not_lt.1 c), sub_self, zero_div, zero_mul, zero_mul]

theorem conf_scaled (hk : 0 < k) (h0 : 0 < qmin) {p : ℝ × ℝ × ℝ} (hp : p ∈ conf qmin qmax) :
    0 < p.1 / k ∧ p.1 / k ≤ Real.exp p.2.2 / k ∧ Real.exp p.2.2 / k ≤ p.2.1 / k := by
  have ha : 0 < p.1 := h0.trans_le hp.1
  have h1 := hp.2.1
  have h2 := hp.2.2.1
  exact ⟨by positivity, by gcongr, by gcongr⟩

omit [TopologicalSpace α] in
theorem ref_sum (hk : 0 < k) (h0 : 0 < qmin) {n : ℕ} {rt : ℕ → ℝ × ℝ} (hr : NearRoots n rt) {p : ℝ × ℝ × ℝ} (hp : p ∈ conf qmin qmax) :
    (Real.exp p.2.2 / k) ^ 3 * rangeForm (gsum rt n) (muRange half [p.1 / k, p.2.1 / k] 2 (Real.exp p.2.2 / k)) (fun mu =>
      (if half then 2 else 1) * D (P (Real.exp p.2.2)) (P (k * Real.sqrt (1 + Real.exp p.2.2 / k * (Real.exp p.2.2 / k) -
        2 * mu * (Real.exp p.2.2 / k)))) (Real.exp p.2.2 / k) mu) = gsum rt n (-1) 1 (refDens half k qmin qmax D P p) := by
  obtain ⟨c1, c2, c3⟩ := conf_scaled hk h0 hp
  rw [range_clip half _ _ _ c1 c2 c3 _ _ fun c => by rw [gsum_affine]; simp [gsum], gsum_affine]
  unfold gsum
  rw [Finset.mul_sum]
  refine Finset.sum_congr rfl fun i hi => ?_
  rw [refDens_eq hk h0 hp (hr.node_mem (by norm_num) i (Finset.mem_range.1 hi))]
  unfold muOf
  ring

omit [TopologicalSpace α] in
theorem ref_int (hk : 0 < k) (h0 : 0 < qmin) {p : ℝ × ℝ × ℝ} (hp : p ∈ conf qmin qmax) :
    (Real.exp p.2.2 / k) ^ 3 * rangeForm intMu (muRange half [p.1 / k, p.2.1 / k] 2 (Real.exp p.2.2 / k)) (fun mu =>
      (if half then 2 else 1) * D (P (Real.exp p.2.2)) (P (k * Real.sqrt (1 + Real.exp p.2.2 / k * (Real.exp p.2.2 / k) -
        2 * mu * (Real.exp p.2.2 / k)))) (Real.exp p.2.2 / k) mu) = ∫ m in (-1 : ℝ)..1, refDens half k qmin qmax D P p m := by
  obtain ⟨c1, c2, c3⟩ := conf_scaled hk h0 hp
  rw [range_clip half _ _ _ c1 c2 c3 _ _ fun c => by unfold intMu; simp, intMu_affine, ← intervalIntegral.integral_const_mul]
  refine intervalIntegral.integral_congr fun m hm => ?_
  rw [Set.uIcc_of_le (by norm_num)] at hm
  rw [refDens_eq hk h0 hp hm]
  rfl

end

/-- Integrals over the reference angle depend continuously on the parameter. -/
theorem continuousOn_param {T : Type*} [TopologicalSpace T] (K : Set T) (G : T → ℝ → ℝ)
    (hG : ContinuousOn (fun p : T × ℝ => G p.1 p.2) (K ×ˢ Set.Icc (-1) 1)) : ContinuousOn (fun t => ∫ m in (-1 : ℝ)..1, G t m) K := by
  have hsec : ∀ t ∈ K, ContinuousOn (G t) (Set.Icc (-1) 1) := fun t ht =>
    hG.comp (by fun_prop : ContinuousOn (fun m : ℝ => (t, m)) (Set.Icc (-1) 1)) fun m hm => ⟨ht, hm⟩
  intro t ht
  refine Metric.tendsto_nhds.2 fun e he => ?_
  have hc := isCompact_Icc (a := (-1 : ℝ)) (b := 1)
  obtain ⟨v, hv, this⟩ := hc.mem_uniformity_of_prod (f := fun s m => G s m) (s := K) (q := t) hG ht (Metric.dist_mem_uniformity (by linarith : 0 < e / 4))
  filter_upwards [hv, self_mem_nhdsWithin] with s hs hsK
  have i1 := (hsec s hsK).intervalIntegrable_of_Icc (μ := volume) (by norm_num : (-1 : ℝ) ≤ 1)
  have i2 := (hsec t ht).intervalIntegrable_of_Icc (μ := volume) (by norm_num : (-1 : ℝ) ≤ 1)
  rw [Real.dist_eq, ← intervalIntegral.integral_sub i1 i2, ← Real.norm_eq_abs]
  refine lt_of_le_of_lt (intervalIntegral.norm_integral_le_of_norm_le_const (C := e / 4) fun m hm => ?_) (by norm_num; linarith)
  have := this s hs m (Set.Ioc_subset_Icc_self (by rwa [Set.uIoc_of_le (by norm_num : (-1 : ℝ) ≤ 1)] at hm))
  rw [Set.mem_ofPred_eq, Real.dist_eq] at this
  exact this.le

/-- The double rule, with the angular ranges chosen by the extreme nodes, tends to the double integral over the configured range as both
numbers of nodes grow. -/
theorem plane_limit {α : Type} [TopologicalSpace α] (half : Bool) (k qmin qmax : ℝ) (D : α → α → ℝ → ℝ → ℝ) (P : ℝ → α)
    (hk : 0 < k) (h0 : 0 < qmin) (hq : qmin ≤ qmax) (hP : ContinuousOn P (Set.Icc qmin qmax))
    (hD : ContinuousOn (fun z : α × α × ℝ × ℝ => D z.1 z.2.1 z.2.2.1 z.2.2.2)
      {z | 0 < z.2.2.1 ∧ 0 < 1 + z.2.2.1 * z.2.2.1 - 2 * z.2.2.2 * z.2.2.1}) (e : ℝ) (he : 0 < e) :
    ∃ N, ∀ nq nm, N ≤ nq → N ≤ nm → ∀ rtq rtm, NearRoots nq rtq → NearRoots nm rtm →
      |planeForm (gaussQ rtq nq qmin qmax) (gsum rtm nm) half (Real.exp (nodeAt rtq (Real.log qmin) (Real.log qmax) nq 0))
        (Real.exp (nodeAt rtq (Real.log qmin) (Real.log qmax) nq (nq - 1))) k D P
        - planeForm (intQ qmin qmax) intMu half qmin qmax k D P| ≤ e := by
  have hq' : 0 < qmax := h0.trans_le hq
  have hlog : Real.log qmin ≤ Real.log qmax := Real.log_le_log h0 hq
  set C0 := k ^ 3 / (4 * Real.pi ^ 2) with hC0
  have hC : 0 < C0 := by positivity
  set L := Real.log qmax - Real.log qmin with hL
  have hL0 : 0 ≤ L := by linarith
  set y := e / (C0 * (22 / 9 * L + 1)) with hy
  have hy0 : 0 < y := by positivity
  have hG := refDens_continuousOn (half := half) hk h0 hq hP hD
  have hK := conf_compact qmin qmax h0
  obtain ⟨N1, hN1⟩ := gsum_uniform _ hK _ hG y hy0
  set H : ℝ × ℝ × ℝ → ℝ := fun p => ∫ m in (-1 : ℝ)..1, refDens half k qmin qmax D P p m with hH
  have hHc : ContinuousOn H (conf qmin qmax) := continuousOn_param _ _ hG
  have hfull : ∀ t ∈ Set.Icc (Real.log qmin) (Real.log qmax), (qmin, qmax, t) ∈ conf qmin qmax := fun t ht =>
    ⟨le_rfl, (Real.log_le_iff_le_exp h0).1 ht.1, (Real.le_log_iff_exp_le hq').1 ht.2, le_rfl⟩
  obtain ⟨N2, hN2⟩ := gsum_tendsto hlog (fun t => H (qmin, qmax, t))
    (hHc.comp (by fun_prop : ContinuousOn (fun t : ℝ => (qmin, qmax, t)) _) hfull) y hy0
  obtain ⟨d, hd, hunif⟩ := Metric.uniformContinuousOn_iff.1 (hK.uniformContinuousOn_of_continuous hHc) y hy0
  obtain ⟨d1, hd1, hexp1⟩ := Metric.continuous_iff.1 Real.continuous_exp (Real.log qmin) d hd
  obtain ⟨d2, hd2, hexp2⟩ := Metric.continuous_iff.1 Real.continuous_exp (Real.log qmax) d hd
  obtain ⟨N3, hN3⟩ := ends_near (Real.log qmin) (Real.log qmax) (min d1 d2 / 2) (by positivity)
  refine ⟨max (max N1 N2) (max N3 1), fun nq nm hnq hnm rtq rtm hrq hrm => ?_⟩
  have hn1 : 1 ≤ nq := by omega
  set a := Real.exp (nodeAt rtq (Real.log qmin) (Real.log qmax) nq 0) with ha
  set b := Real.exp (nodeAt rtq (Real.log qmin) (Real.log qmax) nq (nq - 1)) with hb
  have hconf : ∀ i < nq, (a, b, nodeAt rtq (Real.log qmin) (Real.log qmax) nq i) ∈ conf qmin qmax := fun i hi => by
    have m0 := hrq.node_mem hlog 0 (by omega)
    have m1 := hrq.node_mem hlog (nq - 1) (by omega)
    have bt := hrq.between hlog hi
    exact ⟨(Real.log_le_iff_le_exp h0).1 m0.1, Real.exp_le_exp.2 bt.1, Real.exp_le_exp.2 bt.2, (Real.le_log_iff_exp_le hq').1 m1.2⟩
  have e1 : planeForm (gaussQ rtq nq qmin qmax) (gsum rtm nm) half a b k D P
      = C0 * gsum rtq nq (Real.log qmin) (Real.log qmax) fun t => gsum rtm nm (-1) 1 (refDens half k qmin qmax D P (a, b, t)) := by
    unfold planeForm gaussQ
    congr 1
    unfold gsum
    refine Finset.sum_congr rfl fun i hi => ?_
    congr 1
    exact ref_sum hk h0 hrm (hconf i (Finset.mem_range.1 hi))
  have e2 : planeForm (intQ qmin qmax) intMu half qmin qmax k D P = C0 * ∫ t in Real.log qmin..Real.log qmax, H (qmin, qmax, t) := by
    unfold planeForm intQ
    congr 1
    refine intervalIntegral.integral_congr fun t ht => ?_
    rw [Set.uIcc_of_le hlog] at ht
    exact ref_int hk h0 (hfull t ht)
  have s1 : |gsum rtq nq (Real.log qmin) (Real.log qmax) (fun t => gsum rtm nm (-1) 1 (refDens half k qmin qmax D P (a, b, t)))
      - gsum rtq nq (Real.log qmin) (Real.log qmax) (fun t => H (a, b, t))| ≤ 11 / 9 * L * y :=
    hrq.gsum_near hn1 hlog _ _ y fun i hi => hN1 nm (by omega) rtm hrm _ (hconf i hi)
  obtain ⟨n1, n2⟩ := hN3 nq (by omega) rtq hrq
  have s2 : |gsum rtq nq (Real.log qmin) (Real.log qmax) (fun t => H (a, b, t))
      - gsum rtq nq (Real.log qmin) (Real.log qmax) (fun t => H (qmin, qmax, t))| ≤ 11 / 9 * L * y := by
    refine hrq.gsum_near hn1 hlog _ _ y fun i hi => ?_
    rw [← Real.dist_eq]
    refine (hunif _ (hconf i hi) _ (hfull _ (hrq.node_mem hlog i hi)) ?_).le
    have r1 := hexp1 (nodeAt rtq (Real.log qmin) (Real.log qmax) nq 0) (by
      rw [Real.dist_eq]; refine lt_of_le_of_lt n1 ?_; have := min_le_left d1 d2; linarith)
    have r2 := hexp2 (nodeAt rtq (Real.log qmin) (Real.log qmax) nq (nq - 1)) (by
      rw [Real.dist_eq]; refine lt_of_le_of_lt n2 ?_; have := min_le_right d1 d2; linarith)
    rw [Real.exp_log h0] at r1
    rw [Real.exp_log hq'] at r2
    simp only [Prod.dist_eq, dist_self, max_lt_iff]
    exact ⟨r1, r2, hd⟩
  have s3 := hN2 nq (by omega) rtq hrq
  rw [e1, e2, ← mul_sub, abs_mul, abs_of_pos hC]
  have hle : |gsum rtq nq (Real.log qmin) (Real.log qmax) (fun t => gsum rtm nm (-1) 1 (refDens half k qmin qmax D P (a, b, t)))
      - ∫ t in Real.log qmin..Real.log qmax, H (qmin, qmax, t)| ≤ (22 / 9 * L + 1) * y := by
    rw [abs_le] at s1 s2 s3 ⊢
    constructor <;> linarith [s1.1, s1.2, s2.1, s2.2, s3.1, s3.2]
  calc _ ≤ C0 * ((22 / 9 * L + 1) * y) := by gcongr
    _ = e := by rw [hy]; field_simp

end Verif
