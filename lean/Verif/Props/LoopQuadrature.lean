import Verif.Proofs.Axial
import Verif.Proofs.TameLook
import Verif.Props.AKernel
import Verif.Props.Bias
import Verif.Props.HalfPlane
import Verif.Props.LinMode
import Verif.Props.LoopBispectrum

/-!
# C66: what the double rule approximates

The columns filled by a double loop are one expression in two sums: over the radial nodes and over the angular nodes of the range
chosen by `set_mu_range`.  Here the same expression with integrals in place of the sums is shown to be a loop integral over
Euclidean space.
-/

namespace Verif

open MeasureTheory

/-- The angular functional on a chosen range. -/
def rangeForm (J : ℝ → ℝ → (ℝ → ℝ) → ℝ) : Res (Option (ℝ × ℝ)) → (ℝ → ℝ) → ℝ
  | .ok (some (a, b)), f => J a b f
  | _, _ => 0

/-- The expression computed by the double loops for given radial and angular functionals: `q0` and `q1` are the extreme radial
nodes. -/
noncomputable def planeForm {α : Type} (I : (ℝ → ℝ) → ℝ) (J : ℝ → ℝ → (ℝ → ℝ) → ℝ) (half : Bool) (q0 q1 k : ℝ) (D : α → α → ℝ → ℝ → ℝ)
    (P : ℝ → α) : ℝ :=
  k ^ 3 / (4 * Real.pi ^ 2) * I fun q => (q / k) ^ 3 * rangeForm J (muRange half [q0 / k, q1 / k] 2 (q / k)) fun mu =>
    (if half then 2 else 1) * D (P q) (P (k * Real.sqrt (1 + q / k * (q / k) - 2 * mu * (q / k)))) (q / k) mu

/-- The radial rule: weights for the logarithm of `q`. -/
noncomputable def ruleQ (g : GLQ ℝ) (f : ℝ → ℝ) : ℝ := ∑ iq ∈ Finset.range g.nq, g.w.getD iq 0 * f (g.q.getD iq 0)

/-- The angular rule on a range. -/
noncomputable def ruleMu (gm : GLMu ℝ) (a b : ℝ) (f : ℝ → ℝ) : ℝ :=
  ∑ imu ∈ Finset.range gm.nmu, (updateGLMu gm a b).w.getD imu 0 * f ((updateGLMu gm a b).mu.getD imu 0)

/-- Integration over the logarithm of `q`. -/
noncomputable def intQ (q0 q1 : ℝ) (f : ℝ → ℝ) : ℝ := ∫ t in Real.log q0..Real.log q1, f (Real.exp t)

/-- Integration over the angle. -/
noncomputable def intMu (a b : ℝ) (f : ℝ → ℝ) : ℝ := ∫ mu in a..b, f mu

/-! ## The angular range -/

/-- `set_mu_range` reads the extreme nodes only. -/
theorem muRange_ends (half : Bool) (xs : List ℝ) (n : ℕ) (x : ℝ) (h1 : 1 ≤ n) (hl : xs.length = n) (hn : n < 2 ^ 63) :
    muRange half xs n x = muRange half [xs.getD 0 0, xs.getD (n - 1) 0] 2 x := by
  unfold muRange
  rw [rd_ok (a := xs) (by omega), subSize_eq h1 (by unfold sizeMod; omega), rd_ok (a := xs) (by omega)]
  have g0 : xs[0] = xs.getD 0 0 := by simp [List.getD_eq_getElem?_getD, (by omega : 0 < xs.length)]
  have g1 : xs[n - 1] = xs.getD (n - 1) 0 := by simp [List.getD_eq_getElem?_getD, (by omega : n - 1 < xs.length)]
  rw [g0, g1]
  rfl

/-- The points of the angular range: `k-q` within the extreme nodes, and in half-plane mode not shorter than `q`. -/
theorem range_int (half : Bool) (x0 x1 x : ℝ) (h0 : 0 < x0) (hx0 : x0 ≤ x) (hx1 : x ≤ x1) (f : ℝ → ℝ) :
    rangeForm intMu (muRange half [x0, x1] 2 x) f = ∫ mu in (-1 : ℝ)..1,
      if x0 ≤ Real.sqrt (1 + x * x - 2 * mu * x) ∧ Real.sqrt (1 + x * x - 2 * mu * x) ≤ x1 ∧
        (half = true → x ≤ Real.sqrt (1 + x * x - 2 * mu * x)) then f mu else 0 := by
  have hx : 0 < x := h0.trans_le hx0
  set A := (1 + x * x - x1 * x1) / 2 / x with hA
  set B := (1 + x * x - x0 * x0) / 2 / x with hB
  have eA : 2 * A * x = 1 + x * x - x1 * x1 := by rw [hA]; field_simp
  have eB : 2 * B * x = 1 + x * x - x0 * x0 := by rw [hB]; field_simp
  let C : ℝ := if half && decide (1 / 2 ≤ x) then 1 / 2 / x else min 1 B
  have hC : ∀ mu, -1 ≤ mu → mu ≤ 1 → ((x0 ≤ Real.sqrt (1 + x * x - 2 * mu * x) ∧ Real.sqrt (1 + x * x - 2 * mu * x) ≤ x1 ∧
        (half = true → x ≤ Real.sqrt (1 + x * x - 2 * mu * x))) ↔ max (-1) A ≤ mu ∧ mu ≤ C) := fun mu m0 m1 => by
    have hr : 0 ≤ 1 + x * x - 2 * mu * x := by nlinarith [sq_nonneg (1 - x)]
    rw [Real.le_sqrt' h0, Real.sqrt_le_left (hx.le.trans hx1), Real.le_sqrt' hx]
    have a1 : x0 ^ 2 ≤ 1 + x * x - 2 * mu * x ↔ mu ≤ B := by
      rw [hB, le_div_iff₀ hx, le_div_iff₀ two_pos]
      constructor <;> intro h <;> nlinarith
    have a2 : 1 + x * x - 2 * mu * x ≤ x1 ^ 2 ↔ A ≤ mu := by
      rw [hA, div_le_iff₀ hx, div_le_iff₀ two_pos]
      constructor <;> intro h <;> nlinarith
    have a3 : x ^ 2 ≤ 1 + x * x - 2 * mu * x ↔ mu ≤ 1 / 2 / x := by
      rw [le_div_iff₀ hx]
      constructor <;> intro h <;> nlinarith
    rw [a1, a2, a3, max_le_iff]
    simp only [C]
    by_cases hh : half = true ∧ 1 / 2 ≤ x
    · rw [if_pos (by simpa using hh)]
      have : 1 / 2 / x ≤ B := by
        rw [hB]
        gcongr
        nlinarith
      constructor
      · rintro ⟨b1, b2, b3⟩; exact ⟨⟨m0, b2⟩, b3 hh.1⟩
      · rintro ⟨⟨-, b2⟩, b3⟩; exact ⟨b3.trans this, b2, fun _ => b3⟩
    · rw [if_neg (by simpa using hh), le_min_iff]
      constructor
      · rintro ⟨b1, b2, b3⟩; exact ⟨⟨m0, b2⟩, m1, b1⟩
      · rintro ⟨⟨-, b2⟩, -, b3⟩
        refine ⟨b3, b2, fun h => ?_⟩
        have hx2 : x < 1 / 2 := lt_of_not_ge fun h' => hh ⟨h, h'⟩
        rw [le_div_iff₀ hx]
        nlinarith
  have hlo : -1 ≤ max (-1) A := le_max_left _ _
  have hC1 : C ≤ 1 := by
    simp only [C]
    split_ifs with h
    · simp only [Bool.and_eq_true, decide_eq_true_eq] at h
      rw [div_le_one hx]
      exact h.2
    · exact min_le_left _ _
  have key : (∫ mu in (-1 : ℝ)..1, if x0 ≤ Real.sqrt (1 + x * x - 2 * mu * x) ∧ Real.sqrt (1 + x * x - 2 * mu * x) ≤ x1 ∧
        (half = true → x ≤ Real.sqrt (1 + x * x - 2 * mu * x)) then f mu else 0) = ∫ mu in Set.Icc (max (-1) A) C, f mu := by
    rw [intervalIntegral.integral_of_le (by norm_num), ← integral_Icc_eq_integral_Ioc]
    have : Set.Icc (max (-1) A) C = Set.Icc (-1) 1 ∩ Set.Icc (max (-1) A) C :=
      (Set.inter_eq_right.2 (Set.Icc_subset_Icc hlo hC1)).symm
    rw [this, ← setIntegral_indicator measurableSet_Icc]
    refine setIntegral_congr_fun measurableSet_Icc fun mu hmu => ?_
    show (if _ then _ else _) = Set.indicator _ _ _
    rw [Set.indicator_apply]
    simp only [hC mu hmu.1 hmu.2, Set.mem_Icc]
  rw [key]
  have hm : muRange half [x0, x1] 2 x = if 1 ≤ max (-1) A ∨ min 1 B ≤ -1 ∨ min 1 B ≤ max (-1) A then .ok none else
      .ok (some (max (-1) A, C)) := by
    unfold muRange
    rw [show subSize 2 1 = 1 by decide, rd_ok (by norm_num), rd_ok (by norm_num)]
    simp only [Res.ok_bind, cMax_real, cMin_real, lit_real, List.getElem_cons_zero, List.getElem_cons_succ]
    push_cast
    rw [← hA, ← hB]
    by_cases c : 1 ≤ max (-1) A ∨ min 1 B ≤ -1 ∨ min 1 B ≤ max (-1) A
    · rw [if_pos c, if_pos (by simpa only [Bool.or_eq_true, le_real, or_assoc] using c)]
    · rw [if_neg c, if_neg (by simpa only [Bool.or_eq_true, le_real, or_assoc] using c)]
      simp only [C]
      congr 3
  rw [hm]
  split_ifs with c
  · have hle : C ≤ max (-1) A := by
      simp only [C]
      split_ifs with h
      · simp only [Bool.and_eq_true, decide_eq_true_eq] at h
        have u1 : 1 / 2 / x ≤ 1 := by rw [div_le_one hx]; exact h.2
        have u2 : 1 / 2 / x ≤ B := by
          rw [hB]
          gcongr
          nlinarith
        have u3 : 0 < 1 / 2 / x := by positivity
        rcases c with c | c | c
        · exact u1.trans c
        · have := (le_min u1 u2).trans c
          linarith
        · exact (le_min u1 u2).trans c
      · rcases c with c | c | c
        · exact (min_le_left _ _).trans c
        · exact c.trans hlo
        · exact c
    have : volume (Set.Icc (max (-1) A) C) = 0 := by
      rw [Real.volume_Icc, ENNReal.ofReal_eq_zero]
      linarith
    rw [setIntegral_measure_zero _ this]
    rfl
  · show ∫ mu in _..C, f mu = _
    have hle : max (-1) A ≤ C := by
      push Not at c
      simp only [C]
      split_ifs with h
      · refine max_le (by have : 0 < 1 / 2 / x := by positivity
                          linarith) ?_
        rw [hA]
        gcongr
        nlinarith
      · exact c.2.2.le
    rw [intervalIntegral.integral_of_le hle, integral_Icc_eq_integral_Ioc]

/-! ## The plane integral in space -/

/-- Both `q` and `k-q` are within the range of the rule. -/
def bothIn (k : E3) (q0 q1 : ℝ) : Set E3 := {q | ‖q‖ ∈ qRange q0 q1 ∧ ‖k - q‖ ∈ qRange q0 q1}

theorem bothIn_closed (k : E3) (q0 q1 : ℝ) : IsClosed (bothIn k q0 q1) := by
  have c1 : Continuous fun q : E3 => ‖q‖ := by fun_prop
  have c2 : Continuous fun q : E3 => ‖k - q‖ := by fun_prop
  exact ((isClosed_le continuous_const c1).inter (isClosed_le c1 continuous_const)).inter
    ((isClosed_le continuous_const c2).inter (isClosed_le c2 continuous_const))

theorem bothIn_compact (k : E3) (q0 q1 : ℝ) : IsCompact (bothIn k q0 q1) :=
  Metric.isCompact_of_isClosed_isBounded (bothIn_closed k q0 q1) (Metric.isBounded_closedBall.subset (t := Metric.closedBall 0 q1)
    fun q hq => by rw [mem_closedBall_zero_iff]; exact hq.1.2)

theorem bothIn_symm (k : E3) (q0 q1 : ℝ) (q : E3) : k - q ∈ bothIn k q0 q1 ↔ q ∈ bothIn k q0 q1 := by
  unfold bothIn
  simp only [Set.mem_ofPred_eq, sub_sub_cancel]
  exact and_comm

/-- Cosine of the angle between `k` and `q`. -/
noncomputable def cosOf (k q : E3) : ℝ := inner ℝ k q / (‖k‖ * ‖q‖)

theorem cosOf_mul (k q : E3) (hk : k ≠ 0) (hq : q ≠ 0) : cosOf k q * (‖q‖ / ‖k‖) = inner ℝ k q / ‖k‖ ^ 2 := by
  have h1 := norm_ne_zero_iff.2 hk
  have h2 := norm_ne_zero_iff.2 hq
  unfold cosOf
  field_simp

theorem norm_sub_len (k q : E3) (hk : k ≠ 0) (hq : q ≠ 0) :
    1 + ‖q‖ / ‖k‖ * (‖q‖ / ‖k‖) - 2 * cosOf k q * (‖q‖ / ‖k‖) = (‖k - q‖ / ‖k‖) ^ 2 := by
  have h1 := norm_ne_zero_iff.2 hk
  rw [mul_assoc 2, cosOf_mul k q hk hq, div_pow, norm_sub_sq_real]
  field_simp
  ring

/-- The wavevectors `q` and `k-q` as a pair of lengths and angles. -/
theorem exchanged_vec (k q : E3) (hk : k ≠ 0) (hq : q ≠ 0) (hkq : k - q ≠ 0) :
    Exchanged (‖q‖ / ‖k‖) (cosOf k q) (‖k - q‖ / ‖k‖) (cosOf k (k - q)) where
  x_pos := div_pos (norm_pos_iff.2 hq) (norm_pos_iff.2 hk)
  y_pos := div_pos (norm_pos_iff.2 hkq) (norm_pos_iff.2 hk)
  len := by rw [← norm_sub_len k q hk hq]; ring
  proj := by
    have h1 := norm_ne_zero_iff.2 hk
    rw [mul_comm, cosOf_mul k _ hk hkq, mul_comm, cosOf_mul k q hk hq, inner_sub_right, real_inner_self_eq_norm_sq]
    field_simp

/-- C66: a density over the plane, integrated over the logarithm of `q` and over the angle in the ranges that the code chooses, is
the loop integral over the wavevectors with both `q` and `k-q` within the extreme nodes; in half-plane mode if the density is
symmetric. -/
theorem C66_plane {α : Type} (half : Bool) (D : α → α → ℝ → ℝ → ℝ) (P : ℝ → α) (k : E3) (hk : k ≠ 0) (q0 q1 : ℝ) (h0 : 0 < q0) (h1 : q0 < q1)
    (f : E3 → ℝ) (hf : ∀ q ∈ bothIn k q0 q1, f q = D (P ‖q‖) (P ‖k - q‖) (‖q‖ / ‖k‖) (cosOf k q))
    (hi : IntegrableOn f (bothIn k q0 q1)) (hs : half = true → ExchangeSymm D) :
    planeForm (intQ q0 q1) intMu half q0 q1 ‖k‖ D P = 1 / (2 * Real.pi) ^ 3 * ∫ q in bothIn k q0 q1, f q := by
  have hκ : 0 < ‖k‖ := norm_pos_iff.2 hk
  have hm := (bothIn_closed k q0 q1).measurableSet
  have hne : ∀ q : E3, ‖q‖ ∈ qRange q0 q1 → q ≠ 0 := fun q hq => norm_pos_iff.1 (qRange_pos h0 hq)
  let S' : Set E3 := {q | q ∈ bothIn k q0 q1 ∧ (half = true → ‖q‖ ≤ ‖k - q‖)}
  have hm' : MeasurableSet S' := by
    cases half
    · simpa [S'] using hm
    · have e : S' = bothIn k q0 q1 ∩ {q | ‖q‖ ≤ ‖k - q‖} := by
        ext q
        simp [S']
      rw [e]
      exact hm.inter (measurableSet_le (by fun_prop) (by fun_prop))
  have hsub : S' ⊆ bothIn k q0 q1 := fun q hq => hq.1
  -- half plane
  have hA : ∫ q in bothIn k q0 q1, f q = (if half then 2 else 1) * ∫ q in S', f q := by
    cases half
    · simp [S']
    · have hsym : ∀ q, (bothIn k q0 q1).indicator f (k - q) = (bothIn k q0 q1).indicator f q := fun q => by
        by_cases hq : q ∈ bothIn k q0 q1
        · have hq' := (bothIn_symm k q0 q1 q).2 hq
          rw [Set.indicator_of_mem hq, Set.indicator_of_mem hq', hf q hq, hf _ hq', sub_sub_cancel]
          exact (hs rfl _ _ _ _ _ _ (exchanged_vec k q hk (hne q hq.1) (hne _ hq.2))).symm
        · rw [Set.indicator_of_notMem hq, Set.indicator_of_notMem fun h => hq ((bothIn_symm k q0 q1 q).1 h)]
      have h := (two_parts ((bothIn k q0 q1).indicator f) k hk Set.univ hsym (by
        simpa using (integrable_indicator_iff hm).2 hi)).2
      simp only [Set.mem_univ, Set.ofPred_true, Set.indicator_univ, true_and] at h
      rw [integral_indicator hm] at h
      rw [if_pos rfl, h, ← integral_indicator hm']
      congr 1
      refine integral_congr_ae ?_
      filter_upwards [ae_norm_ne 0 k hk.symm] with q hn
      rw [zero_sub, norm_neg] at hn
      have hmem : q ∈ S' ↔ q ∈ bothIn k q0 q1 ∧ ‖q‖ < ‖k - q‖ := by
        simp only [S', Set.mem_ofPred_eq, true_imp_iff, hn.le_iff_lt]
      by_cases hq : ‖q‖ < ‖k - q‖
      · rw [if_pos hq]
        by_cases hb : q ∈ bothIn k q0 q1
        · rw [Set.indicator_of_mem hb, Set.indicator_of_mem (hmem.2 ⟨hb, hq⟩)]
        · rw [Set.indicator_of_notMem hb, Set.indicator_of_notMem fun h => hb (hmem.1 h).1]
      · rw [if_neg hq, Set.indicator_of_notMem fun h => hq (hmem.1 h).2]
  -- the integrand in polar coordinates
  let s : ℝ → ℝ → ℝ := fun r mu => ‖k‖ * Real.sqrt (1 + r / ‖k‖ * (r / ‖k‖) - 2 * mu * (r / ‖k‖))
  let F : ℝ → ℝ → ℝ := fun r mu => if q0 ≤ s r mu ∧ s r mu ≤ q1 ∧ (half = true → r ≤ s r mu) then D (P r) (P (s r mu)) (r / ‖k‖) mu else 0
  have hsv : ∀ q, ‖q‖ ∈ qRange q0 q1 → s ‖q‖ (cosOf k q) = ‖k - q‖ := fun q hq => by
    simp only [s]
    rw [norm_sub_len k q hk (hne q hq), Real.sqrt_sq (by positivity)]
    field_simp
  have hF : ∀ q, ‖q‖ ∈ qRange q0 q1 → F ‖q‖ (cosOf k q) = S'.indicator f q := fun q hq => by
    simp only [F, hsv q hq]
    have hmem : q ∈ S' ↔ q0 ≤ ‖k - q‖ ∧ ‖k - q‖ ≤ q1 ∧ (half = true → ‖q‖ ≤ ‖k - q‖) :=
      ⟨fun h => ⟨h.1.2.1, h.1.2.2, h.2⟩, fun h => ⟨⟨hq, h.1, h.2.1⟩, h.2.2⟩⟩
    split_ifs with h
    · rw [Set.indicator_of_mem (hmem.2 h), hf q ⟨hq, h.1, h.2.1⟩]
    · rw [Set.indicator_of_notMem fun h' => h (hmem.1 h')]
  have hB : ∫ q in S', f q = ∫ q in {q : E3 | q0 ≤ ‖q‖ ∧ ‖q‖ ≤ q1}, F ‖q‖ (inner ℝ k q / (‖k‖ * ‖q‖)) := by
    rw [show (∫ q in {q : E3 | q0 ≤ ‖q‖ ∧ ‖q‖ ≤ q1}, F ‖q‖ (inner ℝ k q / (‖k‖ * ‖q‖))) = _ from
      setIntegral_congr_fun (shell_measurable q0 q1) (g := S'.indicator f) fun q hq => hF q hq, setIntegral_indicator hm']
    congr 2
    exact (Set.inter_eq_right.2 fun q hq => hq.1.1).symm
  have hint : IntegrableOn (fun q : E3 => F ‖q‖ (inner ℝ k q / (‖k‖ * ‖q‖))) {q : E3 | q0 ≤ ‖q‖ ∧ ‖q‖ ≤ q1} := by
    refine IntegrableOn.congr_fun (f := S'.indicator f) ?_ (fun q hq => (hF q hq).symm) (shell_measurable q0 q1)
    exact ((integrable_indicator_iff hm').2 (hi.mono_set hsub)).integrableOn
  rw [hA, hB, integral_axis_dir F k hk q0 q1 h0 h1 hint]
  -- the radial integral
  unfold planeForm intQ
  have hR : ∀ r, q0 ≤ r → r ≤ q1 → rangeForm intMu (muRange half [q0 / ‖k‖, q1 / ‖k‖] 2 (r / ‖k‖)) (fun mu =>
      (if half then 2 else 1) * D (P r) (P (‖k‖ * Real.sqrt (1 + r / ‖k‖ * (r / ‖k‖) - 2 * mu * (r / ‖k‖)))) (r / ‖k‖) mu)
      = (if half then 2 else 1) * ∫ mu in (-1 : ℝ)..1, F r mu := fun r r0 r1 => by
    rw [range_int half _ _ _ (div_pos h0 hκ) (by gcongr) (by gcongr), ← intervalIntegral.integral_const_mul]
    refine intervalIntegral.integral_congr fun mu _ => ?_
    simp only [F, s, mul_ite, mul_zero, div_le_iff₀' hκ, le_div_iff₀' hκ]
  have e : ∫ t in Real.log q0..Real.log q1, (Real.exp t / ‖k‖) ^ 3 * rangeForm intMu (muRange half [q0 / ‖k‖, q1 / ‖k‖] 2 (Real.exp t / ‖k‖))
      (fun mu => (if half then 2 else 1) * D (P (Real.exp t))
        (P (‖k‖ * Real.sqrt (1 + Real.exp t / ‖k‖ * (Real.exp t / ‖k‖) - 2 * mu * (Real.exp t / ‖k‖)))) (Real.exp t / ‖k‖) mu)
      = ∫ t in Real.log q0..Real.log q1, (fun r => (if half then 2 else 1) / ‖k‖ ^ 3 * (r ^ 2 * ∫ mu in (-1 : ℝ)..1, F r mu)) (Real.exp t) * Real.exp t := by
    refine intervalIntegral.integral_congr fun t ht => ?_
    rw [Set.uIcc_of_le (Real.log_le_log h0 h1.le)] at ht
    beta_reduce
    rw [hR _ ((Real.log_le_iff_le_exp h0).1 ht.1) ((Real.le_log_iff_exp_le (h0.trans h1)).1 ht.2)]
    field_simp
  rw [e, integral_exp (fun r => (if half then 2 else 1) / ‖k‖ ^ 3 * (r ^ 2 * ∫ mu in (-1 : ℝ)..1, F r mu)) q0 q1 h0 h1,
    intervalIntegral.integral_const_mul]
  have := Real.pi_ne_zero
  field_simp
  ring

/-- The sums of the code are that expression with the rules in place of the integrals. -/
theorem planeSum_form {α : Type} {half : Bool} {g : GLQ ℝ} {gm : GLMu ℝ} {k : ℝ} {D : α → α → ℝ → ℝ → ℝ} {P : ℝ → α} {Q R : ℕ → ℕ → α} {v : ℝ}
    (h1 : 1 ≤ g.nq) (hn : g.nq < 2 ^ 63) (hl : g.q.length = g.nq) (hQ : ∀ iq imu, UsedPoint half g gm k iq imu → Q iq imu = P (g.q.getD iq 0))
    (hR : ∀ iq imu, UsedPoint half g gm k iq imu → R iq imu = P (kqOf half g gm k iq imu)) (hv : PlaneSum half g gm k D Q R v) :
    v = planeForm (ruleQ g) (ruleMu gm) half (g.q.getD 0 0) (g.q.getD (g.nq - 1) 0) k D P := by
  rw [hv]
  unfold planeForm ruleQ
  congr 1
  refine Finset.sum_congr rfl fun iq hiq => ?_
  rw [Finset.mem_range] at hiq
  have hx : ∀ j < g.nq, (updateGLQ g k).x.getD j 0 = g.q.getD j 0 / k := fun j hj => by
    simp [updateGLQ, List.getD_eq_getElem?_getD, hl, hj]
  have hr : muRange half (updateGLQ g k).x (updateGLQ g k).nq ((updateGLQ g k).x.getD iq 0)
      = muRange half [g.q.getD 0 0 / k, g.q.getD (g.nq - 1) 0 / k] 2 (g.q.getD iq 0 / k) := by
    rw [show (updateGLQ g k).nq = g.nq from rfl, muRange_ends half _ g.nq _ h1 (by simp [updateGLQ, hl]) hn, hx iq hiq, hx 0 (by omega),
      hx (g.nq - 1) (by omega)]
  beta_reduce
  rcases hmr : muRange half [g.q.getD 0 0 / k, g.q.getD (g.nq - 1) 0 / k] 2 (g.q.getD iq 0 / k) with (_ | ⟨a, b⟩) | _
  · have hq : quadRange half (updateGLQ g k) iq = none := by unfold quadRange; rw [hr, hmr]
    simp [rangeForm, quadWeight, hq]
  · have hq : quadRange half (updateGLQ g k) iq = some (a, b) := by unfold quadRange; rw [hr, hmr]
    simp only [rangeForm, ruleMu]
    rw [Finset.mul_sum, Finset.mul_sum]
    refine Finset.sum_congr rfl fun imu himu => ?_
    rw [Finset.mem_range] at himu
    have hu : UsedPoint half g gm k iq imu := ⟨hiq, himu, by rw [hq]; simp⟩
    rw [hQ iq imu hu, hR iq imu hu]
    simp only [kqOf, quadMu, quadWeight, hq, hx iq hiq]
    rw [show (updateGLQ g k).w = g.w from rfl]
    ring
  · have hq : quadRange half (updateGLQ g k) iq = none := by unfold quadRange; rw [hr, hmr]
    simp [rangeForm, quadWeight, hq]

/-! ## The rules of the runs -/

theorem mapM_ok {f : ℝ → Res ℝ} {P : ℝ → ℝ} (h : ∀ k, f k = .ok (P k)) (l : List ℝ) : l.mapM f = .ok (l.map P) := by
  induction l with
  | nil => rfl
  | cons a l ih => rw [List.mapM_cons, h, ih]; rfl

/-- Settings of a double rule: at least two radial nodes, a range, and ascending roots. -/
structure Env.DoubleRule (e : Env) (pq pm : PName) : Prop where
  phys : e.t.Physical
  two : 2 ≤ e.t.nk
  range : RangeProper (e.cfg.prec pq)
  nodes : 2 ≤ (e.cfg.prec pq).n
  sizeq : (e.cfg.prec pq).n < 2 ^ 63
  sizem : (e.cfg.prec pm).n < 2 ^ 63
  rootsq : RootsOrdered (e.rt (e.cfg.prec pq).n) (e.cfg.prec pq).n
  rootsm : RootsOrdered (e.rt (e.cfg.prec pm).n) (e.cfg.prec pm).n
  polyq : (e.cfg.prec pq).interpol = .poly
  polym : (e.cfg.prec pm).interpol = .poly

/-- The tables of such a rule: ascending positive nodes carrying the spectrum. -/
theorem Env.DoubleRule.tab {e : Env} {pq pm : PName} (he : e.DoubleRule pq pm) {g : GLQ ℝ} {gm : GLMu ℝ} (hg : e.tabQ pq = .ok g)
    (hgm : e.tabMu pm = .ok gm) {P : ℝ → ℝ} (hP : ∀ k, look e.t .poly k = .ok (P k)) :
    2 ≤ g.nq ∧ g.nq < 2 ^ 63 ∧ g.q.length = g.nq ∧ 0 < g.q.getD 0 0 ∧ g.q.getD 0 0 < g.q.getD (g.nq - 1) 0 ∧
      ∀ iq < g.nq, g.pk.getD iq 0 = P (g.q.getD iq 0) := by
  have hr := posRule_init he.phys he.two he.range he.sizeq he.rootsq hg he.sizem he.rootsm hgm
  obtain ⟨a, b, pk, h1, h2, hgv⟩ := initGLQ_ok he.sizeq hg
  have hnq : g.nq = (e.cfg.prec pq).n := by rw [hgv]
  have hn2 : 2 ≤ g.nq := by rw [hnq]; exact he.nodes
  have hl := hr.len
  refine ⟨hn2, hr.size, hl, ?_, ?_, ?_⟩
  · rw [getD_eq (by omega)]
    exact hr.pos _ (List.getElem_mem _)
  · rw [getD_eq (by omega), getD_eq (by omega)]
    exact List.pairwise_iff_getElem.mp hr.asc 0 (g.nq - 1) (by omega) (by omega) (by omega)
  · have hpk : findPk e.t g.q .poly = .ok g.pk := by
      rw [he.polyq] at h2
      rw [hgv]
      exact h2
    rw [findPk_ascending e.t he.phys.toIncreasing (by have := he.two; omega) .poly g.q (hr.asc.imp le_of_lt),
      mapM_ok (P := P) (fun k => by rw [← look_lookup e.t he.phys.toIncreasing (by have := he.two; omega), hP]), Res.ok.injEq] at hpk
    intro iq hiq
    rw [← hpk]
    simp [List.getD_eq_getElem?_getD, hl, hiq]

/-! ## The second-order term -/

/-- The standard integrand of the second-order term. -/
noncomputable def specTree (P : ℝ → ℝ) (a b : Field) (k q : Vec) : ℝ :=
  2 * sptSym2 a q (k - q) * sptSym2 b q (k - q) * P q.modulus * P (k - q).modulus

theorem toVec_dot (p q : E3) : (toVec p).dot (toVec q) = inner ℝ p q := by
  rw [PiLp.inner_apply, Fin.sum_univ_three]
  simp only [Vec.dot, toVec, RCLike.inner_apply, conj_trivial]
  ring

theorem toVec_cosine (p q : E3) : (toVec p).cosine (toVec q) = cosOf p q := by
  unfold Vec.cosine cosOf
  rw [toVec_dot, toVec_modulus, toVec_modulus]

theorem toVec_dot_ne {p : E3} (h : p ≠ 0) : (toVec p).dot (toVec p) ≠ 0 := by
  rw [toVec_dot, real_inner_self_eq_norm_sq]
  exact pow_ne_zero 2 (norm_ne_zero_iff.2 h)

/-- The second-order kernel in terms of the three lengths. -/
theorem gamma2Tree_vec (a : Field) (k q : E3) (hq : q ≠ 0) (hkq : k - q ≠ 0) :
    gamma2Tree a ‖k - q‖ ‖q‖ ‖k‖ = sptSym2 a (toVec q) (toVec k - toVec q) := by
  rw [C26_gamma2_tree, ← toVec_sub, ← C17_F2_spt a _ _ (toVec_dot_ne hq) (toVec_dot_ne hkq)]
  unfold gamma2Tree F2Full
  simp only [toVec_dot]
  rw [real_inner_self_eq_norm_sq, real_inner_self_eq_norm_sq, inner_sub_right, real_inner_self_eq_norm_sq, ← sq, ← sq, ← sq, norm_sub_sq_real k q,
    real_inner_comm]
  congr 1
  ring

theorem len_vec (k q : E3) (hk : k ≠ 0) (hq : q ≠ 0) :
    ‖k‖ * Real.sqrt (1 + ‖q‖ / ‖k‖ * (‖q‖ / ‖k‖) - 2 * cosOf k q * (‖q‖ / ‖k‖)) = ‖k - q‖ := by
  have := norm_pos_iff.2 hk
  rw [norm_sub_len k q hk hq, Real.sqrt_sq (by positivity)]
  field_simp

theorem mul_len (k q : E3) (hk : k ≠ 0) : ‖k‖ * (‖q‖ / ‖k‖) = ‖q‖ := by
  have := norm_ne_zero_iff.2 hk
  field_simp

theorem densTree_vec (P : ℝ → ℝ) (a b : Field) (k q : E3) (hk : k ≠ 0) (hq : q ≠ 0) (hkq : k - q ≠ 0) :
    specTree P a b (toVec k) (toVec q) = densTree a b ‖k‖ (P ‖q‖) (P ‖k - q‖) (‖q‖ / ‖k‖) (cosOf k q) := by
  unfold specTree densTree
  rw [len_vec k q hk hq, mul_len k q hk, gamma2Tree_vec a k q hq hkq, gamma2Tree_vec b k q hq hkq, ← toVec_sub, toVec_modulus,
    toVec_modulus]
  ring

/-- A product of two lookups times a continuous function is integrable over the region. -/
theorem pair_integrable (P : ℝ → ℝ) (hP : Tame P) (k : E3) (q0 q1 : ℝ) (h0 : 0 < q0) (g : E3 → ℝ) (hg : ContinuousOn g (bothIn k q0 q1)) :
    IntegrableOn (fun q => g q * (P ‖q‖ * P ‖k - q‖)) (bothIn k q0 q1) ∧ IntegrableOn (fun q => g q * (P ‖q‖ * P ‖q‖)) (bothIn k q0 q1) ∧
      IntegrableOn (fun q => g q * P ‖q‖) (bothIn k q0 q1) := by
  have hK := bothIn_compact k q0 q1
  obtain ⟨m1, B1, b1⟩ := hP.along _ hK (fun q => q) continuous_id q0 h0 fun q hq => hq.1.1
  obtain ⟨m2, B2, b2⟩ := hP.along _ hK (fun q => k - q) (by fun_prop) q0 h0 fun q hq => hq.2.1
  refine ⟨?_, ?_, integrableOn_bdd_mul _ hK _ g m1 B1 b1 hg⟩
  · refine integrableOn_bdd_mul _ hK _ g (m1.mul m2) (B1 * B2) (fun q hq => ?_) hg
    rw [abs_mul]
    exact mul_le_mul (b1 q hq) (b2 q hq) (abs_nonneg _) ((abs_nonneg _).trans (b1 q hq))
  · refine integrableOn_bdd_mul _ hK _ g (m1.mul m1) (B1 * B1) (fun q hq => ?_) hg
    rw [abs_mul]
    exact mul_le_mul (b1 q hq) (b1 q hq) (abs_nonneg _) ((abs_nonneg _).trans (b1 q hq))

theorem bothIn_ne {k : E3} {q0 q1 : ℝ} (h0 : 0 < q0) : ∀ q ∈ bothIn k q0 q1, q ≠ 0 ∧ k - q ≠ 0 := fun _ hq =>
  ⟨norm_pos_iff.1 (qRange_pos h0 hq.1), norm_pos_iff.1 (qRange_pos h0 hq.2)⟩

theorem sptSym2_bothIn (a : Field) (k : E3) (q0 q1 : ℝ) (h0 : 0 < q0) :
    ContinuousOn (fun q => sptSym2 a (toVec q) (toVec k - toVec q)) (bothIn k q0 q1) :=
  sptSym2_continuousOn a _ (fun q => q) (fun q => k - q) continuous_id (by fun_prop) (fun q hq => (bothIn_ne h0 q hq).1)
    fun q hq => (bothIn_ne h0 q hq).2

/-- C66: for any spectrum, the expression of the second-order term with integrals in place of sums is the loop integral. -/
theorem C66_tree (P : ℝ → ℝ) (hP : Tame P) (a b : Field) (k : E3) (hk : k ≠ 0) (q0 q1 : ℝ) (h0 : 0 < q0) (h1 : q0 < q1) :
    planeForm (intQ q0 q1) intMu true q0 q1 ‖k‖ (densTree a b ‖k‖) P
      = 1 / (2 * Real.pi) ^ 3 * ∫ q in bothIn k q0 q1, specTree P a b (toVec k) (toVec q) := by
  refine C66_plane true _ P k hk q0 q1 h0 h1 _ (fun q hq => densTree_vec P a b k q hk (bothIn_ne h0 q hq).1 (bothIn_ne h0 q hq).2) ?_
    fun _ => densTree_symm a b _
  refine (pair_integrable P hP k q0 q1 h0 (fun q => 2 * sptSym2 a (toVec q) (toVec k - toVec q) * sptSym2 b (toVec q) (toVec k - toVec q)) ?_).1.congr_fun
    (fun q _ => ?_) (bothIn_closed k q0 q1).measurableSet
  · exact (continuousOn_const.mul (sptSym2_bothIn a k q0 q1 h0)).mul (sptSym2_bothIn b k q0 q1 h0)
  · show _ = specTree _ _ _ _ _
    unfold specTree
    rw [toVec_modulus, show (toVec k - toVec q).modulus = ‖k - q‖ from toVec_modulus (k - q)]
    ring

/-- C66, `Spectrum1Loop`: the stored second-order column is the double rule, and what the rule approximates is the loop integral. -/
theorem C66_one_loop {e : Env} (he : e.DoubleRule .gamma2_tree_q .gamma2_tree_mu) {a b : Field} {es : List Event} {μ ν : Mem}
    (hμ : Room 6 e.ks.length μ) (hes : Schedule 3 e.ks.length es) (h : runTerms1 e a b es μ = .ok ν) {ik : ℕ} (hik : ik < e.ks.length)
    (hk : 0 < e.ks[ik]) :
    ∃ g gm P v, e.tabQ .gamma2_tree_q = .ok g ∧ e.tabMu .gamma2_tree_mu = .ok gm ∧ (∀ k, look e.t .poly k = .ok (P k)) ∧
      ν.at (cellOf cls1 "pk_gamma2_tree_tree" ik) = some (some v) ∧
      v = planeForm (ruleQ g) (ruleMu gm) true (g.q.getD 0 0) (g.q.getD (g.nq - 1) 0) e.ks[ik] (densTree a b e.ks[ik]) P ∧
      ∀ k : E3, ‖k‖ = e.ks[ik] →
        planeForm (intQ (g.q.getD 0 0) (g.q.getD (g.nq - 1) 0)) intMu true (g.q.getD 0 0) (g.q.getD (g.nq - 1) 0) e.ks[ik]
          (densTree a b e.ks[ik]) P
        = 1 / (2 * Real.pi) ^ 3 * ∫ q in bothIn k (g.q.getD 0 0) (g.q.getD (g.nq - 1) 0), specTree P a b (toVec k) (toVec q) := by
  obtain ⟨P, hP, hT⟩ := tame_look e.t he.phys he.two
  obtain ⟨g, gm, R, v, hg, hgm, hc, -, hR, hv⟩ := C26_run_one_loop hμ hes h hik hk.ne'
  obtain ⟨n2, n1, hl, h0, h1, hpk⟩ := he.tab hg hgm hP
  refine ⟨g, gm, P, v, hg, hgm, hP, hc, ?_, fun k hk' => ?_⟩
  · refine planeSum_form (by omega) n1 hl (fun iq imu hu => hpk iq hu.1) (fun iq imu hu => ?_) hv
    have := hR iq imu hu
    rw [he.polym, hP, Res.ok.injEq] at this
    exact this.symm
  · rw [← hk']
    exact C66_tree P hT a b k (norm_pos_iff.1 (hk' ▸ hk)) _ _ h0 h1

/-! ## Bias -/

theorem densBias_vec (P : ℝ → ℝ) (a : Field) (b : BiasTerm) (k q : E3) (hk : k ≠ 0) (hq : q ≠ 0) (hkq : k - q ≠ 0) (t : Pk ℝ)
    (ht : ∀ k, look t .poly k = .ok (P k)) :
    specBias P a (toVec k) (toVec q) b = densBias (biasCode b) a ‖k‖ (P ‖q‖) (P ‖k - q‖) (‖q‖ / ‖k‖) (cosOf k q) := by
  have h := C60_integrand t .poly P a b (toVec k) (toVec q) (toVec_dot_ne hk) (toVec_dot_ne hq) (toVec_dot_ne (p := k - q) hkq)
    ⟨1, ‖k‖, [‖q‖ / ‖k‖], [‖q‖], [1], [P ‖q‖]⟩ 0 (by rw [toVec_modulus]) (by rw [toVec_modulus]; rfl)
    (by rw [toVec_modulus, toVec_modulus]; rfl) (by rw [toVec_modulus]; rfl) (ht _)
  have hl := len_vec k q hk hq
  unfold kernelPkBias at h
  rw [rd_ok (by simp), rd_ok (by simp), rd_ok (by simp)] at h
  simp only [Res.ok_bind, List.getElem_cons_zero, toVec_cosine, ht, Res.ok.injEq] at h
  have h' := congrFun h ()
  rw [← h', hl]
  unfold densBias
  rw [hl, mul_len k q hk]

theorem specS2_bothIn (k : E3) (q0 q1 : ℝ) (h0 : 0 < q0) :
    ContinuousOn (fun q => specS2 (toVec q) (toVec k - toVec q)) (bothIn k q0 q1) := by
  have h : ∀ q ∈ bothIn k q0 q1, specS2 (toVec q) (toVec k - toVec q) = (inner ℝ q (k - q) / (‖q‖ * ‖k - q‖)) ^ 2 - 1 / 3 := fun q _ => by
    unfold specS2
    rw [← toVec_sub, toVec_cosine]
    rfl
  refine ContinuousOn.congr ?_ h
  have n : ∀ q ∈ bothIn k q0 q1, ‖q‖ * ‖k - q‖ ≠ 0 := fun q hq => mul_ne_zero (norm_ne_zero_iff.2 (bothIn_ne h0 q hq).1)
    (norm_ne_zero_iff.2 (bothIn_ne h0 q hq).2)
  have c1 : Continuous fun q : E3 => inner ℝ q (k - q) := by fun_prop
  have c2 : Continuous fun q : E3 => ‖q‖ * ‖k - q‖ := by fun_prop
  exact ((c1.continuousOn.div c2.continuousOn n).pow 2).sub continuousOn_const

theorem specD2_bothIn (k : E3) (hk : k ≠ 0) (q0 q1 : ℝ) (h0 : 0 < q0) :
    ContinuousOn (fun q => specD2 (toVec q) (toVec k)) (bothIn k q0 q1) := by
  have h : ∀ q ∈ bothIn k q0 q1, specD2 (toVec q) (toVec k) = -(2 / 7) * (1 - (inner ℝ q k / (‖q‖ * ‖k‖)) ^ 2) := fun q _ => by
    unfold specD2
    rw [toVec_cosine]
    rfl
  refine ContinuousOn.congr ?_ h
  have n : ∀ q ∈ bothIn k q0 q1, ‖q‖ * ‖k‖ ≠ 0 := fun q hq => mul_ne_zero (norm_ne_zero_iff.2 (bothIn_ne h0 q hq).1) (norm_ne_zero_iff.2 hk)
  have c1 : Continuous fun q : E3 => inner ℝ q k := by fun_prop
  have c2 : Continuous fun q : E3 => ‖q‖ * ‖k‖ := by fun_prop
  exact continuousOn_const.mul (continuousOn_const.sub ((c1.continuousOn.div c2.continuousOn n).pow 2))

theorem specBias_integrable (P : ℝ → ℝ) (hP : Tame P) (a : Field) (b : BiasTerm) (k : E3) (hk : k ≠ 0) (q0 q1 : ℝ) (h0 : 0 < q0) :
    IntegrableOn (fun q => specBias P a (toVec k) (toVec q) b) (bothIn k q0 q1) := by
  have hm := (bothIn_closed k q0 q1).measurableSet
  have cF := sptSym2_bothIn a k q0 q1 h0
  have cS := specS2_bothIn k q0 q1 h0
  have cD := specD2_bothIn k hk q0 q1 h0
  have key : ∀ u v w : E3 → ℝ, ContinuousOn u (bothIn k q0 q1) → ContinuousOn v (bothIn k q0 q1) → ContinuousOn w (bothIn k q0 q1) →
      IntegrableOn (fun q => u q * (P ‖q‖ * P ‖k - q‖) + v q * (P ‖q‖ * P ‖q‖) + w q * P ‖q‖) (bothIn k q0 q1) := fun u v w hu hv hw =>
    (((pair_integrable P hP k q0 q1 h0 u hu).1).add ((pair_integrable P hP k q0 q1 h0 v hv).2.1)).add (pair_integrable P hP k q0 q1 h0 w hw).2.2
  have m2 : ∀ q, (toVec k - toVec q).modulus = ‖k - q‖ := fun q => by rw [← toVec_sub, toVec_modulus]
  have c0 : ContinuousOn (fun _ : E3 => (0 : ℝ)) (bothIn k q0 q1) := continuousOn_const
  cases b <;> simp only [specBias, toVec_modulus, m2]
  · refine (key _ _ _ cF c0 c0).congr_fun (fun q _ => ?_) hm
    ring
  · refine (key _ _ _ (cF.mul cS) c0 c0).congr_fun (fun q _ => ?_) hm
    simp only [Pi.mul_apply]
    ring
  · refine (key (fun _ => 1 / 2) (fun _ => -(1 / 2)) _ continuousOn_const continuousOn_const c0).congr_fun (fun q _ => ?_) hm
    ring
  · refine (key _ (fun _ => -(1 / 3)) _ ((continuousOn_const (c := (1 / 2 : ℝ))).mul cS) continuousOn_const c0).congr_fun (fun q _ => ?_) hm
    simp only [Pi.mul_apply]
    ring
  · refine (key _ (fun _ => -(2 / 9)) _ ((continuousOn_const (c := (1 / 2 : ℝ))).mul (cS.pow 2)) continuousOn_const c0).congr_fun (fun q _ => ?_) hm
    simp only [Pi.mul_apply, Pi.pow_apply]
    ring
  · refine (key _ _ _ c0 c0 ((continuousOn_const (c := (105 / 16 : ℝ))).mul ((cD.mul cS).add (continuousOn_const (c := (8 / 63 : ℝ)))))).congr_fun
      (fun q _ => ?_) hm
    simp only [Pi.mul_apply, Pi.add_apply]
    ring

/-- Whether the column of a bias term uses the half plane. -/
def biasHalf : BiasTerm → Bool
  | .b2 => true
  | .bs2 => true
  | _ => false

/-- C66: the same for the six bias terms, over the half plane or the whole plane. -/
theorem C66_bias (t : Pk ℝ) (P : ℝ → ℝ) (ht : ∀ k, look t .poly k = .ok (P k)) (hP : Tame P) (a : Field) (b : BiasTerm) (k : E3) (hk : k ≠ 0)
    (q0 q1 : ℝ) (h0 : 0 < q0) (h1 : q0 < q1) :
    planeForm (intQ q0 q1) intMu (biasHalf b) q0 q1 ‖k‖ (densBias (biasCode b) a ‖k‖) P
      = 1 / (2 * Real.pi) ^ 3 * ∫ q in bothIn k q0 q1, specBias P a (toVec k) (toVec q) b := by
  refine C66_plane _ _ P k hk q0 q1 h0 h1 _ (fun q hq => densBias_vec P a b k q hk (bothIn_ne h0 q hq).1 (bothIn_ne h0 q hq).2 t ht)
    (specBias_integrable P hP a b k hk q0 q1 h0) fun h => ?_
  cases b
  · exact densBias_symm (fun a q kq mu nu m pq pkq => (C26_bias a q kq mu nu m pq pkq).1) a _
  · exact densBias_symm (fun a q kq mu nu m pq pkq => (C26_bias a q kq mu nu m pq pkq).2) a _
  all_goals exact absurd h (by decide)

/-- The bias term of a column. -/
def biasTermOf : Fin 8 → BiasTerm := ![.b2, .bs2, .b2, .bs2, .b22, .b2s2, .bs22, .sigma3sq]

/-- The field of a column. -/
def biasFieldOf : Fin 8 → Field := ![.delta, .delta, .theta, .theta, .delta, .delta, .delta, .delta]

/-- C66, `Bias1Loop`: every stored column is the double rule, and what the rule approximates is the loop integral. -/
theorem C66_run_bias {e : Env} (he : e.DoubleRule .bias_1loop_q .bias_1loop_mu) {es : List Event} {μ ν : Mem} (hμ : Room 11 e.ks.length μ)
    (hes : Schedule 8 e.ks.length es) (h : runTermsBias e es μ = .ok ν) {ik : ℕ} (hik : ik < e.ks.length) (hk : 0 < e.ks[ik]) :
    ∃ g gm P, e.tabQ .bias_1loop_q = .ok g ∧ e.tabMu .bias_1loop_mu = .ok gm ∧ (∀ k, look e.t .poly k = .ok (P k)) ∧ ∀ c : Fin 8, ∃ v,
      ν.at (cellOf clsBias (biasCol c).1 ik) = some (some v) ∧
      v = planeForm (ruleQ g) (ruleMu gm) (biasHalf (biasTermOf c)) (g.q.getD 0 0) (g.q.getD (g.nq - 1) 0) e.ks[ik]
        (densBias (biasCode (biasTermOf c)) (biasFieldOf c) e.ks[ik]) P ∧
      ∀ k : E3, ‖k‖ = e.ks[ik] →
        planeForm (intQ (g.q.getD 0 0) (g.q.getD (g.nq - 1) 0)) intMu (biasHalf (biasTermOf c)) (g.q.getD 0 0) (g.q.getD (g.nq - 1) 0) e.ks[ik]
          (densBias (biasCode (biasTermOf c)) (biasFieldOf c) e.ks[ik]) P
        = 1 / (2 * Real.pi) ^ 3 * ∫ q in bothIn k (g.q.getD 0 0) (g.q.getD (g.nq - 1) 0),
          specBias P (biasFieldOf c) (toVec k) (toVec q) (biasTermOf c) := by
  obtain ⟨P, hP, hT⟩ := tame_look e.t he.phys he.two
  obtain ⟨g, gm, hg, hgm, hcol⟩ := C26_run_bias hμ hes h hik hk.ne'
  obtain ⟨n2, n1, hl, h0, h1, hpk⟩ := he.tab hg hgm hP
  refine ⟨g, gm, P, hg, hgm, hP, fun c => ?_⟩
  obtain ⟨half, R, v, hc, hh, -, hR, hv⟩ := hcol c
  have e1 : half = biasHalf (biasTermOf c) := by
    rw [Bool.eq_iff_iff, ← not_iff_not, Bool.not_eq_true, hh, Bool.not_eq_true]
    clear hc hh hv hR hcol
    fin_cases c <;> decide
  have e2 : (biasCol c).2.1 = biasFieldOf c := by clear hc hh hv hR hcol; fin_cases c <;> rfl
  have e3 : (biasCol c).2.2.1 = biasCode (biasTermOf c) := by clear hc hh hv hR hcol e2; fin_cases c <;> rfl
  rw [e1] at hR hv
  rw [e2, e3] at hv
  refine ⟨v, hc, ?_, fun k hk' => ?_⟩
  · refine planeSum_form (by omega) n1 hl (fun iq imu hu => hpk iq hu.1) (fun iq imu hu => ?_) hv
    have := hR iq imu hu
    rw [he.polym, hP, Res.ok.injEq] at this
    exact this.symm
  · rw [← hk']
    exact C66_bias e.t P hP hT _ _ k (norm_pos_iff.1 (hk' ▸ hk)) _ _ h0 h1

/-! ## Concrete cases -/

/-- The default settings with five tabulated modes. -/
theorem exEnv_rule {rt : ℕ → ℕ → ℝ × ℝ} (hrt : ∀ n, n < 2 ^ 63 → RootsOrdered (rt n) n) (pq pm : PName) (h : 2 ≤ (Cfg.default.prec pq : Precision ℝ).n)
    (hr : RangeProper (Cfg.default.prec pq)) : (exEnv rt exKs).DoubleRule pq pm where
  phys := exTable_physical
  two := (exEnv_ok rt exKs).two
  range := hr
  nodes := h
  sizeq := (exEnv_ok rt exKs).size pq
  sizem := (exEnv_ok rt exKs).size pm
  rootsq := hrt _ ((exEnv_ok rt exKs).size pq)
  rootsm := hrt _ ((exEnv_ok rt exKs).size pm)
  polyq := (exEnv_ok rt exKs).poly pq
  polym := (exEnv_ok rt exKs).poly pm

/-- A run to which `C66_one_loop` applies. -/
example : ∃ rt ν g gm P v, runTerms1 (exEnv rt exKs) .delta .theta (blocks 3 0 0 [2, 0, 3]) exMem = .ok ν ∧
    ν.at (cellOf cls1 "pk_gamma2_tree_tree" 3) = some (some v) ∧
    v = planeForm (ruleQ g) (ruleMu gm) true (g.q.getD 0 0) (g.q.getD (g.nq - 1) 0) 8 (densTree .delta .theta 8) P := by
  obtain ⟨rt, hrt⟩ := roots_ordered
  obtain ⟨ν, h⟩ := C59_one_loop (exEnv_ok rt exKs) .delta .theta (exSchedule 3) (exRoom 6)
  obtain ⟨g, gm, P, v, _, _, _, h1, h2, _⟩ :=
    C66_one_loop (exEnv_rule hrt .gamma2_tree_q .gamma2_tree_mu (by norm_num [Cfg.default, defaultPrec]) (by norm_num [RangeProper, Cfg.default, defaultPrec])) (exRoom 6)
      (exSchedule 3) h (ik := 3) (by simp [exEnv, exKs]) (by norm_num [exEnv, exKs])
  exact ⟨rt, ν, g, gm, P, v, h, h1, h2⟩

/-- A run to which `C66_run_bias` applies. -/
example : ∃ rt ν g gm P v, runTermsBias (exEnv rt exKs) (blocks 8 0 0 [2, 0, 3]) exMem = .ok ν ∧
    ν.at (cellOf clsBias "sigma3sq" 3) = some (some v) ∧
    v = planeForm (ruleQ g) (ruleMu gm) false (g.q.getD 0 0) (g.q.getD (g.nq - 1) 0) 8 (densBias kernelSigma3sq .delta 8) P := by
  obtain ⟨rt, hrt⟩ := roots_ordered
  obtain ⟨ν, h⟩ := C59_bias (exEnv_ok rt exKs) (exSchedule 8) (exRoom 11)
  obtain ⟨g, gm, P, _, _, _, hc⟩ :=
    C66_run_bias (exEnv_rule hrt .bias_1loop_q .bias_1loop_mu (by norm_num [Cfg.default, defaultPrec]) (by norm_num [RangeProper, Cfg.default, defaultPrec])) (exRoom 11)
      (exSchedule 8) h (ik := 3) (by simp [exEnv, exKs]) (by norm_num [exEnv, exKs])
  obtain ⟨v, h1, h2, _⟩ := hc 7
  exact ⟨rt, ν, g, gm, P, v, h, h1, h2⟩

/-- The spectrum of a table, and a mode: the hypotheses of `C66_tree` and `C66_bias`. -/
example (a : Field) (b : BiasTerm) : ∃ P : ℝ → ℝ, (∀ k, look exTable .poly k = .ok (P k)) ∧
    planeForm (intQ 1 10) intMu (biasHalf b) 1 10 ‖exLegs 0‖ (densBias (biasCode b) a ‖exLegs 0‖) P
      = 1 / (2 * Real.pi) ^ 3 * ∫ q in bothIn (exLegs 0) 1 10, specBias P a (toVec (exLegs 0)) (toVec q) b := by
  obtain ⟨P, hP, hT⟩ := tame_look exTable exTable_physical (by norm_num [exTable])
  exact ⟨P, hP, C66_bias exTable P hP hT a b (exLegs 0) (exLegs_ne 0) 1 10 (by norm_num) (by norm_num)⟩

end Verif
