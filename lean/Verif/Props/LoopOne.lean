import Verif.Props.LoopA1
import Verif.Props.LoopPropagator
import Verif.Props.Positivity
import Mathlib.Analysis.Complex.ExponentialBounds

/-!
# C73 – the one-loop propagators and the assembled one-loop spectrum, from the stored values to the loop integrals
-/

namespace Verif

open MeasureTheory Spec

/-- The branches of the propagator kernels together. -/
theorem propKernel_error (a : Field) (x : ℝ) : |propKernel a x - x * propClosed a x| ≤ 1 / 500000 := by
  have near : |x - 1| < 0.01 → |x - 1| ^ 3 / 4 * (1 + |Real.log (|(x - 1) / (1 + x)|)|) ≤ 1 / 500000 := fun h => by
    norm_num at h
    have hx := abs_lt.1 h
    have hs : 0 < 1 + x := by linarith [hx.1]
    rw [abs_div, abs_of_pos hs]
    rcases (abs_nonneg (x - 1)).eq_or_lt with e | e
    · rw [← e]; norm_num
    generalize |x - 1| = d at *
    have hd : d / (1 + x) ≤ 1 := by rw [div_le_one hs]; linarith [hx.1]
    have hl : |Real.log (d / (1 + x))| ≤ 5.6 + (0.01 / d - 1) := by
      rw [abs_of_nonpos (Real.log_nonpos (by positivity) hd), ← Real.log_inv, inv_div,
        show (1 + x) / d = (100 * (1 + x)) * (0.01 / d) by field_simp; norm_num, Real.log_mul (by positivity) (by positivity)]
      refine add_le_add ?_ (Real.log_le_sub_one_of_pos (by positivity))
      calc Real.log (100 * (1 + x)) ≤ Real.log (2 ^ 8) := Real.log_le_log (by positivity) (by norm_num; linarith [hx.2])
        _ = 8 * Real.log 2 := by rw [Real.log_pow]; norm_num
        _ ≤ 5.6 := by have := Real.log_two_lt_d9; norm_num at *; linarith
    calc d ^ 3 / 4 * (1 + |Real.log (d / (1 + x))|) ≤ d ^ 3 / 4 * (1 + (5.6 + (0.01 / d - 1))) := by gcongr
      _ = d ^ 3 * 1.4 + d ^ 2 * 0.0025 := by field_simp; ring
      _ ≤ (1 / 100) ^ 3 * 1.4 + (1 / 100) ^ 2 * 0.0025 := by gcongr
      _ ≤ _ := by norm_num
  by_cases h1 : |x - 1| < 0.01
  · cases a
    · exact (C21_ff_near x h1).trans (near h1)
    · exact (C21_gg_near x h1).trans (near h1)
  by_cases h2 : 10 < x
  · have h5 : (10 : ℝ) ^ 5 ≤ x ^ 5 := by gcongr
    cases a
    · refine (C21_ff_far x h2).trans ?_
      exact one_div_le_one_div_of_le (by norm_num) (by linarith)
    · refine (C21_gg_far x h2).trans ?_
      exact one_div_le_one_div_of_le (by norm_num) (by linarith)
  · rw [propKernel_closed a x (not_lt.1 h1) (not_lt.1 h2), sub_self, abs_zero]
    norm_num

theorem propClosed_continuousOn (a : Field) : ContinuousOn (propClosed a) (Set.Ioi 0) := by
  have hl : ContinuousOn (fun x : ℝ => (1 / x - x) ^ 3 * Real.log (|(1 - x) / (1 + x)| ^ 2)) (Set.Ioi 0) := by
    have c1 : Continuous fun x : ℝ => (1 - x) * Real.log (1 - x) := Real.continuous_mul_log.comp (by fun_prop)
    have c2 : ContinuousOn (fun x : ℝ => Real.log (1 + x)) (Set.Ioi 0) :=
      ContinuousOn.log (by fun_prop) fun x hx => by have : (0 : ℝ) < x := hx; positivity
    have c3 : ContinuousOn (fun x : ℝ => 1 / x ^ 3) (Set.Ioi 0) :=
      ContinuousOn.div (by fun_prop) (by fun_prop) fun x hx => pow_ne_zero 3 (ne_of_gt hx)
    have c4 : ContinuousOn (fun x : ℝ => 2 * (1 + x) ^ 3 * (1 - x) ^ 2 * (1 / x ^ 3) * ((1 - x) * Real.log (1 - x) - (1 - x) * Real.log (1 + x)))
        (Set.Ioi 0) :=
      (ContinuousOn.mul (by fun_prop) c3).mul (c1.continuousOn.sub (ContinuousOn.mul (by fun_prop) c2))
    refine c4.congr fun x hx => ?_
    have hx : 0 < x := hx
    beta_reduce
    rcases eq_or_ne x 1 with rfl | h1
    · norm_num
    have h1' : 1 - x ≠ 0 := fun h => h1 (by linarith)
    rw [Real.log_pow, Real.log_abs, Real.log_div h1' (by positivity)]
    push_cast
    field_simp
    ring
  have c0 : ContinuousOn (fun x : ℝ => 6 / x ^ 2) (Set.Ioi 0) := ContinuousOn.div (by fun_prop) (by fun_prop) fun x hx => pow_ne_zero 2 (ne_of_gt hx)
  cases a
  · have : ContinuousOn (fun x : ℝ => (6 / x ^ 2 - 79 + 50 * x ^ 2 - 21 * x ^ 4 +
        3 / 4 * (2 + 7 * x ^ 2) * ((1 / x - x) ^ 3 * Real.log (|(1 - x) / (1 + x)| ^ 2))) / 504) (Set.Ioi 0) :=
      ((((c0.sub continuousOn_const).add (by fun_prop)).sub (by fun_prop)).add (ContinuousOn.mul (by fun_prop) hl)).div_const _
    refine this.congr fun x _ => ?_
    simp only [propClosed, ffClosed]
    ring
  · have : ContinuousOn (fun x : ℝ => (6 / x ^ 2 - 41 + 2 * x ^ 2 - 3 * x ^ 4 +
        3 / 4 * (2 + x ^ 2) * ((1 / x - x) ^ 3 * Real.log (|(1 - x) / (1 + x)| ^ 2))) / 168) (Set.Ioi 0) :=
      ((((c0.sub continuousOn_const).add (by fun_prop)).sub (by fun_prop)).add (ContinuousOn.mul (by fun_prop) hl)).div_const _
    refine this.congr fun x _ => ?_
    simp only [propClosed, ggClosed]
    ring

/-- The radial rule of the one-loop propagators. -/
noncomputable def propRule (rt : ℕ → ℕ → ℝ × ℝ) (qmin qmax k : ℝ) (P : ℝ → ℝ) (a : Field) (nq : ℕ) : ℝ :=
  k ^ 3 / ((2 : ℝ) * Real.pi ^ 2) * gaussQ (rt nq) nq qmin qmax fun q => propKernel a (q / k) * P q

theorem propRule_near {rt : ℕ → ℕ → ℝ × ℝ} (hr : ∀ n, NearRoots n (rt n)) {qmin qmax k : ℝ} (hk : 0 < k) (h0 : 0 < qmin) (h1 : qmin < qmax)
    (P : ℝ → ℝ) (hP : ContinuousOn P (Set.Icc qmin qmax)) (a : Field) (e : ℝ) (he : 0 < e) :
    ∃ N, ∀ nq, N ≤ nq → |propRule rt qmin qmax k P a nq - k ^ 3 / (2 * Real.pi ^ 2) * ∫ x in (qmin / k)..(qmax / k), propClosed a x * P (k * x)| ≤
      e + 1 / 500000 * (k ^ 3 / (2 * Real.pi ^ 2) * ∫ q in qmin..qmax, |P q| / q) := by
  set L0 := Real.log qmin with hL0
  set L1 := Real.log qmax with hL1
  have hL : L0 < L1 := Real.log_lt_log h0 h1
  have hq1 : 0 < qmax := h0.trans h1
  set C := k ^ 3 / (2 * Real.pi ^ 2) with hC
  have hC0 : 0 < C := by have := Real.pi_pos; positivity
  have hE : ∀ t ∈ Set.Icc L0 L1, Real.exp t ∈ Set.Icc qmin qmax := fun t ht => by
    constructor
    · rw [← Real.exp_log h0]; exact Real.exp_le_exp.2 ht.1
    · rw [← Real.exp_log hq1]; exact Real.exp_le_exp.2 ht.2
  have cP : ContinuousOn (fun t => P (Real.exp t)) (Set.Icc L0 L1) := hP.comp (by fun_prop) hE
  have cK : ContinuousOn (fun t => propClosed a (Real.exp t / k)) (Set.Icc L0 L1) :=
    (propClosed_continuousOn a).comp (by fun_prop) fun t _ => div_pos (Real.exp_pos t) hk
  let gx : ℝ → ℝ := fun q => q / k * propClosed a (q / k) * P q
  have cx : ContinuousOn (fun t => gx (Real.exp t)) (Set.Icc L0 L1) := (ContinuousOn.mul (by fun_prop) cK).mul cP
  set d := e / (2 * C) with hd
  have hd0 : 0 < d := by positivity
  obtain ⟨N1, hN1⟩ := gsum_tendsto hL.le _ cx d hd0
  obtain ⟨N2, hN2⟩ := gsum_tendsto hL.le _ cP.abs d hd0
  refine ⟨max N1 N2, fun nq hn => ?_⟩
  have hx : |gaussQ (rt nq) nq qmin qmax gx - intQ qmin qmax gx| ≤ d := hN1 nq (by omega) _ (hr nq)
  have ha : |gaussQ (rt nq) nq qmin qmax (fun q => |P q|) - (intQ qmin qmax fun q => |P q|)| ≤ d := hN2 nq (by omega) _ (hr nq)
  have hker : |gaussQ (rt nq) nq qmin qmax (fun q => propKernel a (q / k) * P q) - gaussQ (rt nq) nq qmin qmax gx| ≤
      1 / 500000 * gaussQ (rt nq) nq qmin qmax fun q => |P q| := by
    unfold gaussQ
    rw [← ExactRoots.gsum_sub]
    unfold gsum
    rw [Finset.mul_sum]
    refine (Finset.abs_sum_le_sum_abs _ _).trans (Finset.sum_le_sum fun i hi => ?_)
    have hw := (hr nq).weight_nonneg hL.le i (Finset.mem_range.1 hi)
    beta_reduce
    rw [← hL0, ← hL1]
    set q := Real.exp (nodeAt (rt nq) L0 L1 nq i)
    rw [abs_mul, abs_of_nonneg hw, show propKernel a (q / k) * P q - gx q = (propKernel a (q / k) - q / k * propClosed a (q / k)) * P q by
      simp only [gx]; ring, abs_mul]
    have := mul_le_mul_of_nonneg_right (propKernel_error a (q / k)) (abs_nonneg (P q))
    calc _ ≤ weightAt (rt nq) L0 L1 nq i * (1 / 500000 * |P q|) := mul_le_mul_of_nonneg_left this hw
      _ = _ := by ring
  have tri := near_tri hker hx ha (by norm_num) (by norm_num)
  have e1 : intQ qmin qmax gx = ∫ x in (qmin / k)..(qmax / k), propClosed a x * P (k * x) := by
    have := integral_exp (fun q => 1 / k * (propClosed a (q / k) * P q)) qmin qmax h0 h1
    rw [intervalIntegral.integral_const_mul] at this
    have h3 := intervalIntegral.integral_comp_div (a := qmin) (b := qmax) (fun x => propClosed a x * P (k * x)) hk.ne'
    simp only [mul_div_cancel₀ _ hk.ne', smul_eq_mul] at h3
    rw [h3, ← mul_assoc, one_div_mul_cancel hk.ne', one_mul] at this
    rw [← this]
    refine intervalIntegral.integral_congr fun t _ => ?_
    simp only [gx]
    ring
  have e2 : (intQ qmin qmax fun q => |P q|) = ∫ q in qmin..qmax, |P q| / q := by
    rw [← integral_exp _ qmin qmax h0 h1]
    refine intervalIntegral.integral_congr fun t _ => ?_
    have := (Real.exp_pos t).ne'
    simp only
    field_simp
  rw [e1, e2] at tri
  unfold propRule
  rw [← hC, ← mul_sub, abs_mul, abs_of_pos hC0]
  refine (mul_le_mul_of_nonneg_left tri hC0.le).trans (le_of_eq ?_)
  rw [hd]
  field_simp

/-- The one-loop correction to the propagator of a field at `k`: loop integral over wavevectors between `qmin` and `qmax`. -/
noncomputable def loopProp (a : Field) (P : ℝ → ℝ) (k : E3) (qmin qmax : ℝ) : ℝ :=
  3 / (2 * Real.pi) ^ 3 * ∫ q in {q : E3 | qmin ≤ ‖q‖ ∧ ‖q‖ ≤ qmax}, sptSym3 a (toVec k) (toVec q) (-toVec q) * P ‖q‖

theorem gamma1_run {e : Env} {pm : PName} (he : e.DoubleRule .gamma1_1loop_q pm) {g : GLQ ℝ} {gm : GLMu ℝ} (hg : e.tabQ .gamma1_1loop_q = .ok g)
    (hgm : e.tabMu pm = .ok gm) {P : ℝ → ℝ} (hP : ∀ k, look e.t .poly k = .ok (P k)) {qmin qmax : ℝ}
    (hrange : glqRange e.t (e.cfg.prec .gamma1_1loop_q) = .ok (qmin, qmax)) {a : Field} {k v : ℝ} (h : gamma1OneLoop a g k = .ok v) :
    v = propRule e.rt qmin qmax k P a (e.cfg.prec .gamma1_1loop_q).n := by
  obtain ⟨n2, n1, hl, -, -, hpk⟩ := he.tab hg hgm hP
  obtain ⟨a', b', pk, h1, h2, hgv⟩ := initGLQ_ok he.sizeq hg
  rw [hrange, Res.ok.injEq, Prod.mk.injEq] at h1
  obtain ⟨rfl, rfl⟩ := h1
  have hnq : g.nq = (e.cfg.prec .gamma1_1loop_q).n := by rw [hgv]
  have hwl : g.w.length = g.nq := by rw [hgv]; simp
  have hpl : g.pk.length = g.nq := by
    have := findPk_length h2
    rw [hgv]
    simpa using this
  rw [C23_one_loop_sum a g ⟨hl, hwl, hpl⟩, Res.ok.injEq] at h
  subst h
  show (g.nodes.map fun t => propKernel a (t.1 / k) * t.2.2 * t.2.1).sum * k * k * k / (2 * Real.pi * Real.pi) = _
  rw [← nodes_sum g ⟨hl, hwl, hpl⟩ (fun q w p => propKernel a (q / k) * p * w)]
  unfold propRule gaussQ gsum
  rw [hnq]
  have hqi : ∀ j < g.nq, g.q.getD j 0 = Real.exp (nodeAt (e.rt (e.cfg.prec .gamma1_1loop_q).n) (Real.log qmin) (Real.log qmax)
      (e.cfg.prec .gamma1_1loop_q).n j) := fun j hj => by
    rw [hnq] at hj
    rw [hgv]
    simp [List.getD_eq_getElem?_getD, hj]
  have hwi : ∀ j < g.nq, g.w.getD j 0 = weightAt (e.rt (e.cfg.prec .gamma1_1loop_q).n) (Real.log qmin) (Real.log qmax)
      (e.cfg.prec .gamma1_1loop_q).n j := fun j hj => by
    rw [hnq] at hj
    rw [hgv]
    simp [List.getD_eq_getElem?_getD, hj]
  rw [Finset.sum_mul, Finset.sum_mul, Finset.sum_mul, Finset.sum_div, Finset.mul_sum]
  refine Finset.sum_congr rfl fun i hi => ?_
  have hi : i < g.nq := by rw [hnq]; exact Finset.mem_range.1 hi
  rw [hpk i hi, hwi i hi, hqi i hi]
  field_simp

/-- C73: the one-loop propagators stored by a run are entries of sequences that come as close to the loop integrals as the branches of the
kernels allow. -/
theorem C73_propagator {t : Pk ℝ} {rt : ℕ → ℕ → ℝ × ℝ} {qmin qmax : ℝ} (hc : LimitCase t rt qmin qmax) (k : E3) (hk : k ≠ 0) :
    ∃ (P : ℝ → ℝ) (V : Field → ℕ → ℝ), (∀ q, look t .poly q = .ok (P q)) ∧
      (∀ a, ∀ e > 0, ∃ N, ∀ n, N ≤ n → |V a n - loopProp a P k qmin qmax| ≤
        e + 1 / 500000 * (‖k‖ ^ 3 / (2 * Real.pi ^ 2) * ∫ q in qmin..qmax, |P q| / q)) ∧
      ∀ (e : Env) (a b : Field) (es : List Event) (μ ν : Mem) (ik : ℕ), e.t = t → e.rt = rt → e.DoubleRule .gamma1_1loop_q .gamma2_tree_mu →
        glqRange t (e.cfg.prec .gamma1_1loop_q) = .ok (qmin, qmax) → Room 6 e.ks.length μ → Schedule 3 e.ks.length es →
        runTerms1 e a b es μ = .ok ν → e.ks[ik]? = some ‖k‖ →
        ν.at (cellOf cls1 "gamma1a_1loop" ik) = some (some (V a (e.cfg.prec .gamma1_1loop_q).n)) ∧
        ν.at (cellOf cls1 "gamma1b_1loop" ik) = some (some (V b (e.cfg.prec .gamma1_1loop_q).n)) := by
  have hκ := norm_pos_iff.2 hk
  obtain ⟨P, hP, hT⟩ := tame_look t hc.phys hc.two
  refine ⟨P, propRule rt qmin qmax ‖k‖ P, hP, fun a e he => ?_, ?_⟩
  · unfold loopProp
    rw [C65_loop a P hT k hk qmin qmax hc.pos hc.lt]
    exact propRule_near hc.roots hκ hc.pos hc.lt P (hc.cts hP) a e he
  · rintro e a b es μ ν ik rfl rfl he hrange hμ hes h hik
    obtain ⟨hlt, hv⟩ := List.getElem?_eq_some_iff.1 hik
    obtain ⟨pl, sg, g1, g, gm, va, vb, s, v2, -, -, hg, -, hgm, ha, hb, -, -, -, ca, cb, -, -⟩ := C45_one_loop hμ hes h hlt
    rw [hv] at ha hb
    rw [ca, cb, gamma1_run he hg hgm hP hrange ha, gamma1_run he hg hgm hP hrange hb]
    exact ⟨rfl, rfl⟩

/-- The regularised one-loop spectrum from the linear spectrum at `k`, the dispersion `s`, the corrections `ga` and `gb` of the propagators,
the second-order term `m` and the growth factor `G`. -/
noncomputable def regOneLoop (k pk s ga gb m G : ℝ) : ℝ :=
  let F := k ^ 2 * G ^ 2 * s / 2
  Real.exp (-2 * F) * (G ^ 2 * (1 + F + G ^ 2 * ga) * (1 + F + G ^ 2 * gb) * pk + G ^ 4 * m)

theorem regOneLoop_near (k pk s ga gb m G d : ℝ) (e : ℝ) (he : 0 < e) :
    ∃ h > 0, ∀ ga' gb' m', |ga' - ga| ≤ h + d → |gb' - gb| ≤ h + d → |m' - m| ≤ h →
      |regOneLoop k pk s ga' gb' m' G - regOneLoop k pk s ga gb m G| ≤ e + Real.exp (-(k ^ 2 * G ^ 2 * s)) * (G ^ 4 * |pk| *
        (d * |1 + k ^ 2 * G ^ 2 * s / 2 + G ^ 2 * ga| + d * |1 + k ^ 2 * G ^ 2 * s / 2 + G ^ 2 * gb| + G ^ 2 * d ^ 2)) := by
  set F := k ^ 2 * G ^ 2 * s / 2 with hF
  have hexp : Real.exp (-(k ^ 2 * G ^ 2 * s)) = Real.exp (-2 * F) := by congr 1; rw [hF]; ring
  rw [hexp]
  set E := Real.exp (-2 * F) with hE
  have hE0 : 0 < E := Real.exp_pos _
  set A := 1 + F + G ^ 2 * ga with hA
  set B := 1 + F + G ^ 2 * gb with hB
  let f : ℝ → ℝ := fun h => E * (G ^ 4 * |pk| * ((h + d) * |A| + (h + d) * |B| + G ^ 2 * (h + d) ^ 2) + G ^ 4 * h)
  have cf : Continuous f := by fun_prop
  obtain ⟨r, hr, hf⟩ := Metric.continuous_iff.1 cf 0 e he
  refine ⟨r / 2, by positivity, fun ga' gb' m' h1 h2 h3 => ?_⟩
  have hfr := hf (r / 2) (by rw [Real.dist_eq, sub_zero, abs_of_pos (by positivity)]; linarith)
  rw [Real.dist_eq] at hfr
  have hfr := (abs_lt.1 hfr).2
  have f0 : f 0 = E * (G ^ 4 * |pk| * (d * |A| + d * |B| + G ^ 2 * d ^ 2)) := by simp only [f, zero_add, mul_zero, add_zero]
  rw [← f0]
  refine le_trans ?_ (by linarith : f (r / 2) ≤ e + f 0)
  have hdiff : regOneLoop k pk s ga' gb' m' G - regOneLoop k pk s ga gb m G =
      E * (G ^ 4 * pk * ((ga' - ga) * B + (gb' - gb) * A + G ^ 2 * ((ga' - ga) * (gb' - gb))) + G ^ 4 * (m' - m)) := by
    simp only [regOneLoop, ← hF, hA, hB, hE]
    ring
  rw [hdiff, abs_mul, abs_of_pos hE0]
  simp only [f]
  have hG4 : (0 : ℝ) ≤ G ^ 4 := by positivity
  have hG2 : (0 : ℝ) ≤ G ^ 2 := by positivity
  have hd : 0 ≤ r / 2 + d := (abs_nonneg _).trans h1
  have b1 : |(ga' - ga) * B + (gb' - gb) * A + G ^ 2 * ((ga' - ga) * (gb' - gb))| ≤
      (r / 2 + d) * |A| + (r / 2 + d) * |B| + G ^ 2 * (r / 2 + d) ^ 2 := by
    refine (abs_add_le _ _).trans ((add_le_add_left (abs_add_le _ _) _).trans ?_)
    rw [abs_mul, abs_mul, abs_mul, abs_mul, abs_of_nonneg hG2, sq (r / 2 + d)]
    have := mul_le_mul h1 h2 (abs_nonneg _) hd
    have := mul_le_mul_of_nonneg_right h1 (abs_nonneg B)
    have := mul_le_mul_of_nonneg_right h2 (abs_nonneg A)
    have : G ^ 2 * (|ga' - ga| * |gb' - gb|) ≤ G ^ 2 * ((r / 2 + d) * (r / 2 + d)) := by gcongr
    linarith
  refine mul_le_mul_of_nonneg_left ((abs_add_le _ _).trans (add_le_add ?_ ?_)) hE0.le
  · rw [abs_mul, abs_mul, abs_of_nonneg hG4]
    gcongr
  · rw [abs_mul, abs_of_nonneg hG4]
    gcongr

/-- C73: `Spectrum1Loop.pk` after a run with polynomial interpolation and ascending modes is an entry of a triple sequence that comes as close
to the regularised one-loop spectrum, with the loop integrals and the integral of the displacement dispersion, as the branches of the
propagator kernels allow. -/
theorem C73_spectrum {t : Pk ℝ} {rt : ℕ → ℕ → ℝ × ℝ} {p0 p1 q0 q1 : ℝ} (hp : LimitCase t rt p0 p1) (hq : LimitCase t rt q0 q1) (a b : Field)
    (k : E3) (hk : k ≠ 0) (Pl : ℝ → ℝ) (hPl : PiecewiseLinear t Pl) :
    ∃ (P : ℝ → ℝ) (W : ℝ → ℝ → ℕ → ℕ → ℕ → ℝ), (∀ q, look t .poly q = .ok (P q)) ∧
      (∀ s G, ∀ e > 0, ∃ N, ∀ n nq nm, N ≤ n → N ≤ nq → N ≤ nm →
        let ga := loopProp a P k p0 p1
        let gb := loopProp b P k p0 p1
        let d := 1 / 500000 * (‖k‖ ^ 3 / (2 * Real.pi ^ 2) * ∫ q in p0..p1, |P q| / q)
        |W s G n nq nm - regOneLoop ‖k‖ (P ‖k‖) s ga gb (1 / (2 * Real.pi) ^ 3 * ∫ q in bothIn k q0 q1, specTree P a b (toVec k) (toVec q)) G| ≤
          e + Real.exp (-(‖k‖ ^ 2 * G ^ 2 * s)) * (G ^ 4 * |P ‖k‖| *
            (d * |1 + ‖k‖ ^ 2 * G ^ 2 * s / 2 + G ^ 2 * ga| + d * |1 + ‖k‖ ^ 2 * G ^ 2 * s / 2 + G ^ 2 * gb| + G ^ 2 * d ^ 2))) ∧
      ∀ (e : Env) (es : List Event) (μ ν : Mem) (ik : ℕ), e.t = t → e.rt = rt → e.DoubleRule .gamma1_1loop_q .gamma2_tree_mu →
        e.DoubleRule .gamma2_tree_q .gamma2_tree_mu → glqRange t (e.cfg.prec .gamma1_1loop_q) = .ok (p0, p1) →
        glqRange t (e.cfg.prec .gamma2_tree_q) = .ok (q0, q1) → e.cfg.interp .spectrum_1loop = .poly → 0 ≤ e.cfg.uv .spectrum_1loop →
        e.ks.Pairwise (· ≤ ·) → Room 6 e.ks.length μ → Schedule 3 e.ks.length es → runTerms1 e a b es μ = .ok ν → e.ks[ik]? = some ‖k‖ →
        μ.at (cellOf cls1 "k" ik) = some (some ‖k‖) → ∀ (G : ℝ) (sig : Option (ℕ → ℝ)),
        (viewOf cls1 ν).pk1 G sig ik = W (sig.elim (sigmaSpec t Pl (e.cfg.uv .spectrum_1loop) ‖k‖) (· ik)) G (e.cfg.prec .gamma1_1loop_q).n (e.cfg.prec .gamma2_tree_q).n (e.cfg.prec .gamma2_tree_mu).n := by
  obtain ⟨P, V, hP, h1, h2⟩ := C73_propagator hp k hk
  obtain ⟨P', V2, hP', h3, h4⟩ := C68_one_loop hq a b k hk
  obtain rfl : P' = P := funext fun x => by have := (hP' x).symm.trans (hP x); rwa [Res.ok.injEq] at this
  refine ⟨P', fun s G n nq nm => regOneLoop ‖k‖ (P' ‖k‖) s (V a n) (V b n) (V2 nq nm) G, hP, ?_, ?_⟩
  · intro s G e he
    obtain ⟨h, hh, near⟩ := regOneLoop_near ‖k‖ (P' ‖k‖) s (loopProp a P' k p0 p1) (loopProp b P' k p0 p1)
      (1 / (2 * Real.pi) ^ 3 * ∫ q in bothIn k q0 q1, specTree P' a b (toVec k) (toVec q)) G
      (1 / 500000 * (‖k‖ ^ 3 / (2 * Real.pi ^ 2) * ∫ q in p0..p1, |P' q| / q)) e he
    obtain ⟨N1, hN1⟩ := h1 a h hh
    obtain ⟨N2, hN2⟩ := h1 b h hh
    obtain ⟨N3, hN3⟩ := Metric.tendsto_atTop.1 h3 h hh
    refine ⟨max (max N1 N2) (max N3.1 N3.2), fun n nq nm hn hnq hnm => ?_⟩
    refine near _ _ _ (hN1 n (by omega)) (hN2 n (by omega)) ?_
    have := hN3 (nq, nm) ⟨by show N3.1 ≤ nq; omega, by show N3.2 ≤ nm; omega⟩
    rw [Real.dist_eq] at this
    exact this.le
  · rintro e es μ ν ik rfl rfl he1 he2 hr1 hr2 hpoly huv hasc hμ hes h hik hkc G sig
    obtain ⟨ca, cb⟩ := h2 e a b es μ ν ik rfl rfl he1 hr1 hμ hes h hik
    have c2 := h4 e es μ ν ik rfl rfl he2 hr2 hμ hes h hik
    obtain ⟨hlt, hv⟩ := List.getElem?_eq_some_iff.1 hik
    obtain ⟨pl, sg, g1, g, gm, va, vb, s, v2, hpl, hsg, -, -, -, -, -, -, cl, cs, -, -, -, ck⟩ := C45_one_loop hμ hes h hlt
    rw [hkc] at ck
    have n1 : 1 ≤ e.t.nk := by have := hp.two; omega
    rw [hpoly, findPk_ascending e.t hp.phys.toIncreasing n1 .poly e.ks hasc,
      mapM_ok (P := P') (fun k => by rw [← look_lookup e.t hp.phys.toIncreasing n1, hP]), Res.ok.injEq] at hpl
    rw [C11_sigmad2_integral_partial e.t hp.phys.toIncreasing n1 Pl hPl _ huv _ hasc, Res.ok.injEq] at hsg
    have e1 : pl.getD ik 0 = P' ‖k‖ := by rw [← hpl, ← hv]; simp [List.getD_eq_getElem?_getD, hlt]
    have e2 : sg.getD ik 0 = sigmaSpec e.t Pl (e.cfg.uv .spectrum_1loop) ‖k‖ := by rw [← hsg, ← hv]; simp [List.getD_eq_getElem?_getD, hlt]
    rw [e1] at cl
    rw [e2] at cs
    unfold Terms.pk1 regOneLoop
    rw [viewOf_of (by decide) cl, viewOf_of (by decide) cs, viewOf_of (by decide) ca, viewOf_of (by decide) cb, viewOf_of (by decide) c2,
      viewOf_of (by decide) ck]
    have key : ∀ σ, G * Real.exp (-(0.5 * (‖k‖ * G) ^ 2 * σ)) * (1 + 0.5 * (‖k‖ * G) ^ 2 * σ + G ^ 2 * V a (e.cfg.prec .gamma1_1loop_q).n) *
        (G * Real.exp (-(0.5 * (‖k‖ * G) ^ 2 * σ)) * (1 + 0.5 * (‖k‖ * G) ^ 2 * σ + G ^ 2 * V b (e.cfg.prec .gamma1_1loop_q).n)) * P' ‖k‖ +
        G ^ 4 * Real.exp (-2 * (0.5 * (‖k‖ * G) ^ 2 * σ)) * V2 (e.cfg.prec .gamma2_tree_q).n (e.cfg.prec .gamma2_tree_mu).n =
        Real.exp (-2 * (‖k‖ ^ 2 * G ^ 2 * σ / 2)) * (G ^ 2 * (1 + ‖k‖ ^ 2 * G ^ 2 * σ / 2 + G ^ 2 * V a (e.cfg.prec .gamma1_1loop_q).n) *
        (1 + ‖k‖ ^ 2 * G ^ 2 * σ / 2 + G ^ 2 * V b (e.cfg.prec .gamma1_1loop_q).n) * P' ‖k‖ +
        G ^ 4 * V2 (e.cfg.prec .gamma2_tree_q).n (e.cfg.prec .gamma2_tree_mu).n) := by
      intro σ
      have hF : (0.5 : ℝ) * (‖k‖ * G) ^ 2 * σ = ‖k‖ ^ 2 * G ^ 2 * σ / 2 := by norm_num; ring
      rw [hF]
      generalize ‖k‖ ^ 2 * G ^ 2 * σ / 2 = F
      have hexp : Real.exp (-2 * F) = Real.exp (-F) * Real.exp (-F) := by rw [← Real.exp_add]; congr 1; ring
      rw [hexp]
      ring
    cases sig <;> exact key _

/-- Uninitialised arrays after the modes have been stored in the first one. -/
noncomputable def exMemK : Mem := fun i => if i = 0 then exKs.map some else List.replicate 45 none

/-- With default settings the assembled spectrum of the mode 8 is an entry of such a sequence. -/
example : ∃ (rt : ℕ → ℕ → ℝ × ℝ) (ν : Mem) (P Pl : ℝ → ℝ) (W : ℝ → ℝ → ℕ → ℕ → ℕ → ℝ),
    (∀ n, Found n (rt n)) ∧
    runTerms1 ⟨Cfg.default, rt, wideTable, exKs⟩ .delta .theta (blocks 3 0 0 [2, 0, 3]) exMemK = .ok ν ∧
    (∀ s, ∀ e > 0, ∃ N, ∀ n nq nm, N ≤ n → N ≤ nq → N ≤ nm →
      let ga := loopProp .delta P exVec (1 / 2000) 10
      let gb := loopProp .theta P exVec (1 / 2000) 10
      let d := 1 / 500000 * (8 ^ 3 / (2 * Real.pi ^ 2) * ∫ q in (1 / 2000)..10, |P q| / q)
      |W s 1 n nq nm - regOneLoop 8 (P 8) s ga gb
        (1 / (2 * Real.pi) ^ 3 * ∫ q in bothIn exVec (1 / 2000) 10, specTree P .delta .theta (toVec exVec) (toVec q)) 1| ≤
        e + Real.exp (-(64 * s)) * (|P 8| * (d * |1 + 32 * s + ga| + d * |1 + 32 * s + gb| + d ^ 2))) ∧
    (viewOf cls1 ν).pk1 1 none 3 = W (sigmaSpec wideTable Pl (1 / 2) 8) 1 600 200 10 ∧
    (viewOf cls1 ν).pk1 1 (some fun _ => 7) 3 = W 7 1 600 200 10 := by
  choose rt hf using found_exist
  have hr := fun n => (hf n).nearRoots
  have hrt : ∀ n, n < 2 ^ 63 → RootsOrdered (rt n) n := fun n hn => nearRoots_ordered (hr n) hn
  have hok : (⟨Cfg.default, rt, wideTable, exKs⟩ : Env).Ok := ⟨wide_physical.toWF, by norm_num [wideTable], (exEnv_ok rt exKs).size,
    (exEnv_ok rt exKs).poly, (exEnv_ok rt exKs).interp⟩
  have hroom : Room 6 exKs.length exMemK := fun i _ => by simp only [exMemK]; split <;> simp [exKs]
  obtain ⟨ν, h⟩ := C59_one_loop hok .delta .theta (exSchedule 3) hroom
  obtain ⟨Pl, hPl⟩ := exists_piecewiseLinear wideTable wide_physical.toIncreasing
  obtain ⟨P, W, _, h1, h2⟩ := C73_spectrum (wideLimit hr) (wideLimit hr) .delta .theta exVec (norm_pos_iff.1 (by rw [exVec_norm]; norm_num)) Pl hPl
  have hd : ∀ p, (p = .gamma1_1loop_q ∨ p = .gamma2_tree_q) → (⟨Cfg.default, rt, wideTable, exKs⟩ : Env).DoubleRule p .gamma2_tree_mu := by
    rintro p (rfl | rfl) <;> exact ⟨wide_physical, hok.two, by norm_num [RangeProper, Cfg.default, defaultPrec],
      by norm_num [Cfg.default, defaultPrec], hok.size _, hok.size _, hrt _ (hok.size _), hrt _ (hok.size _), hok.poly _, hok.poly _⟩
  have run := h2 ⟨Cfg.default, rt, wideTable, exKs⟩ _ _ ν 3 rfl rfl (hd _ (.inl rfl)) (hd _ (.inr rfl))
    (by norm_num [glqRange, Cfg.default, defaultPrec, lit_real, le_real]) (by norm_num [glqRange, Cfg.default, defaultPrec, lit_real, le_real])
    rfl (by norm_num [Cfg.default, lit_real]) (by norm_num [exKs]) hroom (exSchedule 3) h (by rw [exVec_norm]; simp [exKs])
    (by rw [exVec_norm]; simp [Mem.at, cellOf, cls1, exMemK, exKs])
  rw [exVec_norm] at h1 run
  refine ⟨rt, ν, P, Pl, W, hf, h, fun s e he => ?_, ?_, run 1 _⟩
  · obtain ⟨N, hN⟩ := h1 s 1 e he
    refine ⟨N, fun n nq nm a1 a2 a3 => (hN n nq nm a1 a2 a3).trans (le_of_eq ?_)⟩
    rw [show (8 : ℝ) ^ 2 * 1 ^ 2 * s = 64 * s by ring, show 64 * s / 2 = 32 * s by ring]
    simp only [one_pow, one_mul]
  · have := run 1 none
    simpa [Cfg.default, defaultPrec, lit_real] using this

end Verif
