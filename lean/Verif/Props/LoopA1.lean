import Verif.Proofs.LoopAInt

/-!
# C72 – the one-loop A correction from the stored columns to the loop integral
-/

namespace Verif

open MeasureTheory

/-- The double loop with a part that depends on the radial node only. -/
theorem quadLoop_sum_extra {ι : Type} {half : Bool} {g : GLQ ℝ} {gm : GLMu ℝ} {kern : ℕ → ℝ → Res (ι → ℝ)} {extra : ℕ → Res (ι → ℝ)}
    {wt : ℝ → ℝ → ℝ} {r : GLMu ℝ × (ι → ℝ)} (h : quadLoop half g gm kern extra wt = .ok r) :
    (∀ iq < g.nq, quadRange half g iq ≠ none → (∀ imu < gm.nmu,
      kern iq (quadMu half g gm iq imu) = .ok (kern iq (quadMu half g gm iq imu)).val) ∧ extra iq = .ok (extra iq).val) ∧
    ∀ i, r.2 i = (∑ iq ∈ Finset.range g.nq, ∑ imu ∈ Finset.range gm.nmu,
      quadWeight half g gm wt iq imu * (kern iq (quadMu half g gm iq imu)).val i) +
      ∑ iq ∈ Finset.range g.nq, if quadRange half g iq = none then 0 else (extra iq).val i * wt (g.x.getD iq 0) (g.w.getD iq 0) := by
  rw [quadLoop_eq] at h
  have := forRange_post (P := fun n s => SameMu s.1 gm ∧ (∀ iq < n, quadRange half g iq ≠ none → (∀ imu < gm.nmu,
      kern iq (quadMu half g gm iq imu) = .ok (kern iq (quadMu half g gm iq imu)).val) ∧ extra iq = .ok (extra iq).val) ∧
    ∀ i, s.2 i = (∑ iq ∈ Finset.range n, ∑ imu ∈ Finset.range gm.nmu,
      quadWeight half g gm wt iq imu * (kern iq (quadMu half g gm iq imu)).val i) +
      ∑ iq ∈ Finset.range n, if quadRange half g iq = none then 0 else (extra iq).val i * wt (g.x.getD iq 0) (g.w.getD iq 0))
    h ⟨SameMu.refl _, by simp, by simp⟩ ?_
  · exact this.2
  rintro iq ⟨gm', s⟩ ⟨gm'', s'⟩ hiq ⟨hs, hd, hsum⟩ hb
  simp only [quadBody, Res.bind_eq_ok] at hb
  obtain ⟨x, hx, rg, hr, hb⟩ := hb
  obtain ⟨rfl, lx⟩ := rd_eq_ok hx
  have hq : quadRange half g iq = rg := by unfold quadRange; rw [hr]
  rcases rg with _ | ⟨lo, hi⟩
  · cases hb
    refine ⟨hs, fun j hj hne => ?_, fun i => ?_⟩
    · rcases Nat.lt_succ_iff_lt_or_eq.mp hj with h | rfl
      · exact hd j h hne
      · exact absurd hq hne
    · rw [Finset.sum_range_succ, Finset.sum_range_succ, if_pos hq, add_zero, add_right_comm, ← hsum i]
      simp [quadWeight, hq]
  · dsimp only at hb
    rw [hs.update_eq lo hi] at hb
    simp only [Res.bind_eq_ok] at hb
    obtain ⟨integ, hint, ex, hex, w, hw, e⟩ := hb
    obtain ⟨rfl, lw⟩ := rd_eq_ok hw
    cases e
    obtain ⟨k1, k2⟩ := muLoop_sum (gm := updateGLMu gm lo hi) (kern := kern iq) hint
    have hm : ∀ imu, quadMu half g gm iq imu = (updateGLMu gm lo hi).mu.getD imu 0 := fun imu => by simp only [quadMu, hq]
    refine ⟨sameMu_update gm lo hi, fun j hj hne => ?_, fun i => ?_⟩
    · rcases Nat.lt_succ_iff_lt_or_eq.mp hj with h | rfl
      · exact hd j h hne
      · refine ⟨fun imu himu => ?_, by rw [hex]; rfl⟩
        rw [hm]
        exact (k1 imu himu).1
    · rw [Finset.sum_range_succ, Finset.sum_range_succ, if_neg (by rw [hq]; simp), add_add_add_comm, ← hsum i]
      simp only [k2, hex, Res.val]
      rw [add_mul, Finset.sum_mul]
      congr 2
      refine Finset.sum_congr rfl fun imu _ => ?_
      simp only [quadWeight, hq, hm]
      ring

/-- The radial rule of the one-loop A terms: nodes with an empty angular range are skipped. -/
noncomputable def radialA1 (rt : ℕ → ℕ → ℝ × ℝ) (qmin qmax k Pk : ℝ) (P : ℝ → ℝ) (c : Fin 5) (nq : ℕ) : ℝ :=
  k ^ 3 / ((4 : ℝ) * Real.pi ^ 2) * gaussQ (rt nq) nq qmin qmax fun q =>
    match muRange false [Real.exp (nodeAt (rt nq) (Real.log qmin) (Real.log qmax) nq 0) / k,
        Real.exp (nodeAt (rt nq) (Real.log qmin) (Real.log qmax) nq (nq - 1)) / k] 2 (q / k) with
    | .ok (some _) => q / k * (ka1 (pw (q / k)) c * (Pk * P q))
    | _ => 0

theorem muRange_used (x0 x1 x : ℝ) (h0 : 0 < x0) (h01 : x0 < x1) (hx0 : x0 ≤ x) (hx1 : x ≤ x1) (h : 1 < x0 + x1) :
    ∃ r, muRange false [x0, x1] 2 x = .ok (some r) := by
  have hx : 0 < x := h0.trans_le hx0
  have a1 : (1 + x * x - x1 * x1) / 2 / x < 1 := by rw [div_lt_one hx]; nlinarith
  have a2 : -1 < (1 + x * x - x0 * x0) / 2 / x := by rw [lt_div_iff₀ hx]; nlinarith
  have a3 : (1 + x * x - x1 * x1) / 2 / x < (1 + x * x - x0 * x0) / 2 / x := by gcongr
  unfold muRange
  rw [show subSize 2 1 = 1 by decide, rd_ok (by norm_num), rd_ok (by norm_num)]
  simp only [Res.ok_bind, cMax_real, cMin_real, lit_real, List.getElem_cons_zero, List.getElem_cons_succ, Bool.false_and]
  push_cast
  rw [if_neg]
  · exact ⟨_, rfl⟩
  · simp only [Bool.or_eq_true, le_real, not_or, not_le]
    exact ⟨⟨max_lt (by norm_num) a1, lt_min (by norm_num) a2⟩, max_lt (lt_min (by norm_num) a2) (lt_min a1 a3)⟩

theorem near_tri {a b x u v c d : ℝ} (h1 : |a - b| ≤ c * u) (h2 : |b - x| ≤ d) (h3 : |u - v| ≤ d) (hc : 0 ≤ c) (hc1 : c ≤ 1) :
    |a - x| ≤ 2 * d + c * v := by
  have t1 := abs_le.1 h1
  have t2 := abs_le.1 h2
  have t3 := (abs_le.1 h3).2
  have h4 : c * u ≤ c * v + d := by nlinarith [abs_nonneg (u - v)]
  exact abs_le.2 ⟨by linarith [t1.1, t2.1], by linarith [t1.2, t2.2]⟩

/-- The radial rule tends to the radial integral of the exact kernel up to the error of the branches of the kernel. -/
theorem radialA1_near {rt : ℕ → ℕ → ℝ × ℝ} (hr : ∀ n, NearRoots n (rt n)) {qmin qmax k : ℝ} (hk : 0 < k) (h0 : 0 < qmin) (h1 : qmin < qmax)
    (hsum : k < qmin + qmax) (Pk : ℝ) (P : ℝ → ℝ) (hP : ContinuousOn P (Set.Icc qmin qmax)) (c : Fin 5) (e : ℝ) (he : 0 < e) :
    ∃ N, ∀ nq, N ≤ nq → |radialA1 rt qmin qmax k Pk P c nq -
        k ^ 3 / (4 * Real.pi ^ 2) * intQ qmin qmax fun q => q / k * (aKer c (q / k) * (Pk * P q))| ≤
      e + 1 / (6 * 10 ^ 22) * (k ^ 2 / (4 * Real.pi ^ 2) * |Pk| * ∫ q in qmin..qmax, |P q|) := by
  set L0 := Real.log qmin with hL0
  set L1 := Real.log qmax with hL1
  have hL : L0 < L1 := Real.log_lt_log h0 h1
  have hq1 : 0 < qmax := h0.trans h1
  set C := k ^ 3 / (4 * Real.pi ^ 2) with hC
  have hC0 : 0 < C := by have := Real.pi_pos; positivity
  have hE : ∀ t ∈ Set.Icc L0 L1, Real.exp t ∈ Set.Icc qmin qmax := fun t ht => by
    constructor
    · rw [← Real.exp_log h0]; exact Real.exp_le_exp.2 ht.1
    · rw [← Real.exp_log hq1]; exact Real.exp_le_exp.2 ht.2
  have cP : ContinuousOn (fun t => P (Real.exp t)) (Set.Icc L0 L1) := hP.comp (by fun_prop) hE
  have cK : ContinuousOn (fun t => aKer c (Real.exp t / k)) (Set.Icc L0 L1) :=
    (aKer_continuousOn c).comp (by fun_prop) fun t _ => div_pos (Real.exp_pos t) hk
  let gx : ℝ → ℝ := fun q => q / k * (aKer c (q / k) * (Pk * P q))
  let ga : ℝ → ℝ := fun q => q / k * (|Pk| * |P q|)
  have cx : ContinuousOn (fun t => gx (Real.exp t)) (Set.Icc L0 L1) :=
    ContinuousOn.mul (by fun_prop) (cK.mul (continuousOn_const.mul cP))
  have ca : ContinuousOn (fun t => ga (Real.exp t)) (Set.Icc L0 L1) :=
    ContinuousOn.mul (by fun_prop) (continuousOn_const.mul cP.abs)
  set d := e / (2 * C) with hd
  have hd0 : 0 < d := by positivity
  obtain ⟨N1, hN1⟩ := gsum_tendsto hL.le _ cx d hd0
  obtain ⟨N2, hN2⟩ := gsum_tendsto hL.le _ ca d hd0
  set m := (qmin + qmax - k) / (2 * qmax) with hm
  have hm0 : 0 < m := div_pos (by linarith) (by linarith)
  obtain ⟨N3, hN3⟩ := ends_near L0 L1 (min ((L1 - L0) / 3) m) (lt_min (by linarith) hm0)
  refine ⟨max (max N1 N2) (max N3 1), fun nq hn => ?_⟩
  have hx := hN1 nq (by omega) _ (hr nq)
  have ha := hN2 nq (by omega) _ (hr nq)
  obtain ⟨e1, e2⟩ := hN3 nq (by omega) _ (hr nq)
  have hn1 : 1 ≤ nq := by omega
  set n0 := nodeAt (rt nq) L0 L1 nq 0 with hn0
  set nl := nodeAt (rt nq) L0 L1 nq (nq - 1) with hnl
  have m0 := (hr nq).node_mem hL.le 0 (by omega)
  have b1 := abs_le.1 (e1.trans (min_le_left _ _))
  have b2 := abs_le.1 (e2.trans (min_le_left _ _))
  have b3 := abs_le.1 (e2.trans (min_le_right _ _))
  have hlt : Real.exp n0 < Real.exp nl := Real.exp_lt_exp.2 (by linarith [b1.2, b2.1])
  have hgt : k < Real.exp n0 + Real.exp nl := by
    have h2 : qmax * (1 - m) ≤ Real.exp nl := by
      have : Real.exp L1 * Real.exp (-m) ≤ Real.exp nl := by
        rw [← Real.exp_add]
        exact Real.exp_le_exp.2 (by linarith [b3.1])
      refine le_trans ?_ this
      rw [hL1, Real.exp_log hq1]
      exact mul_le_mul_of_nonneg_left (by linarith [Real.add_one_le_exp (-m)]) hq1.le
    have h3 : qmax * m = (qmin + qmax - k) / 2 := by rw [hm]; field_simp
    have h4 := (hE _ m0).1
    nlinarith
  -- all nodes are used
  have hused : ∀ i < nq, (match muRange false [Real.exp n0 / k, Real.exp nl / k] 2 (Real.exp (nodeAt (rt nq) L0 L1 nq i) / k) with
      | .ok (some _) => Real.exp (nodeAt (rt nq) L0 L1 nq i) / k * (ka1 (pw (Real.exp (nodeAt (rt nq) L0 L1 nq i) / k)) c *
          (Pk * P (Real.exp (nodeAt (rt nq) L0 L1 nq i))))
      | _ => 0) = Real.exp (nodeAt (rt nq) L0 L1 nq i) / k * (ka1 (pw (Real.exp (nodeAt (rt nq) L0 L1 nq i) / k)) c *
          (Pk * P (Real.exp (nodeAt (rt nq) L0 L1 nq i)))) := fun i hi => by
    have hb := (hr nq).between hL.le hi
    obtain ⟨r, h⟩ := muRange_used (Real.exp n0 / k) (Real.exp nl / k) (Real.exp (nodeAt (rt nq) L0 L1 nq i) / k) (by positivity)
      (by gcongr) (by have := Real.exp_le_exp.2 hb.1; gcongr) (by have := Real.exp_le_exp.2 hb.2; gcongr)
      (by rw [← add_div, one_lt_div hk]; exact hgt)
    rw [h]
  have hker : |gaussQ (rt nq) nq qmin qmax (fun q => match muRange false [Real.exp n0 / k, Real.exp nl / k] 2 (q / k) with
      | .ok (some _) => q / k * (ka1 (pw (q / k)) c * (Pk * P q))
      | _ => 0) - gaussQ (rt nq) nq qmin qmax gx| ≤ 1 / (6 * 10 ^ 22) * gaussQ (rt nq) nq qmin qmax ga := by
    unfold gaussQ
    rw [← ExactRoots.gsum_sub]
    unfold gsum
    rw [Finset.mul_sum]
    refine (Finset.abs_sum_le_sum_abs _ _).trans (Finset.sum_le_sum fun i hi => ?_)
    have hi := Finset.mem_range.1 hi
    beta_reduce
    rw [← hL0, ← hL1, hused i hi]
    set q := Real.exp (nodeAt (rt nq) L0 L1 nq i)
    have hq : 0 < q := Real.exp_pos _
    have hw := (hr nq).weight_nonneg hL.le i hi
    have hker := ka1_error (q / k) (div_pos hq hk) c
    have e3 : weightAt (rt nq) L0 L1 nq i * (q / k * (ka1 (pw (q / k)) c * (Pk * P q)) - gx q) =
        weightAt (rt nq) L0 L1 nq i * (q / k) * (Pk * P q) * (ka1 (pw (q / k)) c - aKer c (q / k)) := by simp only [gx]; ring
    rw [e3, abs_mul, abs_mul, abs_mul, abs_of_nonneg hw, abs_of_pos (div_pos hq hk), abs_mul]
    simp only [ga]
    have : 0 ≤ weightAt (rt nq) L0 L1 nq i * (q / k) * (|Pk| * |P q|) := by
      have := (div_pos hq hk).le
      positivity
    nlinarith
  have hint : intQ qmin qmax ga = 1 / k * |Pk| * ∫ q in qmin..qmax, |P q| := by
    rw [← integral_exp _ qmin qmax h0 h1, ← intervalIntegral.integral_const_mul]
    unfold intQ
    refine intervalIntegral.integral_congr fun t _ => ?_
    simp only [ga]
    ring
  have hx' : |gaussQ (rt nq) nq qmin qmax gx - intQ qmin qmax gx| ≤ d := hx
  have ha' : |gaussQ (rt nq) nq qmin qmax ga - intQ qmin qmax ga| ≤ d := ha
  have tri : |gaussQ (rt nq) nq qmin qmax (fun q => match muRange false [Real.exp n0 / k, Real.exp nl / k] 2 (q / k) with
      | .ok (some _) => q / k * (ka1 (pw (q / k)) c * (Pk * P q))
      | _ => 0) - intQ qmin qmax gx| ≤ 2 * d + 1 / (6 * 10 ^ 22) * intQ qmin qmax ga := by
    refine near_tri hker hx' ha' (by norm_num) (by norm_num)
  unfold radialA1
  rw [← hC, ← mul_sub, abs_mul, abs_of_pos hC0]
  refine (mul_le_mul_of_nonneg_left tri hC0.le).trans (le_of_eq ?_)
  rw [hint, hd, hC]
  have := Real.pi_pos
  field_simp

/-- C72: the five columns, weighted with the powers of the growth rate and of the line-of-sight cosine, are entries of a double sequence
that approaches the loop integral of the A correction of the tree-level bispectrum: the wavevector in the range, the spectrum at the
difference taken as zero out of the range.  What remains in the limit is the error of the branches of the kernel. -/
theorem C72_A {t : Pk ℝ} {rt : ℕ → ℕ → ℝ × ℝ} {qmin qmax : ℝ} (hc : LimitCase t rt qmin qmax) (k n : E3) (hk : k ≠ 0)
    (hks : ‖k‖ < qmin + qmax) (hn : ‖n‖ = 1) (f : ℝ) :
    ∃ (P : ℝ → ℝ) (V : Fin 5 → ℕ → ℕ → ℝ), (∀ q, look t .poly q = .ok (P q)) ∧
      (∀ e > 0, ∃ N, ∀ nq nm, N ≤ nq → N ≤ nm → |(∑ c, cosOf k n ^ (2 * (expA c).1) * f ^ (expA c).2 * V c nq nm) -
        (correctionA n f P k (bothIn k qmin qmax) + correctionAkp n f P k ({q : E3 | qmin ≤ ‖q‖ ∧ ‖q‖ ≤ qmax} \ bothIn k qmin qmax))| ≤
        e + 1 / (6 * 10 ^ 22) * ((∑ c, |f| ^ (expA c).2) * (‖k‖ ^ 2 / (4 * Real.pi ^ 2) * |P ‖k‖| * ∫ q in qmin..qmax, |P q|))) ∧
      ∀ (e : Env) (es : List Event) (μ ν : Mem) (ik : ℕ) (c : Fin 5), e.t = t → e.rt = rt → e.DoubleRule .A_1loop_q .A_1loop_mu →
        glqRange e.t (e.cfg.prec .A_1loop_q) = .ok (qmin, qmax) → RoomFlat 5 e.ks.length μ → Schedule 5 e.ks.length es →
        runTermsA1 e es μ = .ok ν → e.ks[ik]? = some ‖k‖ →
        ν.at (cellOf2 clsA "pk" 5 ik c) = some (some (V c (e.cfg.prec .A_1loop_q).n (e.cfg.prec .A_1loop_mu).n)) := by
  have hκ := norm_pos_iff.2 hk
  obtain ⟨P, hP, -⟩ := tame_look t hc.phys hc.two
  refine ⟨P, fun c nq nm => planeRule rt false qmin qmax ‖k‖ (densA1 (P ‖k‖) c) P nq nm + radialA1 rt qmin qmax ‖k‖ (P ‖k‖) P c nq, hP, ?_, ?_⟩
  · intro e he
    have cP := hc.cts hP
    rw [correctionA_columns P k n hk hn f qmin qmax hc.pos hc.lt cP]
    set S := ∑ c, |f| ^ (expA c).2 with hS
    have hS0 : 0 ≤ S := Finset.sum_nonneg fun c _ => by positivity
    set d := e / (2 * (S + 1)) with hd
    have hd0 : 0 < d := by positivity
    have h1 (c : Fin 5) := Metric.tendsto_atTop.1 (planeRule_tendsto hc.roots false hκ hc.pos hc.lt.le (densA1 (P ‖k‖) c) P cP
      (densA1_continuousOn (P ‖k‖) c)) d hd0
    choose N1 hN1 using h1
    choose N2 hN2 using fun c => radialA1_near hc.roots hκ hc.pos hc.lt hks (P ‖k‖) P cP c d hd0
    refine ⟨∑ c, ((N1 c).1 + (N1 c).2 + N2 c), fun nq nm hq hm => ?_⟩
    have hle : ∀ c, (N1 c).1 + (N1 c).2 + N2 c ≤ ∑ c, ((N1 c).1 + (N1 c).2 + N2 c) := fun c =>
      Finset.single_le_sum (f := fun c => (N1 c).1 + (N1 c).2 + N2 c) (fun _ _ => Nat.zero_le _) (Finset.mem_univ c)
    set B := ‖k‖ ^ 2 / (4 * Real.pi ^ 2) * |P ‖k‖| * ∫ q in qmin..qmax, |P q| with hB
    have hterm : ∀ c, |(planeRule rt false qmin qmax ‖k‖ (densA1 (P ‖k‖) c) P nq nm + radialA1 rt qmin qmax ‖k‖ (P ‖k‖) P c nq) -
        (planeForm (intQ qmin qmax) intMu false qmin qmax ‖k‖ (densA1 (P ‖k‖) c) P +
          ‖k‖ ^ 3 / (4 * Real.pi ^ 2) * intQ qmin qmax fun q => q / ‖k‖ * (aKer c (q / ‖k‖) * (P ‖k‖ * P q)))| ≤ 2 * d + 1 / (6 * 10 ^ 22) * B := fun c => by
      have a1 := (hN1 c (nq, nm) ⟨by have := hle c; show (N1 c).1 ≤ nq; omega, by have := hle c; show (N1 c).2 ≤ nm; omega⟩).le
      rw [Real.dist_eq] at a1
      have a2 := hN2 c nq (by have := hle c; omega)
      rw [add_sub_add_comm]
      refine (abs_add_le _ _).trans ?_
      linarith
    rw [← Finset.sum_sub_distrib]
    refine (Finset.abs_sum_le_sum_abs _ _).trans ?_
    have hw : ∀ c, |cosOf k n ^ (2 * (expA c).1) * f ^ (expA c).2| ≤ |f| ^ (expA c).2 := fun c => by
      rw [abs_mul, abs_pow f, pow_mul, abs_of_nonneg (pow_nonneg (sq_nonneg _) _)]
      exact mul_le_of_le_one_left (by positivity) (pow_le_one₀ (sq_nonneg _) (cosOf_sq_le k n))
    have hB0 : 0 ≤ 2 * d + 1 / (6 * 10 ^ 22) * B := (abs_nonneg _).trans (hterm 0)
    calc ∑ c, |cosOf k n ^ (2 * (expA c).1) * f ^ (expA c).2 *
            (planeRule rt false qmin qmax ‖k‖ (densA1 (P ‖k‖) c) P nq nm + radialA1 rt qmin qmax ‖k‖ (P ‖k‖) P c nq) -
          cosOf k n ^ (2 * (expA c).1) * f ^ (expA c).2 * (planeForm (intQ qmin qmax) intMu false qmin qmax ‖k‖ (densA1 (P ‖k‖) c) P +
            ‖k‖ ^ 3 / (4 * Real.pi ^ 2) * intQ qmin qmax fun q => q / ‖k‖ * (aKer c (q / ‖k‖) * (P ‖k‖ * P q)))|
        ≤ ∑ c, |f| ^ (expA c).2 * (2 * d + 1 / (6 * 10 ^ 22) * B) := by
          refine Finset.sum_le_sum fun c _ => ?_
          rw [← mul_sub, abs_mul]
          exact mul_le_mul (hw c) (hterm c) (abs_nonneg _) (by positivity)
      _ = S * (2 * d) + 1 / (6 * 10 ^ 22) * (S * B) := by rw [← Finset.sum_mul]; ring
      _ ≤ e + 1 / (6 * 10 ^ 22) * (S * B) := by
          gcongr
          rw [hd, show S * (2 * (e / (2 * (S + 1)))) = e * (S / (S + 1)) by field_simp]
          exact mul_le_of_le_one_right he.le ((div_le_one (by linarith)).2 (by linarith))
  · rintro e es μ ν ik c rfl rfl he hrange hμ hes h hik
    obtain ⟨hlt, hv⟩ := List.getElem?_eq_some_iff.1 hik
    obtain ⟨_, _, g, gm, s, v, _, _, hg, hgm, hcalc, _, _, hcell⟩ := C45_A_one_loop hμ hes h hlt
    rw [hcell 5 rfl c, Option.some.injEq, Option.some.injEq]
    obtain ⟨n2, n1, hl, -, -, hpk⟩ := he.tab hg hgm hP
    rw [hv] at hcalc
    unfold calcA1 at hcalc
    simp only [Res.bind_eq_ok] at hcalc
    obtain ⟨pk, hpkk, r, hq, e1⟩ := hcalc
    cases e1
    rw [he.polyq, hP, Res.ok.injEq] at hpkk
    subst hpkk
    obtain ⟨hd, hs⟩ := quadLoop_sum_extra hq
    have hxi : ∀ iq < g.nq, (updateGLQ g ‖k‖).x.getD iq 0 = g.q.getD iq 0 / ‖k‖ := fun j hj => by
      simp [updateGLQ, List.getD_eq_getElem?_getD, hl, hj]
    have hpos := tabQ_pos hg
    have hqpos : ∀ iq < g.nq, 0 < g.q.getD iq 0 := fun j hj => by
      rw [List.getD_eq_getElem?_getD, List.getElem?_eq_getElem (by omega)]
      exact hpos _ (List.getElem_mem _)
    have key : ∀ iq imu, UsedPoint false g gm ‖k‖ iq imu →
        (kernelA1 e.t (e.cfg.prec .A_1loop_mu).interpol (updateGLQ g ‖k‖) (P ‖k‖) iq (quadMu false (updateGLQ g ‖k‖) gm iq imu)).val c =
        densA1 (P ‖k‖) c (P (g.q.getD iq 0)) (P (kqOf false g gm ‖k‖ iq imu)) ((updateGLQ g ‖k‖).x.getD iq 0)
          (quadMu false (updateGLQ g ‖k‖) gm iq imu) * ((updateGLQ g ‖k‖).x.getD iq 0) ^ 2 := by
      rintro iq imu ⟨h1, h2, h3⟩
      have := (hd iq h1 h3).1 imu h2
      generalize hvv : (kernelA1 e.t (e.cfg.prec .A_1loop_mu).interpol (updateGLQ g ‖k‖) (P ‖k‖) iq
        (quadMu false (updateGLQ g ‖k‖) gm iq imu)).val = fv at this ⊢
      simp only [kernelA1, Res.bind_eq_ok] at this
      obtain ⟨x, hx, p, hp, rr, l1, e2⟩ := this
      obtain ⟨rfl, -⟩ := rd_eq_ok hx
      obtain ⟨rfl, -⟩ := rd_eq_ok hp
      cases e2
      have ek : kqOf false g gm ‖k‖ iq imu = (updateGLQ g ‖k‖).k * Real.sqrt (1 + pw ((updateGLQ g ‖k‖).x.getD iq 0) 2 -
          2 * pw (quadMu false (updateGLQ g ‖k‖) gm iq imu) 1 * pw ((updateGLQ g ‖k‖).x.getD iq 0) 1) := by
        simp only [kqOf, pw, updateGLQ]
        congr 2
        ring
      rw [← ek, he.polym, hP, Res.ok.injEq] at l1
      subst l1
      have hx0 : (updateGLQ g ‖k‖).x.getD iq 0 ≠ 0 := by rw [hxi iq h1]; exact (div_pos (hqpos iq h1) hκ).ne'
      have hp : (updateGLQ g ‖k‖).pk.getD iq 0 = P (g.q.getD iq 0) := hpk iq h1
      rw [hp]
      unfold densA1
      simp only [pw, pow_one]
      field_simp
    have hplane : PlaneSum false g gm ‖k‖ (densA1 (P ‖k‖) c) (fun iq _ => P (g.q.getD iq 0)) (fun iq imu => P (kqOf false g gm ‖k‖ iq imu))
        (‖k‖ ^ 3 / (4 * Real.pi ^ 2) * ∑ iq ∈ Finset.range (updateGLQ g ‖k‖).nq, ∑ imu ∈ Finset.range gm.nmu,
          quadWeight false (updateGLQ g ‖k‖) gm (fun x w => x * w) iq imu *
          (kernelA1 e.t (e.cfg.prec .A_1loop_mu).interpol (updateGLQ g ‖k‖) (P ‖k‖) iq (quadMu false (updateGLQ g ‖k‖) gm iq imu)).val c) := by
      refine planeSum_of rfl fun iq imu hu w => ?_
      rw [key iq imu hu]
      simp only [Bool.false_eq_true, if_false]
      ring
    have hform := planeSum_form (P := P) (by omega) n1 hl (fun iq imu _ => rfl) (fun iq imu _ => rfl) hplane
    rw [plane_run he hg hgm hrange] at hform
    -- the radial part
    have hrad : ‖k‖ ^ 3 / (4 * Real.pi ^ 2) * (∑ iq ∈ Finset.range (updateGLQ g ‖k‖).nq, if quadRange false (updateGLQ g ‖k‖) iq = none then 0 else
        (kernelA1a (updateGLQ g ‖k‖) (P ‖k‖) iq).val c * ((updateGLQ g ‖k‖).x.getD iq 0 * (updateGLQ g ‖k‖).w.getD iq 0)) =
        radialA1 e.rt qmin qmax ‖k‖ (P ‖k‖) P c (e.cfg.prec .A_1loop_q).n := by
      unfold radialA1 gaussQ gsum
      congr 1
      have hgv := hg
      obtain ⟨a, b, pk, h1, -, hgv⟩ := initGLQ_ok he.sizeq hgv
      rw [hrange, Res.ok.injEq, Prod.mk.injEq] at h1
      obtain ⟨rfl, rfl⟩ := h1
      have hnq : (updateGLQ g ‖k‖).nq = (e.cfg.prec .A_1loop_q).n := by rw [hgv]; rfl
      have hnq' : g.nq = (e.cfg.prec .A_1loop_q).n := hnq
      rw [hnq]
      refine Finset.sum_congr rfl fun i hi => ?_
      have hi := Finset.mem_range.1 hi
      have hqi : ∀ j < g.nq, g.q.getD j 0 = Real.exp (nodeAt (e.rt (e.cfg.prec .A_1loop_q).n) (Real.log qmin) (Real.log qmax) (e.cfg.prec .A_1loop_q).n j) :=
        fun j hj => by
          rw [hnq'] at hj
          rw [hgv]
          simp [List.getD_eq_getElem?_getD, hj]
      have hwi : (updateGLQ g ‖k‖).w.getD i 0 = weightAt (e.rt (e.cfg.prec .A_1loop_q).n) (Real.log qmin) (Real.log qmax) (e.cfg.prec .A_1loop_q).n i := by
        show g.w.getD i 0 = _
        rw [hgv]
        simp [List.getD_eq_getElem?_getD, hi]
      have hrg : muRange false (updateGLQ g ‖k‖).x (updateGLQ g ‖k‖).nq ((updateGLQ g ‖k‖).x.getD i 0)
          = muRange false [g.q.getD 0 0 / ‖k‖, g.q.getD (g.nq - 1) 0 / ‖k‖] 2 (g.q.getD i 0 / ‖k‖) := by
        rw [show (updateGLQ g ‖k‖).nq = g.nq from rfl, muRange_ends false _ g.nq _ (by omega) (by simp [updateGLQ, hl]) n1, hxi i (by omega),
          hxi 0 (by omega), hxi (g.nq - 1) (by omega)]
      have hqr : quadRange false (updateGLQ g ‖k‖) i = match muRange false [g.q.getD 0 0 / ‖k‖, g.q.getD (g.nq - 1) 0 / ‖k‖] 2 (g.q.getD i 0 / ‖k‖) with
          | .ok r => r
          | .ub _ => none := by
        unfold quadRange
        rw [hrg]
        cases muRange false [g.q.getD 0 0 / ‖k‖, g.q.getD (g.nq - 1) 0 / ‖k‖] 2 (g.q.getD i 0 / ‖k‖) <;> rfl
      have hql : g.q.getD (g.nq - 1) 0 = Real.exp (nodeAt (e.rt (e.cfg.prec .A_1loop_q).n) (Real.log qmin) (Real.log qmax)
          (e.cfg.prec .A_1loop_q).n ((e.cfg.prec .A_1loop_q).n - 1)) := by
        rw [hqi _ (by omega), hnq']
      beta_reduce
      rw [← hqi i (by omega), ← hqi 0 (by omega), ← hql]
      by_cases hnone : quadRange false (updateGLQ g ‖k‖) i = none
      · rw [if_pos hnone]
        rw [hqr] at hnone
        rcases hm : muRange false [g.q.getD 0 0 / ‖k‖, g.q.getD (g.nq - 1) 0 / ‖k‖] 2 (g.q.getD i 0 / ‖k‖) with r | _
        · rw [hm] at hnone
          dsimp only at hnone
          subst hnone
          simp
        · simp
      · rw [if_neg hnone]
        have hex := (hd i (by rw [hnq]; exact hi) hnone).2
        generalize hvv : (kernelA1a (updateGLQ g ‖k‖) (P ‖k‖) i).val = fv at hex ⊢
        simp only [kernelA1a, Res.bind_eq_ok] at hex
        obtain ⟨x, hx, p, hp, e2⟩ := hex
        obtain ⟨rfl, -⟩ := rd_eq_ok hx
        obtain ⟨rfl, -⟩ := rd_eq_ok hp
        cases e2
        have hp : (updateGLQ g ‖k‖).pk.getD i 0 = P (g.q.getD i 0) := hpk i (by omega)
        rw [hp, hxi i (by omega), hwi]
        rw [hqr] at hnone
        rcases hm : muRange false [g.q.getD 0 0 / ‖k‖, g.q.getD (g.nq - 1) 0 / ‖k‖] 2 (g.q.getD i 0 / ‖k‖) with r | _
        · rw [hm] at hnone
          dsimp only at hnone
          obtain ⟨y, rfl⟩ := Option.ne_none_iff_exists'.1 hnone
          dsimp only
          ring
        · rw [hm] at hnone
          exact absurd rfl hnone
    show r.2 c * (‖k‖ * ‖k‖ * ‖k‖ / (4 * Real.pi * Real.pi)) = planeRule e.rt false qmin qmax ‖k‖ (densA1 (P ‖k‖) c) P
      (e.cfg.prec .A_1loop_q).n (e.cfg.prec .A_1loop_mu).n + radialA1 e.rt qmin qmax ‖k‖ (P ‖k‖) P c (e.cfg.prec .A_1loop_q).n
    rw [← hform, ← hrad, hs c]
    ring

/-- C72: at a stored mode the Python layer returns this weighted sum of the columns, times the fourth power of the growth factor. -/
theorem C72_python (t : Terms) (nu f G left right : ℝ) (hs : (t.get "k").Pairwise (· < ·)) (i : ℕ) (hi : i + 1 < (t.get "k").length) :
    Terms.pkInterpA t (t.get "k")[i] (nu ^ 2) f G left right = G ^ 4 * ∑ c : Fin 5, nu ^ (2 * (expA c).1) * f ^ (expA c).2 * entry t 5 i c := by
  rw [C34_interp_A t _ nu f G left right hs i hi le_rfl (List.pairwise_iff_getElem.1 hs i (i + 1) (by omega) hi (by omega)).le]
  simp only [lineThrough, sub_self, zero_div, zero_mul, add_zero]

/-- With default settings, which take the range of the table, the run stores entries of such double sequences. -/
example : ∃ (rt : ℕ → ℕ → ℝ × ℝ) (ν : Mem) (P : ℝ → ℝ) (V : Fin 5 → ℕ → ℕ → ℝ),
    (∀ n, Found n (rt n)) ∧
    runTermsA1 ⟨Cfg.default, rt, wideTable, exKs⟩ (blocks 5 0 0 [2, 0, 3]) exMem = .ok ν ∧
    (∃ N, ∀ nq nm, N ≤ nq → N ≤ nm → |(∑ c, cosOf exVec !₂[3 / 5, 0, 4 / 5] ^ (2 * (expA c).1) * (1 / 2) ^ (expA c).2 * V c nq nm) -
      (correctionA !₂[3 / 5, 0, 4 / 5] (1 / 2) P exVec (bothIn exVec (1 / 4000) 16) +
        correctionAkp !₂[3 / 5, 0, 4 / 5] (1 / 2) P exVec ({q : E3 | 1 / 4000 ≤ ‖q‖ ∧ ‖q‖ ≤ 16} \ bothIn exVec (1 / 4000) 16))| ≤
      1 / 1000 + 1 / (6 * 10 ^ 22) * ((∑ c, |(1 / 2 : ℝ)| ^ (expA c).2) * (‖exVec‖ ^ 2 / (4 * Real.pi ^ 2) * |P ‖exVec‖| * ∫ q in (1 / 4000)..16, |P q|))) ∧
    ∀ c : Fin 5, ν.at (cellOf2 clsA "pk" 5 3 c) = some (some (V c 2000 20)) := by
  choose rt hf using found_exist
  have hr := fun n => (hf n).nearRoots
  have hrt : ∀ n, n < 2 ^ 63 → RootsOrdered (rt n) n := fun n hn => nearRoots_ordered (hr n) hn
  have hok : (⟨Cfg.default, rt, wideTable, exKs⟩ : Env).Ok := ⟨wide_physical.toWF, by norm_num [wideTable], (exEnv_ok rt exKs).size,
    (exEnv_ok rt exKs).poly, (exEnv_ok rt exKs).interp⟩
  have hl : LimitCase wideTable rt (1 / 4000) 16 := ⟨wide_physical, by norm_num [wideTable], hr, by norm_num [wideTable],
    by norm_num [wideTable], by norm_num⟩
  obtain ⟨ν, h⟩ := C59_A_one_loop hok (exSchedule 5) (exRoomFlat 5 (by norm_num))
  obtain ⟨P, V, -, h1, h2⟩ := C72_A hl exVec !₂[3 / 5, 0, 4 / 5] (norm_pos_iff.1 (by rw [exVec_norm]; norm_num)) (by rw [exVec_norm]; norm_num)
    (by rw [EuclideanSpace.norm_eq, Fin.sum_univ_three]; simp; norm_num) (1 / 2)
  refine ⟨rt, ν, P, V, hf, h, h1 _ (by norm_num), fun c => ?_⟩
  have hd : (⟨Cfg.default, rt, wideTable, exKs⟩ : Env).DoubleRule .A_1loop_q .A_1loop_mu := ⟨wide_physical, hok.two,
    by norm_num [RangeProper, Cfg.default, defaultPrec], by norm_num [Cfg.default, defaultPrec], hok.size _, hok.size _, hrt _ (hok.size _),
    hrt _ (hok.size _), hok.poly _, hok.poly _⟩
  exact h2 ⟨Cfg.default, rt, wideTable, exKs⟩ _ _ ν 3 c rfl rfl hd
    (by simp [glqRange, Cfg.default, defaultPrec, lit_real, le_real, wideTable, rd, show subSize 4 1 = 3 by decide])
    (exRoomFlat 5 (by norm_num)) (exSchedule 5) h (by rw [exVec_norm]; simp [exKs])

/-- A container of two modes. -/
example : Terms.pkInterpA ⟨[("k", [1, 2]), ("pk", List.replicate 10 1)]⟩ 1 ((1 / 2) ^ 2) (1 / 3) 2 0 0 =
    2 ^ 4 * ∑ c : Fin 5, (1 / 2) ^ (2 * (expA c).1) * (1 / 3) ^ (expA c).2 * entry ⟨[("k", [1, 2]), ("pk", List.replicate 10 1)]⟩ 5 0 c :=
  C72_python ⟨[("k", [1, 2]), ("pk", List.replicate 10 1)]⟩ (1 / 2) (1 / 3) 2 0 0 (by norm_num [Terms.get, List.lookup]) 0
    (by norm_num [Terms.get, List.lookup])

theorem halfA_continuousOn (n : E3) (f : ℝ) (P : ℝ → ℝ) (k : E3) (hk : k ≠ 0) (q0 q1 Pk : ℝ) (h0 : 0 < q0) (hP : ContinuousOn P (Set.Icc q0 q1)) :
    ContinuousOn (fun q => inner ℝ n q / ‖q‖ ^ 2 * losCross n f q (k - q) (-k) (P ‖q‖) (P ‖k - q‖) Pk) (bothIn k q0 q1) := by
  have hne := fun q hq => (bothIn_ne (k := k) (q0 := q0) (q1 := q1) h0 q hq).1
  have hne' := fun q hq => (bothIn_ne (k := k) (q0 := q0) (q1 := q1) h0 q hq).2
  have c1 : ContinuousOn (fun q : E3 => P ‖q‖) (bothIn k q0 q1) := hP.comp (by fun_prop) fun q hq => hq.1
  have c2 : ContinuousOn (fun q : E3 => P ‖k - q‖) (bothIn k q0 q1) := hP.comp (by fun_prop) fun q hq => hq.2
  have g1 (a : Field) := sptSym2_continuousOn a (bothIn k q0 q1) (fun q => k - q) (fun _ => -k) (by fun_prop) continuous_const hne'
    fun _ _ => neg_ne_zero.2 hk
  have g2 (a : Field) := sptSym2_continuousOn a (bothIn k q0 q1) (fun q => q) (fun _ => -k) (by fun_prop) continuous_const hne
    fun _ _ => neg_ne_zero.2 hk
  have g3 (a : Field) := sptSym2_continuousOn a (bothIn k q0 q1) (fun q => q) (fun q => k - q) (by fun_prop) (by fun_prop) hne hne'
  have t1 (a b c : Field) : ContinuousOn (fun q => treeCross a b c q (k - q) (-k) (P ‖q‖) (P ‖k - q‖) Pk) (bothIn k q0 q1) :=
    continuousOn_const.mul (((((g1 a).mul c2).mul continuousOn_const).add (((g2 b).mul c1).mul continuousOn_const)).add (((g3 c).mul c1).mul c2))
  have z2 := losSq_continuousOn n (fun q => k - q) _ (by fun_prop) hne'
  have z3 : ContinuousOn (fun _ : E3 => losSq n (-k)) (bothIn k q0 q1) := continuousOn_const
  have cf : ContinuousOn (fun _ : E3 => f) (bothIn k q0 q1) := continuousOn_const
  have l1 : ContinuousOn (fun q : E3 => inner ℝ n q / ‖q‖ ^ 2) (bothIn k q0 q1) :=
    ContinuousOn.div (by fun_prop) (by fun_prop) fun q hq => pow_ne_zero 2 (norm_ne_zero_iff.2 (hne q hq))
  unfold losCross
  exact l1.mul ((((t1 _ _ _).add ((cf.mul z2).mul (t1 _ _ _))).add ((cf.mul z3).mul (t1 _ _ _))).add (((cf.mul z2).mul (cf.mul z3)).mul (t1 _ _ _)))

/-- C72: over wavevectors with both `p` and `k-p` in the range the integrand can be replaced by twice the term with the velocity at `p`,
the published form of the correction. -/
theorem C72_twice (n : E3) (f : ℝ) (P : ℝ → ℝ) (k : E3) (hk : k ≠ 0) (q0 q1 : ℝ) (h0 : 0 < q0) (hP : ContinuousOn P (Set.Icc q0 q1)) :
    correctionA n f P k (bothIn k q0 q1) = f * inner ℝ n k * (1 / (2 * Real.pi) ^ 3 * ∫ p in bothIn k q0 q1,
      2 * (inner ℝ n p / ‖p‖ ^ 2 * losCross n f p (k - p) (-k) (P ‖p‖) (P ‖k - p‖) (P ‖k‖))) := by
  have hi := (halfA_continuousOn n f P k hk q0 q1 (P ‖k‖) h0 hP).integrableOn_compact (μ := volume) (bothIn_compact k q0 q1)
  have hmp : MeasurePreserving (fun p : E3 => k - p) volume volume := Measure.measurePreserving_sub_left volume k
  have hpre : (fun p : E3 => k - p) ⁻¹' bothIn k q0 q1 = bothIn k q0 q1 := by
    ext p
    simp only [bothIn, Set.mem_preimage, Set.mem_ofPred_eq, sub_sub_cancel]
    exact and_comm
  have hemb : MeasurableEmbedding fun p : E3 => k - p := (Homeomorph.subLeft k).measurableEmbedding
  have h2 := hmp.setIntegral_preimage_emb hemb
    (fun p => inner ℝ n p / ‖p‖ ^ 2 * losCross n f p (k - p) (-k) (P ‖p‖) (P ‖k - p‖) (P ‖k‖)) (bothIn k q0 q1)
  have h3 := (hmp.integrableOn_comp_preimage hemb (s := bothIn k q0 q1)).2 hi
  rw [hpre] at h2 h3
  unfold correctionA
  congr 2
  rw [integral_const_mul, two_mul]
  nth_rw 2 [← h2]
  refine Eq.trans ?_ (integral_add hi h3)
  refine integral_congr_ae (Filter.Eventually.of_forall fun p => ?_)
  simp only [integrandA, sub_sub_cancel]

/-- A wavevector of length 8 and a constant spectrum. -/
example : correctionA !₂[3 / 5, 0, 4 / 5] (1 / 2) (fun _ => 1) exVec (bothIn exVec (1 / 4000) 16) =
    1 / 2 * inner ℝ (!₂[3 / 5, 0, 4 / 5] : E3) exVec * (1 / (2 * Real.pi) ^ 3 * ∫ p in bothIn exVec (1 / 4000) 16,
      2 * (inner ℝ (!₂[3 / 5, 0, 4 / 5] : E3) p / ‖p‖ ^ 2 * losCross !₂[3 / 5, 0, 4 / 5] (1 / 2) p (exVec - p) (-exVec) 1 1 1)) :=
  C72_twice _ _ _ _ (norm_pos_iff.1 (by rw [exVec_norm]; norm_num)) _ _ (by norm_num) continuousOn_const

end Verif
