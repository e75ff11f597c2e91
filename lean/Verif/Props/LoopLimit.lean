import Verif.Proofs.CtsLook
import Verif.Proofs.PlaneConv
import Verif.Proofs.Found

/-!
# C68: the double rules converge to the loop integrals

C66 identifies the expression of the code with integrals in place of sums.  Here the sums themselves are shown to tend to the loop
integral over the configured range, although the angular limits are set by the extreme nodes instead of the ends of the range.
-/

namespace Verif

open MeasureTheory

/-- C10: between the first and the last mode of the table the interpolated spectrum is continuous. -/
theorem C10_continuous_inside (t : Pk ℝ) (h : t.Increasing) (h1 : 1 ≤ t.nk) (P : ℝ → ℝ) (hP : ∀ k, look t .poly k = .ok (P k)) :
    ContinuousOn P (Set.Icc (t.k.getD 0 0) (t.k.getD (t.nk - 1) 0)) :=
  lookup_continuousOn t h h1 P fun k _ _ => by rw [← look_lookup t h h1, hP]

/-! ## Densities -/

/-- The points at which the densities are evaluated: neither `q` nor `k-q` vanishes. -/
def goodPts (α : Type) : Set (α × α × ℝ × ℝ) := {z | 0 < z.2.2.1 ∧ 0 < 1 + z.2.2.1 * z.2.2.1 - 2 * z.2.2.2 * z.2.2.1}

theorem F2Fast_continuousOn {Z : Type} [TopologicalSpace Z] {s : Set Z} (a : Field) {u v w : Z → ℝ} (hu : ContinuousOn u s) (hv : ContinuousOn v s)
    (hw : ContinuousOn w s) (nu : ∀ z ∈ s, u z ≠ 0) (nv : ∀ z ∈ s, v z ≠ 0) : ContinuousOn (fun z => F2Fast a (u z) (v z) (w z)) s := by
  cases a <;> unfold F2Fast <;> dsimp only
  · exact (continuousOn_const.add ((continuousOn_const.mul hw).mul ((continuousOn_const.div hu nu).add (continuousOn_const.div hv nv)))).add
      ((((continuousOn_const.mul hw).mul hw).div hu nu).div hv nv)
  · exact (continuousOn_const.add ((continuousOn_const.mul hw).mul ((continuousOn_const.div hu nu).add (continuousOn_const.div hv nv)))).add
      ((((continuousOn_const.mul hw).mul hw).div hu nu).div hv nv)

theorem len_continuous (k : ℝ) : Continuous fun z : ℝ × ℝ × ℝ × ℝ => k * Real.sqrt (1 + z.2.2.1 * z.2.2.1 - 2 * z.2.2.2 * z.2.2.1) :=
  continuous_const.mul (Continuous.sqrt (by fun_prop))

theorem good_ne {k : ℝ} (hk : 0 < k) {z : ℝ × ℝ × ℝ × ℝ} (hz : z ∈ goodPts ℝ) :
    k * Real.sqrt (1 + z.2.2.1 * z.2.2.1 - 2 * z.2.2.2 * z.2.2.1) ≠ 0 ∧ k * z.2.2.1 ≠ 0 :=
  ⟨(mul_pos hk (Real.sqrt_pos.2 hz.2)).ne', (mul_pos hk hz.1).ne'⟩

theorem densTree_continuousOn (a b : Field) (k : ℝ) (hk : 0 < k) :
    ContinuousOn (fun z : ℝ × ℝ × ℝ × ℝ => densTree a b k z.1 z.2.1 z.2.2.1 z.2.2.2) (goodPts ℝ) := by
  have cl := len_continuous k
  have cx : Continuous fun z : ℝ × ℝ × ℝ × ℝ => k * z.2.2.1 := by fun_prop
  have hg : ∀ c, ContinuousOn (fun z : ℝ × ℝ × ℝ × ℝ => gamma2Tree c (k * Real.sqrt (1 + z.2.2.1 * z.2.2.1 - 2 * z.2.2.2 * z.2.2.1)) (k * z.2.2.1) k)
      (goodPts ℝ) := fun c => by
    refine F2Fast_continuousOn c (cl.mul cl).continuousOn (cx.mul cx).continuousOn (Continuous.continuousOn ?_) (fun z hz => ?_) fun z hz => ?_
    · exact ((continuous_const.sub (cl.mul cl)).sub (cx.mul cx)).div_const 2
    · exact mul_ne_zero (good_ne hk hz).1 (good_ne hk hz).1
    · exact mul_ne_zero (good_ne hk hz).2 (good_ne hk hz).2
  have c1 : Continuous fun z : ℝ × ℝ × ℝ × ℝ => 2 * z.1 * z.2.1 := by fun_prop
  exact (c1.continuousOn.mul (hg a)).mul (hg b)

theorem densBias_continuousOn (b : BiasTerm) (a : Field) (k : ℝ) (hk : 0 < k) :
    ContinuousOn (fun z : ℝ × ℝ × ℝ × ℝ => densBias (biasCode b) a k z.1 z.2.1 z.2.2.1 z.2.2.2) (goodPts ℝ) := by
  have cl := len_continuous k
  have cx : Continuous fun z : ℝ × ℝ × ℝ × ℝ => k * z.2.2.1 := by fun_prop
  have cm : ContinuousOn (fun z : ℝ × ℝ × ℝ × ℝ => (k * k - k * Real.sqrt (1 + z.2.2.1 * z.2.2.1 - 2 * z.2.2.2 * z.2.2.1) *
      (k * Real.sqrt (1 + z.2.2.1 * z.2.2.1 - 2 * z.2.2.2 * z.2.2.1)) - k * z.2.2.1 * (k * z.2.2.1)) / 2 / (k * z.2.2.1) /
      (k * Real.sqrt (1 + z.2.2.1 * z.2.2.1 - 2 * z.2.2.2 * z.2.2.1))) (goodPts ℝ) := by
    refine ContinuousOn.div (ContinuousOn.div ?_ cx.continuousOn fun z hz => (good_ne hk hz).2) cl.continuousOn fun z hz => (good_ne hk hz).1
    exact (((continuous_const.sub (cl.mul cl)).sub (cx.mul cx)).div_const 2).continuousOn
  have c1 : ContinuousOn (fun z : ℝ × ℝ × ℝ × ℝ => z.1) (goodPts ℝ) := continuousOn_fst
  have c2 : ContinuousOn (fun z : ℝ × ℝ × ℝ × ℝ => z.2.1) (goodPts ℝ) := (by fun_prop : Continuous fun z : ℝ × ℝ × ℝ × ℝ => z.2.1).continuousOn
  have c4 : ContinuousOn (fun z : ℝ × ℝ × ℝ × ℝ => z.2.2.2) (goodPts ℝ) := (by fun_prop : Continuous fun z : ℝ × ℝ × ℝ × ℝ => z.2.2.2).continuousOn
  have hF := F2Fast_continuousOn a (cx.mul cx).continuousOn (cl.mul cl).continuousOn ((cm.mul cx.continuousOn).mul cl.continuousOn)
    (fun z hz => mul_ne_zero (good_ne hk hz).2 (good_ne hk hz).2) (fun z hz => mul_ne_zero (good_ne hk hz).1 (good_ne hk hz).1)
  have cS := (cm.mul cm).sub (continuousOn_const (c := (1 / 3 : ℝ)))
  unfold densBias
  cases b <;> simp only [biasCode, kernelB2, kernelBs2, kernelB22, kernelB2s2, kernelBs22, kernelSigma3sq, D2, S2]
  · exact (c1.mul c2).mul hF
  · exact ((c1.mul c2).mul hF).mul cS
  · exact (continuousOn_const.mul c1).mul (c2.sub c1)
  · exact (continuousOn_const.mul c1).mul ((continuousOn_const.mul c1).sub (c2.mul cS))
  · exact (continuousOn_const.mul c1).mul ((continuousOn_const.mul c1).sub ((c2.mul cS).mul cS))
  · exact (continuousOn_const.mul c1).mul (((continuousOn_const.mul (((c4.mul c4).sub continuousOn_const).sub continuousOn_const)).mul cS).add
      continuousOn_const)

/-! ## Limits -/

/-- The value of the double rule with `nq` radial and `nm` angular nodes. -/
noncomputable def planeRule {α : Type} (rt : ℕ → ℕ → ℝ × ℝ) (half : Bool) (qmin qmax k : ℝ) (D : α → α → ℝ → ℝ → ℝ) (P : ℝ → α) (nq nm : ℕ) : ℝ :=
  planeForm (gaussQ (rt nq) nq qmin qmax) (gsum (rt nm) nm) half (Real.exp (nodeAt (rt nq) (Real.log qmin) (Real.log qmax) nq 0))
    (Real.exp (nodeAt (rt nq) (Real.log qmin) (Real.log qmax) nq (nq - 1))) k D P

theorem planeRule_tendsto {α : Type} [TopologicalSpace α] {rt : ℕ → ℕ → ℝ × ℝ} (hr : ∀ n, NearRoots n (rt n)) (half : Bool) {qmin qmax k : ℝ}
    (hk : 0 < k) (h0 : 0 < qmin) (hq : qmin ≤ qmax) (D : α → α → ℝ → ℝ → ℝ) (P : ℝ → α) (hP : ContinuousOn P (Set.Icc qmin qmax))
    (hD : ContinuousOn (fun z : α × α × ℝ × ℝ => D z.1 z.2.1 z.2.2.1 z.2.2.2) (goodPts α)) :
    Filter.Tendsto (fun n : ℕ × ℕ => planeRule rt half qmin qmax k D P n.1 n.2) Filter.atTop
      (nhds (planeForm (intQ qmin qmax) intMu half qmin qmax k D P)) := by
  refine Metric.tendsto_atTop.2 fun e he => ?_
  obtain ⟨N, hN⟩ := plane_limit half k qmin qmax D P hk h0 hq hP hD (e / 2) (by linarith)
  refine ⟨(N, N), fun n hn => ?_⟩
  rw [Real.dist_eq]
  have := hN n.1 n.2 hn.1 hn.2 _ _ (hr n.1) (hr n.2)
  unfold planeRule
  linarith

/-- The angular rule set up by the code. -/
theorem ruleMu_eq {rt : ℕ → ℝ × ℝ} {n : ℕ} (hn : n < 2 ^ 63) {gm : GLMu ℝ} (hgm : initGLMu rt n = .ok gm) :
    ruleMu gm = gsum rt n := by
  rw [initGLMu_eq _ _ hn, Res.ok.injEq] at hgm
  subst hgm
  funext a b f
  unfold ruleMu gsum
  refine Finset.sum_congr rfl fun i hi => ?_
  have hi := Finset.mem_range.1 hi
  simp only [updateGLMu, lit_real]
  push_cast
  rw [weightAt_scale _ _ a b, nodeAt_ref _ _ a b]
  simp only [List.getD_eq_getElem?_getD, List.getElem?_map, List.getElem?_range hi, Option.map_some, Option.getD_some]
  congr 1
  · ring
  · congr 1
    ring

/-- The rules set up by the code. -/
theorem plane_run {α : Type} {e : Env} {pq pm : PName} (he : e.DoubleRule pq pm) {g : GLQ ℝ} {gm : GLMu ℝ} (hg : e.tabQ pq = .ok g) (hgm : e.tabMu pm = .ok gm)
    {qmin qmax : ℝ} (hrange : glqRange e.t (e.cfg.prec pq) = .ok (qmin, qmax))
    (half : Bool) (k : ℝ) (D : α → α → ℝ → ℝ → ℝ) (P : ℝ → α) :
    planeForm (ruleQ g) (ruleMu gm) half (g.q.getD 0 0) (g.q.getD (g.nq - 1) 0) k D P
      = planeRule e.rt half qmin qmax k D P (e.cfg.prec pq).n (e.cfg.prec pm).n := by
  obtain ⟨a, b, pk, h1, -, rfl⟩ := initGLQ_ok he.sizeq hg
  rw [hrange, Res.ok.injEq, Prod.mk.injEq] at h1
  obtain ⟨rfl, rfl⟩ := h1
  have h2 := he.nodes
  unfold planeRule
  have e0 : ∀ i < (e.cfg.prec pq).n, (List.map (fun i => Real.exp (nodeAt (e.rt (e.cfg.prec pq).n) (Real.log qmin) (Real.log qmax) (e.cfg.prec pq).n i))
      (List.range (e.cfg.prec pq).n)).getD i 0 = Real.exp (nodeAt (e.rt (e.cfg.prec pq).n) (Real.log qmin) (Real.log qmax) (e.cfg.prec pq).n i) :=
    fun i hi => by simp [List.getD_eq_getElem?_getD, hi]
  dsimp only
  rw [e0 0 (by omega), e0 _ (by omega)]
  rw [ruleMu_eq he.sizem hgm]
  congr 1
  funext f
  unfold ruleQ gaussQ gsum
  refine Finset.sum_congr rfl fun i hi => ?_
  have hi := Finset.mem_range.1 hi
  dsimp only
  rw [e0 i hi]
  simp [List.getD_eq_getElem?_getD, hi]

/-- What is common to the terms: a physical table, roots found by the search (or near enough to exact ones) for every number of nodes, and a configured range inside the table. -/
structure LimitCase (t : Pk ℝ) (rt : ℕ → ℕ → ℝ × ℝ) (qmin qmax : ℝ) : Prop where
  phys : t.Physical
  two : 2 ≤ t.nk
  roots : ∀ n, NearRoots n (rt n)
  lo : t.k.getD 0 0 ≤ qmin
  hi : qmax ≤ t.k.getD (t.nk - 1) 0
  lt : qmin < qmax

theorem LimitCase.pos {t : Pk ℝ} {rt : ℕ → ℕ → ℝ × ℝ} {qmin qmax : ℝ} (h : LimitCase t rt qmin qmax) : 0 < qmin :=
  (h.phys.getD_pos (by have := h.two; omega)).trans_le h.lo

theorem LimitCase.cts {t : Pk ℝ} {rt : ℕ → ℕ → ℝ × ℝ} {qmin qmax : ℝ} (h : LimitCase t rt qmin qmax) {P : ℝ → ℝ}
    (hP : ∀ k, look t .poly k = .ok (P k)) : ContinuousOn P (Set.Icc qmin qmax) :=
  (C10_continuous_inside t h.phys.toIncreasing (by have := h.two; omega) P hP).mono (Set.Icc_subset_Icc h.lo h.hi)

/-- C68, `Spectrum1Loop`: there is a double sequence that tends to the loop integral over the configured range as the numbers of nodes
grow, and whose entry is what a run with these numbers of nodes stores. -/
theorem C68_one_loop {t : Pk ℝ} {rt : ℕ → ℕ → ℝ × ℝ} {qmin qmax : ℝ} (hc : LimitCase t rt qmin qmax) (a b : Field) (k : E3) (hk : k ≠ 0) :
    ∃ (P : ℝ → ℝ) (V : ℕ → ℕ → ℝ), (∀ k, look t .poly k = .ok (P k)) ∧
      Filter.Tendsto (fun n : ℕ × ℕ => V n.1 n.2) Filter.atTop
        (nhds (1 / (2 * Real.pi) ^ 3 * ∫ q in bothIn k qmin qmax, specTree P a b (toVec k) (toVec q))) ∧
      ∀ (e : Env) (es : List Event) (μ ν : Mem) (ik : ℕ), e.t = t → e.rt = rt → e.DoubleRule .gamma2_tree_q .gamma2_tree_mu →
        glqRange t (e.cfg.prec .gamma2_tree_q) = .ok (qmin, qmax) → Room 6 e.ks.length μ → Schedule 3 e.ks.length es →
        runTerms1 e a b es μ = .ok ν → e.ks[ik]? = some ‖k‖ →
        ν.at (cellOf cls1 "pk_gamma2_tree_tree" ik) = some (some (V (e.cfg.prec .gamma2_tree_q).n (e.cfg.prec .gamma2_tree_mu).n)) := by
  have hκ := norm_pos_iff.2 hk
  obtain ⟨P, hP, hT⟩ := tame_look t hc.phys hc.two
  refine ⟨P, planeRule rt true qmin qmax ‖k‖ (densTree a b ‖k‖) P, hP, ?_, ?_⟩
  · rw [← C66_tree P hT a b k hk qmin qmax hc.pos hc.lt]
    exact planeRule_tendsto hc.roots true hκ hc.pos hc.lt.le _ P (hc.cts hP) (densTree_continuousOn a b _ hκ)
  · rintro e es μ ν ik rfl rfl he hrange hμ hes h hik
    obtain ⟨hlt, hv⟩ := List.getElem?_eq_some_iff.1 hik
    obtain ⟨g, gm, P', v, hg, hgm, hP', hcell, hvv, -⟩ := C66_one_loop he hμ hes h hlt (by rw [hv]; exact hκ)
    have : P' = P := funext fun x => by have := (hP' x).symm.trans (hP x); rwa [Res.ok.injEq] at this
    subst this
    rw [hcell, hvv, plane_run he hg hgm hrange, hv]

/-- C68, `Bias1Loop`: the same for the eight columns. -/
theorem C68_bias {t : Pk ℝ} {rt : ℕ → ℕ → ℝ × ℝ} {qmin qmax : ℝ} (hc : LimitCase t rt qmin qmax) (c : Fin 8) (k : E3) (hk : k ≠ 0) :
    ∃ (P : ℝ → ℝ) (V : ℕ → ℕ → ℝ), (∀ k, look t .poly k = .ok (P k)) ∧
      Filter.Tendsto (fun n : ℕ × ℕ => V n.1 n.2) Filter.atTop
        (nhds (1 / (2 * Real.pi) ^ 3 * ∫ q in bothIn k qmin qmax, specBias P (biasFieldOf c) (toVec k) (toVec q) (biasTermOf c))) ∧
      ∀ (e : Env) (es : List Event) (μ ν : Mem) (ik : ℕ), e.t = t → e.rt = rt → e.DoubleRule .bias_1loop_q .bias_1loop_mu →
        glqRange t (e.cfg.prec .bias_1loop_q) = .ok (qmin, qmax) → Room 11 e.ks.length μ → Schedule 8 e.ks.length es →
        runTermsBias e es μ = .ok ν → e.ks[ik]? = some ‖k‖ →
        ν.at (cellOf clsBias (biasCol c).1 ik) = some (some (V (e.cfg.prec .bias_1loop_q).n (e.cfg.prec .bias_1loop_mu).n)) := by
  have hκ := norm_pos_iff.2 hk
  obtain ⟨P, hP, hT⟩ := tame_look t hc.phys hc.two
  refine ⟨P, planeRule rt (biasHalf (biasTermOf c)) qmin qmax ‖k‖ (densBias (biasCode (biasTermOf c)) (biasFieldOf c) ‖k‖) P, hP, ?_, ?_⟩
  · rw [← C66_bias t P hP hT _ _ k hk qmin qmax hc.pos hc.lt]
    exact planeRule_tendsto hc.roots _ hκ hc.pos hc.lt.le _ P (hc.cts hP) (densBias_continuousOn _ _ _ hκ)
  · rintro e es μ ν ik rfl rfl he hrange hμ hes h hik
    obtain ⟨hlt, hv⟩ := List.getElem?_eq_some_iff.1 hik
    obtain ⟨g, gm, P', hg, hgm, hP', hcols⟩ := C66_run_bias he hμ hes h hlt (by rw [hv]; exact hκ)
    obtain ⟨v, hcell, hvv, -⟩ := hcols c
    have : P' = P := funext fun x => by have := (hP' x).symm.trans (hP x); rwa [Res.ok.injEq] at this
    subst this
    rw [hcell, hvv, plane_run he hg hgm hrange, hv]

/-! ## Concrete cases -/

theorem nearRoots_ordered {n : ℕ} {rt : ℕ → ℝ × ℝ} (h : NearRoots n rt) (hn : n < 2 ^ 63) : RootsOrdered rt n := by
  intro x w hxw
  rw [nodesWeights_eq rt _ _ _ _ n hn (by simp [malloc]) (by simp [malloc])] at hxw
  have hx := List.map_injective_iff.mpr (Option.some_injective ℝ) (Prod.mk.inj (Res.ok.inj hxw)).1
  rw [← hx]
  constructor
  · rw [List.pairwise_map]
    exact (List.pairwise_lt_range (n := n)).imp_of_mem fun ha hb hab => h.asc _ _ hab (by simpa using hb)
  · intro y hy
    obtain ⟨i, hi, rfl⟩ := List.mem_map.mp hy
    exact h.inside i (by simpa using hi)

/-- The example table between its first and last mode. -/
theorem exLimit {rt : ℕ → ℕ → ℝ × ℝ} (hr : ∀ n, NearRoots n (rt n)) : LimitCase exTable rt 1 8 where
  phys := exTable_physical
  two := by norm_num [exTable]
  roots := hr
  lo := by norm_num [exTable]
  hi := by norm_num [exTable]
  lt := by norm_num

/-- A table that contains the default ranges. -/
noncomputable def wideTable : Pk ℝ := ⟨4, [1 / 4000, 1 / 10, 1, 16], [1, 4, 9, 25]⟩

theorem wide_physical : wideTable.Physical where
  hk := rfl
  hpk := rfl
  hsize := by norm_num [wideTable]
  incr := by norm_num [wideTable]
  kpos := by norm_num [wideTable]

theorem wideLimit {rt : ℕ → ℕ → ℝ × ℝ} (hr : ∀ n, NearRoots n (rt n)) : LimitCase wideTable rt (1 / 2000) 10 where
  phys := wide_physical
  two := by norm_num [wideTable]
  roots := hr
  lo := by norm_num [wideTable]
  hi := by norm_num [wideTable]
  lt := by norm_num

/-- A wavevector of length 8. -/
noncomputable def exVec : E3 := EuclideanSpace.single 0 8

theorem exVec_norm : ‖exVec‖ = 8 := by simp [exVec]

/-- With default settings the runs store entries of double sequences that converge to the loop integrals. -/
example : ∃ (rt : ℕ → ℕ → ℝ × ℝ) (ν : Mem) (P : ℝ → ℝ) (V : ℕ → ℕ → ℝ),
    (∀ n, Found n (rt n)) ∧
    runTerms1 ⟨Cfg.default, rt, wideTable, exKs⟩ .delta .theta (blocks 3 0 0 [2, 0, 3]) exMem = .ok ν ∧
    Filter.Tendsto (fun n : ℕ × ℕ => V n.1 n.2) Filter.atTop
      (nhds (1 / (2 * Real.pi) ^ 3 * ∫ q in bothIn exVec (1 / 2000) 10, specTree P .delta .theta (toVec exVec) (toVec q))) ∧
    ν.at (cellOf cls1 "pk_gamma2_tree_tree" 3) = some (some (V 200 10)) := by
  choose rt hf using found_exist
  have hr := fun n => (hf n).nearRoots
  have hrt : ∀ n, n < 2 ^ 63 → RootsOrdered (rt n) n := fun n hn => nearRoots_ordered (hr n) hn
  have hok : (⟨Cfg.default, rt, wideTable, exKs⟩ : Env).Ok := ⟨wide_physical.toWF, by norm_num [wideTable], (exEnv_ok rt exKs).size,
    (exEnv_ok rt exKs).poly, (exEnv_ok rt exKs).interp⟩
  obtain ⟨ν, h⟩ := C59_one_loop hok .delta .theta (exSchedule 3) (exRoom 6)
  obtain ⟨P, V, _, h1, h2⟩ := C68_one_loop (wideLimit hr) .delta .theta exVec (norm_pos_iff.1 (by rw [exVec_norm]; norm_num))
  refine ⟨rt, ν, P, V, hf, h, h1, ?_⟩
  have hd : (⟨Cfg.default, rt, wideTable, exKs⟩ : Env).DoubleRule .gamma2_tree_q .gamma2_tree_mu := ⟨wide_physical, hok.two,
    by norm_num [RangeProper, Cfg.default, defaultPrec], by norm_num [Cfg.default, defaultPrec], hok.size _, hok.size _, hrt _ (hok.size _),
    hrt _ (hok.size _), hok.poly _, hok.poly _⟩
  exact h2 ⟨Cfg.default, rt, wideTable, exKs⟩ _ _ ν 3 rfl rfl hd (by norm_num [glqRange, Cfg.default, defaultPrec, lit_real, le_real]) (exRoom 6)
    (exSchedule 3) h (by rw [exVec_norm]; simp [exKs])

/-- The same for a bias column, whose default range is the one of the table. -/
example : ∃ (rt : ℕ → ℕ → ℝ × ℝ) (ν : Mem) (P : ℝ → ℝ) (V : ℕ → ℕ → ℝ),
    (∀ n, Found n (rt n)) ∧
    runTermsBias (exEnv rt exKs) (blocks 8 0 0 [2, 0, 3]) exMem = .ok ν ∧
    Filter.Tendsto (fun n : ℕ × ℕ => V n.1 n.2) Filter.atTop
      (nhds (1 / (2 * Real.pi) ^ 3 * ∫ q in bothIn exVec 1 8, specBias P .delta (toVec exVec) (toVec q) .sigma3sq)) ∧
    ν.at (cellOf clsBias "sigma3sq" 3) = some (some (V 2000 20)) := by
  choose rt hf using found_exist
  have hr := fun n => (hf n).nearRoots
  have hrt : ∀ n, n < 2 ^ 63 → RootsOrdered (rt n) n := fun n hn => nearRoots_ordered (hr n) hn
  obtain ⟨ν, h⟩ := C59_bias (exEnv_ok rt exKs) (exSchedule 8) (exRoom 11)
  obtain ⟨P, V, _, h1, h2⟩ := C68_bias (exLimit hr) 7 exVec (norm_pos_iff.1 (by rw [exVec_norm]; norm_num))
  refine ⟨rt, ν, P, V, hf, h, h1, ?_⟩
  exact h2 (exEnv rt exKs) _ _ ν 3 rfl rfl
    (exEnv_rule hrt .bias_1loop_q .bias_1loop_mu (by norm_num [Cfg.default, defaultPrec]) (by norm_num [RangeProper, Cfg.default, defaultPrec]))
    (by simp [exEnv, glqRange, Cfg.default, defaultPrec, lit_real, le_real, exTable, rd, subSize, sizeMod]) (exRoom 11)
    (exSchedule 8) h (by rw [exVec_norm]; simp [exEnv, exKs])

end Verif
