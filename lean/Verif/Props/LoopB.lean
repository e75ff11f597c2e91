import Verif.Props.LoopLimit
import Verif.Props.Azimuth
import Verif.Props.PkInterp
import Verif.Proofs.AzimuthInt
import Verif.Spec.LoopRedshift

/-!
# C71 – the B correction from the stored columns to the loop integral
-/

namespace Verif

open MeasureTheory

theorem kB_continuousOn (i : Fin 12) : ContinuousOn (fun z : (ℝ × ℝ) × (ℝ × ℝ) × ℝ × ℝ => kB (pw z.2.2.1) (pw z.2.2.2) i) (goodPts (ℝ × ℝ)) := by
  have hY : ∀ z ∈ goodPts (ℝ × ℝ), 1 + z.2.2.1 ^ 2 - 2 * z.2.2.2 * z.2.2.1 ≠ 0 := fun z hz => by
    have := hz.2
    rw [← sq] at this
    exact this.ne'
  have cY : ContinuousOn (fun z : (ℝ × ℝ) × (ℝ × ℝ) × ℝ × ℝ => 1 + z.2.2.1 ^ 2 - 2 * z.2.2.2 * z.2.2.1) (goodPts (ℝ × ℝ)) := by fun_prop
  have h1 (g : (ℝ × ℝ) × (ℝ × ℝ) × ℝ × ℝ → ℝ) (hg : Continuous g) (c : ℝ) :
      ContinuousOn (fun z => g z / c / (1 + z.2.2.1 ^ 2 - 2 * z.2.2.2 * z.2.2.1)) (goodPts (ℝ × ℝ)) := (hg.continuousOn.div_const c).div cY hY
  have h2 (g : (ℝ × ℝ) × (ℝ × ℝ) × ℝ × ℝ → ℝ) (hg : Continuous g) (c : ℝ) :
      ContinuousOn (fun z => g z / (1 + z.2.2.1 ^ 2 - 2 * z.2.2.2 * z.2.2.1) / c / (1 + z.2.2.1 ^ 2 - 2 * z.2.2.2 * z.2.2.1)) (goodPts (ℝ × ℝ)) :=
    ((hg.continuousOn.div cY hY).div_const c).div cY hY
  unfold kB
  simp only [pw, C01_power, pow_one]
  fin_cases i
  all_goals
    simp only [Fin.zero_eta, Fin.mk_one, Fin.reduceFinMk, Fin.isValue, Matrix.cons_val]
    first
      | exact h1 _ (by fun_prop) _
      | exact h2 _ (by fun_prop) _

theorem densBcol_continuousOn (c : Fin 9) :
    ContinuousOn (fun z : (ℝ × ℝ) × (ℝ × ℝ) × ℝ × ℝ => densBcol c z.1 z.2.1 z.2.2.1 z.2.2.2) (goodPts (ℝ × ℝ)) := by
  have hk (i : Fin 12) : ContinuousOn (fun z : (ℝ × ℝ) × (ℝ × ℝ) × ℝ × ℝ => kB (pw z.2.2.1) (pw z.2.2.2) i * specB z.1.1 z.1.2 z.2.1.1 z.2.1.2 i)
      (goodPts (ℝ × ℝ)) := by
    refine (kB_continuousOn i).mul (Continuous.continuousOn ?_)
    unfold specB
    fin_cases i <;> simp <;> fun_prop
  unfold densBcol
  refine ContinuousOn.div ?_ (by fun_prop) fun z hz => pow_ne_zero 2 hz.1.ne'
  unfold columnsB
  fin_cases c
  · exact hk 0
  · exact ((hk 1).add (hk 2)).neg
  · exact hk 3
  · exact hk 4
  · exact ((hk 5).add (hk 6)).neg
  · exact hk 7
  · exact ((hk 8).add (hk 9)).neg
  · exact hk 10
  · exact hk 11

/-- Densities along the wavevectors with both moduli in the range. -/
theorem dens_bothIn {α : Type} [TopologicalSpace α] {D : α → α → ℝ → ℝ → ℝ} {P : ℝ → α} {q0 q1 : ℝ} (h0 : 0 < q0) (hP : ContinuousOn P (Set.Icc q0 q1))
    (hD : ContinuousOn (fun z : α × α × ℝ × ℝ => D z.1 z.2.1 z.2.2.1 z.2.2.2) (goodPts α)) (k : E3) (hk : k ≠ 0) :
    IntegrableOn (fun q : E3 => D (P ‖q‖) (P ‖k - q‖) (‖q‖ / ‖k‖) (cosOf k q)) (bothIn k q0 q1) := by
  refine ContinuousOn.integrableOn_compact (bothIn_compact k q0 q1) ?_
  have hκ := norm_pos_iff.2 hk
  have c1 : ContinuousOn (fun q : E3 => P ‖q‖) (bothIn k q0 q1) := hP.comp (by fun_prop) fun q hq => hq.1
  have c2 : ContinuousOn (fun q : E3 => P ‖k - q‖) (bothIn k q0 q1) := hP.comp (by fun_prop) fun q hq => hq.2
  have c3 : ContinuousOn (fun q : E3 => ‖q‖ / ‖k‖) (bothIn k q0 q1) := by fun_prop
  have c4 : ContinuousOn (fun q : E3 => cosOf k q) (bothIn k q0 q1) := by
    unfold cosOf
    refine ContinuousOn.div (by fun_prop) (by fun_prop) fun q hq => ?_
    exact mul_ne_zero hκ.ne' (norm_ne_zero_iff.2 (bothIn_ne h0 q hq).1)
  refine hD.comp (c1.prodMk (c2.prodMk (c3.prodMk c4))) fun q hq => ?_
  obtain ⟨n1, n2⟩ := bothIn_ne h0 q hq
  have p1 := norm_pos_iff.2 n1
  have p2 := norm_pos_iff.2 n2
  refine ⟨div_pos p1 hκ, ?_⟩
  show 0 < 1 + ‖q‖ / ‖k‖ * (‖q‖ / ‖k‖) - 2 * cosOf k q * (‖q‖ / ‖k‖)
  rw [norm_sub_len k q hk n1]
  positivity

theorem losFlow_continuousOn (n : E3) (f : ℝ) {D T : ℝ → ℝ} {q0 q1 : ℝ} (h0 : 0 < q0) (hD : ContinuousOn D (Set.Icc q0 q1))
    (hT : ContinuousOn T (Set.Icc q0 q1)) : ContinuousOn (losFlow n f D T) {p : E3 | q0 ≤ ‖p‖ ∧ ‖p‖ ≤ q1} := by
  have c1 : ContinuousOn (fun q : E3 => D ‖q‖) {p : E3 | q0 ≤ ‖p‖ ∧ ‖p‖ ≤ q1} := hD.comp (by fun_prop) fun q hq => hq
  have c2 : ContinuousOn (fun q : E3 => T ‖q‖) {p : E3 | q0 ≤ ‖p‖ ∧ ‖p‖ ≤ q1} := hT.comp (by fun_prop) fun q hq => hq
  have hne : ∀ q ∈ {p : E3 | q0 ≤ ‖p‖ ∧ ‖p‖ ≤ q1}, ‖q‖ ^ 2 ≠ 0 := fun q hq => pow_ne_zero 2 (h0.trans_le hq.1).ne'
  unfold losFlow
  refine ContinuousOn.mul (ContinuousOn.div (by fun_prop) (by fun_prop) hne) (c1.add (ContinuousOn.mul ?_ c2))
  exact continuousOn_const.mul (ContinuousOn.div (by fun_prop) (by fun_prop) hne)

theorem cosOf_sq_le (k q : E3) : cosOf k q ^ 2 ≤ 1 := by
  rw [sq_le_one_iff_abs_le_one]
  exact abs_real_inner_div_norm_mul_norm_le_one k q

/-- The loop integral of the B correction as the integral of the densities of the columns. -/
theorem correctionB_columns (D T : ℝ → ℝ) (k n : E3) (hk : k ≠ 0) (hn : ‖n‖ = 1) (f q0 q1 : ℝ) (h0 : 0 < q0) (h1 : q0 < q1)
    (hD : ContinuousOn D (Set.Icc q0 q1)) (hT : ContinuousOn T (Set.Icc q0 q1)) :
    correctionB n f D T k (bothIn k q0 q1) = ∑ c, cosOf k n ^ (2 * (expB c).1) * f ^ (expB c).2 *
      planeForm (intQ q0 q1) intMu true q0 q1 ‖k‖ (densBcol c) fun q => (D q, T q) := by
  have hκ := norm_pos_iff.2 hk
  have hP : ContinuousOn (fun q => (D q, T q)) (Set.Icc q0 q1) := hD.prodMk hT
  have hint (c : Fin 9) := dens_bothIn h0 hP (densBcol_continuousOn c) k hk
  have hcol (c : Fin 9) := C66_plane true (densBcol c) (fun q => (D q, T q)) k hk q0 q1 h0 h1 _ (fun q _ => rfl) (hint c) fun _ => densBcol_symm c
  simp only [hcol]
  set nu := cosOf k n with hnu
  have hm : inner ℝ n k = ‖k‖ * nu := by
    rw [hnu, cosOf, hn, mul_one, real_inner_comm]
    field_simp
  have hmeas := (bothIn_closed k q0 q1).measurableSet
  -- the integrand in terms of modulus, cosine and line-of-sight component
  let s : ℝ → ℝ → ℝ := fun r mu => ‖k‖ * Real.sqrt (1 + r / ‖k‖ * (r / ‖k‖) - 2 * mu * (r / ‖k‖))
  let G : ℝ → ℝ → ℝ → ℝ := fun r mu l => (f * (‖k‖ * nu)) ^ 2 * ((l / r ^ 2 * (D r + f * (l ^ 2 / r ^ 2) * T r)) *
    ((‖k‖ * nu - l) / s r mu ^ 2 * (D (s r mu) + f * ((‖k‖ * nu - l) ^ 2 / s r mu ^ 2) * T (s r mu))))
  let H : ℝ → ℝ → ℝ → ℝ := fun r mu l => if q0 ≤ s r mu ∧ s r mu ≤ q1 then G r mu l else 0
  let F : E3 → ℝ := fun q => (f * inner ℝ n k) ^ 2 * (losFlow n f D T q * losFlow n f D T (k - q))
  have hne : ∀ q : E3, ‖q‖ ∈ qRange q0 q1 → q ≠ 0 := fun q hq => norm_pos_iff.1 (qRange_pos h0 hq)
  have hs : ∀ q : E3, ‖q‖ ∈ qRange q0 q1 → s ‖q‖ (cosOf k q) = ‖k - q‖ := fun q hq => by
    simp only [s]
    rw [norm_sub_len k q hk (hne q hq), Real.sqrt_sq (by positivity)]
    field_simp
  have hH : ∀ q ∈ {q : E3 | q0 ≤ ‖q‖ ∧ ‖q‖ ≤ q1}, H ‖q‖ (cosOf k q) (inner ℝ n q) = (bothIn k q0 q1).indicator F q := fun q hq => by
    simp only [H, G, hs q hq]
    by_cases c : q0 ≤ ‖k - q‖ ∧ ‖k - q‖ ≤ q1
    · rw [if_pos c, Set.indicator_of_mem (show q ∈ bothIn k q0 q1 from ⟨hq, c⟩)]
      simp only [F, losFlow, inner_sub_right, hm]
    · rw [if_neg c, Set.indicator_of_notMem fun h : q ∈ bothIn k q0 q1 => c h.2]
  have hFi : IntegrableOn F (bothIn k q0 q1) := by
    refine ContinuousOn.integrableOn_compact (bothIn_compact k q0 q1) ?_
    have cl := losFlow_continuousOn n f h0 hD hT
    refine continuousOn_const.mul ((cl.mono fun q hq => hq.1).mul ?_)
    exact cl.comp (by fun_prop) fun q hq => hq.2
  have hHi : IntegrableOn (fun q : E3 => H ‖q‖ (cosOf k q) (inner ℝ n q)) {q : E3 | q0 ≤ ‖q‖ ∧ ‖q‖ ≤ q1} :=
    IntegrableOn.congr_fun ((integrable_indicator_iff hmeas).2 hFi).integrableOn (fun q hq => (hH q hq).symm) (shell_measurable q0 q1)
  have hsub : {q : E3 | q0 ≤ ‖q‖ ∧ ‖q‖ ≤ q1} ∩ bothIn k q0 q1 = bothIn k q0 q1 := Set.inter_eq_right.2 fun q hq => hq.1
  have step1 : ∫ q in bothIn k q0 q1, F q = ∫ q in {q : E3 | q0 ≤ ‖q‖ ∧ ‖q‖ ≤ q1}, H ‖q‖ (cosOf k q) (inner ℝ n q) := by
    rw [setIntegral_congr_fun (shell_measurable q0 q1) hH, setIntegral_indicator hmeas, hsub]
  -- the average over the azimuth
  have havg : ∀ q ∈ {q : E3 | q0 ≤ ‖q‖ ∧ ‖q‖ ≤ q1}, (azAvg fun phi => H ‖q‖ (cosOf k q) (‖q‖ * losCos nu (cosOf k q) phi)) =
      (bothIn k q0 q1).indicator (fun q => ∑ c, nu ^ (2 * (expB c).1) * f ^ (expB c).2 *
        densBcol c (D ‖q‖, T ‖q‖) (D ‖k - q‖, T ‖k - q‖) (‖q‖ / ‖k‖) (cosOf k q)) q := fun q hq => by
    simp only [H, hs q hq]
    by_cases c : q0 ≤ ‖k - q‖ ∧ ‖k - q‖ ≤ q1
    · simp only [if_pos c]
      rw [Set.indicator_of_mem (show q ∈ bothIn k q0 q1 from ⟨hq, c⟩)]
      have hq0 := norm_pos_iff.2 (hne q hq)
      have hkq0 : 0 < ‖k - q‖ := h0.trans_le c.1
      have hlen := norm_sub_len k q hk (hne q hq)
      rw [← sq] at hlen
      have key := C57_B (‖q‖ / ‖k‖) (cosOf k q) nu f (D ‖q‖) (T ‖q‖) (D ‖k - q‖) (T ‖k - q‖) (by positivity) (by rw [hlen]; positivity)
        (cosOf_sq_le k q) (cosOf_sq_le k n)
      have hx2 : (‖q‖ / ‖k‖) ^ 2 ≠ 0 := by positivity
      rw [← eq_div_iff hx2, Finset.sum_div] at key
      simp only [densBcol, ← mul_div_assoc]
      rw [← key, hlen]
      congr 1
      funext phi
      simp only [G, hs q hq, losB]
      field_simp
    · simp only [if_neg c]
      rw [Set.indicator_of_notMem fun h : q ∈ bothIn k q0 q1 => c h.2]
      simp [azAvg]
  have step2 : ∫ q in bothIn k q0 q1, F q = ∑ c, nu ^ (2 * (expB c).1) * f ^ (expB c).2 *
      ∫ q in bothIn k q0 q1, densBcol c (D ‖q‖, T ‖q‖) (D ‖k - q‖, T ‖k - q‖) (‖q‖ / ‖k‖) (cosOf k q) := by
    rw [step1, integral_azimuth H k n hk hn q0 q1 h0 h1 hHi, setIntegral_congr_fun (shell_measurable q0 q1) havg, setIntegral_indicator hmeas, hsub,
      integral_finsetSum _ fun c _ => (hint c).const_mul _]
    simp only [integral_const_mul]
  have step3 : ∫ q in bothIn k q0 q1, F q = (f * inner ℝ n k) ^ 2 * ∫ q in bothIn k q0 q1, losFlow n f D T q * losFlow n f D T (k - q) :=
    integral_const_mul _ _
  rw [correctionB, mul_left_comm, ← step3, step2, Finset.mul_sum]
  exact Finset.sum_congr rfl fun c _ => by ring

/-- C71: the nine columns, weighted with the powers of the growth rate and of the line-of-sight cosine, are entries of a double sequence that
tends to the loop integral of the B correction as the numbers of nodes grow. -/
theorem C71_B {dt tt : Pk ℝ} {rt : ℕ → ℕ → ℝ × ℝ} {qmin qmax : ℝ} (hd : LimitCase dt rt qmin qmax) (ht : LimitCase tt rt qmin qmax) (k n : E3)
    (hk : k ≠ 0) (hn : ‖n‖ = 1) (f : ℝ) :
    ∃ (D T : ℝ → ℝ) (V : Fin 9 → ℕ → ℕ → ℝ), (∀ q, look dt .poly q = .ok (D q)) ∧ (∀ q, look tt .poly q = .ok (T q)) ∧
      Filter.Tendsto (fun m : ℕ × ℕ => ∑ c, cosOf k n ^ (2 * (expB c).1) * f ^ (expB c).2 * V c m.1 m.2) Filter.atTop
        (nhds (correctionB n f D T k (bothIn k qmin qmax))) ∧
      ∀ (e : Env) (es : List Event) (μ ν : Mem) (ik : ℕ) (c : Fin 9), e.rt = rt → e.DoubleRule .B_q .B_mu →
        glqRange e.t (e.cfg.prec .B_q) = .ok (qmin, qmax) → RoomFlat 9 e.ks.length μ → Schedule 9 e.ks.length es →
        runTermsB e dt tt es μ = .ok ν → e.ks[ik]? = some ‖k‖ →
        ν.at (cellOf2 clsB "pk" 9 ik c) = some (some (V c (e.cfg.prec .B_q).n (e.cfg.prec .B_mu).n)) := by
  have hκ := norm_pos_iff.2 hk
  obtain ⟨D, hD, -⟩ := tame_look dt hd.phys hd.two
  obtain ⟨T, hT, -⟩ := tame_look tt ht.phys ht.two
  refine ⟨D, T, fun c => planeRule rt true qmin qmax ‖k‖ (densBcol c) fun q => (D q, T q), hD, hT, ?_, ?_⟩
  · rw [correctionB_columns D T k n hk hn f qmin qmax hd.pos hd.lt (hd.cts hD) (ht.cts hT)]
    refine tendsto_finsetSum _ fun c _ => Filter.Tendsto.const_mul _ ?_
    exact planeRule_tendsto hd.roots true hκ hd.pos hd.lt.le _ _ ((hd.cts hD).prodMk (ht.cts hT)) (densBcol_continuousOn c)
  · rintro e es μ ν ik c rfl he hrange hμ hes h hik
    obtain ⟨hlt, hv⟩ := List.getElem?_eq_some_iff.1 hik
    obtain ⟨g, gm, P, R, v, hg, hgm, hcell, -, hPR, hsum⟩ := C26_run_B hμ hes h hlt (by rw [hv]; exact hκ) c
    obtain ⟨P0, hP0, -⟩ := tame_look e.t he.phys he.two
    obtain ⟨n2, n1, hl, -, -, -⟩ := he.tab hg hgm hP0
    have val : ∀ (t : Pk ℝ) (Z : ℝ → ℝ), (∀ q, look t .poly q = .ok (Z q)) → ∀ x y, look t (e.cfg.prec .B_mu).interpol x = .ok y → y = Z x :=
      fun t Z hZ x y hxy => by rw [he.polym, hZ, Res.ok.injEq] at hxy; exact hxy.symm
    have hform := planeSum_form (P := fun q => (D q, T q)) (by omega) n1 hl
      (fun iq imu hu => Prod.ext (val dt D hD _ _ (hPR iq imu hu).1) (val tt T hT _ _ (hPR iq imu hu).2.1))
      (fun iq imu hu => Prod.ext (val dt D hD _ _ (hPR iq imu hu).2.2.1) (val tt T hT _ _ (hPR iq imu hu).2.2.2)) hsum
    rw [hcell, hform, plane_run he hg hgm hrange, hv]

/-- C71: at a stored mode the Python layer returns this weighted sum of the columns, times the fourth power of the growth factor. -/
theorem C71_python (t : Terms) (nu f G left right : ℝ) (hs : (t.get "k").Pairwise (· < ·)) (i : ℕ) (hi : i + 1 < (t.get "k").length) :
    Terms.pkInterpB t (t.get "k")[i] (nu ^ 2) f G left right = G ^ 4 * ∑ c : Fin 9, nu ^ (2 * (expB c).1) * f ^ (expB c).2 * entry t 9 i c := by
  rw [C34_interp_B t _ nu f G left right hs i hi le_rfl (List.pairwise_iff_getElem.1 hs i (i + 1) (by omega) hi (by omega)).le]
  simp only [lineThrough, sub_self, zero_div, zero_mul, add_zero]

/-- With default settings the run stores entries of convergent double sequences. -/
example : ∃ (rt : ℕ → ℕ → ℝ × ℝ) (ν : Mem) (D T : ℝ → ℝ) (V : Fin 9 → ℕ → ℕ → ℝ),
    (∀ n, Found n (rt n)) ∧
    runTermsB ⟨Cfg.default, rt, wideTable, exKs⟩ wideTable wideTable (blocks 9 0 0 [2, 0, 3]) exMem = .ok ν ∧
    Filter.Tendsto (fun m : ℕ × ℕ => ∑ c, cosOf exVec !₂[3 / 5, 0, 4 / 5] ^ (2 * (expB c).1) * (1 / 2) ^ (expB c).2 * V c m.1 m.2) Filter.atTop
      (nhds (correctionB !₂[3 / 5, 0, 4 / 5] (1 / 2) D T exVec (bothIn exVec (1 / 2000) 10))) ∧
    ∀ c : Fin 9, ν.at (cellOf2 clsB "pk" 9 3 c) = some (some (V c 600 10)) := by
  choose rt hf using found_exist
  have hr := fun n => (hf n).nearRoots
  have hrt : ∀ n, n < 2 ^ 63 → RootsOrdered (rt n) n := fun n hn => nearRoots_ordered (hr n) hn
  have hok : (⟨Cfg.default, rt, wideTable, exKs⟩ : Env).Ok := ⟨wide_physical.toWF, by norm_num [wideTable], (exEnv_ok rt exKs).size,
    (exEnv_ok rt exKs).poly, (exEnv_ok rt exKs).interp⟩
  obtain ⟨ν, h⟩ := C59_B hok wide_physical.toWF (by norm_num [wideTable]) wide_physical.toWF (by norm_num [wideTable])
    (exSchedule 9) (exRoomFlat 9 le_rfl)
  obtain ⟨D, T, V, -, -, h1, h2⟩ := C71_B (wideLimit hr) (wideLimit hr) exVec !₂[3 / 5, 0, 4 / 5] (norm_pos_iff.1 (by rw [exVec_norm]; norm_num))
    (by rw [EuclideanSpace.norm_eq, Fin.sum_univ_three]; simp; norm_num) (1 / 2)
  refine ⟨rt, ν, D, T, V, hf, h, h1, fun c => ?_⟩
  have hd : (⟨Cfg.default, rt, wideTable, exKs⟩ : Env).DoubleRule .B_q .B_mu := ⟨wide_physical, hok.two,
    by norm_num [RangeProper, Cfg.default, defaultPrec], by norm_num [Cfg.default, defaultPrec], hok.size _, hok.size _, hrt _ (hok.size _),
    hrt _ (hok.size _), hok.poly _, hok.poly _⟩
  exact h2 ⟨Cfg.default, rt, wideTable, exKs⟩ _ _ ν 3 c rfl hd (by norm_num [glqRange, Cfg.default, defaultPrec, lit_real, le_real])
    (exRoomFlat 9 le_rfl) (exSchedule 9) h (by rw [exVec_norm]; simp [exKs])

/-- A container of two modes. -/
example : Terms.pkInterpB ⟨[("k", [1, 2]), ("pk", List.replicate 18 1)]⟩ 1 ((1 / 2) ^ 2) (1 / 3) 2 0 0 =
    2 ^ 4 * ∑ c : Fin 9, (1 / 2) ^ (2 * (expB c).1) * (1 / 3) ^ (expB c).2 * entry ⟨[("k", [1, 2]), ("pk", List.replicate 18 1)]⟩ 9 0 c :=
  C71_python ⟨[("k", [1, 2]), ("pk", List.replicate 18 1)]⟩ (1 / 2) (1 / 3) 2 0 0 (by norm_num [Terms.get, List.lookup]) 0
    (by norm_num [Terms.get, List.lookup])

end Verif
