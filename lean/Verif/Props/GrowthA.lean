import Verif.Props.GrowthB

/-!
# C31: the growth of `A2Loop`

The deterministic part is damped by an exponential of the linear spectrum; the Monte-Carlo part vanishes once the exponent exceeds the
cutoff of the integrand. No multiple of the spectrum gives the rescaled terms of another.
-/

namespace Verif

open Filter Topology Polynomial
open Res (Rel)

theorem Rel.times {c v : ℝ} {r r' : Res ℝ} (h : Rel (Times c) r r') (hr : r = .ok v) : r' = .ok (c * v) := by
  subst hr
  cases r' with
  | ok w => exact congrArg Res.ok h
  | ub _ => exact h.elim

theorem sigma1_scale (c : ℝ) (t : Pk ℝ) (uv k : ℝ) : Rel (Times c) (sigma1 t uv k) (sigma1 (t.scale c) uv k) := by
  unfold sigma1
  refine Rel.bind (runningSigmad2_scale c t [k] uv) ?_
  rintro l _ rfl
  exact rd_times c l 0

/-- `a + b c` as a polynomial in `c`. -/
noncomputable def linP (a b : ℝ) : ℝ[X] := C a + X * C b

@[simp] theorem linP_eval (a b c : ℝ) : (linP a b).eval c = a + c * b := by
  simp only [linP, eval_add, eval_mul, eval_C, eval_X]

/-- The first entry of both halves of the bispectrum on the multiplied spectrum: a polynomial with an exponential. -/
theorem bi_growth {t : Pk ℝ} {i : Interpol} {uv : ℝ} {g1 gd gt : GLQ ℝ} {k p kp : ℝ} (hk : 1 / 100 ≤ k) (hp : 1 / 100 ≤ p)
    (hkp : 3 / 100 ≤ kp) {sk sp skp : ℝ} (s1 : sigma1 t uv k = .ok sk) (s2 : sigma1 t uv p = .ok sp) (s3 : sigma1 t uv kp = .ok skp)
    {b : BiOut} (h : bispectrumI t i uv g1 gd gt k p kp = .ok b) {u v w : ℝ} (l1 : look t i k = .ok u) (l2 : look t i p = .ok v)
    (l3 : look t i kp = .ok w) :
    ∃ A T : ℝ[X],
      A.eval 0 = 2 * (gamma2Tree .theta kp k p * w * u + gamma2Tree .delta p k kp * v * u + gamma2Tree .delta p kp k * v * w) ∧
      T.eval 0 = 2 * (gamma2Tree .theta p k kp * v * u + gamma2Tree .delta kp k p * w * u + gamma2Tree .delta p kp k * w * v) ∧
      ∀ c, 0 < c → ∃ b', bispectrumI (t.scale c) i uv (g1.scale c) (gd.scale c) (gt.scale c) k p kp = .ok b' ∧
        b'.a 0 = c ^ 2 * (Real.exp (-((k * k * sk + p * p * sp + kp * kp * skp) / 2 * c)) * A.eval c) ∧
        b'.t 0 = c ^ 2 * (Real.exp (-((k * k * sk + p * p * sp + kp * kp * skp) / 2 * c)) * T.eval c) := by
  have hm : 1 / 100 ≤ rMax3 kp k p ∧ 1 / 100 ≤ k := by
    refine ⟨?_, hk⟩
    unfold rMax3 rMax
    split_ifs <;> linarith
  simp only [bispectrumI, s1, s2, s3, l1, l2, l3, gamma1Reg, g1RegIf, g1RegOne, gamma2Reg, g2RegOne, if_pos hk, if_pos (And.intro hp hk),
    if_pos (And.intro hkp hk), if_pos hm, Res.bind_eq_ok, Res.ok_bind] at h
  obtain ⟨_, ⟨_, ⟨dk, hdk, tk, htk, -⟩, _, ⟨dp, hdp, tp, htp, -⟩, _, ⟨dkp, hdkp, tkp, htkp, -⟩, -⟩, _,
    ⟨_, ⟨a1, ha1, -⟩, _, ⟨a2, ha2, -⟩, _, ⟨a3, ha3, -⟩, _, ⟨a4, ha4, -⟩, _, ⟨a5, ha5, -⟩, _, ⟨a6, ha6, -⟩, -⟩, -⟩ := h
  refine ⟨C 2 * (linP (gamma2Tree .theta kp k p) (gamma2Tree .theta kp k p * (p * p * sp / 2) + a2) * linP 1 (kp * kp * skp / 2 + dkp) *
        linP 1 (k * k * sk / 2 + dk) * C (w * u)
      + linP (gamma2Tree .delta p k kp) (gamma2Tree .delta p k kp * (kp * kp * skp / 2) + a3) * linP 1 (p * p * sp / 2 + tp) *
        linP 1 (k * k * sk / 2 + dk) * C (v * u)
      + linP (gamma2Tree .delta p kp k) (gamma2Tree .delta p kp k * (k * k * sk / 2) + a5) * linP 1 (p * p * sp / 2 + tp) *
        linP 1 (kp * kp * skp / 2 + dkp) * C (v * w)),
    C 2 * (linP (gamma2Tree .theta p k kp) (gamma2Tree .theta p k kp * (kp * kp * skp / 2) + a4) * linP 1 (p * p * sp / 2 + dp) *
        linP 1 (k * k * sk / 2 + dk) * C (v * u)
      + linP (gamma2Tree .delta kp k p) (gamma2Tree .delta kp k p * (p * p * sp / 2) + a1) * linP 1 (kp * kp * skp / 2 + tkp) *
        linP 1 (k * k * sk / 2 + dk) * C (w * u)
      + linP (gamma2Tree .delta p kp k) (gamma2Tree .delta p kp k * (k * k * sk / 2) + a5) * linP 1 (kp * kp * skp / 2 + tkp) *
        linP 1 (p * p * sp / 2 + dp) * C (w * v)), ?_, ?_, fun c hc => ?_⟩
  · simp; ring
  · simp; ring
  simp only [bispectrumI, gamma1Reg, g1RegIf, g1RegOne, gamma2Reg, g2RegOne, if_pos hk, if_pos (And.intro hp hk),
    if_pos (And.intro hkp hk), if_pos hm, Rel.times (sigma1_scale c t uv k) s1, Rel.times (sigma1_scale c t uv p) s2,
    Rel.times (sigma1_scale c t uv kp) s3, Rel.times (look_scale hc t i k) l1, Rel.times (look_scale hc t i p) l2,
    Rel.times (look_scale hc t i kp) l3, Rel.times (gamma1OneLoop_scale c _ g1 k) hdk, Rel.times (gamma1OneLoop_scale c _ g1 k) htk,
    Rel.times (gamma1OneLoop_scale c _ g1 p) hdp, Rel.times (gamma1OneLoop_scale c _ g1 p) htp,
    Rel.times (gamma1OneLoop_scale c _ g1 kp) hdkp, Rel.times (gamma1OneLoop_scale c _ g1 kp) htkp,
    Rel.times (gamma2OneLoop_scale c _ gd _ _ _) ha1, Rel.times (gamma2OneLoop_scale c _ gt _ _ _) ha2,
    Rel.times (gamma2OneLoop_scale c _ gd _ _ _) ha3, Rel.times (gamma2OneLoop_scale c _ gt _ _ _) ha4,
    Rel.times (gamma2OneLoop_scale c _ gd _ _ _) ha5, Rel.times (gamma2OneLoop_scale c _ gt _ _ _) ha6, Res.ok_bind]
  have he : -((k * k * (c * sk) + p * p * (c * sp) + kp * kp * (c * skp)) / 2) = -((k * k * sk + p * p * sp + kp * kp * skp) / 2 * c) := by
    ring
  refine ⟨_, rfl, ?_, ?_⟩
  · simp only [biAssemble, he, eval_mul, eval_add, eval_C, linP_eval, Matrix.cons_val_zero]
    ring
  · simp only [biAssemble, he, eval_mul, eval_add, eval_C, linP_eval, Matrix.cons_val_zero]
    ring

/-- Beyond a factor the integrand of the Monte-Carlo part is zero everywhere. -/
theorem mc_vanishes {t : Pk ℝ} (h : t.Increasing) (h2 : 2 ≤ t.nk) (hpos : ∀ i < t.nk, 0 ≤ t.pk.getD i 0) (i : Interpol) {uv : ℝ}
    (huv : 0 ≤ uv) {k sk : ℝ} (hs : sigma1 t uv k = .ok sk) (hbig : 200 ≤ k * k * sk) (qmin qmax : ℝ) :
    kernelA2II t i uv k qmin qmax = fun _ => .ok fun _ => 0 := by
  have nn : ∀ x, ∃ s, sigma1 t uv x = .ok s ∧ 0 ≤ s := by
    intro x
    obtain ⟨vs, h1, _, h3, _⟩ := C12_sigmad2_shape t h h2 hpos uv huv [x] (List.pairwise_singleton _ _)
    have hl : vs.length = 1 := by
      have := runningSigmad2_length h1
      simpa using this
    obtain ⟨s, rfl⟩ := List.length_eq_one_iff.mp hl
    exact ⟨s, by simp [sigma1, h1, rd], (h3 s (by simp)).1⟩
  funext xx
  unfold kernelA2II
  dsimp only
  split_ifs with h0
  · rfl
  set p := Real.exp (Real.log qmin + (Real.log qmax - Real.log qmin) * xx 0)
  set kp := k * Real.sqrt (1 + p / k * (p / k) - 2 * (p / k) * (-1 + 2 * xx 1))
  obtain ⟨sp, e1, p1⟩ := nn p
  obtain ⟨sq, e2, p2⟩ := nn kp
  rw [hs, e1, e2]
  simp only [Res.ok_bind]
  rw [if_pos]
  have := mul_nonneg (mul_self_nonneg p) p1
  have := mul_nonneg (mul_self_nonneg kp) p2
  linarith

/-- The only configuration of the witness: wavenumbers 2, 1 and the second mode of the table. -/
theorem ga_value {w : ℝ} {pk : List ℝ} {bi : ℝ → ℝ → ℝ → Res BiOut} {s : GLQ ℝ × GLMu ℝ} {v : Fin 12 → ℝ}
    (h : calcA2I bi ⟨2, 1, [1, 2], [1, 2], [w, w], pk⟩ ⟨1, [0], [2], [0], [2]⟩ 2 = .ok (s, v)) :
    ∃ b, bi 2 1 (2 * Real.sqrt (5 / 8)) = .ok b ∧
      v 0 + v 6 = 3 / 4 * w * (2 * 2 * 2 / (2 * Real.pi * Real.pi)) * (5 / 32 * b.a 0 + 11 / 80 * b.t 0) := by
  unfold calcA2I at h
  simp only [Res.bind_eq_ok] at h
  obtain ⟨r, h, e⟩ := h
  cases e
  set g : GLQ ℝ := updateGLQ ⟨2, 1, [1, 2], [1, 2], [w, w], pk⟩ 2 with hg
  have r0 : quadRange true g 0 = some (1 / 4, 1) := by
    norm_num [hg, quadRange, muRange, updateGLQ, rd, subSize, sizeMod, ofLong, cMax, cMin]
  have m0 : quadMu true g ⟨1, [0], [2], [0], [2]⟩ 0 0 = 5 / 8 := by norm_num [quadMu, r0, updateGLMu]
  have w1 : quadWeight true g ⟨1, [0], [2], [0], [2]⟩ (fun _ w => w) 1 0 = 0 := by
    norm_num [quadWeight, hg, quadRange, muRange, updateGLQ, rd, subSize, sizeMod, ofLong, cMax, cMin, updateGLMu]
  have w0 : quadWeight true g ⟨1, [0], [2], [0], [2]⟩ (fun _ w => w) 0 0 = 3 / 4 * w := by
    simp only [quadWeight, r0]
    norm_num [updateGLMu, hg, updateGLQ]
  obtain ⟨hd, hs⟩ := quadLoop_sum h
  have d0 := hd 0 (show 0 < 2 by norm_num) (by rw [r0]; simp) 0 (show 0 < 1 by norm_num)
  rw [m0] at d0
  show ∃ b, _ ∧ r.2 0 * (2 * 2 * 2 / (2 * Real.pi * Real.pi)) + r.2 6 * (2 * 2 * 2 / (2 * Real.pi * Real.pi)) = _
  rw [hs 0, hs 6]
  rw [show (⟨1, [0], [2], [0], [2]⟩ : GLMu ℝ).nmu = 1 from rfl, show g.nq = 2 from rfl]
  simp only [Finset.sum_range_succ, Finset.sum_range_zero, zero_add, m0, w0, w1, zero_mul, add_zero]
  generalize (kernelA2I bi g 0 (5 / 8)).val = f at d0 ⊢
  simp only [kernelA2I, Res.bind_eq_ok] at d0
  obtain ⟨x, h1, q, h2, b, h3, e⟩ := d0
  have hx : x = 1 / 2 := (rd_eq_ok h1).1.symm
  have hq : q = 1 := (rd_eq_ok h2).1.symm
  subst hx hq
  have hk : g.k * Real.sqrt (1 + 1 / 2 * (1 / 2) - 2 * (5 / 8) * (1 / 2)) = 2 * Real.sqrt (5 / 8) := by
    rw [show (1 : ℝ) + 1 / 2 * (1 / 2) - 2 * (5 / 8) * (1 / 2) = 5 / 8 by norm_num]
    rfl
  rw [hk] at h3
  refine ⟨b, h3, ?_⟩
  cases e
  have e0 : assembleA2 (1 / 2) (5 / 8) b 0 = 1 / 2 * (5 / 8) * b.a 0 * (1 / 2) := rfl
  have e6 : assembleA2 (1 / 2) (5 / 8) b 6 =
      -(1 / 2) * (1 / 2) * (1 / 2 * (5 / 8) - 1) / (1 + 1 / 2 * (1 / 2) - 2 * (5 / 8) * (1 / 2)) * b.t 0 * (1 / 2) := rfl
  rw [e0, e6]
  ring

theorem gb_look (i : ℕ) (hi : i < 3) : look gbTable .poly (gbTable.k.getD i 0) = .ok 1 := by
  have := C08_findPk_node_poly gbTable (gbTable_incr [1, 1, 1] rfl) i hi
  rw [look, this]
  interval_cases i <;> rfl

theorem gb_sigma1 {k : ℝ} (hk : 1 ≤ k) : sigma1 gbTable 2 k = .ok (sigmav2 gbTable) := by
  have inc : gbTable.Increasing := gbTable_incr [1, 1, 1] rfl
  obtain ⟨vs, h1, _, _, h4⟩ := C12_sigmad2_shape gbTable inc (by norm_num [gbTable])
    (by intro i hi; have : i < 3 := hi; interval_cases i <;> norm_num [gbTable]) 2 (by norm_num) [k] (List.pairwise_singleton _ _)
  have hl : vs.length = 1 := by simpa using runningSigmad2_length h1
  obtain ⟨s, rfl⟩ := List.length_eq_one_iff.mp hl
  have := h4 0 (by simp) (by show (2 : ℝ) ≤ 2 * k; linarith)
  rw [sigma1, h1]
  exact congrArg Res.ok this

/-- C31, violation: the terms of `A2Loop` are not of second order in the spectrum. For every cubature routine that is defined on defined
integrands and integrates zero to zero there is an `s > 0` such that the terms on the spectrum multiplied by `s²` are not those of the
original after `rescale(s)`. -/
theorem C31_A_two_loop_violation {cuba : Cuba (Fin 12 → ℝ)} (hc : CubaSafe cuba)
    (hz : cuba (fun _ => .ok fun _ => 0) = .ok fun _ => 0) :
    ∃ cfg ν, runTermsA2 cuba gbEnv (blocks 5 0 0 [1]) exMem = .ok (cfg, ν) ∧
      ∃ s > 0, ∃ cfg' ν', runTermsA2 cuba (gbEnv.scale (s ^ 2)) (blocks 5 0 0 [1]) exMem = .ok (cfg', ν') ∧
        ¬ Rescaled clsA s gbEnv.ks.length ν ν' := by
  have hes : Schedule 5 1 (blocks 5 0 0 [1]) := C43_static_schedule 5 [1] (by simp)
  have hflat : RoomFlat 5 1 exMem := ⟨fun i _ => by simp [exMem], by simp [exMem]⟩
  have inc : gbTable.Increasing := gbTable_incr [1, 1, 1] rfl
  have hone : gbEnv.scale 1 = gbEnv := by simp [gbEnv, Env.scale, Pk.scale, gbTable]
  have ok : ∀ c, (gbEnv.scale c).Ok := fun c => gbEnv_ok c [2]
  -- the run on the original
  obtain ⟨⟨cfg, ν⟩, h⟩ := C59_A_two_loop (e := gbEnv) (by have := ok 1; rwa [hone] at this) hc hes hflat
  refine ⟨cfg, ν, h, ?_⟩
  obtain ⟨_, _, g, gm, g1, gd, gt, st, v, _, _, _, _, hg, hgm, hg1, hgd, hgt, hv, _⟩ := C45_A_two_loop (e := gbEnv) hflat hes h
    (show 0 < 1 by norm_num)
  obtain ⟨pk, rfl⟩ := gb_tabQ (c := 1) (n := .A_2loop_I_q) rfl (by rw [hone]; exact hg)
  rw [gb_tabMu (n := .A_2loop_I_mu) rfl] at hgm
  cases hgm
  obtain ⟨b, hb, -⟩ := ga_value hv
  have hr : Real.sqrt (5 / 8) * Real.sqrt (5 / 8) = 5 / 8 := Real.mul_self_sqrt (by norm_num)
  have hmid := gb_mid.1
  obtain ⟨A, T, hA, hT, hbi⟩ := bi_growth (t := gbTable) (i := .poly) (uv := 2) (by norm_num) (by norm_num) (by linarith)
    (gb_sigma1 (by norm_num)) (gb_sigma1 (by norm_num)) (gb_sigma1 hmid.le) hb (gb_look 2 (by norm_num)) (gb_look 0 (by norm_num))
    (gb_look 1 (by norm_num))
  have hne : C (5 / 32) * A + C (11 / 80) * T ≠ 0 := by
    intro h0
    have := congrArg (eval 0) h0
    rw [eval_add, eval_mul, eval_mul, eval_C, eval_C, hA, hT] at this
    have h2 : (2 * Real.sqrt (5 / 8)) * (2 * Real.sqrt (5 / 8)) = 5 / 2 := by linarith
    simp only [gamma2Tree, F2Fast, h2] at this
    norm_num at this
  have hF : 0 < (2 * 2 * sigmav2 gbTable + 1 * 1 * sigmav2 gbTable +
      2 * Real.sqrt (5 / 8) * (2 * Real.sqrt (5 / 8)) * sigmav2 gbTable) / 2 := by
    have := gb_sigma
    have := mul_self_nonneg (2 * Real.sqrt (5 / 8))
    positivity
  set w := Real.sqrt 3 * Real.log 2 / 2 with hw
  have hw0 : 0 < w := by have := Real.log_pos (show (1 : ℝ) < 2 by norm_num); positivity
  set K := 3 / 4 * w * (2 * 2 * 2 / (2 * Real.pi * Real.pi)) with hK
  have hK0 : K ≠ 0 := by positivity
  obtain ⟨c, hc0, hcne⟩ := exp_poly_ne hne hF ((viewOf clsA ν).val "pk" 0 / K) (50 / sigmav2 gbTable)
  have hσ := gb_sigma
  have hcpos : 0 < c := lt_trans (by positivity) hc0
  refine ⟨Real.sqrt c, Real.sqrt_pos.mpr hcpos, ?_⟩
  rw [Real.sq_sqrt hcpos.le]
  obtain ⟨⟨cfg', ν'⟩, h'⟩ := C59_A_two_loop (ok c) hc hes hflat
  refine ⟨cfg', ν', h', ?_⟩
  obtain ⟨_, _, g', gm', g1', gd', gt', st', v', mc, range, _, _, hg', hgm', hg1', hgd', hgt', hv', _, hmc, _, _, hcell⟩ :=
    C45_A_two_loop (e := gbEnv.scale c) hflat hes h' (show 0 < 1 by norm_num)
  obtain ⟨pk', rfl⟩ := gb_tabQ (n := .A_2loop_I_q) rfl hg'
  have hgm2 : gbEnv.tabMu .A_2loop_I_mu = .ok gm' := hgm'
  rw [gb_tabMu (n := .A_2loop_I_mu) rfl] at hgm2
  cases hgm2
  have tab : ∀ {n : PName} {g g' : GLQ ℝ}, gbEnv.tabQ n = .ok g → (gbEnv.scale c).tabQ n = .ok g' → g' = g.scale c := by
    intro n g g' e1 e2
    have := gbEnv.tabQ_scale hcpos n
    rw [e1, e2] at this
    exact this
  rw [tab hg1 hg1', tab hgd hgd', tab hgt hgt'] at hv'
  obtain ⟨b', hb', hval⟩ := ga_value hv'
  obtain ⟨b'', hb'', ea, et⟩ := hbi c hcpos
  have : b' = b'' := by
    have := hb'.symm.trans hb''
    cases this
    rfl
  subst this
  -- the Monte-Carlo part
  have hmc0 : ∀ j, mc j = 0 := by
    replace hmc : calcA2II cuba (gbTable.scale c) .poly 2 range.1 range.2 2 = .ok mc := hmc
    unfold calcA2II at hmc
    rw [show kernelA2II (gbTable.scale c) .poly 2 2 range.1 range.2 = fun _ => .ok fun _ => 0 from
      mc_vanishes (t := gbTable.scale c) (gbTable_incr _ rfl) (by norm_num [gbTable, Pk.scale])
        (by intro i hi; have : i < 3 := hi; interval_cases i <;> norm_num [gbTable, Pk.scale, hcpos.le]) .poly (by norm_num : (0 : ℝ) ≤ 2)
        (Rel.times (sigma1_scale c gbTable 2 2) (gb_sigma1 (by norm_num)))
        (by
          have := (div_lt_iff₀ hσ).mp hc0
          linarith) range.1 range.2, hz] at hmc
    cases hmc
    intro j
    simp
  have hcol := hcell 5 rfl 0
  have hcv : (viewOf clsA ν').val "pk" 0 = v' 0 + v' 6 := by
    rw [viewOf_of (cls := clsA) (f := "pk") (i := 0) (by decide) hcol]
    show v' 0 + v' 6 + (mc 0 + mc 6) = _
    rw [hmc0, hmc0]
    ring
  rintro ⟨t', ht', hv⟩
  have hv := hv "pk" (by decide) trivial 0 (by show 0 < 1 * 5; norm_num)
  rw [C32_rescale_val clsA _ _ _ ht' "pk" 2 rfl 0, hcv, hval, ea, et] at hv
  have h4 : Real.sqrt c ^ (2 * 2) = c ^ 2 := by rw [pow_mul, Real.sq_sqrt hcpos.le]
  rw [h4] at hv
  apply hcne
  rw [eq_div_iff hK0, eval_add, eval_mul, eval_mul, eval_C, eval_C]
  have h2 : c ^ 2 ≠ 0 := by positivity
  apply mul_left_cancel₀ h2
  linear_combination hv

/-- A routine meeting the conditions: the midpoint rule with one point. -/
example : ∃ cfg ν, runTermsA2 exCuba gbEnv (blocks 5 0 0 [1]) exMem = .ok (cfg, ν) ∧
    ∃ s > 0, ∃ cfg' ν', runTermsA2 exCuba (gbEnv.scale (s ^ 2)) (blocks 5 0 0 [1]) exMem = .ok (cfg', ν') ∧
      ¬ Rescaled clsA s gbEnv.ks.length ν ν' :=
  C31_A_two_loop_violation (fun _ hf => hf _) rfl

end Verif
