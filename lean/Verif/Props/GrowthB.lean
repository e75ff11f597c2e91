import Verif.Props.Homogeneous
import Mathlib.Analysis.SpecialFunctions.PolynomialExp

/-!
# C31: the growth of `B2Loop`

The terms are built from one-loop spectra, which are damped: they are no power of the linear spectrum.
-/

namespace Verif

open Filter Topology Polynomial

/-- The one-loop spectrum at the tabulated modes as `Spectrum1Loop.pk()` returns it (`pyregpt/pyregpt.py:361-371`, called at
`pyregpt/pyregpt.py:601-602`), from the arrays `ν` of the run. -/
noncomputable def assembled (t : Pk ℝ) (ν : Mem) : Pk ℝ := ⟨t.nk, t.k, (List.range t.nk).map ((viewOf cls1 ν).pk1 1 none)⟩

/-- `B2Loop.run_terms` (`pyregpt/pyregpt.py:588-608`): the density-velocity and velocity-velocity spectra at the modes of the linear spectrum
(arrays `μ₁`, `μ₂`), then the run of B with them. -/
noncomputable def runTermsB2 (e : Env) (es3 es9 : List Event) (μ₁ μ₂ μ : Mem) : Res Mem := do
  let ν₁ ← runTerms1 { e with ks := e.t.k } .delta .theta es3 μ₁
  let ν₂ ← runTerms1 { e with ks := e.t.k } .theta .theta es3 μ₂
  runTermsB e (assembled e.t ν₁) (assembled e.t ν₂) es9 μ

/-- Two radial nodes at 1 and 2 and one angle for A and B; the whole dispersion for the one-loop spectra. -/
noncomputable def gbCfg : Cfg ℝ where
  prec := fun p => match p with
    | .B_q | .A_2loop_I_q => ⟨2, Real.exp (Real.log 2 / 2 * (1 - Real.sqrt 3)), Real.exp (Real.log 2 / 2 * (1 + Real.sqrt 3)), .poly⟩
    | .B_mu | .A_2loop_I_mu => ⟨1, -1, 1, .poly⟩
    | p => defaultPrec p
  interp := fun _ => .poly
  uv := fun _ => 2

/-- Three modes, the second one being the third side of the triangle of the only configuration. -/
noncomputable def gbTable : Pk ℝ := ⟨3, [1, 2 * Real.sqrt (5 / 8), 2], [1, 1, 1]⟩

noncomputable def gbEnv : Env := ⟨gbCfg, sgRoots, gbTable, [2]⟩

theorem gb_mid : 1 < 2 * Real.sqrt (5 / 8) ∧ 2 * Real.sqrt (5 / 8) < 2 := by
  have h : Real.sqrt (5 / 8) * Real.sqrt (5 / 8) = 5 / 8 := Real.mul_self_sqrt (by norm_num)
  have h0 : 0 ≤ Real.sqrt (5 / 8) := Real.sqrt_nonneg _
  constructor <;> nlinarith

theorem gbTable_incr (l : List ℝ) (hl : l.length = 3) : (⟨3, gbTable.k, l⟩ : Pk ℝ).Increasing where
  hk := rfl
  hpk := hl
  hsize := by norm_num
  incr := by
    obtain ⟨h1, h2⟩ := gb_mid
    show [1, 2 * Real.sqrt (5 / 8), 2].Pairwise (· < ·)
    refine List.pairwise_cons.mpr ⟨fun a ha => ?_, List.pairwise_cons.mpr ⟨fun a ha => ?_, List.pairwise_singleton _ _⟩⟩
    · rcases List.mem_cons.mp ha with rfl | ha
      · exact h1
      · rw [List.mem_singleton.mp ha]; norm_num
    · rw [List.mem_singleton.mp ha]; exact h2

theorem gbEnv_ok (c : ℝ) (ks : List ℝ) : Env.Ok { (gbEnv.scale c) with ks := ks } where
  wf := (gbTable_incr (gbTable.pk.map (c * ·)) rfl).toWF
  two := by norm_num [gbEnv, gbTable, Env.scale, Pk.scale]
  size := by intro p; cases p <;> norm_num [gbEnv, gbCfg, defaultPrec, Env.scale]
  poly := by intro p; cases p <;> rfl
  interp := by intro o; rfl

theorem gb_tabMu {n : PName} (hn : gbCfg.prec n = gbCfg.prec .B_mu) : gbEnv.tabMu n = .ok ⟨1, [0], [2], [0], [2]⟩ := by
  show initGLMu (sgRoots (gbCfg.prec n).n) (gbCfg.prec n).n = _
  rw [hn]
  show initGLMu (sgRoots 1) 1 = _
  rw [initGLMu_eq _ _ (by norm_num)]
  norm_num [nodeAt, weightAt, sgRoots]

theorem gb_tabQ {c : ℝ} {g : GLQ ℝ} {n : PName} (hn : gbCfg.prec n = gbCfg.prec .B_q) (h : (gbEnv.scale c).tabQ n = .ok g) :
    ∃ pk, g = ⟨2, 1, [1, 2], [1, 2], [Real.sqrt 3 * Real.log 2 / 2, Real.sqrt 3 * Real.log 2 / 2], pk⟩ := by
  replace h : initGLQ (sgRoots (gbCfg.prec n).n) (gbTable.scale c) (gbCfg.prec n) = .ok g := h
  rw [hn] at h
  obtain ⟨a, b, pk, h1, h2, rfl⟩ := initGLQ_ok (show (gbCfg.prec .B_q).n < 2 ^ 63 by norm_num [gbCfg]) h
  have hr : glqRange (gbTable.scale c) (gbCfg.prec .B_q) =
      .ok (Real.exp (Real.log 2 / 2 * (1 - Real.sqrt 3)), Real.exp (Real.log 2 / 2 * (1 + Real.sqrt 3))) := by
    unfold glqRange
    rw [if_neg (by simp [gbCfg, Real.exp_pos])]
    rfl
  rw [hr] at h1
  cases h1
  have h3 : Real.sqrt 3 * Real.sqrt 3 = 3 := Real.mul_self_sqrt (by norm_num)
  have h0 : 0 < Real.sqrt 3 := Real.sqrt_pos.mpr (by norm_num)
  have hl : 0 < Real.log 2 := Real.log_pos (by norm_num)
  have hn : (List.range 2).map (fun i => Real.exp (nodeAt (sgRoots 2) (Real.log 2 / 2 * (1 - Real.sqrt 3))
      (Real.log 2 / 2 * (1 + Real.sqrt 3)) 2 i)) = [1, 2] := by
    have e0 : nodeAt (sgRoots 2) (Real.log 2 / 2 * (1 - Real.sqrt 3)) (Real.log 2 / 2 * (1 + Real.sqrt 3)) 2 0 = 0 := by
      simp [nodeAt, sgRoots]
      field_simp
      ring
    have e1 : nodeAt (sgRoots 2) (Real.log 2 / 2 * (1 - Real.sqrt 3)) (Real.log 2 / 2 * (1 + Real.sqrt 3)) 2 1 = Real.log 2 := by
      simp [nodeAt, sgRoots]
      field_simp
      ring
    simp [List.range_succ, e0, e1, Real.exp_log]
  have hw : (List.range 2).map (weightAt (sgRoots 2) (Real.log 2 / 2 * (1 - Real.sqrt 3)) (Real.log 2 / 2 * (1 + Real.sqrt 3)) 2) =
      [Real.sqrt 3 * Real.log 2 / 2, Real.sqrt 3 * Real.log 2 / 2] := by
    have : ∀ i, weightAt (sgRoots 2) (Real.log 2 / 2 * (1 - Real.sqrt 3)) (Real.log 2 / 2 * (1 + Real.sqrt 3)) 2 i =
        Real.sqrt 3 * Real.log 2 / 2 := by
      intro i
      have hz : (1 - 1 / Real.sqrt 3 * (1 / Real.sqrt 3)) * Real.sqrt 3 * Real.sqrt 3 = 2 := by
        field_simp
        nlinarith
      simp only [weightAt, sgRoots, if_true, lit_real]
      push_cast
      rw [hz]
      ring
    simp [List.range_succ, this]
  rw [Real.log_exp, Real.log_exp] at h2 ⊢
  refine ⟨pk, ?_⟩
  show (⟨2, 1, (List.range 2).map _, (List.range 2).map _, (List.range 2).map _, pk⟩ : GLQ ℝ) = _
  rw [← hw, ← hn]
  rfl

/-- The third column is a multiple of the product of the velocity spectrum at the two sides of the triangle. -/
theorem gb_value {w : ℝ} (hw : 0 < w) : ∃ K, K ≠ 0 ∧ ∀ (pk : List ℝ) (dt : Pk ℝ) (T : List ℝ), T.length = 3 → ∀ (s : GLQ ℝ × GLMu ℝ) (v : Fin 12 → ℝ),
    calcB dt ⟨3, gbTable.k, T⟩ .poly ⟨2, 1, [1, 2], [1, 2], [w, w], pk⟩ ⟨1, [0], [2], [0], [2]⟩ 2 = .ok (s, v) →
      v 3 = K * (T.getD 0 0 * T.getD 1 0) := by
  refine ⟨3 / 8 * w * kB (pw (1 / 2)) (pw (5 / 8)) 3 * (2 * 2 * 2 / (2 * Real.pi * Real.pi)), ?_, ?_⟩
  · refine mul_ne_zero (mul_ne_zero (by positivity) ?_) (by positivity)
    have : kB (pw (1 / 2)) (pw (5 / 8)) 3 = 5 * pw (1 / 2) 4 * power (pw (5 / 8) 2 - 1) 3 / (1 + pw (1 / 2) 2 - 2 * pw (5 / 8) 1 * pw (1 / 2) 1)
      / 16 / (1 + pw (1 / 2) 2 - 2 * pw (5 / 8) 1 * pw (1 / 2) 1) := rfl
    rw [this, C01_power]
    norm_num [pw]
  intro pk dt T hT s v h
  unfold calcB at h
  simp only [Res.bind_eq_ok] at h
  obtain ⟨r, h, e⟩ := h
  cases e
  set g : GLQ ℝ := updateGLQ ⟨2, 1, [1, 2], [1, 2], [w, w], pk⟩ 2 with hg
  have r0 : quadRange true g 0 = some (1 / 4, 1) := by
    norm_num [hg, quadRange, muRange, updateGLQ, rd, subSize, sizeMod, ofLong, cMax, cMin]
  have m0 : quadMu true g ⟨1, [0], [2], [0], [2]⟩ 0 0 = 5 / 8 := by norm_num [quadMu, r0, updateGLMu]
  have w1 : quadWeight true g ⟨1, [0], [2], [0], [2]⟩ (fun x w => x * w) 1 0 = 0 := by
    norm_num [quadWeight, hg, quadRange, muRange, updateGLQ, rd, subSize, sizeMod, ofLong, cMax, cMin, updateGLMu]
  have w0 : quadWeight true g ⟨1, [0], [2], [0], [2]⟩ (fun x w => x * w) 0 0 = 3 / 8 * w := by
    simp only [quadWeight, r0]
    norm_num [updateGLMu, hg, updateGLQ]
    ring
  obtain ⟨hd, hs⟩ := quadLoop_sum h
  show r.2 3 * _ = _
  rw [hs]
  have d0 := hd 0 (show 0 < 2 by norm_num) (by rw [r0]; simp) 0 (show 0 < 1 by norm_num)
  rw [m0] at d0
  rw [show (⟨1, [0], [2], [0], [2]⟩ : GLMu ℝ).nmu = 1 from rfl, show g.nq = 2 from rfl]
  simp only [Finset.sum_range_succ, Finset.sum_range_zero, zero_add, m0, w1, zero_mul, add_zero]
  have key : (kernelB dt ⟨3, gbTable.k, T⟩ .poly g 0 (5 / 8)).val 3 = kB (pw (1 / 2)) (pw (5 / 8)) 3 * (T.getD 1 0 * T.getD 0 0) := by
    generalize (kernelB dt ⟨3, gbTable.k, T⟩ .poly g 0 (5 / 8)).val = f at d0 ⊢
    simp only [kernelB, Res.bind_eq_ok] at d0
    obtain ⟨x, h1, q, h2, dq, -, dr, -, tq, h3, tr, h4, e⟩ := d0
    have hx : x = 1 / 2 := (rd_eq_ok h1).1.symm
    have hq : q = 1 := (rd_eq_ok h2).1.symm
    subst hx hq
    have n0 := C08_findPk_node_poly _ (gbTable_incr T hT) 0 (by norm_num)
    have n1 := C08_findPk_node_poly _ (gbTable_incr T hT) 1 (by norm_num)
    have hk : g.k * Real.sqrt (1 + pw (1 / 2) 2 - 2 * pw (5 / 8) 1 * pw (1 / 2) 1) = 2 * Real.sqrt (5 / 8) := by
      norm_num [pw, power, hg, updateGLQ]
    rw [hk] at h4
    have e0 : (⟨3, gbTable.k, T⟩ : Pk ℝ).k.getD 0 0 = 1 := rfl
    have e1 : (⟨3, gbTable.k, T⟩ : Pk ℝ).k.getD 1 0 = 2 * Real.sqrt (5 / 8) := rfl
    rw [e0] at n0
    rw [e1] at n1
    simp only [look, n0, n1, Res.bind_eq_ok] at h3 h4
    obtain ⟨_, e3, h3⟩ := h3
    cases e3
    obtain ⟨_, e4, h4⟩ := h4
    cases e4
    cases h3
    cases h4
    cases e
    rfl
  rw [key, w0]
  ring

/-- An exponential times a polynomial is not constant, also beyond any given argument. -/
theorem exp_poly_ne {p : ℝ[X]} (hp : p ≠ 0) {F : ℝ} (hF : 0 < F) (T c₀ : ℝ) : ∃ c > c₀, Real.exp (-(F * c)) * p.eval c ≠ T := by
  by_contra hcon
  push Not at hcon
  have h1 : Tendsto (fun c => Real.exp (-(F * c)) * p.eval c) atTop (𝓝 0) := by
    have := (Polynomial.tendsto_div_exp_atTop (p.comp (C (1 / F) * X))).comp (tendsto_id.const_mul_atTop hF)
    refine this.congr fun c => ?_
    have : 1 / F * (F * c) = c := by field_simp
    simp only [Function.comp, id, eval_comp, eval_mul, eval_C, eval_X, this, Real.exp_neg]
    rw [div_eq_inv_mul]
  have hT : T = 0 := by
    refine tendsto_nhds_unique (tendsto_const_nhds.congr' ?_) h1
    filter_upwards [eventually_gt_atTop c₀] with c hc
    exact (hcon c hc).symm
  subst hT
  refine hp (Polynomial.eq_zero_of_infinite_isRoot p ((Set.Ioi_infinite c₀).mono fun c hc => ?_))
  exact (mul_eq_zero.mp (hcon c hc)).resolve_left (Real.exp_ne_zero _)

/-- The assembled one-loop spectrum on the rescaled spectrum: an exponential times a polynomial in the factor. -/
theorem pk1_rescaled {s : ℝ} {n : ℕ} {ν ν' : Mem} (h : Rescaled cls1 s n ν ν') {i : ℕ} (hi : i < n) :
    (viewOf cls1 ν').pk1 1 none i = s ^ 2 * (Real.exp (-((viewOf cls1 ν).val "k" i ^ 2 * (viewOf cls1 ν).val "sigmad2" i * s ^ 2)) *
      ((1 + s ^ 2 * (1 / 2 * (viewOf cls1 ν).val "k" i ^ 2 * (viewOf cls1 ν).val "sigmad2" i + (viewOf cls1 ν).val "gamma1a_1loop" i)) *
        (1 + s ^ 2 * (1 / 2 * (viewOf cls1 ν).val "k" i ^ 2 * (viewOf cls1 ν).val "sigmad2" i + (viewOf cls1 ν).val "gamma1b_1loop" i)) *
          (viewOf cls1 ν).val "pk_lin" i + s ^ 2 * (viewOf cls1 ν).val "pk_gamma2_tree_tree" i)) := by
  obtain ⟨t', ht, hv⟩ := h
  have get : ∀ f m, cls1.scale.lookup f = some m → f ∈ cls1.fields → (viewOf cls1 ν').val f i = (viewOf cls1 ν).val f i * s ^ (2 * m) := by
    intro f m hm hf
    rw [hv f hf trivial i (by rw [show cls1.width f = 1 from rfl, mul_one]; exact hi), C32_rescale_val cls1 s _ _ ht f m hm i]
  unfold Terms.pk1
  dsimp only
  rw [get "k" 0 rfl (by decide), get "sigmad2" 1 rfl (by decide), get "gamma1a_1loop" 1 rfl (by decide),
    get "gamma1b_1loop" 1 rfl (by decide), get "pk_lin" 1 rfl (by decide), get "pk_gamma2_tree_tree" 2 rfl (by decide)]
  generalize (viewOf cls1 ν).val "k" i = k
  generalize (viewOf cls1 ν).val "sigmad2" i = d
  have e1 : Real.exp (-(k ^ 2 * d * s ^ 2)) = Real.exp (-(1 / 2 * k ^ 2 * d * s ^ 2)) * Real.exp (-(1 / 2 * k ^ 2 * d * s ^ 2)) := by
    rw [← Real.exp_add]
    congr 1
    ring
  have e2 : -2 * (0.5 * (k * s ^ (2 * 0) * 1) ^ 2 * (d * s ^ (2 * 1))) = -(k ^ 2 * d * s ^ 2) := by ring
  have e3 : 0.5 * (k * s ^ (2 * 0) * 1) ^ 2 * (d * s ^ (2 * 1)) = 1 / 2 * k ^ 2 * d * s ^ 2 := by ring
  rw [e2, e3, e1]
  ring

/-- C31, what holds for `B2Loop`: on the spectrum multiplied by `s²` the run is the run of B with the two one-loop spectra at the growth
factor `s`. Missing: rescaled columns (`C31_B_two_loop_violation`). -/
theorem C31_B_two_loop_partial {e : Env} {es3 es9 : List Event} {μ₁ μ₂ μ ν₁ ν₂ : Mem} (hk : e.t.k.length = e.t.nk)
    (h₁ : Room 6 e.t.nk μ₁) (h₂ : Room 6 e.t.nk μ₂) (hes : Schedule 3 e.t.nk es3) {s : ℝ} (hs : s ≠ 0)
    (hr₁ : runTerms1 { e with ks := e.t.k } .delta .theta es3 μ₁ = .ok ν₁)
    (hr₂ : runTerms1 { e with ks := e.t.k } .theta .theta es3 μ₂ = .ok ν₂) :
    runTermsB2 (e.scale (s ^ 2)) es3 es9 μ₁ μ₂ μ =
      runTermsB (e.scale (s ^ 2)) ⟨e.t.nk, e.t.k, (List.range e.t.nk).map ((viewOf cls1 ν₁).pk1 s none)⟩
        ⟨e.t.nk, e.t.k, (List.range e.t.nk).map ((viewOf cls1 ν₂).pk1 s none)⟩ es9 μ := by
  set e1 : Env := { e with ks := e.t.k } with he1
  have hl : e1.ks.length = e.t.nk := hk
  rw [← hl] at h₁ h₂ hes
  obtain ⟨ν₁', k1, r1⟩ := C31_one_loop h₁ hes hes hs hr₁
  obtain ⟨ν₂', k2, r2⟩ := C31_one_loop h₂ hes hes hs hr₂
  have key : ∀ {ν ν' : Mem}, Rescaled cls1 s e1.ks.length ν ν' → assembled (e.scale (s ^ 2)).t ν' =
      ⟨e.t.nk, e.t.k, (List.range e.t.nk).map ((viewOf cls1 ν).pk1 s none)⟩ := by
    intro ν ν' h
    show (⟨e.t.nk, e.t.k, (List.range e.t.nk).map _⟩ : Pk ℝ) = _
    congr 1
    refine List.map_congr_left fun i hi => ?_
    rw [pk1_rescaled h (by rw [hl]; exact List.mem_range.mp hi)]
    unfold Terms.pk1
    dsimp only
    generalize (viewOf cls1 ν).val "k" i = k
    generalize (viewOf cls1 ν).val "sigmad2" i = d
    have e1 : Real.exp (-(k ^ 2 * d * s ^ 2)) = Real.exp (-(1 / 2 * k ^ 2 * d * s ^ 2)) * Real.exp (-(1 / 2 * k ^ 2 * d * s ^ 2)) := by
      rw [← Real.exp_add]
      congr 1
      ring
    have e2 : -2 * (0.5 * (k * s) ^ 2 * d) = -(k ^ 2 * d * s ^ 2) := by ring
    have e3 : 0.5 * (k * s) ^ 2 * d = 1 / 2 * k ^ 2 * d * s ^ 2 := by ring
    rw [e2, e3, e1]
    ring
  unfold runTermsB2
  rw [show runTerms1 { (e.scale (s ^ 2)) with ks := (e.scale (s ^ 2)).t.k } .delta .theta es3 μ₁ = _ from k1,
    show runTerms1 { (e.scale (s ^ 2)) with ks := (e.scale (s ^ 2)).t.k } .theta .theta es3 μ₂ = _ from k2]
  show runTermsB _ (assembled _ ν₁') (assembled _ ν₂') es9 μ = _
  rw [key r1, key r2]

/-- Arrays for the one-loop spectra: the modes of the table in front. -/
noncomputable def gbMem : Mem := fun i => if i = 0 then gbTable.k.map some else List.replicate 45 none

theorem gbMem_room : Room 6 3 gbMem := by
  intro i _
  by_cases h : i = 0
  · simp [gbMem, h, gbTable]
  · simp [gbMem, h]

/-- The dispersion of the witness. -/
theorem gb_sigma : 0 < sigmav2 gbTable := by
  obtain ⟨h1, h2⟩ := gb_mid
  have : sigmav2 gbTable = 1 / 6 / Real.pi ^ 2 := by
    simp only [sigmav2, gbTable, Finset.sum_range_succ, Finset.sum_range_zero]
    norm_num
  rw [this]
  positivity

theorem gb_ok : Env.Ok { gbEnv with ks := gbTable.k } := by
  have := gbEnv_ok 1 gbTable.k
  have hs : gbEnv.scale 1 = gbEnv := by simp [gbEnv, Env.scale, Pk.scale, gbTable]
  rw [hs] at this
  exact this

/-- The runs of `C31_B_two_loop_partial` exist for the three modes of the witness. -/
example : ∃ ν₁ ν₂, ∀ es9 μ, runTermsB2 (gbEnv.scale (2 ^ 2)) (blocks 3 0 0 [3]) es9 gbMem gbMem μ =
    runTermsB (gbEnv.scale (2 ^ 2)) ⟨3, gbTable.k, (List.range 3).map ((viewOf cls1 ν₁).pk1 2 none)⟩
      ⟨3, gbTable.k, (List.range 3).map ((viewOf cls1 ν₂).pk1 2 none)⟩ es9 μ := by
  have hes : Schedule 3 3 (blocks 3 0 0 [3]) := C43_static_schedule 3 [3] (by simp)
  obtain ⟨ν₁, h1⟩ := C59_one_loop gb_ok .delta .theta hes (μ := gbMem) gbMem_room
  obtain ⟨ν₂, h2⟩ := C59_one_loop gb_ok .theta .theta hes (μ := gbMem) gbMem_room
  exact ⟨ν₁, ν₂, fun es9 μ => C31_B_two_loop_partial (e := gbEnv) rfl gbMem_room gbMem_room hes two_ne_zero h1 h2⟩

/-- C31, violation: the terms of `B2Loop` are not of second order in the spectrum, since the spectra they are built from are damped:
for some `s > 0` the terms on the spectrum multiplied by `s²` are not those of the original after `rescale(s)`. -/
theorem C31_B_two_loop_violation :
    ∃ ν, runTermsB2 gbEnv (blocks 3 0 0 [3]) (blocks 9 0 0 [1]) gbMem gbMem exMem = .ok ν ∧
      ∃ s > 0, ∃ ν', runTermsB2 (gbEnv.scale (s ^ 2)) (blocks 3 0 0 [3]) (blocks 9 0 0 [1]) gbMem gbMem exMem = .ok ν' ∧
        ¬ Rescaled clsB s gbEnv.ks.length ν ν' := by
  have hes : Schedule 3 3 (blocks 3 0 0 [3]) := C43_static_schedule 3 [3] (by simp)
  have hes9 : Schedule 9 1 (blocks 9 0 0 [1]) := C43_static_schedule 9 [1] (by simp)
  have hflat : RoomFlat 9 1 exMem := ⟨fun i _ => by simp [exMem], by simp [exMem]⟩
  set e1 : Env := { gbEnv with ks := gbTable.k } with he1
  have ok1 : e1.Ok := gb_ok
  obtain ⟨ν₁, h1⟩ := C59_one_loop ok1 .delta .theta hes (μ := gbMem) gbMem_room
  obtain ⟨ν₂, h2⟩ := C59_one_loop ok1 .theta .theta hes (μ := gbMem) gbMem_room
  -- every factor gives a defined run, with the value of the third column
  have run : ∀ s : ℝ, s ≠ 0 → ∃ ν₂' ν', Rescaled cls1 s 3 ν₂ ν₂' ∧
      runTermsB2 (gbEnv.scale (s ^ 2)) (blocks 3 0 0 [3]) (blocks 9 0 0 [1]) gbMem gbMem exMem = .ok ν' ∧
      ∃ dt, runTermsB (gbEnv.scale (s ^ 2)) dt ⟨3, gbTable.k, (List.range 3).map ((viewOf cls1 ν₂').pk1 1 none)⟩
        (blocks 9 0 0 [1]) exMem = .ok ν' := by
    intro s hs
    obtain ⟨ν₁', h1', _⟩ := C31_one_loop (e := e1) gbMem_room hes hes hs h1
    obtain ⟨ν₂', h2', r2⟩ := C31_one_loop (e := e1) gbMem_room hes hes hs h2
    have ok' : (gbEnv.scale (s ^ 2)).Ok := gbEnv_ok (s ^ 2) [2]
    obtain ⟨ν', h'⟩ := C59_B ok' (dt := assembled (gbTable.scale (s ^ 2)) ν₁') (tt := assembled (gbTable.scale (s ^ 2)) ν₂')
      (gbTable_incr _ rfl).toWF (show 2 ≤ 3 by norm_num) (gbTable_incr _ rfl).toWF (show 2 ≤ 3 by norm_num) hes9 hflat
    refine ⟨ν₂', ν', r2, ?_, _, h'⟩
    unfold runTermsB2
    simp only [Res.bind_eq_ok]
    exact ⟨ν₁', h1', ν₂', h2', h'⟩
  obtain ⟨K, hK, hval⟩ := gb_value (w := Real.sqrt 3 * Real.log 2 / 2)
    (by have := Real.log_pos (show (1 : ℝ) < 2 by norm_num); positivity)
  have value : ∀ {s : ℝ} {ν' : Mem} {dt : Pk ℝ} {T : List ℝ}, T.length = 3 →
      runTermsB (gbEnv.scale (s ^ 2)) dt ⟨3, gbTable.k, T⟩ (blocks 9 0 0 [1]) exMem = .ok ν' →
        (viewOf clsB ν').val "pk" 2 = K * (T.getD 0 0 * T.getD 1 0) := by
    intro s ν' dt T hT h
    obtain ⟨_, _, g, gm, st, v, _, _, hg, hgm, hv, _, _, hcell⟩ := C45_B (e := gbEnv.scale (s ^ 2)) hflat hes9 h
      (show 0 < 1 by norm_num)
    obtain ⟨pk, rfl⟩ := gb_tabQ rfl hg
    have hgm' : gbEnv.tabMu .B_mu = .ok gm := hgm
    rw [gb_tabMu rfl] at hgm'
    cases hgm'
    have hc := hcell 9 rfl 2
    rw [viewOf_of (cls := clsB) (f := "pk") (i := 2) (by decide) hc]
    exact hval pk dt T hT st v hv
  -- the dispersions of the first two modes
  set L : ℕ → String → ℝ := fun i f => (viewOf cls1 ν₂).val f i with hL
  have lin : ∀ i < 3, L i "k" = gbTable.k.getD i 0 ∧ L i "sigmad2" = sigmav2 gbTable ∧ L i "pk_lin" = 1 := by
    intro i hi
    obtain ⟨pl, sg, _, _, _, _, _, _, _, hpl, hsg, _, _, _, _, _, _, c1, c2, _, _, _, c0⟩ :=
      C45_one_loop (e := e1) gbMem_room hes h2 hi
    have inc : gbTable.Increasing := gbTable_incr [1, 1, 1] rfl
    have asc : gbTable.k.Pairwise (· ≤ ·) := inc.incr.imp le_of_lt
    have hk0 : ∀ i < 3, 1 ≤ gbTable.k.getD i 0 := by
      intro i hi
      interval_cases i
      · exact le_refl _
      · exact gb_mid.1.le
      · show (1 : ℝ) ≤ 2; norm_num
    refine ⟨?_, ?_, ?_⟩
    · refine viewOf_of (cls := cls1) (by decide) (c0.trans ?_)
      interval_cases i <;> rfl
    · refine (viewOf_of (cls := cls1) (by decide) c2).trans ?_
      obtain ⟨vs, hvs, _, _, hlast⟩ := C12_sigmad2_shape gbTable inc (by norm_num [gbTable])
        (by intro i hi; have : i < 3 := hi; interval_cases i <;> norm_num [gbTable]) 2 (by norm_num) gbTable.k asc
      have : sg = vs := by
        have := hsg.symm.trans hvs
        cases this
        rfl
      rw [this]
      refine hlast i hi ?_
      have := hk0 i hi
      show (2 : ℝ) ≤ 2 * _
      linarith
    · refine (viewOf_of (cls := cls1) (by decide) c1).trans ?_
      obtain ⟨hl, hv⟩ := C07_findPk_pointwise_partial gbTable inc (by norm_num [gbTable]) .poly gbTable.k asc pl hpl
      have hi' : i < pl.length := by rw [hl]; exact hi
      have node := C08_findPk_node_poly gbTable inc i hi
      rw [getD_eq (show i < gbTable.k.length from hi)] at node
      have : pl[i] = gbTable.pk.getD i 0 := by simpa using (hv i hi hi').symm.trans node
      rw [getD_eq hi', this]
      interval_cases i <;> rfl
  -- the polynomial
  set p : ℕ → ℝ[X] := fun i => (1 + X * C (1 / 2 * L i "k" ^ 2 * L i "sigmad2" + L i "gamma1a_1loop")) *
    (1 + X * C (1 / 2 * L i "k" ^ 2 * L i "sigmad2" + L i "gamma1b_1loop")) * C (L i "pk_lin") + X * C (L i "pk_gamma2_tree_tree") with hp
  have col : ∀ s : ℝ, s ≠ 0 → ∃ ν', runTermsB2 (gbEnv.scale (s ^ 2)) (blocks 3 0 0 [3]) (blocks 9 0 0 [1]) gbMem gbMem exMem = .ok ν' ∧
      (viewOf clsB ν').val "pk" 2 = s ^ 4 * K * (Real.exp (-((L 0 "k" ^ 2 * L 0 "sigmad2" + L 1 "k" ^ 2 * L 1 "sigmad2") * s ^ 2)) *
        (p 0 * p 1).eval (s ^ 2)) := by
    intro s hs
    obtain ⟨ν₂', ν', r2, hB2, dt, hB⟩ := run s hs
    refine ⟨ν', hB2, ?_⟩
    rw [value (s := s) (by simp) hB]
    show K * ((viewOf cls1 ν₂').pk1 1 none 0 * (viewOf cls1 ν₂').pk1 1 none 1) = _
    rw [pk1_rescaled r2 (show 0 < 3 by norm_num), pk1_rescaled r2 (show 1 < 3 by norm_num)]
    rw [add_mul (L 0 "k" ^ 2 * L 0 "sigmad2"), neg_add, Real.exp_add]
    simp only [hp, hL, eval_mul, eval_add, eval_one, eval_X, eval_C]
    ring
  have l0 := lin 0 (by norm_num)
  have l1 := lin 1 (by norm_num)
  have hF : 0 < L 0 "k" ^ 2 * L 0 "sigmad2" + L 1 "k" ^ 2 * L 1 "sigmad2" := by
    have : 0 < L 0 "k" := by rw [l0.1]; exact one_pos
    rw [l0.2.1, l1.2.1]
    have := gb_sigma
    positivity
  obtain ⟨ν, hν, hone⟩ := col 1 one_ne_zero
  obtain ⟨c, hc, hne⟩ := exp_poly_ne (p := p 0 * p 1)
    (fun h0 => by
      have := congrArg (eval 0) h0
      simp [hp, l0.2.2, l1.2.2] at this) hF (Real.exp (-((L 0 "k" ^ 2 * L 0 "sigmad2" + L 1 "k" ^ 2 * L 1 "sigmad2") * 1 ^ 2)) *
        (p 0 * p 1).eval (1 ^ 2)) 0
  refine ⟨ν, ?_, Real.sqrt c, Real.sqrt_pos.mpr hc, ?_⟩
  · rw [← hν]
    simp [gbEnv, Env.scale, Pk.scale, gbTable]
  obtain ⟨ν', hν', hs⟩ := col (Real.sqrt c) (Real.sqrt_pos.mpr hc).ne'
  refine ⟨ν', hν', ?_⟩
  rintro ⟨t', ht', hv⟩
  have hv := hv "pk" (by decide) trivial 2 (by show 2 < 1 * 9; norm_num)
  rw [C32_rescale_val clsB _ _ _ ht' "pk" 2 rfl 2, hs, hone] at hv
  have h4 : Real.sqrt c ^ 4 = c ^ 2 := by
    rw [show (4 : ℕ) = 2 * 2 from rfl, pow_mul, Real.sq_sqrt hc.le]
  rw [show 2 * 2 = 4 from rfl, h4, Real.sq_sqrt hc.le] at hv
  apply hne
  have : c ^ 2 * K ≠ 0 := mul_ne_zero (by positivity) hK
  apply mul_left_cancel₀ this
  rw [hv]
  ring

end Verif
