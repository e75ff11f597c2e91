import Verif.Props.Driver
import Verif.Proofs.Sim

/-!
# C45: named columns hold the named quantities; C25: order of the fields
-/

namespace Verif

open Res (Sim Rel)

/-! ## C45 -/

/-- C45: the list `tolist()` of every class follows the parameter order of its `set_terms_*`; the arrays called `A` and `B` in C
are called `pk` in Python. -/
theorem C45_positions :
    cls1.fields = params1 ∧ cls2.fields = params2 ∧ clsBias.fields = paramsBias ∧
      clsA.fields.map (fun f => if f = "pk" then "A" else f) = paramsA ∧
      clsB.fields.map (fun f => if f = "pk" then "B" else f) = paramsB ∧ clsA.shape.lookup "pk" = some 5 ∧
      clsB.shape.lookup "pk" = some 9 := by
  decide

/-- The cell of mode `ik` in the column `name` of an object of class `cls`. -/
def cellOf (cls : PyClass) (name : String) (ik : ℕ) : Cell := (cls.fields.idxOf name, ik)

/-- The cell of component `c` of mode `ik` in the column `name` of an object of class `cls`, reshaped to `(size, m)` in C order. -/
def cellOf2 (cls : PyClass) (name : String) (m ik c : ℕ) : Cell := (cls.fields.idxOf name, ik * m + c)

theorem opening_columns {m : ℕ} {params : List String} {lay : ℕ → Fin m → Cell} {n : ℕ} {pl sg : List ℝ} {row : ℕ → Fin m → ℝ}
    {μ : Mem} (hf : Fits (mapRun params lay n pl sg row) μ) (hne : pos params "sigmad2" ≠ pos params "pk_lin")
    (h1 : ∀ ik j, (lay ik j).1 ≠ pos params "pk_lin") (h2 : ∀ ik j, (lay ik j).1 ≠ pos params "sigmad2") {ik : ℕ} (hik : ik < n) :
    (overlay (mapRun params lay n pl sg row) μ).at (pos params "pk_lin", ik) = some (some (pl.getD ik 0)) ∧
    (overlay (mapRun params lay n pl sg row) μ).at (pos params "sigmad2", ik) = some (some (sg.getD ik 0)) := by
  constructor
  · refine overlay_some hf ?_
    rw [mapRun_off fun i _ j e => h1 i j (congrArg Prod.fst e), map12_pk_lin _ _ hik hne]
  · refine overlay_some hf ?_
    rw [mapRun_off fun i _ j e => h2 i j (congrArg Prod.fst e), map12_sigmad2 _ _ hik]

theorem other_ok {a b : Field} {f : Field → Res ℝ} {va vb : ℝ} (ha : f a = .ok va) (h : other a b va (f b) = .ok vb) :
    f b = .ok vb := by
  unfold other at h
  split at h
  · next hab =>
    subst hab
    rw [ha, h]
  · exact h

/-- C45, `Spectrum1Loop`: every column holds the quantity of its name, computed from fresh tables. -/
theorem C45_one_loop {e : Env} {a b : Field} {es : List Event} {μ ν : Mem} (hμ : Room 6 e.ks.length μ)
    (hes : Schedule 3 e.ks.length es) (h : runTerms1 e a b es μ = .ok ν) {ik : ℕ} (hik : ik < e.ks.length) :
    ∃ pl sg g1 g gm va vb s v2,
      findPk e.t e.ks (e.cfg.interp .spectrum_1loop) = .ok pl ∧ runningSigmad2 e.t e.ks (e.cfg.uv .spectrum_1loop) = .ok sg ∧
      e.tabQ .gamma1_1loop_q = .ok g1 ∧ e.tabQ .gamma2_tree_q = .ok g ∧ e.tabMu .gamma2_tree_mu = .ok gm ∧
      gamma1OneLoop a g1 e.ks[ik] = .ok va ∧ gamma1OneLoop b g1 e.ks[ik] = .ok vb ∧
      calcGamma2Tree e.t (e.cfg.prec .gamma2_tree_mu).interpol a b g gm e.ks[ik] = .ok (s, v2) ∧
      ν.at (cellOf cls1 "pk_lin" ik) = some (some (pl.getD ik 0)) ∧
      ν.at (cellOf cls1 "sigmad2" ik) = some (some (sg.getD ik 0)) ∧
      ν.at (cellOf cls1 "gamma1a_1loop" ik) = some (some va) ∧
      ν.at (cellOf cls1 "gamma1b_1loop" ik) = some (some vb) ∧
      ν.at (cellOf cls1 "pk_gamma2_tree_tree" ik) = some (some v2) ∧
      ν.at (cellOf cls1 "k" ik) = μ.at (cellOf cls1 "k" ik) := by
  obtain ⟨pl, sg, s0, row, h1, h2, h3, h4, rfl, _⟩ := run1_assigns hμ hes h
  have hf : Fits (mapRun params1 (layCols params1 names1) e.ks.length pl sg row) μ :=
    fits_mapRun (lay1_inj _) (lay1_in hμ) (room12 hμ (by decide) (by decide))
  have hcol : ∀ c, (overlay (mapRun params1 (layCols params1 names1) e.ks.length pl sg row) μ).at (layCols params1 names1 ik c) =
      some (some (row ik c)) := fun c => overlay_some hf (mapRun_lay (lay1_inj _) pl sg row hik c)
  have hopen := opening_columns hf (by decide) (fun i j => (by decide : ∀ j, pos params1 (names1 j) ≠ pos params1 "pk_lin") j)
    (fun i j => (by decide : ∀ j, pos params1 (names1 j) ≠ pos params1 "sigmad2") j) hik
  simp only [work1, Res.bind_eq_ok] at h3
  obtain ⟨g1, hg1, g, hg, gm, hgm, h3⟩ := h3
  cases h3
  obtain ⟨s', h4⟩ := h4 ik hik
  simp only [work1, Res.bind_eq_ok, rd_ok hik] at h4
  obtain ⟨k, hk, a1, ha1, b1, hb1, r, hr, h4⟩ := h4
  cases hk
  injection h4 with h4
  injection h4 with _ h4
  refine ⟨pl, sg, g1, g, gm, a1, b1, r.1, r.2, h1, h2, hg1, hg, hgm, ha1, other_ok (f := fun f => gamma1OneLoop f g1 e.ks[ik]) ha1 hb1,
    hr, hopen.1, hopen.2, ?_, ?_, ?_, ?_⟩
  · refine (hcol 0).trans ?_
    rw [← h4]; rfl
  · refine (hcol 1).trans ?_
    rw [← h4]; rfl
  · refine (hcol 2).trans ?_
    rw [← h4]; rfl
  · refine overlay_none μ ?_
    rw [mapRun_off fun i _ j e => (by decide : ∀ j, pos params1 (names1 j) ≠ 0) j (congrArg Prod.fst e)]
    exact map12_none fun _ => ⟨(by decide : (0 : ℕ) ≠ pos params1 "pk_lin"), (by decide : (0 : ℕ) ≠ pos params1 "sigmad2")⟩

/-- The tree-tree component of the two-loop integral is the integral of the one-loop spectrum. -/
theorem calcGamma2Loop_tree {t : Pk ℝ} {i : Interpol} {gd gt : GLQ ℝ} {a b : Field} {g : GLQ ℝ} {gm : GLMu ℝ} {k : ℝ}
    {r : (GLQ ℝ × GLMu ℝ) × (Fin 3 → ℝ)} (h : calcGamma2Loop t i gd gt a b g gm k = .ok r) :
    calcGamma2Tree t i a b g gm k = .ok (r.1, r.2 0) := by
  have hs : Sim (fun r r' => r'.1 = r.1 ∧ r'.2 = fun i => r.2 ((fun _ : Unit => (0 : Fin 3)) i))
      (quadLoop true (updateGLQ g k) gm (kernelGamma2Loop t i gd gt a b (updateGLQ g k)) noExtra fun x w => x * x * x * w)
      (quadLoop true (updateGLQ g k) gm (kernelGamma2Tree t i a b (updateGLQ g k)) noExtra fun x w => x * x * x * w) := by
    refine quadLoop_sim _ true _ gm _ (fun iq mu => ?_) (noExtra_sim _)
    unfold kernelGamma2Loop kernelGamma2Tree
    refine Sim.bind (Sim.of_eq rfl) fun x _ e => ?_
    subst e
    refine Sim.bind (Sim.of_eq rfl) fun q _ e => ?_
    subst e
    refine Sim.bind (Sim.of_eq rfl) fun p _ e => ?_
    subst e
    refine Sim.bind (Sim.of_eq rfl) fun p' _ e => ?_
    subst e
    intro f hf
    simp only [Res.bind_eq_ok] at hf
    obtain ⟨at', h1, a1, h2, bt, h3, b1, h4, h5⟩ := hf
    refine ⟨_, rfl, ?_⟩
    injection h5 with h5
    subst h5
    simp only [gamma2StdPT, ↓reduceIte] at h1
    injection h1 with h1
    subst h1
    funext _
    unfold other at h3
    split at h3
    · next hab =>
      injection h3 with h3
      subst h3
      simp [hab]
    · next hab =>
      simp only [gamma2StdPT, ↓reduceIte] at h3
      injection h3 with h3
      subst h3
      simp [hab]
  simp only [calcGamma2Loop, Res.bind_eq_ok] at h
  obtain ⟨⟨gm', s⟩, h1, h2⟩ := h
  obtain ⟨⟨gm'', s'⟩, h3, h4, h5⟩ := hs _ h1
  dsimp only at h4 h5
  subst h4 h5
  injection h2 with h2
  subst h2
  simp only [calcGamma2Tree, h3, Res.ok_bind]

/-- C45, `Spectrum2Loop`; the tree-tree column is the quantity of the same name of `Spectrum1Loop`. -/
theorem C45_two_loop {cuba : Cuba ℝ} {e : Env} {a b : Field} {es : List Event} {μ ν : Mem} {cfg : Cfg ℝ} (hμ : Room 11 e.ks.length μ)
    (hes : Schedule 7 e.ks.length es) (h : runTerms2 cuba e a b es μ = .ok (cfg, ν)) {ik : ℕ} (hik : ik < e.ks.length) :
    ∃ pl sg g1 g12 g gm gd gt a1 a2 b1 b2 s r g3 range,
      findPk e.t e.ks (e.cfg.interp .spectrum_2loop) = .ok pl ∧ runningSigmad2 e.t e.ks (e.cfg.uv .spectrum_2loop) = .ok sg ∧
      e.tabQ .gamma1_1loop_q = .ok g1 ∧ e.tabQ .gamma1_2loop_q = .ok g12 ∧ e.tabQ .gamma2_tree_q = .ok g ∧
      e.tabMu .gamma2_tree_mu = .ok gm ∧ e.tabQ .gamma2d_1loop_q = .ok gd ∧ e.tabQ .gamma2t_1loop_q = .ok gt ∧
      gamma1OneLoop a g1 e.ks[ik] = .ok a1 ∧ gamma1OneLoop b g1 e.ks[ik] = .ok b1 ∧
      gamma1TwoLoop a g12 e.ks[ik] = .ok a2 ∧ gamma1TwoLoop b g12 e.ks[ik] = .ok b2 ∧
      calcGamma2Tree e.t (e.cfg.prec .gamma2_tree_mu).interpol a b g gm e.ks[ik] = .ok (s, r 0) ∧
      calcGamma2Loop e.t (e.cfg.prec .gamma2_tree_mu).interpol gd gt a b g gm e.ks[ik] = .ok (s, r) ∧
      glqRange e.t (e.cfg.prec .gamma3_tree_q) = .ok range ∧
      calcGamma3 cuba e.t (e.cfg.prec .gamma3_tree_q).interpol a b range.1 range.2 e.ks[ik] = .ok g3 ∧
      ν.at (cellOf cls2 "pk_lin" ik) = some (some (pl.getD ik 0)) ∧
      ν.at (cellOf cls2 "sigmad2" ik) = some (some (sg.getD ik 0)) ∧
      ν.at (cellOf cls2 "gamma1a_1loop" ik) = some (some a1) ∧
      ν.at (cellOf cls2 "gamma1a_2loop" ik) = some (some (a2 + a1 ^ 2 / 2)) ∧
      ν.at (cellOf cls2 "gamma1b_1loop" ik) = some (some b1) ∧
      ν.at (cellOf cls2 "gamma1b_2loop" ik) = some (some (b2 + b1 ^ 2 / 2)) ∧
      ν.at (cellOf cls2 "pk_gamma2_tree_tree" ik) = some (some (r 0)) ∧
      ν.at (cellOf cls2 "pk_gamma2_tree_1loop" ik) = some (some (r 1)) ∧
      ν.at (cellOf cls2 "pk_gamma2_1loop_1loop" ik) = some (some (r 2)) ∧
      ν.at (cellOf cls2 "pk_gamma3_tree" ik) = some (some g3) ∧
      ν.at (cellOf cls2 "k" ik) = μ.at (cellOf cls2 "k" ik) := by
  obtain ⟨pl, sg, s0, row, g3, h1, h2, h3, h4, h5, h6, rfl, _⟩ := run2_assigns hμ hes h
  have hf : Fits (mapRun2 e.ks.length pl sg row g3) μ := fits_mapRun2 hμ
  have hoff : ∀ c : Cell, c.1 ≠ pos params2 "pk_gamma3_tree" →
      mapRun2 e.ks.length pl sg row g3 c = mapRun params2 (layCols params2 names2) e.ks.length pl sg row c := by
    intro c hc
    unfold mapRun2
    rw [rowMap_none fun i _ j e => hc (congrArg Prod.fst e).symm]
    rfl
  have hcol : ∀ c, (overlay (mapRun2 e.ks.length pl sg row g3) μ).at (layCols params2 names2 ik c) =
      some (some (row ik c)) := by
    intro c
    refine overlay_some hf ?_
    rw [hoff _ ((by decide : ∀ c, pos params2 (names2 c) ≠ pos params2 "pk_gamma3_tree") c)]
    exact mapRun_lay (lay2_inj _) pl sg row hik c
  simp only [work2, Res.bind_eq_ok] at h3
  obtain ⟨g1, hg1, g12, hg12, g, hg, gm, hgm, gd, hgd, gt, hgt, h3⟩ := h3
  cases h3
  obtain ⟨s', h4⟩ := h4 ik hik
  simp only [work2, Res.bind_eq_ok, rd_ok hik] at h4
  obtain ⟨k, hk, r1, hr1, r, hr, h4⟩ := h4
  cases hk
  injection h4 with h4
  injection h4 with _ h4
  have hr1' : ∃ a1 a2 b1 b2, gamma1OneLoop a g1 e.ks[ik] = .ok a1 ∧ gamma1OneLoop b g1 e.ks[ik] = .ok b1 ∧
      gamma1TwoLoop a g12 e.ks[ik] = .ok a2 ∧ gamma1TwoLoop b g12 e.ks[ik] = .ok b2 ∧
      r1 = (a1, a2 + a1 ^ 2 / 2, b1, b2 + b1 ^ 2 / 2) := by
    unfold calcGamma1TwoLoop at hr1
    split at hr1
    · next hab =>
      subst hab
      simp only [Res.bind_eq_ok] at hr1
      obtain ⟨a1, ha1, a2, ha2, hr1⟩ := hr1
      injection hr1 with hr1
      exact ⟨a1, a2, a1, a2, ha1, ha1, ha2, ha2, by rw [← hr1, pow_two]⟩
    · simp only [Res.bind_eq_ok] at hr1
      obtain ⟨a1, ha1, a2, ha2, b1, hb1, b2, hb2, hr1⟩ := hr1
      injection hr1 with hr1
      exact ⟨a1, a2, b1, b2, ha1, hb1, ha2, hb2, by rw [← hr1, pow_two, pow_two]⟩
  obtain ⟨a1, a2, b1, b2, ha1, hb1, ha2, hb2, rfl⟩ := hr1'
  have h5' := autoRange_spec h5
  simp only [autoRange, Res.bind_eq_ok] at h5
  obtain ⟨range, hrange, h5⟩ := h5
  have h6' := h6 ik hik
  simp only [gamma3At, rd_ok hik, Res.ok_bind, h5'.2.2.2.2.1] at h6'
  injection h5 with h5
  have hp : (cfg.prec .gamma3_tree_q).min = range.1 ∧ (cfg.prec .gamma3_tree_q).max = range.2 := by
    rw [← h5]; simp
  rw [hp.1, hp.2] at h6'
  have hrr : r = (r.1, r.2) := rfl
  refine ⟨pl, sg, g1, g12, g, gm, gd, gt, a1, a2, b1, b2, r.1, r.2, g3 ik, range, h1, h2, hg1, hg12, hg, hgm, hgd, hgt, ha1, hb1, ha2,
    hb2, calcGamma2Loop_tree hr, hr, hrange, h6', ?_, ?_, ?_, ?_, ?_, ?_, ?_, ?_, ?_, ?_, ?_⟩
  · refine overlay_some (c := (pos params2 "pk_lin", ik)) hf ?_
    rw [hoff _ (show pos params2 "pk_lin" ≠ _ by decide),
      mapRun_off fun i _ j e => (by decide : ∀ j, pos params2 (names2 j) ≠ pos params2 "pk_lin") j (congrArg Prod.fst e),
      map12_pk_lin _ _ hik (by decide)]
  · refine overlay_some (c := (pos params2 "sigmad2", ik)) hf ?_
    rw [hoff _ (show pos params2 "sigmad2" ≠ _ by decide),
      mapRun_off fun i _ j e => (by decide : ∀ j, pos params2 (names2 j) ≠ pos params2 "sigmad2") j (congrArg Prod.fst e),
      map12_sigmad2 _ _ hik]
  · refine (hcol 0).trans ?_
    rw [← h4]; rfl
  · refine (hcol 1).trans ?_
    rw [← h4]; rfl
  · refine (hcol 2).trans ?_
    rw [← h4]; rfl
  · refine (hcol 3).trans ?_
    rw [← h4]; rfl
  · refine (hcol 4).trans ?_
    rw [← h4]; rfl
  · refine (hcol 5).trans ?_
    rw [← h4]; rfl
  · refine (hcol 6).trans ?_
    rw [← h4]; rfl
  · refine overlay_some (c := layOne (pos params2 "pk_gamma3_tree") ik 0) hf ?_
    unfold mapRun2
    rw [rowMap_lay (layOne_inj _ _) _ hik]
    rfl
  · refine overlay_none μ ?_
    rw [hoff _ (show (0 : ℕ) ≠ _ by decide),
      mapRun_off fun i _ j e => (by decide : ∀ j, pos params2 (names2 j) ≠ 0) j (congrArg Prod.fst e)]
    exact map12_none fun _ => ⟨(by decide : (0 : ℕ) ≠ pos params2 "pk_lin"), (by decide : (0 : ℕ) ≠ pos params2 "sigmad2")⟩

/-- The bias column of that name. -/
noncomputable def biasCol : Fin 8 → String × Field × BiasKernel × Bool :=
  ![("pk_b2d", .delta, kernelB2, true), ("pk_bs2d", .delta, kernelBs2, true), ("pk_b2t", .theta, kernelB2, true),
    ("pk_bs2t", .theta, kernelBs2, true), ("pk_b22", .delta, kernelB22, false), ("pk_b2s2", .delta, kernelB2s2, false),
    ("pk_bs22", .delta, kernelBs22, false), ("sigma3sq", .delta, kernelSigma3sq, false)]

/-- C45, `Bias1Loop`: each column is the integral of its own kernel with fresh tables, whatever was computed before it on the
same tables. -/
theorem C45_bias {e : Env} {es : List Event} {μ ν : Mem} (hμ : Room 11 e.ks.length μ) (hes : Schedule 8 e.ks.length es)
    (h : runTermsBias e es μ = .ok ν) {ik : ℕ} (hik : ik < e.ks.length) :
    ∃ pl sg g gm,
      findPk e.t e.ks (e.cfg.interp .bias_1loop) = .ok pl ∧ runningSigmad2 e.t e.ks (e.cfg.uv .bias_1loop) = .ok sg ∧
      e.tabQ .bias_1loop_q = .ok g ∧ e.tabMu .bias_1loop_mu = .ok gm ∧
      ν.at (cellOf clsBias "pk_lin" ik) = some (some (pl.getD ik 0)) ∧
      ν.at (cellOf clsBias "sigmad2" ik) = some (some (sg.getD ik 0)) ∧
      ∀ c, ∃ s v, calcBias e.t (e.cfg.prec .bias_1loop_mu).interpol (biasCol c).2.1 (biasCol c).2.2.1 (biasCol c).2.2.2 g gm e.ks[ik] =
        .ok (s, v) ∧ ν.at (cellOf clsBias (biasCol c).1 ik) = some (some v) := by
  obtain ⟨pl, sg, s0, row, h1, h2, h3, h4, rfl, _⟩ := runBias_assigns hμ hes h
  have hf : Fits (mapRun paramsBias (layCols paramsBias namesBias) e.ks.length pl sg row) μ :=
    fits_mapRun (layBias_inj _) (layBias_in hμ) (room12 hμ (by decide) (by decide))
  have hcol : ∀ c, (overlay (mapRun paramsBias (layCols paramsBias namesBias) e.ks.length pl sg row) μ).at
      (layCols paramsBias namesBias ik c) = some (some (row ik c)) :=
    fun c => overlay_some hf (mapRun_lay (layBias_inj _) pl sg row hik c)
  have hopen := opening_columns hf (by decide)
    (fun i j => (by decide : ∀ j, pos paramsBias (namesBias j) ≠ pos paramsBias "pk_lin") j)
    (fun i j => (by decide : ∀ j, pos paramsBias (namesBias j) ≠ pos paramsBias "sigmad2") j) hik
  simp only [workBias, Res.bind_eq_ok] at h3
  obtain ⟨g, hg, gm, hgm, h3⟩ := h3
  cases h3
  obtain ⟨s', h4⟩ := h4 ik hik
  simp only [workBias, Res.bind_eq_ok, rd_ok hik] at h4
  obtain ⟨k, hk, r0, e0, r1, e1, r2, e2, r3, e3, r4, e4, r5, e5, r6, e6, r7, e7, h4⟩ := h4
  cases hk
  injection h4 with h4
  injection h4 with _ h4
  have step : ∀ (f : Field) (kn : BiasKernel) (half : Bool) (s r : _), SamePair s (g, gm) → biasCall e f kn half s e.ks[ik] = .ok r →
      SamePair r.1 (g, gm) ∧ ∃ s', calcBias e.t (e.cfg.prec .bias_1loop_mu).interpol f kn half g gm e.ks[ik] = .ok (s', r.2) := by
    intro f kn half s r hs hr
    have := calcBias_rel e.t (e.cfg.prec .bias_1loop_mu).interpol f kn half hs.1 hs.2 e.ks[ik]
    unfold biasCall at hr
    rw [hr] at this
    obtain ⟨c, hc, hq, hv⟩ := this.ok
    exact ⟨hq, c.1, by rw [hc, hv]⟩
  obtain ⟨p0, q0⟩ := step _ _ _ _ _ ⟨SameQ.refl _, SameMu.refl _⟩ e0
  obtain ⟨p1, q1⟩ := step _ _ _ _ _ p0 e1
  obtain ⟨p2, q2⟩ := step _ _ _ _ _ p1 e2
  obtain ⟨p3, q3⟩ := step _ _ _ _ _ p2 e3
  obtain ⟨p4, q4⟩ := step _ _ _ _ _ p3 e4
  obtain ⟨p5, q5⟩ := step _ _ _ _ _ p4 e5
  obtain ⟨p6, q6⟩ := step _ _ _ _ _ p5 e6
  obtain ⟨p7, q7⟩ := step _ _ _ _ _ p6 e7
  refine ⟨pl, sg, g, gm, h1, h2, hg, hgm, hopen.1, hopen.2, fun c => ?_⟩
  have hc := hcol c
  rw [← h4] at hc
  fin_cases c
  · exact ⟨q0.choose, _, q0.choose_spec, hc⟩
  · exact ⟨q1.choose, _, q1.choose_spec, hc⟩
  · exact ⟨q2.choose, _, q2.choose_spec, hc⟩
  · exact ⟨q3.choose, _, q3.choose_spec, hc⟩
  · exact ⟨q4.choose, _, q4.choose_spec, hc⟩
  · exact ⟨q5.choose, _, q5.choose_spec, hc⟩
  · exact ⟨q6.choose, _, q6.choose_spec, hc⟩
  · exact ⟨q7.choose, _, q7.choose_spec, hc⟩

/-- C45, `A1Loop`: component `c` of row `ik` of the column `pk`. -/
theorem C45_A_one_loop {e : Env} {es : List Event} {μ ν : Mem} (hμ : RoomFlat 5 e.ks.length μ) (hes : Schedule 5 e.ks.length es)
    (h : runTermsA1 e es μ = .ok ν) {ik : ℕ} (hik : ik < e.ks.length) :
    ∃ pl sg g gm s v,
      findPk e.t e.ks (e.cfg.interp .A_1loop) = .ok pl ∧ runningSigmad2 e.t e.ks (e.cfg.uv .A_1loop) = .ok sg ∧
      e.tabQ .A_1loop_q = .ok g ∧ e.tabMu .A_1loop_mu = .ok gm ∧
      calcA1 e.t (e.cfg.prec .A_1loop_q).interpol (e.cfg.prec .A_1loop_mu).interpol g gm e.ks[ik] = .ok (s, v) ∧
      ν.at (cellOf clsA "pk_lin" ik) = some (some (pl.getD ik 0)) ∧
      ν.at (cellOf clsA "sigmad2" ik) = some (some (sg.getD ik 0)) ∧
      ∀ m, clsA.shape.lookup "pk" = some m → ∀ c : Fin 5, ν.at (cellOf2 clsA "pk" m ik c) = some (some (v c)) := by
  obtain ⟨pl, sg, s0, row, h1, h2, h3, h4, rfl, _⟩ := runA1_assigns hμ hes h
  have hf : Fits (mapRun paramsA (layFlat 5 paramsA "A") e.ks.length pl sg row) μ :=
    fits_mapRun (layFlat_inj _ _ _ _) (layFlat_in hμ.2) (room12 hμ.1 (by decide) (by decide))
  have hopen := opening_columns hf (by decide) (fun i j => (by decide : pos paramsA "A" ≠ pos paramsA "pk_lin"))
    (fun i j => (by decide : pos paramsA "A" ≠ pos paramsA "sigmad2")) hik
  simp only [workA1, Res.bind_eq_ok] at h3
  obtain ⟨g, hg, gm, hgm, h3⟩ := h3
  cases h3
  obtain ⟨s', h4⟩ := h4 ik hik
  simp only [workA1, Res.bind_eq_ok, rd_ok hik] at h4
  obtain ⟨k, hk, r, hr, h4⟩ := h4
  cases hk
  injection h4 with h4
  refine ⟨pl, sg, g, gm, s', row ik, h1, h2, hg, hgm, by rw [hr, h4], hopen.1, hopen.2, fun m hm c => ?_⟩
  obtain rfl : 5 = m := by simpa using (show some 5 = some m from hm)
  exact overlay_some hf (mapRun_lay (layFlat_inj _ _ _ _) pl sg row hik c)

/-- C45, `A2Loop`: the five columns are the sums of the deterministic part and of the Monte-Carlo part. -/
theorem C45_A_two_loop {cuba : Cuba (Fin 12 → ℝ)} {e : Env} {es : List Event} {μ ν : Mem} {cfg : Cfg ℝ}
    (hμ : RoomFlat 5 e.ks.length μ) (hes : Schedule 5 e.ks.length es) (h : runTermsA2 cuba e es μ = .ok (cfg, ν)) {ik : ℕ}
    (hik : ik < e.ks.length) :
    ∃ pl sg g gm g1 gd gt s v w range,
      findPk e.t e.ks (e.cfg.interp .A_2loop) = .ok pl ∧ runningSigmad2 e.t e.ks (e.cfg.uv .A_2loop) = .ok sg ∧
      e.tabQ .A_2loop_I_q = .ok g ∧ e.tabMu .A_2loop_I_mu = .ok gm ∧ e.tabQ .gamma1_1loop_q = .ok g1 ∧
      e.tabQ .gamma2d_1loop_q = .ok gd ∧ e.tabQ .gamma2t_1loop_q = .ok gt ∧
      calcA2I (bispectrumI e.t (e.cfg.interp .bispectrum_1loop) (e.cfg.uv .bispectrum_1loop) g1 gd gt) g gm e.ks[ik] = .ok (s, v) ∧
      glqRange e.t (e.cfg.prec .A_2loop_II_III_q) = .ok range ∧
      calcA2II cuba e.t (e.cfg.interp .bispectrum_1loop) (e.cfg.uv .bispectrum_1loop) range.1 range.2 e.ks[ik] = .ok w ∧
      ν.at (cellOf clsA "pk_lin" ik) = some (some (pl.getD ik 0)) ∧
      ν.at (cellOf clsA "sigmad2" ik) = some (some (sg.getD ik 0)) ∧
      ∀ m, clsA.shape.lookup "pk" = some m →
        ∀ c : Fin 5, ν.at (cellOf2 clsA "pk" m ik c) = some (some (columnsA2 v c + columnsA2 w c)) := by
  obtain ⟨pl, sg, s0, row, add, h1, h2, h3, h4, h5, h6, rfl, _⟩ := runA2_assigns hμ hes h
  have hf : Fits (mapRun paramsA (layFlat 5 paramsA "A") e.ks.length pl sg fun ik c => row ik c + add ik c) μ :=
    fits_mapRun (layFlat_inj _ _ _ _) (layFlat_in hμ.2) (room12 hμ.1 (by decide) (by decide))
  have hopen := opening_columns hf (by decide) (fun i j => (by decide : pos paramsA "A" ≠ pos paramsA "pk_lin"))
    (fun i j => (by decide : pos paramsA "A" ≠ pos paramsA "sigmad2")) hik
  simp only [workA2, Res.bind_eq_ok] at h3
  obtain ⟨g, hg, gm, hgm, g1, hg1, gd, hgd, gt, hgt, h3⟩ := h3
  cases h3
  obtain ⟨s', h4⟩ := h4 ik hik
  simp only [workA2, Res.bind_eq_ok, rd_ok hik] at h4
  obtain ⟨k, hk, r, hr, h4⟩ := h4
  cases hk
  injection h4 with h4
  injection h4 with _ h4
  simp only [autoRange, Res.bind_eq_ok] at h5
  obtain ⟨range, hrange, h5⟩ := h5
  have h6' := h6 ik hik
  injection h5 with h5
  have hp : (cfg.prec .A_2loop_II_III_q).min = range.1 ∧ (cfg.prec .A_2loop_II_III_q).max = range.2 := by
    rw [← h5]; simp
  simp only [a2At, rd_ok hik, Res.ok_bind, hp.1, hp.2, Res.bind_eq_ok] at h6'
  obtain ⟨w, hw, h6'⟩ := h6'
  injection h6' with h6'
  refine ⟨pl, sg, g, gm, g1, gd, gt, r.1, r.2, w, range, h1, h2, hg, hgm, hg1, hgd, hgt, hr, hrange, hw, hopen.1, hopen.2,
    fun m hm c => ?_⟩
  obtain rfl : 5 = m := by simpa using (show some 5 = some m from hm)
  rw [h4, h6']
  exact overlay_some hf (mapRun_lay (layFlat_inj _ _ _ _) pl sg (fun ik c => row ik c + add ik c) hik c)

/-- C45, `B1Loop` and `B2Loop`. -/
theorem C45_B {e : Env} {dt tt : Pk ℝ} {es : List Event} {μ ν : Mem} (hμ : RoomFlat 9 e.ks.length μ)
    (hes : Schedule 9 e.ks.length es) (h : runTermsB e dt tt es μ = .ok ν) {ik : ℕ} (hik : ik < e.ks.length) :
    ∃ pl sg g gm s v,
      findPk e.t e.ks (e.cfg.interp .B) = .ok pl ∧ runningSigmad2 e.t e.ks (e.cfg.uv .B) = .ok sg ∧
      e.tabQ .B_q = .ok g ∧ e.tabMu .B_mu = .ok gm ∧
      calcB dt tt (e.cfg.prec .B_mu).interpol g gm e.ks[ik] = .ok (s, v) ∧
      ν.at (cellOf clsB "pk_lin" ik) = some (some (pl.getD ik 0)) ∧
      ν.at (cellOf clsB "sigmad2" ik) = some (some (sg.getD ik 0)) ∧
      ∀ m, clsB.shape.lookup "pk" = some m → ∀ c : Fin 9, ν.at (cellOf2 clsB "pk" m ik c) = some (some (columnsB v c)) := by
  obtain ⟨pl, sg, s0, row, h1, h2, h3, h4, rfl, _⟩ := runB_assigns hμ hes h
  have hf : Fits (mapRun paramsB (layFlat 9 paramsB "B") e.ks.length pl sg row) μ :=
    fits_mapRun (layFlat_inj _ _ _ _) (layFlat_in hμ.2) (room12 hμ.1 (by decide) (by decide))
  have hopen := opening_columns hf (by decide) (fun i j => (by decide : pos paramsB "B" ≠ pos paramsB "pk_lin"))
    (fun i j => (by decide : pos paramsB "B" ≠ pos paramsB "sigmad2")) hik
  simp only [workB, Res.bind_eq_ok] at h3
  obtain ⟨g, hg, gm, hgm, h3⟩ := h3
  cases h3
  obtain ⟨s', h4⟩ := h4 ik hik
  simp only [workB, Res.bind_eq_ok, rd_ok hik] at h4
  obtain ⟨k, hk, r, hr, h4⟩ := h4
  cases hk
  injection h4 with h4
  injection h4 with _ h4
  refine ⟨pl, sg, g, gm, r.1, r.2, h1, h2, hg, hgm, hr, hopen.1, hopen.2, fun m hm c => ?_⟩
  obtain rfl : 9 = m := by simpa using (show some 9 = some m from hm)
  rw [h4]
  exact overlay_some hf (mapRun_lay (layFlat_inj _ _ _ _) pl sg row hik c)

/-! ## C25 -/

theorem other_of {a b : Field} {f : Field → Res ℝ} {va vb : ℝ} (ha : f a = .ok va) (hb : f b = .ok vb) :
    other a b va (f b) = .ok vb := by
  unfold other
  split
  · next hab =>
    subst hab
    rw [← ha, hb]
  · exact hb

theorem kernelGamma2Tree_comm (t : Pk ℝ) (i : Interpol) (a b : Field) (g : GLQ ℝ) (iq : ℕ) (mu : ℝ) :
    kernelGamma2Tree t i a b g iq mu = kernelGamma2Tree t i b a g iq mu := by
  by_cases hab : a = b
  · rw [hab]
  · have hba : b ≠ a := fun h => hab h.symm
    simp only [kernelGamma2Tree, if_neg hab, if_neg hba]
    congr 1; funext x; congr 1; funext q; congr 1; funext pq; congr 1; funext pkq; congr 1; funext _
    ring

theorem calcGamma2Tree_comm (t : Pk ℝ) (i : Interpol) (a b : Field) (g : GLQ ℝ) (gm : GLMu ℝ) (k : ℝ) :
    calcGamma2Tree t i a b g gm k = calcGamma2Tree t i b a g gm k := by
  unfold calcGamma2Tree
  simp only [show kernelGamma2Tree t i a b = kernelGamma2Tree t i b a by funext g iq mu; exact kernelGamma2Tree_comm ..]

theorem kernelGamma2Loop_comm {t : Pk ℝ} {i : Interpol} {gd gt : GLQ ℝ} {a b : Field} {g : GLQ ℝ} {iq : ℕ} {mu : ℝ} {f : Fin 3 → ℝ}
    (h : kernelGamma2Loop t i gd gt a b g iq mu = .ok f) : kernelGamma2Loop t i gd gt b a g iq mu = .ok f := by
  simp only [kernelGamma2Loop, Res.bind_eq_ok] at h ⊢
  obtain ⟨x, hx, q, hq, p, hp, p', hp', at', h1, a1, h2, bt, h3, b1, h4, h5⟩ := h
  have h3' := other_ok (f := fun f => gamma2StdPT gd gt f 0 (g.k * √(1 + x * x - 2 * mu * x)) q g.k) h1 h3
  have h4' := other_ok (f := fun f => gamma2StdPT gd gt f 1 (g.k * √(1 + x * x - 2 * mu * x)) q g.k) h2 h4
  refine ⟨x, hx, q, hq, p, hp, p', hp', bt, h3', b1, h4', at', ?_, a1, ?_, ?_⟩
  · exact other_of (f := fun f => gamma2StdPT gd gt f 0 (g.k * √(1 + x * x - 2 * mu * x)) q g.k) h3' h1
  · exact other_of (f := fun f => gamma2StdPT gd gt f 1 (g.k * √(1 + x * x - 2 * mu * x)) q g.k) h4' h2
  · rw [← h5]
    congr 1
    funext c
    fin_cases c
    · show 2 * p * p' * bt * at' = 2 * p * p' * at' * bt
      ring
    · show 2 * p * p' * (bt * a1 + b1 * at') = 2 * p * p' * (at' * b1 + a1 * bt)
      ring
    · show 2 * p * p' * b1 * a1 = 2 * p * p' * a1 * b1
      ring

theorem calcGamma2Loop_comm {t : Pk ℝ} {i : Interpol} {gd gt : GLQ ℝ} {a b : Field} {g : GLQ ℝ} {gm : GLMu ℝ} {k : ℝ}
    {r : (GLQ ℝ × GLMu ℝ) × (Fin 3 → ℝ)} (h : calcGamma2Loop t i gd gt a b g gm k = .ok r) :
    calcGamma2Loop t i gd gt b a g gm k = .ok r := by
  have hs := quadLoop_sim (id : Fin 3 → Fin 3) true (updateGLQ g k) gm (kern := kernelGamma2Loop t i gd gt a b (updateGLQ g k))
    (kern' := kernelGamma2Loop t i gd gt b a (updateGLQ g k)) (extra := noExtra) (extra' := noExtra) (fun x w => x * x * x * w)
    (fun iq mu f hf => ⟨f, kernelGamma2Loop_comm hf, rfl⟩) (noExtra_sim _)
  simp only [calcGamma2Loop, Res.bind_eq_ok] at h
  obtain ⟨⟨gm', s⟩, h1, h2⟩ := h
  obtain ⟨⟨gm'', s'⟩, h3, h4, h5⟩ := hs _ h1
  dsimp only at h4 h5
  subst h4 h5
  simp only [calcGamma2Loop, h3, Res.ok_bind]
  exact h2

theorem calcGamma3_comm (cuba : Cuba ℝ) (t : Pk ℝ) (i : Interpol) (a b : Field) (qmin qmax k : ℝ) :
    calcGamma3 cuba t i a b qmin qmax k = calcGamma3 cuba t i b a qmin qmax k := by
  unfold calcGamma3
  rw [show kernelGamma3 t i a b k qmin qmax = kernelGamma3 t i b a k qmin qmax by
    funext xx
    unfold kernelGamma3
    dsimp only
    simp only [mul_comm (F3Sym a _ _ _) (F3Sym b _ _ _)]]

theorem calcGamma1TwoLoop_comm {a b : Field} {g1 g2 : GLQ ℝ} {k : ℝ} {r : ℝ × ℝ × ℝ × ℝ}
    (h : calcGamma1TwoLoop a b g1 g2 k = .ok r) :
    calcGamma1TwoLoop b a g1 g2 k = .ok (r.2.2.1, r.2.2.2, r.1, r.2.1) := by
  by_cases hab : a = b
  · subst hab
    rw [h]
    simp only [calcGamma1TwoLoop, ↓reduceIte, Res.bind_eq_ok] at h
    obtain ⟨a1, _, a2, _, h⟩ := h
    injection h with h
    subst h
    rfl
  · have hba : b ≠ a := fun h => hab h.symm
    simp only [calcGamma1TwoLoop, if_neg hab, if_neg hba, Res.bind_eq_ok] at h ⊢
    obtain ⟨a1, h1, a2, h2, b1, h3, b2, h4, h5⟩ := h
    refine ⟨b1, h3, b2, h4, a1, h1, a2, h2, ?_⟩
    injection h5 with h5
    subst h5
    rfl

/-- The name of a column after exchange of the fields. -/
def swapName : String → String
  | "gamma1a_1loop" => "gamma1b_1loop"
  | "gamma1b_1loop" => "gamma1a_1loop"
  | "gamma1a_2loop" => "gamma1b_2loop"
  | "gamma1b_2loop" => "gamma1a_2loop"
  | s => s

/-- The Python object of class `cls` on arrays `μ`: column `j` of `FIELDS` is array `j`. -/
noncomputable def viewOf (cls : PyClass) (μ : Mem) : Terms :=
  ⟨cls.fields.map fun f => (f, (μ (cls.fields.idxOf f)).map fun v => v.getD 0)⟩

theorem lookup_map {f : String} {g : String → List ℝ} :
    ∀ {l : List String}, f ∈ l → (l.map fun x => (x, g x)).lookup f = some (g f)
  | x :: l, h => by
      by_cases hx : f = x
      · subst hx; simp
      · have : f ∈ l := by simpa [hx] using h
        simp [List.lookup, beq_false_of_ne hx, lookup_map this]

theorem viewOf_val {cls : PyClass} {μ : Mem} {f : String} (hf : f ∈ cls.fields) (i : ℕ) :
    (viewOf cls μ).val f i = ((μ.at (cellOf cls f i)).getD none).getD 0 := by
  unfold Terms.val Terms.get viewOf Mem.at cellOf
  rw [lookup_map hf]
  dsimp only [Option.getD_some]
  generalize μ _ = l
  rw [List.getD_eq_getElem?_getD, List.getElem?_map]
  rcases l[i]? with _ | _ | v <;> rfl

/-- C25, terms of `Spectrum1Loop`: the run for `(b,a)` is defined when the run for `(a,b)` is, under any schedules, and its columns
are those of the run for `(a,b)` with the two propagator columns exchanged. -/
theorem C25_one_loop {e : Env} {a b : Field} {es es' : List Event} {μ ν : Mem} (hμ : Room 6 e.ks.length μ)
    (hes : Schedule 3 e.ks.length es) (hes' : Schedule 3 e.ks.length es') (h : runTerms1 e a b es μ = .ok ν) :
    ∃ ν', runTerms1 e b a es' μ = .ok ν' ∧
      ∀ f ∈ cls1.fields, ∀ ik < e.ks.length, ν'.at (cellOf cls1 f ik) = ν.at (cellOf cls1 (swapName f) ik) := by
  obtain ⟨pl, sg, s0, row, h1, h2, h3, h4, h5, _⟩ := run1_assigns hμ hes h
  have h3' : (work1 e b a).init = .ok s0 := h3
  have hrow : ∀ ik < e.ks.length, ∃ s', (work1 e b a).body s0 ik = .ok (s', ![row ik 1, row ik 0, row ik 2]) := by
    intro ik hik
    obtain ⟨s', h4⟩ := h4 ik hik
    simp only [work1, Res.bind_eq_ok, rd_ok hik] at h4 ⊢
    obtain ⟨k, hk, a1, ha1, b1, hb1, r, hr, h4⟩ := h4
    have hb1' := other_ok (f := fun f => gamma1OneLoop f s0.g1 k) ha1 hb1
    injection h4 with h4
    injection h4 with h4 h4'
    refine ⟨s', k, hk, b1, hb1', a1, other_of (f := fun f => gamma1OneLoop f s0.g1 k) hb1' ha1, r,
      by rw [calcGamma2Tree_comm, hr], ?_⟩
    rw [← h4, ← h4']
    rfl
  have hrun := runHead_of (params := params1) (lay := layCols params1 names1) (work1_det e b a) (lay1_inj _) h1 h2 h3' hrow hes' μ
    (fits_mapRun (lay1_inj _) (lay1_in hμ) (room12 hμ (by decide) (by decide)))
  refine ⟨_, hrun, fun f hf ik hik => ?_⟩
  obtain ⟨pl1, sg1, g1, g, gm, va, vb, s, v2, a1, a2, a3, a4, a5, a6, a7, a8, c1, c2, c3, c4, c5, c6⟩ := C45_one_loop hμ hes h hik
  obtain ⟨pl1', sg1', g1', g', gm', va', vb', s', v2', b1, b2, b3, b4, b5, b6, b7, b8, d1, d2, d3, d4, d5, d6⟩ :=
    C45_one_loop (e := e) (a := b) (b := a) hμ hes' hrun hik
  rw [a1] at b1; injection b1 with b1; subst b1
  rw [a2] at b2; injection b2 with b2; subst b2
  rw [a3] at b3; injection b3 with b3; subst b3
  rw [a4] at b4; injection b4 with b4; subst b4
  rw [a5] at b5; injection b5 with b5; subst b5
  rw [a7] at b6; injection b6 with b6; subst b6
  rw [a6] at b7; injection b7 with b7; subst b7
  rw [calcGamma2Tree_comm, a8] at b8; injection b8 with b8; injection b8 with _ b8; subst b8
  simp only [cls1, List.mem_cons, List.not_mem_nil, or_false] at hf
  rcases hf with rfl | rfl | rfl | rfl | rfl | rfl
  · exact d6.trans c6.symm
  · exact d1.trans c1.symm
  · exact d2.trans c2.symm
  · exact d3.trans c4.symm
  · exact d4.trans c3.symm
  · exact d5.trans c5.symm

/-- The two-loop run from its ingredients. -/
theorem run2_of {cuba : Cuba ℝ} {e : Env} {a b : Field} {es : List Event} {μ : Mem} {cfg : Cfg ℝ} {pl sg : List ℝ} {s0 : Tab2}
    {row : ℕ → Fin 7 → ℝ} {g3 : ℕ → ℝ} (hμ : Room 11 e.ks.length μ) (hes : Schedule 7 e.ks.length es)
    (h1 : findPk e.t e.ks (e.cfg.interp .spectrum_2loop) = .ok pl)
    (h2 : runningSigmad2 e.t e.ks (e.cfg.uv .spectrum_2loop) = .ok sg) (h3 : (work2 e a b).init = .ok s0)
    (h4 : ∀ ik < e.ks.length, ∃ s', (work2 e a b).body s0 ik = .ok (s', row ik))
    (h5 : autoRange e.t e.cfg .gamma3_tree_q = .ok cfg)
    (h6 : ∀ ik < e.ks.length, gamma3At cuba e a b (cfg.prec .gamma3_tree_q) ik = .ok (g3 ik)) :
    runTerms2 cuba e a b es μ = .ok (cfg, overlay (mapRun2 e.ks.length pl sg row g3) μ) := by
  have a1 := runHead_of (params := params2) (lay := layCols params2 names2) (work2_det e a b) (lay2_inj _) h1 h2 h3 h4 hes
  have a3 := fillArr_assigns (pos params2 "pk_gamma3_tree") _ _ g3 h6
  have f1 := fits_mapRun (pl := pl) (sg := sg) (row := row) (lay2_inj e.ks.length) (lay2_in hμ)
    (room12 (params := params2) hμ (by decide) (by decide))
  have f3 : Fits (rowMap (layOne (pos params2 "pk_gamma3_tree")) e.ks.length fun ik _ => g3 ik) μ :=
    fits_rowMap (layOne_inj _ _) fun ik hik _ => lt_of_lt_of_le hik (hμ (pos params2 "pk_gamma3_tree") (by decide))
  have := (a1.comp a3) μ (f1.or f3)
  dsimp only at this
  rw [show runTerms2 cuba e a b es μ = (runHead e .spectrum_2loop params2 (work2 e a b) (layCols params2 names2) es μ >>=
    fun μ => do
      let cfg ← autoRange e.t e.cfg .gamma3_tree_q
      let μ ← fillArr (pos params2 "pk_gamma3_tree") e.ks.length (gamma3At cuba e a b (cfg.prec .gamma3_tree_q)) μ
      .ok (cfg, μ)) by simp only [runHead, runTerms2, bind_assoc]; rfl, h5]
  simp only [Res.ok_bind]
  rw [← bind_assoc, this]
  rfl

/-- C25, terms of `Spectrum2Loop`, for every cubature routine. -/
theorem C25_two_loop {cuba : Cuba ℝ} {e : Env} {a b : Field} {es es' : List Event} {μ ν : Mem} {cfg : Cfg ℝ}
    (hμ : Room 11 e.ks.length μ) (hes : Schedule 7 e.ks.length es) (hes' : Schedule 7 e.ks.length es')
    (h : runTerms2 cuba e a b es μ = .ok (cfg, ν)) :
    ∃ ν', runTerms2 cuba e b a es' μ = .ok (cfg, ν') ∧
      ∀ f ∈ cls2.fields, ∀ ik < e.ks.length, ν'.at (cellOf cls2 f ik) = ν.at (cellOf cls2 (swapName f) ik) := by
  obtain ⟨pl, sg, s0, row, g3, h1, h2, h3, h4, h5, h6, _, _⟩ := run2_assigns hμ hes h
  have h3' : (work2 e b a).init = .ok s0 := h3
  have hrow : ∀ ik < e.ks.length, ∃ s', (work2 e b a).body s0 ik =
      .ok (s', ![row ik 2, row ik 3, row ik 0, row ik 1, row ik 4, row ik 5, row ik 6]) := by
    intro ik hik
    obtain ⟨s', h4⟩ := h4 ik hik
    simp only [work2, Res.bind_eq_ok, rd_ok hik] at h4 ⊢
    obtain ⟨k, hk, r1, hr1, r, hr, h4⟩ := h4
    injection h4 with h4
    injection h4 with h4 h4'
    refine ⟨s', k, hk, _, calcGamma1TwoLoop_comm hr1, r, calcGamma2Loop_comm hr, ?_⟩
    rw [← h4, ← h4']
    rfl
  have hg3 : ∀ ik < e.ks.length, gamma3At cuba e b a (cfg.prec .gamma3_tree_q) ik = .ok (g3 ik) := by
    intro ik hik
    rw [← h6 ik hik]
    unfold gamma3At
    congr 1
    funext k
    exact calcGamma3_comm ..
  have hrun := run2_of hμ hes' h1 h2 h3' hrow h5 hg3
  refine ⟨_, hrun, fun f hf ik hik => ?_⟩
  obtain ⟨pl1, sg1, g1, g12, g, gm, gd, gt, a1, a2, b1, b2, s, r, g3', range, p1, p2, p3, p4, p5, p6, p7, p8, p9, p10, p11, p12, p13,
    p14, p15, p16, c1, c2, c3, c4, c5, c6, c7, c8, c9, c10, c11⟩ := C45_two_loop hμ hes h hik
  obtain ⟨pl1', sg1', g1', g12', g', gm', gd', gt', a1', a2', b1', b2', s', r', g3'', range', q1, q2, q3, q4, q5, q6, q7, q8, q9, q10,
    q11, q12, q13, q14, q15, q16, d1, d2, d3, d4, d5, d6, d7, d8, d9, d10, d11⟩ := C45_two_loop (e := e) (a := b) (b := a) hμ hes' hrun hik
  rw [p1] at q1; injection q1 with q1; subst q1
  rw [p2] at q2; injection q2 with q2; subst q2
  rw [p3] at q3; injection q3 with q3; subst q3
  rw [p4] at q4; injection q4 with q4; subst q4
  rw [p5] at q5; injection q5 with q5; subst q5
  rw [p6] at q6; injection q6 with q6; subst q6
  rw [p7] at q7; injection q7 with q7; subst q7
  rw [p8] at q8; injection q8 with q8; subst q8
  rw [p10] at q9; injection q9 with q9; subst q9
  rw [p9] at q10; injection q10 with q10; subst q10
  rw [p12] at q11; injection q11 with q11; subst q11
  rw [p11] at q12; injection q12 with q12; subst q12
  rw [calcGamma2Loop_comm p14] at q14; injection q14 with q14; injection q14 with _ q14; subst q14
  rw [p15] at q15; injection q15 with q15; subst q15
  rw [calcGamma3_comm, p16] at q16; injection q16 with q16; subst q16
  simp only [cls2, List.mem_cons, List.not_mem_nil, or_false] at hf
  rcases hf with rfl | rfl | rfl | rfl | rfl | rfl | rfl | rfl | rfl | rfl | rfl
  · exact d11.trans c11.symm
  · exact d1.trans c1.symm
  · exact d2.trans c2.symm
  · exact d3.trans c5.symm
  · exact d4.trans c6.symm
  · exact d5.trans c3.symm
  · exact d6.trans c4.symm
  · exact d7.trans c7.symm
  · exact d8.trans c8.symm
  · exact d9.trans c9.symm
  · exact d10.trans c10.symm

/-- C25: `Spectrum1Loop.pk` of the two runs agree at every mode, for every growth factor and every `sigmad2` argument. -/
theorem C25_pk_one_loop {e : Env} {a b : Field} {es es' : List Event} {μ ν ν' : Mem} (hμ : Room 6 e.ks.length μ)
    (hes : Schedule 3 e.ks.length es) (hes' : Schedule 3 e.ks.length es') (h : runTerms1 e a b es μ = .ok ν)
    (h' : runTerms1 e b a es' μ = .ok ν') (D : ℝ) (sig : Option (ℕ → ℝ)) {ik : ℕ} (hik : ik < e.ks.length) :
    (viewOf cls1 ν').pk1 D sig ik = (viewOf cls1 ν).pk1 D sig ik := by
  obtain ⟨ν'', h1, h2⟩ := C25_one_loop hμ hes hes' h
  rw [h'] at h1
  injection h1 with h1
  subst h1
  have val : ∀ f ∈ cls1.fields, swapName f ∈ cls1.fields → (viewOf cls1 ν').val f ik = (viewOf cls1 ν).val (swapName f) ik := by
    intro f hf hf'
    rw [viewOf_val hf, viewOf_val hf', h2 f hf ik hik]
  have e1 : (viewOf cls1 ν').val "k" ik = (viewOf cls1 ν).val "k" ik := val _ (by decide) (by decide)
  have e2 : (viewOf cls1 ν').val "pk_lin" ik = (viewOf cls1 ν).val "pk_lin" ik := val _ (by decide) (by decide)
  have e3 : (viewOf cls1 ν').val "sigmad2" ik = (viewOf cls1 ν).val "sigmad2" ik := val _ (by decide) (by decide)
  have e4 : (viewOf cls1 ν').val "gamma1a_1loop" ik = (viewOf cls1 ν).val "gamma1b_1loop" ik := val _ (by decide) (by decide)
  have e5 : (viewOf cls1 ν').val "gamma1b_1loop" ik = (viewOf cls1 ν).val "gamma1a_1loop" ik := val _ (by decide) (by decide)
  have e6 : (viewOf cls1 ν').val "pk_gamma2_tree_tree" ik = (viewOf cls1 ν).val "pk_gamma2_tree_tree" ik := val _ (by decide) (by decide)
  simp only [Terms.pk1, e1, e2, e3, e4, e5, e6]
  ring

/-- C25: `Spectrum2Loop.pk` of the two runs agree at every mode. -/
theorem C25_pk_two_loop {cuba : Cuba ℝ} {e : Env} {a b : Field} {es es' : List Event} {μ ν ν' : Mem} {cfg cfg' : Cfg ℝ}
    (hμ : Room 11 e.ks.length μ) (hes : Schedule 7 e.ks.length es) (hes' : Schedule 7 e.ks.length es')
    (h : runTerms2 cuba e a b es μ = .ok (cfg, ν)) (h' : runTerms2 cuba e b a es' μ = .ok (cfg', ν')) (D : ℝ) (sig : Option (ℕ → ℝ))
    {ik : ℕ} (hik : ik < e.ks.length) : (viewOf cls2 ν').pk2 D sig ik = (viewOf cls2 ν).pk2 D sig ik := by
  obtain ⟨ν'', h1, h2⟩ := C25_two_loop hμ hes hes' h
  rw [h'] at h1
  injection h1 with h1
  injection h1 with _ h1
  subst h1
  have val : ∀ f ∈ cls2.fields, swapName f ∈ cls2.fields → (viewOf cls2 ν').val f ik = (viewOf cls2 ν).val (swapName f) ik := by
    intro f hf hf'
    rw [viewOf_val hf, viewOf_val hf', h2 f hf ik hik]
  have e1 : (viewOf cls2 ν').val "k" ik = (viewOf cls2 ν).val "k" ik := val _ (by decide) (by decide)
  have e2 : (viewOf cls2 ν').val "pk_lin" ik = (viewOf cls2 ν).val "pk_lin" ik := val _ (by decide) (by decide)
  have e3 : (viewOf cls2 ν').val "sigmad2" ik = (viewOf cls2 ν).val "sigmad2" ik := val _ (by decide) (by decide)
  have e4 : (viewOf cls2 ν').val "gamma1a_1loop" ik = (viewOf cls2 ν).val "gamma1b_1loop" ik := val _ (by decide) (by decide)
  have e5 : (viewOf cls2 ν').val "gamma1b_1loop" ik = (viewOf cls2 ν).val "gamma1a_1loop" ik := val _ (by decide) (by decide)
  have e6 : (viewOf cls2 ν').val "pk_gamma2_tree_tree" ik = (viewOf cls2 ν).val "pk_gamma2_tree_tree" ik := val _ (by decide) (by decide)
  have e7 : (viewOf cls2 ν').val "gamma1a_2loop" ik = (viewOf cls2 ν).val "gamma1b_2loop" ik := val _ (by decide) (by decide)
  have e8 : (viewOf cls2 ν').val "gamma1b_2loop" ik = (viewOf cls2 ν).val "gamma1a_2loop" ik := val _ (by decide) (by decide)
  have e9 : (viewOf cls2 ν').val "pk_gamma2_tree_1loop" ik = (viewOf cls2 ν).val "pk_gamma2_tree_1loop" ik := val _ (by decide) (by decide)
  have e10 : (viewOf cls2 ν').val "pk_gamma2_1loop_1loop" ik = (viewOf cls2 ν).val "pk_gamma2_1loop_1loop" ik := val _ (by decide) (by decide)
  have e11 : (viewOf cls2 ν').val "pk_gamma3_tree" ik = (viewOf cls2 ν).val "pk_gamma3_tree" ik := val _ (by decide) (by decide)
  simp only [Terms.pk2, e1, e2, e3, e4, e5, e6, e7, e8, e9, e10, e11]
  ring

end Verif
