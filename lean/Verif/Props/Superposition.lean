import Verif.Proofs.Line
import Verif.Props.Homogeneous
import Verif.Props.LinMode

/-!
# C80: the stored terms are polynomials in the input spectrum
-/

open Polynomial

namespace Verif

/-- The same settings and modes with `s` times the list `d` added to the linear spectrum. -/
noncomputable def Env.line (e : Env) (d : List ℝ) (s : ℝ) : Env := { e with t := e.t.line d s }

/-- Radial ranges and requested modes among the tabulated wavenumbers. -/
structure Env.Inside (e : Env) : Prop where
  phys : e.t.Physical
  two : 2 ≤ e.t.nk
  size : ∀ p, (e.cfg.prec p).n < 2 ^ 63
  roots : ∀ p, RootsOrdered (e.rt (e.cfg.prec p).n) (e.cfg.prec p).n
  range : ∀ p, (e.cfg.prec p).min ≤ 0 ∨ (e.cfg.prec p).max ≤ 0 ∨
    (e.t.k.getD 0 0 ≤ (e.cfg.prec p).min ∧ (e.cfg.prec p).min < (e.cfg.prec p).max ∧ (e.cfg.prec p).max ≤ e.t.k.getD (e.t.nk - 1) 0)
  modes : ∀ k ∈ e.ks, e.t.k.getD 0 0 ≤ k ∧ k ≤ e.t.k.getD (e.t.nk - 1) 0

/-- In every column `f` of the object, every value of the `n` modes is a polynomial in the parameter, of degree at most `deg f`. -/
def PolyColumns (cls : PyClass) (deg : String → ℕ) (n : ℕ) (ν : ℝ → Mem) : Prop :=
  ∀ f ∈ cls.fields, ∀ i < n * cls.width f, ∃ p : ℝ[X], p.natDegree ≤ deg f ∧ ∀ s, (viewOf cls (ν s)).val f i = p.eval s

/-- The power of the spectrum that column `f` is multiplied by in `rescale`. -/
def PyClass.power (cls : PyClass) (f : String) : ℕ := (cls.scale.lookup f).getD 0

/-! ## Cells -/

/-- The values of a cell are a polynomial in the parameter. -/
def CellDeg (m : ℕ) (ν : ℝ → Mem) (c : Cell) : Prop := PolyDeg m fun s => (((ν s).at c).getD none).getD 0

theorem CellDeg.of {m : ℕ} {ν : ℝ → Mem} {c : Cell} {v : ℝ → ℝ} (h : ∀ s, (ν s).at c = some (some (v s))) (hv : PolyDeg m v) : CellDeg m ν c :=
  hv.congr fun s => by rw [h s]; rfl

theorem polyColumns_of {cls : PyClass} {deg : String → ℕ} {n : ℕ} {ν : ℝ → Mem}
    (h : ∀ f ∈ cls.fields, ∀ i < n * cls.width f, CellDeg (deg f) ν (cellOf cls f i)) : PolyColumns cls deg n ν := by
  intro f hf i hi
  obtain ⟨p, h1, h2⟩ := h f hf i hi
  exact ⟨p, h1, fun s => by rw [viewOf_val hf]; exact h2 s⟩

/-! ## The part common to all runs -/

theorem Env.Inside.within {e : Env} (he : e.Inside) {k : ℝ} : e.t.Within k ↔ e.t.k.getD 0 0 ≤ k ∧ k ≤ e.t.k.getD (e.t.nk - 1) 0 := by
  have h1 := he.phys.hsize
  have h2 := he.two
  have hm : sizeMod = 2 ^ 64 := rfl
  unfold Pk.Within
  rw [subSize_eq (by omega) (by omega)]

theorem Env.Inside.first {e : Env} (he : e.Inside) : 0 < e.t.k.getD 0 0 := by
  have h1 := he.phys.hk
  have h2 := he.two
  rw [getD_eq (by omega)]
  exact he.phys.kpos _ (List.getElem_mem _)

theorem Env.Inside.proper {e : Env} (he : e.Inside) (p : PName) : RangeProper (e.cfg.prec p) := by
  rcases he.range p with h | h | h
  · exact .inl h
  · exact .inr (.inl h)
  · exact .inr (.inr h.2.1)

theorem Env.Inside.ends {e : Env} (he : e.Inside) {p : PName} {a b : ℝ} (h : glqRange e.t (e.cfg.prec p) = .ok (a, b)) :
    0 < a ∧ a < b ∧ e.t.Within a ∧ e.t.Within b := by
  obtain ⟨ha, hab⟩ := glqRange_lt he.phys he.two (he.proper p) h
  have hb : b ≤ e.t.k.getD (e.t.nk - 1) 0 := by
    refine glqRange_inside he.phys he.two ?_ h
    rcases he.range p with h | h | h
    · exact .inl h
    · exact .inr (.inl h)
    · exact .inr (.inr h.2.2)
  have hlow : e.t.k.getD 0 0 ≤ a := by
    have hs := he.phys.hsize; have hk := he.phys.hk; have h2 := he.two
    have hm : sizeMod = 2 ^ 64 := rfl
    unfold glqRange at h
    split at h
    · rw [subSize_eq (by omega) (by omega), rd_ok (a := e.t.k) (i := 0) (by omega),
        rd_ok (a := e.t.k) (i := e.t.nk - 1) (by omega)] at h
      simp only [Res.ok_bind] at h
      cases h
      rw [getD_eq (by omega)]
    · next hc =>
      cases h
      simp only [lit_real, Bool.or_eq_true, not_or, le_real, not_le] at hc
      push_cast at hc
      rcases he.range p with hp | hp | hp
      · linarith
      · linarith
      · exact hp.1
  exact ⟨ha, hab, he.within.2 ⟨hlow, hab.le.trans hb⟩, he.within.2 ⟨hlow.trans hab.le, hb⟩⟩

theorem Env.Inside.nodes {e : Env} (he : e.Inside) {p : PName} {g : GLQ ℝ} (h : e.tabQ p = .ok g) : ∀ q ∈ g.q, e.t.Within q := by
  have hn := he.size p
  obtain ⟨a, b, pk, h1, -, rfl⟩ := initGLQ_ok hn h
  obtain ⟨ha, hab, wa, wb⟩ := he.ends h1
  intro q hq
  obtain ⟨i, hi, rfl⟩ := List.mem_map.mp hq
  have hlog := Real.log_lt_log ha hab
  have hx := ((he.roots p).nodes hn).2 i (by simpa using hi)
  rw [nodeAt_affine]
  have e1 : Real.exp (Real.log a) = a := Real.exp_log ha
  have e2 : Real.exp (Real.log b) = b := Real.exp_log (ha.trans hab)
  constructor
  · refine wa.1.trans (e1.symm.le.trans (Real.exp_le_exp.mpr ?_))
    nlinarith
  · refine (Real.exp_le_exp.mpr ?_).trans (e2.le.trans wb.2)
    nlinarith

/-- The radial table of the runs. -/
theorem Env.Inside.tabQ {e : Env} (he : e.Inside) (d : List ℝ) {p : PName} {g : GLQ ℝ} (h : e.tabQ p = .ok g) :
    Fam (AffTab g) fun s => (e.line d s).tabQ p := initGLQ_fam _ e.t d _ h (he.nodes h)

theorem Env.Inside.inTab {e : Env} (he : e.Inside) {p m : PName} {g : GLQ ℝ} {gm : GLMu ℝ} (h : e.tabQ p = .ok g) (h' : e.tabMu m = .ok gm) :
    InTab e.t g gm :=
  ⟨posRule_init he.phys he.two (he.proper p) (he.size p) (he.roots p) h (he.size m) (he.roots m) h', initGLMu_in (he.size m) (he.roots m) h',
    he.nodes h⟩

attribute [local irreducible] ofLong subSize sizeMod

/-- The ingredients of the runs. -/
theorem head_fam {σ : Type} {m : ℕ} {e : Env} (he : e.Inside) (d : List ℝ) (hd : d.length = e.t.pk.length) {o : IName} {W : ℝ → Work σ m}
    {R : (ℝ → σ) → Prop} {dg : Fin m → ℕ} (h0 : Fam R fun s => (W s).init)
    (hb : ∀ v, R v → ∀ ik < e.ks.length, Fam (fun r => DegAll dg fun s => (r s).2) fun s => (W s).body (v s) ik)
    {pl sg : List ℝ} {s0 : σ} {row : ℕ → Fin m → ℝ} (h1 : findPk e.t e.ks (e.cfg.interp o) = .ok pl)
    (h2 : runningSigmad2 e.t e.ks (e.cfg.uv o) = .ok sg) (h3 : (W 0).init = .ok s0)
    (h4 : ∀ ik < e.ks.length, ∃ s', (W 0).body s0 ik = .ok (s', row ik)) :
    ∃ (pl sg : ℝ → List ℝ) (s0 : ℝ → σ) (row : ℝ → ℕ → Fin m → ℝ), AffList pl ∧ AffList sg ∧
      (∀ ik < e.ks.length, DegAll dg fun s => row s ik) ∧ ∀ s, findPk (e.t.line d s) e.ks (e.cfg.interp o) = .ok (pl s) ∧
        runningSigmad2 (e.t.line d s) e.ks (e.cfg.uv o) = .ok (sg s) ∧ (W s).init = .ok (s0 s) ∧
        ∀ ik < e.ks.length, ∃ s', (W s).body (s0 s) ik = .ok (s', row s ik) := by
  rw [← e.t.line_zero hd] at h1 h2
  obtain ⟨pl', a1, a2⟩ := (findPk_fam e.t d e.ks (e.cfg.interp o) fun k hk => he.within.2 (he.modes k hk)).all h1
  obtain ⟨sg', b1, b2⟩ := (runningSigmad2_fam e.t d e.ks (e.cfg.uv o)).all h2
  obtain ⟨v, c1, c2⟩ := h0.all h3
  have c3 : v 0 = s0 := by
    have := c1 0
    rw [h3] at this
    injection this with this
    exact this.symm
  have : ∀ ik, ∃ r : ℝ → Fin m → ℝ, ik < e.ks.length → DegAll dg r ∧ ∀ s, ∃ s', (W s).body (v s) ik = .ok (s', r s) := by
    intro ik
    by_cases hik : ik < e.ks.length
    · obtain ⟨s', hs⟩ := h4 ik hik
      rw [← c3] at hs
      obtain ⟨r, r1, r2⟩ := (hb v c2 ik hik).all (s := 0) hs
      exact ⟨fun s => (r s).2, fun _ => ⟨r2, fun s => ⟨(r s).1, r1 s⟩⟩⟩
    · exact ⟨fun _ _ => 0, fun h => absurd h hik⟩
  choose row' hrow using this
  exact ⟨pl', sg', v, fun s ik => row' ik s, a2, b2, fun ik hik => (hrow ik hik).1,
    fun s => ⟨a1 s, b1 s, c1 s, fun ik hik => (hrow ik hik).2 s⟩⟩

/-- The cells of the runs. -/
theorem cells_fam {m : ℕ} {params : List String} {lay : ℕ → Fin m → Cell} {n : ℕ} {pl sg : ℝ → List ℝ} {row : ℝ → ℕ → Fin m → ℝ}
    {dg : Fin m → ℕ} {μ : Mem} (hinj : LayInj lay n) (hin : LayIn lay n μ) (hroom : Room12 params n μ)
    (hne : pos params "sigmad2" ≠ pos params "pk_lin") (g1 : ∀ ik j, (lay ik j).1 ≠ pos params "pk_lin")
    (g2 : ∀ ik j, (lay ik j).1 ≠ pos params "sigmad2") (a1 : AffList pl) (a2 : AffList sg) (a3 : ∀ ik < n, DegAll dg fun s => row s ik)
    {ν : ℝ → Mem} (hν : ∀ s, ν s = overlay (mapRun params lay n (pl s) (sg s) (row s)) μ) {ik : ℕ} (hik : ik < n) :
    CellDeg 1 ν (pos params "pk_lin", ik) ∧ CellDeg 1 ν (pos params "sigmad2", ik) ∧ (∀ j, CellDeg (dg j) ν (lay ik j)) ∧
      ∀ a i, (∀ ik j, (lay ik j).1 ≠ a) → a ≠ pos params "pk_lin" → a ≠ pos params "sigmad2" → CellDeg 0 ν (a, i) := by
  obtain rfl : ν = fun s => overlay (mapRun params lay n (pl s) (sg s) (row s)) μ := funext hν
  have hf : ∀ pl sg row, Fits (mapRun params lay n pl sg row) μ := fun _ _ _ => fits_mapRun hinj hin hroom
  have o := fun s => opening_columns (hf (pl s) (sg s) (row s)) hne g1 g2 hik
  refine ⟨.of (fun s => (o s).1) (a1.getD ik).deg, .of (fun s => (o s).2) (a2.getD ik).deg, fun j => ?_, fun a i h1 h2 h3 => ?_⟩
  · exact .of (fun s => overlay_some (hf _ _ _) (mapRun_lay hinj _ _ _ hik j)) (a3 ik hik j)
  · have : ∀ pl sg row, mapRun params lay n pl sg row (a, i) = none := by
      intro pl sg row
      rw [mapRun_off fun ik _ j e => h1 ik j (congrArg Prod.fst e)]
      exact map12_none fun _ => ⟨h2, h3⟩
    unfold CellDeg
    simp only [overlay_none μ (this ..)]
    exact PolyDeg.const _

theorem Env.Inside.mode {e : Env} (he : e.Inside) {ik : ℕ} {k : ℝ} (h : rd e.ks ik = .ok k) : 0 < k ∧ e.t.Within k := by
  have := he.modes k (rd_mem h)
  exact ⟨he.first.trans_le this.1, he.within.2 this⟩

theorem Env.line_zero (e : Env) {d : List ℝ} (hd : d.length = e.t.pk.length) : e.line d 0 = e := by
  unfold Env.line
  rw [Pk.line_zero _ hd]

theorem Env.line_t (e : Env) (d : List ℝ) (s : ℝ) : (e.line d s).t = e.t.line d s := rfl
theorem Env.line_cfg (e : Env) (d : List ℝ) (s : ℝ) : (e.line d s).cfg = e.cfg := rfl
theorem Env.line_ks (e : Env) (d : List ℝ) (s : ℝ) : (e.line d s).ks = e.ks := rfl
theorem Env.line_mu (e : Env) (d : List ℝ) (s : ℝ) (p : PName) : (e.line d s).tabMu p = e.tabMu p := rfl

/-! ## One loop -/

theorem work1_fam {e : Env} (he : e.Inside) (d : List ℝ) (a b : Field) {s0 : Tab1} (h : (work1 e a b).init = .ok s0) :
    Fam (fun v => ∃ g1 g gm, AffTab g1 (fun s => (v s).g1) ∧ AffTab g (fun s => (v s).g) ∧ (∀ s, (v s).gm = gm) ∧ InTab e.t g gm)
      (fun s => (work1 (e.line d s) a b).init) ∧
    ∀ v : ℝ → Tab1, (∃ g1 g gm, AffTab g1 (fun s => (v s).g1) ∧ AffTab g (fun s => (v s).g) ∧ (∀ s, (v s).gm = gm) ∧ InTab e.t g gm) →
      ∀ ik < e.ks.length, Fam (fun r => DegAll ![1, 1, 2] fun s => (r s).2) fun s => (work1 (e.line d s) a b).body (v s) ik := by
  constructor
  · unfold work1 at h ⊢
    simp only [Res.bind_eq_ok] at h
    obtain ⟨g1, h1, g, h2, gm, h3, -⟩ := h
    dsimp only
    refine Fam.bind (he.tabQ d h1) fun v1 k1 => ?_
    refine Fam.bind (he.tabQ d h2) fun v k => ?_
    simp only [Env.line_mu]
    refine Fam.same fun gm' h3' => ?_
    rw [h3] at h3'
    cases h3'
    exact Fam.ok (v := fun s => (⟨v1 s, v s, gm⟩ : Tab1)) ⟨g1, g, gm, k1, k, fun _ => rfl, he.inTab h2 h3⟩
  · rintro v ⟨g1, g, gm, k1, k2, k3, k4⟩ ik -
    unfold work1
    dsimp only
    simp only [k3, Env.line_t, Env.line_cfg, Env.line_ks]
    refine Fam.same fun k hk => ?_
    refine Fam.bind (gamma1OneLoop_fam k1 a k) fun a1 ha => ?_
    refine Fam.bind (other_fam ha (gamma1OneLoop_fam k1 b k)) fun b1 hb => ?_
    refine Fam.bind (calcGamma2Tree_fam d k2 k4 (he.mode hk).1 _ a b) fun r hr => ?_
    refine Fam.ok (v := fun s => (_, ![a1 s, b1 s, (r s).2])) fun j => ?_
    fin_cases j
    · exact ha
    · exact hb
    · exact hr.2.2

/-- C80, `Spectrum1Loop`: if the run is defined on the spectrum, it is defined on all sums of the spectrum and a multiple of `d`, under any
schedules, and every stored value is a polynomial in the multiple, of the degree given by `rescale`. -/
theorem C80_one_loop {e : Env} (he : e.Inside) {d : List ℝ} (hd : d.length = e.t.pk.length) {a b : Field} {es : List Event}
    {es' : ℝ → List Event} {μ ν : Mem} (hμ : Room 6 e.ks.length μ) (hes : Schedule 3 e.ks.length es)
    (hes' : ∀ s, Schedule 3 e.ks.length (es' s)) (h : runTerms1 e a b es μ = .ok ν) :
    ∃ ν' : ℝ → Mem, (∀ s, runTerms1 (e.line d s) a b (es' s) μ = .ok (ν' s)) ∧ PolyColumns cls1 cls1.power e.ks.length ν' := by
  obtain ⟨pl, sg, s0, row, h1, h2, h3, h4, -, -⟩ := run1_assigns hμ hes h
  obtain ⟨w1, w2⟩ := work1_fam he d a b h3
  have hz := e.line_zero hd
  obtain ⟨pl', sg', s0', row', a1, a2, a3, a4⟩ := head_fam he d hd w1 w2 h1 h2 (by rw [hz]; exact h3) (by rw [hz]; exact h4)
  have hroom : Room12 params1 e.ks.length μ := room12 hμ (by decide) (by decide)
  have hrun := fun s => runHead_of (e := e.line d s) (params := params1) (lay := layCols params1 names1) (work1_det _ a b) (lay1_inj _)
    (a4 s).1 (a4 s).2.1 (a4 s).2.2.1 (a4 s).2.2.2 (hes' s) μ (fits_mapRun (lay1_inj _) (lay1_in hμ) hroom)
  refine ⟨_, hrun, polyColumns_of fun f hf i hi => ?_⟩
  have hi' : i < e.ks.length := by
    have : cls1.width f = 1 := rfl
    rwa [this, mul_one] at hi
  obtain ⟨c1, c2, c3, c4⟩ := cells_fam (lay1_inj _) (lay1_in hμ) hroom (by decide)
    (fun i j => (by decide : ∀ j, pos params1 (names1 j) ≠ pos params1 "pk_lin") j)
    (fun i j => (by decide : ∀ j, pos params1 (names1 j) ≠ pos params1 "sigmad2") j) a1 a2 a3 (fun _ => rfl) hi'
  simp only [cls1, List.mem_cons, List.not_mem_nil, or_false] at hf
  rcases hf with rfl | rfl | rfl | rfl | rfl | rfl
  · exact c4 0 i (fun _ => (by decide : ∀ j, pos params1 (names1 j) ≠ 0)) (by decide) (by decide)
  · exact c1
  · exact c2
  · exact c3 0
  · exact c3 1
  · exact c3 2

/-! ## Two loops -/

theorem work2_fam {e : Env} (he : e.Inside) (d : List ℝ) (a b : Field) {s0 : Tab2} (h : (work2 e a b).init = .ok s0) :
    Fam (fun v => ∃ g1 g12 g gm gd gt, AffTab g1 (fun s => (v s).g1) ∧ AffTab g12 (fun s => (v s).g12) ∧ AffTab g (fun s => (v s).g) ∧
      (∀ s, (v s).gm = gm) ∧ AffTab gd (fun s => (v s).gd) ∧ AffTab gt (fun s => (v s).gt) ∧ InTab e.t g gm)
      (fun s => (work2 (e.line d s) a b).init) ∧
    ∀ v : ℝ → Tab2, (∃ g1 g12 g gm gd gt, AffTab g1 (fun s => (v s).g1) ∧ AffTab g12 (fun s => (v s).g12) ∧ AffTab g (fun s => (v s).g) ∧
      (∀ s, (v s).gm = gm) ∧ AffTab gd (fun s => (v s).gd) ∧ AffTab gt (fun s => (v s).gt) ∧ InTab e.t g gm) →
      ∀ ik < e.ks.length, Fam (fun r => DegAll ![1, 2, 1, 2, 2, 3, 4] fun s => (r s).2) fun s => (work2 (e.line d s) a b).body (v s) ik := by
  constructor
  · unfold work2 at h ⊢
    simp only [Res.bind_eq_ok] at h
    obtain ⟨g1, h1, g12, h12, g, h2, gm, h3, gd, h4, gt, h5, -⟩ := h
    dsimp only
    refine Fam.bind (he.tabQ d h1) fun v1 k1 => ?_
    refine Fam.bind (he.tabQ d h12) fun v12 k12 => ?_
    refine Fam.bind (he.tabQ d h2) fun v k => ?_
    simp only [Env.line_mu]
    refine Fam.same fun gm' h3' => ?_
    rw [h3] at h3'
    cases h3'
    refine Fam.bind (he.tabQ d h4) fun vd kd => ?_
    refine Fam.bind (he.tabQ d h5) fun vt kt => ?_
    exact Fam.ok (v := fun s => (⟨v1 s, v12 s, v s, gm, vd s, vt s⟩ : Tab2))
      ⟨g1, g12, g, gm, gd, gt, k1, k12, k, fun _ => rfl, kd, kt, he.inTab h2 h3⟩
  · rintro v ⟨g1, g12, g, gm, gd, gt, k1, k12, k2, k3, kd, kt, k4⟩ ik -
    unfold work2
    dsimp only
    simp only [k3, Env.line_t, Env.line_cfg, Env.line_ks]
    refine Fam.same fun k hk => ?_
    refine Fam.bind (calcGamma1TwoLoop_fam k1 k12 a b k) fun r1 h1 => ?_
    refine Fam.bind (calcGamma2Loop_fam d k2 kd kt k4 (he.mode hk).1 _ a b) fun r hr => ?_
    refine Fam.ok (v := fun s => (_, ![(r1 s).1, (r1 s).2.1, (r1 s).2.2.1, (r1 s).2.2.2, (r s).2 0, (r s).2 1, (r s).2 2])) fun j => ?_
    fin_cases j
    · exact h1.1
    · exact h1.2.1
    · exact h1.2.2.1
    · exact h1.2.2.2
    · exact hr.2.2 0
    · exact hr.2.2 1
    · exact hr.2.2 2

/-- A cubature routine whose result is a polynomial in a parameter when the integrand is, of the same degree: true of every rule with fixed
points in the unit cube and fixed weights. -/
def CubaPoly (cuba : Cuba ℝ) : Prop :=
  ∀ (n : ℕ) (f : ℝ → (Fin 5 → ℝ) → Res ℝ), (∀ x, (∀ j, 0 ≤ x j ∧ x j ≤ 1) → Fam (PolyDeg n) fun s => f s x) → Fam (PolyDeg n) fun s => cuba (f s)

theorem gamma3_off {n : ℕ} (pl sg : List ℝ) (row : ℕ → Fin 7 → ℝ) (g3 : ℕ → ℝ) {μ : Mem} {c : Cell} (hc : c.1 ≠ pos params2 "pk_gamma3_tree") :
    (overlay (mapRun2 n pl sg row g3) μ).at c = (overlay (mapRun params2 (layCols params2 names2) n pl sg row) μ).at c := by
  rw [overlay_at, overlay_at]
  unfold mapRun2
  rw [rowMap_none fun i _ j e => hc (congrArg Prod.fst e).symm]
  rfl

theorem mapRun_congr {m : ℕ} {params : List String} {lay : ℕ → Fin m → Cell} {n : ℕ} (hinj : LayInj lay n) (pl sg : List ℝ)
    {row row' : ℕ → Fin m → ℝ} (h : ∀ ik < n, row ik = row' ik) : mapRun params lay n pl sg row = mapRun params lay n pl sg row' := by
  funext c
  by_cases hc : ∃ ik < n, ∃ j, lay ik j = c
  · obtain ⟨ik, hik, j, rfl⟩ := hc
    rw [mapRun_lay hinj _ _ _ hik, mapRun_lay hinj _ _ _ hik, h ik hik]
  · push Not at hc
    rw [mapRun_off hc, mapRun_off hc]

/-- The cells of the two-loop runs other than the third-order column. -/
theorem cells2_fam {n : ℕ} {pl sg : ℝ → List ℝ} {row : ℝ → ℕ → Fin 7 → ℝ} {μ : Mem} (hμ : Room 11 n μ) (a1 : AffList pl) (a2 : AffList sg)
    (a3 : ∀ ik < n, DegAll ![1, 2, 1, 2, 2, 3, 4] fun s => row s ik) {f : String} (hf : f ∈ cls2.fields) (h3 : f ≠ "pk_gamma3_tree") {i : ℕ}
    (hi : i < n) : CellDeg (cls2.power f) (fun s => overlay (mapRun params2 (layCols params2 names2) n (pl s) (sg s) (row s)) μ) (cellOf cls2 f i) ∧
      (cellOf cls2 f i).1 ≠ pos params2 "pk_gamma3_tree" := by
  obtain ⟨c1, c2, c3, c4⟩ := cells_fam (lay2_inj _) (lay2_in hμ) (room12 hμ (by decide) (by decide)) (by decide)
    (fun i j => (by decide : ∀ j, pos params2 (names2 j) ≠ pos params2 "pk_lin") j)
    (fun i j => (by decide : ∀ j, pos params2 (names2 j) ≠ pos params2 "sigmad2") j) a1 a2 a3 (fun _ => rfl) hi
  simp only [cls2, List.mem_cons, List.not_mem_nil, or_false] at hf
  rcases hf with rfl | rfl | rfl | rfl | rfl | rfl | rfl | rfl | rfl | rfl | rfl
  · exact ⟨c4 0 i (fun _ => (by decide : ∀ j, pos params2 (names2 j) ≠ 0)) (by decide) (by decide), show (0 : ℕ) ≠ _ by decide⟩
  · exact ⟨c1, show pos params2 "pk_lin" ≠ _ by decide⟩
  · exact ⟨c2, show pos params2 "sigmad2" ≠ _ by decide⟩
  · exact ⟨c3 0, show pos params2 (names2 0) ≠ _ by decide⟩
  · exact ⟨c3 1, show pos params2 (names2 1) ≠ _ by decide⟩
  · exact ⟨c3 2, show pos params2 (names2 2) ≠ _ by decide⟩
  · exact ⟨c3 3, show pos params2 (names2 3) ≠ _ by decide⟩
  · exact ⟨c3 4, show pos params2 (names2 4) ≠ _ by decide⟩
  · exact ⟨c3 5, show pos params2 (names2 5) ≠ _ by decide⟩
  · exact ⟨c3 6, show pos params2 (names2 6) ≠ _ by decide⟩
  · exact absurd rfl h3

/-- C80, `Spectrum2Loop`, for every cubature routine, which may even change with the multiple: all columns but the third-order one, in all
runs that are defined. -/
theorem C80_two_loop_any {e : Env} (he : e.Inside) {d : List ℝ} (hd : d.length = e.t.pk.length) {cuba : Cuba ℝ} {a b : Field}
    {es : List Event} {μ ν : Mem} {cfg : Cfg ℝ} (hμ : Room 11 e.ks.length μ) (hes : Schedule 7 e.ks.length es)
    (h : runTerms2 cuba e a b es μ = .ok (cfg, ν)) {f : String} (hf : f ∈ cls2.fields) (h3 : f ≠ "pk_gamma3_tree") {i : ℕ}
    (hi : i < e.ks.length) : ∃ p : ℝ[X], p.natDegree ≤ cls2.power f ∧ ∀ (s : ℝ) (cuba' : Cuba ℝ) (es' : List Event) (cfg' : Cfg ℝ) (ν' : Mem),
      Schedule 7 e.ks.length es' → runTerms2 cuba' (e.line d s) a b es' μ = .ok (cfg', ν') → (viewOf cls2 ν').val f i = p.eval s := by
  obtain ⟨pl, sg, s0, row, g3, h1, h2, h3', h4, -⟩ := run2_assigns hμ hes h
  obtain ⟨w1, w2⟩ := work2_fam he d a b h3'
  have hz := e.line_zero hd
  obtain ⟨pl', sg', s0', row', a1, a2, a3, a4⟩ := head_fam he d hd w1 w2 h1 h2 (by rw [hz]; exact h3') (by rw [hz]; exact h4)
  obtain ⟨⟨p, hp1, hp2⟩, hc⟩ := cells2_fam hμ a1 a2 a3 hf h3 hi
  refine ⟨p, hp1, fun s cuba' es' cfg' ν' hes' hrun => ?_⟩
  obtain ⟨plS, sgS, s0S, rowS, g3S, b1, b2, b3, b4, -, -, rfl, -⟩ := run2_assigns (e := e.line d s) hμ hes' hrun
  obtain ⟨c1, c2, c3, c4⟩ := a4 s
  have q1 : pl' s = plS := by
    have := c1.symm.trans b1
    injection this
  have q2 : sg' s = sgS := by
    have := c2.symm.trans b2
    injection this
  have q3 : s0' s = s0S := by
    have := c3.symm.trans b3
    injection this
  subst q1 q2 q3
  have q4 : ∀ ik < e.ks.length, rowS ik = row' s ik := by
    intro ik hik
    obtain ⟨s1, r1⟩ := b4 ik hik
    obtain ⟨s2, r2⟩ := c4 ik hik
    have := r1.symm.trans r2
    injection this with this
    injection this
  rw [viewOf_val hf, gamma3_off _ _ _ _ hc]
  rw [show (e.line d s).ks = e.ks from rfl, mapRun_congr (lay2_inj _) _ _ q4]
  exact hp2 s

/-- C80, `Spectrum2Loop`: all columns, for cubature routines with fixed points and weights. -/
theorem C80_two_loop {cuba : Cuba ℝ} (hq : CubaPoly cuba) {e : Env} (he : e.Inside) {d : List ℝ} (hd : d.length = e.t.pk.length)
    {a b : Field} {es : List Event} {es' : ℝ → List Event} {μ ν : Mem} {cfg : Cfg ℝ} (hμ : Room 11 e.ks.length μ)
    (hes : Schedule 7 e.ks.length es) (hes' : ∀ s, Schedule 7 e.ks.length (es' s)) (h : runTerms2 cuba e a b es μ = .ok (cfg, ν)) :
    ∃ ν' : ℝ → Mem, (∀ s, runTerms2 cuba (e.line d s) a b (es' s) μ = .ok (cfg, ν' s)) ∧ PolyColumns cls2 cls2.power e.ks.length ν' := by
  obtain ⟨pl, sg, s0, row, g3, h1, h2, h3, h4, h5, h6, -⟩ := run2_assigns hμ hes h
  obtain ⟨w1, w2⟩ := work2_fam he d a b h3
  have hz := e.line_zero hd
  obtain ⟨pl', sg', s0', row', a1, a2, a3, a4⟩ := head_fam he d hd w1 w2 h1 h2 (by rw [hz]; exact h3) (by rw [hz]; exact h4)
  have hends : 0 < (cfg.prec .gamma3_tree_q).min ∧ (cfg.prec .gamma3_tree_q).min < (cfg.prec .gamma3_tree_q).max ∧
      e.t.Within (cfg.prec .gamma3_tree_q).min ∧ e.t.Within (cfg.prec .gamma3_tree_q).max := by
    unfold autoRange at h5
    obtain ⟨⟨qa, qb⟩, r1, r2⟩ := Res.bind_eq_ok.mp h5
    cases r2
    have := he.ends r1
    simpa using this
  have hg : ∀ ik, ∃ v : ℝ → ℝ, ik < e.ks.length → PolyDeg 3 v ∧
      ∀ s, gamma3At cuba (e.line d s) a b (cfg.prec .gamma3_tree_q) ik = .ok (v s) := by
    intro ik
    by_cases hik : ik < e.ks.length
    · have := h6 ik hik
      rw [← hz] at this
      have hF : Fam (PolyDeg 3) fun s => gamma3At cuba (e.line d s) a b (cfg.prec .gamma3_tree_q) ik := by
        unfold gamma3At calcGamma3
        simp only [Env.line_t, Env.line_ks]
        refine Fam.same fun k _ => ?_
        refine Fam.bind (hq 3 _ fun x hx => kernelGamma3_fam d _ a b k hends.1 hends.2.1.le hends.2.2.1 hends.2.2.2 hx) fun v hv => ?_
        exact Fam.ok ((hv.const_mul 6).div_const _)
      obtain ⟨v, v1, v2⟩ := hF.all this
      exact ⟨v, fun _ => ⟨v2, v1⟩⟩
    · exact ⟨fun _ => 0, fun h => absurd h hik⟩
  choose g3' hg3 using hg
  have hrun := fun s => run2_of (cuba := cuba) (e := e.line d s) (cfg := cfg) hμ (hes' s) (a4 s).1 (a4 s).2.1 (a4 s).2.2.1 (a4 s).2.2.2 h5
    (g3 := fun ik => g3' ik s) fun ik hik => (hg3 ik hik).2 s
  refine ⟨_, hrun, polyColumns_of fun f hf i hi => ?_⟩
  have hi' : i < e.ks.length := by
    have : cls2.width f = 1 := rfl
    rwa [this, mul_one] at hi
  by_cases h3 : f = "pk_gamma3_tree"
  · subst h3
    have key : ∀ (pl sg : List ℝ) (row : ℕ → Fin 7 → ℝ) (g3 : ℕ → ℝ), (overlay (mapRun2 e.ks.length pl sg row g3) μ).at
        (layOne (pos params2 "pk_gamma3_tree") i 0) = some (some (g3 i)) := by
      intro pl sg row g3
      refine overlay_some (fits_mapRun2 hμ) ?_
      unfold mapRun2
      rw [rowMap_lay (layOne_inj _ _) _ hi']
      rfl
    exact .of (c := layOne (pos params2 "pk_gamma3_tree") i 0) (fun s => key ..) (hg3 i hi').1
  · obtain ⟨c1, c2⟩ := cells2_fam hμ a1 a2 a3 hf h3 hi'
    refine c1.congr fun s => ?_
    rw [gamma3_off _ _ _ _ c2]
    rfl

/-! ## Bias -/

/-- Tables of the runs: an affine spectrum on common nodes, one table of angles, all points among the wavenumbers of `t`. -/
def Tabs (t : Pk ℝ) (v : ℝ → GLQ ℝ × GLMu ℝ) : Prop := ∃ g gm, AffTab g (fun s => (v s).1) ∧ (∀ s, (v s).2 = gm) ∧ InTab t g gm

theorem Tabs.init {e : Env} (he : e.Inside) (d : List ℝ) {p m : PName} {g : GLQ ℝ} {gm : GLMu ℝ} (h1 : e.tabQ p = .ok g)
    (h2 : e.tabMu m = .ok gm) {f : ℝ → Res (GLQ ℝ × GLMu ℝ)} (hf : ∀ s, f s = (e.line d s).tabQ p >>= fun g => e.tabMu m >>= fun gm => .ok (g, gm)) :
    Fam (Tabs e.t) f := by
  obtain rfl : f = _ := funext hf
  refine Fam.bind (he.tabQ d h1) fun v k => ?_
  refine Fam.same fun gm' h3 => ?_
  rw [h2] at h3
  cases h3
  exact Fam.ok (v := fun s => (v s, gm)) ⟨g, gm, k, fun _ => rfl, he.inTab h1 h2⟩

theorem CallDeg.tabs {t : Pk ℝ} {g : GLQ ℝ} {gm : GLMu ℝ} {n : ℕ} {r : ℝ → (GLQ ℝ × GLMu ℝ) × ℝ} {k : ℝ}
    (h : CallDeg (updateGLQ g k) gm n r) (ht : InTab t g gm) : Tabs t fun s => (r s).1 := by
  obtain ⟨h1, ⟨gm', h2, h3⟩, -⟩ := h
  exact ⟨_, gm', h1, h3, (ht.update k).same h2⟩

theorem biasCall_fam {e : Env} (d : List ℝ) {v : ℝ → GLQ ℝ × GLMu ℝ} (hv : Tabs e.t v) {k : ℝ} (hk : 0 < k) (a : Field) {kn : BiasKernel} {n : ℕ}
    (hkn : ∀ (a : Field) (q kq mu m : ℝ) (p r : ℝ → ℝ), PolyDeg 1 p → PolyDeg 1 r → PolyDeg n fun s => kn a q kq mu m (p s) (r s)) (half : Bool) :
    Fam (fun r => Tabs e.t (fun s => (r s).1) ∧ PolyDeg n fun s => (r s).2) fun s => biasCall (e.line d s) a kn half (v s) k := by
  obtain ⟨g, gm, h1, h2, h3⟩ := hv
  unfold biasCall
  simp only [h2, Env.line_t, Env.line_cfg]
  exact (calcBias_fam d h1 h3 hk _ a hkn half).mono fun r hr => ⟨hr.tabs h3, hr.2.2⟩

/-- Degrees of the columns of the bias object. -/
def biasDeg (f : String) : ℕ := if f = "sigma3sq" then 1 else clsBias.power f

theorem workBias_fam {e : Env} (he : e.Inside) (d : List ℝ) {s0 : GLQ ℝ × GLMu ℝ} (h : (workBias e).init = .ok s0) :
    Fam (Tabs e.t) (fun s => (workBias (e.line d s)).init) ∧
    ∀ v, Tabs e.t v → ∀ ik < e.ks.length, Fam (fun r => DegAll ![2, 2, 2, 2, 2, 2, 2, 1] fun s => (r s).2)
      fun s => (workBias (e.line d s)).body (v s) ik := by
  constructor
  · unfold workBias at h ⊢
    simp only [Res.bind_eq_ok] at h
    obtain ⟨g, h1, gm, h2, -⟩ := h
    exact Tabs.init he d h1 h2 fun _ => rfl
  · intro v hv ik _
    have b2 : ∀ (a : Field) (q kq mu m : ℝ) (p r : ℝ → ℝ), PolyDeg 1 p → PolyDeg 1 r → PolyDeg 2 fun s => kernelB2 a q kq mu m (p s) (r s) :=
      fun a q kq mu m p r hp hr => (hp.mul hr).mul_const _
    have bs2 : ∀ (a : Field) (q kq mu m : ℝ) (p r : ℝ → ℝ), PolyDeg 1 p → PolyDeg 1 r → PolyDeg 2 fun s => kernelBs2 a q kq mu m (p s) (r s) :=
      fun a q kq mu m p r hp hr => ((hp.mul hr).mul_const _).mul_const _
    have b22 : ∀ (a : Field) (q kq mu m : ℝ) (p r : ℝ → ℝ), PolyDeg 1 p → PolyDeg 1 r → PolyDeg 2 fun s => kernelB22 a q kq mu m (p s) (r s) :=
      fun a q kq mu m p r hp hr => (hp.const_mul _).mul (hr.sub hp)
    have b2s2 : ∀ (a : Field) (q kq mu m : ℝ) (p r : ℝ → ℝ), PolyDeg 1 p → PolyDeg 1 r → PolyDeg 2 fun s => kernelB2s2 a q kq mu m (p s) (r s) :=
      fun a q kq mu m p r hp hr => (hp.const_mul _).mul ((hp.const_mul _).sub (hr.mul_const _))
    have bs22 : ∀ (a : Field) (q kq mu m : ℝ) (p r : ℝ → ℝ), PolyDeg 1 p → PolyDeg 1 r → PolyDeg 2 fun s => kernelBs22 a q kq mu m (p s) (r s) :=
      fun a q kq mu m p r hp hr => (hp.const_mul _).mul ((hp.const_mul _).sub ((hr.mul_const _).mul_const _))
    have s3 : ∀ (a : Field) (q kq mu m : ℝ) (p r : ℝ → ℝ), PolyDeg 1 p → PolyDeg 1 r → PolyDeg 1 fun s => kernelSigma3sq a q kq mu m (p s) (r s) :=
      fun a q kq mu m p r hp hr => (hp.const_mul _).mul_const _
    unfold workBias
    dsimp only
    simp only [Env.line_ks]
    refine Fam.same fun k hk => ?_
    have hk := (he.mode hk).1
    refine Fam.bind (biasCall_fam d hv hk .delta b2 true) fun r0 h0 => ?_
    refine Fam.bind (biasCall_fam d h0.1 hk .delta bs2 true) fun r1 h1 => ?_
    refine Fam.bind (biasCall_fam d h1.1 hk .theta b2 true) fun r2 h2 => ?_
    refine Fam.bind (biasCall_fam d h2.1 hk .theta bs2 true) fun r3 h3 => ?_
    refine Fam.bind (biasCall_fam d h3.1 hk .delta b22 false) fun r4 h4 => ?_
    refine Fam.bind (biasCall_fam d h4.1 hk .delta b2s2 false) fun r5 h5 => ?_
    refine Fam.bind (biasCall_fam d h5.1 hk .delta bs22 false) fun r6 h6 => ?_
    refine Fam.bind (biasCall_fam d h6.1 hk .delta s3 false) fun r7 h7 => ?_
    refine Fam.ok (v := fun s => (_, ![(r0 s).2, (r1 s).2, (r2 s).2, (r3 s).2, (r4 s).2, (r5 s).2, (r6 s).2, (r7 s).2])) fun j => ?_
    fin_cases j
    · exact h0.2
    · exact h1.2
    · exact h2.2
    · exact h3.2
    · exact h4.2
    · exact h5.2
    · exact h6.2
    · exact h7.2

/-- C80, `Bias1Loop`: degree one in `sigma3sq`, the power of `rescale` in the others. -/
theorem C80_bias {e : Env} (he : e.Inside) {d : List ℝ} (hd : d.length = e.t.pk.length) {es : List Event} {es' : ℝ → List Event}
    {μ ν : Mem} (hμ : Room 11 e.ks.length μ) (hes : Schedule 8 e.ks.length es) (hes' : ∀ s, Schedule 8 e.ks.length (es' s))
    (h : runTermsBias e es μ = .ok ν) :
    ∃ ν' : ℝ → Mem, (∀ s, runTermsBias (e.line d s) (es' s) μ = .ok (ν' s)) ∧ PolyColumns clsBias biasDeg e.ks.length ν' := by
  obtain ⟨pl, sg, s0, row, h1, h2, h3, h4, -, -⟩ := runBias_assigns hμ hes h
  obtain ⟨w1, w2⟩ := workBias_fam he d h3
  have hz := e.line_zero hd
  obtain ⟨pl', sg', s0', row', a1, a2, a3, a4⟩ := head_fam he d hd w1 w2 h1 h2 (by rw [hz]; exact h3) (by rw [hz]; exact h4)
  have hroom : Room12 paramsBias e.ks.length μ := room12 hμ (by decide) (by decide)
  have hrun := fun s => runHead_of (e := e.line d s) (params := paramsBias) (lay := layCols paramsBias namesBias) (workBias_det _)
    (layBias_inj _) (a4 s).1 (a4 s).2.1 (a4 s).2.2.1 (a4 s).2.2.2 (hes' s) μ (fits_mapRun (layBias_inj _) (layBias_in hμ) hroom)
  refine ⟨_, hrun, polyColumns_of fun f hf i hi => ?_⟩
  have hi' : i < e.ks.length := by
    have : clsBias.width f = 1 := rfl
    rwa [this, mul_one] at hi
  obtain ⟨c1, c2, c3, c4⟩ := cells_fam (layBias_inj _) (layBias_in hμ) hroom (by decide)
    (fun i j => (by decide : ∀ j, pos paramsBias (namesBias j) ≠ pos paramsBias "pk_lin") j)
    (fun i j => (by decide : ∀ j, pos paramsBias (namesBias j) ≠ pos paramsBias "sigmad2") j) a1 a2 a3 (fun _ => rfl) hi'
  simp only [clsBias, List.mem_cons, List.not_mem_nil, or_false] at hf
  rcases hf with rfl | rfl | rfl | rfl | rfl | rfl | rfl | rfl | rfl | rfl | rfl
  · exact c4 0 i (fun _ => (by decide : ∀ j, pos paramsBias (namesBias j) ≠ 0)) (by decide) (by decide)
  · exact c1
  · exact c2
  · exact c3 0
  · exact c3 1
  · exact c3 2
  · exact c3 3
  · exact c3 4
  · exact c3 5
  · exact c3 6
  · exact c3 7

/-! ## A and B -/

theorem workA1_fam {e : Env} (he : e.Inside) (d : List ℝ) {s0 : GLQ ℝ × GLMu ℝ} (h : (workA1 e).init = .ok s0) :
    Fam (Tabs e.t) (fun s => (workA1 (e.line d s)).init) ∧
    ∀ v, Tabs e.t v → ∀ ik < e.ks.length, Fam (fun r => DegAll (fun _ => 2) fun s => (r s).2)
      fun s => (workA1 (e.line d s)).body (v s) ik := by
  constructor
  · unfold workA1 at h ⊢
    simp only [Res.bind_eq_ok] at h
    obtain ⟨g, h1, gm, h2, -⟩ := h
    exact Tabs.init he d h1 h2 fun _ => rfl
  · rintro v ⟨g, gm, k1, k2, k3⟩ ik _
    unfold workA1
    dsimp only
    simp only [Env.line_ks, Env.line_cfg, Env.line_t, k2]
    refine Fam.same fun k hk => ?_
    refine Fam.bind (calcA1_fam d k1 k3 (he.mode hk).1 _ _ (he.mode hk).2) fun r hr => ?_
    exact Fam.ok hr.2.2

/-- C80, `A1Loop`. -/
theorem C80_A_one_loop {e : Env} (he : e.Inside) {d : List ℝ} (hd : d.length = e.t.pk.length) {es : List Event} {es' : ℝ → List Event}
    {μ ν : Mem} (hμ : RoomFlat 5 e.ks.length μ) (hes : Schedule 5 e.ks.length es) (hes' : ∀ s, Schedule 5 e.ks.length (es' s))
    (h : runTermsA1 e es μ = .ok ν) :
    ∃ ν' : ℝ → Mem, (∀ s, runTermsA1 (e.line d s) (es' s) μ = .ok (ν' s)) ∧ PolyColumns clsA clsA.power e.ks.length ν' := by
  obtain ⟨pl, sg, s0, row, h1, h2, h3, h4, -, -⟩ := runA1_assigns hμ hes h
  obtain ⟨w1, w2⟩ := workA1_fam he d h3
  have hz := e.line_zero hd
  obtain ⟨pl', sg', s0', row', a1, a2, a3, a4⟩ := head_fam he d hd w1 w2 h1 h2 (by rw [hz]; exact h3) (by rw [hz]; exact h4)
  have hroom : Room12 paramsA e.ks.length μ := room12 hμ.1 (by decide) (by decide)
  have hrun := fun s => runHead_of (e := e.line d s) (params := paramsA) (lay := layFlat 5 paramsA "A") (workA1_det _)
    (layFlat_inj _ _ _ _) (a4 s).1 (a4 s).2.1 (a4 s).2.2.1 (a4 s).2.2.2 (hes' s) μ (fits_mapRun (layFlat_inj _ _ _ _) (layFlat_in hμ.2) hroom)
  have cells := fun {i : ℕ} (hi : i < e.ks.length) => cells_fam (lay := layFlat 5 paramsA "A")
    (layFlat_inj _ _ _ _) (layFlat_in hμ.2) hroom (by decide) (fun i j => (by decide : pos paramsA "A" ≠ pos paramsA "pk_lin"))
    (fun i j => (by decide : pos paramsA "A" ≠ pos paramsA "sigmad2")) a1 a2 a3 (fun _ => rfl) hi
  refine ⟨_, hrun, polyColumns_of fun f hf i hi => ?_⟩
  simp only [clsA, List.mem_cons, List.not_mem_nil, or_false] at hf
  rcases hf with rfl | rfl | rfl | rfl
  · exact (cells (by simpa [PyClass.width, clsA, List.lookup] using hi)).2.2.2 0 i (fun _ _ => (by decide : pos paramsA "A" ≠ 0)) (by decide) (by decide)
  · exact (cells (by simpa [PyClass.width, clsA, List.lookup] using hi)).1
  · exact (cells (by simpa [PyClass.width, clsA, List.lookup] using hi)).2.1
  · obtain ⟨ik, hik, j, rfl⟩ := flat_index (m := 5) (by simpa [PyClass.width, clsA, List.lookup] using hi)
    exact (cells hik).2.2.1 j

theorem InTab.wider {t t' : Pk ℝ} {g : GLQ ℝ} {gm : GLMu ℝ} (h : InTab t g gm) (hw : ∀ k, t.Within k → t'.Within k) : InTab t' g gm :=
  ⟨h.rule, h.mu, fun q hq => hw q (h.q q hq)⟩

theorem workB_fam {e : Env} (he : e.Inside) (d : List ℝ) {dt tt : Pk ℝ} (d1 d2 : List ℝ) (hdt : ∀ k, e.t.Within k → dt.Within k)
    (htt : ∀ k, e.t.Within k → tt.Within k) {s0 : GLQ ℝ × GLMu ℝ} (h : (workB e dt tt).init = .ok s0) :
    Fam (Tabs e.t) (fun s => (workB (e.line d s) (dt.line d1 s) (tt.line d2 s)).init) ∧
    ∀ v, Tabs e.t v → ∀ ik < e.ks.length, Fam (fun r => DegAll (fun _ => 2) fun s => (r s).2)
      fun s => (workB (e.line d s) (dt.line d1 s) (tt.line d2 s)).body (v s) ik := by
  constructor
  · unfold workB at h ⊢
    simp only [Res.bind_eq_ok] at h
    obtain ⟨g, h1, gm, h2, -⟩ := h
    exact Tabs.init he d h1 h2 fun _ => rfl
  · rintro v ⟨g, gm, k1, k2, k3⟩ ik _
    unfold workB
    dsimp only
    simp only [Env.line_ks, Env.line_cfg, k2]
    refine Fam.same fun k hk => ?_
    refine Fam.bind (calcB_fam d1 d2 k1 (k3.wider hdt) (k3.wider htt) (he.mode hk).1 _) fun r hr => ?_
    refine Fam.ok (v := fun s => ((r s).1, columnsB (r s).2)) fun j => ?_
    have e := hr.2.2
    have neg : ∀ {v : ℝ → ℝ}, PolyDeg 2 v → PolyDeg 2 fun s => -v s := fun hv => (hv.const_mul (-1)).congr fun s => by ring
    fin_cases j
    · exact e 0
    · exact neg ((e 1).add (e 2))
    · exact e 3
    · exact e 4
    · exact neg ((e 5).add (e 6))
    · exact e 7
    · exact neg ((e 8).add (e 9))
    · exact e 10
    · exact e 11

/-- C80, the B terms: the two spectra of the integrals and the linear spectrum may move in different directions. -/
theorem C80_B {e : Env} (he : e.Inside) {d : List ℝ} (hd : d.length = e.t.pk.length) {dt tt : Pk ℝ} {d1 d2 : List ℝ}
    (hd1 : d1.length = dt.pk.length) (hd2 : d2.length = tt.pk.length) (hdt : ∀ k, e.t.Within k → dt.Within k)
    (htt : ∀ k, e.t.Within k → tt.Within k) {es : List Event} {es' : ℝ → List Event}
    {μ ν : Mem} (hμ : RoomFlat 9 e.ks.length μ) (hes : Schedule 9 e.ks.length es) (hes' : ∀ s, Schedule 9 e.ks.length (es' s))
    (h : runTermsB e dt tt es μ = .ok ν) :
    ∃ ν' : ℝ → Mem, (∀ s, runTermsB (e.line d s) (dt.line d1 s) (tt.line d2 s) (es' s) μ = .ok (ν' s)) ∧
      PolyColumns clsB clsB.power e.ks.length ν' := by
  obtain ⟨pl, sg, s0, row, h1, h2, h3, h4, -, -⟩ := runB_assigns hμ hes h
  obtain ⟨w1, w2⟩ := workB_fam he d d1 d2 hdt htt h3
  have hz : workB (e.line d 0) (dt.line d1 0) (tt.line d2 0) = workB e dt tt := by
    rw [e.line_zero hd, dt.line_zero hd1, tt.line_zero hd2]
  obtain ⟨pl', sg', s0', row', a1, a2, a3, a4⟩ := head_fam he d hd w1 w2 h1 h2 (by rw [hz]; exact h3) (by rw [hz]; exact h4)
  have hroom : Room12 paramsB e.ks.length μ := room12 hμ.1 (by decide) (by decide)
  have hrun := fun s => runHead_of (e := e.line d s) (params := paramsB) (lay := layFlat 9 paramsB "B") (workB_det _ _ _)
    (layFlat_inj _ _ _ _) (a4 s).1 (a4 s).2.1 (a4 s).2.2.1 (a4 s).2.2.2 (hes' s) μ (fits_mapRun (layFlat_inj _ _ _ _) (layFlat_in hμ.2) hroom)
  have cells := fun {i : ℕ} (hi : i < e.ks.length) => cells_fam (lay := layFlat 9 paramsB "B")
    (layFlat_inj _ _ _ _) (layFlat_in hμ.2) hroom (by decide) (fun i j => (by decide : pos paramsB "B" ≠ pos paramsB "pk_lin"))
    (fun i j => (by decide : pos paramsB "B" ≠ pos paramsB "sigmad2")) a1 a2 a3 (fun _ => rfl) hi
  refine ⟨_, hrun, polyColumns_of fun f hf i hi => ?_⟩
  simp only [clsB, List.mem_cons, List.not_mem_nil, or_false] at hf
  rcases hf with rfl | rfl | rfl | rfl
  · exact (cells (by simpa [PyClass.width, clsB, List.lookup] using hi)).2.2.2 0 i (fun _ _ => (by decide : pos paramsB "B" ≠ 0)) (by decide) (by decide)
  · exact (cells (by simpa [PyClass.width, clsB, List.lookup] using hi)).1
  · exact (cells (by simpa [PyClass.width, clsB, List.lookup] using hi)).2.1
  · obtain ⟨ik, hik, j, rfl⟩ := flat_index (m := 9) (by simpa [PyClass.width, clsB, List.lookup] using hi)
    exact (cells hik).2.2.1 j

/-! ## Sums of spectra -/

/-- The same environment with the power replaced. -/
def Env.withPk (e : Env) (u : List ℝ) : Env := { e with t := { e.t with pk := u } }

theorem Env.line_pk (e : Env) (u : List ℝ) (s : ℝ) : e.line u s = e.withPk (List.zipWith (fun a b => a + s * b) e.t.pk u) := rfl

theorem Env.Inside.withPk {e : Env} (he : e.Inside) {u : List ℝ} (hu : u.length = e.t.pk.length) : (e.withPk u).Inside :=
  ⟨⟨⟨⟨he.phys.hk, hu.trans he.phys.hpk, he.phys.hsize⟩, he.phys.incr⟩, he.phys.kpos⟩, he.two, he.size, he.roots, he.range, he.modes⟩

theorem rescaled_val {cls : PyClass} {s : ℝ} {n : ℕ} {ν ν' : Mem} (h : Rescaled cls s n ν ν') {f : String} (hf : f ∈ cls.fields) {m : ℕ}
    (hm : cls.scale.lookup f = some m) {i : ℕ} (hi : i < n * cls.width f) :
    (viewOf cls ν').val f i = (s ^ 2) ^ m * (viewOf cls ν).val f i := by
  obtain ⟨t', h1, h2⟩ := h
  rw [h2 f hf trivial i hi, C32_rescale_val cls s _ _ h1 f m hm i, pow_mul, mul_comm]

/-- C80: in the one-loop object of the sum of two spectra, the linear spectrum, the displacement dispersion and the one-loop propagator
corrections are the sums of those of the two. -/
theorem C80_sum {e : Env} (he : e.Inside) {u : List ℝ} (hu : u.length = e.t.pk.length) {a b : Field} {es : List Event} {μ ν : Mem}
    (hμ : Room 6 e.ks.length μ) (hes : Schedule 3 e.ks.length es) (h : runTerms1 e a b es μ = .ok ν) :
    ∃ ν₂ ν₃, runTerms1 (e.withPk u) a b es μ = .ok ν₂ ∧ runTerms1 (e.withPk (List.zipWith (· + ·) e.t.pk u)) a b es μ = .ok ν₃ ∧
      ∀ f ∈ ["pk_lin", "sigmad2", "gamma1a_1loop", "gamma1b_1loop"], ∀ i < e.ks.length,
        (viewOf cls1 ν₃).val f i = (viewOf cls1 ν).val f i + (viewOf cls1 ν₂).val f i := by
  have hd : (List.zipWith (fun p q => q - p) e.t.pk u).length = e.t.pk.length := by simp [hu]
  obtain ⟨ν', r, hp⟩ := C80_one_loop he hd hμ hes (fun _ => hes) h
  have e0 := r 0
  rw [e.line_zero hd, h] at e0
  injection e0 with e0
  have e1 : e.line (List.zipWith (fun p q => q - p) e.t.pk u) 1 = e.withPk u := by
    rw [Env.line_pk]
    congr 1
    refine List.ext_getElem (by simp [hu]) fun i h1 h2 => ?_
    simp
  have hs : Real.sqrt 2 ^ 2 = 2 := Real.sq_sqrt (by norm_num)
  have e2 : (e.line (List.zipWith (fun p q => q - p) e.t.pk u) (1 / 2)).scale (Real.sqrt 2 ^ 2) = e.withPk (List.zipWith (· + ·) e.t.pk u) := by
    rw [Env.line_pk, hs]
    unfold Env.scale Env.withPk Pk.scale
    congr 2
    refine List.ext_getElem (by simp [hu]) fun i h1 h2 => ?_
    simp
    ring
  obtain ⟨ν₃, r3, hR⟩ := C31_one_loop (e := e.line _ (1 / 2)) hμ hes hes (s := Real.sqrt 2) (by positivity) (r (1 / 2))
  rw [e2] at r3
  have r1 := r 1
  rw [e1] at r1
  refine ⟨ν' 1, ν₃, r1, r3, fun f hf i hi => ?_⟩
  have hf' : f ∈ cls1.fields ∧ cls1.scale.lookup f = some 1 := by
    fin_cases hf <;> exact ⟨by decide, rfl⟩
  have hi' : i < e.ks.length * cls1.width f := by
    rwa [show cls1.width f = 1 from rfl, mul_one]
  rw [rescaled_val hR hf'.1 hf'.2 hi', hs, e0]
  obtain ⟨p, p1, p2⟩ := hp f hf'.1 i hi'
  rw [PyClass.power, hf'.2] at p1
  rw [p2, p2, p2]
  rw [Polynomial.eq_X_add_C_of_natDegree_le_one p1]
  simp
  ring

/-- C80: the mode-coupling term of the one-loop object satisfies the parallelogram law of a quadratic form. -/
theorem C80_parallelogram {e : Env} (he : e.Inside) {u : List ℝ} (hu : u.length = e.t.pk.length) {a b : Field} {es : List Event} {μ ν : Mem}
    (hμ : Room 6 e.ks.length μ) (hes : Schedule 3 e.ks.length es) (h : runTerms1 e a b es μ = .ok ν) :
    ∃ ν₂ ν₃ ν₄, runTerms1 (e.withPk u) a b es μ = .ok ν₂ ∧ runTerms1 (e.withPk (List.zipWith (· + ·) e.t.pk u)) a b es μ = .ok ν₃ ∧
      runTerms1 (e.withPk (List.zipWith (· - ·) e.t.pk u)) a b es μ = .ok ν₄ ∧ ∀ i < e.ks.length,
        (viewOf cls1 ν₃).val "pk_gamma2_tree_tree" i + (viewOf cls1 ν₄).val "pk_gamma2_tree_tree" i =
          2 * (viewOf cls1 ν).val "pk_gamma2_tree_tree" i + 2 * (viewOf cls1 ν₂).val "pk_gamma2_tree_tree" i := by
  obtain ⟨ν₂, ν₃, r2, r3, -⟩ := C80_sum he hu hμ hes h
  obtain ⟨ν', r, hp⟩ := C80_one_loop he hu hμ hes (fun _ => hes) h
  obtain ⟨ν'', r', hp'⟩ := C80_one_loop (he.withPk hu) (d := e.t.pk) hu.symm (es := es) hμ hes (fun _ => hes) r2
  have e0 := r 0
  rw [e.line_zero hu, h] at e0
  injection e0 with e0
  have f0 := r' 0
  rw [(e.withPk u).line_zero hu.symm, r2] at f0
  injection f0 with f0
  have e1 : e.line u 1 = e.withPk (List.zipWith (· + ·) e.t.pk u) := by
    rw [Env.line_pk]
    simp
  have e2 : e.line u (-1) = e.withPk (List.zipWith (· - ·) e.t.pk u) := by
    rw [Env.line_pk]
    congr 2
    funext x y
    ring
  have r1 := r 1
  rw [e1, r3] at r1
  injection r1 with r1
  have r4 := r (-1)
  rw [e2] at r4
  refine ⟨ν₂, ν₃, ν' (-1), r2, r3, r4, fun i hi => ?_⟩
  have hf : "pk_gamma2_tree_tree" ∈ cls1.fields := by decide
  have hi' : i < e.ks.length * cls1.width "pk_gamma2_tree_tree" := by
    rwa [show cls1.width "pk_gamma2_tree_tree" = 1 from rfl, mul_one]
  obtain ⟨p, p1, p2⟩ := hp _ hf i hi'
  obtain ⟨q, q1, q2⟩ := hp' _ hf i hi'
  have key : ∀ s : ℝ, s ≠ 0 → p.eval (s ^ 2) = (s ^ 2) ^ 2 * q.eval ((s ^ 2)⁻¹) := by
    intro s hs
    have hs2 : s ^ 2 ≠ 0 := pow_ne_zero 2 hs
    obtain ⟨ν₅, r5, hR⟩ := C31_one_loop (e := (e.withPk u).line e.t.pk (s ^ 2)⁻¹) (μ := μ) hμ hes hes hs (r' (s ^ 2)⁻¹)
    have : ((e.withPk u).line e.t.pk (s ^ 2)⁻¹).scale (s ^ 2) = e.line u (s ^ 2) := by
      rw [Env.line_pk, Env.line_pk]
      unfold Env.scale Env.withPk Pk.scale
      congr 2
      refine List.ext_getElem (by simp [hu]) fun i h1 h2 => ?_
      simp
      field_simp
      ring
    rw [this, r (s ^ 2)] at r5
    injection r5 with r5
    rw [← p2, ← q2, r5]
    exact rescaled_val hR hf rfl hi'
  have h2 : (2 : ℝ) = Real.sqrt 2 ^ 2 := (Real.sq_sqrt (by norm_num)).symm
  have h3 : (3 : ℝ) = Real.sqrt 3 ^ 2 := (Real.sq_sqrt (by norm_num)).symm
  have k1 := key 1 one_ne_zero
  have k2 := key (Real.sqrt 2) (by positivity)
  have k3 := key (Real.sqrt 3) (by positivity)
  rw [← h2] at k2
  rw [← h3] at k3
  have expand : ∀ p : ℝ[X], p.natDegree ≤ 2 → ∀ x, p.eval x = p.coeff 0 + p.coeff 1 * x + p.coeff 2 * x ^ 2 := by
    intro p hp x
    rw [Polynomial.eval_eq_sum_range' (lt_of_le_of_lt hp (by norm_num : 2 < 3))]
    simp [Finset.sum_range_succ]
  have p1' : p.natDegree ≤ 2 := p1
  have q1' : q.natDegree ≤ 2 := q1
  rw [r1, p2, p2, e0, p2, f0, q2]
  rw [expand p p1', expand q q1'] at k1 k2 k3
  rw [expand p p1', expand p p1', expand p p1', expand q q1']
  norm_num at k1 k2 k3 ⊢
  linarith

/-! ## Outside the table -/

/-- Three modes with the same power. -/
noncomputable def flatTable : Pk ℝ := ⟨3, [1, 2, 4], [1, 1, 1]⟩

/-- Beyond the last tabulated mode the looked up power is not a polynomial in the spectrum, so the requirement on the modes is needed: the
table is continued with a power law whose slope depends on the logarithms of the values. -/
theorem C80_outside (i : Interpol) : ∃ v : ℝ → ℝ, (∀ s > 0, findPk (flatTable.line [1, 0, 0] s) [16] i = .ok [v s]) ∧
    ¬ ∃ p : ℝ[X], ∀ s > 0, v s = p.eval s := by
  refine ⟨fun s => 1 / (1 + s), fun s hs => ?_, ?_⟩
  · have h1 : ¬ 1 + s ≤ 0 := by linarith
    have hl : Real.log 4 ≠ 0 := Real.log_ne_zero_of_pos_of_ne_one (by norm_num) (by norm_num)
    have hv : (4 : ℝ) ^ (Real.log (1 + s)⁻¹ / Real.log 4) = (1 + s)⁻¹ := by
      rw [Real.rpow_def_of_pos (by norm_num), mul_div_cancel₀ _ hl, Real.exp_log (by positivity)]
    norm_num [findPk, findPkLoop, findPkOne, extrapolHighk, slopeLoop, flatTable, Pk.line, rd, subSize, ofLong, sizeMod, h1]
    rw [← Real.log_inv]
    exact hv
  · rintro ⟨p, hp⟩
    have h : ((X + C 1) * p - C 1) = 0 := by
      refine Polynomial.eq_zero_of_infinite_isRoot _ (Set.Infinite.mono (s := Set.Ioi 0) (fun s hs => ?_) (Set.Ioi_infinite 0))
      have hs : 0 < s := hs
      simp only [Set.mem_ofPred_eq, IsRoot.def, eval_sub, eval_mul, eval_add, eval_X, eval_C, ← hp s hs]
      field_simp
      ring
    have := congrArg (Polynomial.eval (-1)) h
    simp at this

/-! ## Non-vacuity -/

/-- Settings for `exTable`: ten nodes everywhere, ranges from 2 to 7, and modes from the first to the last tabulated one. -/
noncomputable def supEnv (i : Interpol) (rt : ℕ → ℕ → ℝ × ℝ) : Env :=
  ⟨⟨fun _ => ⟨10, 2, 7, i⟩, fun _ => i, fun _ => 1 / 2⟩, rt, exTable, [1, 2, 7 / 2, 5, 7]⟩

theorem supEnv_inside {i : Interpol} {rt : ℕ → ℕ → ℝ × ℝ} (hrt : ∀ n, n < 2 ^ 63 → RootsOrdered (rt n) n) : (supEnv i rt).Inside where
  phys := exTable_physical
  two := by norm_num [supEnv, exTable]
  size _ := by norm_num [supEnv]
  roots _ := hrt _ (by norm_num [supEnv])
  range _ := .inr (.inr (by norm_num [supEnv, exTable]))
  modes := by norm_num [supEnv, exTable]

theorem supEnv_ok (rt : ℕ → ℕ → ℝ × ℝ) : (supEnv .poly rt).Ok where
  wf := exTable_physical.toWF
  two := by norm_num [supEnv, exTable]
  size := by intro p; norm_num [supEnv]
  poly := by intro p; rfl
  interp := by intro o; rfl

theorem supRoom (i : Interpol) (rt : ℕ → ℕ → ℝ × ℝ) (N : ℕ) : Room N (supEnv i rt).ks.length exMem := fun i _ => by simp [supEnv, exMem]

/-- A direction in which the power decreases at one mode. -/
def exDir : List ℝ := [1, 0, -2, 1, 5]

/-- A rule with fixed points and weights. -/
noncomputable def ruleCuba : List (ℝ × (Fin 5 → ℝ)) → Cuba ℝ
  | [], _ => .ok 0
  | (w, x) :: l, f => do
      let v ← f x
      let r ← ruleCuba l f
      .ok (w * v + r)

theorem ruleCuba_poly : ∀ l : List (ℝ × (Fin 5 → ℝ)), (∀ c ∈ l, ∀ j, 0 ≤ c.2 j ∧ c.2 j ≤ 1) → CubaPoly (ruleCuba l)
  | [], _ => fun _ _ _ => Fam.ok (PolyDeg.const 0)
  | (w, x) :: l, h => fun n f hf => by
      refine Fam.bind (hf x (h (w, x) (by simp))) fun v hv => ?_
      refine Fam.bind (ruleCuba_poly l (fun c hc => h c (by simp [hc])) n f hf) fun r hr => ?_
      exact Fam.ok ((hv.const_mul w).add hr)

theorem ruleCuba_safe : ∀ l : List (ℝ × (Fin 5 → ℝ)), CubaSafe (ruleCuba l)
  | [], _, _ => .ok _
  | (_, x) :: l, f, h => (h x).bind fun _ _ => (ruleCuba_safe l f h).bind fun _ _ => .ok _

/-- A rule with two points. -/
noncomputable def twoRule : List (ℝ × (Fin 5 → ℝ)) := [(1 / 3, ![1 / 4, 1 / 2, 1 / 8, 1 / 2, 1 / 3]), (2 / 3, fun _ => 3 / 4)]

theorem twoRule_poly : CubaPoly (ruleCuba twoRule) := by
  refine ruleCuba_poly _ fun c hc j => ?_
  simp only [twoRule, List.mem_cons, List.not_mem_nil, or_false] at hc
  rcases hc with rfl | rfl
  · fin_cases j <;> norm_num
  · norm_num

theorem supSchedule (i : Interpol) (rt : ℕ → ℕ → ℝ × ℝ) (m : ℕ) : Schedule m (supEnv i rt).ks.length (blocks m 0 0 [2, 0, 3]) :=
  C43_static_schedule m [2, 0, 3] (by simp)

example : ∃ rt, ∃ ν : ℝ → Mem, (∀ s, runTerms1 ((supEnv .poly rt).line exDir s) .delta .theta (blocks 3 0 0 [2, 0, 3]) exMem = .ok (ν s)) ∧
    PolyColumns cls1 cls1.power 5 ν := by
  obtain ⟨rt, hrt⟩ := roots_ordered
  obtain ⟨ν, h⟩ := C59_one_loop (supEnv_ok rt) .delta .theta (supSchedule .poly rt 3) (supRoom .poly rt 6)
  exact ⟨rt, C80_one_loop (supEnv_inside hrt) (d := exDir) rfl (supRoom .poly rt 6) (supSchedule .poly rt 3) (fun _ => supSchedule .poly rt 3) h⟩

example : ∃ rt, ∃ ν : ℝ → Mem, (∀ s, runTerms1 ((supEnv .lin rt).line exDir s) .delta .theta (blocks 3 0 0 [2, 0, 3]) exMem = .ok (ν s)) ∧
    PolyColumns cls1 cls1.power 5 ν := by
  obtain ⟨rt, hrt⟩ := roots_ordered
  have he : (supEnv .lin rt).LinOk := ⟨exTable_physical, by norm_num [supEnv, exTable], fun _ => by norm_num [supEnv], fun _ => rfl, fun _ => rfl,
    fun _ => hrt _ (by norm_num [supEnv]), fun _ => ⟨.inr (.inr (by norm_num [supEnv])), .inr (.inr (by norm_num [supEnv, exTable]))⟩,
    by norm_num [supEnv], by norm_num [supEnv, exTable]⟩
  obtain ⟨ν, h⟩ := C62_one_loop he .delta .theta (supSchedule .lin rt 3) (supRoom .lin rt 6)
  exact ⟨rt, C80_one_loop (supEnv_inside hrt) (d := exDir) rfl (supRoom .lin rt 6) (supSchedule .lin rt 3) (fun _ => supSchedule .lin rt 3) h⟩

example : ∃ rt, ∃ cfg, ∃ ν : ℝ → Mem, (∀ s, runTerms2 (ruleCuba twoRule) ((supEnv .poly rt).line exDir s) .delta .theta
    (blocks 7 0 0 [2, 0, 3]) exMem = .ok (cfg, ν s)) ∧ PolyColumns cls2 cls2.power 5 ν := by
  obtain ⟨rt, hrt⟩ := roots_ordered
  obtain ⟨⟨cfg, ν⟩, h⟩ := C59_two_loop (supEnv_ok rt) (ruleCuba_safe twoRule) .delta .theta (supSchedule .poly rt 7) (supRoom .poly rt 11)
  exact ⟨rt, cfg, C80_two_loop twoRule_poly (supEnv_inside hrt) (d := exDir) rfl (supRoom .poly rt 11) (supSchedule .poly rt 7)
    (fun _ => supSchedule .poly rt 7) h⟩

example : ∃ rt, ∃ p : ℝ[X], p.natDegree ≤ 3 ∧ ∀ (s : ℝ) (cfg : Cfg ℝ) (ν : Mem), runTerms2 exCuba ((supEnv .poly rt).line exDir s) .delta .theta
    (blocks 7 0 0 [2, 0, 3]) exMem = .ok (cfg, ν) → (viewOf cls2 ν).val "pk_gamma2_tree_1loop" 2 = p.eval s := by
  obtain ⟨rt, hrt⟩ := roots_ordered
  obtain ⟨⟨cfg, ν⟩, h⟩ := C59_two_loop (supEnv_ok rt) exCuba_safe .delta .theta (supSchedule .poly rt 7) (supRoom .poly rt 11)
  obtain ⟨p, p1, p2⟩ := C80_two_loop_any (supEnv_inside hrt) (d := exDir) rfl (supRoom .poly rt 11) (supSchedule .poly rt 7) h
    (f := "pk_gamma2_tree_1loop") (by decide) (by decide) (i := 2) (by norm_num [supEnv])
  exact ⟨rt, p, p1, fun s cfg ν => p2 s exCuba _ cfg ν (supSchedule .poly rt 7)⟩

example : ∃ rt, ∃ ν : ℝ → Mem, (∀ s, runTermsBias ((supEnv .poly rt).line exDir s) (blocks 8 0 0 [2, 0, 3]) exMem = .ok (ν s)) ∧
    PolyColumns clsBias biasDeg 5 ν := by
  obtain ⟨rt, hrt⟩ := roots_ordered
  obtain ⟨ν, h⟩ := C59_bias (supEnv_ok rt) (supSchedule .poly rt 8) (supRoom .poly rt 11)
  exact ⟨rt, C80_bias (supEnv_inside hrt) (d := exDir) rfl (supRoom .poly rt 11) (supSchedule .poly rt 8) (fun _ => supSchedule .poly rt 8) h⟩

example : ∃ rt, (∃ ν : ℝ → Mem, (∀ s, runTermsA1 ((supEnv .poly rt).line exDir s) (blocks 5 0 0 [2, 0, 3]) exMem = .ok (ν s)) ∧
    PolyColumns clsA clsA.power 5 ν) ∧ ∃ ν : ℝ → Mem, (∀ s, runTermsB ((supEnv .poly rt).line exDir s) (exTable.line exDir s)
      (exTable.line [0, 0, 0, 0, 1] s) (blocks 9 0 0 [2, 0, 3]) exMem = .ok (ν s)) ∧ PolyColumns clsB clsB.power 5 ν := by
  obtain ⟨rt, hrt⟩ := roots_ordered
  have hr : ∀ m, m ≤ 9 → RoomFlat m (supEnv .poly rt).ks.length exMem := fun m hm => ⟨fun i _ => by simp [supEnv, exMem], by simp [supEnv, exMem]; omega⟩
  obtain ⟨ν, h⟩ := C59_A_one_loop (supEnv_ok rt) (supSchedule .poly rt 5) (hr 5 (by norm_num))
  obtain ⟨ν', h'⟩ := C59_B (supEnv_ok rt) exTable_physical.toWF (by norm_num [exTable]) exTable_physical.toWF (by norm_num [exTable])
    (supSchedule .poly rt 9) (hr 9 le_rfl)
  exact ⟨rt, C80_A_one_loop (supEnv_inside hrt) (d := exDir) rfl (hr 5 (by norm_num)) (supSchedule .poly rt 5) (fun _ => supSchedule .poly rt 5) h,
    C80_B (supEnv_inside hrt) (d := exDir) rfl (d1 := exDir) (d2 := [0, 0, 0, 0, 1]) rfl rfl (fun _ h => h) (fun _ h => h) (hr 9 le_rfl)
      (supSchedule .poly rt 9) (fun _ => supSchedule .poly rt 9) h'⟩

example : ∃ rt, ∃ ν ν₂ ν₃ ν₄, runTerms1 (supEnv .poly rt) .delta .theta (blocks 3 0 0 [2, 0, 3]) exMem = .ok ν ∧
    runTerms1 ((supEnv .poly rt).withPk [3, 1, 4, 1, 5]) .delta .theta (blocks 3 0 0 [2, 0, 3]) exMem = .ok ν₂ ∧
    runTerms1 ((supEnv .poly rt).withPk [1 + 3, 4 + 1, 9 + 4, 25 + 1, 64 + 5]) .delta .theta (blocks 3 0 0 [2, 0, 3]) exMem = .ok ν₃ ∧
    runTerms1 ((supEnv .poly rt).withPk [1 - 3, 4 - 1, 9 - 4, 25 - 1, 64 - 5]) .delta .theta (blocks 3 0 0 [2, 0, 3]) exMem = .ok ν₄ ∧
    (viewOf cls1 ν₃).val "gamma1a_1loop" 2 = (viewOf cls1 ν).val "gamma1a_1loop" 2 + (viewOf cls1 ν₂).val "gamma1a_1loop" 2 ∧
    (viewOf cls1 ν₃).val "pk_gamma2_tree_tree" 2 + (viewOf cls1 ν₄).val "pk_gamma2_tree_tree" 2 =
      2 * (viewOf cls1 ν).val "pk_gamma2_tree_tree" 2 + 2 * (viewOf cls1 ν₂).val "pk_gamma2_tree_tree" 2 := by
  obtain ⟨rt, hrt⟩ := roots_ordered
  obtain ⟨ν, h⟩ := C59_one_loop (supEnv_ok rt) .delta .theta (supSchedule .poly rt 3) (supRoom .poly rt 6)
  have hi : 2 < (supEnv .poly rt).ks.length := by norm_num [supEnv]
  obtain ⟨ν₂, ν₃, h2, h3, e1⟩ := C80_sum (supEnv_inside hrt) (u := [3, 1, 4, 1, 5]) rfl (supRoom .poly rt 6) (supSchedule .poly rt 3) h
  obtain ⟨ν₂', ν₃', ν₄, h2', h3', h4, e2⟩ := C80_parallelogram (supEnv_inside hrt) (u := [3, 1, 4, 1, 5]) rfl (supRoom .poly rt 6)
    (supSchedule .poly rt 3) h
  obtain rfl : ν₂ = ν₂' := by rw [h2] at h2'; injection h2'
  obtain rfl : ν₃ = ν₃' := by rw [h3] at h3'; injection h3'
  exact ⟨rt, ν, ν₂, ν₃, ν₄, h, h2, h3, h4, e1 _ (by simp) 2 hi, e2 2 hi⟩

end Verif
