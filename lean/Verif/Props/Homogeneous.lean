import Verif.Proofs.Scale
import Verif.Props.Columns
import Verif.Props.Positivity
import Verif.Props.Assembly

/-!
# C31: rescaling the terms equals rescaling the input spectrum
-/

namespace Verif

open Res (Rel)

/-- The same settings and modes with the linear spectrum multiplied by `c`. -/
noncomputable def Env.scale (c : ℝ) (e : Env) : Env := { e with t := e.t.scale c }

/-- Number of values of column `f` per mode. -/
def PyClass.width (cls : PyClass) (f : String) : ℕ := (cls.shape.lookup f).getD 1

/-- The object on the arrays `ν'` is the object on the arrays `ν` after `rescale(s)`, in the columns satisfying `P`: all values of the
`n` modes. -/
def RescaledOn (P : String → Prop) (cls : PyClass) (s : ℝ) (n : ℕ) (ν ν' : Mem) : Prop :=
  ∃ t', (viewOf cls ν).rescale cls s = some t' ∧
    ∀ f ∈ cls.fields, P f → ∀ i < n * cls.width f, (viewOf cls ν').val f i = t'.val f i

/-- Every column of the object is rescaled. -/
def Rescaled (cls : PyClass) (s : ℝ) (n : ℕ) (ν ν' : Mem) : Prop := RescaledOn (fun _ => True) cls s n ν ν'

/-! ## Cells -/

/-- A cell of `ν'` holds `d` times what `ν` holds. -/
def CellTimes (d : ℝ) (ν ν' : Mem) (c : Cell) : Prop := ν'.at c = (ν.at c).map (Option.map (d * ·))

theorem CellTimes.val {cls : PyClass} {d : ℝ} {ν ν' : Mem} {f : String} (hf : f ∈ cls.fields) {i : ℕ}
    (h : CellTimes d ν ν' (cellOf cls f i)) : (viewOf cls ν').val f i = d * (viewOf cls ν).val f i := by
  rw [viewOf_val hf, viewOf_val hf, h]
  rcases ν.at (cellOf cls f i) with _ | _ | v <;> simp

theorem CellTimes.one {ν ν' : Mem} {c : Cell} (h : ν'.at c = ν.at c) : CellTimes 1 ν ν' c := by
  unfold CellTimes
  rw [h]
  rcases ν.at c with _ | _ | v <;> simp

theorem CellTimes.of {d x y : ℝ} {ν ν' : Mem} {c : Cell} (h : ν.at c = some (some x)) (h' : ν'.at c = some (some y)) (e : Times d x y) :
    CellTimes d ν ν' c := by
  unfold CellTimes
  rw [h, h', e]
  rfl

theorem rescaled_of {P : String → Prop} {cls : PyClass} (hcls : cls ∈ [cls1, cls2, clsBias, clsA, clsB]) {s : ℝ} {n : ℕ} {ν ν' : Mem}
    (h : ∀ f ∈ cls.fields, P f → ∀ m, cls.scale.lookup f = some m → ∀ i < n * cls.width f,
      CellTimes ((s ^ 2) ^ m) ν ν' (cellOf cls f i)) : RescaledOn P cls s n ν ν' := by
  have hsc := C32_scale_tables cls (List.mem_cons_of_mem _ hcls)
  obtain ⟨t', ht'⟩ := C32_rescale_total cls s (viewOf cls ν) (by
    intro kv hkv
    unfold viewOf at hkv
    rw [List.mem_map] at hkv
    obtain ⟨f, hf, rfl⟩ := hkv
    rw [hsc]
    exact hf)
  refine ⟨t', ht', fun f hf hP i hi => ?_⟩
  have hm : ∃ m, cls.scale.lookup f = some m := by
    fin_cases hcls <;> fin_cases hf <;> exact ⟨_, rfl⟩
  obtain ⟨m, hm⟩ := hm
  rw [(h f hf hP m hm i hi).val hf, C32_rescale_val cls s _ _ ht' f m hm i, pow_mul, mul_comm]

/-! ## The part common to all runs -/

theorem getD_times (c : ℝ) (l : List ℝ) (i : ℕ) : Times c (l.getD i 0) ((l.map (c * ·)).getD i 0) := by
  unfold Times
  rw [List.getD_eq_getElem?_getD, List.getD_eq_getElem?_getD, List.getElem?_map]
  cases l[i]? <;> simp

/-- The ingredients of a run for the multiplied spectrum. -/
theorem head_scale {σ : Type} {m : ℕ} {c : ℝ} (hc : 0 < c) {e : Env} {o : IName} {W W' : Work σ m} {R : σ → σ → Prop} {d : Fin m → ℝ}
    (h0 : Rel R W.init W'.init)
    (hb : ∀ s s', R s s' → ∀ ik, Rel (fun r r' => ∀ j, Times (d j) (r.2 j) (r'.2 j)) (W.body s ik) (W'.body s' ik))
    {pl sg : List ℝ} {s0 : σ} {row : ℕ → Fin m → ℝ} (h1 : findPk e.t e.ks (e.cfg.interp o) = .ok pl)
    (h2 : runningSigmad2 e.t e.ks (e.cfg.uv o) = .ok sg) (h3 : W.init = .ok s0)
    (h4 : ∀ ik < e.ks.length, ∃ s', W.body s0 ik = .ok (s', row ik)) :
    ∃ s0', findPk (e.t.scale c) e.ks (e.cfg.interp o) = .ok (pl.map (c * ·)) ∧
      runningSigmad2 (e.t.scale c) e.ks (e.cfg.uv o) = .ok (sg.map (c * ·)) ∧ W'.init = .ok s0' ∧
      ∀ ik < e.ks.length, ∃ s', W'.body s0' ik = .ok (s', fun j => d j * row ik j) := by
  have e1 := findPk_scale hc e.t e.ks (e.cfg.interp o)
  rw [h1] at e1
  obtain ⟨_, e1, rfl⟩ := e1.ok
  have e2 := runningSigmad2_scale c e.t e.ks (e.cfg.uv o)
  rw [h2] at e2
  obtain ⟨_, e2, rfl⟩ := e2.ok
  rw [h3] at h0
  obtain ⟨s0', h0, hR⟩ := h0.ok
  refine ⟨s0', e1, e2, h0, fun ik hik => ?_⟩
  obtain ⟨s1, h4⟩ := h4 ik hik
  have := hb s0 s0' hR ik
  rw [h4] at this
  obtain ⟨⟨s', r'⟩, h5, h6⟩ := this.ok
  refine ⟨s', ?_⟩
  rw [h5]
  congr 2
  funext j
  exact h6 j

/-- The cells of a run for the multiplied spectrum. -/
theorem cells_scale {m : ℕ} (c : ℝ) {params : List String} {lay : ℕ → Fin m → Cell} {n : ℕ} {pl sg : List ℝ} {row : ℕ → Fin m → ℝ}
    {d : Fin m → ℝ} {μ : Mem} (hinj : LayInj lay n) (hin : LayIn lay n μ) (hroom : Room12 params n μ)
    (hne : pos params "sigmad2" ≠ pos params "pk_lin") (g1 : ∀ ik j, (lay ik j).1 ≠ pos params "pk_lin")
    (g2 : ∀ ik j, (lay ik j).1 ≠ pos params "sigmad2") {ν ν' : Mem} (hν : ν = overlay (mapRun params lay n pl sg row) μ)
    (hν' : ν' = overlay (mapRun params lay n (pl.map (c * ·)) (sg.map (c * ·)) fun ik j => d j * row ik j) μ) {ik : ℕ} (hik : ik < n) :
    CellTimes (c ^ 1) ν ν' (pos params "pk_lin", ik) ∧ CellTimes (c ^ 1) ν ν' (pos params "sigmad2", ik) ∧
      (∀ j, CellTimes (d j) ν ν' (lay ik j)) ∧
      ∀ a i, (∀ ik j, (lay ik j).1 ≠ a) → a ≠ pos params "pk_lin" → a ≠ pos params "sigmad2" → CellTimes (c ^ 0) ν ν' (a, i) := by
  subst hν hν'
  rw [pow_one, pow_zero]
  have hf : ∀ pl sg row, Fits (mapRun params lay n pl sg row) μ := fun _ _ _ => fits_mapRun hinj hin hroom
  have o1 := opening_columns (hf pl sg row) hne g1 g2 hik
  have o2 := opening_columns (hf (pl.map (c * ·)) (sg.map (c * ·)) fun ik j => d j * row ik j) hne g1 g2 hik
  refine ⟨.of o1.1 o2.1 (getD_times c pl ik), .of o1.2 o2.2 (getD_times c sg ik), fun j => ?_, fun a i h1 h2 h3 => .one ?_⟩
  · exact .of (overlay_some (hf _ _ _) (mapRun_lay hinj pl sg row hik j)) (overlay_some (hf _ _ _) (mapRun_lay hinj _ _ _ hik j)) rfl
  · have : ∀ pl sg row, mapRun params lay n pl sg row (a, i) = none := by
      intro pl sg row
      rw [mapRun_off fun ik _ j e => h1 ik j (congrArg Prod.fst e)]
      exact map12_none fun _ => ⟨h2, h3⟩
    rw [overlay_none μ (this ..), overlay_none μ (this ..)]

/-! ## One loop -/

theorem Env.tabQ_scale {c : ℝ} (hc : 0 < c) (e : Env) (p : PName) :
    Rel (fun g g' => g' = g.scale c) (e.tabQ p) ((e.scale c).tabQ p) := initGLQ_scale hc _ _ _

theorem work1_scale {c : ℝ} (hc : 0 < c) (e : Env) (a b : Field) :
    Rel (fun s s' => s' = ⟨s.g1.scale c, s.g.scale c, s.gm⟩) (work1 e a b).init (work1 (e.scale c) a b).init ∧
    ∀ s s', s' = (⟨s.g1.scale c, s.g.scale c, s.gm⟩ : Tab1) → ∀ ik,
      Rel (fun r r' => ∀ j, Times ((![c ^ 1, c ^ 1, c ^ 2] : Fin 3 → ℝ) j) (r.2 j) (r'.2 j)) ((work1 e a b).body s ik)
        ((work1 (e.scale c) a b).body s' ik) := by
  constructor
  · unfold work1
    dsimp only
    refine Rel.bind (e.tabQ_scale hc _) ?_
    rintro g1 _ rfl
    refine Rel.bind (e.tabQ_scale hc _) ?_
    rintro g _ rfl
    refine Rel.bind (Rel.of_eq (r' := (e.scale c).tabMu _) rfl) ?_
    rintro gm _ rfl
    rfl
  · rintro s _ rfl ik
    unfold work1
    dsimp only
    refine Rel.bind (Rel.of_eq rfl) ?_
    rintro k _ rfl
    refine Rel.bind (gamma1OneLoop_scale c ..) fun a1 a1' ha => ?_
    refine Rel.bind (other_times ha (gamma1OneLoop_scale c ..)) fun b1 b1' hb => ?_
    refine Rel.bind (calcGamma2Tree_scale hc ..) fun r r' hr => ?_
    intro j
    fin_cases j
    · show a1' = c ^ 1 * a1
      rw [pow_one]; exact ha
    · show b1' = c ^ 1 * b1
      rw [pow_one]; exact hb
    · exact hr.2

/-- C31, `Spectrum1Loop`: the run on the spectrum multiplied by `s²` is defined when the run on the original is, under any schedules,
and its terms are those of the original after `rescale(s)`. -/
theorem C31_one_loop {e : Env} {a b : Field} {es es' : List Event} {μ ν : Mem} (hμ : Room 6 e.ks.length μ)
    (hes : Schedule 3 e.ks.length es) (hes' : Schedule 3 e.ks.length es') {s : ℝ} (hs : s ≠ 0) (h : runTerms1 e a b es μ = .ok ν) :
    ∃ ν', runTerms1 (e.scale (s ^ 2)) a b es' μ = .ok ν' ∧ Rescaled cls1 s e.ks.length ν ν' := by
  have hc : 0 < s ^ 2 := by positivity
  obtain ⟨pl, sg, s0, row, h1, h2, h3, h4, hν, _⟩ := run1_assigns hμ hes h
  obtain ⟨s0', k1, k2, k3, k4⟩ := head_scale hc (work1_scale hc e a b).1 (work1_scale hc e a b).2 h1 h2 h3 h4
  have hroom : Room12 params1 e.ks.length μ := room12 hμ (by decide) (by decide)
  have hrun := runHead_of (e := e.scale (s ^ 2)) (params := params1) (lay := layCols params1 names1) (work1_det _ a b) (lay1_inj _)
    k1 k2 k3 k4 hes' μ (fits_mapRun (lay1_inj _) (lay1_in hμ) hroom)
  refine ⟨_, hrun, rescaled_of (by simp) fun f hf _ m hm i hi => ?_⟩
  have hi' : i < e.ks.length := by
    have : cls1.width f = 1 := rfl
    rwa [this, mul_one] at hi
  obtain ⟨c1, c2, c3, c4⟩ := cells_scale (s ^ 2) (lay1_inj _) (lay1_in hμ) hroom (by decide)
    (fun i j => (by decide : ∀ j, pos params1 (names1 j) ≠ pos params1 "pk_lin") j)
    (fun i j => (by decide : ∀ j, pos params1 (names1 j) ≠ pos params1 "sigmad2") j) hν rfl hi'
  simp only [cls1, List.mem_cons, List.not_mem_nil, or_false] at hf
  rcases hf with rfl | rfl | rfl | rfl | rfl | rfl
  · cases hm
    exact c4 0 i (fun _ => (by decide : ∀ j, pos params1 (names1 j) ≠ 0)) (by decide) (by decide)
  · cases hm; exact c1
  · cases hm; exact c2
  · cases hm; exact c3 0
  · cases hm; exact c3 1
  · cases hm; exact c3 2

/-! ## Two loops -/

theorem work2_scale {c : ℝ} (hc : 0 < c) (e : Env) (a b : Field) :
    Rel (fun s s' => s' = ⟨s.g1.scale c, s.g12.scale c, s.g.scale c, s.gm, s.gd.scale c, s.gt.scale c⟩) (work2 e a b).init
      (work2 (e.scale c) a b).init ∧
    ∀ s s', s' = (⟨s.g1.scale c, s.g12.scale c, s.g.scale c, s.gm, s.gd.scale c, s.gt.scale c⟩ : Tab2) → ∀ ik,
      Rel (fun r r' => ∀ j, Times ((![c ^ 1, c ^ 2, c ^ 1, c ^ 2, c ^ 2, c ^ 3, c ^ 4] : Fin 7 → ℝ) j) (r.2 j) (r'.2 j))
        ((work2 e a b).body s ik) ((work2 (e.scale c) a b).body s' ik) := by
  constructor
  · unfold work2
    dsimp only
    refine Rel.bind (e.tabQ_scale hc _) ?_
    rintro g1 _ rfl
    refine Rel.bind (e.tabQ_scale hc _) ?_
    rintro g12 _ rfl
    refine Rel.bind (e.tabQ_scale hc _) ?_
    rintro g _ rfl
    refine Rel.bind (Rel.of_eq (r' := (e.scale c).tabMu _) rfl) ?_
    rintro gm _ rfl
    refine Rel.bind (e.tabQ_scale hc _) ?_
    rintro gd _ rfl
    refine Rel.bind (e.tabQ_scale hc _) ?_
    rintro gt _ rfl
    rfl
  · rintro s _ rfl ik
    unfold work2
    dsimp only
    refine Rel.bind (Rel.of_eq rfl) ?_
    rintro k _ rfl
    refine Rel.bind (calcGamma1TwoLoop_scale c ..) fun r1 r1' h1 => ?_
    refine Rel.bind (calcGamma2Loop_scale hc ..) fun r r' hr => ?_
    intro j
    fin_cases j
    · show r1'.1 = c ^ 1 * r1.1
      rw [pow_one]; exact h1.1
    · exact h1.2.1
    · show r1'.2.2.1 = c ^ 1 * r1.2.2.1
      rw [pow_one]; exact h1.2.2.1
    · exact h1.2.2.2
    · exact hr.2 0
    · exact hr.2 1
    · exact hr.2 2

/-- A cubature routine that multiplies its result by `c` when the integrand is multiplied by `c > 0`. -/
def CubaHom (cuba : Cuba ℝ) : Prop :=
  ∀ (c : ℝ) (f f' : (Fin 5 → ℝ) → Res ℝ), 0 < c → (∀ x, Rel (Times c) (f x) (f' x)) → Rel (Times c) (cuba f) (cuba f')

theorem calcGamma3_scale {c : ℝ} (hc : 0 < c) {cuba : Cuba ℝ} (hq : CubaHom cuba) (t : Pk ℝ) (i : Interpol) (a b : Field)
    (qmin qmax k : ℝ) :
    Rel (Times (c ^ 3)) (calcGamma3 cuba t i a b qmin qmax k) (calcGamma3 cuba (t.scale c) i a b qmin qmax k) := by
  unfold calcGamma3
  refine Rel.bind (hq (c ^ 3) _ _ (by positivity) fun x => kernelGamma3_scale hc t i a b k qmin qmax x) fun v v' hv => ?_
  show 6 * v' / _ = c ^ 3 * _
  rw [show v' = c ^ 3 * v from hv]
  ring

/-- C31, `Spectrum2Loop`, for every homogeneous cubature routine. -/
theorem C31_two_loop {cuba : Cuba ℝ} (hq : CubaHom cuba) {e : Env} {a b : Field} {es es' : List Event} {μ ν : Mem} {cfg : Cfg ℝ}
    (hμ : Room 11 e.ks.length μ) (hes : Schedule 7 e.ks.length es) (hes' : Schedule 7 e.ks.length es') {s : ℝ} (hs : s ≠ 0)
    (h : runTerms2 cuba e a b es μ = .ok (cfg, ν)) :
    ∃ ν', runTerms2 cuba (e.scale (s ^ 2)) a b es' μ = .ok (cfg, ν') ∧ Rescaled cls2 s e.ks.length ν ν' := by
  have hc : 0 < s ^ 2 := by positivity
  obtain ⟨pl, sg, s0, row, g3, h1, h2, h3, h4, h5, h6, hν, _⟩ := run2_assigns hμ hes h
  obtain ⟨s0', k1, k2, k3, k4⟩ := head_scale hc (work2_scale hc e a b).1 (work2_scale hc e a b).2 h1 h2 h3 h4
  have hroom : Room12 params2 e.ks.length μ := room12 hμ (by decide) (by decide)
  have hg3 : ∀ ik < e.ks.length, gamma3At cuba (e.scale (s ^ 2)) a b (cfg.prec .gamma3_tree_q) ik = .ok ((s ^ 2) ^ 3 * g3 ik) := by
    intro ik hik
    have := h6 ik hik
    unfold gamma3At at this ⊢
    rw [show rd (e.scale (s ^ 2)).ks ik = rd e.ks ik from rfl]
    rw [rd_ok hik, Res.ok_bind] at this ⊢
    have hr := calcGamma3_scale hc hq e.t (cfg.prec .gamma3_tree_q).interpol a b (cfg.prec .gamma3_tree_q).min
      (cfg.prec .gamma3_tree_q).max e.ks[ik]
    rw [this] at hr
    obtain ⟨v, hv, rfl⟩ := hr.ok
    exact hv
  have hrun := run2_of (cuba := cuba) (e := e.scale (s ^ 2)) (cfg := cfg) hμ hes' k1 k2 k3 k4 h5 hg3
  refine ⟨_, hrun, rescaled_of (by simp) fun f hf _ m hm i hi => ?_⟩
  have hi' : i < e.ks.length := by
    have : cls2.width f = 1 := rfl
    rwa [this, mul_one] at hi
  have hoff : ∀ (pl sg : List ℝ) (row : ℕ → Fin 7 → ℝ) (g3 : ℕ → ℝ) (c : Cell), c.1 ≠ pos params2 "pk_gamma3_tree" →
      (overlay (mapRun2 e.ks.length pl sg row g3) μ).at c =
        (overlay (mapRun params2 (layCols params2 names2) e.ks.length pl sg row) μ).at c := by
    intro pl sg row g3 c hc
    rw [overlay_at, overlay_at]
    unfold mapRun2
    rw [rowMap_none fun i _ j e => hc (congrArg Prod.fst e).symm]
    rfl
  have move : ∀ (d : ℝ) (c : Cell), c.1 ≠ pos params2 "pk_gamma3_tree" →
      CellTimes d (overlay (mapRun params2 (layCols params2 names2) e.ks.length pl sg row) μ)
        (overlay (mapRun params2 (layCols params2 names2) e.ks.length (pl.map (s ^ 2 * ·)) (sg.map (s ^ 2 * ·)) fun ik j =>
          ![(s ^ 2) ^ 1, (s ^ 2) ^ 2, (s ^ 2) ^ 1, (s ^ 2) ^ 2, (s ^ 2) ^ 2, (s ^ 2) ^ 3, (s ^ 2) ^ 4] j * row ik j) μ) c →
      CellTimes d ν (overlay (mapRun2 e.ks.length (pl.map (s ^ 2 * ·)) (sg.map (s ^ 2 * ·)) (fun ik j =>
          ![(s ^ 2) ^ 1, (s ^ 2) ^ 2, (s ^ 2) ^ 1, (s ^ 2) ^ 2, (s ^ 2) ^ 2, (s ^ 2) ^ 3, (s ^ 2) ^ 4] j * row ik j)
          fun ik => (s ^ 2) ^ 3 * g3 ik) μ) c := by
    intro d c hc h
    unfold CellTimes at h ⊢
    rw [hν, hoff _ _ _ _ _ hc, hoff _ _ _ _ _ hc, h]
  obtain ⟨c1, c2, c3, c4⟩ := cells_scale (row := row) (pl := pl) (sg := sg)
    (d := ![(s ^ 2) ^ 1, (s ^ 2) ^ 2, (s ^ 2) ^ 1, (s ^ 2) ^ 2, (s ^ 2) ^ 2, (s ^ 2) ^ 3, (s ^ 2) ^ 4]) (s ^ 2) (lay2_inj _) (lay2_in hμ)
    hroom (by decide) (fun i j => (by decide : ∀ j, pos params2 (names2 j) ≠ pos params2 "pk_lin") j)
    (fun i j => (by decide : ∀ j, pos params2 (names2 j) ≠ pos params2 "sigmad2") j) rfl rfl hi'
  simp only [cls2, List.mem_cons, List.not_mem_nil, or_false] at hf
  rcases hf with rfl | rfl | rfl | rfl | rfl | rfl | rfl | rfl | rfl | rfl | rfl
  · cases hm
    exact move _ _ (show (0 : ℕ) ≠ _ by decide)
      (c4 0 i (fun _ => (by decide : ∀ j, pos params2 (names2 j) ≠ 0)) (by decide) (by decide))
  · cases hm; exact move _ (pos params2 "pk_lin", i) (show pos params2 "pk_lin" ≠ _ by decide) c1
  · cases hm; exact move _ (pos params2 "sigmad2", i) (show pos params2 "sigmad2" ≠ _ by decide) c2
  · cases hm; exact move _ (layCols params2 names2 i 0) (show pos params2 (names2 0) ≠ _ by decide) (c3 0)
  · cases hm; exact move _ (layCols params2 names2 i 1) (show pos params2 (names2 1) ≠ _ by decide) (c3 1)
  · cases hm; exact move _ (layCols params2 names2 i 2) (show pos params2 (names2 2) ≠ _ by decide) (c3 2)
  · cases hm; exact move _ (layCols params2 names2 i 3) (show pos params2 (names2 3) ≠ _ by decide) (c3 3)
  · cases hm; exact move _ (layCols params2 names2 i 4) (show pos params2 (names2 4) ≠ _ by decide) (c3 4)
  · cases hm; exact move _ (layCols params2 names2 i 5) (show pos params2 (names2 5) ≠ _ by decide) (c3 5)
  · cases hm; exact move _ (layCols params2 names2 i 6) (show pos params2 (names2 6) ≠ _ by decide) (c3 6)
  · cases hm
    have key : ∀ (pl sg : List ℝ) (row : ℕ → Fin 7 → ℝ) (g3 : ℕ → ℝ), (overlay (mapRun2 e.ks.length pl sg row g3) μ).at
        (layOne (pos params2 "pk_gamma3_tree") i 0) = some (some (g3 i)) := by
      intro pl sg row g3
      refine overlay_some (fits_mapRun2 hμ) ?_
      unfold mapRun2
      rw [rowMap_lay (layOne_inj _ _) _ hi']
      rfl
    exact .of (c := layOne (pos params2 "pk_gamma3_tree") i 0) (hν ▸ key _ _ _ _) (key _ _ _ _) rfl

/-! ## Bias -/

theorem kernelB2_degree : kernelB2.Degree 2 := by intro a q kq mu m c p r; simp only [kernelB2]; ring

theorem kernelBs2_degree : kernelBs2.Degree 2 := by intro a q kq mu m c p r; simp only [kernelBs2]; ring

theorem kernelB22_degree : kernelB22.Degree 2 := by intro a q kq mu m c p r; simp only [kernelB22]; ring

theorem kernelB2s2_degree : kernelB2s2.Degree 2 := by intro a q kq mu m c p r; simp only [kernelB2s2]; ring

theorem kernelBs22_degree : kernelBs22.Degree 2 := by intro a q kq mu m c p r; simp only [kernelBs22]; ring

theorem kernelSigma3sq_degree : kernelSigma3sq.Degree 1 := by intro a q kq mu m c p r; simp only [kernelSigma3sq]; ring

/-- Factors of the columns of the bias run; the last one is `sigma3sq`. -/
def biasFactor (c : ℝ) : Fin 8 → ℝ := ![c ^ 2, c ^ 2, c ^ 2, c ^ 2, c ^ 2, c ^ 2, c ^ 2, c ^ 1]

theorem workBias_scale {c : ℝ} (hc : 0 < c) (e : Env) :
    Rel (fun s s' => s' = (s.1.scale c, s.2)) (workBias e).init (workBias (e.scale c)).init ∧
    ∀ s s', s' = ((s.1.scale c, s.2) : GLQ ℝ × GLMu ℝ) → ∀ ik,
      Rel (fun r r' => ∀ j, Times (biasFactor c j) (r.2 j) (r'.2 j)) ((workBias e).body s ik)
        ((workBias (e.scale c)).body s' ik) := by
  constructor
  · unfold workBias
    dsimp only
    refine Rel.bind (e.tabQ_scale hc _) ?_
    rintro g _ rfl
    refine Rel.bind (Rel.of_eq (r' := (e.scale c).tabMu _) rfl) ?_
    rintro gm _ rfl
    rfl
  · rintro s _ rfl ik
    have step : ∀ (f : Field) {kn : BiasKernel} {n : ℕ} (_ : kn.Degree n) (half : Bool) (s s' : GLQ ℝ × GLMu ℝ) (k : ℝ),
        s' = (s.1.scale c, s.2) → Rel (CallTimes c (c ^ n)) (biasCall e f kn half s k) (biasCall (e.scale c) f kn half s' k) := by
      rintro f kn n hkn half s _ k rfl
      exact calcBias_scale hc e.t _ f hkn half s.1 s.2 k
    unfold workBias
    dsimp only
    refine Rel.bind (Rel.of_eq rfl) ?_
    rintro k _ rfl
    refine Rel.bind (step _ kernelB2_degree _ _ _ _ rfl) fun r0 r0' h0 => ?_
    refine Rel.bind (step _ kernelBs2_degree _ _ _ _ h0.1) fun r1 r1' h1 => ?_
    refine Rel.bind (step _ kernelB2_degree _ _ _ _ h1.1) fun r2 r2' h2 => ?_
    refine Rel.bind (step _ kernelBs2_degree _ _ _ _ h2.1) fun r3 r3' h3 => ?_
    refine Rel.bind (step _ kernelB22_degree _ _ _ _ h3.1) fun r4 r4' h4 => ?_
    refine Rel.bind (step _ kernelB2s2_degree _ _ _ _ h4.1) fun r5 r5' h5 => ?_
    refine Rel.bind (step _ kernelBs22_degree _ _ _ _ h5.1) fun r6 r6' h6 => ?_
    refine Rel.bind (step _ kernelSigma3sq_degree _ _ _ _ h6.1) fun r7 r7' h7 => ?_
    intro j
    fin_cases j
    · exact h0.2
    · exact h1.2
    · exact h2.2
    · exact h3.2
    · exact h4.2
    · exact h5.2
    · exact h6.2
    · exact h7.2

/-- The bias run on the multiplied spectrum: every column but `sigma3sq` is rescaled; `sigma3sq` is multiplied by `s²`. -/
theorem bias_scale {e : Env} {es es' : List Event} {μ ν : Mem} (hμ : Room 11 e.ks.length μ)
    (hes : Schedule 8 e.ks.length es) (hes' : Schedule 8 e.ks.length es') {s : ℝ} (hs : s ≠ 0) (h : runTermsBias e es μ = .ok ν) :
    ∃ ν', runTermsBias (e.scale (s ^ 2)) es' μ = .ok ν' ∧ RescaledOn (· ≠ "sigma3sq") clsBias s e.ks.length ν ν' ∧
      ∀ i < e.ks.length, CellTimes (s ^ 2) ν ν' (cellOf clsBias "sigma3sq" i) := by
  have hc : 0 < s ^ 2 := by positivity
  obtain ⟨pl, sg, s0, row, h1, h2, h3, h4, hν, _⟩ := runBias_assigns hμ hes h
  obtain ⟨s0', k1, k2, k3, k4⟩ := head_scale hc (workBias_scale hc e).1 (workBias_scale hc e).2 h1 h2 h3 h4
  have hroom : Room12 paramsBias e.ks.length μ := room12 hμ (by decide) (by decide)
  have hrun := runHead_of (e := e.scale (s ^ 2)) (params := paramsBias) (lay := layCols paramsBias namesBias) (workBias_det _)
    (layBias_inj _) k1 k2 k3 k4 hes' μ (fits_mapRun (layBias_inj _) (layBias_in hμ) hroom)
  have cells := fun {i : ℕ} (hi : i < e.ks.length) => cells_scale (d := biasFactor (s ^ 2)) (s ^ 2) (layBias_inj _) (layBias_in hμ)
    hroom (by decide) (fun i j => (by decide : ∀ j, pos paramsBias (namesBias j) ≠ pos paramsBias "pk_lin") j)
    (fun i j => (by decide : ∀ j, pos paramsBias (namesBias j) ≠ pos paramsBias "sigmad2") j) hν rfl hi
  refine ⟨_, hrun, rescaled_of (by simp) fun f hf hP m hm i hi => ?_, fun i hi => ?_⟩
  · have hi' : i < e.ks.length := by
      have : clsBias.width f = 1 := rfl
      rwa [this, mul_one] at hi
    obtain ⟨c1, c2, c3, c4⟩ := cells hi'
    simp only [clsBias, List.mem_cons, List.not_mem_nil, or_false] at hf
    rcases hf with rfl | rfl | rfl | rfl | rfl | rfl | rfl | rfl | rfl | rfl | rfl
    · cases hm
      exact c4 0 i (fun _ => (by decide : ∀ j, pos paramsBias (namesBias j) ≠ 0)) (by decide) (by decide)
    · cases hm; exact c1
    · cases hm; exact c2
    · cases hm; exact c3 0
    · cases hm; exact c3 1
    · cases hm; exact c3 2
    · cases hm; exact c3 3
    · cases hm; exact c3 4
    · cases hm; exact c3 5
    · cases hm; exact c3 6
    · exact absurd rfl hP
  · have := (cells hi).2.2.1 7
    rwa [show biasFactor (s ^ 2) 7 = (s ^ 2) ^ 1 from rfl, pow_one] at this

/-- C31, `Bias1Loop`: every term but `sigma3sq`. -/
theorem C31_bias_partial {e : Env} {es es' : List Event} {μ ν : Mem} (hμ : Room 11 e.ks.length μ)
    (hes : Schedule 8 e.ks.length es) (hes' : Schedule 8 e.ks.length es') {s : ℝ} (hs : s ≠ 0) (h : runTermsBias e es μ = .ok ν) :
    ∃ ν', runTermsBias (e.scale (s ^ 2)) es' μ = .ok ν' ∧ RescaledOn (· ≠ "sigma3sq") clsBias s e.ks.length ν ν' := by
  obtain ⟨ν', h1, h2, _⟩ := bias_scale hμ hes hes' hs h
  exact ⟨ν', h1, h2⟩

/-! ## A and B at one loop -/

/-- Index of a component in a flat column. -/
theorem flat_index {n m i : ℕ} (h : i < n * m) : ∃ ik < n, ∃ j : Fin m, i = ik * m + j := by
  have hm : 0 < m := Nat.pos_of_ne_zero (by rintro rfl; simp at h)
  exact ⟨i / m, Nat.div_lt_of_lt_mul (by rwa [mul_comm] at h), ⟨i % m, Nat.mod_lt _ hm⟩, (Nat.div_add_mod' i m).symm⟩

theorem workA1_scale {c : ℝ} (hc : 0 < c) (e : Env) :
    Rel (fun s s' => s' = (s.1.scale c, s.2)) (workA1 e).init (workA1 (e.scale c)).init ∧
    ∀ s s', s' = ((s.1.scale c, s.2) : GLQ ℝ × GLMu ℝ) → ∀ ik,
      Rel (fun r r' => ∀ j, Times (c ^ 2) (r.2 j) (r'.2 j)) ((workA1 e).body s ik) ((workA1 (e.scale c)).body s' ik) := by
  constructor
  · unfold workA1
    dsimp only
    refine Rel.bind (e.tabQ_scale hc _) ?_
    rintro g _ rfl
    refine Rel.bind (Rel.of_eq (r' := (e.scale c).tabMu _) rfl) ?_
    rintro gm _ rfl
    rfl
  · rintro s _ rfl ik
    unfold workA1
    dsimp only
    refine Rel.bind (Rel.of_eq rfl) ?_
    rintro k _ rfl
    refine Rel.bind (calcA1_scale hc ..) fun r r' hr => ?_
    exact hr.2

/-- C31, `A1Loop`. -/
theorem C31_A_one_loop {e : Env} {es es' : List Event} {μ ν : Mem} (hμ : RoomFlat 5 e.ks.length μ)
    (hes : Schedule 5 e.ks.length es) (hes' : Schedule 5 e.ks.length es') {s : ℝ} (hs : s ≠ 0) (h : runTermsA1 e es μ = .ok ν) :
    ∃ ν', runTermsA1 (e.scale (s ^ 2)) es' μ = .ok ν' ∧ Rescaled clsA s e.ks.length ν ν' := by
  have hc : 0 < s ^ 2 := by positivity
  obtain ⟨pl, sg, s0, row, h1, h2, h3, h4, hν, _⟩ := runA1_assigns hμ hes h
  obtain ⟨s0', k1, k2, k3, k4⟩ := head_scale hc (workA1_scale hc e).1 (workA1_scale hc e).2 h1 h2 h3 h4
  have hroom : Room12 paramsA e.ks.length μ := room12 hμ.1 (by decide) (by decide)
  have hrun := runHead_of (e := e.scale (s ^ 2)) (params := paramsA) (lay := layFlat 5 paramsA "A") (workA1_det _)
    (layFlat_inj _ _ _ _) k1 k2 k3 k4 hes' μ (fits_mapRun (layFlat_inj _ _ _ _) (layFlat_in hμ.2) hroom)
  have cells := fun {i : ℕ} (hi : i < e.ks.length) => cells_scale (d := fun _ : Fin 5 => (s ^ 2) ^ 2) (s ^ 2) (lay := layFlat 5 paramsA "A")
    (layFlat_inj _ _ _ _) (layFlat_in hμ.2) hroom (by decide) (fun i j => (by decide : pos paramsA "A" ≠ pos paramsA "pk_lin"))
    (fun i j => (by decide : pos paramsA "A" ≠ pos paramsA "sigmad2")) hν rfl hi
  refine ⟨_, hrun, rescaled_of (by simp) fun f hf _ m hm i hi => ?_⟩
  simp only [clsA, List.mem_cons, List.not_mem_nil, or_false] at hf
  rcases hf with rfl | rfl | rfl | rfl
  · cases hm
    exact (cells (by simpa [PyClass.width, clsA, List.lookup] using hi)).2.2.2 0 i (fun _ _ => (by decide : pos paramsA "A" ≠ 0)) (by decide) (by decide)
  · cases hm; exact (cells (by simpa [PyClass.width, clsA, List.lookup] using hi)).1
  · cases hm; exact (cells (by simpa [PyClass.width, clsA, List.lookup] using hi)).2.1
  · cases hm
    obtain ⟨ik, hik, j, rfl⟩ := flat_index (m := 5) (by simpa [PyClass.width, clsA, List.lookup] using hi)
    exact (cells hik).2.2.1 j

theorem workB_scale {c : ℝ} (hc : 0 < c) (e : Env) (dt tt : Pk ℝ) :
    Rel (fun s s' => s' = (s.1.scale c, s.2)) (workB e dt tt).init (workB (e.scale c) (dt.scale c) (tt.scale c)).init ∧
    ∀ s s', s' = ((s.1.scale c, s.2) : GLQ ℝ × GLMu ℝ) → ∀ ik,
      Rel (fun r r' => ∀ j, Times (c ^ 2) (r.2 j) (r'.2 j)) ((workB e dt tt).body s ik)
        ((workB (e.scale c) (dt.scale c) (tt.scale c)).body s' ik) := by
  constructor
  · unfold workB
    dsimp only
    refine Rel.bind (e.tabQ_scale hc _) ?_
    rintro g _ rfl
    refine Rel.bind (Rel.of_eq (r' := (e.scale c).tabMu _) rfl) ?_
    rintro gm _ rfl
    rfl
  · rintro s _ rfl ik
    unfold workB
    dsimp only
    refine Rel.bind (Rel.of_eq rfl) ?_
    rintro k _ rfl
    refine Rel.bind (calcB_scale hc ..) fun r r' hr => ?_
    intro j
    have e := fun j => show r'.2 j = c ^ 2 * r.2 j from hr.2 j
    fin_cases j <;> simp only [Times, columnsB, e] <;> dsimp <;> ring

/-- C31, `B1Loop`: both spectra entering the integrals are the linear one. -/
theorem C31_B_one_loop {e : Env} {es es' : List Event} {μ ν : Mem} (hμ : RoomFlat 9 e.ks.length μ)
    (hes : Schedule 9 e.ks.length es) (hes' : Schedule 9 e.ks.length es') {s : ℝ} (hs : s ≠ 0)
    (h : runTermsB e e.t e.t es μ = .ok ν) :
    ∃ ν', runTermsB (e.scale (s ^ 2)) (e.scale (s ^ 2)).t (e.scale (s ^ 2)).t es' μ = .ok ν' ∧ Rescaled clsB s e.ks.length ν ν' := by
  have hc : 0 < s ^ 2 := by positivity
  obtain ⟨pl, sg, s0, row, h1, h2, h3, h4, hν, _⟩ := runB_assigns hμ hes h
  obtain ⟨s0', k1, k2, k3, k4⟩ := head_scale hc (workB_scale hc e e.t e.t).1 (workB_scale hc e e.t e.t).2 h1 h2 h3 h4
  have hroom : Room12 paramsB e.ks.length μ := room12 hμ.1 (by decide) (by decide)
  have hrun := runHead_of (e := e.scale (s ^ 2)) (params := paramsB) (lay := layFlat 9 paramsB "B") (workB_det _ _ _)
    (layFlat_inj _ _ _ _) k1 k2 k3 k4 hes' μ (fits_mapRun (layFlat_inj _ _ _ _) (layFlat_in hμ.2) hroom)
  have cells := fun {i : ℕ} (hi : i < e.ks.length) => cells_scale (d := fun _ : Fin 9 => (s ^ 2) ^ 2) (s ^ 2) (lay := layFlat 9 paramsB "B")
    (layFlat_inj _ _ _ _) (layFlat_in hμ.2) hroom (by decide) (fun i j => (by decide : pos paramsB "B" ≠ pos paramsB "pk_lin"))
    (fun i j => (by decide : pos paramsB "B" ≠ pos paramsB "sigmad2")) hν rfl hi
  refine ⟨_, hrun, rescaled_of (by simp) fun f hf _ m hm i hi => ?_⟩
  simp only [clsB, List.mem_cons, List.not_mem_nil, or_false] at hf
  rcases hf with rfl | rfl | rfl | rfl
  · cases hm
    exact (cells (by simpa [PyClass.width, clsB, List.lookup] using hi)).2.2.2 0 i (fun _ _ => (by decide : pos paramsB "B" ≠ 0)) (by decide) (by decide)
  · cases hm; exact (cells (by simpa [PyClass.width, clsB, List.lookup] using hi)).1
  · cases hm; exact (cells (by simpa [PyClass.width, clsB, List.lookup] using hi)).2.1
  · cases hm
    obtain ⟨ik, hik, j, rfl⟩ := flat_index (m := 9) (by simpa [PyClass.width, clsB, List.lookup] using hi)
    exact (cells hik).2.2.1 j

/-! ## Violation -/

/-- Zeros of the Legendre polynomials of degree two and one, and the derivatives there. -/
noncomputable def sgRoots : ℕ → ℕ → ℝ × ℝ := fun n _ => if n = 2 then (1 / Real.sqrt 3, Real.sqrt 3) else (0, 1)

/-- Two radial nodes, placed on the modes 1 and 2, and one angle for the bias terms; default settings otherwise. -/
noncomputable def sgCfg : Cfg ℝ where
  prec := fun p => match p with
    | .bias_1loop_q => ⟨2, Real.exp (Real.log 2 / 2 * (1 - Real.sqrt 3)), Real.exp (Real.log 2 / 2 * (1 + Real.sqrt 3)), .poly⟩
    | .bias_1loop_mu => ⟨1, -1, 1, .poly⟩
    | p => defaultPrec p
  interp := fun _ => .poly
  uv := fun _ => 1 / 2

noncomputable def sgEnv : Env := ⟨sgCfg, sgRoots, exTable, [2]⟩

theorem sgEnv_ok : sgEnv.Ok where
  wf := exTable_physical.toWF
  two := by norm_num [sgEnv, exTable]
  size := by intro p; cases p <;> norm_num [sgEnv, sgCfg, defaultPrec]
  poly := by intro p; cases p <;> rfl
  interp := by intro o; rfl

theorem sg_tabMu : sgEnv.tabMu .bias_1loop_mu = .ok ⟨1, [0], [2], [0], [2]⟩ := by
  show initGLMu (sgRoots 1) 1 = _
  rw [initGLMu_eq _ _ (by norm_num)]
  norm_num [nodeAt, weightAt, sgRoots]

theorem sg_pk : findPk exTable [1, 2] .poly = .ok [1, 4] := by
  obtain ⟨vs, hvs⟩ := C06_findPk_poly_safe exTable exTable_physical.toWF (by norm_num [exTable]) [1, 2]
  obtain ⟨hl, hv⟩ := C07_findPk_pointwise_partial exTable exTable_physical.toIncreasing (by norm_num [exTable]) .poly [1, 2]
    (by norm_num) vs hvs
  obtain ⟨u, w, rfl⟩ := List.length_eq_two.mp (show vs.length = 2 from hl)
  have e0 : findPk exTable [1] .poly = .ok [u] := hv 0 (by norm_num) (by simp)
  have e1 : findPk exTable [2] .poly = .ok [w] := hv 1 (by norm_num) (by simp)
  have n0 := C08_findPk_node_poly exTable exTable_physical.toIncreasing 0 (by norm_num [exTable])
  have n1 := C08_findPk_node_poly exTable exTable_physical.toIncreasing 1 (by norm_num [exTable])
  have n0' : findPk exTable [1] .poly = .ok [1] := n0
  have n1' : findPk exTable [2] .poly = .ok [4] := n1
  rw [n0'] at e0
  rw [n1'] at e1
  cases e0
  cases e1
  exact hvs

theorem sg_tabQ {g : GLQ ℝ} (h : sgEnv.tabQ .bias_1loop_q = .ok g) : ∃ w > 0, g = ⟨2, 1, [1, 2], [1, 2], [w, w], [1, 4]⟩ := by
  obtain ⟨a, b, pk, h1, h2, rfl⟩ := initGLQ_ok (show (sgCfg.prec .bias_1loop_q).n < 2 ^ 63 by norm_num [sgCfg]) h
  have hr : glqRange exTable (sgCfg.prec .bias_1loop_q) =
      .ok (Real.exp (Real.log 2 / 2 * (1 - Real.sqrt 3)), Real.exp (Real.log 2 / 2 * (1 + Real.sqrt 3))) := by
    unfold glqRange
    rw [if_neg (by simp [sgCfg, Real.exp_pos])]
    rfl
  rw [show glqRange sgEnv.t (sgCfg.prec .bias_1loop_q) = _ from hr] at h1
  cases h1
  have h3 : Real.sqrt 3 * Real.sqrt 3 = 3 := Real.mul_self_sqrt (by norm_num)
  have h0 : 0 < Real.sqrt 3 := Real.sqrt_pos.mpr (by norm_num)
  have hl : 0 < Real.log 2 := Real.log_pos (by norm_num)
  have hn : (List.range 2).map (fun i => Real.exp (nodeAt (sgRoots 2) (Real.log 2 / 2 * (1 - Real.sqrt 3))
      (Real.log 2 / 2 * (1 + Real.sqrt 3)) 2 i)) = [1, 2] := by
    have e0 : nodeAt (sgRoots 2) (Real.log 2 / 2 * (1 - Real.sqrt 3)) (Real.log 2 / 2 * (1 + Real.sqrt 3)) 2 0 = 0 := by
      simp [nodeAt, sgRoots]
      field_simp
      ring
    have e1 : nodeAt (sgRoots 2) (Real.log 2 / 2 * (1 - Real.sqrt 3)) (Real.log 2 / 2 * (1 + Real.sqrt 3)) 2 1 = Real.log 2 := by
      simp [nodeAt, sgRoots]
      field_simp
      ring
    simp [List.range_succ, e0, e1, Real.exp_log]
  have hw : ∃ w > 0, (List.range 2).map (weightAt (sgRoots 2) (Real.log 2 / 2 * (1 - Real.sqrt 3))
      (Real.log 2 / 2 * (1 + Real.sqrt 3)) 2) = [w, w] := by
    refine ⟨Real.sqrt 3 * Real.log 2 / 2, by positivity, ?_⟩
    have : ∀ i, weightAt (sgRoots 2) (Real.log 2 / 2 * (1 - Real.sqrt 3)) (Real.log 2 / 2 * (1 + Real.sqrt 3)) 2 i =
        Real.sqrt 3 * Real.log 2 / 2 := by
      intro i
      have hz : (1 - 1 / Real.sqrt 3 * (1 / Real.sqrt 3)) * Real.sqrt 3 * Real.sqrt 3 = 2 := by
        field_simp
        nlinarith
      simp only [weightAt, sgRoots, if_true, lit_real]
      push_cast
      rw [hz]
      ring
    simp [List.range_succ, this]
  obtain ⟨w, hw0, hw⟩ := hw
  rw [Real.log_exp, Real.log_exp] at h2 ⊢
  have h2' : findPk exTable [1, 2] .poly = .ok pk := by rw [← hn]; exact h2
  rw [sg_pk] at h2'
  cases h2'
  refine ⟨w, hw0, ?_⟩
  show (⟨2, 1, (List.range 2).map _, (List.range 2).map _, (List.range 2).map _, [1, 4]⟩ : GLQ ℝ) = _
  rw [← hw, ← hn]
  rfl

theorem sg_value {w : ℝ} (hw : 0 < w) {s : GLQ ℝ × GLMu ℝ} {v : ℝ}
    (h : calcBias exTable .poly .delta kernelSigma3sq false ⟨2, 1, [1, 2], [1, 2], [w, w], [1, 4]⟩ ⟨1, [0], [2], [0], [2]⟩ 2 = .ok (s, v)) :
    0 < v := by
  unfold calcBias at h
  simp only [Res.bind_eq_ok] at h
  obtain ⟨r, h, e⟩ := h
  cases e
  obtain ⟨hd, hs⟩ := quadLoop_sum h
  rw [hs]
  set g : GLQ ℝ := updateGLQ ⟨2, 1, [1, 2], [1, 2], [w, w], [1, 4]⟩ 2 with hg
  have r0 : quadRange false g 0 = some (1 / 4, 1) := by
    norm_num [hg, quadRange, muRange, updateGLQ, rd, subSize, sizeMod, ofLong, cMax, cMin]
  have r1 : quadRange false g 1 = some (1 / 2, 7 / 8) := by
    norm_num [hg, quadRange, muRange, updateGLQ, rd, subSize, sizeMod, ofLong, cMax, cMin]
  have m0 : quadMu false g ⟨1, [0], [2], [0], [2]⟩ 0 0 = 5 / 8 := by norm_num [quadMu, r0, updateGLMu]
  have m1 : quadMu false g ⟨1, [0], [2], [0], [2]⟩ 1 0 = 11 / 16 := by norm_num [quadMu, r1, updateGLMu]
  have d0 := hd 0 (show 0 < 2 by norm_num) (by rw [r0]; simp) 0 (show 0 < 1 by norm_num)
  have d1 := hd 1 (show 1 < 2 by norm_num) (by rw [r1]; simp) 0 (show 0 < 1 by norm_num)
  rw [m0] at d0
  rw [m1] at d1
  have val : ∀ (iq : ℕ) (q p m : ℝ) (f : Unit → ℝ), kernelPkBias exTable .poly kernelSigma3sq .delta g iq m = .ok f → g.q.getD iq 0 = q →
      g.pk.getD iq 0 = p → g.x.getD iq 0 = q / 2 → f () = 105 / 16 * p * (D2 m *
        S2 ((2 * 2 - 2 * Real.sqrt (1 + q / 2 * (q / 2) - 2 * m * (q / 2)) * (2 * Real.sqrt (1 + q / 2 * (q / 2) - 2 * m * (q / 2))) -
          q * q) / 2 / q / (2 * Real.sqrt (1 + q / 2 * (q / 2) - 2 * m * (q / 2)))) + 8 / 63) := by
    intro iq q p m f h hq hp hx
    simp only [kernelPkBias, Res.bind_eq_ok] at h
    obtain ⟨x, h1, q', h2, p', h3, pk_kq, -, e⟩ := h
    obtain ⟨rfl, -⟩ := rd_eq_ok h1
    obtain ⟨rfl, -⟩ := rd_eq_ok h2
    obtain ⟨rfl, -⟩ := rd_eq_ok h3
    cases e
    rw [hq, hp, hx]
    rfl
  have v0 := val 0 1 1 (5 / 8) _ d0 rfl rfl rfl
  have v1 := val 1 2 4 (11 / 16) _ d1 rfl rfl rfl
  have c0 : (1 : ℝ) + 1 / 2 * (1 / 2) - 2 * (5 / 8) * (1 / 2) = 5 / 8 := by norm_num
  have c1 : (1 : ℝ) + 2 / 2 * (2 / 2) - 2 * (11 / 16) * (2 / 2) = 5 / 8 := by norm_num
  rw [c0] at v0
  rw [c1] at v1
  have hr : Real.sqrt (5 / 8) * Real.sqrt (5 / 8) = 5 / 8 := Real.mul_self_sqrt (by norm_num)
  have hr0 : 0 < Real.sqrt (5 / 8) := Real.sqrt_pos.mpr (by norm_num)
  have k0 : 0 < (kernelPkBias exTable .poly kernelSigma3sq .delta g 0 (5 / 8)).val () := by
    rw [v0]
    have : S2 ((2 * 2 - 2 * Real.sqrt (5 / 8) * (2 * Real.sqrt (5 / 8)) - 1 * 1) / 2 / 1 / (2 * Real.sqrt (5 / 8))) = -37 / 120 := by
      have : 2 * Real.sqrt (5 / 8) * (2 * Real.sqrt (5 / 8)) = 5 / 2 := by linarith
      unfold S2
      rw [this, div_mul_div_comm, this]
      norm_num
    rw [this]
    norm_num [D2, S2]
  have k1 : 0 < (kernelPkBias exTable .poly kernelSigma3sq .delta g 1 (11 / 16)).val () := by
    rw [v1]
    have : S2 ((2 * 2 - 2 * Real.sqrt (5 / 8) * (2 * Real.sqrt (5 / 8)) - 2 * 2) / 2 / 2 / (2 * Real.sqrt (5 / 8))) = -17 / 96 := by
      have : 2 * Real.sqrt (5 / 8) * (2 * Real.sqrt (5 / 8)) = 5 / 2 := by linarith
      unfold S2
      rw [this, div_mul_div_comm, this]
      norm_num
    rw [this]
    norm_num [D2, S2]
  rw [show (⟨1, [0], [2], [0], [2]⟩ : GLMu ℝ).nmu = 1 from rfl, show g.nq = 2 from rfl]
  simp only [Finset.sum_range_succ, Finset.sum_range_zero, zero_add, m0, m1]
  have w0 : 0 < quadWeight false g ⟨1, [0], [2], [0], [2]⟩ (fun x w => if false = true then x * x * x * w * 2 else x * x * x * w) 0 0 := by
    simp only [quadWeight, r0]
    norm_num [updateGLMu, hg, updateGLQ]
    exact hw
  have w1 : 0 < quadWeight false g ⟨1, [0], [2], [0], [2]⟩ (fun x w => if false = true then x * x * x * w * 2 else x * x * x * w) 1 0 := by
    simp only [quadWeight, r1]
    norm_num [updateGLMu, hg, updateGLQ]
    exact hw
  have hp : 0 < (2 : ℝ) * 2 * 2 / (4 * Real.pi * Real.pi) := by positivity
  exact mul_pos hp (add_pos (mul_pos w0 k0) (mul_pos w1 k1))

/-- C31, violation: the class declares `sigma3sq` of second order in the spectrum, the integral is of first order, so rescaling the terms
is not rescaling the spectrum. -/
theorem C31_sigma3sq_violation {s : ℝ} (hs : s ≠ 0) (h1 : s ^ 2 ≠ 1) :
    ∃ ν ν', runTermsBias sgEnv (blocks 8 0 0 [1]) exMem = .ok ν ∧
      runTermsBias (sgEnv.scale (s ^ 2)) (blocks 8 0 0 [1]) exMem = .ok ν' ∧ ¬ Rescaled clsBias s sgEnv.ks.length ν ν' := by
  have hes : Schedule 8 sgEnv.ks.length (blocks 8 0 0 [1]) := C43_static_schedule 8 [1] (by simp)
  have hroom : Room 11 sgEnv.ks.length exMem := fun i _ => by simp [exMem, sgEnv]
  have hpos : 0 < sgEnv.ks.length := by simp [sgEnv]
  obtain ⟨ν, h⟩ := C59_bias sgEnv_ok hes hroom
  obtain ⟨ν', h', _, hc⟩ := bias_scale hroom hes hes hs h
  refine ⟨ν, ν', h, h', ?_⟩
  rintro ⟨t', ht', hv⟩
  have hv := hv "sigma3sq" (by decide) trivial 0 hpos
  rw [(hc 0 hpos).val (by decide), C32_rescale_val clsBias s _ _ ht' "sigma3sq" 2 rfl 0] at hv
  obtain ⟨pl, sg, g, gm, _, _, hg, hgm, _, _, hcol⟩ := C45_bias hroom hes h hpos
  obtain ⟨st, v, hcv, hcell⟩ := hcol 7
  obtain ⟨w, hw, rfl⟩ := sg_tabQ hg
  rw [sg_tabMu] at hgm
  cases hgm
  have : 0 < v := sg_value hw hcv
  rw [viewOf_of (cls := clsBias) (f := "sigma3sq") (by decide) hcell] at hv
  apply h1
  have : s ^ 2 * v * (s ^ 2 - 1) = 0 := by linear_combination -hv
  rcases mul_eq_zero.mp this with h | h
  · exact absurd h (by positivity)
  · linarith

/-! ## Non-vacuity -/

theorem exCuba_hom : CubaHom exCuba := fun _ _ _ _ h => h _

example (rt : ℕ → ℕ → ℝ × ℝ) : ∃ ν ν', runTerms1 (exEnv rt exKs) .delta .theta (blocks 3 0 0 [2, 0, 3]) exMem = .ok ν ∧
    runTerms1 ((exEnv rt exKs).scale ((3 / 4) ^ 2)) .delta .theta (blocks 3 0 0 [5]) exMem = .ok ν' ∧
    Rescaled cls1 (3 / 4) 5 ν ν' := by
  obtain ⟨ν, h⟩ := C59_one_loop (exEnv_ok rt exKs) .delta .theta (exSchedule 3) (exRoom 6)
  obtain ⟨ν', h', hr⟩ := C31_one_loop (exRoom 6) (exSchedule 3) (exSchedule' 3) (s := 3 / 4) (by norm_num) h
  exact ⟨ν, ν', h, h', hr⟩

example (rt : ℕ → ℕ → ℝ × ℝ) : ∃ r ν', runTerms2 exCuba (exEnv rt exKs) .delta .theta (blocks 7 0 0 [2, 0, 3]) exMem = .ok r ∧
    runTerms2 exCuba ((exEnv rt exKs).scale ((3 / 4) ^ 2)) .delta .theta (blocks 7 0 0 [5]) exMem = .ok (r.1, ν') ∧
    Rescaled cls2 (3 / 4) 5 r.2 ν' := by
  obtain ⟨⟨c, ν⟩, h⟩ := C59_two_loop (exEnv_ok rt exKs) exCuba_safe .delta .theta (exSchedule 7) (exRoom 11)
  obtain ⟨ν', h', hr⟩ := C31_two_loop exCuba_hom (exRoom 11) (exSchedule 7) (exSchedule' 7) (s := 3 / 4) (by norm_num) h
  exact ⟨_, ν', h, h', hr⟩

example (rt : ℕ → ℕ → ℝ × ℝ) : ∃ ν ν', runTermsBias (exEnv rt exKs) (blocks 8 0 0 [2, 0, 3]) exMem = .ok ν ∧
    runTermsBias ((exEnv rt exKs).scale ((3 / 4) ^ 2)) (blocks 8 0 0 [5]) exMem = .ok ν' ∧
    RescaledOn (· ≠ "sigma3sq") clsBias (3 / 4) 5 ν ν' := by
  obtain ⟨ν, h⟩ := C59_bias (exEnv_ok rt exKs) (exSchedule 8) (exRoom 11)
  obtain ⟨ν', h', hr⟩ := C31_bias_partial (exRoom 11) (exSchedule 8) (exSchedule' 8) (s := 3 / 4) (by norm_num) h
  exact ⟨ν, ν', h, h', hr⟩

example (rt : ℕ → ℕ → ℝ × ℝ) : ∃ ν ν', runTermsA1 (exEnv rt exKs) (blocks 5 0 0 [2, 0, 3]) exMem = .ok ν ∧
    runTermsA1 ((exEnv rt exKs).scale ((3 / 4) ^ 2)) (blocks 5 0 0 [5]) exMem = .ok ν' ∧ Rescaled clsA (3 / 4) 5 ν ν' := by
  obtain ⟨ν, h⟩ := C59_A_one_loop (exEnv_ok rt exKs) (exSchedule 5) (exRoomFlat 5 (by norm_num))
  obtain ⟨ν', h', hr⟩ := C31_A_one_loop (exRoomFlat 5 (by norm_num)) (exSchedule 5) (exSchedule' 5) (s := 3 / 4) (by norm_num) h
  exact ⟨ν, ν', h, h', hr⟩

example (rt : ℕ → ℕ → ℝ × ℝ) : ∃ ν ν', runTermsB (exEnv rt exKs) exTable exTable (blocks 9 0 0 [2, 0, 3]) exMem = .ok ν ∧
    runTermsB ((exEnv rt exKs).scale ((3 / 4) ^ 2)) (exTable.scale ((3 / 4) ^ 2)) (exTable.scale ((3 / 4) ^ 2)) (blocks 9 0 0 [5]) exMem =
      .ok ν' ∧ Rescaled clsB (3 / 4) 5 ν ν' := by
  obtain ⟨ν, h⟩ := C59_B (exEnv_ok rt exKs) exTable_physical.toWF (by norm_num [exTable]) exTable_physical.toWF (by norm_num [exTable])
    (exSchedule 9) (exRoomFlat 9 le_rfl)
  obtain ⟨ν', h', hr⟩ := C31_B_one_loop (e := exEnv rt exKs) (exRoomFlat 9 le_rfl) (exSchedule 9) (exSchedule' 9) (s := 3 / 4)
    (by norm_num) h
  exact ⟨ν, ν', h, h', hr⟩

end Verif
