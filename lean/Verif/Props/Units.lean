import Verif.Proofs.StretchTerms
import Verif.Props.Homogeneous
import Verif.Props.Bispectrum

/-!
# C92: results do not depend on the unit of length

In a unit of length `u` times as long every wavenumber is multiplied by `u` and every power spectrum divided by `u³`.
-/

namespace Verif

open Res (Rel)

/-- Settings that hold a range of wavenumbers; the others hold a range of cosines. -/
def PName.isQ : PName → Bool
  | .gamma2_tree_mu | .bias_1loop_mu | .A_1loop_mu | .A_2loop_I_mu | .B_mu => false
  | _ => true

/-- The settings with the ranges of wavenumbers multiplied by `u`. -/
noncomputable def Cfg.stretch (u : ℝ) (c : Cfg ℝ) : Cfg ℝ := { c with prec := fun p => if p.isQ then (c.prec p).stretch u else c.prec p }

/-- Wavenumbers multiplied by `u`, the same powers. -/
noncomputable def Env.stretch (u : ℝ) (e : Env) : Env := { e with cfg := e.cfg.stretch u, t := e.t.stretch u, ks := e.ks.map (u * ·) }

/-- The table in a unit of length `u` times as long. -/
noncomputable def Pk.inUnit (u : ℝ) (t : Pk ℝ) : Pk ℝ := { t with k := t.k.map (u * ·), pk := t.pk.map ((u⁻¹) ^ 3 * ·) }

/-- Table, modes and ranges of wavenumbers in a unit of length `u` times as long. -/
noncomputable def Env.inUnit (u : ℝ) (e : Env) : Env := { e with cfg := e.cfg.stretch u, t := e.t.inUnit u, ks := e.ks.map (u * ·) }

/-- Power of a length that a column of the classes measures (`pyregpt/pyregpt.py:345-600`): spectra are volumes, `sigmad2` is an area, the
propagators and `sigma3sq` are pure numbers. -/
def lengthDim (f : String) : ℤ :=
  if f = "k" then -1 else if f = "sigmad2" then 2
  else if f ∈ ["gamma1a_1loop", "gamma1a_2loop", "gamma1b_1loop", "gamma1b_2loop", "sigma3sq"] then 0 else 3

/-- The object on the arrays `ν'` is the object on the arrays `ν` in a unit of length `u` times as long: all computed columns and values of
the `n` modes. -/
def InUnit (u : ℝ) (cls : PyClass) (n : ℕ) (ν ν' : Mem) : Prop :=
  ∀ f ∈ cls.fields, f ≠ "k" → ∀ i < n * cls.width f, (viewOf cls ν').val f i = u ^ (-lengthDim f) * (viewOf cls ν).val f i

/-! ## From one unit to the other through multiplied wavenumbers and multiplied powers -/

theorem inUnit_eq {u s : ℝ} (hs : s ^ 2 = (u⁻¹) ^ 3) (e : Env) : e.inUnit u = (e.stretch u).scale (s ^ 2) := by rw [hs]; rfl

theorem exists_root {u : ℝ} (hu : 0 < u) : ∃ s : ℝ, s ≠ 0 ∧ s ^ 2 = (u⁻¹) ^ 3 := by
  have h : 0 < (u⁻¹) ^ 3 := by positivity
  exact ⟨Real.sqrt ((u⁻¹) ^ 3), (Real.sqrt_pos.mpr h).ne', Real.sq_sqrt h.le⟩

/-- The columns of `ν'` are those of `ν` multiplied by powers `d` of `u`. -/
def Powers (u : ℝ) (cls : PyClass) (d : String → ℕ) (n : ℕ) (ν ν' : Mem) : Prop :=
  ∀ f ∈ cls.fields, f ≠ "k" → ∀ i < n * cls.width f, CellTimes (u ^ d f) ν ν' (cellOf cls f i)

theorem val_inUnit {u s : ℝ} (hu : 0 < u) (hs : s ^ 2 = (u⁻¹) ^ 3) {m p : ℕ} {d : ℤ} (h : (p : ℤ) - 3 * m = -d) {x y z : ℝ}
    (hy : y = u ^ p * x) (hz : z = y * s ^ (2 * m)) : z = u ^ (-d) * x := by
  rw [hz, hy, pow_mul, hs, ← h, zpow_sub₀ hu.ne', ← pow_mul, inv_pow]
  norm_cast
  ring

theorem inUnit_of {P : String → Prop} {cls : PyClass} {u s : ℝ} (hu : 0 < u) (hs : s ^ 2 = (u⁻¹) ^ 3) {d : String → ℕ} {n : ℕ}
    {ν ν1 ν' : Mem} (h1 : Powers u cls d n ν ν1) (h2 : RescaledOn P cls s n ν1 ν')
    (hd : ∀ f ∈ cls.fields, f ≠ "k" → P f → ∃ m, cls.scale.lookup f = some m ∧ (d f : ℤ) - 3 * m = -lengthDim f) :
    ∀ f ∈ cls.fields, f ≠ "k" → P f → ∀ i < n * cls.width f, (viewOf cls ν').val f i = u ^ (-lengthDim f) * (viewOf cls ν).val f i := by
  intro f hf hk hP i hi
  obtain ⟨t', ht', hv⟩ := h2
  obtain ⟨m, hm, hd⟩ := hd f hf hk hP
  exact val_inUnit hu hs hd ((h1 f hf hk i hi).val hf) ((hv f hf hP i hi).trans (C32_rescale_val cls s _ _ ht' f m hm i))

/-! ## Multiplied wavenumbers -/

section

variable {u : ℝ} (hu : 0 < u)

include hu

theorem Env.tabQ_stretch {e : Env} (ht : ∀ k ∈ e.t.k, 0 < k) (p : PName) (hp : p.isQ = true) :
    Rel (GLQ.Stretched u) (e.tabQ p) ((e.stretch u).tabQ p) := by
  have := initGLQ_stretch hu ht (e.rt (e.cfg.prec p).n) (e.cfg.prec p)
  unfold Env.tabQ
  rw [show (e.stretch u).cfg.prec p = (e.cfg.prec p).stretch u from if_pos hp]
  exact this

omit hu in
theorem Env.tabMu_stretch (e : Env) (p : PName) (hp : p.isQ = false) : Rel (fun x y => x = y) (e.tabMu p) ((e.stretch u).tabMu p) := by
  unfold Env.tabMu
  rw [show (e.stretch u).cfg.prec p = e.cfg.prec p from if_neg (by simp [hp])]
  exact Rel.of_eq rfl

omit hu in
theorem interpol_stretch (e : Env) (p : PName) : ((e.stretch u).cfg.prec p).interpol = (e.cfg.prec p).interpol := by
  show (if p.isQ then (e.cfg.prec p).stretch u else e.cfg.prec p).interpol = _
  split <;> rfl

omit hu in
theorem ks_stretch (e : Env) : (e.stretch u).ks.length = e.ks.length := List.length_map _

theorem head_stretch {σ : Type} {m : ℕ} {e : Env} {o : IName} {W W' : Work σ m} {R : σ → σ → Prop} {d : Fin m → ℝ}
    (h0 : Rel R W.init W'.init)
    (hb : ∀ s s', R s s' → ∀ ik, Rel (fun r r' => ∀ j, Times (d j) (r.2 j) (r'.2 j)) (W.body s ik) (W'.body s' ik))
    {pl sg : List ℝ} {s0 : σ} {row : ℕ → Fin m → ℝ} (h1 : findPk e.t e.ks (e.cfg.interp o) = .ok pl)
    (h2 : runningSigmad2 e.t e.ks (e.cfg.uv o) = .ok sg) (h3 : W.init = .ok s0)
    (h4 : ∀ ik < e.ks.length, ∃ s', W.body s0 ik = .ok (s', row ik)) :
    ∃ s0', findPk (e.stretch u).t (e.stretch u).ks ((e.stretch u).cfg.interp o) = .ok pl ∧
      runningSigmad2 (e.stretch u).t (e.stretch u).ks ((e.stretch u).cfg.uv o) = .ok (sg.map (u * ·)) ∧ W'.init = .ok s0' ∧
      ∀ ik < (e.stretch u).ks.length, ∃ s', W'.body s0' ik = .ok (s', fun j => d j * row ik j) := by
  have e1 := findPk_stretch hu e.t e.ks (e.cfg.interp o)
  rw [h1] at e1
  obtain ⟨_, e1, rfl⟩ := e1.ok
  have e2 := runningSigmad2_stretch hu e.t e.ks (e.cfg.uv o)
  rw [h2] at e2
  obtain ⟨_, e2, rfl⟩ := e2.ok
  rw [h3] at h0
  obtain ⟨s0', h0, hR⟩ := h0.ok
  refine ⟨s0', e1, e2, h0, fun ik hik => ?_⟩
  obtain ⟨s1, h4⟩ := h4 ik (by rwa [ks_stretch] at hik)
  have := hb s0 s0' hR ik
  rw [h4] at this
  obtain ⟨⟨s', r'⟩, h5, h6⟩ := this.ok
  refine ⟨s', ?_⟩
  rw [h5]
  congr 2
  funext j
  exact h6 j

omit hu in
theorem cells_stretch {m : ℕ} (u : ℝ) {params : List String} {lay : ℕ → Fin m → Cell} {n : ℕ} {pl sg : List ℝ} {row : ℕ → Fin m → ℝ}
    {d : Fin m → ℝ} {μ : Mem} (hinj : LayInj lay n) (hin : LayIn lay n μ) (hroom : Room12 params n μ)
    (hne : pos params "sigmad2" ≠ pos params "pk_lin") (g1 : ∀ ik j, (lay ik j).1 ≠ pos params "pk_lin")
    (g2 : ∀ ik j, (lay ik j).1 ≠ pos params "sigmad2") {ν ν' : Mem} (hν : ν = overlay (mapRun params lay n pl sg row) μ)
    (hν' : ν' = overlay (mapRun params lay n pl (sg.map (u * ·)) fun ik j => d j * row ik j) μ) {ik : ℕ} (hik : ik < n) :
    CellTimes (u ^ 0) ν ν' (pos params "pk_lin", ik) ∧ CellTimes (u ^ 1) ν ν' (pos params "sigmad2", ik) ∧
      ∀ j, CellTimes (d j) ν ν' (lay ik j) := by
  subst hν hν'
  rw [pow_one, pow_zero]
  have hf : ∀ pl sg row, Fits (mapRun params lay n pl sg row) μ := fun _ _ _ => fits_mapRun hinj hin hroom
  have o1 := opening_columns (hf pl sg row) hne g1 g2 hik
  have o2 := opening_columns (hf pl (sg.map (u * ·)) fun ik j => d j * row ik j) hne g1 g2 hik
  refine ⟨.of o1.1 o2.1 (one_mul _).symm, .of o1.2 o2.2 (getD_times u sg ik), fun j => ?_⟩
  exact .of (overlay_some (hf _ _ _) (mapRun_lay hinj pl sg row hik j)) (overlay_some (hf _ _ _) (mapRun_lay hinj _ _ _ hik j)) rfl

/-! ## One loop -/

theorem work1_stretch {e : Env} (ht : ∀ k ∈ e.t.k, 0 < k) (a b : Field) :
    Rel (fun s s' => s.g1.Stretched u s'.g1 ∧ s.g.Stretched u s'.g ∧ s'.gm = s.gm) (work1 e a b).init (work1 (e.stretch u) a b).init ∧
    ∀ s s' : Tab1, s.g1.Stretched u s'.g1 ∧ s.g.Stretched u s'.g ∧ s'.gm = s.gm → ∀ ik,
      Rel (fun r r' => ∀ j, Times ((fun _ => u ^ 3 : Fin 3 → ℝ) j) (r.2 j) (r'.2 j)) ((work1 e a b).body s ik)
        ((work1 (e.stretch u) a b).body s' ik) := by
  constructor
  · unfold work1
    dsimp only
    refine Rel.bind (Env.tabQ_stretch hu ht _ rfl) fun g1 g1' h1 => ?_
    refine Rel.bind (Env.tabQ_stretch hu ht _ rfl) fun g g' h2 => ?_
    refine Rel.bind (e.tabMu_stretch _ rfl) ?_
    rintro gm _ rfl
    exact ⟨h1, h2, rfl⟩
  · rintro s ⟨_, _, _⟩ ⟨h1, h2, rfl⟩ ik
    unfold work1
    dsimp only at h1 h2 ⊢
    rw [interpol_stretch]
    refine Rel.bind (rd_times u e.ks ik) ?_
    rintro k _ rfl
    refine Rel.bind (gamma1OneLoop_stretch hu _ h1 _) fun a1 a1' ha => ?_
    refine Rel.bind (other_times ha (gamma1OneLoop_stretch hu _ h1 _)) fun b1 b1' hb => ?_
    refine Rel.bind (calcGamma2Tree_stretch hu _ _ _ _ h2 _ _) fun r r' hr => ?_
    intro j
    fin_cases j
    · exact ha
    · exact hb
    · exact hr.2.2

/-- Powers of the wavenumbers left in the columns after the powers of the spectrum are taken out. -/
def pow1 (f : String) : ℕ := if f = "pk_lin" then 0 else if f = "sigmad2" then 1 else 3

theorem run1_stretch {e : Env} (ht : ∀ k ∈ e.t.k, 0 < k) {a b : Field} {es es' : List Event} {μ ν : Mem} (hμ : Room 6 e.ks.length μ)
    (hes : Schedule 3 e.ks.length es) (hes' : Schedule 3 e.ks.length es') (h : runTerms1 e a b es μ = .ok ν) :
    ∃ ν', runTerms1 (e.stretch u) a b es' μ = .ok ν' ∧ Powers u cls1 pow1 e.ks.length ν ν' := by
  obtain ⟨pl, sg, s0, row, h1, h2, h3, h4, hν, _⟩ := run1_assigns hμ hes h
  obtain ⟨s0', k1, k2, k3, k4⟩ := head_stretch hu (work1_stretch hu ht a b).1 (work1_stretch hu ht a b).2 h1 h2 h3 h4
  have hroom : Room12 params1 e.ks.length μ := room12 hμ (by decide) (by decide)
  have hrun := runHead_of (e := e.stretch u) (params := params1) (lay := layCols params1 names1) (work1_det _ a b) (lay1_inj _)
    k1 k2 k3 k4 (es := es') (by rwa [ks_stretch]) μ
  rw [ks_stretch] at hrun
  refine ⟨_, hrun (fits_mapRun (lay1_inj _) (lay1_in hμ) hroom), fun f hf hk i hi => ?_⟩
  have hi' : i < e.ks.length := by
    have : cls1.width f = 1 := rfl
    rwa [this, mul_one] at hi
  obtain ⟨c1, c2, c3⟩ := cells_stretch (d := fun _ : Fin 3 => u ^ 3) u (lay1_inj _) (lay1_in hμ) hroom (by decide)
    (fun i j => (by decide : ∀ j, pos params1 (names1 j) ≠ pos params1 "pk_lin") j)
    (fun i j => (by decide : ∀ j, pos params1 (names1 j) ≠ pos params1 "sigmad2") j) hν rfl hi'
  simp only [cls1, List.mem_cons, List.not_mem_nil, or_false] at hf
  rcases hf with rfl | rfl | rfl | rfl | rfl | rfl
  · exact absurd rfl hk
  · exact c1
  · exact c2
  · exact c3 0
  · exact c3 1
  · exact c3 2

/-- C92, `Spectrum1Loop`: in another unit the run is defined when it is in the first one, under any schedules, and every column is the
same quantity in the other unit. -/
theorem C92_one_loop {e : Env} (ht : ∀ k ∈ e.t.k, 0 < k) {a b : Field} {es es' : List Event} {μ ν : Mem} (hμ : Room 6 e.ks.length μ)
    (hes : Schedule 3 e.ks.length es) (hes' : Schedule 3 e.ks.length es') (h : runTerms1 e a b es μ = .ok ν) :
    ∃ ν', runTerms1 (e.inUnit u) a b es' μ = .ok ν' ∧ InUnit u cls1 e.ks.length ν ν' := by
  obtain ⟨s, hs0, hs⟩ := exists_root hu
  obtain ⟨ν1, h1, p1⟩ := run1_stretch hu ht hμ hes hes' h
  obtain ⟨ν', h2, p2⟩ := C31_one_loop (e := e.stretch u) (by rwa [ks_stretch]) (by rwa [ks_stretch]) (es' := es') (by rwa [ks_stretch]) hs0 h1
  rw [ks_stretch] at p2
  refine ⟨ν', by rwa [inUnit_eq hs], fun f hf hk i hi => inUnit_of hu hs p1 p2 ?_ f hf hk trivial i hi⟩
  intro f hf hk _
  simp only [cls1, List.mem_cons, List.not_mem_nil, or_false] at hf
  rcases hf with rfl | rfl | rfl | rfl | rfl | rfl
  · exact absurd rfl hk
  all_goals exact ⟨_, rfl, by decide⟩

/-! ## Bias -/

omit hu in
theorem kernelB2_free : kernelB2.Free := by
  intro u hu a q kq mu m p r
  simp only [kernelB2]
  rw [show u * q * (u * q) = u ^ 2 * (q * q) by ring, show u * kq * (u * kq) = u ^ 2 * (kq * kq) by ring,
    show m * (u * q) * (u * kq) = u ^ 2 * (m * q * kq) by ring, F2Fast_unit (pow_pos hu 2)]

omit hu in
theorem kernelBs2_free : kernelBs2.Free := by
  intro u hu a q kq mu m p r
  simp only [kernelBs2]
  rw [show u * q * (u * q) = u ^ 2 * (q * q) by ring, show u * kq * (u * kq) = u ^ 2 * (kq * kq) by ring,
    show m * (u * q) * (u * kq) = u ^ 2 * (m * q * kq) by ring, F2Fast_unit (pow_pos hu 2)]

theorem workBias_stretch {e : Env} (ht : ∀ k ∈ e.t.k, 0 < k) :
    Rel (fun s s' => s.1.Stretched u s'.1 ∧ s'.2 = s.2) (workBias e).init (workBias (e.stretch u)).init ∧
    ∀ s s' : GLQ ℝ × GLMu ℝ, s.1.Stretched u s'.1 ∧ s'.2 = s.2 → ∀ ik,
      Rel (fun r r' => ∀ j, Times ((fun _ => u ^ 3 : Fin 8 → ℝ) j) (r.2 j) (r'.2 j)) ((workBias e).body s ik)
        ((workBias (e.stretch u)).body s' ik) := by
  constructor
  · unfold workBias
    dsimp only
    refine Rel.bind (Env.tabQ_stretch hu ht _ rfl) fun g g' h2 => ?_
    refine Rel.bind (e.tabMu_stretch _ rfl) ?_
    rintro gm _ rfl
    exact ⟨h2, rfl⟩
  · intro s s' hs ik
    have step : ∀ (f : Field) {kn : BiasKernel} (_ : kn.Free) (half : Bool) (s s' : GLQ ℝ × GLMu ℝ) (k : ℝ),
        s.1.Stretched u s'.1 ∧ s'.2 = s.2 →
          Rel (CallStretch u (u ^ 3)) (biasCall e f kn half s k) (biasCall (e.stretch u) f kn half s' (u * k)) := by
      rintro f kn hkn half s ⟨g', _⟩ k ⟨h, rfl⟩
      unfold biasCall
      rw [interpol_stretch]
      exact calcBias_stretch hu e.t _ f hkn half h s.2 k
    unfold workBias
    dsimp only
    refine Rel.bind (rd_times u e.ks ik) ?_
    rintro k _ rfl
    refine Rel.bind (step _ kernelB2_free _ _ _ _ hs) fun r0 r0' h0 => ?_
    refine Rel.bind (step _ kernelBs2_free _ _ _ _ ⟨h0.1, h0.2.1⟩) fun r1 r1' h1 => ?_
    refine Rel.bind (step _ kernelB2_free _ _ _ _ ⟨h1.1, h1.2.1⟩) fun r2 r2' h2 => ?_
    refine Rel.bind (step _ kernelBs2_free _ _ _ _ ⟨h2.1, h2.2.1⟩) fun r3 r3' h3 => ?_
    refine Rel.bind (step _ (fun _ _ _ _ _ _ _ _ _ => rfl : kernelB22.Free) _ _ _ _ ⟨h3.1, h3.2.1⟩) fun r4 r4' h4 => ?_
    refine Rel.bind (step _ (fun _ _ _ _ _ _ _ _ _ => rfl : kernelB2s2.Free) _ _ _ _ ⟨h4.1, h4.2.1⟩) fun r5 r5' h5 => ?_
    refine Rel.bind (step _ (fun _ _ _ _ _ _ _ _ _ => rfl : kernelBs22.Free) _ _ _ _ ⟨h5.1, h5.2.1⟩) fun r6 r6' h6 => ?_
    refine Rel.bind (step _ (fun _ _ _ _ _ _ _ _ _ => rfl : kernelSigma3sq.Free) _ _ _ _ ⟨h6.1, h6.2.1⟩) fun r7 r7' h7 => ?_
    intro j
    fin_cases j
    · exact h0.2.2
    · exact h1.2.2
    · exact h2.2.2
    · exact h3.2.2
    · exact h4.2.2
    · exact h5.2.2
    · exact h6.2.2
    · exact h7.2.2

theorem runBias_stretch {e : Env} (ht : ∀ k ∈ e.t.k, 0 < k) {es es' : List Event} {μ ν : Mem} (hμ : Room 11 e.ks.length μ)
    (hes : Schedule 8 e.ks.length es) (hes' : Schedule 8 e.ks.length es') (h : runTermsBias e es μ = .ok ν) :
    ∃ ν', runTermsBias (e.stretch u) es' μ = .ok ν' ∧ Powers u clsBias pow1 e.ks.length ν ν' := by
  obtain ⟨pl, sg, s0, row, h1, h2, h3, h4, hν, _⟩ := runBias_assigns hμ hes h
  obtain ⟨s0', k1, k2, k3, k4⟩ := head_stretch hu (workBias_stretch hu ht).1 (workBias_stretch hu ht).2 h1 h2 h3 h4
  have hroom : Room12 paramsBias e.ks.length μ := room12 hμ (by decide) (by decide)
  have hrun := runHead_of (e := e.stretch u) (params := paramsBias) (lay := layCols paramsBias namesBias) (workBias_det _)
    (layBias_inj _) k1 k2 k3 k4 (es := es') (by rwa [ks_stretch]) μ
  rw [ks_stretch] at hrun
  refine ⟨_, hrun (fits_mapRun (layBias_inj _) (layBias_in hμ) hroom), fun f hf hk i hi => ?_⟩
  have hi' : i < e.ks.length := by
    have : clsBias.width f = 1 := rfl
    rwa [this, mul_one] at hi
  obtain ⟨c1, c2, c3⟩ := cells_stretch (d := fun _ : Fin 8 => u ^ 3) u (layBias_inj _) (layBias_in hμ) hroom (by decide)
    (fun i j => (by decide : ∀ j, pos paramsBias (namesBias j) ≠ pos paramsBias "pk_lin") j)
    (fun i j => (by decide : ∀ j, pos paramsBias (namesBias j) ≠ pos paramsBias "sigmad2") j) hν rfl hi'
  simp only [clsBias, List.mem_cons, List.not_mem_nil, or_false] at hf
  rcases hf with rfl | rfl | rfl | rfl | rfl | rfl | rfl | rfl | rfl | rfl | rfl
  · exact absurd rfl hk
  · exact c1
  · exact c2
  · exact c3 0
  · exact c3 1
  · exact c3 2
  · exact c3 3
  · exact c3 4
  · exact c3 5
  · exact c3 6
  · exact c3 7

/-- C92, `Bias1Loop`. -/
theorem C92_bias {e : Env} (ht : ∀ k ∈ e.t.k, 0 < k) {es es' : List Event} {μ ν : Mem} (hμ : Room 11 e.ks.length μ)
    (hes : Schedule 8 e.ks.length es) (hes' : Schedule 8 e.ks.length es') (h : runTermsBias e es μ = .ok ν) :
    ∃ ν', runTermsBias (e.inUnit u) es' μ = .ok ν' ∧ InUnit u clsBias e.ks.length ν ν' := by
  obtain ⟨s, hs0, hs⟩ := exists_root hu
  obtain ⟨ν1, h1, p1⟩ := runBias_stretch hu ht hμ hes hes' h
  obtain ⟨ν', h2, p2, p3⟩ := bias_scale (e := e.stretch u) (by rwa [ks_stretch]) (by rwa [ks_stretch]) (es' := es') (by rwa [ks_stretch])
    hs0 h1
  rw [ks_stretch] at p2 p3
  refine ⟨ν', by rwa [inUnit_eq hs], fun f hf hk i hi => ?_⟩
  by_cases hf7 : f = "sigma3sq"
  · subst hf7
    have hi' : i < e.ks.length := by
      have : clsBias.width "sigma3sq" = 1 := rfl
      rwa [this, mul_one] at hi
    rw [(p3 i hi').val hf, (p1 _ hf hk i hi).val hf, hs, show lengthDim "sigma3sq" = 0 by decide, show pow1 "sigma3sq" = 3 by decide,
      ← mul_assoc, ← mul_pow, inv_mul_cancel₀ hu.ne']
    simp
  · refine inUnit_of hu hs p1 p2 ?_ f hf hk hf7 i hi
    intro f hf hk hP
    simp only [clsBias, List.mem_cons, List.not_mem_nil, or_false] at hf
    rcases hf with rfl | rfl | rfl | rfl | rfl | rfl | rfl | rfl | rfl | rfl | rfl
    · exact absurd rfl hk
    all_goals first
      | exact ⟨_, rfl, by decide⟩
      | exact absurd rfl hP

/-! ## A and B at one loop -/

theorem workA1_stretch {e : Env} (ht : ∀ k ∈ e.t.k, 0 < k) :
    Rel (fun s s' => s.1.Stretched u s'.1 ∧ s'.2 = s.2) (workA1 e).init (workA1 (e.stretch u)).init ∧
    ∀ s s' : GLQ ℝ × GLMu ℝ, s.1.Stretched u s'.1 ∧ s'.2 = s.2 → ∀ ik,
      Rel (fun r r' => ∀ j, Times ((fun _ => u ^ 3 : Fin 5 → ℝ) j) (r.2 j) (r'.2 j)) ((workA1 e).body s ik)
        ((workA1 (e.stretch u)).body s' ik) := by
  constructor
  · unfold workA1
    dsimp only
    refine Rel.bind (Env.tabQ_stretch hu ht _ rfl) fun g g' h2 => ?_
    refine Rel.bind (e.tabMu_stretch _ rfl) ?_
    rintro gm _ rfl
    exact ⟨h2, rfl⟩
  · rintro s ⟨g', _⟩ ⟨hg, rfl⟩ ik
    unfold workA1
    dsimp only at hg ⊢
    rw [interpol_stretch, interpol_stretch]
    refine Rel.bind (rd_times u e.ks ik) ?_
    rintro k _ rfl
    refine Rel.bind (calcA1_stretch hu _ _ _ hg _ _) fun r r' hr => ?_
    exact hr.2.2

theorem runA1_stretch {e : Env} (ht : ∀ k ∈ e.t.k, 0 < k) {es es' : List Event} {μ ν : Mem} (hμ : RoomFlat 5 e.ks.length μ)
    (hes : Schedule 5 e.ks.length es) (hes' : Schedule 5 e.ks.length es') (h : runTermsA1 e es μ = .ok ν) :
    ∃ ν', runTermsA1 (e.stretch u) es' μ = .ok ν' ∧ Powers u clsA pow1 e.ks.length ν ν' := by
  obtain ⟨pl, sg, s0, row, h1, h2, h3, h4, hν, _⟩ := runA1_assigns hμ hes h
  obtain ⟨s0', k1, k2, k3, k4⟩ := head_stretch hu (workA1_stretch hu ht).1 (workA1_stretch hu ht).2 h1 h2 h3 h4
  have hroom : Room12 paramsA e.ks.length μ := room12 hμ.1 (by decide) (by decide)
  have hrun := runHead_of (e := e.stretch u) (params := paramsA) (lay := layFlat 5 paramsA "A") (workA1_det _)
    (layFlat_inj _ _ _ _) k1 k2 k3 k4 (es := es') (by rwa [ks_stretch]) μ
  rw [ks_stretch] at hrun
  have cells := fun {i : ℕ} (hi : i < e.ks.length) => cells_stretch (d := fun _ : Fin 5 => u ^ 3) u (lay := layFlat 5 paramsA "A")
    (layFlat_inj _ _ _ _) (layFlat_in hμ.2) hroom (by decide) (fun i j => (by decide : pos paramsA "A" ≠ pos paramsA "pk_lin"))
    (fun i j => (by decide : pos paramsA "A" ≠ pos paramsA "sigmad2")) hν rfl hi
  refine ⟨_, hrun (fits_mapRun (layFlat_inj _ _ _ _) (layFlat_in hμ.2) hroom), fun f hf hk i hi => ?_⟩
  simp only [clsA, List.mem_cons, List.not_mem_nil, or_false] at hf
  rcases hf with rfl | rfl | rfl | rfl
  · exact absurd rfl hk
  · exact (cells (by simpa [PyClass.width, clsA, List.lookup] using hi)).1
  · exact (cells (by simpa [PyClass.width, clsA, List.lookup] using hi)).2.1
  · obtain ⟨ik, hik, j, rfl⟩ := flat_index (m := 5) (by simpa [PyClass.width, clsA, List.lookup] using hi)
    exact (cells hik).2.2 j

/-- C92, `A1Loop`. -/
theorem C92_A_one_loop {e : Env} (ht : ∀ k ∈ e.t.k, 0 < k) {es es' : List Event} {μ ν : Mem} (hμ : RoomFlat 5 e.ks.length μ)
    (hes : Schedule 5 e.ks.length es) (hes' : Schedule 5 e.ks.length es') (h : runTermsA1 e es μ = .ok ν) :
    ∃ ν', runTermsA1 (e.inUnit u) es' μ = .ok ν' ∧ InUnit u clsA e.ks.length ν ν' := by
  obtain ⟨s, hs0, hs⟩ := exists_root hu
  obtain ⟨ν1, h1, p1⟩ := runA1_stretch hu ht hμ hes hes' h
  obtain ⟨ν', h2, p2⟩ := C31_A_one_loop (e := e.stretch u) (by rwa [ks_stretch]) (by rwa [ks_stretch]) (es' := es') (by rwa [ks_stretch])
    hs0 h1
  rw [ks_stretch] at p2
  refine ⟨ν', by rwa [inUnit_eq hs], fun f hf hk i hi => inUnit_of hu hs p1 p2 ?_ f hf hk trivial i hi⟩
  intro f hf hk _
  simp only [clsA, List.mem_cons, List.not_mem_nil, or_false] at hf
  rcases hf with rfl | rfl | rfl | rfl
  · exact absurd rfl hk
  all_goals exact ⟨_, rfl, by decide⟩

theorem workB_stretch {e : Env} (ht : ∀ k ∈ e.t.k, 0 < k) (dt tt : Pk ℝ) :
    Rel (fun s s' => s.1.Stretched u s'.1 ∧ s'.2 = s.2) (workB e dt tt).init (workB (e.stretch u) (dt.stretch u) (tt.stretch u)).init ∧
    ∀ s s' : GLQ ℝ × GLMu ℝ, s.1.Stretched u s'.1 ∧ s'.2 = s.2 → ∀ ik,
      Rel (fun r r' => ∀ j, Times ((fun _ => u ^ 3 : Fin 9 → ℝ) j) (r.2 j) (r'.2 j)) ((workB e dt tt).body s ik)
        ((workB (e.stretch u) (dt.stretch u) (tt.stretch u)).body s' ik) := by
  constructor
  · unfold workB
    dsimp only
    refine Rel.bind (Env.tabQ_stretch hu ht _ rfl) fun g g' h2 => ?_
    refine Rel.bind (e.tabMu_stretch _ rfl) ?_
    rintro gm _ rfl
    exact ⟨h2, rfl⟩
  · rintro s ⟨g', _⟩ ⟨hg, rfl⟩ ik
    unfold workB
    dsimp only at hg ⊢
    rw [interpol_stretch]
    refine Rel.bind (rd_times u e.ks ik) ?_
    rintro k _ rfl
    refine Rel.bind (calcB_stretch hu _ _ _ hg _ _) fun r r' hr => ?_
    intro j
    have e := fun j => show r'.2 j = u ^ 3 * r.2 j from hr.2.2 j
    fin_cases j <;> simp only [Times, columnsB, e] <;> dsimp <;> ring

theorem runB_stretch {e : Env} (ht : ∀ k ∈ e.t.k, 0 < k) {dt tt : Pk ℝ} {es es' : List Event} {μ ν : Mem}
    (hμ : RoomFlat 9 e.ks.length μ) (hes : Schedule 9 e.ks.length es) (hes' : Schedule 9 e.ks.length es')
    (h : runTermsB e dt tt es μ = .ok ν) :
    ∃ ν', runTermsB (e.stretch u) (dt.stretch u) (tt.stretch u) es' μ = .ok ν' ∧ Powers u clsB pow1 e.ks.length ν ν' := by
  obtain ⟨pl, sg, s0, row, h1, h2, h3, h4, hν, _⟩ := runB_assigns hμ hes h
  obtain ⟨s0', k1, k2, k3, k4⟩ := head_stretch hu (workB_stretch hu ht dt tt).1 (workB_stretch hu ht dt tt).2 h1 h2 h3 h4
  have hroom : Room12 paramsB e.ks.length μ := room12 hμ.1 (by decide) (by decide)
  have hrun := runHead_of (e := e.stretch u) (params := paramsB) (lay := layFlat 9 paramsB "B") (workB_det _ _ _)
    (layFlat_inj _ _ _ _) k1 k2 k3 k4 (es := es') (by rwa [ks_stretch]) μ
  rw [ks_stretch] at hrun
  have cells := fun {i : ℕ} (hi : i < e.ks.length) => cells_stretch (d := fun _ : Fin 9 => u ^ 3) u (lay := layFlat 9 paramsB "B")
    (layFlat_inj _ _ _ _) (layFlat_in hμ.2) hroom (by decide) (fun i j => (by decide : pos paramsB "B" ≠ pos paramsB "pk_lin"))
    (fun i j => (by decide : pos paramsB "B" ≠ pos paramsB "sigmad2")) hν rfl hi
  refine ⟨_, hrun (fits_mapRun (layFlat_inj _ _ _ _) (layFlat_in hμ.2) hroom), fun f hf hk i hi => ?_⟩
  simp only [clsB, List.mem_cons, List.not_mem_nil, or_false] at hf
  rcases hf with rfl | rfl | rfl | rfl
  · exact absurd rfl hk
  · exact (cells (by simpa [PyClass.width, clsB, List.lookup] using hi)).1
  · exact (cells (by simpa [PyClass.width, clsB, List.lookup] using hi)).2.1
  · obtain ⟨ik, hik, j, rfl⟩ := flat_index (m := 9) (by simpa [PyClass.width, clsB, List.lookup] using hi)
    exact (cells hik).2.2 j

/-- C92, `B1Loop`. -/
theorem C92_B_one_loop {e : Env} (ht : ∀ k ∈ e.t.k, 0 < k) {es es' : List Event} {μ ν : Mem} (hμ : RoomFlat 9 e.ks.length μ)
    (hes : Schedule 9 e.ks.length es) (hes' : Schedule 9 e.ks.length es') (h : runTermsB e e.t e.t es μ = .ok ν) :
    ∃ ν', runTermsB (e.inUnit u) (e.t.inUnit u) (e.t.inUnit u) es' μ = .ok ν' ∧ InUnit u clsB e.ks.length ν ν' := by
  obtain ⟨s, hs0, hs⟩ := exists_root hu
  obtain ⟨ν1, h1, p1⟩ := runB_stretch hu ht hμ hes hes' h
  obtain ⟨ν', h2, p2⟩ := C31_B_one_loop (e := e.stretch u) (by rwa [ks_stretch]) (by rwa [ks_stretch]) (es' := es') (by rwa [ks_stretch])
    hs0 h1
  rw [ks_stretch] at p2
  refine ⟨ν', ?_, fun f hf hk i hi => inUnit_of hu hs p1 p2 ?_ f hf hk trivial i hi⟩
  · rw [← inUnit_eq hs] at h2
    exact h2
  intro f hf hk _
  simp only [clsB, List.mem_cons, List.not_mem_nil, or_false] at hf
  rcases hf with rfl | rfl | rfl | rfl
  · exact absurd rfl hk
  all_goals exact ⟨_, rfl, by decide⟩

/-! ## Two loops -/

/-- A cubature routine that reads its integrand at points of `S` only, and multiplies its result by `c` when these values are multiplied
by `c > 0`. -/
def CubaHomOn (S : Set (Fin 5 → ℝ)) (cuba : Cuba ℝ) : Prop :=
  ∀ (c : ℝ) (f f' : (Fin 5 → ℝ) → Res ℝ), 0 < c → (∀ x ∈ S, Rel (Times c) (f x) (f' x)) → Rel (Times c) (cuba f) (cuba f')

omit hu in
theorem CubaHomOn.hom {S : Set (Fin 5 → ℝ)} {cuba : Cuba ℝ} (h : CubaHomOn S cuba) : CubaHom cuba :=
  fun c f f' hc hf => h c f f' hc fun x _ => hf x

/-- The tests of `F3` on sums of wavevectors come out the same in both units at the point `xx`, for the mode `k` and the range `r`. -/
def SameTestsAt (u k : ℝ) (r : Precision ℝ) (xx : Fin 5 → ℝ) : Prop :=
  SameTests u (g3Point k (Real.log r.min) (Real.log r.max) xx).pp (g3Point k (Real.log r.min) (Real.log r.max) xx).qq
    (g3Point k (Real.log r.min) (Real.log r.max) xx).kpq

theorem calcGamma3_stretch {S : Set (Fin 5 → ℝ)} {cuba : Cuba ℝ} (hq : CubaHomOn S cuba) (t : Pk ℝ) (i : Interpol) (a b : Field)
    {r : Precision ℝ} (h1 : 0 < r.min) (h2 : 0 < r.max) {k : ℝ} (hS : ∀ x ∈ S, SameTestsAt u k r x) :
    Rel (Times (u ^ 6)) (calcGamma3 cuba t i a b r.min r.max k) (calcGamma3 cuba (t.stretch u) i a b (u * r.min) (u * r.max) (u * k)) := by
  unfold calcGamma3
  refine Rel.bind (hq (u ^ 6) _ _ (by positivity) fun x hx => kernelGamma3_stretch hu t i a b k h1 h2 x (hS x hx)) fun v v' hv => ?_
  show 6 * v' / _ = u ^ 6 * _
  rw [show v' = u ^ 6 * v from hv]
  ring

theorem autoRange_stretch {t : Pk ℝ} (ht : ∀ k ∈ t.k, 0 < k) (c : Cfg ℝ) :
    Rel (fun c1 c2 => 0 < (c1.prec .gamma3_tree_q).min ∧ 0 < (c1.prec .gamma3_tree_q).max ∧ c2 = c1.stretch u)
      (autoRange t c .gamma3_tree_q) (autoRange (t.stretch u) (c.stretch u) .gamma3_tree_q) := by
  unfold autoRange
  refine Rel.bind (glqRange_stretch hu ht (c.prec .gamma3_tree_q)) ?_
  rintro ⟨x, y⟩ _ ⟨hx, hy, rfl⟩
  refine ⟨by simpa using hx, by simpa using hy, ?_⟩
  simp only [Cfg.stretch, Cfg.mk.injEq, and_true]
  funext p
  by_cases hp : p = .gamma3_tree_q
  · subst hp
    simp [PName.isQ, Precision.stretch]
  · simp [Function.update_of_ne hp]

theorem work2_stretch {e : Env} (ht : ∀ k ∈ e.t.k, 0 < k) (a b : Field) :
    Rel (fun s s' => s.g1.Stretched u s'.g1 ∧ s.g12.Stretched u s'.g12 ∧ s.g.Stretched u s'.g ∧ s'.gm = s.gm ∧ s.gd.Stretched u s'.gd ∧
      s.gt.Stretched u s'.gt) (work2 e a b).init (work2 (e.stretch u) a b).init ∧
    ∀ s s' : Tab2, s.g1.Stretched u s'.g1 ∧ s.g12.Stretched u s'.g12 ∧ s.g.Stretched u s'.g ∧ s'.gm = s.gm ∧ s.gd.Stretched u s'.gd ∧
      s.gt.Stretched u s'.gt → ∀ ik,
      Rel (fun r r' => ∀ j, Times ((![u ^ 3, u ^ 6, u ^ 3, u ^ 6, u ^ 3, u ^ 6, u ^ 9] : Fin 7 → ℝ) j) (r.2 j) (r'.2 j))
        ((work2 e a b).body s ik) ((work2 (e.stretch u) a b).body s' ik) := by
  constructor
  · unfold work2
    dsimp only
    refine Rel.bind (Env.tabQ_stretch hu ht _ rfl) fun g1 g1' h1 => ?_
    refine Rel.bind (Env.tabQ_stretch hu ht _ rfl) fun g12 g12' h2 => ?_
    refine Rel.bind (Env.tabQ_stretch hu ht _ rfl) fun g g' h3 => ?_
    refine Rel.bind (e.tabMu_stretch _ rfl) ?_
    rintro gm _ rfl
    refine Rel.bind (Env.tabQ_stretch hu ht _ rfl) fun gd gd' h4 => ?_
    refine Rel.bind (Env.tabQ_stretch hu ht _ rfl) fun gt gt' h5 => ?_
    exact ⟨h1, h2, h3, rfl, h4, h5⟩
  · rintro s ⟨_, _, _, _, _, _⟩ ⟨h1, h2, h3, rfl, h4, h5⟩ ik
    unfold work2
    dsimp only at h1 h2 h3 h4 h5 ⊢
    rw [interpol_stretch]
    refine Rel.bind (rd_times u e.ks ik) ?_
    rintro k _ rfl
    refine Rel.bind (calcGamma1TwoLoop_stretch hu _ _ h1 h2 _) fun r1 r1' k1 => ?_
    refine Rel.bind (calcGamma2Loop_stretch hu _ _ h4 h5 _ _ h3 _ _) fun r r' hr => ?_
    intro j
    fin_cases j
    · exact k1.1
    · exact k1.2.1
    · exact k1.2.2.1
    · exact k1.2.2.2
    · exact hr.2.2 0
    · exact hr.2.2 1
    · exact hr.2.2 2

/-- Powers of the wavenumbers left in the columns of the two-loop spectrum. -/
def pow2 (f : String) : ℕ :=
  if f = "pk_lin" then 0 else if f = "sigmad2" then 1
  else if f ∈ ["gamma1a_2loop", "gamma1b_2loop", "pk_gamma2_tree_1loop", "pk_gamma3_tree"] then 6
  else if f = "pk_gamma2_1loop_1loop" then 9 else 3

theorem run2_stretch {S : Set (Fin 5 → ℝ)} {cuba : Cuba ℝ} (hq : CubaHomOn S cuba) {e : Env} (ht : ∀ k ∈ e.t.k, 0 < k) {a b : Field}
    {es es' : List Event} {μ ν : Mem} {cfg : Cfg ℝ} (hμ : Room 11 e.ks.length μ) (hes : Schedule 7 e.ks.length es)
    (hes' : Schedule 7 e.ks.length es') (h : runTerms2 cuba e a b es μ = .ok (cfg, ν))
    (hS : ∀ k ∈ e.ks, ∀ x ∈ S, SameTestsAt u k (cfg.prec .gamma3_tree_q) x) :
    ∃ ν', runTerms2 cuba (e.stretch u) a b es' μ = .ok (cfg.stretch u, ν') ∧ Powers u cls2 pow2 e.ks.length ν ν' := by
  obtain ⟨pl, sg, s0, row, g3, h1, h2, h3, h4, h5, h6, hν, _⟩ := run2_assigns hμ hes h
  obtain ⟨s0', k1, k2, k3, k4⟩ := head_stretch hu (work2_stretch hu ht a b).1 (work2_stretch hu ht a b).2 h1 h2 h3 h4
  have hroom : Room12 params2 e.ks.length μ := room12 hμ (by decide) (by decide)
  have k5 := autoRange_stretch hu ht e.cfg
  rw [h5] at k5
  obtain ⟨_, k5, hmin, hmax, rfl⟩ := k5.ok
  have hg3 : ∀ ik < (e.stretch u).ks.length,
      gamma3At cuba (e.stretch u) a b ((cfg.stretch u).prec .gamma3_tree_q) ik = .ok (u ^ 6 * g3 ik) := by
    intro ik hik
    rw [ks_stretch] at hik
    have := h6 ik hik
    unfold gamma3At at this ⊢
    have hr := rd_times u e.ks ik
    rw [rd_ok hik] at hr
    obtain ⟨_, hr, rfl⟩ := hr.ok
    rw [show rd (e.stretch u).ks ik = _ from hr, Res.ok_bind]
    rw [rd_ok hik, Res.ok_bind] at this
    have hc := calcGamma3_stretch hu hq e.t (cfg.prec .gamma3_tree_q).interpol a b hmin hmax (hS _ (List.getElem_mem hik))
    rw [this] at hc
    obtain ⟨v, hv, rfl⟩ := hc.ok
    exact hv
  have hrun := run2_of (cuba := cuba) (e := e.stretch u) (cfg := cfg.stretch u) (es := es') (μ := μ) (by rwa [ks_stretch])
    (by rwa [ks_stretch]) k1 k2 k3 k4 k5 hg3
  rw [ks_stretch] at hrun
  refine ⟨_, hrun, fun f hf hk i hi => ?_⟩
  have hi' : i < e.ks.length := by
    have : cls2.width f = 1 := rfl
    rwa [this, mul_one] at hi
  have hoff : ∀ (pl sg : List ℝ) (row : ℕ → Fin 7 → ℝ) (g3 : ℕ → ℝ) (c : Cell), c.1 ≠ pos params2 "pk_gamma3_tree" →
      (overlay (mapRun2 e.ks.length pl sg row g3) μ).at c =
        (overlay (mapRun params2 (layCols params2 names2) e.ks.length pl sg row) μ).at c := by
    intro pl sg row g3 c hc
    rw [overlay_at, overlay_at]
    unfold mapRun2
    rw [rowMap_none fun i _ j e => hc (congrArg Prod.fst e).symm]
    rfl
  have move : ∀ (d : ℝ) (c : Cell), c.1 ≠ pos params2 "pk_gamma3_tree" →
      CellTimes d (overlay (mapRun params2 (layCols params2 names2) e.ks.length pl sg row) μ)
        (overlay (mapRun params2 (layCols params2 names2) e.ks.length pl (sg.map (u * ·)) fun ik j =>
          ![u ^ 3, u ^ 6, u ^ 3, u ^ 6, u ^ 3, u ^ 6, u ^ 9] j * row ik j) μ) c →
      CellTimes d ν (overlay (mapRun2 e.ks.length pl (sg.map (u * ·)) (fun ik j =>
          ![u ^ 3, u ^ 6, u ^ 3, u ^ 6, u ^ 3, u ^ 6, u ^ 9] j * row ik j) fun ik => u ^ 6 * g3 ik) μ) c := by
    intro d c hc h
    unfold CellTimes at h ⊢
    rw [hν, hoff _ _ _ _ _ hc, hoff _ _ _ _ _ hc, h]
  obtain ⟨c1, c2, c3⟩ := cells_stretch (row := row) (pl := pl) (sg := sg) (d := ![u ^ 3, u ^ 6, u ^ 3, u ^ 6, u ^ 3, u ^ 6, u ^ 9]) u
    (lay2_inj _) (lay2_in hμ) hroom (by decide) (fun i j => (by decide : ∀ j, pos params2 (names2 j) ≠ pos params2 "pk_lin") j)
    (fun i j => (by decide : ∀ j, pos params2 (names2 j) ≠ pos params2 "sigmad2") j) rfl rfl hi'
  simp only [cls2, List.mem_cons, List.not_mem_nil, or_false] at hf
  rcases hf with rfl | rfl | rfl | rfl | rfl | rfl | rfl | rfl | rfl | rfl | rfl
  · exact absurd rfl hk
  · exact move _ (pos params2 "pk_lin", i) (show pos params2 "pk_lin" ≠ _ by decide) c1
  · exact move _ (pos params2 "sigmad2", i) (show pos params2 "sigmad2" ≠ _ by decide) c2
  · exact move _ (layCols params2 names2 i 0) (show pos params2 (names2 0) ≠ _ by decide) (c3 0)
  · exact move _ (layCols params2 names2 i 1) (show pos params2 (names2 1) ≠ _ by decide) (c3 1)
  · exact move _ (layCols params2 names2 i 2) (show pos params2 (names2 2) ≠ _ by decide) (c3 2)
  · exact move _ (layCols params2 names2 i 3) (show pos params2 (names2 3) ≠ _ by decide) (c3 3)
  · exact move _ (layCols params2 names2 i 4) (show pos params2 (names2 4) ≠ _ by decide) (c3 4)
  · exact move _ (layCols params2 names2 i 5) (show pos params2 (names2 5) ≠ _ by decide) (c3 5)
  · exact move _ (layCols params2 names2 i 6) (show pos params2 (names2 6) ≠ _ by decide) (c3 6)
  · have key : ∀ (pl sg : List ℝ) (row : ℕ → Fin 7 → ℝ) (g3 : ℕ → ℝ), (overlay (mapRun2 e.ks.length pl sg row g3) μ).at
        (layOne (pos params2 "pk_gamma3_tree") i 0) = some (some (g3 i)) := by
      intro pl sg row g3
      refine overlay_some (fits_mapRun2 hμ) ?_
      unfold mapRun2
      rw [rowMap_lay (layOne_inj _ _) _ hi']
      rfl
    exact .of (c := layOne (pos params2 "pk_gamma3_tree") i 0) (hν ▸ key _ _ _ _) (key _ _ _ _) rfl

/-- C92, `Spectrum2Loop`, for every homogeneous cubature routine, when the tests of `F3` on sums of wavevectors come out the same in both
units at the points where the routine reads the integrand.  Missing: points where they do not, see `C92_F3_violation`. -/
theorem C92_two_loop_partial {S : Set (Fin 5 → ℝ)} {cuba : Cuba ℝ} (hq : CubaHomOn S cuba) {e : Env} (ht : ∀ k ∈ e.t.k, 0 < k)
    {a b : Field} {es es' : List Event} {μ ν : Mem} {cfg : Cfg ℝ} (hμ : Room 11 e.ks.length μ) (hes : Schedule 7 e.ks.length es)
    (hes' : Schedule 7 e.ks.length es') (h : runTerms2 cuba e a b es μ = .ok (cfg, ν))
    (hS : ∀ k ∈ e.ks, ∀ x ∈ S, SameTestsAt u k (cfg.prec .gamma3_tree_q) x) :
    ∃ ν', runTerms2 cuba (e.inUnit u) a b es' μ = .ok (cfg.stretch u, ν') ∧ InUnit u cls2 e.ks.length ν ν' := by
  obtain ⟨s, hs0, hs⟩ := exists_root hu
  obtain ⟨ν1, h1, p1⟩ := run2_stretch hu hq ht hμ hes hes' h hS
  obtain ⟨ν', h2, p2⟩ := C31_two_loop hq.hom (e := e.stretch u) (by rwa [ks_stretch]) (by rwa [ks_stretch]) (es' := es')
    (by rwa [ks_stretch]) hs0 h1
  rw [ks_stretch] at p2
  refine ⟨ν', by rwa [inUnit_eq hs], fun f hf hk i hi => inUnit_of hu hs p1 p2 ?_ f hf hk trivial i hi⟩
  intro f hf hk _
  simp only [cls2, List.mem_cons, List.not_mem_nil, or_false] at hf
  rcases hf with rfl | rfl | rfl | rfl | rfl | rfl | rfl | rfl | rfl | rfl | rfl
  · exact absurd rfl hk
  all_goals exact ⟨_, rfl, by decide⟩

/-! ## Bispectrum -/

omit hu in
theorem times_trans {c d : ℝ} {r1 r2 r3 : Res ℝ} (h1 : Rel (Times c) r1 r2) (h2 : Rel (Times d) r2 r3) : Rel (Times (d * c)) r1 r3 := by
  cases r1 <;> cases r2 <;> cases r3 <;> simp_all [Res.Rel, Times, mul_assoc]

omit hu in
/-- The quadrature table in a unit of length `u` times as long. -/
def GLQ.InUnit (u : ℝ) (g g' : GLQ ℝ) : Prop := ∃ g1, g.Stretched u g1 ∧ g' = g1.scale ((u⁻¹) ^ 3)

theorem inv_mul_pow (n : ℕ) : (u⁻¹) ^ n * u ^ n = 1 := by rw [← mul_pow, inv_mul_cancel₀ hu.ne', one_pow]

theorem look_inUnit (t : Pk ℝ) (i : Interpol) (k : ℝ) : Rel (Times ((u⁻¹) ^ 3)) (look t i k) (look (t.inUnit u) i (u * k)) := by
  have h1 : Rel (Times 1) (look t i k) (look (t.stretch u) i (u * k)) :=
    (look_stretch hu t i k).mono fun b c h => by rw [Times, one_mul, h]
  have := times_trans h1 (look_scale (c := (u⁻¹) ^ 3) (by positivity) (t.stretch u) i (u * k))
  rwa [mul_one] at this

theorem sigma1_inUnit (t : Pk ℝ) (uv k : ℝ) : Rel (Times ((u⁻¹) ^ 2)) (sigma1 t uv k) (sigma1 (t.inUnit u) uv (u * k)) := by
  have h1 : Rel (Times u) (sigma1 t uv k) (sigma1 (t.stretch u) uv (u * k)) := by
    unfold sigma1
    refine Rel.bind (runningSigmad2_stretch hu t [k] uv) ?_
    rintro l _ rfl
    exact rd_times u l 0
  have h2 : Rel (Times ((u⁻¹) ^ 3)) (sigma1 (t.stretch u) uv (u * k)) (sigma1 (t.inUnit u) uv (u * k)) := by
    unfold sigma1
    refine Rel.bind (runningSigmad2_scale ((u⁻¹) ^ 3) (t.stretch u) [u * k] uv) ?_
    rintro l _ rfl
    exact rd_times _ l 0
  have := times_trans h1 h2
  rwa [pow_succ, mul_assoc, inv_mul_cancel₀ hu.ne', mul_one] at this

theorem gamma1OneLoop_inUnit (a : Field) {g g' : GLQ ℝ} (h : g.InUnit u g') (k : ℝ) :
    Rel (Times 1) (gamma1OneLoop a g k) (gamma1OneLoop a g' (u * k)) := by
  obtain ⟨g1, h1, rfl⟩ := h
  have := times_trans (gamma1OneLoop_stretch hu a h1 k) (gamma1OneLoop_scale ((u⁻¹) ^ 3) a g1 (u * k))
  rwa [inv_mul_pow hu] at this

theorem gamma2OneLoop_inUnit (a : Field) {g g' : GLQ ℝ} (h : g.InUnit u g') (k1 k2 k3 : ℝ) :
    Rel (Times 1) (gamma2OneLoop a g k1 k2 k3) (gamma2OneLoop a g' (u * k1) (u * k2) (u * k3)) := by
  obtain ⟨g1, h1, rfl⟩ := h
  have := times_trans (gamma2OneLoop_stretch hu a h1 k1 k2 k3) (gamma2OneLoop_scale ((u⁻¹) ^ 3) a g1 (u * k1) (u * k2) (u * k3))
  rwa [inv_mul_pow hu] at this

theorem ksq_inUnit (k s : ℝ) : u * k * (u * k) * ((u⁻¹) ^ 2 * s) = k * k * s := by
  rw [show u * k * (u * k) * ((u⁻¹) ^ 2 * s) = (u⁻¹ * u) ^ 2 * (k * k * s) by ring, inv_mul_cancel₀ hu.ne']; ring

theorem g1RegIf_inUnit {c c' : Prop} (hc : c ↔ c') {g g' : GLQ ℝ} (h : g.InUnit u g') (k s : ℝ) :
    Rel (fun r r' => r = r') (g1RegIf c g k s) (g1RegIf c' g' (u * k) ((u⁻¹) ^ 2 * s)) := by
  unfold g1RegIf
  by_cases h0 : c
  · rw [if_pos h0, if_pos (hc.mp h0)]
    unfold g1RegOne
    refine Rel.bind (gamma1OneLoop_inUnit hu _ h _) fun d d' hd => ?_
    refine Rel.bind (gamma1OneLoop_inUnit hu _ h _) fun t t' ht => ?_
    rw [show d' = 1 * d from hd, show t' = 1 * t from ht, ksq_inUnit hu, one_mul, one_mul]
    rfl
  · rw [if_neg h0, if_neg (mt hc.mpr h0)]
    rfl

theorem g2RegOne_inUnit (a : Field) {g g' : GLQ ℝ} (h : g.InUnit u g') (k1 k2 k3 s : ℝ) :
    Rel (fun r r' => r = r') (g2RegOne a g k1 k2 k3 s) (g2RegOne a g' (u * k1) (u * k2) (u * k3) ((u⁻¹) ^ 2 * s)) := by
  unfold g2RegOne
  refine Rel.bind (gamma2OneLoop_inUnit hu a h _ _ _) fun l l' hl => ?_
  rw [show l' = 1 * l from hl, ksq_inUnit hu, one_mul, gamma2Tree_unit hu]
  rfl

/-- The tests of `gamma1_reg_1loop` and `gamma2_reg_1loop` on the three wavenumbers (`src/bispectrum_1loop.c:16,24,32,45`) come out the
same in both units. -/
def SameThresholds (u k p kp : ℝ) : Prop :=
  (1 / 100 ≤ k ↔ 1 / 100 ≤ u * k) ∧ (1 / 100 ≤ p ↔ 1 / 100 ≤ u * p) ∧ (3 / 100 ≤ kp ↔ 3 / 100 ≤ u * kp) ∧
    (1 / 100 ≤ rMax3 kp k p ↔ 1 / 100 ≤ rMax3 (u * kp) (u * k) (u * p))

/-- C92, bispectrum: the eight values, divided by `u⁶` like a product of two spectra, when the thresholds of the propagators come out the
same in both units.  Missing: wavenumbers for which they do not, see `C92_bispectrum_violation`. -/
theorem C92_bispectrum_partial (t : Pk ℝ) (i : Interpol) (uv : ℝ) {g1 g1' gd gd' gt gt' : GLQ ℝ} (h1 : g1.InUnit u g1')
    (hd : gd.InUnit u gd') (ht : gt.InUnit u gt') (k p kp : ℝ) (hs : SameThresholds u k p kp) :
    Rel (fun B B' => ∀ j, B'.a j = (u⁻¹) ^ 6 * B.a j ∧ B'.t j = (u⁻¹) ^ 6 * B.t j) (bispectrumI t i uv g1 gd gt k p kp)
      (bispectrumI (t.inUnit u) i uv g1' gd' gt' (u * k) (u * p) (u * kp)) := by
  unfold bispectrumI
  refine Rel.bind (sigma1_inUnit hu t uv k) ?_
  rintro sk _ rfl
  refine Rel.bind (sigma1_inUnit hu t uv p) ?_
  rintro sp _ rfl
  refine Rel.bind (sigma1_inUnit hu t uv kp) ?_
  rintro skp _ rfl
  dsimp only
  rw [ksq_inUnit hu, ksq_inUnit hu, ksq_inUnit hu]
  refine Rel.bind (look_inUnit hu t i k) ?_
  rintro pk _ rfl
  refine Rel.bind (look_inUnit hu t i p) ?_
  rintro pp _ rfl
  refine Rel.bind (look_inUnit hu t i kp) ?_
  rintro pkp _ rfl
  obtain ⟨s1, s2, s3, s4⟩ := hs
  refine Rel.bind (Q := fun r r' => r = r') ?_ ?_
  · unfold gamma1Reg
    refine Rel.bind (g1RegIf_inUnit hu s1 h1 _ _) ?_
    rintro rk _ rfl
    refine Rel.bind (g1RegIf_inUnit hu (and_congr s2 s1) h1 _ _) ?_
    rintro rp _ rfl
    refine Rel.bind (g1RegIf_inUnit hu (and_congr s3 s1) h1 _ _) ?_
    rintro rkp _ rfl
    rfl
  rintro r1 _ rfl
  refine Rel.bind (Q := fun r r' => r = r') ?_ ?_
  · unfold gamma2Reg
    by_cases hc : 1 / 100 ≤ rMax3 kp k p ∧ 1 / 100 ≤ k
    · rw [if_pos hc, if_pos ((and_congr s4 s1).mp hc)]
      refine Rel.bind (g2RegOne_inUnit hu _ hd _ _ _ _) ?_
      rintro _ _ rfl
      refine Rel.bind (g2RegOne_inUnit hu _ ht _ _ _ _) ?_
      rintro _ _ rfl
      refine Rel.bind (g2RegOne_inUnit hu _ hd _ _ _ _) ?_
      rintro _ _ rfl
      refine Rel.bind (g2RegOne_inUnit hu _ ht _ _ _ _) ?_
      rintro _ _ rfl
      refine Rel.bind (g2RegOne_inUnit hu _ hd _ _ _ _) ?_
      rintro _ _ rfl
      refine Rel.bind (g2RegOne_inUnit hu _ ht _ _ _ _) ?_
      rintro _ _ rfl
      rfl
    · rw [if_neg hc, if_neg (mt (and_congr s4 s1).mpr hc)]
      simp only [gamma2Tree_unit hu]
      rfl
  rintro r2 _ rfl
  intro j
  fin_cases j <;> constructor <;> simp only [biAssemble] <;> dsimp <;> ring

end

/-! ## Violations -/

/-- C92, violation: `F3` takes a sum of wavevectors for zero when its components are below `EPS = 3e-14` in whatever unit they are given:
three equal wavevectors have one value in one unit and another in a unit of length `10⁻¹⁴` times as long. -/
theorem C92_F3_violation : ∃ (u : ℝ) (p : Vec), 0 < u ∧ F3Sym .delta p p p ≠ F3Sym .delta (p.stretch u) (p.stretch u) (p.stretch u) := by
  refine ⟨1 / 10 ^ 14, ⟨0, 0, 1⟩, by norm_num, ?_⟩
  have h1 : F3 .delta ⟨0, 0, 1⟩ ⟨0, 0, 1⟩ ⟨0, 0, 1⟩ ≠ 0 := by
    unfold F3
    dsimp only
    rw [if_neg]
    · norm_num [Vec.dot, F2Fast, sigmaab, Vec.add_x, Vec.add_y, Vec.add_z]
    · norm_num [tiny, eps, Vec.add_x, Vec.add_y, Vec.add_z]
  have h2 : F3 .delta (Vec.stretch (1 / 10 ^ 14) ⟨0, 0, 1⟩) (Vec.stretch (1 / 10 ^ 14) ⟨0, 0, 1⟩) (Vec.stretch (1 / 10 ^ 14) ⟨0, 0, 1⟩) = 0 := by
    unfold F3
    dsimp only
    rw [if_pos]
    left
    norm_num [tiny, eps, Vec.add_x, Vec.add_y, Vec.add_z, Vec.stretch, abs_of_pos]
  unfold F3Sym
  rw [h2]
  intro h
  apply h1
  linarith

/-- C92, violation: the propagators of the bispectrum are set to one below `0.01` and `0.03` in whatever unit the wavenumbers are given:
with the same displacement in both units, `gamma1_reg_1loop` returns the propagator in the first unit and one in the second. -/
theorem C92_bispectrum_violation : ∃ (u k s : ℝ) (g g' : GLQ ℝ) (r r' : G1Reg), 0 < u ∧ g.InUnit u g' ∧ gamma1Reg g k k k s s s = .ok r ∧
    gamma1Reg g' (u * k) (u * k) (u * k) ((u⁻¹) ^ 2 * s) ((u⁻¹) ^ 2 * s) ((u⁻¹) ^ 2 * s) = .ok r' ∧ r.dk ≠ r'.dk := by
  refine ⟨1 / 100, 1 / 5, 25, ⟨0, 1, [], [], [], []⟩, ⟨0, 1, [], [], [], []⟩, ⟨3 / 2, 3 / 2, 3 / 2, 3 / 2, 3 / 2, 3 / 2⟩, ⟨1, 1, 1, 1, 1, 1⟩,
    by norm_num, ⟨_, ⟨rfl, rfl, rfl, rfl⟩, rfl⟩, ?_, ?_, by norm_num⟩
  · have e : ∀ a : Field, gamma1OneLoop a (⟨0, 1, [], [], [], []⟩ : GLQ ℝ) (1 / 5) = .ok 0 := by
      intro a
      unfold gamma1OneLoop gamma1Loop1
      simp [updateGLQ, sumLoop, forRange, iter]
    have c1 : (1 : ℝ) / 100 ≤ 1 / 5 := by norm_num
    have c2 : (3 : ℝ) / 100 ≤ 1 / 5 := by norm_num
    simp only [gamma1Reg, g1RegIf, g1RegOne, e, c1, c2, and_self, if_true, Res.ok_bind]
    norm_num
  · simp only [gamma1Reg, g1RegIf]
    norm_num

/-! ## Non-vacuity -/

theorem exTable_pos : ∀ k ∈ exTable.k, 0 < k := exTable_physical.kpos

example (rt : ℕ → ℕ → ℝ × ℝ) : ∃ ν ν', runTerms1 (exEnv rt exKs) .delta .theta (blocks 3 0 0 [2, 0, 3]) exMem = .ok ν ∧
    runTerms1 ((exEnv rt exKs).inUnit (3 / 2)) .delta .theta (blocks 3 0 0 [5]) exMem = .ok ν' ∧ InUnit (3 / 2) cls1 5 ν ν' := by
  obtain ⟨ν, h⟩ := C59_one_loop (exEnv_ok rt exKs) .delta .theta (exSchedule 3) (exRoom 6)
  obtain ⟨ν', h', hr⟩ := C92_one_loop (u := 3 / 2) (by norm_num) (e := exEnv rt exKs) exTable_pos (exRoom 6) (exSchedule 3) (exSchedule' 3) h
  exact ⟨ν, ν', h, h', hr⟩

example (rt : ℕ → ℕ → ℝ × ℝ) : ∃ ν ν', runTermsBias (exEnv rt exKs) (blocks 8 0 0 [2, 0, 3]) exMem = .ok ν ∧
    runTermsBias ((exEnv rt exKs).inUnit (3 / 2)) (blocks 8 0 0 [5]) exMem = .ok ν' ∧ InUnit (3 / 2) clsBias 5 ν ν' := by
  obtain ⟨ν, h⟩ := C59_bias (exEnv_ok rt exKs) (exSchedule 8) (exRoom 11)
  obtain ⟨ν', h', hr⟩ := C92_bias (u := 3 / 2) (by norm_num) (e := exEnv rt exKs) exTable_pos (exRoom 11) (exSchedule 8) (exSchedule' 8) h
  exact ⟨ν, ν', h, h', hr⟩

example (rt : ℕ → ℕ → ℝ × ℝ) : ∃ ν ν', runTermsA1 (exEnv rt exKs) (blocks 5 0 0 [2, 0, 3]) exMem = .ok ν ∧
    runTermsA1 ((exEnv rt exKs).inUnit (3 / 2)) (blocks 5 0 0 [5]) exMem = .ok ν' ∧ InUnit (3 / 2) clsA 5 ν ν' := by
  obtain ⟨ν, h⟩ := C59_A_one_loop (exEnv_ok rt exKs) (exSchedule 5) (exRoomFlat 5 (by norm_num))
  obtain ⟨ν', h', hr⟩ := C92_A_one_loop (u := 3 / 2) (by norm_num) (e := exEnv rt exKs) exTable_pos (exRoomFlat 5 (by norm_num))
    (exSchedule 5) (exSchedule' 5) h
  exact ⟨ν, ν', h, h', hr⟩

example (rt : ℕ → ℕ → ℝ × ℝ) : ∃ ν ν', runTermsB (exEnv rt exKs) exTable exTable (blocks 9 0 0 [2, 0, 3]) exMem = .ok ν ∧
    runTermsB ((exEnv rt exKs).inUnit (3 / 2)) (exTable.inUnit (3 / 2)) (exTable.inUnit (3 / 2)) (blocks 9 0 0 [5]) exMem = .ok ν' ∧
    InUnit (3 / 2) clsB 5 ν ν' := by
  obtain ⟨ν, h⟩ := C59_B (exEnv_ok rt exKs) exTable_physical.toWF (by norm_num [exTable]) exTable_physical.toWF (by norm_num [exTable])
    (exSchedule 9) (exRoomFlat 9 le_rfl)
  obtain ⟨ν', h', hr⟩ := C92_B_one_loop (u := 3 / 2) (by norm_num) (e := exEnv rt exKs) exTable_pos (exRoomFlat 9 le_rfl)
    (exSchedule 9) (exSchedule' 9) h
  exact ⟨ν, ν', h, h', hr⟩

/-- Sums with a component of at least `EPS`, or equal to zero, are tested alike in a longer unit. -/
theorem tiny_stretch_iff {u : ℝ} (hu : 1 ≤ u) {s : Vec} (h : s = ⟨0, 0, 0⟩ ∨ eps ≤ |s.x| ∨ eps ≤ |s.z|) : tiny s ↔ tiny (s.stretch u) := by
  have h0 : (0 : ℝ) < eps := by norm_num [eps]
  rcases h with rfl | h | h
  · simp [tiny, Vec.stretch]
  · have : eps ≤ |u * s.x| := by
      rw [abs_mul, abs_of_nonneg (by linarith)]
      nlinarith [abs_nonneg s.x]
    exact ⟨fun c => absurd c.1 (not_lt.mpr h), fun c => absurd c.1 (not_lt.mpr this)⟩
  · have : eps ≤ |u * s.z| := by
      rw [abs_mul, abs_of_nonneg (by linarith)]
      nlinarith [abs_nonneg s.z]
    exact ⟨fun c => absurd c.2.2 (not_lt.mpr h), fun c => absurd c.2.2 (not_lt.mpr this)⟩

/-- The tests come out the same at the midpoint. -/
theorem exSame {u : ℝ} (hu : 1 ≤ u) {k : ℝ} (hk : 1 / 2 ≤ k) (r : Precision ℝ) : SameTestsAt u k r (fun _ => 1 / 2) := by
  have he : eps ≤ (1 / 2 : ℝ) := by norm_num [eps]
  have hk' : eps ≤ |k| := le_trans he (hk.trans (le_abs_self k))
  have a1 : Real.sin (1 / 2 * Real.pi) = 1 := by rw [one_div_mul_eq_div, Real.sin_pi_div_two]
  have a2 : Real.cos (1 / 2 * Real.pi) = 0 := by rw [one_div_mul_eq_div, Real.cos_pi_div_two]
  have a3 : Real.cos (1 / 2 * 2 * Real.pi) = -1 := by norm_num
  have a4 : Real.sin (1 / 2 * 2 * Real.pi) = 0 := by norm_num
  unfold SameTestsAt SameTests
  intro s hs
  refine tiny_stretch_iff hu ?_
  simp only [g3Point, a1, a2, a3, a4] at hs
  simp only [List.mem_cons, List.not_mem_nil, or_false] at hs
  rcases hs with rfl | rfl | rfl | rfl | rfl | rfl
  · right; right; simpa [Vec.add_z] using hk'
  · right; right; simpa [Vec.add_z] using hk'
  · left
    show Vec.mk _ _ _ = _
    simp
  · right; right; simpa [Vec.add_z] using hk'
  · right; right; simpa [Vec.add_z] using hk'
  · right; right; simpa [Vec.add_z] using hk'

example (rt : ℕ → ℕ → ℝ × ℝ) : ∃ r ν', runTerms2 exCuba (exEnv rt exKs) .delta .theta (blocks 7 0 0 [2, 0, 3]) exMem = .ok r ∧
    runTerms2 exCuba ((exEnv rt exKs).inUnit (3 / 2)) .delta .theta (blocks 7 0 0 [5]) exMem = .ok (r.1.stretch (3 / 2), ν') ∧
    InUnit (3 / 2) cls2 5 r.2 ν' := by
  obtain ⟨⟨c, ν⟩, h⟩ := C59_two_loop (exEnv_ok rt exKs) exCuba_safe .delta .theta (exSchedule 7) (exRoom 11)
  obtain ⟨ν', h', hr⟩ := C92_two_loop_partial (u := 3 / 2) (by norm_num) (S := {fun _ => 1 / 2}) (cuba := exCuba)
    (fun c f f' _ hf => hf _ rfl) (e := exEnv rt exKs) exTable_pos (exRoom 11) (exSchedule 7) (exSchedule' 7) h (by
      rintro k hk x rfl
      refine exSame (by norm_num) ?_ _
      have : k ∈ exKs := hk
      simp only [exKs, List.mem_cons, List.not_mem_nil, or_false] at this
      rcases this with rfl | rfl | rfl | rfl | rfl <;> norm_num)
  exact ⟨_, ν', h, h', hr⟩

/-- The thresholds come out the same for the wavenumbers of a triangle above them. -/
example : SameThresholds (3 / 2) (1 / 5) (1 / 4) (1 / 3) := by
  unfold SameThresholds rMax3 rMax
  norm_num

example : (⟨2, 1, [1, 2], [1, 2], [1, 1], [1, 4]⟩ : GLQ ℝ).InUnit 2 ⟨2, 2, [1, 2], [2, 4], [1, 1], [1 / 8, 1 / 2]⟩ := by
  refine ⟨⟨2, 2, [1, 2], [2, 4], [1, 1], [1, 4]⟩, ⟨rfl, ?_, rfl, rfl⟩, ?_⟩
  · norm_num
  · norm_num [GLQ.scale]

end Verif
