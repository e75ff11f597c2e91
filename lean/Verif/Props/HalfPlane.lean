import Verif.Props.Redshift
import Verif.Props.Columns
import Verif.Props.Gamma2
import Verif.Props.FindPk
import Verif.Props.Safety
import Verif.Proofs.Rule

/-!
# C26 for the runs: what is integrated over the half plane and doubled

Each column filled by a double loop is written as a sum over the points of the rule of (volume element) times (density).  The
density is a function of the wavevector (`x`, `mu`) and of what is known about the spectra at `q` and at `k-q`.
-/

namespace Verif

/-- A density that is unchanged when `q` and `k-q` are exchanged together with the data attached to them. -/
def ExchangeSymm {α : Type} (D : α → α → ℝ → ℝ → ℝ) : Prop :=
  ∀ p r x mu y nu, Exchanged x mu y nu → D p r x mu = D r p y nu

/-- `v` is the integral of the density `D` by the double rule: over the half plane and doubled, or over the whole plane.  `P` and `R` are
the data attached to `q` and `k-q` at the points of the rule. -/
def PlaneSum {α : Type} (half : Bool) (g : GLQ ℝ) (gm : GLMu ℝ) (k : ℝ) (D : α → α → ℝ → ℝ → ℝ) (P R : ℕ → ℕ → α) (v : ℝ) : Prop :=
  v = k ^ 3 / (4 * Real.pi ^ 2) * ∑ iq ∈ Finset.range g.nq, ∑ imu ∈ Finset.range gm.nmu,
    (if half then 2 else 1) * quadWeight half (updateGLQ g k) gm (fun x w => x ^ 3 * w) iq imu *
      D (P iq imu) (R iq imu) ((updateGLQ g k).x.getD iq 0) (quadMu half (updateGLQ g k) gm iq imu)

/-- Length of `k-q` at a point of the rule. -/
noncomputable def kqOf (half : Bool) (g : GLQ ℝ) (gm : GLMu ℝ) (k : ℝ) (iq imu : ℕ) : ℝ :=
  k * Real.sqrt (1 + (updateGLQ g k).x.getD iq 0 * (updateGLQ g k).x.getD iq 0 -
    2 * quadMu half (updateGLQ g k) gm iq imu * (updateGLQ g k).x.getD iq 0)

/-- The points of the rule that are used. -/
def UsedPoint (half : Bool) (g : GLQ ℝ) (gm : GLMu ℝ) (k : ℝ) (iq imu : ℕ) : Prop :=
  iq < g.nq ∧ imu < gm.nmu ∧ quadRange half (updateGLQ g k) iq ≠ none

/-- A weighted sum over the points of the rule as a plane integral. -/
theorem planeSum_of {α : Type} {half : Bool} {g : GLQ ℝ} {gm : GLMu ℝ} {k f v : ℝ} {wt : ℝ → ℝ → ℝ} {K : ℕ → ℕ → ℝ}
    {D : α → α → ℝ → ℝ → ℝ} {P R : ℕ → ℕ → α}
    (hv : v = f * ∑ iq ∈ Finset.range g.nq, ∑ imu ∈ Finset.range gm.nmu, quadWeight half (updateGLQ g k) gm wt iq imu * K iq imu)
    (h : ∀ iq imu, UsedPoint half g gm k iq imu → ∀ w, f * (wt ((updateGLQ g k).x.getD iq 0) w * K iq imu) =
      k ^ 3 / (4 * Real.pi ^ 2) * ((if half then 2 else 1) * ((updateGLQ g k).x.getD iq 0 ^ 3 * w) *
        D (P iq imu) (R iq imu) ((updateGLQ g k).x.getD iq 0) (quadMu half (updateGLQ g k) gm iq imu))) :
    PlaneSum half g gm k D P R v := by
  unfold PlaneSum
  rw [hv, Finset.mul_sum, Finset.mul_sum]
  refine Finset.sum_congr rfl fun iq hiq => ?_
  rw [Finset.mul_sum, Finset.mul_sum]
  refine Finset.sum_congr rfl fun imu himu => ?_
  rcases hn : quadRange half (updateGLQ g k) iq with _ | ⟨lo, hi⟩
  · simp [quadWeight, hn]
  · have := h iq imu ⟨Finset.mem_range.mp hiq, Finset.mem_range.mp himu, by simp [hn]⟩ ((updateGLQ g k).w.getD iq 0)
    simp only [quadWeight, hn]
    linear_combination ((updateGLMu gm lo hi).w.getD imu 0) * this

/-- `y = |k-q|/k` at an exchanged pair. -/
theorem Exchanged.sqrt {x mu y nu : ℝ} (h : Exchanged x mu y nu) : Real.sqrt (1 + x * x - 2 * mu * x) = y := by
  rw [show 1 + x * x - 2 * mu * x = y ^ 2 by rw [h.len]; ring, Real.sqrt_sq h.y_pos.le]

/-! ## Second order -/

/-- Density of the tree term. -/
noncomputable def densTree (a b : Field) (k : ℝ) : ℝ → ℝ → ℝ → ℝ → ℝ := fun p r x mu =>
  2 * p * r * gamma2Tree a (k * Real.sqrt (1 + x * x - 2 * mu * x)) (k * x) k *
    gamma2Tree b (k * Real.sqrt (1 + x * x - 2 * mu * x)) (k * x) k

theorem densTree_symm (a b : Field) (k : ℝ) : ExchangeSymm (densTree a b k) := by
  intro p r x mu y nu h
  unfold densTree
  rw [h.sqrt, h.symm.sqrt, C26_gamma2_tree a (k * y), C26_gamma2_tree b (k * y)]
  ring

/-- `q` and `k x` are the same number. -/
theorem node_eq {g : GLQ ℝ} {k : ℝ} (hk : k ≠ 0) {iq : ℕ} (h : iq < g.q.length) :
    (updateGLQ g k).q.getD iq 0 = k * (updateGLQ g k).x.getD iq 0 := by
  simp only [updateGLQ, List.getD_eq_getElem?_getD, List.getElem?_map, List.getElem?_eq_getElem h, Option.map_some, Option.getD_some]
  field_simp

/-- The tree term is a half-plane integral of a symmetric density; `P` is the tabulated spectrum, `R` the lookup. -/
theorem tree_plane {t : Pk ℝ} {i : Interpol} {a b : Field} {g : GLQ ℝ} {gm : GLMu ℝ} {k : ℝ} (hk : k ≠ 0)
    {s : GLQ ℝ × GLMu ℝ} {v : ℝ} (h : calcGamma2Tree t i a b g gm k = .ok (s, v)) :
    ∃ R, (∀ iq imu, UsedPoint true g gm k iq imu → look t i (kqOf true g gm k iq imu) = .ok (R iq imu)) ∧
      PlaneSum true g gm k (densTree a b k) (fun iq _ => g.pk.getD iq 0) R v := by
  unfold calcGamma2Tree at h
  simp only [Res.bind_eq_ok] at h
  obtain ⟨r, h, e⟩ := h
  cases e
  obtain ⟨hd, hs⟩ := quadLoop_sum h
  have key : ∀ iq imu, UsedPoint true g gm k iq imu → ∃ R, look t i (kqOf true g gm k iq imu) = .ok R ∧
      (kernelGamma2Tree t i a b (updateGLQ g k) iq (quadMu true (updateGLQ g k) gm iq imu)).val () =
        densTree a b k (g.pk.getD iq 0) R ((updateGLQ g k).x.getD iq 0) (quadMu true (updateGLQ g k) gm iq imu) := by
    rintro iq imu ⟨h1, h2, h3⟩
    have := hd iq h1 h3 imu h2
    generalize hv : (kernelGamma2Tree t i a b (updateGLQ g k) iq (quadMu true (updateGLQ g k) gm iq imu)).val = f at this ⊢
    simp only [kernelGamma2Tree, Res.bind_eq_ok] at this
    obtain ⟨x, hx, q, hq, p, hp, R, hR, e⟩ := this
    obtain ⟨rfl, -⟩ := rd_eq_ok hx
    obtain ⟨rfl, hl⟩ := rd_eq_ok hq
    obtain ⟨rfl, -⟩ := rd_eq_ok hp
    cases e
    refine ⟨R, hR, ?_⟩
    rw [node_eq (g := g) hk hl]
    unfold densTree
    by_cases hab : a = b
    · subst hab; simp only [if_true]; rfl
    · simp only [if_neg hab]; rfl
  choose! R hR hv using key
  refine ⟨R, hR, ?_⟩
  refine planeSum_of (f := k * k * k / (2 * Real.pi * Real.pi)) (by rw [hs]; exact mul_comm _ _) fun iq imu hu w => ?_
  rw [hv iq imu hu]
  simp only [if_true]
  have := Real.pi_ne_zero
  field_simp
  ring

/-- C26, `Spectrum1Loop`: the second-order term is twice the half-plane integral of a symmetric density. -/
theorem C26_run_one_loop {e : Env} {a b : Field} {es : List Event} {μ ν : Mem} (hμ : Room 6 e.ks.length μ)
    (hes : Schedule 3 e.ks.length es) (h : runTerms1 e a b es μ = .ok ν) {ik : ℕ} (hik : ik < e.ks.length) (hk : e.ks[ik] ≠ 0) :
    ∃ g gm R v, e.tabQ .gamma2_tree_q = .ok g ∧ e.tabMu .gamma2_tree_mu = .ok gm ∧
      ν.at (cellOf cls1 "pk_gamma2_tree_tree" ik) = some (some v) ∧ ExchangeSymm (densTree a b e.ks[ik]) ∧
      (∀ iq imu, UsedPoint true g gm e.ks[ik] iq imu →
        look e.t (e.cfg.prec .gamma2_tree_mu).interpol (kqOf true g gm e.ks[ik] iq imu) = .ok (R iq imu)) ∧
      PlaneSum true g gm e.ks[ik] (densTree a b e.ks[ik]) (fun iq _ => g.pk.getD iq 0) R v := by
  obtain ⟨_, _, _, g, gm, _, _, _, v, _, _, _, hg, hgm, _, _, hv, _, _, _, _, hc, _⟩ := C45_one_loop hμ hes h hik
  obtain ⟨R, hR, hp⟩ := tree_plane hk hv
  exact ⟨g, gm, R, v, hg, hgm, hc, densTree_symm a b _, hR, hp⟩

/-! ## Bias -/

/-- Density of a bias term. -/
noncomputable def densBias (kn : BiasKernel) (a : Field) (k : ℝ) : ℝ → ℝ → ℝ → ℝ → ℝ := fun p r x mu =>
  kn a (k * x) (k * Real.sqrt (1 + x * x - 2 * mu * x)) mu
    ((k * k - k * Real.sqrt (1 + x * x - 2 * mu * x) * (k * Real.sqrt (1 + x * x - 2 * mu * x)) - k * x * (k * x)) / 2 / (k * x) /
      (k * Real.sqrt (1 + x * x - 2 * mu * x))) p r

theorem densBias_symm {kn : BiasKernel} (h : ∀ a q kq mu nu m pq pkq, kn a q kq mu m pq pkq = kn a kq q nu m pkq pq) (a : Field) (k : ℝ) :
    ExchangeSymm (densBias kn a k) := by
  intro p r x mu y nu he
  unfold densBias
  rw [he.sqrt, he.symm.sqrt, h a (k * x) (k * y) mu nu]
  congr 1
  rw [div_right_comm _ (k * x)]
  ring

theorem bias_plane {t : Pk ℝ} {i : Interpol} {a : Field} {kn : BiasKernel} {half : Bool} {g : GLQ ℝ} {gm : GLMu ℝ} {k : ℝ} (hk : k ≠ 0)
    {s : GLQ ℝ × GLMu ℝ} {v : ℝ} (h : calcBias t i a kn half g gm k = .ok (s, v)) :
    ∃ R, (∀ iq imu, UsedPoint half g gm k iq imu → look t i (kqOf half g gm k iq imu) = .ok (R iq imu)) ∧
      PlaneSum half g gm k (densBias kn a k) (fun iq _ => g.pk.getD iq 0) R v := by
  unfold calcBias at h
  simp only [Res.bind_eq_ok] at h
  obtain ⟨r, h, e⟩ := h
  cases e
  obtain ⟨hd, hs⟩ := quadLoop_sum h
  have key : ∀ iq imu, UsedPoint half g gm k iq imu → ∃ R, look t i (kqOf half g gm k iq imu) = .ok R ∧
      (kernelPkBias t i kn a (updateGLQ g k) iq (quadMu half (updateGLQ g k) gm iq imu)).val () =
        densBias kn a k (g.pk.getD iq 0) R ((updateGLQ g k).x.getD iq 0) (quadMu half (updateGLQ g k) gm iq imu) := by
    rintro iq imu ⟨h1, h2, h3⟩
    have := hd iq h1 h3 imu h2
    generalize hv : (kernelPkBias t i kn a (updateGLQ g k) iq (quadMu half (updateGLQ g k) gm iq imu)).val = f at this ⊢
    simp only [kernelPkBias, Res.bind_eq_ok] at this
    obtain ⟨x, hx, q, hq, p, hp, R, hR, e⟩ := this
    obtain ⟨rfl, -⟩ := rd_eq_ok hx
    obtain ⟨rfl, hl⟩ := rd_eq_ok hq
    obtain ⟨rfl, -⟩ := rd_eq_ok hp
    cases e
    refine ⟨R, hR, ?_⟩
    rw [node_eq (g := g) hk hl]
    rfl
  choose! R hR hv using key
  refine ⟨R, hR, ?_⟩
  refine planeSum_of (f := k * k * k / (4 * Real.pi * Real.pi)) (by rw [hs]; rfl) fun iq imu hu w => ?_
  rw [hv iq imu hu]
  have := Real.pi_ne_zero
  cases half
  · simp only [if_neg (by decide : ¬ false = true)]
    field_simp
  · simp only [if_true]
    field_simp

/-- C26, `Bias1Loop`: every column is an integral over the half plane, doubled, of a symmetric density, or an integral over the whole
plane; the latter for the four columns whose densities are not symmetric (`C26_bias_full`). -/
theorem C26_run_bias {e : Env} {es : List Event} {μ ν : Mem} (hμ : Room 11 e.ks.length μ) (hes : Schedule 8 e.ks.length es)
    (h : runTermsBias e es μ = .ok ν) {ik : ℕ} (hik : ik < e.ks.length) (hk : e.ks[ik] ≠ 0) :
    ∃ g gm, e.tabQ .bias_1loop_q = .ok g ∧ e.tabMu .bias_1loop_mu = .ok gm ∧ ∀ c : Fin 8, ∃ half R v,
      ν.at (cellOf clsBias (biasCol c).1 ik) = some (some v) ∧
      (half = false ↔ (biasCol c).1 ∈ ["pk_b22", "pk_b2s2", "pk_bs22", "sigma3sq"]) ∧
      (half = true → ExchangeSymm (densBias (biasCol c).2.2.1 (biasCol c).2.1 e.ks[ik])) ∧
      (∀ iq imu, UsedPoint half g gm e.ks[ik] iq imu →
        look e.t (e.cfg.prec .bias_1loop_mu).interpol (kqOf half g gm e.ks[ik] iq imu) = .ok (R iq imu)) ∧
      PlaneSum half g gm e.ks[ik] (densBias (biasCol c).2.2.1 (biasCol c).2.1 e.ks[ik]) (fun iq _ => g.pk.getD iq 0) R v := by
  obtain ⟨_, _, g, gm, _, _, hg, hgm, _, _, hcol⟩ := C45_bias hμ hes h hik
  refine ⟨g, gm, hg, hgm, fun c => ?_⟩
  obtain ⟨s, v, hv, hc⟩ := hcol c
  obtain ⟨R, hR, hp⟩ := bias_plane hk hv
  have s1 := fun a => densBias_symm (fun a q kq mu nu m pq pkq => (C26_bias a q kq mu nu m pq pkq).1) a e.ks[ik]
  have s2 := fun a => densBias_symm (fun a q kq mu nu m pq pkq => (C26_bias a q kq mu nu m pq pkq).2) a e.ks[ik]
  refine ⟨_, R, v, hc, (by decide : ∀ c : Fin 8, (biasCol c).2.2.2 = false ↔ (biasCol c).1 ∈ ["pk_b22", "pk_b2s2", "pk_bs22", "sigma3sq"]) c,
    ?_, hR, hp⟩
  clear hv hc hR hp hcol
  fin_cases c
  · exact fun _ => s1 _
  · exact fun _ => s2 _
  · exact fun _ => s1 _
  · exact fun _ => s2 _
  all_goals exact fun h => absurd h (by decide)

/-! ## B -/

/-- The nodes of a radial rule are exponentials. -/
theorem tabQ_pos {e : Env} {p : PName} {g : GLQ ℝ} (h : e.tabQ p = .ok g) : ∀ q ∈ g.q, 0 < q := by
  simp only [Env.tabQ, initGLQ, Res.bind_eq_ok] at h
  obtain ⟨r, _, b, _, x, _, w, _, pk, _, h⟩ := h
  cases h
  intro q hq
  obtain ⟨y, _, rfl⟩ := List.mem_map.mp hq
  exact Real.exp_pos y

/-- Density of a B column; the data are the two spectra. -/
noncomputable def densBcol (c : Fin 9) : ℝ × ℝ → ℝ × ℝ → ℝ → ℝ → ℝ := fun p r x mu =>
  columnsB (fun i => kB (pw x) (pw mu) i * specB p.1 p.2 r.1 r.2 i) c / x ^ 2

theorem densBcol_symm (c : Fin 9) : ExchangeSymm (densBcol c) := fun p r x mu y nu h => C26_B x mu y nu h p.1 p.2 r.1 r.2 c

/-- A linear functional of a weighted double sum. -/
theorem linear_sum {L : (Fin 12 → ℝ) → ℝ} (lin : ∀ (u w : Fin 12 → ℝ) (r : ℝ), L (fun i => u i + r * w i) = L u + r * L w)
    (zero : L (fun _ => 0) = 0) {f : ℝ} {n m : ℕ} (W : ℕ → ℕ → ℝ) (K : ℕ → ℕ → Fin 12 → ℝ) :
    L (fun i => (∑ a ∈ Finset.range n, ∑ b ∈ Finset.range m, W a b * K a b i) * f) =
      f * ∑ a ∈ Finset.range n, ∑ b ∈ Finset.range m, W a b * L (K a b) := by
  have smul : ∀ (u : Fin 12 → ℝ) (r : ℝ), L (fun i => r * u i) = r * L u := by
    intro u r
    have := lin (fun _ => 0) u r
    simpa [zero] using this
  have sum1 : ∀ (m : ℕ) (w : ℕ → ℝ) (u : ℕ → Fin 12 → ℝ), L (fun i => ∑ b ∈ Finset.range m, w b * u b i) =
      ∑ b ∈ Finset.range m, w b * L (u b) := by
    intro m w u
    induction m with
    | zero => simpa using zero
    | succ m ih =>
      simp only [Finset.sum_range_succ]
      rw [lin (fun i => ∑ b ∈ Finset.range m, w b * u b i), ih]
  have e1 : (fun i => (∑ a ∈ Finset.range n, ∑ b ∈ Finset.range m, W a b * K a b i) * f) =
      fun i => f * ∑ a ∈ Finset.range n, 1 * ∑ b ∈ Finset.range m, W a b * K a b i := by
    funext i; simp only [one_mul]; ring
  rw [e1, smul, sum1 n (fun _ => 1) fun a i => ∑ b ∈ Finset.range m, W a b * K a b i]
  simp only [one_mul, sum1]

theorem columnsB_sum {f : ℝ} {n m : ℕ} (W : ℕ → ℕ → ℝ) (K : ℕ → ℕ → Fin 12 → ℝ) (c : Fin 9) :
    columnsB (fun i => (∑ a ∈ Finset.range n, ∑ b ∈ Finset.range m, W a b * K a b i) * f) c =
      f * ∑ a ∈ Finset.range n, ∑ b ∈ Finset.range m, W a b * columnsB (K a b) c := by
  have lin : ∀ (u w : Fin 12 → ℝ) (r : ℝ), columnsB (fun i => u i + r * w i) c = columnsB u c + r * columnsB w c := by
    intro u w r
    fin_cases c <;> simp [columnsB] <;> ring
  have zero : columnsB (fun _ => 0) c = 0 := by fin_cases c <;> simp [columnsB]
  exact linear_sum (L := fun p => columnsB p c) lin zero W K

/-- C26, `B1Loop` and `B2Loop`: each of the nine columns is twice the half-plane integral of a symmetric density. -/
theorem C26_run_B {e : Env} {dt tt : Pk ℝ} {es : List Event} {μ ν : Mem} (hμ : RoomFlat 9 e.ks.length μ)
    (hes : Schedule 9 e.ks.length es) (h : runTermsB e dt tt es μ = .ok ν) {ik : ℕ} (hik : ik < e.ks.length) (hk : 0 < e.ks[ik])
    (c : Fin 9) :
    ∃ (g : GLQ ℝ) (gm : GLMu ℝ) (P R : ℕ → ℕ → ℝ × ℝ) (v : ℝ), e.tabQ .B_q = .ok g ∧ e.tabMu .B_mu = .ok gm ∧ ν.at (cellOf2 clsB "pk" 9 ik c) = some (some v) ∧
      ExchangeSymm (densBcol c) ∧
      (∀ iq imu, UsedPoint true g gm e.ks[ik] iq imu →
        look dt (e.cfg.prec .B_mu).interpol (g.q.getD iq 0) = .ok (P iq imu).1 ∧
        look tt (e.cfg.prec .B_mu).interpol (g.q.getD iq 0) = .ok (P iq imu).2 ∧
        look dt (e.cfg.prec .B_mu).interpol (kqOf true g gm e.ks[ik] iq imu) = .ok (R iq imu).1 ∧
        look tt (e.cfg.prec .B_mu).interpol (kqOf true g gm e.ks[ik] iq imu) = .ok (R iq imu).2) ∧
      PlaneSum true g gm e.ks[ik] (densBcol c) P R v := by
  obtain ⟨_, _, g, gm, s, v, _, _, hg, hgm, hv, _, _, hc⟩ := C45_B hμ hes h hik
  generalize e.ks[ik] = k at hv hk ⊢
  unfold calcB at hv
  simp only [Res.bind_eq_ok] at hv
  obtain ⟨r, hq, e1⟩ := hv
  cases e1
  obtain ⟨hd, hs⟩ := quadLoop_sum hq
  have key : ∀ iq imu, UsedPoint true g gm k iq imu → ∃ P R : ℝ × ℝ,
      (look dt (e.cfg.prec .B_mu).interpol (g.q.getD iq 0) = .ok P.1 ∧ look tt (e.cfg.prec .B_mu).interpol (g.q.getD iq 0) = .ok P.2 ∧
        look dt (e.cfg.prec .B_mu).interpol (kqOf true g gm k iq imu) = .ok R.1 ∧
        look tt (e.cfg.prec .B_mu).interpol (kqOf true g gm k iq imu) = .ok R.2) ∧ iq < g.q.length ∧
      (kernelB dt tt (e.cfg.prec .B_mu).interpol (updateGLQ g k) iq (quadMu true (updateGLQ g k) gm iq imu)).val = fun i =>
        kB (pw ((updateGLQ g k).x.getD iq 0)) (pw (quadMu true (updateGLQ g k) gm iq imu)) i * specB P.1 P.2 R.1 R.2 i := by
    rintro iq imu ⟨h1, h2, h3⟩
    have := hd iq h1 h3 imu h2
    generalize hv : (kernelB dt tt (e.cfg.prec .B_mu).interpol (updateGLQ g k) iq (quadMu true (updateGLQ g k) gm iq imu)).val = f at this ⊢
    simp only [kernelB, Res.bind_eq_ok] at this
    obtain ⟨x, hx, q, hq, p1, l1, r1, l2, p2, l3, r2, l4, e⟩ := this
    obtain ⟨rfl, -⟩ := rd_eq_ok hx
    obtain ⟨rfl, hl⟩ := rd_eq_ok hq
    cases e
    have ek : kqOf true g gm k iq imu = k * Real.sqrt (1 + pw ((updateGLQ g k).x.getD iq 0) 2 -
        2 * pw (quadMu true (updateGLQ g k) gm iq imu) 1 * pw ((updateGLQ g k).x.getD iq 0) 1) := by
      simp only [kqOf, pw]
      congr 2
      ring
    exact ⟨(p1, p2), (r1, r2), ⟨l1, l3, by rw [ek]; exact l2, by rw [ek]; exact l4⟩, hl, rfl⟩
  choose! P R hPR hlen hv using key
  refine ⟨g, gm, P, R, _, hg, hgm, hc 9 rfl c, densBcol_symm c, hPR, ?_⟩
  have hpos := tabQ_pos hg
  have hs' : (fun i => r.2 i * (k * k * k / (2 * Real.pi * Real.pi))) = fun i => (∑ iq ∈ Finset.range g.nq, ∑ imu ∈ Finset.range gm.nmu,
      quadWeight true (updateGLQ g k) gm (fun x w => x * w) iq imu *
        (kernelB dt tt (e.cfg.prec .B_mu).interpol (updateGLQ g k) iq (quadMu true (updateGLQ g k) gm iq imu)).val i) *
          (k * k * k / (2 * Real.pi * Real.pi)) := by
    funext i
    rw [hs]
    rfl
  rw [hs', columnsB_sum]
  refine planeSum_of rfl fun iq imu hu w => ?_
  rw [hv iq imu hu]
  have hx : (updateGLQ g k).x.getD iq 0 ≠ 0 := by
    have h1 := node_eq (g := g) hk.ne' (hlen iq imu hu)
    have h2 : 0 < (updateGLQ g k).q.getD iq 0 := by
      show 0 < g.q.getD iq 0
      rw [List.getD_eq_getElem?_getD, List.getElem?_eq_getElem (hlen iq imu hu)]
      exact hpos _ (List.getElem_mem _)
    rintro h0
    rw [h1, h0, mul_zero] at h2
    exact lt_irrefl _ h2
  simp only [if_true, densBcol]
  have := Real.pi_ne_zero
  field_simp
  ring

/-! ## A at two loops -/

/-- Density of a column of the deterministic part of the two-loop A terms; the data are the values of the bispectrum with `q` or `k-q`
as second leg. -/
noncomputable def densA2col (c : Fin 5) : (Fin 4 → ℝ) → (Fin 4 → ℝ) → ℝ → ℝ → ℝ := fun p r x mu =>
  columnsA2 (assembleA2 x mu ⟨p, r⟩) c / x ^ 3

theorem densA2col_symm (c : Fin 5) : ExchangeSymm (densA2col c) := fun p r x mu y nu h => C26_A x mu y nu h p r c

theorem columnsA2_sum {f : ℝ} {n m : ℕ} (W : ℕ → ℕ → ℝ) (K : ℕ → ℕ → Fin 12 → ℝ) (c : Fin 5) :
    columnsA2 (fun i => (∑ a ∈ Finset.range n, ∑ b ∈ Finset.range m, W a b * K a b i) * f) c =
      f * ∑ a ∈ Finset.range n, ∑ b ∈ Finset.range m, W a b * columnsA2 (K a b) c := by
  have lin : ∀ (u w : Fin 12 → ℝ) (r : ℝ), columnsA2 (fun i => u i + r * w i) c = columnsA2 u c + r * columnsA2 w c := by
    intro u w r
    fin_cases c <;> simp [columnsA2] <;> ring
  have zero : columnsA2 (fun _ => 0) c = 0 := by fin_cases c <;> simp [columnsA2]
  exact linear_sum (L := fun p => columnsA2 p c) lin zero W K

/-- C26, `A2Loop`: each of the five columns is twice the half-plane integral of a symmetric density plus the Monte-Carlo part. -/
theorem C26_run_A_two_loop {cuba : Cuba (Fin 12 → ℝ)} {e : Env} {es : List Event} {μ ν : Mem} {cfg : Cfg ℝ}
    (hμ : RoomFlat 5 e.ks.length μ) (hes : Schedule 5 e.ks.length es) (h : runTermsA2 cuba e es μ = .ok (cfg, ν)) {ik : ℕ}
    (hik : ik < e.ks.length) (hk : 0 < e.ks[ik]) (c : Fin 5) :
    ∃ g gm g1 gd gt P R u w range, e.tabQ .A_2loop_I_q = .ok g ∧ e.tabMu .A_2loop_I_mu = .ok gm ∧ e.tabQ .gamma1_1loop_q = .ok g1 ∧
      e.tabQ .gamma2d_1loop_q = .ok gd ∧ e.tabQ .gamma2t_1loop_q = .ok gt ∧
      glqRange e.t (e.cfg.prec .A_2loop_II_III_q) = .ok range ∧
      calcA2II cuba e.t (e.cfg.interp .bispectrum_1loop) (e.cfg.uv .bispectrum_1loop) range.1 range.2 e.ks[ik] = .ok w ∧
      ν.at (cellOf2 clsA "pk" 5 ik c) = some (some (u + columnsA2 w c)) ∧ ExchangeSymm (densA2col c) ∧
      (∀ iq imu, UsedPoint true g gm e.ks[ik] iq imu →
        bispectrumI e.t (e.cfg.interp .bispectrum_1loop) (e.cfg.uv .bispectrum_1loop) g1 gd gt e.ks[ik] (g.q.getD iq 0)
          (kqOf true g gm e.ks[ik] iq imu) = .ok ⟨P iq imu, R iq imu⟩) ∧
      PlaneSum true g gm e.ks[ik] (densA2col c) P R u := by
  obtain ⟨_, _, g, gm, g1, gd, gt, s, v, w, range, _, _, hg, hgm, hg1, hgd, hgt, hv, hr, hw, _, _, hc⟩ := C45_A_two_loop hμ hes h hik
  generalize e.ks[ik] = k at hv hk hw ⊢
  unfold calcA2I at hv
  simp only [Res.bind_eq_ok] at hv
  obtain ⟨r, hq, e1⟩ := hv
  cases e1
  obtain ⟨hd, hs⟩ := quadLoop_sum hq
  generalize hbi : bispectrumI e.t (e.cfg.interp .bispectrum_1loop) (e.cfg.uv .bispectrum_1loop) g1 gd gt = bi at hd hs hq
  have key : ∀ iq imu, UsedPoint true g gm k iq imu → ∃ P R : Fin 4 → ℝ,
      bi k (g.q.getD iq 0) (kqOf true g gm k iq imu) = .ok ⟨P, R⟩ ∧ iq < g.q.length ∧
      (kernelA2I bi (updateGLQ g k) iq (quadMu true (updateGLQ g k) gm iq imu)).val =
        assembleA2 ((updateGLQ g k).x.getD iq 0) (quadMu true (updateGLQ g k) gm iq imu) ⟨P, R⟩ := by
    rintro iq imu ⟨h1, h2, h3⟩
    have := hd iq h1 h3 imu h2
    generalize hv : (kernelA2I bi (updateGLQ g k) iq (quadMu true (updateGLQ g k) gm iq imu)).val = f at this ⊢
    simp only [kernelA2I, Res.bind_eq_ok] at this
    obtain ⟨x, hx, q, hq, b, hb, e⟩ := this
    obtain ⟨rfl, -⟩ := rd_eq_ok hx
    obtain ⟨rfl, hl⟩ := rd_eq_ok hq
    cases e
    exact ⟨b.a, b.t, hb, hl, rfl⟩
  choose! P R hPR hlen hv using key
  refine ⟨g, gm, g1, gd, gt, P, R, _, w, range, hg, hgm, hg1, hgd, hgt, hr, hw, hc 5 rfl c, densA2col_symm c, by rw [hbi]; exact hPR,
    ?_⟩
  have hpos := tabQ_pos hg
  have hs' : (fun i => r.2 i * (k * k * k / (2 * Real.pi * Real.pi))) = fun i => (∑ iq ∈ Finset.range g.nq, ∑ imu ∈ Finset.range gm.nmu,
      quadWeight true (updateGLQ g k) gm (fun _ w => w) iq imu *
        (kernelA2I bi (updateGLQ g k) iq (quadMu true (updateGLQ g k) gm iq imu)).val i) *
          (k * k * k / (2 * Real.pi * Real.pi)) := by
    funext i
    rw [hs]
    rfl
  rw [hs', columnsA2_sum]
  refine planeSum_of rfl fun iq imu hu w => ?_
  rw [hv iq imu hu]
  have hx : (updateGLQ g k).x.getD iq 0 ≠ 0 := by
    have h1 := node_eq (g := g) hk.ne' (hlen iq imu hu)
    have h2 : 0 < (updateGLQ g k).q.getD iq 0 := by
      show 0 < g.q.getD iq 0
      rw [List.getD_eq_getElem?_getD, List.getElem?_eq_getElem (hlen iq imu hu)]
      exact hpos _ (List.getElem_mem _)
    rintro h0
    rw [h1, h0, mul_zero] at h2
    exact lt_irrefl _ h2
  simp only [if_true, densA2col]
  have := Real.pi_ne_zero
  field_simp
  ring

/-! ## Second order at two loops -/

/-- C26, `Spectrum2Loop`: the tree-tree column is twice the half-plane integral of a symmetric density.  Missing: the two columns with
the one-loop kernel, whose densities are not symmetric (`C26_gamma2_loop_violation`). -/
theorem C26_run_two_loop_partial {cuba : Cuba ℝ} {e : Env} {a b : Field} {es : List Event} {μ ν : Mem} {cfg : Cfg ℝ}
    (hμ : Room 11 e.ks.length μ) (hes : Schedule 7 e.ks.length es) (h : runTerms2 cuba e a b es μ = .ok (cfg, ν)) {ik : ℕ}
    (hik : ik < e.ks.length) (hk : e.ks[ik] ≠ 0) :
    ∃ g gm R v, e.tabQ .gamma2_tree_q = .ok g ∧ e.tabMu .gamma2_tree_mu = .ok gm ∧
      ν.at (cellOf cls2 "pk_gamma2_tree_tree" ik) = some (some v) ∧ ExchangeSymm (densTree a b e.ks[ik]) ∧
      (∀ iq imu, UsedPoint true g gm e.ks[ik] iq imu →
        look e.t (e.cfg.prec .gamma2_tree_mu).interpol (kqOf true g gm e.ks[ik] iq imu) = .ok (R iq imu)) ∧
      PlaneSum true g gm e.ks[ik] (densTree a b e.ks[ik]) (fun iq _ => g.pk.getD iq 0) R v := by
  obtain ⟨_, _, _, _, g, gm, _, _, _, _, _, _, s, r, _, _, _, _, _, _, hg, hgm, _, _, _, _, _, _, hv, _, _, _, _, _, _, _, _, _, hc, _⟩ :=
    C45_two_loop hμ hes h hik
  obtain ⟨R, hR, hp⟩ := tree_plane hk hv
  exact ⟨g, gm, R, _, hg, hgm, hc, densTree_symm a b _, hR, hp⟩

theorem gamma2Tree_sample (a : Field) : 0 < gamma2Tree a 500 1 500 := by
  cases a <;> norm_num [gamma2Tree, F2Fast]

/-- C26 fails for the tree-loop column of the two-loop run: at the two points (q, k-q) and (k-q, q) of the triangle 1, 500, 500 the
tree-tree densities agree and the tree-loop densities do not, so doubling the half plane is not the integral over the plane. -/
theorem C26_gamma2_loop_violation (a : Field) : ∃ (t : Pk ℝ) (gl g : GLQ ℝ) (x mu y nu : ℝ) (u v : Fin 3 → ℝ),
    t.Increasing ∧ gl.Ok ∧ g.Ok ∧ g.x = [x, y] ∧ Exchanged x mu y nu ∧
    kernelGamma2Loop t .poly gl gl a a g 0 mu = .ok u ∧ kernelGamma2Loop t .poly gl gl a a g 1 nu = .ok v ∧ u 0 = v 0 ∧ u 1 < v 1 := by
  have hl : GLQ.Ok { nq := 1, q := [51], w := [1], pk := [1], x := [], k := 1 } := ⟨rfl, rfl, rfl⟩
  have ht : Pk.Increasing { nk := 2, k := [1, 500], pk := [1, 1] } :=
    { hk := rfl, hpk := rfl, hsize := by norm_num [sizeMod], incr := by norm_num }
  have ex : Exchanged (1 / 500) (1 / 1000) 1 (1 - 1 / 500000) := ⟨by norm_num, by norm_num, by norm_num, by norm_num⟩
  have l0 : look { nk := 2, k := [1, 500], pk := [1, 1] } .poly 1 = .ok 1 := by
    have := C08_findPk_node_poly _ ht 0 (by norm_num)
    simp only [List.getD_cons_zero] at this
    rw [look, this]; rfl
  have l1 : look { nk := 2, k := [1, 500], pk := [1, 1] } .poly 500 = .ok 1 := by
    have := C08_findPk_node_poly _ ht 1 (by norm_num)
    simp only [List.getD_cons_zero, List.getD_cons_succ] at this
    rw [look, this]; rfl
  have k0 : (500 : ℝ) * Real.sqrt (1 + 1 / 500 * (1 / 500) - 2 * (1 / 1000) * (1 / 500)) = 500 := by rw [ex.sqrt, mul_one]
  have k1 : (500 : ℝ) * Real.sqrt (1 + 1 * 1 - 2 * (1 - 1 / 500000) * 1) = 1 := by rw [ex.symm.sqrt]; norm_num
  have s : ∀ k1 k2 k3 : ℝ, gamma2StdPT { nq := 1, q := [51], w := [1], pk := [1], x := [], k := 1 }
      { nq := 1, q := [51], w := [1], pk := [1], x := [], k := 1 } a 1 k1 k2 k3 =
        .ok (kernelGamma2 a k1 k2 k3 51 * 51 ^ 3 / (8 * Real.pi ^ 3)) := by
    intro k1 k2 k3
    have := gamma2OneLoop_sum a _ hl k1 k2 k3
    simp only [GLQ.nodes, List.zip_cons_cons, List.zip_nil_right, List.map_cons, List.map_nil, List.sum_cons, List.sum_nil, mul_one, one_mul,
      add_zero] at this
    cases a <;> exact this
  have s0 : ∀ (gd gt : GLQ ℝ) (k1 k2 k3 : ℝ), gamma2StdPT gd gt a 0 k1 k2 k3 = .ok (gamma2Tree a k1 k2 k3) := fun _ _ _ _ _ => rfl
  have hu : ∃ u, kernelGamma2Loop { nk := 2, k := [1, 500], pk := [1, 1] } .poly { nq := 1, q := [51], w := [1], pk := [1], x := [], k := 1 }
      { nq := 1, q := [51], w := [1], pk := [1], x := [], k := 1 } a a
      { nq := 2, q := [1, 500], w := [1, 1], pk := [1, 1], x := [1 / 500, 1], k := 500 } 0 (1 / 1000) = .ok u ∧
      u 0 = 2 * 1 * 1 * gamma2Tree a 500 1 500 * gamma2Tree a 500 1 500 ∧
      u 1 = 2 * 1 * 1 * (gamma2Tree a 500 1 500 * (kernelGamma2 a 500 1 500 51 * 51 ^ 3 / (8 * Real.pi ^ 3)) +
        kernelGamma2 a 500 1 500 51 * 51 ^ 3 / (8 * Real.pi ^ 3) * gamma2Tree a 500 1 500) := by
    unfold kernelGamma2Loop
    rw [rd_ok (by simp), rd_ok (by simp), rd_ok (by simp)]
    simp only [Res.ok_bind, List.getElem_cons_zero, k0, l1, s, s0, other, if_true]
    exact ⟨_, rfl, rfl, rfl⟩
  have hv : ∃ u, kernelGamma2Loop { nk := 2, k := [1, 500], pk := [1, 1] } .poly { nq := 1, q := [51], w := [1], pk := [1], x := [], k := 1 }
      { nq := 1, q := [51], w := [1], pk := [1], x := [], k := 1 } a a
      { nq := 2, q := [1, 500], w := [1, 1], pk := [1, 1], x := [1 / 500, 1], k := 500 } 1 (1 - 1 / 500000) = .ok u ∧
      u 0 = 2 * 1 * 1 * gamma2Tree a 1 500 500 * gamma2Tree a 1 500 500 ∧
      u 1 = 2 * 1 * 1 * (gamma2Tree a 1 500 500 * (kernelGamma2 a 1 500 500 51 * 51 ^ 3 / (8 * Real.pi ^ 3)) +
        kernelGamma2 a 1 500 500 51 * 51 ^ 3 / (8 * Real.pi ^ 3) * gamma2Tree a 1 500 500) := by
    unfold kernelGamma2Loop
    rw [rd_ok (by simp), rd_ok (by simp), rd_ok (by simp)]
    simp only [Res.ok_bind, List.getElem_cons_zero, List.getElem_cons_succ, k1, l0, s, s0, other, if_true]
    exact ⟨_, rfl, rfl, rfl⟩
  obtain ⟨u, hu, u0, u1⟩ := hu
  obtain ⟨v, hv, v0, v1⟩ := hv
  refine ⟨_, _, { nq := 2, q := [1, 500], w := [1, 1], pk := [1, 1], x := [1 / 500, 1], k := 500 }, _, _, _, _, u, v, ht, hl,
    ⟨rfl, rfl, rfl⟩, rfl, ex, hu, hv, ?_, ?_⟩
  · rw [u0, v0, C26_gamma2_tree a 1 500]
  · have h := C24_kernel_violation a
    have hp := gamma2Tree_sample a
    have : 0 < Real.pi ^ 3 := by positivity
    rw [u1, v1, C26_gamma2_tree a 1 500]
    have h' : kernelGamma2 a 500 1 500 51 * 51 ^ 3 / (8 * Real.pi ^ 3) < kernelGamma2 a 1 500 500 51 * 51 ^ 3 / (8 * Real.pi ^ 3) := by
      gcongr
      linarith
    nlinarith

/-! ## Instances -/

variable (rt : ℕ → ℕ → ℝ × ℝ)

/-- The hypotheses of the five theorems hold for the runs of `Props/Safety.lean`. -/
example : ∃ ν, runTerms1 (exEnv rt exKs) .delta .theta (blocks 3 0 0 [2, 0, 3]) exMem = .ok ν ∧ ∃ g gm R v,
    ν.at (cellOf cls1 "pk_gamma2_tree_tree" 3) = some (some v) ∧
    PlaneSum true g gm 8 (densTree .delta .theta 8) (fun iq _ => g.pk.getD iq 0) R v := by
  obtain ⟨ν, h⟩ := C59_one_loop (exEnv_ok rt exKs) .delta .theta (exSchedule 3) (exRoom 6)
  obtain ⟨g, gm, R, v, _, _, hc, _, _, hp⟩ :=
    C26_run_one_loop (exRoom 6) (exSchedule 3) h (ik := 3) (by simp [exEnv, exKs]) (by norm_num [exEnv, exKs])
  exact ⟨ν, h, g, gm, R, v, hc, hp⟩

example : ∃ r, runTerms2 exCuba (exEnv rt exKs) .delta .theta (blocks 7 0 0 [2, 0, 3]) exMem = .ok r ∧ ∃ g gm R v,
    r.2.at (cellOf cls2 "pk_gamma2_tree_tree" 3) = some (some v) ∧
    PlaneSum true g gm 8 (densTree .delta .theta 8) (fun iq _ => g.pk.getD iq 0) R v := by
  obtain ⟨⟨c, ν⟩, h⟩ := C59_two_loop (exEnv_ok rt exKs) exCuba_safe .delta .theta (exSchedule 7) (exRoom 11)
  obtain ⟨g, gm, R, v, _, _, hc, _, _, hp⟩ :=
    C26_run_two_loop_partial (exRoom 11) (exSchedule 7) h (ik := 3) (by simp [exEnv, exKs]) (by norm_num [exEnv, exKs])
  exact ⟨_, h, g, gm, R, v, hc, hp⟩

example : ∃ ν, runTermsBias (exEnv rt exKs) (blocks 8 0 0 [2, 0, 3]) exMem = .ok ν ∧ ∃ g gm, ∀ c : Fin 8, ∃ half R v,
    ν.at (cellOf clsBias (biasCol c).1 3) = some (some v) ∧
    PlaneSum half g gm 8 (densBias (biasCol c).2.2.1 (biasCol c).2.1 8) (fun iq _ => g.pk.getD iq 0) R v := by
  obtain ⟨ν, h⟩ := C59_bias (exEnv_ok rt exKs) (exSchedule 8) (exRoom 11)
  obtain ⟨g, gm, _, _, hc⟩ :=
    C26_run_bias (exRoom 11) (exSchedule 8) h (ik := 3) (by simp [exEnv, exKs]) (by norm_num [exEnv, exKs])
  refine ⟨ν, h, g, gm, fun c => ?_⟩
  obtain ⟨half, R, v, h1, _, _, _, h2⟩ := hc c
  exact ⟨half, R, v, h1, h2⟩

example : ∃ ν, runTermsB (exEnv rt exKs) exTable exTable (blocks 9 0 0 [2, 0, 3]) exMem = .ok ν ∧ ∀ c : Fin 9, ∃ g gm P R v,
    ν.at (cellOf2 clsB "pk" 9 3 c) = some (some v) ∧ PlaneSum true g gm 8 (densBcol c) P R v := by
  obtain ⟨ν, h⟩ := C59_B (exEnv_ok rt exKs) exTable_physical.toWF (by norm_num [exTable]) exTable_physical.toWF (by norm_num [exTable])
    (exSchedule 9) (exRoomFlat 9 le_rfl)
  refine ⟨ν, h, fun c => ?_⟩
  obtain ⟨g, gm, P, R, v, _, _, h1, _, _, h2⟩ :=
    C26_run_B (exRoomFlat 9 le_rfl) (exSchedule 9) h (ik := 3) (by simp [exEnv, exKs]) (by norm_num [exEnv, exKs]) c
  exact ⟨g, gm, P, R, v, h1, h2⟩

example : ∃ r, runTermsA2 exCuba (exEnv rt exKs) (blocks 5 0 0 [2, 0, 3]) exMem = .ok r ∧ ∀ c : Fin 5, ∃ g gm P R u w,
    r.2.at (cellOf2 clsA "pk" 5 3 c) = some (some (u + columnsA2 w c)) ∧ PlaneSum true g gm 8 (densA2col c) P R u := by
  obtain ⟨⟨cfg, ν⟩, h⟩ := C59_A_two_loop (exEnv_ok rt exKs) exCuba_safe (exSchedule 5) (exRoomFlat 5 (by norm_num))
  refine ⟨_, h, fun c => ?_⟩
  obtain ⟨g, gm, _, _, _, P, R, u, w, _, _, _, _, _, _, _, _, h1, _, _, h2⟩ :=
    C26_run_A_two_loop (exRoomFlat 5 (by norm_num)) (exSchedule 5) h (ik := 3) (by simp [exEnv, exKs]) (by norm_num [exEnv, exKs]) c
  exact ⟨g, gm, P, R, u, w, h1, h2⟩

end Verif
