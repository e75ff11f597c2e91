import Verif.Proofs.Line

/-!
# Two spectra that agree on a range

Tables and terms computed from them are the same when the range contains every point that is looked up.
-/

namespace Verif

open Res (Rel)

theorem Res.bind_congr {β γ : Type} {r r' : Res β} {f f' : β → Res γ} (h : r = r') (hf : ∀ v, r = .ok v → f v = f' v) :
    (r >>= f) = (r' >>= f') := by
  subst h
  cases r
  · exact hf _ rfl
  · rfl

/-- The spectra are looked up to the same value everywhere between `lo` and `hi`, in either mode of interpolation. -/
def AgreeOn (t t' : Pk ℝ) (lo hi : ℝ) : Prop := ∀ i q, lo ≤ q → q ≤ hi → look t i q = look t' i q

theorem AgreeOn.mono {t t' : Pk ℝ} {lo hi lo' hi' : ℝ} (h : AgreeOn t t' lo hi) (h1 : lo ≤ lo') (h2 : hi' ≤ hi) : AgreeOn t t' lo' hi' :=
  fun i q a b => h i q (h1.trans a) (b.trans h2)

theorem mapM_congr_on {β γ : Type} {f f' : β → Res γ} : ∀ l : List β, (∀ x ∈ l, f x = f' x) → l.mapM f = l.mapM f'
  | [], _ => rfl
  | x :: l, h => by
      rw [List.mapM_cons, List.mapM_cons, h x (by simp), mapM_congr_on l fun y hy => h y (by simp [hy])]

/-- Ascending modes. -/
theorem findPk_local {t t' : Pk ℝ} (h : t.Increasing) (h1 : 1 ≤ t.nk) (h' : t'.Increasing) (h1' : 1 ≤ t'.nk) (i : Interpol) {l : List ℝ}
    (hl : l.Pairwise (· ≤ ·)) (ha : ∀ q ∈ l, look t i q = look t' i q) : findPk t l i = findPk t' l i := by
  rw [findPk_ascending t h h1 i l hl, findPk_ascending t' h' h1' i l hl]
  refine mapM_congr_on l fun q hq => ?_
  rw [← look_eq_lookup h h1, ← look_eq_lookup h' h1']
  exact ha q hq

/-- A given range of positive length. -/
def Precision.Given (p : Precision ℝ) : Prop := 0 < p.min ∧ p.min < p.max

theorem glqRange_given (t : Pk ℝ) {p : Precision ℝ} (hp : p.Given) : glqRange t p = .ok (p.min, p.max) := by
  unfold glqRange
  rw [if_neg]
  simp only [lit_real, Bool.or_eq_true, not_or, le_real, not_le]
  push_cast
  exact ⟨hp.1, hp.1.trans hp.2⟩

/-- Nodes over a given range are ascending and inside. -/
theorem nodes_given {rt : ℕ → ℝ × ℝ} {p : Precision ℝ} (hp : p.Given) (hn : p.n < 2 ^ 63) (hr : RootsOrdered rt p.n) :
    (((List.range p.n).map (nodeAt rt (Real.log p.min) (Real.log p.max) p.n)).map Real.exp).Pairwise (· ≤ ·) ∧
      ∀ q ∈ ((List.range p.n).map (nodeAt rt (Real.log p.min) (Real.log p.max) p.n)).map Real.exp, p.min < q ∧ q < p.max := by
  have hlog := Real.log_lt_log hp.1 hp.2
  constructor
  · have := (hr.nodes hn).1
    rw [List.map_map, List.pairwise_map]
    rw [List.pairwise_map] at this
    refine this.imp fun h => (Real.exp_lt_exp.mpr ?_).le
    rw [nodeAt_affine rt (Real.log p.min), nodeAt_affine rt (Real.log p.min) _ _ _]
    have : 0 < (Real.log p.max - Real.log p.min) / 2 := by linarith
    nlinarith
  · intro q hq
    rw [List.map_map] at hq
    obtain ⟨i, hi, rfl⟩ := List.mem_map.mp hq
    obtain ⟨h1, h2⟩ := (hr.nodes hn).2 i (by simpa using hi)
    show p.min < Real.exp (nodeAt rt (Real.log p.min) (Real.log p.max) p.n i) ∧
      Real.exp (nodeAt rt (Real.log p.min) (Real.log p.max) p.n i) < p.max
    rw [← Real.lt_log_iff_exp_lt (hp.1.trans hp.2), ← Real.log_lt_iff_lt_exp hp.1, nodeAt_affine]
    constructor <;> nlinarith

/-- Radial tables over a given range. -/
theorem initGLQ_local {rt : ℕ → ℝ × ℝ} {t t' : Pk ℝ} (h : t.Increasing) (h1 : 1 ≤ t.nk) (h' : t'.Increasing) (h1' : 1 ≤ t'.nk)
    {p : Precision ℝ} (hp : p.Given) (hn : p.n < 2 ^ 63) (hr : RootsOrdered rt p.n) (ha : AgreeOn t t' p.min p.max) :
    initGLQ rt t p = initGLQ rt t' p := by
  obtain ⟨a1, a2⟩ := nodes_given hp hn hr
  unfold initGLQ
  rw [glqRange_given t hp, glqRange_given t' hp, Res.ok_bind, Res.ok_bind]
  dsimp only
  rw [nodesWeights_eq rt _ _ _ _ p.n hn (by simp [malloc]) (by simp [malloc]), Res.ok_bind, Res.ok_bind]
  dsimp only
  rw [contents_map_some, Res.ok_bind, Res.ok_bind, contents_map_some, Res.ok_bind, Res.ok_bind]
  have := findPk_local h h1 h' h1' p.interpol a1 fun q hq => ha _ q (a2 q hq).1.le (a2 q hq).2.le
  erw [this]
  rfl

/-- Tables with points between `lo` and `hi`. -/
structure LocTab (lo hi : ℝ) (g : GLQ ℝ) (gm : GLMu ℝ) : Prop where
  rule : PosRule g gm
  mu : ∀ m ∈ gm.muref, -1 < m ∧ m < 1
  q : ∀ q ∈ g.q, lo ≤ q ∧ q ≤ hi

theorem LocTab.init {rt rt' : ℕ → ℝ × ℝ} {t : Pk ℝ} (ht : t.Physical) (h2 : 2 ≤ t.nk) {p : Precision ℝ} (hp : p.Given)
    (hn : p.n < 2 ^ 63) (hr : RootsOrdered rt p.n) {g : GLQ ℝ} (hg : initGLQ rt t p = .ok g) {m : ℕ} (hm : m < 2 ^ 63)
    (hr' : RootsOrdered rt' m) {gm : GLMu ℝ} (hgm : initGLMu rt' m = .ok gm) : LocTab p.min p.max g gm := by
  refine ⟨posRule_init ht h2 (.inr (.inr hp.2)) hn hr hg hm hr' hgm, initGLMu_in hm hr' hgm, ?_⟩
  obtain ⟨a, b, pk, h1, -, rfl⟩ := initGLQ_ok hn hg
  rw [glqRange_given t hp] at h1
  cases h1
  intro q hq
  have := (nodes_given hp hn hr).2 q (by simpa using hq)
  exact ⟨this.1.le, this.2.le⟩

section

variable {lo hi : ℝ} {g : GLQ ℝ} {gm : GLMu ℝ} (h : LocTab lo hi g gm)

include h

theorem LocTab.visited {k : ℝ} (hk : 0 < k) {half : Bool} {iq : ℕ} (hiq : iq < g.nq)
    {a b : ℝ} (hr : quadRange half (updateGLQ g k) iq = some (a, b)) {mu x : ℝ} (hm : mu ∈ (updateGLMu gm a b).mu)
    (hx : rd (updateGLQ g k).x iq = .ok x) : lo ≤ k * Real.sqrt (1 + x * x - 2 * mu * x) ∧ k * Real.sqrt (1 + x * x - 2 * mu * x) ≤ hi := by
  have hl := h.rule.len
  have hx' : x = g.q.getD iq 0 / k := by
    rw [← (rd_eq_ok hx).1]
    simp only [updateGLQ]
    rw [getD_eq (by simpa using (by omega : iq < g.q.length)), getD_eq (by omega)]
    simp
  obtain ⟨h1, h2⟩ := visited_range h.rule h.mu hk hiq hr hm
  rw [← hx'] at h1 h2
  have m1 := h.q (g.q.getD 0 0) (by rw [getD_eq (by omega)]; exact List.getElem_mem _)
  have m2 := h.q (g.q.getD (g.nq - 1) 0) (by rw [getD_eq (by omega)]; exact List.getElem_mem _)
  exact ⟨m1.1.trans h1, h2.trans m2.2⟩

theorem LocTab.same {gm' : GLMu ℝ} (hs : SameMu gm' gm) (k : ℝ) : LocTab lo hi (updateGLQ g k) gm' := by
  obtain ⟨e1, e2, e3⟩ := hs
  exact ⟨⟨h.rule.len, h.rule.size, h.rule.pos, h.rule.asc, h.rule.w, by rw [e3]; exact h.rule.wref⟩, by rw [e2]; exact h.mu, h.q⟩

end

theorem iter_local {σ : Type} {P : σ → Prop} {b b' : ℕ → σ → Res σ} : ∀ (n i : ℕ) (s : σ), P s →
    (∀ j s, j < i + n → P s → b j s = b' j s ∧ ∀ s', b j s = .ok s' → P s') → iter b n i s = iter b' n i s
  | 0, _, _, _, _ => rfl
  | n + 1, i, s, h, hb => by
      obtain ⟨h1, h2⟩ := hb i s (by omega) h
      exact Res.bind_congr h1 fun s' hs' => iter_local n (i + 1) s' (h2 s' hs') fun j s hj => hb j s (by omega)

theorem forRange_local {σ : Type} {P : σ → Prop} {b b' : ℕ → σ → Res σ} {n : ℕ} {s : σ} (h : P s)
    (hb : ∀ j s, j < n → P s → b j s = b' j s ∧ ∀ s', b j s = .ok s' → P s') : forRange 0 n s b = forRange 0 n s b' :=
  iter_local _ _ _ h fun j s hj => hb j s (by omega)

/-- The double loop only sees its integrand at the points it visits. -/
theorem quadLoop_local {ι : Type} {half : Bool} {g : GLQ ℝ} {gm : GLMu ℝ} {kern kern' : ℕ → ℝ → Res (ι → ℝ)} {extra : ℕ → Res (ι → ℝ)}
    {wt : ℝ → ℝ → ℝ} (hk : ∀ iq < g.nq, ∀ lo hi, quadRange half g iq = some (lo, hi) → ∀ mu ∈ (updateGLMu gm lo hi).mu,
      kern iq mu = kern' iq mu) : quadLoop half g gm kern extra wt = quadLoop half g gm kern' extra wt := by
  rw [quadLoop_eq, quadLoop_eq]
  refine forRange_local (P := fun s => SameMu s.1 gm) (SameMu.refl _) fun iq s hiq hs => ?_
  unfold quadBody
  constructor
  · refine Res.bind_congr rfl fun x hx => ?_
    refine Res.bind_congr rfl fun r hr => ?_
    rcases r with _ | ⟨lo, hi⟩
    · rfl
    · dsimp only
      have hq : quadRange half g iq = some (lo, hi) := by
        unfold quadRange
        rw [(rd_eq_ok hx).1, hr]
      rw [hs.update_eq lo hi]
      refine Res.bind_congr (forRange_local (P := fun _ => True) trivial fun imu acc _ _ => ⟨?_, fun _ _ => trivial⟩) fun _ _ => rfl
      refine Res.bind_congr rfl fun mu hm => ?_
      rw [hk iq hiq lo hi hq mu (rd_mem hm)]
  · intro s' h
    simp only [Res.bind_eq_ok] at h
    obtain ⟨x, -, r, -, h⟩ := h
    rcases r with _ | ⟨lo, hi⟩
    · cases h
      exact hs
    · simp only [Res.bind_eq_ok] at h
      obtain ⟨f, -, ex, -, w, -, h⟩ := h
      cases h
      rw [hs.update_eq lo hi]
      exact sameMu_update gm lo hi

theorem quadLoop_same {ι : Type} {half : Bool} {g : GLQ ℝ} {gm : GLMu ℝ} {kern : ℕ → ℝ → Res (ι → ℝ)} {extra : ℕ → Res (ι → ℝ)}
    {wt : ℝ → ℝ → ℝ} {r : GLMu ℝ × (ι → ℝ)} (h : quadLoop half g gm kern extra wt = .ok r) : SameMu r.1 gm := by
  have := quadLoop_rel half g (SameMu.refl gm) kern extra wt
  rw [h] at this
  exact this.1

/-! ## Terms -/

section

variable {t t' : Pk ℝ} {lo hi : ℝ} (ha : AgreeOn t t' lo hi) {g : GLQ ℝ} {gm : GLMu ℝ} (hT : LocTab lo hi g gm) {k : ℝ} (hk : 0 < k)

include ha hT hk

theorem calcGamma2Tree_local (i : Interpol) (a b : Field) : calcGamma2Tree t i a b g gm k = calcGamma2Tree t' i a b g gm k := by
  unfold calcGamma2Tree
  dsimp only
  refine Res.bind_congr (quadLoop_local fun iq hiq a b hr mu hmu => ?_) fun _ _ => rfl
  unfold kernelGamma2Tree
  refine Res.bind_congr rfl fun x hx => ?_
  refine Res.bind_congr rfl fun q hq => ?_
  refine Res.bind_congr rfl fun p hp => ?_
  obtain ⟨h1, h2⟩ := hT.visited hk hiq hr hmu hx
  exact Res.bind_congr (ha i _ h1 h2) fun _ _ => rfl

theorem calcGamma2Loop_local (i : Interpol) (gd gt : GLQ ℝ) (a b : Field) :
    calcGamma2Loop t i gd gt a b g gm k = calcGamma2Loop t' i gd gt a b g gm k := by
  unfold calcGamma2Loop
  dsimp only
  refine Res.bind_congr (quadLoop_local fun iq hiq a b hr mu hmu => ?_) fun _ _ => rfl
  unfold kernelGamma2Loop
  refine Res.bind_congr rfl fun x hx => ?_
  refine Res.bind_congr rfl fun q hq => ?_
  refine Res.bind_congr rfl fun p hp => ?_
  obtain ⟨h1, h2⟩ := hT.visited hk hiq hr hmu hx
  exact Res.bind_congr (ha i _ h1 h2) fun _ _ => rfl

theorem calcBias_local (i : Interpol) (a : Field) (kn : BiasKernel) (half : Bool) :
    calcBias t i a kn half g gm k = calcBias t' i a kn half g gm k := by
  unfold calcBias
  dsimp only
  refine Res.bind_congr (quadLoop_local fun iq hiq a b hr mu hmu => ?_) fun _ _ => rfl
  unfold kernelPkBias
  refine Res.bind_congr rfl fun x hx => ?_
  refine Res.bind_congr rfl fun q hq => ?_
  refine Res.bind_congr rfl fun p hp => ?_
  obtain ⟨h1, h2⟩ := hT.visited hk hiq hr hmu hx
  exact Res.bind_congr (ha i _ h1 h2) fun _ _ => rfl

theorem calcA1_local (i j : Interpol) (hk' : look t i k = look t' i k) : calcA1 t i j g gm k = calcA1 t' i j g gm k := by
  unfold calcA1
  dsimp only
  refine Res.bind_congr hk' fun pk _ => ?_
  refine Res.bind_congr (quadLoop_local fun iq hiq a b hr mu hmu => ?_) fun _ _ => rfl
  unfold kernelA1
  refine Res.bind_congr rfl fun x hx => ?_
  refine Res.bind_congr rfl fun p hp => ?_
  obtain ⟨h1, h2⟩ := hT.visited hk hiq hr hmu hx
  have e1 : lo ≤ k * Real.sqrt (1 + pw x 2 - 2 * pw mu 1 * pw x 1) := by simpa only [pw, pow_two, pow_one] using h1
  have e2 : k * Real.sqrt (1 + pw x 2 - 2 * pw mu 1 * pw x 1) ≤ hi := by simpa only [pw, pow_two, pow_one] using h2
  exact Res.bind_congr (ha j _ e1 e2) fun _ _ => rfl

theorem calcB_local {u u' : Pk ℝ} (hu : AgreeOn u u' lo hi) (i : Interpol) : calcB t u i g gm k = calcB t' u' i g gm k := by
  unfold calcB
  dsimp only
  refine Res.bind_congr (quadLoop_local fun iq hiq a b hr mu hmu => ?_) fun _ _ => rfl
  unfold kernelB
  refine Res.bind_congr rfl fun x hx => ?_
  refine Res.bind_congr rfl fun q hq => ?_
  obtain ⟨h1, h2⟩ := hT.visited hk hiq hr hmu hx
  obtain ⟨n1, n2⟩ := hT.q q (rd_mem hq)
  have e1 : lo ≤ k * Real.sqrt (1 + pw x 2 - 2 * pw mu 1 * pw x 1) := by simpa only [pw, pow_two, pow_one] using h1
  have e2 : k * Real.sqrt (1 + pw x 2 - 2 * pw mu 1 * pw x 1) ≤ hi := by simpa only [pw, pow_two, pow_one] using h2
  refine Res.bind_congr (ha i _ n1 n2) fun _ _ => ?_
  refine Res.bind_congr (ha i _ e1 e2) fun _ _ => ?_
  refine Res.bind_congr (hu i _ n1 n2) fun _ _ => ?_
  exact Res.bind_congr (hu i _ e1 e2) fun _ _ => rfl

end

theorem calcBias_tabs {t : Pk ℝ} {lo hi : ℝ} {g : GLQ ℝ} {gm : GLMu ℝ} (hT : LocTab lo hi g gm) {i : Interpol} {a : Field} {kn : BiasKernel}
    {half : Bool} {k : ℝ} {r : (GLQ ℝ × GLMu ℝ) × ℝ} (h : calcBias t i a kn half g gm k = .ok r) : LocTab lo hi r.1.1 r.1.2 := by
  unfold calcBias at h
  obtain ⟨s, h1, h⟩ := Res.bind_eq_ok.mp h
  cases h
  exact hT.same (quadLoop_same h1) k

theorem kernelGamma3_local {t t' : Pk ℝ} (i : Interpol) (a b : Field) (k : ℝ) {qmin qmax : ℝ} (h0 : 0 < qmin) (hle : qmin ≤ qmax)
    (ha : AgreeOn t t' qmin qmax) {xx : Fin 5 → ℝ} (hx : ∀ j, 0 ≤ xx j ∧ xx j ≤ 1) :
    kernelGamma3 t i a b k qmin qmax xx = kernelGamma3 t' i a b k qmin qmax xx := by
  unfold kernelGamma3
  dsimp only
  split
  · rename_i hc
    refine Res.bind_congr (ha i _ (g3_ge h0 hle (hx 0)) (g3_le h0 hle (hx 0))) fun _ _ => ?_
    refine Res.bind_congr (ha i _ (g3_ge h0 hle (hx 3)) (g3_le h0 hle (hx 3))) fun _ _ => ?_
    exact Res.bind_congr (ha i _ hc.1 hc.2.1) fun _ _ => rfl
  · rfl

/-! ## Tables with a common stretch -/

/-- `n` successive entries of `t` from `a` on are the entries of `t'` from `a'` on. -/
structure Shares (t t' : Pk ℝ) (a a' n : ℕ) : Prop where
  len : a + n ≤ t.nk
  len' : a' + n ≤ t'.nk
  k : ∀ i < n, t.k.getD (a + i) 0 = t'.k.getD (a' + i) 0
  pk : ∀ i < n, t.pk.getD (a + i) 0 = t'.pk.getD (a' + i) 0

theorem Pk.Increasing.getD_le {t : Pk ℝ} (h : t.Increasing) {i j : ℕ} (hj : j < t.nk) (hij : i ≤ j) : t.k.getD i 0 ≤ t.k.getD j 0 := by
  rcases Nat.lt_or_eq_of_le hij with h' | rfl
  · exact (h.getD_lt h' hj).le
  · exact le_rfl

/-- The interval of the table a wavenumber belongs to. -/
theorem interval_unique {t : Pk ℝ} (h : t.Increasing) {q : ℝ} {r j : ℕ} (hr : r < t.nk) (h1 : t.k.getD r 0 ≤ q)
    (h2 : r + 1 < t.nk → q < t.k.getD (r + 1) 0) (hj : j + 1 < t.nk) (h3 : t.k.getD j 0 ≤ q) (h4 : q < t.k.getD (j + 1) 0) : r = j := by
  rcases Nat.lt_trichotomy r j with c | c | c
  · have := h.getD_le (i := r + 1) (j := j) (by omega) (by omega)
    have := h2 (by omega)
    linarith
  · exact c
  · have := h.getD_le (i := j + 1) (j := r) hr (by omega)
    linarith

/-- Interior wavenumbers of a common stretch, two entries away from its ends (not needed at the lower end of both tables), are looked up
to the same value. -/
theorem look_shares {t t' : Pk ℝ} (h : t.Increasing) (h' : t'.Increasing) {a a' n : ℕ} (hs : Shares t t' a a' n) (h3 : 3 ≤ n) {q : ℝ}
    (hlo : (a = 0 ∧ a' = 0 ∧ t.k.getD 0 0 ≤ q) ∨ t.k.getD (a + 2) 0 ≤ q) (hhi : q < t.k.getD (a + n - 2) 0) (i : Interpol) :
    look t i q = look t' i q := by
  have l1 := hs.len; have l2 := hs.len'
  have e1 : 1 ≤ t.nk := by omega
  have e2 : 1 ≤ t'.nk := by omega
  have z1 : t.k.getD 0 0 ≤ q := by
    rcases hlo with ⟨-, -, hl⟩ | hl
    · exact hl
    · exact (h.getD_le (by omega) (by omega)).trans hl
  have z2 : q ≤ t.k.getD (t.nk - 1) 0 := hhi.le.trans (h.getD_le (by omega) (by omega))
  obtain ⟨r, d1, d2, d3, d4⟩ := exists_bracket t h e1 q z1
  have ra : a ≤ r := by
    by_contra hc
    have := d4 (by omega)
    rcases hlo with ⟨rfl, -, -⟩ | hl
    · omega
    · have := h.getD_le (i := r + 1) (j := a + 2) (by omega) (by omega)
      linarith
  have rb : r + 3 ≤ a + n := by
    by_contra hc
    have := h.getD_le (i := a + n - 2) (j := r) d2 (by omega)
    linarith
  have rc : (a = 0 ∧ a' = 0) ∨ a + 2 ≤ r := by
    rcases hlo with ⟨c1, c2, -⟩ | hl
    · exact .inl ⟨c1, c2⟩
    · refine .inr ?_
      by_contra hc
      have := d4 (by omega)
      have := h.getD_le (i := r + 1) (j := a + 2) (by omega) (by omega)
      linarith
  obtain ⟨j, rfl⟩ := Nat.exists_eq_add_of_le ra
  have k1 := hs.k j (by omega)
  have k2 := hs.k (j + 1) (by omega)
  have d4 := d4 (by omega)
  rw [k1] at d3
  rw [show a + j + 1 = a + (j + 1) by omega, k2] at d4
  have y1 : t'.k.getD 0 0 ≤ q := (h'.getD_le (by omega) (by omega)).trans d3
  have y2 : q ≤ t'.k.getD (t'.nk - 1) 0 := d4.le.trans (h'.getD_le (by omega) (by omega))
  obtain ⟨r', f1, f2, f3, f4⟩ := exists_bracket t' h' e2 q y1
  have : r' = a' + j := interval_unique h' f2 f3 f4 (by omega) d3 (by rw [show a' + j + 1 = a' + (j + 1) by omega]; exact d4)
  subst this
  rw [look_eq_lookup h e1, look_eq_lookup h' e2]
  cases i
  · rw [lookup_in_lin t h e1 q z1 z2 _ d1 (by omega), lookup_in_lin t' h' e2 q y1 y2 _ f1 (by omega)]
    rw [show a + j + 1 = a + (j + 1) by omega, show a' + j + 1 = a' + (j + 1) by omega, k1, k2, hs.pk j (by omega), hs.pk (j + 1) (by omega)]
  · rw [lookup_in_poly t h e1 q z1 z2 _ d1 d2, lookup_in_poly t' h' e2 q y1 y2 _ f1 f2]
    have m1 : min (t.nk - 1) (a + j + 2) = a + j + 2 := by omega
    have m2 : min (t'.nk - 1) (a' + j + 2) = a' + j + 2 := by omega
    have m3 : a' + j + 2 - (a' + j - 2) + 1 = a + j + 2 - (a + j - 2) + 1 := by omega
    rw [m1, m2, m3]
    obtain ⟨p, p1, p2⟩ := exists_window_poly t h (a + j - 2) (a + j + 2 - (a + j - 2) + 1) (by omega)
    rw [interpolPoly_window t h q (a + j - 2) _ (by omega) (by omega) p p1 p2,
      interpolPoly_window t' h' q (a' + j - 2) _ (by omega) (by omega) p p1 fun i hi hi' => ?_]
    have hi0 : i = a' + (i - a') := by omega
    have := p2 (a + (i - a')) (by omega) (by omega)
    rw [hs.k (i - a') (by omega), hs.pk (i - a') (by omega), ← hi0] at this
    exact this

/-! ## Displacement variance -/

theorem sigmaInner_local {t t' : Pk ℝ} (h : t.Increasing) (h' : t'.Increasing) {n : ℕ} (hs : Shares t t' 0 0 n) {kmax : ℝ}
    (hk : kmax < t.k.getD (n - 1) 0) : ∀ (m ik f f' : ℕ) (acc : ℝ), ik + m + 2 = n → m < f → m < f' →
      ∃ ik' acc' w, ik' + 1 < n ∧ sigmaInner t kmax f ik acc = .ok (ik', acc', some w) ∧ sigmaInner t' kmax f' ik acc = .ok (ik', acc', some w) := by
  have hl := hs.len; have hl' := hs.len'
  have b1 := h.hsize; have b2 := h.hk; have b3 := h.hpk
  have b1' := h'.hsize; have b2' := h'.hk; have b3' := h'.hpk
  have hm : sizeMod = 2 ^ 64 := rfl
  intro m
  induction m with
  | zero =>
    intro ik f f' acc hn hf hf'
    obtain ⟨f, rfl⟩ := Nat.exists_eq_succ_of_ne_zero (by omega : f ≠ 0)
    obtain ⟨f', rfl⟩ := Nat.exists_eq_succ_of_ne_zero (by omega : f' ≠ 0)
    have q1 := hs.k (ik + 1) (by omega); have q2 := hs.k ik (by omega); have q3 := hs.pk (ik + 1) (by omega); have q4 := hs.pk ik (by omega)
    simp only [Nat.zero_add] at q1 q2 q3 q4
    have hc : kmax < t.k.getD (ik + 1) 0 := by rwa [show ik + 1 = n - 1 by omega]
    have hc' : kmax < t'.k.getD (ik + 1) 0 := by rwa [← q1]
    simp only [sigmaInner]
    rw [subSize_eq (by omega) (by omega), subSize_eq (by omega) (by omega), if_pos (by omega), if_pos (by omega)]
    rw [rd_ok (a := t.k) (i := ik + 1) (by omega), rd_ok (a := t.k) (i := ik) (by omega), rd_ok (a := t.pk) (i := ik + 1) (by omega),
      rd_ok (a := t.pk) (i := ik) (by omega), rd_ok (a := t'.k) (i := ik + 1) (by omega), rd_ok (a := t'.k) (i := ik) (by omega),
      rd_ok (a := t'.pk) (i := ik + 1) (by omega), rd_ok (a := t'.pk) (i := ik) (by omega)]
    simp only [Res.ok_bind, ← getD_eq]
    rw [if_pos (by simpa using hc), if_pos (by simpa using hc'), q1, q2, q3, q4]
    exact ⟨_, _, _, by omega, rfl, rfl⟩
  | succ m ih =>
    intro ik f f' acc hn hf hf'
    obtain ⟨f, rfl⟩ := Nat.exists_eq_succ_of_ne_zero (by omega : f ≠ 0)
    obtain ⟨f', rfl⟩ := Nat.exists_eq_succ_of_ne_zero (by omega : f' ≠ 0)
    have q1 := hs.k (ik + 1) (by omega); have q2 := hs.k ik (by omega); have q3 := hs.pk (ik + 1) (by omega); have q4 := hs.pk ik (by omega)
    simp only [Nat.zero_add] at q1 q2 q3 q4
    simp only [sigmaInner]
    rw [subSize_eq (by omega) (by omega), subSize_eq (by omega) (by omega), if_pos (by omega), if_pos (by omega)]
    rw [rd_ok (a := t.k) (i := ik + 1) (by omega), rd_ok (a := t.k) (i := ik) (by omega), rd_ok (a := t.pk) (i := ik + 1) (by omega),
      rd_ok (a := t.pk) (i := ik) (by omega), rd_ok (a := t'.k) (i := ik + 1) (by omega), rd_ok (a := t'.k) (i := ik) (by omega),
      rd_ok (a := t'.pk) (i := ik + 1) (by omega), rd_ok (a := t'.pk) (i := ik) (by omega)]
    simp only [Res.ok_bind, ← getD_eq]
    rw [q1, q2, q3, q4]
    by_cases hc : Histo.lt kmax (t'.k.getD (ik + 1) 0) = true
    · rw [if_pos hc, if_pos hc]
      exact ⟨_, _, _, by omega, rfl, rfl⟩
    · rw [if_neg hc, if_neg hc]
      exact ih (ik + 1) f f' _ (by omega) (by omega) (by omega)

theorem sigmaLoop_local {t t' : Pk ℝ} (h : t.Increasing) (h' : t'.Increasing) {n : ℕ} (hs : Shares t t' 0 0 n) {uv : ℝ} :
    ∀ (ks : List ℝ) (ik : ℕ) (acc : ℝ), ik + 1 < n → (∀ k ∈ ks, k * uv < t.k.getD (n - 1) 0) →
      sigmaLoop t uv ik acc ks = sigmaLoop t' uv ik acc ks
  | [], _, _, _, _ => rfl
  | k :: ks, ik, acc, hik, hk => by
      have hl := hs.len; have hl' := hs.len'
      have b1 := h.hsize; have b2 := h.hk
      have b1' := h'.hsize; have b2' := h'.hk
      have hm : sizeMod = 2 ^ 64 := rfl
      have q := hs.k 0 (by omega)
      simp only [Nat.zero_add] at q
      simp only [sigmaLoop]
      rw [rd_ok (a := t.k) (i := 0) (by omega), rd_ok (a := t'.k) (i := 0) (by omega), Res.ok_bind, Res.ok_bind, ← getD_eq, ← getD_eq, q]
      by_cases hc : Histo.lt (k * uv) (t'.k.getD 0 0) = true
      · rw [if_pos hc, if_pos hc, sigmaLoop_local h h' hs ks ik acc hik fun k hk' => hk k (by simp [hk'])]
      · rw [if_neg hc, if_neg hc, subSize_eq (by omega) (by omega), subSize_eq (by omega) (by omega)]
        obtain ⟨ik', acc', w, e1, e2, e3⟩ := sigmaInner_local h h' hs (hk k (by simp)) (n - 2 - ik) ik (t.nk - 1 - ik) (t'.nk - 1 - ik) acc
          (by omega) (by omega) (by omega)
        rw [e2, e3, Res.ok_bind, Res.ok_bind]
        dsimp only
        unfold sigmaWritten
        rw [subSize_eq (by omega) (by omega), subSize_eq (by omega) (by omega), if_neg (by omega), if_neg (by omega),
          sigmaLoop_local h h' hs ks ik' acc' e1 fun k hk' => hk k (by simp [hk'])]

/-- Entries beyond the cut-off do not enter the displacement variances. -/
theorem runningSigmad2_local {t t' : Pk ℝ} (h : t.Increasing) (h' : t'.Increasing) {n : ℕ} (h2 : 2 ≤ n) (hs : Shares t t' 0 0 n) {uv : ℝ}
    {ks : List ℝ} (hk : ∀ k ∈ ks, k * uv < t.k.getD (n - 1) 0) : runningSigmad2 t ks uv = runningSigmad2 t' ks uv :=
  sigmaLoop_local h h' hs ks 0 _ (by omega) hk

end Verif
