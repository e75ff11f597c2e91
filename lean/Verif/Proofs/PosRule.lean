import Verif.Proofs.Rule
import Verif.Props.Quadrature
import Verif.Props.FindPk
import Mathlib.Algebra.Order.BigOperators.Ring.Finset

/-!
# Positive rules and non-negative lookups
-/

namespace Verif

/-- Radial and angular rules with positive ascending wavenumbers and non-negative weights. -/
structure PosRule (g : GLQ ℝ) (gm : GLMu ℝ) : Prop where
  len : g.q.length = g.nq
  size : g.nq < 2 ^ 63
  pos : ∀ q ∈ g.q, 0 < q
  asc : g.q.Pairwise (· < ·)
  w : ∀ w ∈ g.w, 0 ≤ w
  wref : ∀ w ∈ gm.wref, 0 ≤ w

theorem getD_nonneg {l : List ℝ} (h : ∀ x ∈ l, 0 ≤ x) (i : ℕ) : 0 ≤ l.getD i 0 := by
  by_cases hi : i < l.length
  · rw [getD_eq hi]; exact h _ (List.getElem_mem hi)
  · simp [List.getD_eq_getElem?_getD, not_lt.mp hi]

theorem quadRange_le {g : GLQ ℝ} {gm : GLMu ℝ} (hr : PosRule g gm) {k : ℝ} (hk : 0 < k) {half : Bool} {iq : ℕ} (hiq : iq < g.nq)
    {lo hi : ℝ} (h : quadRange half (updateGLQ g k) iq = some (lo, hi)) : lo ≤ hi := by
  have hl : (updateGLQ g k).x.length = (updateGLQ g k).nq := by simp [updateGLQ, hr.len]
  have hn : (updateGLQ g k).nq = g.nq := rfl
  have hi' : iq < (updateGLQ g k).x.length := by omega
  obtain ⟨r, h1, h2, _⟩ := C16_muRange half (updateGLQ g k).x (by omega) (by rw [hl]; exact hr.size)
    (by
      intro y hy
      obtain ⟨q, hq, rfl⟩ := List.mem_map.mp hy
      exact div_pos (hr.pos q hq) hk)
    (by
      show (g.q.map (· / k)).Pairwise (· < ·)
      rw [List.pairwise_map]
      exact hr.asc.imp fun h => div_lt_div_of_pos_right h hk)
    ((updateGLQ g k).x.getD iq 0) (by rw [getD_eq hi']; exact List.getElem_mem hi')
  unfold quadRange at h
  rw [← hl, h1] at h
  exact (h2 lo hi h).2.1

/-- The weights of the double loop of a positive rule. -/
theorem quadWeight_nonneg {g : GLQ ℝ} {gm : GLMu ℝ} (hr : PosRule g gm) {k : ℝ} (hk : 0 < k) {half : Bool} {wt : ℝ → ℝ → ℝ}
    (hwt : ∀ x w, 0 ≤ x → 0 ≤ w → 0 ≤ wt x w) {iq : ℕ} (hiq : iq < g.nq) (imu : ℕ) :
    0 ≤ quadWeight half (updateGLQ g k) gm wt iq imu := by
  unfold quadWeight
  split
  · exact le_rfl
  · next lo hi h =>
    have hle := quadRange_le hr hk hiq h
    refine mul_nonneg (getD_nonneg ?_ _) (hwt _ _ (getD_nonneg ?_ _) (getD_nonneg hr.w _))
    · intro y hy
      obtain ⟨w, hw, rfl⟩ := List.mem_map.mp hy
      exact mul_nonneg (hr.wref w hw) (by simp only [lit_real]; norm_num; linarith)
    · intro y hy
      obtain ⟨q, hq, rfl⟩ := List.mem_map.mp hy
      exact (div_pos (hr.pos q hq) hk).le

/-! ## Rules from root searches -/

/-- The nodes found on `[-1,1]` are ascending and inside. -/
def RootsOrdered (rt : ℕ → ℝ × ℝ) (n : ℕ) : Prop :=
  ∀ x w : List ℝ, nodesWeights rt (-1) 1 (malloc ℝ n) (malloc ℝ n) n = .ok (x.map some, w.map some) →
    x.Pairwise (· < ·) ∧ ∀ y ∈ x, -1 < y ∧ y < 1

theorem RootsOrdered.nodes {rt : ℕ → ℝ × ℝ} {n : ℕ} (h : RootsOrdered rt n) (hn : n < 2 ^ 63) :
    ((List.range n).map (nodeAt rt (-1) 1 n)).Pairwise (· < ·) ∧ ∀ i < n, -1 < nodeAt rt (-1) 1 n i ∧ nodeAt rt (-1) 1 n i < 1 := by
  obtain ⟨h1, h2⟩ := h _ _ (nodesWeights_eq rt (-1) 1 _ _ n hn (by simp [malloc]) (by simp [malloc]))
  exact ⟨h1, fun i hi => h2 _ (List.mem_map.mpr ⟨i, by simpa using hi, rfl⟩)⟩

theorem nodeAt_affine (rt : ℕ → ℝ × ℝ) (a b : ℝ) (n i : ℕ) :
    nodeAt rt a b n i = (a + b) / 2 + (b - a) / 2 * nodeAt rt (-1) 1 n i := by
  simp only [nodeAt, lit_real]
  split <;> norm_num <;> ring

theorem RootsOrdered.sq {rt : ℕ → ℝ × ℝ} {n : ℕ} (h : RootsOrdered rt n) (hn : n < 2 ^ 63) {i : ℕ} (hi : i < n) :
    (rt (if 2 * i + 1 < n then i else n - 1 - i)).1 * (rt (if 2 * i + 1 < n then i else n - 1 - i)).1 < 1 := by
  obtain ⟨h1, h2⟩ := (h.nodes hn).2 i hi
  unfold nodeAt at h1 h2
  split at h1 <;> rename_i hc <;> simp only [hc, if_true, if_false, lit_real] at h1 h2 ⊢ <;> norm_num at h1 h2 <;> nlinarith

theorem RootsOrdered.weight {rt : ℕ → ℝ × ℝ} {n : ℕ} (h : RootsOrdered rt n) (hn : n < 2 ^ 63) {a b : ℝ} (hab : a ≤ b) {i : ℕ}
    (hi : i < n) : 0 ≤ weightAt rt a b n i := by
  have := h.sq hn hi
  unfold weightAt
  dsimp only
  simp only [lit_real]
  refine div_nonneg (by push_cast; linarith) ?_
  rw [mul_assoc]
  exact mul_nonneg (by push_cast; linarith) (mul_self_nonneg _)

theorem initGLQ_ok {rt : ℕ → ℝ × ℝ} {t : Pk ℝ} {p : Precision ℝ} {g : GLQ ℝ} (hn : p.n < 2 ^ 63) (h : initGLQ rt t p = .ok g) :
    ∃ a b pk, glqRange t p = .ok (a, b) ∧
      findPk t ((List.range p.n).map fun i => Real.exp (nodeAt rt (Real.log a) (Real.log b) p.n i)) p.interpol = .ok pk ∧
      g = ⟨p.n, 1, (List.range p.n).map fun i => Real.exp (nodeAt rt (Real.log a) (Real.log b) p.n i),
        (List.range p.n).map fun i => Real.exp (nodeAt rt (Real.log a) (Real.log b) p.n i),
        (List.range p.n).map (weightAt rt (Real.log a) (Real.log b) p.n), pk⟩ := by
  unfold initGLQ at h
  obtain ⟨⟨a, b⟩, h1, h⟩ := Res.bind_eq_ok.mp h
  dsimp only at h
  rw [nodesWeights_eq rt _ _ _ _ p.n hn (by simp [malloc]) (by simp [malloc])] at h
  simp only [Res.ok_bind, contents_map_some] at h
  obtain ⟨pk, h2, h⟩ := Res.bind_eq_ok.mp h
  cases h
  rw [List.map_map] at h2 ⊢
  refine ⟨a, b, pk, h1, h2, ?_⟩
  simp only [lit_real]
  norm_num

/-- The settings give a range of positive length: either the one of the table or the given one. -/
def RangeProper (p : Precision ℝ) : Prop := p.min ≤ 0 ∨ p.max ≤ 0 ∨ p.min < p.max

theorem glqRange_lt {t : Pk ℝ} (ht : t.Physical) (h2 : 2 ≤ t.nk) {p : Precision ℝ} (hp : RangeProper p) {a b : ℝ}
    (h : glqRange t p = .ok (a, b)) : 0 < a ∧ a < b := by
  have hs := ht.hsize; have hk := ht.hk
  have hm : sizeMod = 2 ^ 64 := rfl
  unfold glqRange at h
  split at h
  · rw [subSize_eq (by omega) (by omega), rd_ok (a := t.k) (i := 0) (by omega), rd_ok (a := t.k) (i := t.nk - 1) (by omega)] at h
    simp only [Res.ok_bind] at h
    cases h
    exact ⟨ht.kpos _ (List.getElem_mem _), ht.strictMono _ _ (by omega)⟩
  · next hc =>
    cases h
    simp only [lit_real, Bool.or_eq_true, not_or, le_real, not_le] at hc
    push_cast at hc
    rcases hp with hp | hp | hp
    · linarith
    · linarith
    · exact ⟨hc.1, hp⟩

/-- The rule set up by the two initialisations. -/
theorem posRule_init {rt rt' : ℕ → ℝ × ℝ} {t : Pk ℝ} (ht : t.Physical) (h2 : 2 ≤ t.nk) {p : Precision ℝ} (hp : RangeProper p)
    (hn : p.n < 2 ^ 63) (hr : RootsOrdered rt p.n) {g : GLQ ℝ} (hg : initGLQ rt t p = .ok g) {m : ℕ} (hm : m < 2 ^ 63)
    (hr' : RootsOrdered rt' m) {gm : GLMu ℝ} (hgm : initGLMu rt' m = .ok gm) : PosRule g gm := by
  obtain ⟨a, b, pk, h1, h3, rfl⟩ := initGLQ_ok hn hg
  obtain ⟨ha, hab⟩ := glqRange_lt ht h2 hp h1
  have hlog := Real.log_lt_log ha hab
  rw [initGLMu_eq rt' m hm] at hgm
  cases hgm
  refine ⟨by simp, hn, ?_, ?_, ?_, ?_⟩
  · intro q hq
    obtain ⟨i, _, rfl⟩ := List.mem_map.mp hq
    exact Real.exp_pos _
  · have := (hr.nodes hn).1
    rw [List.pairwise_map] at this ⊢
    refine this.imp fun h => Real.exp_lt_exp.mpr ?_
    rw [nodeAt_affine rt (Real.log a), nodeAt_affine rt (Real.log a) _ _ _]
    have : 0 < (Real.log b - Real.log a) / 2 := by linarith
    nlinarith
  · intro w hw
    obtain ⟨i, hi, rfl⟩ := List.mem_map.mp hw
    exact hr.weight hn hlog.le (by simpa using hi)
  · intro w hw
    obtain ⟨i, hi, rfl⟩ := List.mem_map.mp hw
    have := hr'.weight hm (a := -1) (b := 1) (by norm_num) (i := i) (by simpa using hi)
    simpa using this

/-! ## Lookups -/

theorem extrapolLowk_nonneg {t : Pk ℝ} (ht : t.Physical) (hp : ∀ x ∈ t.pk, 0 ≤ x) {k v : ℝ} (hk : 0 ≤ k)
    (h : extrapolLowk t k = .ok v) : 0 ≤ v := by
  unfold extrapolLowk at h
  dsimp only at h
  obtain ⟨r, _, h⟩ := Res.bind_eq_ok.mp h
  rcases r with _ | s
  · cases h; simp
  · simp only [Res.bind_eq_ok] at h
    obtain ⟨p, h1, k0, h2, h⟩ := h
    cases h
    obtain ⟨rfl, l1⟩ := rd_eq_ok h1
    obtain ⟨rfl, l2⟩ := rd_eq_ok h2
    refine mul_nonneg (getD_nonneg hp _) ?_
    exact Real.rpow_nonneg (div_nonneg hk (getD_nonneg (fun x hx => (ht.kpos x hx).le) _)) _

theorem extrapolHighk_nonneg {t : Pk ℝ} (ht : t.Physical) (hp : ∀ x ∈ t.pk, 0 ≤ x) {k v : ℝ} (hk : 0 ≤ k)
    (h : extrapolHighk t k = .ok v) : 0 ≤ v := by
  unfold extrapolHighk at h
  dsimp only at h
  obtain ⟨r, _, h⟩ := Res.bind_eq_ok.mp h
  rcases r with _ | s
  · cases h; simp
  · simp only [Res.bind_eq_ok] at h
    obtain ⟨p, h1, k0, h2, h⟩ := h
    cases h
    obtain ⟨rfl, l1⟩ := rd_eq_ok h1
    obtain ⟨rfl, l2⟩ := rd_eq_ok h2
    refine mul_nonneg (getD_nonneg hp _) ?_
    exact Real.rpow_nonneg (div_nonneg hk (getD_nonneg (fun x hx => (ht.kpos x hx).le) _)) _

/-- With linear interpolation a non-negative table gives non-negative values. -/
theorem lookup_lin_nonneg {t : Pk ℝ} (ht : t.Physical) (h1 : 1 ≤ t.nk) (hp : ∀ x ∈ t.pk, 0 ≤ x) {k v : ℝ} (hk : 0 ≤ k)
    (h : lookup t .lin k = .ok v) : 0 ≤ v := by
  by_cases c1 : t.k.getD (t.nk - 1) 0 < k
  · rw [lookup_high t .lin k c1] at h
    exact extrapolHighk_nonneg ht hp hk h
  · rw [not_lt] at c1
    by_cases c2 : k < t.k.getD 0 0
    · rw [lookup_low t .lin k c1 c2] at h
      exact extrapolLowk_nonneg ht hp hk h
    · rw [not_lt] at c2
      obtain ⟨r, a1, a2, a3, a4⟩ := exists_bracket t ht.toIncreasing h1 k c2
      by_cases hr : r + 1 < t.nk
      · rw [lookup_in_lin t ht.toIncreasing h1 k c2 c1 r a1 hr] at h
        cases h
        have b := a4 hr
        have p0 := getD_nonneg hp r
        have p1 := getD_nonneg hp (r + 1)
        have hd : 0 < t.k.getD (r + 1) 0 - t.k.getD r 0 := by linarith
        unfold interpolLin
        have hf0 : 0 ≤ (k - t.k.getD r 0) / (t.k.getD (r + 1) 0 - t.k.getD r 0) := div_nonneg (by linarith) hd.le
        have hf1 : (k - t.k.getD r 0) / (t.k.getD (r + 1) 0 - t.k.getD r 0) ≤ 1 := by rw [div_le_one hd]; linarith
        nlinarith
      · rw [lookup_in_lin_last t ht.toIncreasing h1 k c2 c1 r a1 (by omega)] at h
        cases h

theorem look_eq_lookup {t : Pk ℝ} (h : t.Increasing) (h1 : 1 ≤ t.nk) (i : Interpol) (k : ℝ) : look t i k = lookup t i k := by
  unfold look
  rw [findPk_single t h h1]
  cases lookup t i k <;> rfl

theorem look_lin_nonneg {t : Pk ℝ} (ht : t.Physical) (h1 : 1 ≤ t.nk) (hp : ∀ x ∈ t.pk, 0 ≤ x) {k v : ℝ} (hk : 0 ≤ k)
    (h : look t .lin k = .ok v) : 0 ≤ v := lookup_lin_nonneg ht h1 hp hk (look_eq_lookup ht.toIncreasing h1 .lin k ▸ h)

theorem findPk_lin_nonneg {t : Pk ℝ} (ht : t.Physical) (h1 : 1 ≤ t.nk) (hp : ∀ x ∈ t.pk, 0 ≤ x) {ks vs : List ℝ}
    (hks : ks.Pairwise (· ≤ ·)) (hk : ∀ k ∈ ks, 0 ≤ k) (h : findPk t ks .lin = .ok vs) : ∀ v ∈ vs, 0 ≤ v := by
  obtain ⟨hl, hv⟩ := C07_findPk_pointwise_partial t ht.toIncreasing h1 .lin ks hks vs h
  intro v hvm
  obtain ⟨i, hi, rfl⟩ := List.getElem_of_mem hvm
  have := hv i (by omega) hi
  rw [findPk_single t ht.toIncreasing h1] at this
  obtain ⟨u, h2, h3⟩ := Res.bind_eq_ok.mp this
  cases h3
  exact lookup_lin_nonneg ht h1 hp (hk _ (List.getElem_mem _)) h2

end Verif
