import Verif.Proofs.PosRule
import Verif.Proofs.Safe

/-!
# Definedness in `lin` mode

In this mode the last tabulated wavenumber must not be looked up, so it matters which points the integrals visit.
-/

namespace Verif

open Res

/-- The double loop is defined as soon as the integrand is at the points it visits. -/
theorem quadLoop_defined_on {ι : Type} {half : Bool} {g : GLQ ℝ} {gm : GLMu ℝ} {kern : ℕ → ℝ → Res (ι → ℝ)}
    {extra : ℕ → Res (ι → ℝ)} {wt : ℝ → ℝ → ℝ} (hx : g.x.length = g.nq) (hw : g.w.length = g.nq) (hn : g.nq < 2 ^ 63) (hm : gm.Fit)
    (hk : ∀ iq < g.nq, ∀ lo hi, quadRange half g iq = some (lo, hi) → ∀ mu ∈ (updateGLMu gm lo hi).mu, (kern iq mu).defined)
    (he : ∀ iq < g.nq, (extra iq).defined) : ∃ s, quadLoop half g gm kern extra wt = .ok s ∧ s.1.Fit ∧ SameMu s.1 gm := by
  rw [quadLoop_eq]
  exact forRange_inv (P := fun _ s => s.1.Fit ∧ SameMu s.1 gm) (Nat.zero_le g.nq) (s := (gm, fun _ : ι => (0 : ℝ)))
    (body := quadBody half g kern extra wt) ⟨hm, SameMu.refl _⟩ fun iq s _ hiq hs => by
      have : ∃ r, muRange half g.x g.nq (g.x[iq]'(by omega)) = .ok r := by
        rw [← hx]
        exact C16_muRange_safe half g.x _ (by omega) (by omega)
      obtain ⟨r, hr⟩ := this
      have hq : quadRange half g iq = r := by
        unfold quadRange
        rw [getD_eq (by omega), hr]
      unfold quadBody
      rw [rd_ok (by omega), ok_bind, hr, ok_bind]
      rcases r with _ | ⟨lo, hi⟩
      · exact ⟨s, rfl, hs⟩
      · dsimp only
        rw [hs.2.update_eq lo hi]
        have hf := updateGLMu_fit hm lo hi
        obtain ⟨v, hv⟩ : (forRange 0 (updateGLMu gm lo hi).nmu (fun _ : ι => (0 : ℝ)) fun imu acc => do
            let mu ← rd (updateGLMu gm lo hi).mu imu
            let kr ← kern iq mu
            let w ← rd (updateGLMu gm lo hi).w imu
            .ok (fun i : ι => acc i + kr i * w)).defined := by
          refine forRange_defined (Nat.zero_le _) fun imu acc _ himu => ?_
          have himu : imu < gm.nmu := himu
          have hl : imu < (updateGLMu gm lo hi).mu.length := by simpa [updateGLMu, hm.hm] using himu
          refine (rd_defined hl).bind fun mu hmu => ?_
          rw [rd_ok hl] at hmu
          injection hmu with hmu
          refine (hk iq hiq lo hi hq mu (hmu ▸ List.getElem_mem hl)).bind fun _ _ => ?_
          exact (rd_defined (by simpa [updateGLMu, hm.hw] using himu)).bind fun _ _ => .ok _
        rw [hv, ok_bind]
        obtain ⟨ex, hex⟩ := he iq hiq
        rw [hex, ok_bind, rd_ok (by omega), ok_bind]
        exact ⟨_, rfl, hf, sameMu_update gm lo hi⟩

/-- The modulus of `k-q` at a visited point is between the first and the last node. -/
theorem visited_range {g : GLQ ℝ} {gm : GLMu ℝ} (hr : PosRule g gm) (hmu : ∀ m ∈ gm.muref, -1 < m ∧ m < 1) {k : ℝ} (hk : 0 < k)
    {half : Bool} {iq : ℕ} (hiq : iq < g.nq) {lo hi : ℝ} (h : quadRange half (updateGLQ g k) iq = some (lo, hi)) {mu : ℝ}
    (hm : mu ∈ (updateGLMu gm lo hi).mu) :
    g.q.getD 0 0 ≤ k * Real.sqrt (1 + (g.q.getD iq 0 / k) * (g.q.getD iq 0 / k) - 2 * mu * (g.q.getD iq 0 / k)) ∧
      k * Real.sqrt (1 + (g.q.getD iq 0 / k) * (g.q.getD iq 0 / k) - 2 * mu * (g.q.getD iq 0 / k)) ≤ g.q.getD (g.nq - 1) 0 := by
  have hl : (updateGLQ g k).x.length = (updateGLQ g k).nq := by simp [updateGLQ, hr.len]
  have hn : (updateGLQ g k).nq = g.nq := rfl
  have hi' : iq < (updateGLQ g k).x.length := by omega
  obtain ⟨r, h1, h2, _⟩ := C16_muRange half (updateGLQ g k).x (by omega) (by rw [hl]; exact hr.size)
    (by
      intro y hy
      obtain ⟨q, hq, rfl⟩ := List.mem_map.mp hy
      exact div_pos (hr.pos q hq) hk)
    (by
      show (g.q.map (· / k)).Pairwise (· < ·)
      rw [List.pairwise_map]
      exact hr.asc.imp fun h => div_lt_div_of_pos_right h hk)
    ((updateGLQ g k).x.getD iq 0) (by rw [getD_eq hi']; exact List.getElem_mem hi')
  unfold quadRange at h
  rw [← hl, h1] at h
  obtain ⟨-, c1, -, c2⟩ := h2 lo hi h
  have hx : ∀ i < g.nq, (updateGLQ g k).x.getD i 0 = g.q.getD i 0 / k := by
    intro i hi
    have := hr.len
    simp only [updateGLQ]
    rw [getD_eq (by simpa using (by omega : i < g.q.length)), getD_eq (by omega)]
    simp
  have hmr : lo ≤ mu ∧ mu ≤ hi := by
    obtain ⟨m, hm', rfl⟩ := List.mem_map.mp hm
    obtain ⟨m1, m2⟩ := hmu m hm'
    simp only [lit_real]
    push_cast
    constructor <;> nlinarith
  obtain ⟨d1, d2, -⟩ := c2 mu hmr.1 hmr.2
  rw [hl, hn] at d2
  rw [hx 0 (by omega), hx iq hiq] at d1
  rw [hx iq hiq, hx (g.nq - 1) (by omega)] at d2
  have hpos : ∀ i < g.nq, 0 < g.q.getD i 0 := by
    intro i hi
    have := hr.len
    rw [getD_eq (by omega)]
    exact hr.pos _ (List.getElem_mem _)
  have e : 1 + g.q.getD iq 0 / k * (g.q.getD iq 0 / k) - 2 * mu * (g.q.getD iq 0 / k) =
      1 + (g.q.getD iq 0 / k) ^ 2 - 2 * mu * (g.q.getD iq 0 / k) := by ring
  rw [e]
  constructor
  · have : g.q.getD 0 0 / k ≤ Real.sqrt (1 + (g.q.getD iq 0 / k) ^ 2 - 2 * mu * (g.q.getD iq 0 / k)) := Real.le_sqrt_of_sq_le d1
    calc g.q.getD 0 0 = k * (g.q.getD 0 0 / k) := by field_simp
      _ ≤ _ := mul_le_mul_of_nonneg_left this hk.le
  · have : Real.sqrt (1 + (g.q.getD iq 0 / k) ^ 2 - 2 * mu * (g.q.getD iq 0 / k)) ≤ g.q.getD (g.nq - 1) 0 / k :=
      Real.sqrt_le_iff.mpr ⟨(div_pos (hpos _ (by omega)) hk).le, d2⟩
    calc k * _ ≤ k * (g.q.getD (g.nq - 1) 0 / k) := mul_le_mul_of_nonneg_left this hk.le
      _ = _ := by field_simp

theorem look_lin_safe {t : Pk ℝ} (h : t.Increasing) (h2 : 2 ≤ t.nk) {k : ℝ} (hk : k ≠ t.k.getD (t.nk - 1) 0) :
    (look t .lin k).defined := by
  refine (C06_findPk_lin_safe_partial t h h2 [k] (by simpa using hk)).bind fun l hl => rd_defined ?_
  rw [findPk_length hl]
  simp

/-- Range of a radial table strictly below the last tabulated wavenumber, or the whole table. -/
def RangeInside (t : Pk ℝ) (p : Precision ℝ) : Prop := p.min ≤ 0 ∨ p.max ≤ 0 ∨ p.max ≤ t.k.getD (t.nk - 1) 0

theorem glqRange_inside {t : Pk ℝ} (ht : t.Physical) (h2 : 2 ≤ t.nk) {p : Precision ℝ} (hp : RangeInside t p) {a b : ℝ}
    (h : glqRange t p = .ok (a, b)) : b ≤ t.k.getD (t.nk - 1) 0 := by
  have hs := ht.hsize; have hk := ht.hk
  have hm : sizeMod = 2 ^ 64 := rfl
  unfold glqRange at h
  split at h
  · rw [subSize_eq (by omega) (by omega), rd_ok (a := t.k) (i := 0) (by omega), rd_ok (a := t.k) (i := t.nk - 1) (by omega)] at h
    simp only [Res.ok_bind] at h
    cases h
    rw [getD_eq (by omega)]
  · next hc =>
    cases h
    simp only [lit_real, Bool.or_eq_true, not_or, le_real, not_le] at hc
    push_cast at hc
    rcases hp with hp | hp | hp
    · linarith
    · linarith
    · exact hp

/-- In `lin` mode a radial table over a range inside the linear spectrum is set up without undefined behaviour, and its nodes are below the
last tabulated wavenumber. -/
theorem initGLQ_lin {rt : ℕ → ℝ × ℝ} {t : Pk ℝ} (ht : t.Physical) (h2 : 2 ≤ t.nk) {p : Precision ℝ} (hp : RangeProper p)
    (hi : RangeInside t p) (hl : p.interpol = .lin) (hn : p.n < 2 ^ 63) (hr : RootsOrdered rt p.n) :
    ∃ g, initGLQ rt t p = .ok g ∧ g.Fit ∧ g.nq = p.n ∧ ∀ q ∈ g.q, 0 < q ∧ q < t.k.getD (t.nk - 1) 0 := by
  obtain ⟨⟨a, b⟩, hg⟩ : (glqRange t p).defined := by
    unfold glqRange
    refine defined.ite (fun _ => ?_) fun _ => .ok _
    have := ht.hk; have := ht.hsize
    have hm : sizeMod = 2 ^ 64 := rfl
    refine (rd_defined (by omega)).bind fun _ _ => (rd_defined ?_).bind fun _ _ => .ok _
    rw [subSize_eq (by omega) (by omega)]
    omega
  obtain ⟨ha, hab⟩ := glqRange_lt ht h2 hp hg
  have hb := glqRange_inside ht h2 hi hg
  have hlog := Real.log_lt_log ha hab
  have hq : ∀ q ∈ ((List.range p.n).map (nodeAt rt (Real.log a) (Real.log b) p.n)).map Real.exp, 0 < q ∧ q < t.k.getD (t.nk - 1) 0 := by
    intro q hq
    rw [List.map_map] at hq
    obtain ⟨i, hi, rfl⟩ := List.mem_map.mp hq
    refine ⟨Real.exp_pos _, lt_of_lt_of_le ?_ hb⟩
    have hlt := ((hr.nodes hn).2 i (by simpa using hi)).2
    show Real.exp (nodeAt rt (Real.log a) (Real.log b) p.n i) < b
    rw [← Real.lt_log_iff_exp_lt (ha.trans hab), nodeAt_affine]
    nlinarith
  unfold initGLQ
  rw [hg, ok_bind]
  dsimp only
  rw [nodesWeights_eq rt _ _ _ _ p.n hn (by simp [malloc]) (by simp [malloc]), ok_bind]
  dsimp only
  rw [contents_map_some, ok_bind, contents_map_some, ok_bind, hl]
  obtain ⟨pk, hpk⟩ := C06_findPk_lin_safe_partial t ht.toIncreasing h2 _ fun k hk => (hq k hk).2.ne
  erw [hpk, ok_bind]
  exact ⟨_, rfl, ⟨by simp, by simp, by rw [findPk_length hpk]; simp, hn⟩, rfl, hq⟩

/-- Angular nodes of the reference interval. -/
theorem initGLMu_in {rt : ℕ → ℝ × ℝ} {n : ℕ} (hn : n < 2 ^ 63) (hr : RootsOrdered rt n) {g : GLMu ℝ} (h : initGLMu rt n = .ok g) :
    ∀ m ∈ g.muref, -1 < m ∧ m < 1 := by
  rw [initGLMu_eq rt n hn] at h
  cases h
  intro m hm
  obtain ⟨i, hi, rfl⟩ := List.mem_map.mp hm
  have := (hr.nodes hn).2 i (by simpa using hi)
  simpa using this

/-- Tables whose points stay below the last wavenumber of the linear spectrum `t`. -/
structure LinTab (t : Pk ℝ) (g : GLQ ℝ) (gm : GLMu ℝ) : Prop where
  fit : g.Fit
  fitMu : gm.Fit
  rule : PosRule g gm
  mu : ∀ m ∈ gm.muref, -1 < m ∧ m < 1
  q : ∀ q ∈ g.q, q < t.k.getD (t.nk - 1) 0

section

variable {t : Pk ℝ} (ht : t.Physical) (h2 : 2 ≤ t.nk) {g : GLQ ℝ} {gm : GLMu ℝ} (hT : LinTab t g gm) {k : ℝ} (hk : 0 < k)

include hT in
/-- Tables left by an integral. -/
theorem LinTab.update {gm' : GLMu ℝ} (hf : gm'.Fit) (hs : SameMu gm' gm) : LinTab t (updateGLQ g k) gm' := by
  obtain ⟨e1, e2, e3⟩ := hs
  refine ⟨⟨hT.fit.hq, hT.fit.hw, hT.fit.hpk, hT.fit.hn⟩, hf, ⟨hT.rule.len, hT.rule.size, hT.rule.pos, hT.rule.asc, hT.rule.w, ?_⟩, ?_, hT.q⟩
  · rw [e3]; exact hT.rule.wref
  · rw [e2]; exact hT.mu

include ht h2 hT hk

/-- Lookups at visited points are defined. -/
theorem look_visited {half : Bool} {iq : ℕ} (hiq : iq < g.nq) {lo hi : ℝ} (h : quadRange half (updateGLQ g k) iq = some (lo, hi)) {mu x : ℝ}
    (hm : mu ∈ (updateGLMu gm lo hi).mu) (hx : rd (updateGLQ g k).x iq = .ok x) :
    (look t .lin (k * Real.sqrt (1 + x * x - 2 * mu * x))).defined := by
  have hx' : x = g.q.getD iq 0 / k := by
    rw [← (rd_eq_ok hx).1]
    have := hT.fit.hq
    simp only [updateGLQ]
    rw [getD_eq (by simpa using (by omega : iq < g.q.length)), getD_eq (by omega)]
    simp
  have := (visited_range hT.rule hT.mu hk hiq h hm).2
  refine look_lin_safe ht.toIncreasing h2 (ne_of_lt ?_)
  rw [hx']
  refine lt_of_le_of_lt this (hT.q _ ?_)
  have := hT.fit.hq
  rw [getD_eq (by omega)]
  exact List.getElem_mem _

/-- Integrals over the tables are defined when the integrand is where `|k-q|` can be looked up. -/
theorem quadLoop_lin {ι : Type} {half : Bool} {kern : ℕ → ℝ → Res (ι → ℝ)} {extra : ℕ → Res (ι → ℝ)} {wt : ℝ → ℝ → ℝ}
    (hkern : ∀ iq < g.nq, ∀ mu, (∀ x, rd (updateGLQ g k).x iq = .ok x → (look t .lin (k * Real.sqrt (1 + x * x - 2 * mu * x))).defined) →
      (kern iq mu).defined) (he : ∀ iq < g.nq, (extra iq).defined) :
    ∃ s, quadLoop half (updateGLQ g k) gm kern extra wt = .ok s ∧ s.1.Fit ∧ SameMu s.1 gm :=
  quadLoop_defined_on (g := updateGLQ g k) (by simp [updateGLQ, hT.fit.hq]) hT.fit.hw hT.fit.hn hT.fitMu
    (fun iq hiq _ _ hrg mu hmem => hkern iq hiq mu fun _ hx => look_visited ht h2 hT hk hiq hrg hmem hx) he

theorem calcGamma2Tree_lin_defined (a b : Field) : (calcGamma2Tree t .lin a b g gm k).defined := by
  unfold calcGamma2Tree
  refine defined.bind ?_ fun _ _ => .ok _
  obtain ⟨s, h, _⟩ := quadLoop_lin (half := true) (kern := kernelGamma2Tree t .lin a b (updateGLQ g k))
    (extra := noExtra) (wt := fun x w => x * x * x * w) ht h2 hT hk
    (fun iq hiq mu hl => by
      obtain ⟨r1, r2, r3⟩ := hT.fit.reads hiq k
      exact r1.bind fun x hx => r2.bind fun _ _ => r3.bind fun _ _ => (hl x hx).bind fun _ _ => .ok _)
    fun iq _ => noExtra_defined iq
  exact ⟨s, h⟩

theorem calcGamma2Loop_lin_defined {gd gt : GLQ ℝ} (hd : gd.Fit) (hgt : gt.Fit) (a b : Field) :
    (calcGamma2Loop t .lin gd gt a b g gm k).defined := by
  unfold calcGamma2Loop
  refine defined.bind ?_ fun _ _ => .ok _
  obtain ⟨s, h, _⟩ := quadLoop_lin (half := true) (kern := kernelGamma2Loop t .lin gd gt a b (updateGLQ g k))
    (extra := noExtra) (wt := fun x w => x * x * x * w) ht h2 hT hk
    (fun iq hiq mu hl => by
      obtain ⟨r1, r2, r3⟩ := hT.fit.reads hiq k
      refine r1.bind fun x hx => r2.bind fun _ _ => r3.bind fun _ _ => (hl x hx).bind fun _ _ => ?_
      refine (gamma2StdPT_defined hd hgt _ _ _ _ _).bind fun _ _ => (gamma2StdPT_defined hd hgt _ _ _ _ _).bind fun _ _ => ?_
      refine (other_defined (gamma2StdPT_defined hd hgt _ _ _ _ _)).bind fun _ _ => ?_
      exact (other_defined (gamma2StdPT_defined hd hgt _ _ _ _ _)).bind fun _ _ => .ok _)
    fun iq _ => noExtra_defined iq
  exact ⟨s, h⟩

theorem calcBias_lin (a : Field) (kn : BiasKernel) (half : Bool) :
    ∃ r, calcBias t .lin a kn half g gm k = .ok r ∧ LinTab t r.1.1 r.1.2 := by
  obtain ⟨s, h1, h3, h4⟩ := quadLoop_lin (half := half) (kern := kernelPkBias t .lin kn a (updateGLQ g k)) (extra := noExtra)
    (wt := fun x w => if half then x * x * x * w * 2 else x * x * x * w) ht h2 hT hk
    (fun iq hiq mu hl => by
      obtain ⟨r1, r2, r3⟩ := hT.fit.reads hiq k
      exact r1.bind fun x hx => r2.bind fun _ _ => r3.bind fun _ _ => (hl x hx).bind fun _ _ => .ok _)
    fun iq _ => noExtra_defined iq
  unfold calcBias
  dsimp only
  rw [h1]
  exact ⟨_, rfl, hT.update h3 h4⟩

theorem calcA1_lin_defined (hne : k ≠ t.k.getD (t.nk - 1) 0) : (calcA1 t .lin .lin g gm k).defined := by
  unfold calcA1
  refine (look_lin_safe ht.toIncreasing h2 hne).bind fun pk _ => ?_
  refine defined.bind ?_ fun _ _ => .ok _
  obtain ⟨s, h, _⟩ := quadLoop_lin (half := false) (kern := kernelA1 t .lin (updateGLQ g k) pk) (extra := kernelA1a (updateGLQ g k) pk)
    (wt := fun x w => x * w) ht h2 hT hk
    (fun iq hiq mu hl => by
      obtain ⟨r1, r2, r3⟩ := hT.fit.reads hiq k
      refine r1.bind fun x hx => r3.bind fun _ _ => Res.defined.bind ?_ fun _ _ => .ok _
      have e : 1 + pw x 2 - 2 * pw mu 1 * pw x 1 = 1 + x * x - 2 * mu * x := by simp [pw, pow_two]
      rw [e]
      exact hl x hx)
    fun iq hiq => by
      obtain ⟨r1, r2, r3⟩ := hT.fit.reads hiq k
      exact r1.bind fun _ _ => r3.bind fun _ _ => .ok _
  exact ⟨s, h⟩

end

/-- Radial points of the third-order integral are below the upper end of the range. -/
theorem g3_le {qmin qmax x : ℝ} (h0 : 0 < qmin) (h : qmin ≤ qmax) (hx : 0 ≤ x ∧ x ≤ 1) :
    Real.exp (Real.log qmin + (Real.log qmax - Real.log qmin) * x) ≤ qmax := by
  have := Real.log_le_log h0 h
  rw [← Real.le_log_iff_exp_le (by linarith)]
  nlinarith [hx.1, hx.2]

theorem kernelGamma3_lin_defined {t : Pk ℝ} (ht : t.Physical) (h2 : 2 ≤ t.nk) (a b : Field) (k : ℝ) {qmin qmax : ℝ} (h0 : 0 < qmin)
    (hle : qmin ≤ qmax) (hlt : qmax < t.k.getD (t.nk - 1) 0) {xx : Fin 5 → ℝ} (hx : ∀ j, 0 ≤ xx j ∧ xx j ≤ 1) :
    (kernelGamma3 t .lin a b k qmin qmax xx).defined := by
  unfold kernelGamma3
  dsimp only
  refine defined.ite (fun hc => ?_) fun _ => .ok _
  have hl : ∀ κ, κ ≤ qmax → (look t .lin κ).defined := fun κ hκ => look_lin_safe ht.toIncreasing h2 (ne_of_lt (lt_of_le_of_lt hκ hlt))
  exact (hl _ (g3_le h0 hle (hx 0))).bind fun _ _ => (hl _ (g3_le h0 hle (hx 3))).bind fun _ _ => (hl _ hc.2.1).bind fun _ _ => .ok _

end Verif
