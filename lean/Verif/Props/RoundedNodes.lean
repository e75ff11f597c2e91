import Verif.Props.RoundedLookup

/-!
# C97 – polynomial interpolation returns the tabulated values under rounding
-/

namespace Verif

section generic

variable {α : Type} [Add α] [Sub α] [Mul α] [Div α] [Neg α] [Histo α]

/-- `interpolPoly_rule` with the relation known for the closest node only. -/
theorem interpolPoly_from (x : α) (tabx taby : List α) (nx : ℕ) (X Y : ℕ → α) (h0 : 0 < nx) (hsz : nx < 2 ^ 63)
    (hX : ∀ i < nx, tabx[i]? = some (X i)) (hY : ∀ i < nx, taby[i]? = some (Y i)) (Q : ℕ → ℕ → α → Prop)
    (hQ0 : ∀ s, polyInit x tabx taby nx = .ok s → Q 0 s.ixclose (Y s.ixclose))
    (hQc : ∀ j a y, a + j + 1 < nx → Q j a y → Q (j + 1) a (y + (tableau x X Y (j + 1) a).1))
    (hQd : ∀ j a y, a + j + 1 < nx → Q j (a + 1) y → Q (j + 1) a (y + (tableau x X Y (j + 1) a).2)) :
    ∃ y, interpolPoly x tabx taby nx = .ok y ∧ Q (nx - 1) 0 y := by
  obtain ⟨s, h1, h2, h3, h4, h5, h6⟩ := polyInit_ok x tabx taby nx X Y h0 hX hY
  have hm : sizeMod = 2 ^ 64 := rfl
  have hq0 := hQ0 s h1
  unfold interpolPoly
  rw [h1]
  simp only [Res.ok_bind]
  have hrdy : rd taby s.ixclose = .ok (Y s.ixclose) := by simp [rd, hY _ h2]
  rw [hrdy]
  simp only [Res.ok_bind]
  obtain ⟨s', g1, g2⟩ := forRange_inv (lo := 1) (hi := nx)
    (s := (⟨s.c, s.d, Y s.ixclose, subSize s.ixclose 1⟩ : PolyState α)) (body := polyStep x tabx nx)
    (fun jx s => s.c.length = nx ∧ s.d.length = nx ∧
      (∀ i < nx - (jx - 1), s.c[i]? = some (some (tableau x X Y (jx - 1) i).1)) ∧
      (∀ i < nx - (jx - 1), s.d[i]? = some (some (tableau x X Y (jx - 1) i).2)) ∧
      ∃ a, a ≤ nx - jx ∧ s.ixclose = subSize a 1 ∧ Q (jx - 1) a s.y)
    h0 ⟨h3, h4, by simpa [tableau] using h5, by simpa [tableau] using h6, s.ixclose, by omega, rfl, hq0⟩
    (by
      intro jx s hj hjn ⟨a1, a2, a3, a4, a, a5, a6, a7⟩
      obtain ⟨j, rfl⟩ : ∃ j, jx = j + 1 := ⟨jx - 1, by omega⟩
      simp only [Nat.add_sub_cancel] at a3 a4 a7 ⊢
      obtain ⟨c', d', b1, b2, b3, b4, b5⟩ := polyColumn_ok x tabx nx j X Y (by omega) hX s.c s.d a1 a2 a3 a4
      have ha : addSize s.ixclose 1 = a := by rw [a6]; exact addSize_subSize (by omega)
      unfold polyStep
      rw [b1]
      simp only [Res.ok_bind, ha]
      rw [mulSize_eq (by omega)]
      by_cases hc : 2 * a < nx - (j + 1)
      · rw [if_pos hc, Buf.rd_ok (b4 a (by omega))]
        simp only [Res.ok_bind]
        exact ⟨_, rfl, b2, b3, b4, b5, a, by omega, a6, hQc j a s.y (by omega) a7⟩
      · rw [if_neg hc]
        have ha1 : 1 ≤ a := by omega
        have hix : s.ixclose = a - 1 := by rw [a6, subSize_eq ha1 (by omega)]
        rw [hix, Buf.rd_ok (b5 (a - 1) (by omega))]
        simp only [Res.ok_bind]
        refine ⟨_, rfl, b2, b3, b4, b5, a - 1, by omega, rfl, ?_⟩
        apply hQd j (a - 1) s.y (by omega)
        have : a - 1 + 1 = a := by omega
        rw [this]; exact a7)
  rw [g1]
  simp only [Res.ok_bind]
  obtain ⟨-, -, -, -, a, ha, -, hq⟩ := g2
  refine ⟨_, rfl, ?_⟩
  have : a = 0 := by omega
  rw [this] at hq
  exact hq

end generic

variable {r : ℝ → ℝ}

/-- At a node the first loop of `interpol_poly` finds that node, if no other node is at zero distance after rounding. -/
theorem polyInit_node (hz : r 0 = 0) (x : Fl r) (tabx taby : List (Fl r)) (nx : ℕ) (X Y : ℕ → Fl r) (J : ℕ) (hJ : J < nx)
    (hX : ∀ i < nx, tabx[i]? = some (X i)) (hY : ∀ i < nx, taby[i]? = some (Y i)) (hx : x.val = (X J).val)
    (hne : ∀ i < nx, i ≠ J → r (x.val - (X i).val) ≠ 0) (s : PolyInit (Fl r)) (h : polyInit x tabx taby nx = .ok s) : s.ixclose = J := by
  have hrd : ∀ i < nx, rd tabx i = .ok (X i) := fun i hi => by simp [rd, hX i hi]
  have hrdy : ∀ i < nx, rd taby i = .ok (Y i) := fun i hi => by simp [rd, hY i hi]
  have dist : ∀ i, (Histo.abs (x - X i) : Fl r).val = |r (x.val - (X i).val)| := fun i => rfl
  unfold polyInit at h
  rw [hrd 0 (by omega)] at h
  simp only [Res.ok_bind] at h
  obtain ⟨s', h1, h2⟩ := forRange_inv (lo := 0) (hi := nx)
    (s := (⟨0, Histo.abs (x - X 0), malloc (Fl r) nx, malloc (Fl r) nx⟩ : PolyInit (Fl r)))
    (body := fun ix s => do
      let xi ← rd tabx ix
      let tmpdiff := Histo.abs (x - xi)
      let yi ← rd taby ix
      let c ← s.c.wr ix yi
      let d ← s.d.wr ix yi
      if Histo.lt tmpdiff s.diff then .ok ⟨ix, tmpdiff, c, d⟩ else .ok ⟨s.ixclose, s.diff, c, d⟩)
    (fun j s => s.ixclose < nx ∧ s.diff = Histo.abs (x - X s.ixclose) ∧ s.c.length = nx ∧ s.d.length = nx ∧ (J < j → s.ixclose = J))
    (Nat.zero_le _) ⟨Nat.lt_of_le_of_lt (Nat.zero_le J) hJ, rfl, by simp [malloc], by simp [malloc], by omega⟩
    (by
      intro j s _ hj ⟨a1, a2, a3, a4, a5⟩
      rw [hrd j hj, hrdy j hj]
      simp only [Res.ok_bind]
      rw [Buf.wr_ok (by omega), Buf.wr_ok (by omega)]
      simp only [Res.ok_bind]
      by_cases hc : Histo.lt (Histo.abs (x - X j)) s.diff = true
      · rw [if_pos hc]
        refine ⟨_, rfl, hj, rfl, by simpa using a3, by simpa using a4, fun hJj => ?_⟩
        rcases Nat.lt_succ_iff_lt_or_eq.1 hJj with c | c
        · rw [Fl.lt_iff, a2, a5 c, dist, dist, hx, sub_self, hz, abs_zero] at hc
          exact absurd hc (not_lt.2 (abs_nonneg _))
        · exact c.symm
      · rw [if_neg hc]
        refine ⟨_, rfl, a1, a2, by simpa using a3, by simpa using a4, fun hJj => ?_⟩
        rcases Nat.lt_succ_iff_lt_or_eq.1 hJj with c | c
        · exact a5 c
        · by_contra hcl
          subst c
          rw [Fl.lt_iff, a2, dist, dist] at hc
          refine hc ?_
          rw [show x.val - (X J).val = 0 by rw [hx, sub_self], hz, abs_zero]
          exact abs_pos.2 (hne _ a1 hcl))
  rw [h1, Res.ok.injEq] at h
  rw [← h]
  exact h2.2.2.2.2 hJ

/-- At a node all corrections between interpolants that use the node vanish exactly. -/
theorem tableau_node (hz : r 0 = 0) (x : Fl r) (X Y : ℕ → Fl r) (J : ℕ) (hx : x.val = (X J).val) : ∀ j a : ℕ,
    (a ≤ J → J ≤ a + j → (tableau x X Y (j + 1) a).1.val = 0) ∧ (a + 1 ≤ J → J ≤ a + 1 + j → (tableau x X Y (j + 1) a).2.val = 0) := by
  intro j
  induction j with
  | zero =>
    intro a
    constructor <;> intro c1 c2
    · obtain rfl : a = J := by omega
      simp [tableau, hx, hz]
    · obtain rfl : a + 1 = J := by omega
      simp [tableau, hx, hz]
  | succ j ih =>
    intro a
    have mid : a + 1 ≤ J → J ≤ a + 1 + j → (tableau x X Y (j + 1) (a + 1)).1.val = 0 ∧ (tableau x X Y (j + 1) a).2.val = 0 :=
      fun c1 c2 => ⟨(ih (a + 1)).1 c1 c2, (ih a).2 c1 c2⟩
    constructor <;> intro c1 c2
    · rw [tableau]
      rcases Nat.eq_or_lt_of_le c1 with c | c
      · subst c
        simp [hx, hz]
      · obtain ⟨m1, m2⟩ := mid c (by omega)
        simp [m1, m2, hz]
    · rw [tableau]
      rcases Nat.eq_or_lt_of_le c2 with c | c
      · have : a + (j + 1 + 1) = J := by omega
        simp [this, hx, hz]
      · obtain ⟨m1, m2⟩ := mid c1 (by omega)
        simp [m1, m2, hz]

/-- C97, `interpol_poly` under rounding: at a node the tabulated value is returned exactly. -/
theorem C97_interpol_poly_node (hz : r 0 = 0) (x : Fl r) (tabx taby : List (Fl r)) (nx : ℕ) (hsz : nx < 2 ^ 63) (X Y : ℕ → Fl r) (J : ℕ) (hJ : J < nx)
    (hX : ∀ i < nx, tabx[i]? = some (X i)) (hY : ∀ i < nx, taby[i]? = some (Y i)) (hx : x.val = (X J).val)
    (hne : ∀ i < nx, i ≠ J → r (x.val - (X i).val) ≠ 0) (hr : r (Y J).val = (Y J).val) :
    ∃ y, interpolPoly x tabx taby nx = .ok y ∧ y.val = (Y J).val := by
  obtain ⟨y, h1, h2⟩ := interpolPoly_from x tabx taby nx X Y (by omega) hsz hX hY (fun j a y => a ≤ J ∧ J ≤ a + j ∧ y.val = (Y J).val)
    (fun s hs => by
      have := polyInit_node hz x tabx taby nx X Y J hJ hX hY hx hne s hs
      rw [this]
      exact ⟨le_rfl, le_rfl, rfl⟩)
    (fun j a y _ ⟨c1, c2, c3⟩ => ⟨c1, by omega, by
      rw [Fl.add_val, (tableau_node hz x X Y J hx j a).1 c1 c2, add_zero, c3, hr]⟩)
    (fun j a y _ ⟨c1, c2, c3⟩ => ⟨by omega, by omega, by
      rw [Fl.add_val, (tableau_node hz x X Y J hx j a).2 c1 c2, add_zero, c3, hr]⟩)
  exact ⟨y, h1, h2.2.2⟩

/-- C97, `find_pk` with polynomial interpolation under rounding: tabulated modes, requested in ascending order, return exactly the
tabulated values, the last mode included. -/
theorem C97_find_pk_nodes (hz : r 0 = 0) (t : Pk (Fl r)) (ht : t.vals.Increasing) (hr : ∀ p ∈ t.pk, r p.val = p.val)
    (hd : ∀ i < t.nk, ∀ j < t.nk, i ≠ j → ((t.k.getD i ⟨0⟩) - (t.k.getD j ⟨0⟩)).val ≠ 0) (is : List ℕ) (hi : ∀ i ∈ is, i < t.nk)
    (hs : is.Pairwise (· ≤ ·)) (h2 : 1 ≤ t.nk) :
    findPk t (is.map fun i => t.k.getD i ⟨0⟩) .poly = .ok (is.map fun i => t.pk.getD i ⟨0⟩) := by
  have hk : t.k.length = t.nk := by simpa [Pk.vals] using ht.hk
  have hp : t.pk.length = t.nk := by simpa [Pk.vals] using ht.hpk
  have hz2 : t.nk < 2 ^ 62 := by
    have : t.nk < _ := ht.hsize
    omega
  have hz' : sizeMod = 2 ^ 64 := rfl
  have cell : ∀ i (hi : i < t.nk), t.k.getD i ⟨0⟩ = t.k[i]'(by omega) := fun i hi => by simp [hk, hi]
  have pcell : ∀ i (hi : i < t.nk), t.pk.getD i ⟨0⟩ = t.pk[i]'(by omega) := fun i hi => by simp [hp, hi]
  have lt : ∀ i j, i < j → j < t.nk → (t.k.getD i ⟨0⟩).val < (t.k.getD j ⟨0⟩).val := fun i j hij hj => by
    have := List.pairwise_iff_getElem.1 ht.incr i j (by simp [Pk.vals]; omega) (by simp [Pk.vals]; omega) hij
    rw [cell i (by omega), cell j hj]
    simpa [Pk.vals] using this
  have le : ∀ i j, i ≤ j → j < t.nk → (t.k.getD i ⟨0⟩).val ≤ (t.k.getD j ⟨0⟩).val := fun i j hij hj => by
    rcases Nat.eq_or_lt_of_le hij with c | c
    · rw [c]
    · exact (lt i j c hj).le
  have main : ∀ (l : List ℕ) (start : ℕ), start < t.nk → (∀ i ∈ l, start ≤ i) → (∀ i ∈ l, i < t.nk) → l.Pairwise (· ≤ ·) →
      findPkLoop t .poly (t.k.getD 0 ⟨0⟩) (t.k.getD (t.nk - 1) ⟨0⟩) start (l.map fun i => t.k.getD i ⟨0⟩) = .ok (l.map fun i => t.pk.getD i ⟨0⟩) := by
    intro l
    induction l with
    | nil => intro start _ _ _ _; rfl
    | cons J l ih =>
      intro start hst hlow hl hasc
      have hJ : J < t.nk := hl J (by simp)
      have hsJ : start ≤ J := hlow J (by simp)
      obtain ⟨i, e1, e2, hi, e3, e4⟩ := C02_dichotomy_brackets (t.k.getD J ⟨0⟩).val (t.k.map Fl.val) ht.incr start (t.nk - 1 + 1) (by omega)
        (by simp [hk]; omega) (by omega) (by
          have := le start J hsJ hJ
          rw [cell start hst] at this
          simpa using this)
      have hi' : i < t.nk := by omega
      obtain rfl : i = J := by
        rcases lt_trichotomy i J with c | c | c
        · exfalso
          have h3 := e4 (by omega)
          simp only [List.getElem_map] at h3
          rw [← cell (i + 1) (by omega)] at h3
          exact absurd h3 (not_lt.2 (le (i + 1) J (by omega) hJ))
        · exact c
        · exfalso
          simp only [List.getElem_map] at e3
          rw [← cell i hi'] at e3
          exact absurd e3 (not_le.2 (lt J i c hi'))
      have e1' : dichotomy (t.k.getD i ⟨0⟩) t.k start (t.nk - 1 + 1) = .ok i := by rw [dichotomy, dichAux_vals]; exact e1
      have hm : ofLong (max 0 ((i : ℤ) - 2)) = i - 2 := by
        unfold ofLong
        rw [hz']
        rw [Int.emod_eq_of_lt (by omega) (by omega)]
        omega
      obtain ⟨y, y1, y2⟩ := C97_interpol_poly_node hz (t.k.getD i ⟨0⟩) (t.k.drop (i - 2)) (t.pk.drop (i - 2)) (min (t.nk - 1) (i + 2) - (i - 2) + 1)
        (by omega) (fun m => t.k.getD (i - 2 + m) ⟨0⟩) (fun m => t.pk.getD (i - 2 + m) ⟨0⟩) (i - (i - 2)) (by omega)
        (fun m hm => by rw [List.getElem?_drop, cell (i - 2 + m) (by omega), List.getElem?_eq_getElem])
        (fun m hm => by rw [List.getElem?_drop, pcell (i - 2 + m) (by omega), List.getElem?_eq_getElem])
        (by rw [show i - 2 + (i - (i - 2)) = i by omega])
        (fun m hm hne => hd i hi' (i - 2 + m) (by omega) (by omega))
        (by rw [show i - 2 + (i - (i - 2)) = i by omega, pcell i hi']; exact hr _ (List.getElem_mem _))
      have y3 : y = t.pk.getD i ⟨0⟩ := by
        have : y.val = (t.pk.getD i ⟨0⟩).val := by rw [y2, show i - 2 + (i - (i - 2)) = i by omega]
        cases y
        exact congrArg Fl.mk this
      have one : findPkOne t .poly (t.k.getD 0 ⟨0⟩) (t.k.getD (t.nk - 1) ⟨0⟩) start (t.k.getD i ⟨0⟩) = .ok (i, t.pk.getD i ⟨0⟩) := by
        unfold findPkOne
        dsimp only
        rw [subSize_eq h2 (by omega), if_neg (by rw [Fl.lt_iff, not_lt]; exact le i _ (by omega) (by omega)),
          if_neg (by rw [Fl.lt_iff, not_lt]; exact le 0 i (by omega) hi'), e1']
        simp only [Res.ok_bind]
        rw [hm, y1, y3]
        rfl
      rw [List.map_cons, List.map_cons]
      unfold findPkLoop
      rw [one]
      simp only [Res.ok_bind]
      rw [ih i hi' (fun j hj => List.rel_of_pairwise_cons hasc hj) (fun j hj => hl j (by simp [hj])) hasc.of_cons]
      rfl
  unfold findPk
  rw [subSize_eq h2 (by omega), rd_ok (a := t.k) (i := 0) (by omega), rd_ok (a := t.k) (i := t.nk - 1) (by omega)]
  simp only [Res.ok_bind]
  rw [← cell 0 (by omega), ← cell (t.nk - 1) (by omega)]
  exact main is 0 (by omega) (by simp) hi hs

/-- In double precision the modes of an ascending table differ after rounding. -/
theorem dbl_apart (t : Pk (Fl dbl)) (ht : t.vals.Increasing) :
    ∀ i < t.nk, ∀ j < t.nk, i ≠ j → ((t.k.getD i ⟨0⟩) - (t.k.getD j ⟨0⟩)).val ≠ 0 := by
  have hk : t.k.length = t.nk := by simpa [Pk.vals] using ht.hk
  have hinj : ∀ i j, i < j → j < t.nk → (t.k.getD i ⟨0⟩).val < (t.k.getD j ⟨0⟩).val := fun i j hij hj => by
    have := List.pairwise_iff_getElem.1 ht.incr i j (by simp [Pk.vals]; omega) (by simp [Pk.vals]; omega) hij
    simp only [Pk.vals, List.getElem_map] at this
    simpa [List.getD_eq_getElem?_getD, hk, hj, (by omega : i < t.nk)] using this
  intro i hi j hj hij
  rw [Fl.sub_val]
  have ne : (t.k.getD i ⟨0⟩).val - (t.k.getD j ⟨0⟩).val ≠ 0 := by
    rcases Nat.lt_or_gt_of_ne hij with c | c
    · exact (sub_neg.2 (hinj i j c hj)).ne
    · exact (sub_pos.2 (hinj j i c hi)).ne'
  generalize (t.k.getD i ⟨0⟩).val - (t.k.getD j ⟨0⟩).val = d at ne ⊢
  intro h
  have := dbl_rounds.err d
  rw [h, zero_sub, abs_neg] at this
  norm_num at this
  linarith [abs_pos.2 ne]

/-- C97 in double precision: looking up the whole table with polynomial interpolation returns the table, bit for bit. -/
theorem C97_find_pk_table (t : Pk (Fl dbl)) (ht : t.vals.Increasing) (hr : ∀ p ∈ t.pk, dbl p.val = p.val) (h2 : 1 ≤ t.nk) :
    findPk t t.k .poly = .ok t.pk := by
  have hk : t.k.length = t.nk := by simpa [Pk.vals] using ht.hk
  have hp : t.pk.length = t.nk := by simpa [Pk.vals] using ht.hpk
  have key := C97_find_pk_nodes C97_double.zero t ht hr (dbl_apart t ht) (List.range t.nk) (by simp) (List.pairwise_le_range) h2
  have e1 : (List.range t.nk).map (fun i => t.k.getD i ⟨0⟩) = t.k := List.ext_getElem (by simp [hk]) fun i h1 h2 => by simp [h2]
  have e2 : (List.range t.nk).map (fun i => t.pk.getD i ⟨0⟩) = t.pk := List.ext_getElem (by simp [hp]) fun i h1 h2 => by simp [h2]
  rwa [e1, e2] at key

/-! ## Outside the table -/

theorem mem_of_rd {β : Type} {l : List β} {i : ℕ} {v : β} (h : rd l i = .ok v) : v ∈ l := by
  by_cases hi : i < l.length
  · rw [rd_ok hi] at h
    cases h
    exact List.getElem_mem _
  · rw [rd_ub (by omega)] at h
    cases h

/-- The extrapolation beyond the table is non-negative under rounding. -/
theorem extrapolHighk_rounded_nonneg (h : OrderRounds r) (t : Pk (Fl r)) (hk : ∀ k ∈ t.k, 0 < k.val) (hp : ∀ p ∈ t.pk, 0 ≤ p.val) (k v : Fl r)
    (h0 : 0 ≤ k.val) (hv : extrapolHighk t k = .ok v) : 0 ≤ v.val := by
  have pos : ∀ y, 0 ≤ y → 0 ≤ r y := fun y hy => by rw [← h.zero]; exact h.mono hy
  unfold extrapolHighk at hv
  dsimp only at hv
  obtain ⟨o, -, hv⟩ := Res.bind_eq_ok.1 hv
  cases o with
  | none =>
    cases hv
    simp [h.zero]
  | some s =>
    simp only [Res.bind_eq_ok] at hv
    obtain ⟨p, p1, k0, k1, hv⟩ := hv
    cases hv
    have mp : 0 ≤ p.val := hp p (mem_of_rd p1)
    have mk : 0 < k0.val := hk k0 (mem_of_rd k1)
    rw [Fl.mul_val]
    exact pos _ (mul_nonneg mp (pos _ (Real.rpow_nonneg (pos _ (div_nonneg h0 mk.le)) _)))

/-- The extrapolation below the table is non-negative under rounding. -/
theorem extrapolLowk_rounded_nonneg (h : OrderRounds r) (t : Pk (Fl r)) (hk : ∀ k ∈ t.k, 0 < k.val) (hp : ∀ p ∈ t.pk, 0 ≤ p.val) (k v : Fl r)
    (h0 : 0 ≤ k.val) (hv : extrapolLowk t k = .ok v) : 0 ≤ v.val := by
  have pos : ∀ y, 0 ≤ y → 0 ≤ r y := fun y hy => by rw [← h.zero]; exact h.mono hy
  unfold extrapolLowk at hv
  dsimp only at hv
  obtain ⟨o, -, hv⟩ := Res.bind_eq_ok.1 hv
  cases o with
  | none =>
    cases hv
    simp [h.zero]
  | some s =>
    simp only [Res.bind_eq_ok] at hv
    obtain ⟨p, p1, k0, k1, hv⟩ := hv
    cases hv
    have mp : 0 ≤ p.val := hp p (mem_of_rd p1)
    have mk : 0 < k0.val := hk k0 (mem_of_rd k1)
    rw [Fl.mul_val]
    exact pos _ (mul_nonneg mp (pos _ (Real.rpow_nonneg (pos _ (div_nonneg h0 mk.le)) _)))

/-- C97: a single request with linear interpolation, inside or outside the table, of a non-negative spectrum gives a non-negative value under
rounding, for every mode but the last of the table. -/
theorem C97_nonneg (h : OrderRounds r) (t : Pk (Fl r)) (ht : t.vals.Increasing) (h2 : 2 ≤ t.nk) (hr : ∀ p ∈ t.pk, r p.val = p.val)
    (hd : ∀ i, i + 1 < t.nk → 0 < (t.k.getD (i + 1) ⟨0⟩ - t.k.getD i ⟨0⟩).val) (hk : ∀ k ∈ t.k, 0 < k.val) (hp : ∀ p ∈ t.pk, 0 ≤ p.val)
    (k : Fl r) (h0 : 0 ≤ k.val) (hne : k.val ≠ (t.k.getD (t.nk - 1) ⟨0⟩).val) : ∃ v, findPk t [k] .lin = .ok [v] ∧ 0 ≤ v.val := by
  have hk' : t.k.length = t.nk := by simpa [Pk.vals] using ht.hk
  have wf : t.WF := ⟨hk', by simpa [Pk.vals] using ht.hpk, ht.hsize⟩
  have hz : t.nk < 2 ^ 64 := by
    have : t.nk < _ := ht.hsize
    omega
  have hz' : sizeMod = 2 ^ 64 := rfl
  have cell : ∀ i (hi : i < t.nk), t.k.getD i ⟨0⟩ = t.k[i]'(by omega) := fun i hi => by simp [hk', hi]
  have open1 : findPk t [k] .lin = (findPkOne t .lin (t.k.getD 0 ⟨0⟩) (t.k.getD (t.nk - 1) ⟨0⟩) 0 k >>= fun sv => .ok [sv.2]) := by
    unfold findPk
    rw [subSize_eq (by omega) (by omega), rd_ok (a := t.k) (i := 0) (by omega), rd_ok (a := t.k) (i := t.nk - 1) (by omega)]
    simp only [Res.ok_bind]
    rw [← cell 0 (by omega), ← cell (t.nk - 1) (by omega)]
    rfl
  by_cases c1 : (t.k.getD (t.nk - 1) ⟨0⟩).val < k.val
  · obtain ⟨v, hv⟩ := extrapolHighk_defined t wf (by omega) k
    refine ⟨v, ?_, extrapolHighk_rounded_nonneg h t hk hp k v h0 hv⟩
    rw [open1]
    unfold findPkOne
    dsimp only
    rw [if_pos (by rw [Fl.lt_iff]; exact c1), hv]
    rfl
  · by_cases c2 : k.val < (t.k.getD 0 ⟨0⟩).val
    · obtain ⟨v, hv⟩ := extrapolLowk_defined t wf h2 k
      refine ⟨v, ?_, extrapolLowk_rounded_nonneg h t hk hp k v h0 hv⟩
      rw [open1]
      unfold findPkOne
      dsimp only
      rw [if_neg (by rw [Fl.lt_iff]; exact c1), if_pos (by rw [Fl.lt_iff]; exact c2), hv]
      rfl
    · obtain ⟨vs, hv, hf⟩ := C97_find_pk h t ht hr hd [k] (by simpa using not_lt.1 c2)
        (by simpa using lt_of_le_of_ne (not_lt.1 c1) hne) (by simp) (by omega)
      cases hf with
      | cons hh ht' =>
        cases ht'
        obtain ⟨i, -, -, -, hn, -⟩ := hh
        exact ⟨_, hv, hn hp⟩

/-- A table of doubles with a steep fall. -/
noncomputable def steepTable : Pk (Fl dbl) := ⟨3, [⟨1⟩, ⟨2⟩, ⟨4⟩], [⟨2 ^ 60⟩, ⟨1⟩, ⟨3⟩]⟩

theorem steepTable_incr : steepTable.vals.Increasing where
  hk := rfl
  hpk := rfl
  hsize := by norm_num [steepTable, Pk.vals]
  incr := by norm_num [steepTable, Pk.vals]

theorem steepTable_exact : ∀ p ∈ steepTable.pk, dbl p.val = p.val := by
  have i1 := dbl_int 1 (by norm_num)
  have i3 := dbl_int 3 (by norm_num)
  have ib := dbl_exact 1 60 (by norm_num)
  push_cast at i1 i3 ib
  rw [one_mul] at ib
  have ib' : dbl (2 ^ 60) = 2 ^ 60 := by exact_mod_cast ib
  intro p hp
  simp only [steepTable, List.mem_cons, List.not_mem_nil, or_false] at hp
  rcases hp with rfl | rfl | rfl
  · exact ib'
  · exact i1
  · exact i3

example : findPk steepTable [⟨1⟩, ⟨2⟩, ⟨4⟩] .poly = .ok [⟨2 ^ 60⟩, ⟨1⟩, ⟨3⟩] :=
  C97_find_pk_table steepTable steepTable_incr steepTable_exact (by norm_num [steepTable])

/-- Some of the modes, one of them twice. -/
example : findPk steepTable [⟨2⟩, ⟨2⟩, ⟨4⟩] .poly = .ok [⟨1⟩, ⟨1⟩, ⟨3⟩] :=
  C97_find_pk_nodes C97_double.zero steepTable steepTable_incr steepTable_exact (dbl_apart _ steepTable_incr) [1, 1, 2] (by simp [steepTable])
    (by simp) (by norm_num [steepTable])

/-- Modes below, inside and above the table. -/
example (k : Fl dbl) (hk : k ∈ [(⟨1 / 2⟩ : Fl dbl), ⟨3⟩, ⟨9⟩]) : ∃ v, findPk steepTable [k] .lin = .ok [v] ∧ 0 ≤ v.val := by
  refine C97_nonneg C97_double steepTable steepTable_incr (by norm_num [steepTable]) steepTable_exact (fun i hi => ?_) (by norm_num [steepTable])
    (by norm_num [steepTable]) k ?_ ?_
  · have i1 := dbl_int 1 (by norm_num)
    have i2 := dbl_int 2 (by norm_num)
    push_cast at i1 i2
    simp only [steepTable] at hi
    rcases (by omega : i = 0 ∨ i = 1) with rfl | rfl <;> norm_num [steepTable, i1, i2]
  all_goals
    simp only [List.mem_cons, List.not_mem_nil, or_false] at hk
    rcases hk with rfl | rfl | rfl <;> norm_num [steepTable]

end Verif
