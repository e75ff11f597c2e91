import Verif.Spec.Table
import Verif.Props.Dichotomy
import Verif.Props.Interp

/-! Lemmas on `find_pk` and the extrapolations. -/

set_option linter.unusedSectionVars false

namespace Verif

section generic
variable {α : Type} [Add α] [Sub α] [Mul α] [Div α] [Neg α] [Histo α]

theorem slopeLoop_defined (t : Pk α) (h : t.WF) : ∀ (n ik : ℕ) (acc : α), 1 ≤ ik → (0 < n → ik + n < t.nk) →
    (slopeLoop t n ik acc).defined := by
  intro n
  induction n with
  | zero => intro ik acc _ _; exact ⟨_, rfl⟩
  | succ n ih =>
    intro ik acc h1 h2
    have h3 := h2 (by omega)
    have := h.hk; have := h.hpk
    unfold slopeLoop
    rw [rd_ok (a := t.pk) (i := ik + 1) (by omega), rd_ok (a := t.pk) (i := ik - 1) (by omega),
      rd_ok (a := t.k) (i := ik + 1) (by omega), rd_ok (a := t.k) (i := ik - 1) (by omega)]
    simp only [Res.ok_bind]
    split
    · exact ⟨_, rfl⟩
    · split
      · exact ⟨_, rfl⟩
      · exact ih _ _ (by omega) (fun _ => by omega)

theorem lowEnd_eq {nk : ℕ} (h1 : 1 ≤ nk) (h2 : nk < 2 ^ 62) : ofLong (min 15 ((nk : ℤ) - 1)) = min 15 (nk - 1) := by
  rw [ofLong_of_nonneg (by omega) (by unfold sizeMod; omega)]
  omega

theorem highStart_eq {e : ℕ} (h2 : e < 2 ^ 62) : ofLong (max 1 ((e : ℤ) - 15)) = max 1 (e - 15) := by
  rw [ofLong_of_nonneg (by omega) (by unfold sizeMod; omega)]
  omega

theorem extrapolLowk_defined (t : Pk α) (h : t.WF) (h2 : 2 ≤ t.nk) (k : α) : (extrapolLowk t k).defined := by
  have hs := h.hsize; have := h.hk; have := h.hpk
  unfold extrapolLowk
  dsimp only
  rw [lowEnd_eq (by omega) hs]
  obtain ⟨o, ho⟩ := slopeLoop_defined t h (min 15 (t.nk - 1) - 1) 1 (Histo.lit 0) le_rfl (by omega)
  rw [ho]
  simp only [Res.ok_bind]
  cases o with
  | none => exact ⟨_, rfl⟩
  | some s =>
    dsimp only
    rw [rd_ok (a := t.pk) (i := 1) (by omega), rd_ok (a := t.k) (i := 1) (by omega)]
    exact ⟨_, rfl⟩

theorem extrapolHighk_defined (t : Pk α) (h : t.WF) (h2 : 1 ≤ t.nk) (k : α) : (extrapolHighk t k).defined := by
  have hs := h.hsize; have := h.hk; have := h.hpk
  have hm : sizeMod = 2 ^ 64 := rfl
  unfold extrapolHighk
  dsimp only
  rw [subSize_eq h2 (by omega), highStart_eq (by omega)]
  obtain ⟨o, ho⟩ := slopeLoop_defined t h (t.nk - 1 - max 1 (t.nk - 1 - 15)) (max 1 (t.nk - 1 - 15)) (Histo.lit 0) (by omega) (by omega)
  rw [ho]
  simp only [Res.ok_bind]
  cases o with
  | none => exact ⟨_, rfl⟩
  | some s =>
    dsimp only
    rw [rd_ok (a := t.pk) (i := t.nk - 1) (by omega), rd_ok (a := t.k) (i := t.nk - 1) (by omega)]
    exact ⟨_, rfl⟩

/-- The window of `find_pk` in `poly` mode. -/
theorem window_eq {ind nk : ℕ} (h : ind < nk) (h2 : nk < 2 ^ 62) :
    ofLong (max 0 ((ind : ℤ) - 2)) = ind - 2 := by
  rw [ofLong_of_nonneg (by omega) (by unfold sizeMod; omega)]
  omega

theorem drop_take_eq {l : List α} (a m : ℕ) (i : ℕ) (hi : i < m) : ((l.drop a).take m)[i]? = (l.drop a)[i]? := by
  rw [List.getElem?_take]; simp [hi]

theorem interpolPoly_defined (x : α) (tabx taby : List α) (n : ℕ) (h0 : 1 ≤ n) (hn : n < 2 ^ 63)
    (hx : n ≤ tabx.length) (hy : n ≤ taby.length) : (interpolPoly x tabx taby n).defined := by
  obtain ⟨X, hX⟩ := exists_fn (l := tabx) (n := n) h0 hx
  obtain ⟨Y, hY⟩ := exists_fn (l := taby) (n := n) h0 hy
  obtain ⟨y, h, _⟩ := interpolPoly_rule x tabx taby n X Y h0 hn hX hY (fun _ _ _ => True) (fun _ _ => trivial)
    (fun _ _ _ _ _ => trivial) (fun _ _ _ _ _ => trivial)
  exact ⟨y, h⟩

/-- In `poly` mode one requested mode is always served, and the carried start stays an index of the table. -/
theorem findPkOne_poly_defined (t : Pk α) (h : t.WF) (h2 : 2 ≤ t.nk) (ks ke : α) (start : ℕ) (hst : start < t.nk) (k : α) :
    ∃ start' v, findPkOne t .poly ks ke start k = .ok (start', v) ∧ start' < t.nk := by
  have hs := h.hsize; have := h.hk; have := h.hpk
  have hm : sizeMod = 2 ^ 64 := rfl
  unfold findPkOne
  dsimp only
  rw [subSize_eq (by omega : 1 ≤ t.nk) (by omega)]
  split
  · obtain ⟨v, hv⟩ := extrapolHighk_defined t h (by omega) k
    exact ⟨start, v, by rw [hv]; rfl, hst⟩
  · split
    · obtain ⟨v, hv⟩ := extrapolLowk_defined t h h2 k
      exact ⟨start, v, by rw [hv]; rfl, hst⟩
    · obtain ⟨r, hr, _, hr2⟩ := C02_dichotomy_safe k t.k start (t.nk - 1 + 1) (by omega) (by omega) (by omega)
      rw [hr]
      simp only [Res.ok_bind]
      rw [window_eq (by omega) hs]
      obtain ⟨v, hv⟩ := interpolPoly_defined k (t.k.drop (r - 2)) (t.pk.drop (r - 2)) (min (t.nk - 1) (r + 2) - (r - 2) + 1)
        (by omega) (by omega) (by simp; omega) (by simp; omega)
      exact ⟨r, v, by rw [hv]; rfl, by omega⟩

theorem findPkLoop_poly_defined (t : Pk α) (h : t.WF) (h2 : 2 ≤ t.nk) (ks ke : α) : ∀ (l : List α) (start : ℕ), start < t.nk →
    (findPkLoop t .poly ks ke start l).defined := by
  intro l
  induction l with
  | nil => intro _ _; exact ⟨_, rfl⟩
  | cons k l ih =>
    intro start hst
    obtain ⟨start', v, h3, h4⟩ := findPkOne_poly_defined t h h2 ks ke start hst k
    obtain ⟨vs, hvs⟩ := ih start' h4
    unfold findPkLoop
    rw [h3]
    simp only [Res.ok_bind]
    rw [hvs]
    exact ⟨_, rfl⟩

end generic

/-! ### Values over ℝ -/

/-- One requested mode with the search started from the beginning of the table. -/
noncomputable def lookup (t : Pk ℝ) (interpol : Interpol) (k : ℝ) : Res ℝ := do
  let r ← findPkOne t interpol (t.k.getD 0 0) (t.k.getD (t.nk - 1) 0) 0 k
  .ok r.2

theorem Pk.Increasing.mono {t : Pk ℝ} (h : t.Increasing) {i j : ℕ} (hi : i < t.k.length) (hj : j < t.k.length) (hij : i ≤ j) :
    t.k[i] ≤ t.k[j] := by
  rcases Nat.lt_or_eq_of_le hij with h' | h'
  · exact (List.pairwise_iff_getElem.mp h.incr i j hi hj h').le
  · subst h'; exact le_rfl

theorem Pk.Increasing.strictMono {t : Pk ℝ} (h : t.Increasing) {i j : ℕ} (hi : i < t.k.length) (hj : j < t.k.length) (hij : i < j) :
    t.k[i] < t.k[j] := List.pairwise_iff_getElem.mp h.incr i j hi hj hij

/-- Starting the search at any index at or below the requested mode gives the same value and the new start is again at or
below it. -/
theorem findPkOne_start (t : Pk ℝ) (h : t.Increasing) (h1 : 1 ≤ t.nk) (interpol : Interpol) (start : ℕ)
    (hst : start < t.k.length) (k : ℝ) (hk : t.k[start] ≤ k ∨ start = 0) :
    (∃ w, findPkOne t interpol (t.k.getD 0 0) (t.k.getD (t.nk - 1) 0) start k = .ub w ∧ lookup t interpol k = .ub w) ∨
    ∃ start' v, findPkOne t interpol (t.k.getD 0 0) (t.k.getD (t.nk - 1) 0) start k = .ok (start', v) ∧
      lookup t interpol k = .ok v ∧ ∃ hs' : start' < t.k.length, (t.k[start'] ≤ k ∨ start' = 0) := by
  have hs := h.hsize; have hkl := h.hk; have := h.hpk
  have hm : sizeMod = 2 ^ 64 := rfl
  have e0 : t.k.getD 0 0 = t.k[0]'(by omega) := by
    rw [List.getD_eq_getElem?_getD, List.getElem?_eq_getElem (by omega)]; rfl
  unfold lookup findPkOne
  dsimp only
  rw [subSize_eq h1 (by omega)]
  by_cases c1 : Histo.lt (t.k.getD (t.nk - 1) 0) k = true
  · rw [if_pos c1, if_pos c1]
    obtain ⟨v, hv⟩ := extrapolHighk_defined t h.toWF h1 k
    right
    exact ⟨start, v, by rw [hv]; rfl, by rw [hv]; rfl, hst, hk⟩
  · rw [if_neg c1, if_neg c1]
    by_cases c2 : Histo.lt k (t.k.getD 0 0) = true
    · rw [if_pos c2, if_pos c2]
      rcases hv : extrapolLowk t k with v | w
      · right; exact ⟨start, v, by simp, by simp, hst, hk⟩
      · left; exact ⟨w, by simp, by simp⟩
    · rw [if_neg c2, if_neg c2]
      rw [e0] at c2
      simp only [lt_real, not_lt] at c2
      have hst' : t.k[start] ≤ k := by
        rcases hk with hk | hk
        · exact hk
        · subst hk; exact c2
      rw [C02_dichotomy_start_irrelevant k t.k h.incr 0 start (t.nk - 1 + 1) (by omega) (by omega) (by omega) (by omega) c2 hst']
      obtain ⟨r, a1, a2, a3, a4, a5⟩ := C02_dichotomy_brackets k t.k h.incr start (t.nk - 1 + 1) (by omega) (by omega) (by omega) hst'
      rw [a1]
      simp only [Res.ok_bind]
      cases interpol with
      | poly =>
        dsimp only
        rw [window_eq (by omega) hs]
        obtain ⟨v, hv⟩ := interpolPoly_defined k (t.k.drop (r - 2)) (t.pk.drop (r - 2)) (min (t.nk - 1) (r + 2) - (r - 2) + 1)
          (by omega) (by omega) (by simp; omega) (by simp; omega)
        right
        exact ⟨r, v, by rw [hv]; rfl, by rw [hv]; rfl, by omega, Or.inl a4⟩
      | lin =>
        dsimp only
        by_cases hr : r + 1 < t.nk
        · right
          rw [rd_ok (a := t.k) (i := r) (by omega), rd_ok (a := t.k) (i := r + 1) (by omega),
            rd_ok (a := t.pk) (i := r) (by omega), rd_ok (a := t.pk) (i := r + 1) (by omega)]
          exact ⟨r, _, rfl, rfl, by omega, Or.inl a4⟩
        · left
          rw [rd_ok (a := t.k) (i := r) (by omega), rd_ub (a := t.k) (i := r + 1) (by omega)]
          exact ⟨_, rfl, rfl⟩

/-- For an ascending request the loop is the pointwise lookup. -/
theorem findPkLoop_ascending (t : Pk ℝ) (h : t.Increasing) (h1 : 1 ≤ t.nk) (interpol : Interpol) :
    ∀ (l : List ℝ) (start : ℕ) (hst : start < t.k.length), (∀ k ∈ l, t.k[start] ≤ k ∨ start = 0) → l.Pairwise (· ≤ ·) →
      findPkLoop t interpol (t.k.getD 0 0) (t.k.getD (t.nk - 1) 0) start l = l.mapM (lookup t interpol) := by
  intro l
  induction l with
  | nil => intro _ _ _ _; rfl
  | cons k l ih =>
    intro start hst hle hsort
    rw [List.pairwise_cons] at hsort
    unfold findPkLoop
    rw [List.mapM_cons]
    rcases findPkOne_start t h h1 interpol start hst k (hle k (by simp)) with ⟨w, a1, a2⟩ | ⟨start', v, a1, a2, a3, a4⟩
    · rw [a1, a2]; rfl
    · rw [a1, a2]
      simp only [Res.ok_bind]
      rw [ih start' a3 ?_ hsort.2]
      · rfl
      · intro k' hk'
        rcases a4 with a4 | a4
        · exact Or.inl (a4.trans (hsort.1 k' hk'))
        · exact Or.inr a4

theorem getD_eq {l : List ℝ} {i : ℕ} (h : i < l.length) : l.getD i 0 = l[i] := by
  rw [List.getD_eq_getElem?_getD, List.getElem?_eq_getElem h]; rfl

theorem findPk_ascending (t : Pk ℝ) (h : t.Increasing) (h1 : 1 ≤ t.nk) (interpol : Interpol) (l : List ℝ)
    (hl : l.Pairwise (· ≤ ·)) : findPk t l interpol = l.mapM (lookup t interpol) := by
  have hs := h.hsize; have hkl := h.hk
  have hm : sizeMod = 2 ^ 64 := rfl
  unfold findPk
  rw [subSize_eq h1 (by omega), rd_ok (a := t.k) (i := 0) (by omega), rd_ok (a := t.k) (i := t.nk - 1) (by omega)]
  simp only [Res.ok_bind]
  rw [← findPkLoop_ascending t h h1 interpol l 0 (by omega) (fun _ _ => Or.inr rfl) hl, getD_eq (by omega), getD_eq (by omega)]

end Verif
