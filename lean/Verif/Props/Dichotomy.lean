import Verif.Proofs.Dichotomy

/-!
# C02 – bisection index
-/

set_option linter.unusedSectionVars false

namespace Verif

section generic
variable {α : Type} [Add α] [Sub α] [Mul α] [Div α] [Neg α] [Histo α]

/-- C02 (any comparison outcome, NaN included): on a non-empty range inside the table the bisection terminates without
undefined behaviour and returns an index of the range. -/
theorem C02_dichotomy_safe (x : α) (tab : List α) (mn mx : ℕ) (h : mn < mx) (hlen : mx ≤ tab.length)
    (hsize : mx < 2 ^ 64) : ∃ r, dichotomy x tab mn mx = .ok r ∧ mn ≤ r ∧ r < mx := by
  obtain ⟨r, _, h2, h3, h4⟩ := dichAux_ok x tab tab (mx - mn + 1) mn mx h (by omega) hlen (by unfold sizeMod; omega) (fun _ _ _ => rfl)
  exact ⟨r, h2, h3, h4⟩

/-- C02: the answer depends only on the cells of the range. -/
theorem C02_dichotomy_reads_range (x : α) (tab tab' : List α) (mn mx : ℕ) (h : mn < mx) (hlen : mx ≤ tab.length)
    (hsize : mx < 2 ^ 64) (hag : ∀ i, mn ≤ i → i < mx → tab'[i]? = tab[i]?) :
    dichotomy x tab' mn mx = dichotomy x tab mn mx := by
  obtain ⟨r, h1, h2, _⟩ := dichAux_ok x tab tab' (mx - mn + 1) mn mx h (by omega) hlen (by unfold sizeMod; omega) hag
  rw [dichotomy, dichotomy, h2, h1 _ (by omega)]

/-- C02: the recursion bound of the model is not a restriction, any deeper recursion budget gives the same answer. -/
theorem C02_dichotomy_terminates (x : α) (tab : List α) (mn mx fuel : ℕ) (h : mn < mx) (hlen : mx ≤ tab.length)
    (hsize : mx < 2 ^ 64) (hf : mx - mn ≤ fuel) : dichAux x tab fuel mn mx = dichotomy x tab mn mx := by
  obtain ⟨r, h1, h2, _⟩ := dichAux_ok x tab tab (mx - mn + 1) mn mx h (by omega) hlen (by unfold sizeMod; omega) (fun _ _ _ => rfl)
  rw [dichotomy, h2, h1 _ hf]

end generic

/-- C02: on a strictly increasing table, for an argument not below the first cell of the range, the returned cell is at or
below the argument and the next cell of the range is above it. -/
theorem C02_dichotomy_brackets (x : ℝ) (tab : List ℝ) (hs : tab.Pairwise (· < ·)) (mn mx : ℕ) (h : mn < mx)
    (hlen : mx ≤ tab.length) (hsize : mx < 2 ^ 64) (hx : tab[mn] ≤ x) :
    ∃ r, dichotomy x tab mn mx = .ok r ∧ mn ≤ r ∧ ∃ hr : r < mx, tab[r] ≤ x ∧
      ∀ hr1 : r + 1 < mx, x < tab[r + 1] := by
  obtain ⟨r, h2, h3, h4⟩ := C02_dichotomy_safe x tab mn mx h hlen hsize
  have hb := dichAux_bracket x tab hs mx hlen (by unfold sizeMod; omega) _ mn mx r h le_rfl h2
    (by intro v hv; rw [List.getElem?_eq_getElem (by omega)] at hv; simp at hv; rw [← hv]; exact hx) (by omega)
  refine ⟨r, h2, h3, h4, ?_, ?_⟩
  · exact hb.1 _ (List.getElem?_eq_getElem (by omega))
  · intro hr1
    exact hb.2 hr1 _ (List.getElem?_eq_getElem (by omega))

/-- The bracketing index of a strictly increasing table is unique, so that C02 determines the answer. -/
theorem bracket_unique (x : ℝ) (tab : List ℝ) (hs : tab.Pairwise (· < ·)) (N r s : ℕ) (hN : N ≤ tab.length)
    (hr : r < N) (hs' : s < N)
    (hr1 : tab[r] ≤ x) (hr2 : ∀ h : r + 1 < N, x < tab[r + 1])
    (hs1 : tab[s] ≤ x) (hs2 : ∀ h : s + 1 < N, x < tab[s + 1]) : r = s := by
  have mono : ∀ i j (hi : i < tab.length) (hj : j < tab.length), i ≤ j → tab[i] ≤ tab[j] := by
    intro i j hi hj hij
    rcases Nat.lt_or_eq_of_le hij with h | h
    · exact (List.pairwise_iff_getElem.mp hs i j hi hj h).le
    · subst h; exact le_rfl
  rcases Nat.lt_trichotomy r s with h | h | h
  · have h1 := hr2 (by omega)
    have h2 := mono (r + 1) s (by omega) (by omega) (by omega)
    linarith
  · exact h
  · have h1 := hs2 (by omega)
    have h2 := mono (s + 1) r (by omega) (by omega) (by omega)
    linarith

/-- C02: the search does not depend on where it starts, as long as it starts at or below the argument. -/
theorem C02_dichotomy_start_irrelevant (x : ℝ) (tab : List ℝ) (hs : tab.Pairwise (· < ·)) (mn mn' mx : ℕ)
    (h : mn < mx) (h' : mn' < mx) (hlen : mx ≤ tab.length) (hsize : mx < 2 ^ 64) (hx : tab[mn] ≤ x) (hx' : tab[mn'] ≤ x) :
    dichotomy x tab mn mx = dichotomy x tab mn' mx := by
  obtain ⟨r, a1, _, a3, a4, a5⟩ := C02_dichotomy_brackets x tab hs mn mx h hlen hsize hx
  obtain ⟨s, b1, _, b3, b4, b5⟩ := C02_dichotomy_brackets x tab hs mn' mx h' hlen hsize hx'
  rw [a1, b1, bracket_unique x tab hs mx r s hlen a3 b3 a4 a5 b4 b5]

/-- Non-vacuity: a table of five modes and an argument between the third and the fourth. -/
example : ∃ r, dichotomy (7 / 2 : ℝ) [1, 2, 3, 5, 8] 0 5 = .ok r ∧ r < 5 ∧ ([1, 2, 3, 5, 8] : List ℝ)[r]! ≤ 7 / 2 := by
  obtain ⟨r, h, _, hr, h2, _⟩ := C02_dichotomy_brackets (7 / 2 : ℝ) [1, 2, 3, 5, 8] (by norm_num) 0 5 (by norm_num)
    (by simp) (by norm_num) (by norm_num)
  exact ⟨r, h, hr, by rw [getElem!_pos _ _ (by simpa using hr)]; exact h2⟩

end Verif
