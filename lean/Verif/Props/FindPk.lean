import Verif.Proofs.Lookup
import Mathlib.Topology.Algebra.Order.Field
import Mathlib.Analysis.SpecialFunctions.Pow.Continuity

/-!
# C06, C07, C08, C09, C10 – reading the tabulated power spectrum
-/

namespace Verif

open Polynomial Filter Topology

/-! ## C06 – memory safety -/

/-- C06, `poly` mode: for every arithmetic, every table of at least two modes and every request the lookup is free of
undefined behaviour. -/
theorem C06_findPk_poly_safe {α : Type} [Add α] [Sub α] [Mul α] [Div α] [Neg α] [Histo α]
    (t : Pk α) (h : t.WF) (h2 : 2 ≤ t.nk) (ks : List α) : (findPk t ks .poly).defined := by
  have hs := h.hsize; have hkl := h.hk
  have hm : sizeMod = 2 ^ 64 := rfl
  unfold findPk
  rw [subSize_eq (by omega : 1 ≤ t.nk) (by omega), rd_ok (a := t.k) (i := 0) (by omega), rd_ok (a := t.k) (i := t.nk - 1) (by omega)]
  exact findPkLoop_poly_defined t h h2 _ _ ks 0 (by omega)

/-- C06 is violated in `lin` mode: requesting the last tabulated mode reads one cell past the table, for every table. -/
theorem C06_findPk_lin_violation (t : Pk ℝ) (h : t.Increasing) (h1 : 1 ≤ t.nk) :
    (findPk t [t.k.getD (t.nk - 1) 0] .lin).isUB := by
  have hkl := h.hk
  rw [findPk_single t h h1]
  have hle : t.k.getD 0 0 ≤ t.k.getD (t.nk - 1) 0 := by
    rw [getD_eq (by omega), getD_eq (by omega)]; exact h.mono (by omega) (by omega) (by omega)
  obtain ⟨r, a1, a2, a3, a4⟩ := exists_bracket t h h1 (t.k.getD (t.nk - 1) 0) hle
  have hr : r + 1 = t.nk := by
    by_contra hne
    have h3 := a4 (by omega)
    rw [getD_eq (by omega), getD_eq (by omega)] at h3
    exact absurd h3 (not_lt.mpr (h.mono (by omega) (by omega) (by omega)))
  rw [lookup_in_lin_last t h h1 _ hle le_rfl r a1 hr]
  exact ⟨_, rfl⟩

/-- The bisection returns either its lower limit or a cell at or below the argument. -/
theorem dichAux_lower (x : ℝ) (tab : List ℝ) : ∀ (fuel mn mx r : ℕ), dichAux x tab fuel mn mx = .ok r →
    r = mn ∨ ∃ v, tab[r]? = some v ∧ v ≤ x := by
  intro fuel
  induction fuel with
  | zero => intro mn mx r h; simp [dichAux] at h
  | succ n ih =>
    intro mn mx r h
    unfold dichAux at h
    split at h
    · left; simpa using h.symm
    · dsimp only at h
      by_cases hi : (mn + mx) / 2 < tab.length
      · rw [rd_ok hi] at h
        simp only [Res.ok_bind] at h
        have hg : tab[(mn + mx) / 2]? = some tab[(mn + mx) / 2] := List.getElem?_eq_getElem hi
        by_cases c1 : Histo.lt x tab[(mn + mx) / 2] = true
        · rw [if_pos c1] at h; exact ih _ _ _ h
        · rw [if_neg c1] at h
          simp only [lt_real, not_lt] at c1
          by_cases c2 : Histo.lt tab[(mn + mx) / 2] x = true
          · rw [if_pos c2] at h
            rcases ih _ _ _ h with h3 | h3
            · right; exact ⟨_, by rw [h3, hg], c1⟩
            · right; exact h3
          · rw [if_neg c2] at h
            right
            obtain rfl : (mn + mx) / 2 = r := by simpa using h
            exact ⟨_, hg, c1⟩
      · rw [rd_ub (by omega)] at h
        simp at h

/-- C06, `lin` mode, partial: a request in any order is served without undefined behaviour as long as it does not contain the
last tabulated mode.  Missing: requests containing the last mode (`C06_findPk_lin_violation`) and arithmetic with NaN. -/
theorem C06_findPk_lin_safe_partial (t : Pk ℝ) (h : t.Increasing) (h2 : 2 ≤ t.nk) (ks : List ℝ)
    (hks : ∀ k ∈ ks, k ≠ t.k.getD (t.nk - 1) 0) : (findPk t ks .lin).defined := by
  have hs := h.hsize; have hkl := h.hk; have hpl := h.hpk
  have hm : sizeMod = 2 ^ 64 := rfl
  have main : ∀ (l : List ℝ) (start : ℕ), start + 1 < t.nk → (∀ k ∈ l, k ≠ t.k.getD (t.nk - 1) 0) →
      (findPkLoop t .lin (t.k.getD 0 0) (t.k.getD (t.nk - 1) 0) start l).defined := by
    intro l
    induction l with
    | nil => intro _ _ _; exact ⟨_, rfl⟩
    | cons k l ih =>
      intro start hst hl
      have hl' : ∀ k ∈ l, k ≠ t.k.getD (t.nk - 1) 0 := fun k hk => hl k (by simp [hk])
      suffices ∃ start' v, findPkOne t .lin (t.k.getD 0 0) (t.k.getD (t.nk - 1) 0) start k = .ok (start', v) ∧ start' + 1 < t.nk by
        obtain ⟨start', v, e1, e2⟩ := this
        obtain ⟨vs, hvs⟩ := ih start' e2 hl'
        unfold findPkLoop
        rw [e1]
        simp only [Res.ok_bind]
        rw [hvs]
        exact ⟨_, rfl⟩
      unfold findPkOne
      dsimp only
      rw [subSize_eq (by omega : 1 ≤ t.nk) (by omega)]
      split
      · obtain ⟨v, hv⟩ := extrapolHighk_defined t h.toWF (by omega) k
        exact ⟨start, v, by rw [hv]; rfl, hst⟩
      · rename_i c1
        simp only [lt_real, not_lt] at c1
        split
        · obtain ⟨v, hv⟩ := extrapolLowk_defined t h.toWF h2 k
          exact ⟨start, v, by rw [hv]; rfl, hst⟩
        · obtain ⟨r, hr, _, hr2⟩ := C02_dichotomy_safe k t.k start (t.nk - 1 + 1) (by omega) (by omega) (by omega)
          have hr3 : r + 1 < t.nk := by
            rcases dichAux_lower k t.k _ _ _ _ hr with h3 | ⟨v, h3, h4⟩
            · omega
            · by_contra hne
              have : r = t.nk - 1 := by omega
              subst this
              rw [getD_of_lt (by omega)] at h3
              simp only [Option.some.injEq] at h3
              rw [← h3] at h4
              exact hl k (by simp) (le_antisymm c1 h4)
          rw [hr]
          simp only [Res.ok_bind]
          rw [rd_ok (a := t.k) (i := r) (by omega), rd_ok (a := t.k) (i := r + 1) (by omega),
            rd_ok (a := t.pk) (i := r) (by omega), rd_ok (a := t.pk) (i := r + 1) (by omega)]
          exact ⟨r, _, rfl, hr3⟩
  unfold findPk
  rw [subSize_eq (by omega : 1 ≤ t.nk) (by omega), rd_ok (a := t.k) (i := 0) (by omega), rd_ok (a := t.k) (i := t.nk - 1) (by omega)]
  simp only [Res.ok_bind]
  have := main ks 0 (by omega) hks
  rwa [getD_eq (by omega), getD_eq (by omega)] at this

/-- C06: a table of a single mode is read out of bounds as soon as a mode below it is requested. -/
theorem C06_single_mode_violation : (findPk (⟨1, [1], [1]⟩ : Pk ℝ) [1 / 2] .poly).isUB := by
  refine ⟨"out of bounds read", ?_⟩
  norm_num [findPk, findPkLoop, findPkOne, extrapolLowk, slopeLoop, rd, subSize, sizeMod, ofLong]

/-- The table used in the examples below: five modes, values of `k^2`. -/
def exTable : Pk ℝ := ⟨5, [1, 2, 3, 5, 8], [1, 4, 9, 25, 64]⟩

theorem exTable_physical : exTable.Physical where
  hk := rfl
  hpk := rfl
  hsize := by norm_num [exTable]
  incr := by norm_num [exTable]
  kpos := by norm_num [exTable]

example : (findPk exTable [7, 1 / 2, 9, 5, 8] .poly).defined :=
  C06_findPk_poly_safe exTable exTable_physical.toWF (by norm_num [exTable]) _

example : (findPk exTable [7, 1 / 2, 9, 5] .lin).defined :=
  C06_findPk_lin_safe_partial exTable exTable_physical.toIncreasing (by norm_num [exTable]) _ (by norm_num [exTable])

example : (findPk exTable [8] .lin).isUB := C06_findPk_lin_violation exTable exTable_physical.toIncreasing (by norm_num [exTable])

/-! ## C07 – independence of the requested modes -/

/-- C07, partial: for an ascending request every value is the one of the single request.  Missing: unordered requests
(`C07_findPk_order_violation`). -/
theorem C07_findPk_pointwise_partial (t : Pk ℝ) (h : t.Increasing) (h1 : 1 ≤ t.nk) (interpol : Interpol) (ks : List ℝ)
    (hks : ks.Pairwise (· ≤ ·)) (vs : List ℝ) (hv : findPk t ks interpol = .ok vs) :
    vs.length = ks.length ∧ ∀ (i : ℕ) (hi : i < ks.length) (hi' : i < vs.length), findPk t [ks[i]] interpol = .ok [vs[i]] := by
  rw [findPk_ascending t h h1 interpol ks hks] at hv
  clear hks
  induction ks generalizing vs with
  | nil =>
    simp at hv; subst hv; simp
  | cons k ks ih =>
    rw [List.mapM_cons] at hv
    rcases hk : lookup t interpol k with v | w
    · rw [hk] at hv
      simp only [Res.ok_bind] at hv
      rcases hl : ks.mapM (lookup t interpol) with ws | w
      · rw [hl] at hv
        simp at hv
        subst hv
        obtain ⟨i1, i2⟩ := ih ws hl
        refine ⟨by simp [i1], ?_⟩
        intro i hi hi'
        cases i with
        | zero => simp only [List.getElem_cons_zero]; rw [findPk_single t h h1, hk]; rfl
        | succ i => simpa using i2 i (by simpa using hi) (by simpa using hi')
      · rw [hl] at hv; simp at hv
    · rw [hk] at hv; simp at hv

/-- C07 is violated for unordered requests, in `lin` mode: the second mode alone is served by the table value 0, after a larger
mode it is extrapolated from the wrong interval. -/
theorem C07_findPk_order_violation :
    findPk (⟨4, [1, 2, 3, 4], [0, 0, 0, 1]⟩ : Pk ℝ) [7 / 2, 3 / 2] .lin = .ok [1 / 2, -3 / 2] ∧
    findPk (⟨4, [1, 2, 3, 4], [0, 0, 0, 1]⟩ : Pk ℝ) [3 / 2] .lin = .ok [0] := by
  constructor <;>
  norm_num [findPk, findPkLoop, findPkOne, dichotomy, dichAux, interpolLin, rd, subSize, sizeMod, Histo.lt]

/-- C07 is violated for unordered requests, in `poly` mode. -/
theorem C07_findPk_order_violation_poly :
    findPk (⟨6, [1, 2, 3, 4, 5, 6], [0, 0, 0, 0, 0, 1]⟩ : Pk ℝ) [11 / 2, 3 / 2] .poly ≠
      (do
        let a ← findPk (⟨6, [1, 2, 3, 4, 5, 6], [0, 0, 0, 0, 0, 1]⟩ : Pk ℝ) [11 / 2] .poly
        let b ← findPk (⟨6, [1, 2, 3, 4, 5, 6], [0, 0, 0, 0, 0, 1]⟩ : Pk ℝ) [3 / 2] .poly
        .ok (a ++ b)) := by
  have hinc : (⟨6, [1, 2, 3, 4, 5, 6], [0, 0, 0, 0, 0, 1]⟩ : Pk ℝ).Increasing := ⟨⟨rfl, rfl, by norm_num⟩, by norm_num⟩
  have w1 : ∀ x : ℝ, interpolPoly x [3, 4, 5, 6] [0, 0, 0, 1] 4 = .ok ((x - 3) * (x - 4) * (x - 5) / 6) := by
    intro x
    have := C04_interpolPoly_unique x [3, 4, 5, 6] [0, 0, 0, 1] rfl (by simp) (by norm_num) (by norm_num)
      (C (1 / 6) * ((X - C 3) * (X - C 4) * (X - C 5))) ?_ ?_
    · rw [show ([3, 4, 5, 6] : List ℝ).length = 4 from rfl] at this
      rw [this]; congr 1; simp; ring
    · refine lt_of_le_of_lt (b := 3) ?_ (by exact_mod_cast (by decide : 3 < 4))
      compute_degree
    · intro i hi
      simp only [List.length_cons, List.length_nil] at hi
      interval_cases i <;> norm_num
  have w2 : ∀ x : ℝ, interpolPoly x [1, 2, 3, 4, 5, 6] [0, 0, 0, 0, 0, 1] 3 = .ok 0 := by
    intro x
    have := interpolPoly_window _ hinc x 0 3 (by norm_num) (by norm_num) 0 (by simp; exact WithBot.bot_lt_coe _) ?_
    · simpa using this
    · intro i _ hi
      interval_cases i <;> norm_num
  have i2 : Int.toNat 2 = 2 := rfl
  norm_num [findPk, findPkLoop, findPkOne, dichotomy, dichAux, rd, subSize, sizeMod, Histo.lt, ofLong, i2, w1, w2]

example : ∃ vs, findPk exTable [1 / 2, 1, 7 / 2, 20] .poly = .ok vs ∧ findPk exTable [7 / 2] .poly = .ok [vs.getD 2 0] := by
  obtain ⟨vs, hv⟩ := C06_findPk_poly_safe exTable exTable_physical.toWF (by norm_num [exTable]) [1 / 2, 1, 7 / 2, 20]
  obtain ⟨h1, h2⟩ := C07_findPk_pointwise_partial exTable exTable_physical.toIncreasing (by norm_num [exTable]) .poly
    [1 / 2, 1, 7 / 2, 20] (by norm_num) vs hv
  refine ⟨vs, hv, ?_⟩
  have := h2 2 (by simp) (by rw [h1]; simp)
  rw [getD_eq (by rw [h1]; simp)]
  simpa using this

/-! ## C08 – reproduction of the table -/

/-- C08: in `poly` mode the table value is returned at every table node. -/
theorem C08_findPk_node_poly (t : Pk ℝ) (h : t.Increasing) (i : ℕ) (hi : i < t.nk) :
    findPk t [t.k.getD i 0] .poly = .ok [t.pk.getD i 0] := by
  have hkl := h.hk; have hpl := h.hpk
  have hle0 : t.k.getD 0 0 ≤ t.k.getD i 0 := by
    rw [getD_eq (by omega), getD_eq (by omega)]; exact h.mono (by omega) (by omega) (by omega)
  have hle1 : t.k.getD i 0 ≤ t.k.getD (t.nk - 1) 0 := by
    rw [getD_eq (by omega), getD_eq (by omega)]; exact h.mono (by omega) (by omega) (by omega)
  obtain ⟨r, a1, a2, a3, a4⟩ := exists_bracket t h (by omega) _ hle0
  have hr : r = i := by
    have h3 : r ≤ i := by
      by_contra hne
      rw [getD_eq (by omega), getD_eq (by omega)] at a3
      exact absurd a3 (not_le.mpr (h.strictMono (by omega) (by omega) (by omega)))
    by_contra hne
    have h4 := a4 (by omega)
    rw [getD_eq (by omega), getD_eq (by omega)] at h4
    exact absurd h4 (not_lt.mpr (h.mono (by omega) (by omega) (by omega)))
  subst hr
  rw [findPk_single t h (by omega), lookup_in_poly t h (by omega) _ hle0 hle1 r a1 a2]
  obtain ⟨p, p1, p2⟩ := exists_window_poly t h (r - 2) (min (t.nk - 1) (r + 2) - (r - 2) + 1) (by omega)
  rw [interpolPoly_window t h _ _ _ (by omega) (by omega) p p1 p2, p2 r (by omega) (by omega)]
  rfl

/-- C08: in `lin` mode a mode of the interval `[k_i,k_{i+1})` gives a value between the two table values (the node `k_i` itself
gives `P_i`). -/
theorem C08_findPk_lin_between (t : Pk ℝ) (h : t.Increasing) (i : ℕ) (hi : i + 1 < t.nk) (k : ℝ) (hk : t.k.getD i 0 ≤ k)
    (hk' : k < t.k.getD (i + 1) 0) :
    ∃ v, findPk t [k] .lin = .ok [v] ∧ v ∈ Set.uIcc (t.pk.getD i 0) (t.pk.getD (i + 1) 0) ∧
      (k = t.k.getD i 0 → v = t.pk.getD i 0) := by
  have hkl := h.hk; have hpl := h.hpk
  have hle0 : t.k.getD 0 0 ≤ k := by
    refine le_trans ?_ hk
    rw [getD_eq (by omega), getD_eq (by omega)]; exact h.mono (by omega) (by omega) (by omega)
  have hle1 : k ≤ t.k.getD (t.nk - 1) 0 := by
    refine hk'.le.trans ?_
    rw [getD_eq (by omega), getD_eq (by omega)]; exact h.mono (by omega) (by omega) (by omega)
  obtain ⟨r, a1, a2, a3, a4⟩ := exists_bracket t h (by omega) k hle0
  have hr : r = i := by
    have h3 : r ≤ i := by
      by_contra hne
      have : t.k.getD (i + 1) 0 ≤ t.k.getD r 0 := by
        rw [getD_eq (by omega), getD_eq (by omega)]; exact h.mono (by omega) (by omega) (by omega)
      linarith
    by_contra hne
    have h4 := a4 (by omega)
    have : t.k.getD (r + 1) 0 ≤ t.k.getD i 0 := by
      rw [getD_eq (by omega), getD_eq (by omega)]; exact h.mono (by omega) (by omega) (by omega)
    linarith
  subst hr
  have hne : t.k.getD r 0 ≠ t.k.getD (r + 1) 0 := (lt_of_le_of_lt hk hk').ne
  refine ⟨interpolLin k (t.k.getD r 0) (t.k.getD (r + 1) 0) (t.pk.getD r 0) (t.pk.getD (r + 1) 0), ?_, ?_, ?_⟩
  · rw [findPk_single t h (by omega), lookup_in_lin t h (by omega) k hle0 hle1 r a1 hi]
    rfl
  · exact C05_interpolLin_between _ _ _ _ _ hne (by rw [Set.mem_uIcc]; left; exact ⟨hk, hk'.le⟩)
  · intro hkk
    rw [hkk]
    exact (C05_interpolLin_ends _ _ _ _ hne).1

/-- C08: in `poly` mode a table sampling a polynomial of degree at most 2 is reproduced on its whole range. -/
theorem C08_findPk_poly_quadratic (t : Pk ℝ) (h : t.Increasing) (h3 : 3 ≤ t.nk) (p : ℝ[X]) (hdeg : p.natDegree ≤ 2)
    (hp : ∀ i < t.nk, p.eval (t.k.getD i 0) = t.pk.getD i 0) (k : ℝ) (hk0 : t.k.getD 0 0 ≤ k)
    (hk1 : k ≤ t.k.getD (t.nk - 1) 0) : findPk t [k] .poly = .ok [p.eval k] := by
  obtain ⟨r, a1, a2, a3, a4⟩ := exists_bracket t h (by omega) k hk0
  rw [findPk_single t h (by omega), lookup_in_poly t h (by omega) k hk0 hk1 r a1 a2,
    interpolPoly_window t h _ _ _ (by omega) (by omega) p ?_ (fun i _ _ => hp i (by omega))]
  · rfl
  · refine lt_of_le_of_lt degree_le_natDegree ?_
    exact_mod_cast (by omega : p.natDegree < min (t.nk - 1) (r + 2) - (r - 2) + 1)

/-- C08: in `poly` mode, two nodes away from the ends, a table sampling a polynomial of degree at most 4 is reproduced. -/
theorem C08_findPk_poly_quartic (t : Pk ℝ) (h : t.Increasing) (h3 : 5 ≤ t.nk) (p : ℝ[X]) (hdeg : p.natDegree ≤ 4)
    (hp : ∀ i < t.nk, p.eval (t.k.getD i 0) = t.pk.getD i 0) (k : ℝ) (hk0 : t.k.getD 2 0 ≤ k)
    (hk1 : k < t.k.getD (t.nk - 2) 0) : findPk t [k] .poly = .ok [p.eval k] := by
  have hkl := h.hk
  have hle0 : t.k.getD 0 0 ≤ k := by
    refine le_trans ?_ hk0
    rw [getD_eq (by omega), getD_eq (by omega)]; exact h.mono (by omega) (by omega) (by omega)
  have hle1 : k ≤ t.k.getD (t.nk - 1) 0 := by
    refine hk1.le.trans ?_
    rw [getD_eq (by omega), getD_eq (by omega)]; exact h.mono (by omega) (by omega) (by omega)
  obtain ⟨r, a1, a2, a3, a4⟩ := exists_bracket t h (by omega) k hle0
  have hr2 : 2 ≤ r := by
    by_contra hne
    have h4 := a4 (by omega)
    have : t.k.getD (r + 1) 0 ≤ t.k.getD 2 0 := by
      rw [getD_eq (by omega), getD_eq (by omega)]; exact h.mono (by omega) (by omega) (by omega)
    linarith
  have hr3 : r + 2 < t.nk := by
    by_contra hne
    have : t.k.getD (t.nk - 2) 0 ≤ t.k.getD r 0 := by
      rw [getD_eq (by omega), getD_eq (by omega)]; exact h.mono (by omega) (by omega) (by omega)
    linarith
  rw [findPk_single t h (by omega), lookup_in_poly t h (by omega) k hle0 hle1 r a1 a2,
    interpolPoly_window t h _ _ _ (by omega) (by omega) p ?_ (fun i _ _ => hp i (by omega))]
  · rfl
  · refine lt_of_le_of_lt degree_le_natDegree ?_
    exact_mod_cast (by omega : p.natDegree < min (t.nk - 1) (r + 2) - (r - 2) + 1)

example : findPk exTable [13 / 2] .poly = .ok [169 / 4] := by
  have := C08_findPk_poly_quadratic exTable exTable_physical.toIncreasing (by norm_num [exTable]) (X ^ 2) (by simp)
    (by
      intro i hi
      have : i < 5 := hi
      interval_cases i <;> norm_num [exTable]) (13 / 2) (by norm_num [exTable]) (by norm_num [exTable])
  rw [this]; norm_num

example : ∃ v, findPk exTable [6] .lin = .ok [v] ∧ v ∈ Set.uIcc (25 : ℝ) 64 := by
  obtain ⟨v, h1, h2, _⟩ := C08_findPk_lin_between exTable exTable_physical.toIncreasing 3 (by norm_num [exTable]) 6
    (by norm_num [exTable]) (by norm_num [exTable])
  exact ⟨v, h1, by simpa [exTable] using h2⟩

/-! ## C09 – power-law extrapolation -/

theorem Pk.Physical.getD_pos {t : Pk ℝ} (h : t.Physical) {i : ℕ} (hi : i < t.nk) : 0 < t.k.getD i 0 := by
  rw [getD_eq (by rw [h.hk]; exact hi)]
  exact h.kpos _ (List.getElem_mem _)

theorem Pk.Increasing.getD_lt {t : Pk ℝ} (h : t.Increasing) {i j : ℕ} (hij : i < j) (hj : j < t.nk) :
    t.k.getD i 0 < t.k.getD j 0 := by
  have hkl := h.hk
  rw [getD_eq (by omega), getD_eq (by omega)]
  exact h.strictMono (by omega) (by omega) hij

theorem logSlope_powerlaw (t : Pk ℝ) (h : t.Physical) (A n : ℝ) (hA : 0 < A)
    (hp : ∀ i < t.nk, t.pk.getD i 0 = A * t.k.getD i 0 ^ n) (i : ℕ) (h1 : 1 ≤ i) (hi : i + 1 < t.nk) : logSlope t i = n := by
  have k1 := h.getD_pos (i := i + 1) hi
  have k0 := h.getD_pos (i := i - 1) (by omega)
  have hlt := h.toIncreasing.getD_lt (i := i - 1) (j := i + 1) (by omega) hi
  unfold logSlope
  rw [hp _ hi, hp _ (by omega), mul_div_mul_left _ _ hA.ne', ← Real.div_rpow k1.le k0.le, Real.log_rpow (div_pos k1 k0)]
  have : 0 < Real.log (t.k.getD (i + 1) 0 / t.k.getD (i - 1) 0) := Real.log_pos (by rw [lt_div_iff₀ k0]; linarith)
  field_simp

/-- C09: outside the table, a table sampling the power law `A k^n` is continued by `A k^n`, in both modes. -/
theorem C09_extrapolation_powerlaw (t : Pk ℝ) (h : t.Physical) (h3 : 3 ≤ t.nk) (A n : ℝ) (hA : 0 < A)
    (hp : ∀ i < t.nk, t.pk.getD i 0 = A * t.k.getD i 0 ^ n) (interpol : Interpol) (k : ℝ) (hk : 0 < k)
    (hout : k < t.k.getD 0 0 ∨ t.k.getD (t.nk - 1) 0 < k) : findPk t [k] interpol = .ok [A * k ^ n] := by
  have hi := h.toIncreasing
  have hpos : ∀ i < t.nk, 0 < t.pk.getD i 0 := by
    intro i hi'
    rw [hp i hi']
    exact mul_pos hA (Real.rpow_pos_of_pos (h.getD_pos hi') _)
  rw [findPk_single t hi (by omega)]
  rcases hout with hout | hout
  · have h01 : t.k.getD 0 0 < t.k.getD (t.nk - 1) 0 := hi.getD_lt (by omega) (by omega)
    rw [lookup_low t _ k (by linarith) hout, extrapolLowk_pos t h.toWF (by omega) hpos]
    have hsl : lowSlope t = n := by
      unfold lowSlope
      rw [Finset.sum_congr rfl (g := fun _ => n)]
      · rw [Finset.sum_const, Nat.card_Ico, nsmul_eq_mul]
        have : ((min 15 (t.nk - 1) - 1 : ℕ) : ℝ) ≠ 0 := by
          have : min 15 (t.nk - 1) - 1 ≠ 0 := by omega
          exact_mod_cast this
        field_simp
      · intro i hi'
        simp only [Finset.mem_Ico] at hi'
        exact logSlope_powerlaw t h A n hA hp i hi'.1 (by omega)
    have k1 := h.getD_pos (i := 1) (by omega)
    rw [hsl, hp 1 (by omega), Real.div_rpow hk.le k1.le]
    have := (Real.rpow_pos_of_pos k1 n).ne'
    simp only [Res.ok_bind]
    congr 2
    field_simp
  · rw [lookup_high t _ k hout, extrapolHighk_pos t h.toWF (by omega) hpos]
    have hsl : highSlope t = n := by
      unfold highSlope
      rw [Finset.sum_congr rfl (g := fun _ => n)]
      · rw [Finset.sum_const, Nat.card_Ico, nsmul_eq_mul]
        have : ((t.nk - 1 - max 1 (t.nk - 16) : ℕ) : ℝ) ≠ 0 := by
          have : t.nk - 1 - max 1 (t.nk - 16) ≠ 0 := by omega
          exact_mod_cast this
        field_simp
      · intro i hi'
        simp only [Finset.mem_Ico] at hi'
        exact logSlope_powerlaw t h A n hA hp i (by omega) (by omega)
    have k1 := h.getD_pos (i := t.nk - 1) (by omega)
    rw [hsl, hp (t.nk - 1) (by omega), Real.div_rpow hk.le k1.le]
    have := (Real.rpow_pos_of_pos k1 n).ne'
    simp only [Res.ok_bind]
    congr 2
    field_simp

/-- C09: the extrapolation of a positive table is positive. -/
theorem C09_extrapolation_pos (t : Pk ℝ) (h : t.Physical) (h2 : 2 ≤ t.nk) (hpos : ∀ i < t.nk, 0 < t.pk.getD i 0)
    (interpol : Interpol) (k : ℝ) (hk : 0 < k) (hout : k < t.k.getD 0 0 ∨ t.k.getD (t.nk - 1) 0 < k) :
    ∃ v, findPk t [k] interpol = .ok [v] ∧ 0 < v := by
  have hi := h.toIncreasing
  rw [findPk_single t hi (by omega)]
  rcases hout with hout | hout
  · have h01 : t.k.getD 0 0 < t.k.getD (t.nk - 1) 0 := hi.getD_lt (by omega) (by omega)
    rw [lookup_low t _ k (by linarith) hout, extrapolLowk_pos t h.toWF (by omega) hpos]
    exact ⟨_, rfl, mul_pos (hpos 1 (by omega)) (Real.rpow_pos_of_pos (div_pos hk (h.getD_pos (by omega))) _)⟩
  · rw [lookup_high t _ k hout, extrapolHighk_pos t h.toWF (by omega) hpos]
    exact ⟨_, rfl, mul_pos (hpos _ (by omega)) (Real.rpow_pos_of_pos (div_pos hk (h.getD_pos (by omega))) _)⟩

/-- C09: a non-positive value among the first 16 (last 17) table values sets the extrapolation below (above) the table to 0. -/
theorem C09_extrapolation_zero (t : Pk ℝ) (h : t.Increasing) (h4 : 4 ≤ t.nk) (i : ℕ) (hi : i < t.nk) (hneg : t.pk.getD i 0 ≤ 0)
    (interpol : Interpol) (k : ℝ)
    (hout : (k < t.k.getD 0 0 ∧ i < 16) ∨ (t.k.getD (t.nk - 1) 0 < k ∧ t.nk ≤ i + 17)) :
    findPk t [k] interpol = .ok [0] := by
  rw [findPk_single t h (by omega)]
  rcases hout with ⟨hout, hi'⟩ | ⟨hout, hi'⟩
  · have h01 : t.k.getD 0 0 < t.k.getD (t.nk - 1) 0 := h.getD_lt (by omega) (by omega)
    rw [lookup_low t _ k (by linarith) hout, extrapolLowk_nonpos t h.toWF h4 i (by omega) hneg]
    rfl
  · rw [lookup_high t _ k hout, extrapolHighk_nonpos t h.toWF h4 i hi hi' hneg]
    rfl

example : findPk exTable [100] .lin = .ok [10000] := by
  have := C09_extrapolation_powerlaw exTable exTable_physical (by norm_num [exTable]) 1 2 (by norm_num)
    (by
      intro i hi
      have : i < 5 := hi
      interval_cases i <;> norm_num [exTable]) .lin 100 (by norm_num) (Or.inr (by norm_num [exTable]))
  rw [this]; norm_num

/-! ## C10 – continuity at the ends -/

/-- C10, high end: the extrapolation tends to the last table value. -/
theorem C10_continuous_highk (t : Pk ℝ) (h : t.Physical) (h3 : 3 ≤ t.nk) (hpos : ∀ i < t.nk, 0 < t.pk.getD i 0)
    (interpol : Interpol) : ∃ f : ℝ → ℝ, (∀ k, t.k.getD (t.nk - 1) 0 < k → findPk t [k] interpol = .ok [f k]) ∧
      Tendsto f (𝓝[>] t.k.getD (t.nk - 1) 0) (𝓝 (t.pk.getD (t.nk - 1) 0)) := by
  have hi := h.toIncreasing
  have k1 := h.getD_pos (i := t.nk - 1) (by omega)
  refine ⟨fun k => t.pk.getD (t.nk - 1) 0 * (k / t.k.getD (t.nk - 1) 0) ^ highSlope t, ?_, ?_⟩
  · intro k hk
    rw [findPk_single t hi (by omega), lookup_high t _ k hk, extrapolHighk_pos t h.toWF (by omega) hpos]
    rfl
  · have : ContinuousAt (fun k => t.pk.getD (t.nk - 1) 0 * (k / t.k.getD (t.nk - 1) 0) ^ highSlope t) (t.k.getD (t.nk - 1) 0) := by
      apply ContinuousAt.mul continuousAt_const
      apply ContinuousAt.rpow
      · exact continuousAt_id.div_const _
      · exact continuousAt_const
      · left; exact (div_pos k1 k1).ne'
    have h2 := this.tendsto
    simp only [div_self k1.ne', Real.one_rpow, mul_one] at h2
    exact h2.mono_left nhdsWithin_le_nhds

/-- C10, low end, what the code does: the limit is the power law through the *second* table value. -/
theorem C10_limit_lowk (t : Pk ℝ) (h : t.Physical) (h3 : 3 ≤ t.nk) (hpos : ∀ i < t.nk, 0 < t.pk.getD i 0)
    (interpol : Interpol) : ∃ f : ℝ → ℝ, (∀ k, k < t.k.getD 0 0 → findPk t [k] interpol = .ok [f k]) ∧
      Tendsto f (𝓝[<] t.k.getD 0 0) (𝓝 (t.pk.getD 1 0 * (t.k.getD 0 0 / t.k.getD 1 0) ^ lowSlope t)) := by
  have hi := h.toIncreasing
  have k1 := h.getD_pos (i := 1) (by omega)
  have k0 := h.getD_pos (i := 0) (by omega)
  have h01 : t.k.getD 0 0 < t.k.getD (t.nk - 1) 0 := hi.getD_lt (by omega) (by omega)
  refine ⟨fun k => t.pk.getD 1 0 * (k / t.k.getD 1 0) ^ lowSlope t, ?_, ?_⟩
  · intro k hk
    rw [findPk_single t hi (by omega), lookup_low t _ k (by linarith) hk, extrapolLowk_pos t h.toWF (by omega) hpos]
    rfl
  · have : ContinuousAt (fun k => t.pk.getD 1 0 * (k / t.k.getD 1 0) ^ lowSlope t) (t.k.getD 0 0) := by
      apply ContinuousAt.mul continuousAt_const
      apply ContinuousAt.rpow
      · exact continuousAt_id.div_const _
      · exact continuousAt_const
      · left; exact (div_pos k0 k1).ne'
    exact this.tendsto.mono_left nhdsWithin_le_nhds

/-- C10 is violated at the low end: for `k=1,2,4`, `P=1,1,4` the extrapolation tends to 1/2 at the first mode, where the table
value is 1. -/
theorem C10_lowk_violation : ∃ t : Pk ℝ, t.Physical ∧ 3 ≤ t.nk ∧ (∀ i < t.nk, 0 < t.pk.getD i 0) ∧ t.pk.getD 0 0 = 1 ∧
    ∀ interpol : Interpol, ∃ f : ℝ → ℝ, (∀ k, k < t.k.getD 0 0 → findPk t [k] interpol = .ok [f k]) ∧
      Tendsto f (𝓝[<] t.k.getD 0 0) (𝓝 (1 / 2)) := by
  have hphys : (⟨3, [1, 2, 4], [1, 1, 4]⟩ : Pk ℝ).Physical := ⟨⟨⟨rfl, rfl, by norm_num⟩, by norm_num⟩, by norm_num⟩
  have hpos : ∀ i < (⟨3, [1, 2, 4], [1, 1, 4]⟩ : Pk ℝ).nk, 0 < (⟨3, [1, 2, 4], [1, 1, 4]⟩ : Pk ℝ).pk.getD i 0 := by
    intro i hi
    have : i < 3 := hi
    interval_cases i <;> norm_num
  refine ⟨⟨3, [1, 2, 4], [1, 1, 4]⟩, hphys, le_rfl, hpos, rfl, fun interpol => ?_⟩
  obtain ⟨f, h1, h2⟩ := C10_limit_lowk _ hphys le_rfl hpos interpol
  refine ⟨f, h1, ?_⟩
  have hs : lowSlope ⟨3, [1, 2, 4], [1, 1, 4]⟩ = 1 := by
    have hl : Real.log 4 ≠ 0 := (Real.log_pos (by norm_num)).ne'
    norm_num [lowSlope, logSlope, hl]
  rw [hs] at h2
  norm_num at h2 ⊢
  exact h2

example : ∃ f : ℝ → ℝ, (∀ k, 8 < k → findPk exTable [k] .poly = .ok [f k]) ∧ Tendsto f (𝓝[>] 8) (𝓝 64) := by
  have := C10_continuous_highk exTable exTable_physical (by norm_num [exTable]) (by
      intro i hi
      have : i < 5 := hi
      interval_cases i <;> norm_num [exTable]) .poly
  simpa [exTable] using this

end Verif
