import Verif.Props.Azimuth
import Verif.Model.Python
import Mathlib.Tactic.FieldSimp
import Mathlib.Tactic.Positivity

/-!
# C34: redshift-space columns and their angular and growth powers
-/

namespace Verif

open Terms

/-- Labels `n,a,b` of the twelve B components (`src/calc_pkcorr_from_B.c:36-50`, trailing comments). -/
def labelB : Fin 12 → ℕ × ℕ × ℕ :=
  ![(1, 1, 1), (1, 1, 2), (1, 2, 1), (1, 2, 2), (2, 1, 1), (2, 1, 2), (2, 2, 1), (2, 2, 2), (3, 1, 2), (3, 2, 1), (3, 2, 2),
    (4, 2, 2)]

/-- Labels `n,a,b` of the A components, first `A` then `tA` (`src/spectrum_A_2loop.c:60-64`, trailing comments). -/
def labelA : Fin 12 → ℕ × ℕ × ℕ :=
  ![(1, 1, 1), (1, 2, 1), (2, 2, 1), (2, 1, 2), (2, 2, 2), (3, 2, 2),
    (1, 1, 1), (1, 2, 1), (2, 2, 1), (2, 1, 2), (2, 2, 2), (3, 2, 2)]

/-- C34: the nine B columns with their powers sum up to `Σ mu^(2n) (-f)^(a+b) B_nab` over the twelve components. -/
theorem C34_columns_B (p : Fin 12 → ℝ) (nu f : ℝ) :
    ∑ c, nu ^ (2 * (expB c).1) * f ^ (expB c).2 * columnsB p c
      = ∑ i, nu ^ (2 * (labelB i).1) * (-f) ^ ((labelB i).2.1 + (labelB i).2.2) * p i := by
  unfold expB labelB columnsB
  simp only [Fin.sum_univ_succ, Finset.univ_eq_empty, Finset.sum_empty]
  simp
  ring

/-- C34: the five A columns with their powers sum up to `Σ mu^(2n) f^(a+b-1) A_nab` over the twelve components. -/
theorem C34_columns_A (p : Fin 12 → ℝ) (nu f : ℝ) :
    ∑ c, nu ^ (2 * (expA c).1) * f ^ (expA c).2 * columnsA2 p c
      = ∑ i, nu ^ (2 * (labelA i).1) * f ^ ((labelA i).2.1 + (labelA i).2.2 - 1) * p i := by
  unfold expA labelA columnsA2
  simp only [Fin.sum_univ_succ, Finset.univ_eq_empty, Finset.sum_empty]
  simp
  ring

example (p : Fin 12 → ℝ) : ∑ c, (2 : ℝ) ^ (2 * (expB c).1) * 3 ^ (expB c).2 * columnsB p c
    = ∑ i, 2 ^ (2 * (labelB i).1) * (-3) ^ ((labelB i).2.1 + (labelB i).2.2) * p i := C34_columns_B p 2 3

example (p : Fin 12 → ℝ) : ∑ c, (2 : ℝ) ^ (2 * (expA c).1) * 3 ^ (expA c).2 * columnsA2 p c
    = ∑ i, 2 ^ (2 * (labelA i).1) * 3 ^ ((labelA i).2.1 + (labelA i).2.2 - 1) * p i := C34_columns_A p 2 3

/-! ## `np.interp` -/

/-- The straight line through two points. -/
noncomputable def lineThrough (x0 y0 x1 y1 x : ℝ) : ℝ := y0 + (x - x0) / (x1 - x0) * (y1 - y0)

theorem npInterpFrom_eq (right x : ℝ) : ∀ (l : List (ℝ × ℝ)) (i : ℕ) (hi : i + 1 < l.length),
    l.Pairwise (fun a b => a.1 < b.1) → l[i].1 ≤ x → x ≤ l[i + 1].1 →
    npInterpFrom right x l = lineThrough l[i].1 l[i].2 l[i + 1].1 l[i + 1].2 x
  | [], i, hi, _, _, _ => by simp at hi
  | [_], i, hi, _, _, _ => by simp at hi
  | (x0, y0) :: (x1, y1) :: l, i, hi, hp, h1, h2 => by
    unfold npInterpFrom
    have h01 : x0 < x1 := (List.pairwise_cons.1 hp).1 (x1, y1) (by simp)
    cases i with
    | zero =>
      simp only [List.getElem_cons_zero, zero_add, List.getElem_cons_succ] at h1 h2 ⊢
      have hne : x1 - x0 ≠ 0 := by linarith
      by_cases hx : x < x1
      · rw [if_pos hx]
        unfold lineThrough
        field_simp
        ring
      · rw [if_neg hx]
        have : x = x1 := le_antisymm h2 (not_lt.1 hx)
        subst this
        have hl : lineThrough x0 y0 x y1 x = y1 := by
          unfold lineThrough
          field_simp
          ring
        rw [hl]
        cases l with
        | nil =>
          unfold npInterpFrom
          rw [if_neg (lt_irrefl _)]
        | cons c l =>
          obtain ⟨x2, y2⟩ := c
          have h12 : x < x2 := (List.pairwise_cons.1 (List.pairwise_cons.1 hp).2).1 (x2, y2) (by simp)
          unfold npInterpFrom
          rw [if_pos h12]
          ring
    | succ j =>
      simp only [List.getElem_cons_succ] at h1 h2 ⊢
      have hj : j + 1 < ((x1, y1) :: l).length := by simpa using hi
      have hp' := (List.pairwise_cons.1 hp).2
      have hx : ¬ x < x1 := by
        have : x1 ≤ (((x1, y1) :: l)[j]'(by omega)).1 := by
          cases j with
          | zero => exact le_refl _
          | succ m =>
            have := (List.pairwise_cons.1 hp').1 (l[m]'(by simp at hj; omega)) (by simp)
            exact this.le
        exact not_lt.2 (this.trans h1)
      rw [if_neg hx]
      exact npInterpFrom_eq right x ((x1, y1) :: l) j hj hp' h1 h2

theorem npInterpFrom_right (right x : ℝ) : ∀ (l : List (ℝ × ℝ)), (∀ c ∈ l, c.1 < x) → npInterpFrom right x l = right
  | [], _ => rfl
  | [(x0, y0)], h => by
    unfold npInterpFrom
    rw [if_pos (h (x0, y0) (by simp))]
  | (x0, y0) :: (x1, y1) :: l, h => by
    unfold npInterpFrom
    rw [if_neg (not_lt.2 (h (x1, y1) (by simp)).le)]
    exact npInterpFrom_right right x _ fun c hc => h c (List.mem_cons_of_mem _ hc)

theorem zip_pairwise (xp fp : List ℝ) (hs : xp.Pairwise (· < ·)) : (xp.zip fp).Pairwise (fun a b => a.1 < b.1) := by
  induction xp generalizing fp with
  | nil => simp
  | cons a xp ih =>
    cases fp with
    | nil => simp
    | cons b fp =>
      rw [List.zip_cons_cons, List.pairwise_cons]
      refine ⟨fun c hc => ?_, ih fp (List.pairwise_cons.1 hs).2⟩
      exact (List.pairwise_cons.1 hs).1 c.1 (List.of_mem_zip (a := c.1) (b := c.2) hc).1

/-- Between two consecutive abscissae, ends included, `np.interp` is the straight line through the two points. -/
theorem npInterp_inside (left right x : ℝ) (xp fp : List ℝ) (hs : xp.Pairwise (· < ·)) (hl : fp.length = xp.length) (i : ℕ)
    (hi : i + 1 < xp.length) (h1 : xp[i] ≤ x) (h2 : x ≤ xp[i + 1]) :
    npInterp left right x xp fp = lineThrough xp[i] (fp[i]'(by omega)) xp[i + 1] (fp[i + 1]'(by omega)) x := by
  have hlz : (xp.zip fp).length = xp.length := by rw [List.length_zip, hl, min_self]
  have hz : ∀ j (hj : j < xp.length), (xp.zip fp)[j]'(by omega) = (xp[j], fp[j]'(by omega)) := fun j hj => by
    rw [List.getElem_zip]
  have key := npInterpFrom_eq right x (xp.zip fp) i (by omega) (zip_pairwise xp fp hs)
    (by rw [hz i (by omega)]; exact h1) (by rw [hz (i + 1) hi]; exact h2)
  rw [hz i (by omega), hz (i + 1) hi] at key
  unfold npInterp
  have h0 : ∀ a l, xp.zip fp = a :: l → ¬ x < a.1 := by
    intro a l e
    have ha : a = (xp[0]'(by omega), fp[0]'(by omega)) := by
      have := hz 0 (by omega)
      simpa [e] using this
    rw [ha]
    refine not_lt.2 (le_trans ?_ h1)
    rcases Nat.eq_zero_or_pos i with rfl | hpos
    · exact le_refl _
    · exact (List.pairwise_iff_getElem.1 hs 0 i (by omega) (by omega) hpos).le
  cases hzz : xp.zip fp with
  | nil => rw [hzz] at hlz; simp at hlz; omega
  | cons a l =>
    obtain ⟨x0, y0⟩ := a
    dsimp only
    rw [if_neg (h0 _ _ hzz), ← hzz, key]

/-- Below the first abscissa `np.interp` gives `left`, above the last one `right`. -/
theorem npInterp_outside (left right x : ℝ) (xp fp : List ℝ) (hs : xp.Pairwise (· < ·)) (hl : fp.length = xp.length)
    (h0 : 0 < xp.length) :
    (x < xp[0] → npInterp left right x xp fp = left) ∧
    (xp[xp.length - 1] < x → npInterp left right x xp fp = right) := by
  have hlz : (xp.zip fp).length = xp.length := by rw [List.length_zip, hl, min_self]
  cases hzz : xp.zip fp with
  | nil => rw [hzz] at hlz; simp at hlz; omega
  | cons a l =>
    obtain ⟨x0, y0⟩ := a
    have hx0 : xp[0] = x0 := by
      have h : (xp.zip fp)[0]'(by omega) = (xp[0], fp[0]'(by omega)) := by rw [List.getElem_zip]
      simp only [hzz, List.getElem_cons_zero, Prod.mk.injEq] at h
      exact h.1.symm
    unfold npInterp
    rw [hzz]
    dsimp only
    constructor
    · intro h
      rw [if_pos (hx0 ▸ h)]
    · intro h
      have hle : ∀ y ∈ xp, y ≤ xp[xp.length - 1] := by
        intro y hy
        obtain ⟨j, hj, rfl⟩ := List.getElem_of_mem hy
        rcases Nat.lt_or_ge j (xp.length - 1) with hlt | hge
        · exact (List.pairwise_iff_getElem.1 hs j (xp.length - 1) hj (by omega) hlt).le
        · have : j = xp.length - 1 := by omega
          subst this
          exact le_refl _
      rw [if_neg (not_lt.2 ((hx0 ▸ hle xp[0] (List.getElem_mem _)).trans h.le))]
      refine npInterpFrom_right right x _ fun c hc => ?_
      rw [← hzz] at hc
      exact (hle c.1 (List.of_mem_zip (a := c.1) (b := c.2) hc).1).trans_lt h

/-! ## The two methods -/

/-- Entry of mode `i`, column `c` of the two-dimensional column `pk` with `n` components. -/
noncomputable def entry (t : Terms) (n i c : ℕ) : ℝ := t.val "pk" (i * n + c)

theorem comp_length (t : Terms) (n : ℕ) (D : ℝ) (j : ℕ) : (t.comp n D j).length = (t.get "k").length := by
  unfold Terms.comp
  simp

theorem comp_getElem (t : Terms) (n : ℕ) (D : ℝ) (j i : ℕ) (hi : i < (t.comp n D j).length) :
    (t.comp n D j)[i] = D ^ 4 * entry t n i j := by
  simp only [Terms.comp, entry, pkAB, scaleFactor, List.getElem_map, List.getElem_range, Nat.reduceMul]

/-- C34: between two consecutive modes `A1Loop.pk_interp` is the polynomial in `mu^2` and `beta` with the powers of `expA` whose
coefficients are the linearly interpolated columns. -/
theorem C34_interp_A (t : Terms) (k nu beta D left right : ℝ) (hs : (t.get "k").Pairwise (· < ·)) (i : ℕ)
    (hi : i + 1 < (t.get "k").length) (h1 : (t.get "k")[i] ≤ k) (h2 : k ≤ (t.get "k")[i + 1]) :
    pkInterpA t k (nu ^ 2) beta D left right = D ^ 4 * ∑ c : Fin 5, nu ^ (2 * (expA c).1) * beta ^ (expA c).2 *
      lineThrough (t.get "k")[i] (entry t 5 i c) (t.get "k")[i + 1] (entry t 5 (i + 1) c) k := by
  unfold pkInterpA
  simp only [npInterp_inside left right k (t.get "k") _ hs (comp_length t 5 D _) i hi h1 h2, comp_getElem]
  unfold expA lineThrough
  simp only [Fin.sum_univ_succ, Finset.univ_eq_empty, Finset.sum_empty]
  simp
  ring

/-- C34: the same for `B1Loop.pk_interp` and the powers of `expB`. -/
theorem C34_interp_B (t : Terms) (k nu beta D left right : ℝ) (hs : (t.get "k").Pairwise (· < ·)) (i : ℕ)
    (hi : i + 1 < (t.get "k").length) (h1 : (t.get "k")[i] ≤ k) (h2 : k ≤ (t.get "k")[i + 1]) :
    pkInterpB t k (nu ^ 2) beta D left right = D ^ 4 * ∑ c : Fin 9, nu ^ (2 * (expB c).1) * beta ^ (expB c).2 *
      lineThrough (t.get "k")[i] (entry t 9 i c) (t.get "k")[i + 1] (entry t 9 (i + 1) c) k := by
  unfold pkInterpB
  simp only [npInterp_inside 0 0 k (t.get "k") _ hs (comp_length t 9 D _) i hi h1 h2, comp_getElem]
  unfold expB lineThrough
  simp only [Fin.sum_univ_succ, Finset.univ_eq_empty, Finset.sum_empty]
  simp
  ring

/-- Two modes, first A column `1, 3`, third A column `0, 2`. -/
def exA : Terms := ⟨[("k", [1, 2]), ("pk", [1, 0, 0, 0, 0, 3, 0, 2, 0, 0])]⟩

theorem exA_k : exA.get "k" = [1, 2] := by
  simp [exA, Terms.get]

/-- Non-vacuity of `C34_interp_A`: half way between the modes of `exA`. -/
example : ∃ h : 0 + 1 < (exA.get "k").length, (exA.get "k").Pairwise (· < ·) ∧ (exA.get "k")[0] ≤ (3 / 2 : ℝ) ∧
    (3 / 2 : ℝ) ≤ (exA.get "k")[0 + 1] := by
  simp only [exA_k]
  norm_num

/-- Outside the modes every column of A gives `left` (below) or `right` (above), so that with the default values `0` the result
is `0`.  Missing for the full C34: with other values the result is not the given value (`C34_left_A_violation`), and
`B1Loop.pk_interp` ignores them (`C34_left_B_violation`). -/
theorem C34_outside_partial (t : Terms) (k mu2 beta D left right : ℝ) (hs : (t.get "k").Pairwise (· < ·))
    (h0 : 0 < (t.get "k").length) :
    (k < (t.get "k")[0] → pkInterpA t k mu2 beta D left right
      = (mu2 * beta + mu2 * beta ^ 2 + mu2 ^ 2 * beta ^ 2 + mu2 ^ 2 * beta ^ 3 + mu2 ^ 3 * beta ^ 3) * left
      ∧ pkInterpB t k mu2 beta D left right = 0) ∧
    ((t.get "k")[(t.get "k").length - 1] < k → pkInterpA t k mu2 beta D left right
      = (mu2 * beta + mu2 * beta ^ 2 + mu2 ^ 2 * beta ^ 2 + mu2 ^ 2 * beta ^ 3 + mu2 ^ 3 * beta ^ 3) * right
      ∧ pkInterpB t k mu2 beta D left right = 0) := by
  have hA := fun j => npInterp_outside left right k (t.get "k") (t.comp 5 D j) hs (comp_length t 5 D j) h0
  have hB := fun j => npInterp_outside 0 0 k (t.get "k") (t.comp 9 D j) hs (comp_length t 9 D j) h0
  unfold pkInterpA pkInterpB
  refine ⟨fun h => ⟨?_, ?_⟩, fun h => ⟨?_, ?_⟩⟩
  · simp only [(hA _).1 h]
    ring
  · simp only [(hB _).1 h]
    ring
  · simp only [(hA _).2 h]
    ring
  · simp only [(hB _).2 h]
    ring

example : (exA.get "k").Pairwise (· < ·) ∧ ∃ h : 0 < (exA.get "k").length, (1 / 2 : ℝ) < (exA.get "k")[0] := by
  simp only [exA_k]
  norm_num

/-- C34 fails for A outside the modes: below the first mode, `pk_interp(k, mu2=1, beta=1, left=1)` is `5`. -/
theorem C34_left_A_violation : pkInterpA exA (1 / 2) 1 1 1 1 0 = 5 := by
  have h := (C34_outside_partial exA (1 / 2) 1 1 1 1 0 (by rw [exA_k]; norm_num) (by rw [exA_k]; norm_num)).1
    (by simp only [exA_k]; norm_num)
  rw [h.1]
  norm_num

/-- C34 fails for B outside the modes: below the first mode, `pk_interp(k, mu2=1, beta=1, left=1)` is `0`. -/
theorem C34_left_B_violation : pkInterpB exA (1 / 2) 1 1 1 1 0 = 0 := by
  have h := (C34_outside_partial exA (1 / 2) 1 1 1 1 0 (by rw [exA_k]; norm_num) (by rw [exA_k]; norm_num)).1
    (by simp only [exA_k]; norm_num)
  exact h.2

end Verif
