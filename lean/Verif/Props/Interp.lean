import Verif.Proofs.Neville
import Mathlib.Tactic.NormNum.Ineq
import Mathlib.Tactic.IntervalCases

/-!
# C03, C04, C05 – polynomial and linear interpolation
-/

namespace Verif

open Polynomial

/-- C03: for `1 <= n < 2^63` points `interpol_poly` runs without undefined behaviour on arrays of exactly `n` cells, for every
arithmetic and every comparison outcome (NaN, duplicated abscissae, ...). -/
theorem C03_interpolPoly_safe {α : Type} [Add α] [Sub α] [Mul α] [Div α] [Neg α] [Histo α]
    (x : α) (tabx taby : List α) (n : ℕ) (h0 : 1 ≤ n) (hn : n < 2 ^ 63) (hx : tabx.length = n) (hy : taby.length = n) :
    (interpolPoly x tabx taby n).defined := by
  obtain ⟨X, hX⟩ := exists_fn (l := tabx) (n := n) h0 hx.ge
  obtain ⟨Y, hY⟩ := exists_fn (l := taby) (n := n) h0 hy.ge
  obtain ⟨y, h, _⟩ := interpolPoly_rule x tabx taby n X Y h0 hn hX hY (fun _ _ _ => True) (fun _ _ => trivial)
    (fun _ _ _ _ _ => trivial) (fun _ _ _ _ _ => trivial)
  exact ⟨y, h⟩

/-- C03: with empty arrays the first statement already reads out of bounds. -/
theorem C03_interpolPoly_empty {α : Type} [Add α] [Sub α] [Mul α] [Div α] [Neg α] [Histo α] (x : α) (n : ℕ) (taby : List α) :
    (interpolPoly x [] taby n).isUB := ⟨"out of bounds read", rfl⟩

/-- Non-vacuity: the hypotheses of `C03_interpolPoly_safe` hold for a five-point window with a duplicated abscissa. -/
example : (interpolPoly (3 / 2 : ℝ) [1, 2, 2, 3, 4] [1, 4, 4, 9, 16] 5).defined :=
  C03_interpolPoly_safe _ _ _ 5 (by norm_num) (by norm_num) rfl rfl

/-- C04: for pairwise distinct abscissae the result is the value of any (hence of the unique) polynomial of degree `< n`
through the points. -/
theorem C04_interpolPoly_unique (x : ℝ) (tabx taby : List ℝ) (hlen : tabx.length = taby.length) (hn : 1 ≤ tabx.length)
    (hsz : tabx.length < 2 ^ 63) (hdist : tabx.Nodup) (p : ℝ[X]) (hdeg : p.degree < tabx.length)
    (hp : ∀ (i : ℕ) (h : i < tabx.length), p.eval tabx[i] = taby[i]) :
    interpolPoly x tabx taby tabx.length = .ok (p.eval x) := by
  obtain ⟨X, hX⟩ := exists_fn (l := tabx) (n := tabx.length) hn le_rfl
  obtain ⟨Y, hY⟩ := exists_fn (l := taby) (n := tabx.length) hn hlen.le
  have hX' : ∀ i (h : i < tabx.length), X i = tabx[i] := by
    intro i h
    have := hX i h
    rw [List.getElem?_eq_getElem h] at this
    exact (Option.some_injective _ this).symm
  have hY' : ∀ i (h : i < tabx.length), Y i = taby[i] := by
    intro i h
    have := hY i h
    rw [List.getElem?_eq_getElem (by omega)] at this
    exact (Option.some_injective _ this).symm
  have hinj : ∀ i < tabx.length, ∀ i' < tabx.length, X i = X i' → i = i' := by
    intro i hi i' hi' h
    rw [hX' i hi, hX' i' hi'] at h
    exact (List.Nodup.getElem_inj_iff hdist).mp h
  rw [interpolPoly_lagrange x tabx taby tabx.length X Y hn hsz hX hY hinj]
  have : p = Lagrange.interpolate (Finset.range tabx.length) X Y := by
    apply Lagrange.eq_interpolate_of_eval_eq
    · intro i hi i' hi' h
      simp at hi hi'
      exact hinj i hi i' hi' h
    · simpa using hdeg
    · intro i hi
      simp at hi
      rw [hX' i hi, hY' i hi, hp i hi]
  rw [← this]

/-- C04: such a polynomial exists, so that the previous theorem determines the result for all ordinates. -/
theorem C04_interpolPoly_exists (tabx taby : List ℝ) (hlen : tabx.length = taby.length) (hdist : tabx.Nodup) :
    ∃ p : ℝ[X], p.degree < tabx.length ∧ ∀ (i : ℕ) (h : i < tabx.length), p.eval tabx[i] = taby[i] := by
  refine ⟨Lagrange.interpolate (Finset.univ : Finset (Fin tabx.length)) (fun i => tabx[i]) (fun i => taby[i]'(by omega)), ?_, ?_⟩
  · have := Lagrange.degree_interpolate_lt (s := (Finset.univ : Finset (Fin tabx.length))) (v := fun i => tabx[i])
      (r := fun i => taby[i]'(by omega)) (by
        intro i _ j _ h
        exact Fin.ext ((List.Nodup.getElem_inj_iff hdist).mp h))
    simpa using this
  · intro i h
    have := Lagrange.eval_interpolate_at_node (s := (Finset.univ : Finset (Fin tabx.length))) (v := fun i => tabx[i])
      (i := ⟨i, h⟩) (fun i => taby[i]'(by omega)) (by
        intro i _ j _ h
        exact Fin.ext ((List.Nodup.getElem_inj_iff hdist).mp h)) (Finset.mem_univ _)
    simpa using this

/-- C04: the tabulated ordinate is returned at every node. -/
theorem C04_interpolPoly_node (tabx taby : List ℝ) (hlen : tabx.length = taby.length)
    (hsz : tabx.length < 2 ^ 63) (hdist : tabx.Nodup) (i : ℕ) (hi : i < tabx.length) :
    interpolPoly tabx[i] tabx taby tabx.length = .ok taby[i] := by
  obtain ⟨p, h1, h2⟩ := C04_interpolPoly_exists tabx taby hlen hdist
  rw [C04_interpolPoly_unique _ _ _ hlen (by omega) hsz hdist p h1 h2, h2 i hi]

/-- C04: the order of the points is irrelevant. -/
theorem C04_interpolPoly_perm (x : ℝ) (l l' : List (ℝ × ℝ)) (hperm : l.Perm l') (hn : 1 ≤ l.length) (hsz : l.length < 2 ^ 63)
    (hdist : (l.map Prod.fst).Nodup) :
    interpolPoly x (l.map Prod.fst) (l.map Prod.snd) l.length = interpolPoly x (l'.map Prod.fst) (l'.map Prod.snd) l'.length := by
  obtain ⟨p, h1, h2⟩ := C04_interpolPoly_exists (l.map Prod.fst) (l.map Prod.snd) (by simp) hdist
  have hmem : ∀ ab ∈ l, p.eval ab.1 = ab.2 := by
    intro ab hab
    obtain ⟨i, hi, rfl⟩ := List.getElem_of_mem hab
    have := h2 i (by simpa using hi)
    rw [List.getElem_map] at this
    simpa using this
  have hl := hperm.length_eq
  have e1 := C04_interpolPoly_unique x (l.map Prod.fst) (l.map Prod.snd) (by simp) (by simpa using hn) (by simpa using hsz)
    hdist p h1 h2
  have e2 := C04_interpolPoly_unique x (l'.map Prod.fst) (l'.map Prod.snd) (by simp) (by simp; omega) (by simp; omega)
    ((hperm.map Prod.fst).nodup_iff.mp hdist) p (by simpa [hl] using h1) (by
      intro i hi
      simp only [List.length_map] at hi
      have := hmem l'[i] (hperm.mem_iff.mpr (List.getElem_mem hi))
      simpa using this)
  simp only [List.length_map] at e1 e2
  rw [e1, e2]

/-- C04: the result is linear in the ordinates. -/
theorem C04_interpolPoly_linear (x s t : ℝ) (tabx y1 y2 : List ℝ) (h1 : tabx.length = y1.length) (h2 : tabx.length = y2.length)
    (hn : 1 ≤ tabx.length) (hsz : tabx.length < 2 ^ 63) (hdist : tabx.Nodup) :
    ∃ v1 v2, interpolPoly x tabx y1 tabx.length = .ok v1 ∧ interpolPoly x tabx y2 tabx.length = .ok v2 ∧
      interpolPoly x tabx (List.zipWith (fun a b => s * a + t * b) y1 y2) tabx.length = .ok (s * v1 + t * v2) := by
  obtain ⟨p, p1, p2⟩ := C04_interpolPoly_exists tabx y1 h1 hdist
  obtain ⟨q, q1, q2⟩ := C04_interpolPoly_exists tabx y2 h2 hdist
  refine ⟨p.eval x, q.eval x, C04_interpolPoly_unique _ _ _ h1 hn hsz hdist p p1 p2,
    C04_interpolPoly_unique _ _ _ h2 hn hsz hdist q q1 q2, ?_⟩
  have hd : (C s * p + C t * q).degree < tabx.length := by
    refine lt_of_le_of_lt (degree_add_le _ _) (max_lt ?_ ?_)
    · exact lt_of_le_of_lt ((degree_mul_le _ _).trans (add_le_of_nonpos_left degree_C_le)) p1
    · exact lt_of_le_of_lt ((degree_mul_le _ _).trans (add_le_of_nonpos_left degree_C_le)) q1
  rw [C04_interpolPoly_unique x tabx _ (by simp; omega) hn hsz hdist (C s * p + C t * q) hd]
  · simp
  · intro i hi
    simp [p2 i hi, q2 i hi]

/-- Non-vacuity: the five-point window of `find_pk` on unequally spaced nodes reproduces a cubic. -/
example : interpolPoly (3 / 2 : ℝ) [1, 2, 4, 5, 7] [1, 8, 64, 125, 343] 5 = .ok (27 / 8) := by
  have := C04_interpolPoly_unique (3 / 2 : ℝ) [1, 2, 4, 5, 7] [1, 8, 64, 125, 343] rfl (by simp) (by norm_num) (by norm_num)
    (X ^ 3) (by rw [degree_X_pow]; exact_mod_cast (by decide : 3 < 5)) (by
      intro i hi
      simp only [List.length_cons, List.length_nil] at hi
      interval_cases i <;> norm_num)
  norm_num at this
  exact this

/-- C05: `interpol_lin` takes the end values at the end points. -/
theorem C05_interpolLin_ends (x0 x1 y0 y1 : ℝ) (h : x0 ≠ x1) :
    interpolLin x0 x0 x1 y0 y1 = y0 ∧ interpolLin x1 x0 x1 y0 y1 = y1 := by
  have : x1 - x0 ≠ 0 := sub_ne_zero.mpr h.symm
  constructor <;> unfold interpolLin <;> field_simp <;> ring

/-- C05: affine functions are reproduced. -/
theorem C05_interpolLin_affine (x x0 x1 a b : ℝ) (h : x0 ≠ x1) :
    interpolLin x x0 x1 (a * x0 + b) (a * x1 + b) = a * x + b := by
  have : x1 - x0 ≠ 0 := sub_ne_zero.mpr h.symm
  unfold interpolLin; field_simp; ring

/-- C05: inside the interval the value is between the end values. -/
theorem C05_interpolLin_between (x x0 x1 y0 y1 : ℝ) (h : x0 ≠ x1) (hx : x ∈ Set.uIcc x0 x1) :
    interpolLin x x0 x1 y0 y1 ∈ Set.uIcc y0 y1 := by
  have hne : x1 - x0 ≠ 0 := sub_ne_zero.mpr h.symm
  have ht : 0 ≤ (x - x0) / (x1 - x0) ∧ (x - x0) / (x1 - x0) ≤ 1 := by
    rw [Set.mem_uIcc] at hx
    rcases hx with ⟨h1, h2⟩ | ⟨h1, h2⟩
    · have : 0 < x1 - x0 := lt_of_le_of_ne (by linarith) (Ne.symm hne)
      exact ⟨div_nonneg (by linarith) this.le, by rw [div_le_one this]; linarith⟩
    · have : x1 - x0 < 0 := lt_of_le_of_ne (by linarith) hne
      exact ⟨div_nonneg_of_nonpos (by linarith) this.le, by rw [div_le_one_of_neg this]; linarith⟩
  unfold interpolLin
  set t := (x - x0) / (x1 - x0)
  rw [Set.mem_uIcc]
  rcases le_total y0 y1 with h | h
  · left; constructor <;> nlinarith
  · right; constructor <;> nlinarith

/-- Non-vacuity of `C05_interpolLin_between`, with a decreasing abscissa. -/
example : interpolLin (3 / 2 : ℝ) 2 1 5 7 ∈ Set.uIcc (5 : ℝ) 7 :=
  C05_interpolLin_between _ _ _ _ _ (by norm_num) (by rw [Set.mem_uIcc]; right; norm_num)

end Verif
