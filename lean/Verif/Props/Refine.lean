import Verif.Proofs.InterpError
import Verif.Props.FindPk
import Verif.Props.Sigma

/-!
# C87, part one: the table lookup and the dispersion against the spectrum that was sampled

The table holds samples of a smooth spectrum.  The polynomial lookup (`src/common.c`, `find_pk`) differs from the spectrum by a
bound of third order in the spacing, of fifth order two modes away from the ends; the linear lookup by a bound of second order; the running
dispersion (`calc_running_sigmad2`) by a bound of second order.
-/

namespace Verif

open Polynomial

/-- Spec: the table holds the values of `P` at its modes, and no two neighbouring modes are more than `H` apart. -/
structure Sampled (t : Pk ℝ) (P : ℝ → ℝ) (H : ℝ) : Prop where
  val : ∀ i < t.nk, t.pk.getD i 0 = P (t.k.getD i 0)
  gap : ∀ i, i + 1 < t.nk → t.k.getD (i + 1) 0 - t.k.getD i 0 ≤ H

/-- The range of wavenumbers of a table. -/
def Pk.range (t : Pk ℝ) : Set ℝ := Set.Icc (t.k.getD 0 0) (t.k.getD (t.nk - 1) 0)

theorem Sampled.span {t : Pk ℝ} {P : ℝ → ℝ} {H : ℝ} (h : Sampled t P H) (i : ℕ) : ∀ m, i + m < t.nk → t.k.getD (i + m) 0 - t.k.getD i 0 ≤ m * H := by
  intro m
  induction m with
  | zero => simp
  | succ m ih =>
    intro hm
    have h1 := ih (by omega)
    have h2 := h.gap (i + m) (by omega)
    push_cast
    rw [← Nat.add_assoc]
    linarith

theorem Pk.Increasing.node_mem {t : Pk ℝ} (h : t.Increasing) {i : ℕ} (hi : i < t.nk) : t.k.getD i 0 ∈ t.range :=
  ⟨getD_le h (by omega) hi, getD_le h (by omega) (by omega)⟩

/-- The polynomial lookup and its remainder: the modes `r - 2 … r + 2` around the bracketing mode `r` that lie in the table are used. -/
theorem lookup_remainder {t : Pk ℝ} (h : t.Increasing) (h1 : 1 ≤ t.nk) {D : ℕ → ℝ → ℝ} (hs : ∀ i < t.nk, t.pk.getD i 0 = D 0 (t.k.getD i 0))
    {N : ℕ} (hD : Derivs D N (t.k.getD 0 0) (t.k.getD (t.nk - 1) 0)) (k : ℝ) (hk : k ∈ t.range)
    (r : ℕ) (hr : r < t.nk) (hkr : t.k.getD r 0 ≤ k) (hkr' : r + 1 < t.nk → k < t.k.getD (r + 1) 0)
    (hN : min (t.nk - 1) (r + 2) - (r - 2) + 1 ≤ N) :
    ∃ v, findPk t [k] .poly = .ok [v] ∧ ∃ ξ ∈ t.range, D 0 k - v =
      D (min (t.nk - 1) (r + 2) - (r - 2) + 1) ξ / (min (t.nk - 1) (r + 2) - (r - 2) + 1).factorial *
        ∏ i ∈ Finset.Ico (r - 2) (r - 2 + (min (t.nk - 1) (r + 2) - (r - 2) + 1)), (k - t.k.getD i 0) := by
  obtain ⟨r', a1, a2, a3, a4⟩ := exists_bracket t h h1 k hk.1
  have hrr : r' = r := by
    rcases lt_trichotomy r' r with e | e | e
    · have := a4 (by omega); have := getD_le h (i := r' + 1) (j := r) e hr; linarith
    · exact e
    · have := hkr' (by omega); have := getD_le h (i := r + 1) (j := r') e a2; linarith
  subst hrr
  set n := min (t.nk - 1) (r' + 2) - (r' - 2) + 1 with hn
  obtain ⟨p, p1, p2⟩ := exists_window_poly t h (r' - 2) n (by omega)
  refine ⟨p.eval k, ?_, ?_⟩
  · rw [findPk_single t h h1, lookup_in_poly t h h1 k hk.1 hk.2 r' a1 a2, ← hn, interpolPoly_window t h _ _ _ (by omega) (by omega) p p1 p2]
    rfl
  · have hinj : Set.InjOn (fun i => t.k.getD i 0) (Finset.Ico (r' - 2) (r' - 2 + n) : Finset ℕ) := by
      intro i hi j hj e
      simp at hi hj
      exact h.getD_inj (by omega) (by omega) e
    obtain ⟨ξ, hξ, e⟩ := interp_error (hD.mono hN le_rfl le_rfl) ((Finset.Ico (r' - 2) (r' - 2 + n)).image fun i => t.k.getD i 0)
      (by
        intro y hy
        obtain ⟨i, hi, rfl⟩ := Finset.mem_image.1 hy
        rw [Finset.mem_Ico] at hi
        exact h.node_mem (by omega))
      (by rw [Finset.card_image_of_injOn hinj]; simp) p p1
      (by
        intro y hy
        obtain ⟨i, hi, rfl⟩ := Finset.mem_image.1 hy
        rw [Finset.mem_Ico] at hi
        rw [p2 i hi.1 hi.2, hs i (by omega)]) k hk
    exact ⟨ξ, hξ, by rw [e, Finset.prod_image hinj]⟩

theorem two_gap {x u v H : ℝ} (h1 : u ≤ x) (h2 : x ≤ v) (h : v - u ≤ H) : |x - u| * |x - v| ≤ H ^ 2 / 4 := by
  rw [abs_of_nonneg (by linarith), abs_of_nonpos (by linarith)]
  nlinarith [sq_nonneg ((x - u) - (v - x)), sq_nonneg (H - (v - u)), mul_nonneg (by linarith : 0 ≤ v - u) (by linarith : 0 ≤ H - (v - u))]

theorem Sampled.near {t : Pk ℝ} {P : ℝ → ℝ} {H : ℝ} (h : Sampled t P H) (hi : t.Increasing) {r : ℕ} (hr : r + 1 < t.nk) {k : ℝ}
    (h1 : t.k.getD r 0 ≤ k) (h2 : k ≤ t.k.getD (r + 1) 0) :
    (∀ i ≤ r, |k - t.k.getD i 0| ≤ ((r - i : ℕ) + 1 : ℝ) * H) ∧ ∀ i < t.nk, r < i → |k - t.k.getD i 0| ≤ (i - r : ℕ) * H := by
  constructor
  · intro i hir
    have a := h.span i (r + 1 - i) (by omega)
    rw [show i + (r + 1 - i) = r + 1 by omega] at a
    have b := getD_le hi hir (by omega)
    rw [abs_of_nonneg (by linarith), show ((r - i : ℕ) + 1 : ℝ) = ((r + 1 - i : ℕ) : ℝ) by rw [show r + 1 - i = (r - i) + 1 by omega]; push_cast; ring]
    linarith
  · intro i hi' hir
    have a := h.span r (i - r) (by omega)
    rw [show r + (i - r) = i by omega] at a
    have b := getD_le hi (i := r + 1) (j := i) hir hi'
    rw [abs_of_nonpos (by linarith)]
    linarith

theorem sampled_pos {t : Pk ℝ} {P : ℝ → ℝ} {H : ℝ} (h : Sampled t P H) (hi : t.Increasing) (h2 : 2 ≤ t.nk) : 0 < H := by
  have := h.gap 0 (by omega)
  have := getD_lt hi (Nat.lt_succ_self 0) (by omega)
  linarith

/-- The value and the error at a bracketing mode. -/
theorem lookup_error {t : Pk ℝ} (h : t.Increasing) (h2 : 2 ≤ t.nk) {D : ℕ → ℝ → ℝ} {H : ℝ} (hs : Sampled t (D 0) H)
    {N : ℕ} (hD : Derivs D N (t.k.getD 0 0) (t.k.getD (t.nk - 1) 0)) (k : ℝ) (hk : k ∈ t.range) (r : ℕ) (hr : r < t.nk)
    (hkr : t.k.getD r 0 ≤ k) (hkr' : r + 1 < t.nk → k < t.k.getD (r + 1) 0) (n : ℕ) (hn : n = min (t.nk - 1) (r + 2) - (r - 2) + 1) (hN : n ≤ N)
    (M : ℝ) (hM : ∀ x ∈ t.range, |D n x| ≤ M) :
    ∃ v, findPk t [k] .poly = .ok [v] ∧ |v - D 0 k| ≤ M / n.factorial * (H ^ 2 / 4 * (3 * H) ^ (n - 2)) := by
  have hH := sampled_pos hs h h2
  obtain ⟨v, e1, ξ, hξ, e2⟩ := lookup_remainder h (by omega) hs.val hD k hk r hr hkr hkr' (by omega)
  refine ⟨v, e1, ?_⟩
  rw [← hn] at e2
  have hM0 : 0 ≤ M := (abs_nonneg _).trans (hM ξ hξ)
  rw [abs_sub_comm, e2, abs_mul, abs_div, Nat.abs_cast, Finset.abs_prod]
  by_cases hl : r + 1 < t.nk
  · have hmr : r ∈ Finset.Ico (r - 2) (r - 2 + n) := by rw [Finset.mem_Ico]; omega
    have hmr' : r + 1 ∈ (Finset.Ico (r - 2) (r - 2 + n)).erase r := by rw [Finset.mem_erase, Finset.mem_Ico]; omega
    obtain ⟨n1, n2⟩ := hs.near h hl hkr (hkr' hl).le
    rw [← Finset.mul_prod_erase _ _ hmr, ← Finset.mul_prod_erase _ _ hmr', ← mul_assoc |k - t.k.getD r 0|]
    have hcard : (((Finset.Ico (r - 2) (r - 2 + n)).erase r).erase (r + 1)).card = n - 2 := by
      rw [Finset.card_erase_of_mem hmr', Finset.card_erase_of_mem hmr]; simp; omega
    have hrest : ∏ x ∈ ((Finset.Ico (r - 2) (r - 2 + n)).erase r).erase (r + 1), |k - t.k.getD x 0| ≤ (3 * H) ^ (n - 2) := by
      rw [← hcard]
      refine (Finset.prod_le_prod (fun i _ => abs_nonneg _) (g := fun _ => 3 * H) ?_).trans_eq (Finset.prod_const _)
      · intro i hi
        have hi := Finset.mem_of_mem_erase (Finset.mem_of_mem_erase hi)
        rw [Finset.mem_Ico] at hi
        rcases le_or_gt i r with c | c
        · refine (n1 i c).trans (mul_le_mul_of_nonneg_right ?_ hH.le)
          have : ((r - i : ℕ) : ℝ) ≤ 2 := by exact_mod_cast (by omega : r - i ≤ 2)
          linarith
        · refine (n2 i (by omega) c).trans (mul_le_mul_of_nonneg_right ?_ hH.le)
          exact_mod_cast (by omega : i - r ≤ 3)
    gcongr
    · exact hM ξ hξ
    · exact two_gap hkr (hkr' hl).le (hs.gap r hl)
  · have hkn : k = t.k.getD r 0 := le_antisymm (by rw [show r = t.nk - 1 by omega]; exact hk.2) hkr
    have hmr : r ∈ Finset.Ico (r - 2) (r - 2 + n) := by rw [Finset.mem_Ico]; omega
    rw [Finset.prod_eq_zero hmr (by rw [hkn, sub_self, abs_zero]), mul_zero]
    positivity

/-- C87, `find_pk` with polynomial interpolation: on the whole range of the table the value differs from the sampled spectrum by a bound of third
order in the spacing. -/
theorem C87_poly {t : Pk ℝ} (h : t.Increasing) (h3 : 3 ≤ t.nk) {D : ℕ → ℝ → ℝ} {H : ℝ} (hs : Sampled t (D 0) H)
    (hD : Derivs D 5 (t.k.getD 0 0) (t.k.getD (t.nk - 1) 0)) {M3 M4 M5 : ℝ} (h3M : ∀ x ∈ t.range, |D 3 x| ≤ M3)
    (h4M : ∀ x ∈ t.range, |D 4 x| ≤ M4) (h5M : ∀ x ∈ t.range, |D 5 x| ≤ M5) (k : ℝ) (hk : k ∈ t.range) :
    ∃ v, findPk t [k] .poly = .ok [v] ∧ |v - D 0 k| ≤ M3 * H ^ 3 / 8 + 3 * M4 * H ^ 4 / 32 + 9 * M5 * H ^ 5 / 160 := by
  have hH := sampled_pos hs h (by omega)
  have m3 : 0 ≤ M3 := (abs_nonneg _).trans (h3M k hk)
  have m4 : 0 ≤ M4 := (abs_nonneg _).trans (h4M k hk)
  have m5 : 0 ≤ M5 := (abs_nonneg _).trans (h5M k hk)
  have b3 : 0 ≤ M3 * H ^ 3 / 8 := by positivity
  have b4 : 0 ≤ 3 * M4 * H ^ 4 / 32 := by positivity
  have b5 : 0 ≤ 9 * M5 * H ^ 5 / 160 := by positivity
  obtain ⟨r, -, a2, a3, a4⟩ := exists_bracket t h (by omega) k hk.1
  have hn : min (t.nk - 1) (r + 2) - (r - 2) + 1 = 3 ∨ min (t.nk - 1) (r + 2) - (r - 2) + 1 = 4 ∨ min (t.nk - 1) (r + 2) - (r - 2) + 1 = 5 := by omega
  rcases hn with hn | hn | hn
  · obtain ⟨v, e, hv⟩ := lookup_error h (by omega) hs hD k hk r a2 a3 a4 3 hn.symm (by norm_num) M3 h3M
    refine ⟨v, e, hv.trans ?_⟩
    have : M3 / (Nat.factorial 3 : ℕ) * (H ^ 2 / 4 * (3 * H) ^ (3 - 2)) = M3 * H ^ 3 / 8 := by norm_num [Nat.factorial]; ring
    linarith
  · obtain ⟨v, e, hv⟩ := lookup_error h (by omega) hs hD k hk r a2 a3 a4 4 hn.symm (by norm_num) M4 h4M
    refine ⟨v, e, hv.trans ?_⟩
    have : M4 / (Nat.factorial 4 : ℕ) * (H ^ 2 / 4 * (3 * H) ^ (4 - 2)) = 3 * M4 * H ^ 4 / 32 := by norm_num [Nat.factorial]; ring
    linarith
  · obtain ⟨v, e, hv⟩ := lookup_error h (by omega) hs hD k hk r a2 a3 a4 5 hn.symm (by norm_num) M5 h5M
    refine ⟨v, e, hv.trans ?_⟩
    have : M5 / (Nat.factorial 5 : ℕ) * (H ^ 2 / 4 * (3 * H) ^ (5 - 2)) = 9 * M5 * H ^ 5 / 160 := by norm_num [Nat.factorial]; ring
    linarith

/-- C87, `find_pk` with polynomial interpolation: two modes away from the ends of the table the bound is of fifth order. -/
theorem C87_poly_inside {t : Pk ℝ} (h : t.Increasing) {D : ℕ → ℝ → ℝ} {H : ℝ} (hs : Sampled t (D 0) H)
    (hD : Derivs D 5 (t.k.getD 0 0) (t.k.getD (t.nk - 1) 0)) {M5 : ℝ} (h5M : ∀ x ∈ t.range, |D 5 x| ≤ M5) (k : ℝ) (h5 : 5 ≤ t.nk)
    (hk : t.k.getD 2 0 ≤ k) (hk' : k < t.k.getD (t.nk - 2) 0) :
    ∃ v, findPk t [k] .poly = .ok [v] ∧ |v - D 0 k| ≤ M5 * H ^ 5 / 40 := by
  have hH := sampled_pos hs h (by omega)
  have hkr : k ∈ t.range := ⟨(getD_le h (by omega) (by omega)).trans hk, hk'.le.trans (getD_le h (by omega) (by omega))⟩
  have m5 : 0 ≤ M5 := (abs_nonneg _).trans (h5M k hkr)
  obtain ⟨r, -, a2, a3, a4⟩ := exists_bracket t h (by omega) k hkr.1
  have r2 : 2 ≤ r := by
    by_contra c
    have := a4 (by omega)
    have := getD_le h (i := r + 1) (j := 2) (by omega) (by omega)
    linarith
  have r3 : r + 2 < t.nk := by
    by_contra c
    have := getD_le h (i := t.nk - 2) (j := r) (by omega) (by omega)
    linarith
  obtain ⟨j, rfl⟩ : ∃ j, r = j + 2 := ⟨r - 2, by omega⟩
  have hn : min (t.nk - 1) (j + 2 + 2) - (j + 2 - 2) + 1 = 5 := by omega
  obtain ⟨v, e1, ξ, hξ, e2⟩ := lookup_remainder h (by omega) hs.val hD k hkr (j + 2) a2 a3 a4 (by omega)
  refine ⟨v, e1, ?_⟩
  rw [hn, show j + 2 - 2 = j by omega] at e2
  obtain ⟨n1, n2⟩ := hs.near h (r := j + 2) (by omega) a3 (a4 (by omega)).le
  have q0 := n1 j (by omega)
  have q1 := n1 (j + 1) (by omega)
  have q23 := two_gap a3 (a4 (by omega)).le (hs.gap (j + 2) (by omega))
  have q4 := n2 (j + 4) (by omega) (by omega)
  rw [show j + 2 - j = 2 by omega] at q0
  rw [show j + 2 - (j + 1) = 1 by omega] at q1
  rw [show j + 4 - (j + 2) = 2 by omega] at q4
  rw [show j + 2 + 1 = j + 3 by ring] at q23
  rw [abs_sub_comm, e2, abs_mul, abs_div, Nat.abs_cast, Finset.abs_prod, Finset.prod_Ico_eq_prod_range, show j + 5 - j = 5 by omega]
  simp only [Finset.prod_range_succ, Finset.prod_range_zero, one_mul, Nat.add_zero]
  rw [show |k - t.k.getD j 0| * |k - t.k.getD (j + 1) 0| * |k - t.k.getD (j + 2) 0| * |k - t.k.getD (j + 3) 0| * |k - t.k.getD (j + 4) 0|
    = |k - t.k.getD j 0| * |k - t.k.getD (j + 1) 0| * (|k - t.k.getD (j + 2) 0| * |k - t.k.getD (j + 3) 0|) * |k - t.k.getD (j + 4) 0| by ring]
  calc _ ≤ M5 / (Nat.factorial 5 : ℕ) * ((((2 : ℕ) : ℝ) + 1) * H * ((((1 : ℕ) : ℝ) + 1) * H) * (H ^ 2 / 4) * ((2 : ℕ) * H)) := by
        gcongr
        exact h5M ξ hξ
    _ = M5 * H ^ 5 / 40 := by norm_num [Nat.factorial]; ring

theorem line_error {D : ℕ → ℝ → ℝ} {a b u v H M : ℝ} (hD : Derivs D 2 a b) (huv : u < v) (hau : a ≤ u) (hvb : v ≤ b) (hH : v - u ≤ H)
    (hM : ∀ x ∈ Set.Icc a b, |D 2 x| ≤ M) (x : ℝ) (hx : x ∈ Set.Icc u v) :
    |D 0 u + (x - u) / (v - u) * (D 0 v - D 0 u) - D 0 x| ≤ M * H ^ 2 / 8 := by
  have hne : v - u ≠ 0 := by linarith
  obtain ⟨ξ, hξ, e⟩ := interp_error (D := D) (n := 2) (a := u) (b := v) (hD.mono le_rfl hau hvb) {u, v}
    (by intro y hy; rcases Finset.mem_insert.1 hy with rfl | hy
        · exact ⟨le_rfl, huv.le⟩
        · rw [Finset.mem_singleton.1 hy]; exact ⟨huv.le, le_rfl⟩)
    (Finset.card_pair huv.ne) (C (D 0 u) + (X - C u) * C ((D 0 v - D 0 u) / (v - u)))
    (by
      refine lt_of_le_of_lt (degree_add_le _ _) (max_lt (lt_of_le_of_lt degree_C_le (by norm_num)) ?_)
      refine lt_of_le_of_lt (degree_mul_le _ _) (lt_of_le_of_lt (add_le_add (degree_X_sub_C_le _) degree_C_le) (by norm_num)))
    (by intro y hy; rcases Finset.mem_insert.1 hy with rfl | hy
        · simp
        · rw [Finset.mem_singleton.1 hy]; simp; field_simp; ring) x hx
  have hM0 : 0 ≤ M := (abs_nonneg _).trans (hM ξ ⟨hau.trans hξ.1, hξ.2.trans hvb⟩)
  rw [abs_sub_comm, show D 0 x - (D 0 u + (x - u) / (v - u) * (D 0 v - D 0 u)) =
    D 0 x - (C (D 0 u) + (X - C u) * C ((D 0 v - D 0 u) / (v - u))).eval x by simp; ring, e, Finset.prod_pair huv.ne, abs_mul, abs_div, abs_mul]
  calc _ ≤ M / |((Nat.factorial 2 : ℕ) : ℝ)| * (H ^ 2 / 4) := by
        gcongr
        · exact hM ξ ⟨hau.trans hξ.1, hξ.2.trans hvb⟩
        · exact two_gap hx.1 hx.2 hH
    _ = M * H ^ 2 / 8 := by norm_num [Nat.factorial]; ring

/-- C87, `find_pk` with linear interpolation: the bound is of second order. -/
theorem C87_lin {t : Pk ℝ} (h : t.Increasing) (h2 : 2 ≤ t.nk) {D : ℕ → ℝ → ℝ} {H : ℝ} (hs : Sampled t (D 0) H)
    (hD : Derivs D 2 (t.k.getD 0 0) (t.k.getD (t.nk - 1) 0)) {M2 : ℝ} (h2M : ∀ x ∈ t.range, |D 2 x| ≤ M2) (k : ℝ) (hk : k ∈ t.range)
    (hk' : k ≠ t.k.getD (t.nk - 1) 0) : ∃ v, findPk t [k] .lin = .ok [v] ∧ |v - D 0 k| ≤ M2 * H ^ 2 / 8 := by
  obtain ⟨r, a1, a2, a3, a4⟩ := exists_bracket t h (by omega) k hk.1
  have hr : r + 1 < t.nk := by
    by_contra c
    exact hk' (le_antisymm hk.2 (by rw [show t.nk - 1 = r by omega]; exact a3))
  refine ⟨_, by rw [findPk_single t h (by omega), lookup_in_lin t h (by omega) k hk.1 hk.2 r a1 hr]; rfl, ?_⟩
  rw [hs.val r a2, hs.val (r + 1) hr]
  have := line_error hD (getD_lt h (Nat.lt_succ_self r) hr) (h.node_mem a2).1 (h.node_mem hr).2 (hs.gap r hr) h2M k ⟨a3, (a4 hr).le⟩
  rw [show interpolLin k (t.k.getD r 0) (t.k.getD (r + 1) 0) (D 0 (t.k.getD r 0)) (D 0 (t.k.getD (r + 1) 0)) = _ from ?_]
  · exact this
  · unfold interpolLin
    ring

theorem line_near {t : Pk ℝ} (h : t.Increasing) (h2 : 2 ≤ t.nk) {D : ℕ → ℝ → ℝ} {H : ℝ} (hs : Sampled t (D 0) H)
    (hD : Derivs D 2 (t.k.getD 0 0) (t.k.getD (t.nk - 1) 0)) {M2 : ℝ} (h2M : ∀ x ∈ t.range, |D 2 x| ≤ M2) {P : ℝ → ℝ}
    (hP : PiecewiseLinear t P) (x : ℝ) (hx : x ∈ t.range) : |P x - D 0 x| ≤ M2 * H ^ 2 / 8 := by
  obtain ⟨r, -, a2, a3, a4⟩ := exists_bracket t h (by omega) x hx.1
  obtain ⟨i, hi, hxi⟩ : ∃ i, i + 1 < t.nk ∧ x ∈ Set.Icc (t.k.getD i 0) (t.k.getD (i + 1) 0) := by
    by_cases c : r + 1 < t.nk
    · exact ⟨r, c, a3, (a4 c).le⟩
    · refine ⟨t.nk - 2, by omega, (getD_le h (by omega) (by omega)).trans a3, ?_⟩
      rw [show t.nk - 2 + 1 = t.nk - 1 by omega]
      exact hx.2
  rw [hP i hi x hxi, hs.val i (by omega), hs.val (i + 1) hi]
  exact line_error hD (getD_lt h (Nat.lt_succ_self i) hi) (h.node_mem (by omega)).1 (h.node_mem hi).2 (hs.gap i hi) h2M x hxi

/-- C87, `calc_running_sigmad2`: for an ascending request and a non-negative cutoff, every dispersion differs from the integral over the
sampled spectrum by a bound of second order in the spacing. -/
theorem C87_sigma {t : Pk ℝ} (h : t.Increasing) (h2 : 2 ≤ t.nk) {D : ℕ → ℝ → ℝ} {H : ℝ} (hs : Sampled t (D 0) H)
    (hD : Derivs D 2 (t.k.getD 0 0) (t.k.getD (t.nk - 1) 0)) {M2 : ℝ} (h2M : ∀ x ∈ t.range, |D 2 x| ≤ M2)
    (uvcutoff : ℝ) (huv : 0 ≤ uvcutoff) (ks : List ℝ) (hks : ks.Pairwise (· ≤ ·)) :
    ∃ vs, runningSigmad2 t ks uvcutoff = .ok vs ∧
      List.Forall₂ (fun k v => |v - sigmaSpec t (D 0) uvcutoff k| ≤
        M2 * H ^ 2 / 8 * (t.k.getD (t.nk - 1) 0 - t.k.getD 0 0) / (6 * Real.pi ^ 2)) ks vs := by
  obtain ⟨P, hP⟩ := exists_piecewiseLinear t h
  refine ⟨_, C11_sigmad2_integral_partial t h (by omega) P hP uvcutoff huv ks hks, ?_⟩
  rw [List.forall₂_map_right_iff, List.forall₂_same]
  intro k _
  have hH := sampled_pos hs h h2
  have hr := getD_le h (i := 0) (j := t.nk - 1) (by omega) (by omega)
  have m0 : 0 ≤ M2 := (abs_nonneg _).trans (h2M _ ⟨le_rfl, hr⟩)
  have hpi := Real.pi_pos
  unfold sigmaSpec
  by_cases c : uvcutoff * k < t.k.getD 0 0
  · rw [if_pos c, if_pos c, sub_self, abs_zero]
    have : 0 ≤ t.k.getD (t.nk - 1) 0 - t.k.getD 0 0 := by linarith
    positivity
  · rw [if_neg c, if_neg c]
    have hm : t.k.getD 0 0 ≤ min (uvcutoff * k) (t.k.getD (t.nk - 1) 0) := le_min (not_lt.1 c) hr
    have hc : ContinuousOn (D 0) (t.range) := fun x hx => (hD 0 (by norm_num) x hx).continuousAt.continuousWithinAt
    have iP := piecewiseLinear_integrable t h P hP (by omega) _ _ ⟨le_rfl, hr⟩ ⟨hm, min_le_right (uvcutoff * k) (t.k.getD (t.nk - 1) 0)⟩
    have iD : IntervalIntegrable (D 0) MeasureTheory.volume (t.k.getD 0 0) (min (uvcutoff * k) (t.k.getD (t.nk - 1) 0)) :=
      ContinuousOn.intervalIntegrable_of_Icc hm (hc.mono (Set.Icc_subset_Icc le_rfl (min_le_right _ _)))
    rw [← mul_sub, ← intervalIntegral.integral_sub iP iD, abs_mul, abs_of_pos (by positivity)]
    have key := intervalIntegral.norm_integral_le_of_norm_le_const (f := fun x => P x - D 0 x) (C := M2 * H ^ 2 / 8) (a := t.k.getD 0 0)
      (b := min (uvcutoff * k) (t.k.getD (t.nk - 1) 0)) (fun x hx => by
        rw [Set.uIoc_of_le hm] at hx
        exact line_near h h2 hs hD h2M hP x ⟨hx.1.le, hx.2.trans (min_le_right _ _)⟩)
    rw [Real.norm_eq_abs, abs_of_nonneg (sub_nonneg.2 hm)] at key
    rw [one_div, inv_mul_eq_div]
    refine div_le_div_of_nonneg_right (key.trans ?_) (by positivity)
    gcongr
    exact min_le_right _ _

/-! ## Concrete cases -/

/-- The derivatives of `x^n`. -/
noncomputable def powDerivs (n : ℕ) : ℕ → ℝ → ℝ := fun j x => (n.descFactorial j : ℝ) * x ^ (n - j)

theorem powDerivs_derivs (n m : ℕ) (a b : ℝ) : Derivs (powDerivs n) m a b := by
  intro j _ x _
  unfold powDerivs
  refine ((hasDerivAt_pow (n - j) x).const_mul (n.descFactorial j : ℝ)).congr_deriv ?_
  rw [Nat.descFactorial_succ, show n - (j + 1) = n - j - 1 by omega]
  push_cast
  ring

/-- Samples of `x^5`. -/
noncomputable def quinticTable : Pk ℝ := ⟨6, [1, 2, 3, 4, 5, 6], [1, 32, 243, 1024, 3125, 7776]⟩

theorem quintic_physical : quinticTable.Physical where
  hk := rfl
  hpk := rfl
  hsize := by norm_num [quinticTable]
  incr := by norm_num [quinticTable]
  kpos := by norm_num [quinticTable]

theorem quintic_sampled : Sampled quinticTable (powDerivs 5 0) 1 where
  val i hi := by
    have : i < 6 := hi
    unfold powDerivs
    interval_cases i <;> norm_num [quinticTable]
  gap i hi := by
    have : i + 1 < 6 := hi
    have : i < 5 := by omega
    interval_cases i <;> norm_num [quinticTable]

theorem quintic_range : quinticTable.range = Set.Icc 1 6 := by unfold Pk.range; norm_num [quinticTable]

/-- The table lookup at 3.5 is within 3 of `3.5^5`, and within 345 at 1.5, next to the end. -/
example : (∃ v, findPk quinticTable [3.5] .poly = .ok [v] ∧ |v - 3.5 ^ 5| ≤ 3) ∧ ∃ v, findPk quinticTable [1.5] .poly = .ok [v] ∧ |v - 1.5 ^ 5| ≤ 345 := by
  have h5 : ∀ x ∈ quinticTable.range, |powDerivs 5 5 x| ≤ 120 := fun x _ => by norm_num [powDerivs, Nat.descFactorial]
  have h4 : ∀ x ∈ quinticTable.range, |powDerivs 5 4 x| ≤ 720 := fun x hx => by
    rw [quintic_range] at hx
    norm_num [powDerivs, Nat.descFactorial]
    rw [abs_of_nonneg (by linarith [hx.1])]
    linarith [hx.2]
  have h3 : ∀ x ∈ quinticTable.range, |powDerivs 5 3 x| ≤ 2160 := fun x hx => by
    rw [quintic_range] at hx
    norm_num [powDerivs, Nat.descFactorial]
    nlinarith [hx.1, hx.2]
  have hd := powDerivs_derivs 5 5 (quinticTable.k.getD 0 0) (quinticTable.k.getD (quinticTable.nk - 1) 0)
  obtain ⟨v, e, hv⟩ := C87_poly_inside quintic_physical.toIncreasing quintic_sampled hd h5 3.5 (by norm_num [quinticTable]) (by norm_num [quinticTable])
    (by norm_num [quinticTable])
  obtain ⟨w, e', hw⟩ := C87_poly quintic_physical.toIncreasing (by norm_num [quinticTable]) quintic_sampled hd h3 h4 h5 1.5
    (by rw [quintic_range]; norm_num)
  refine ⟨⟨v, e, ?_⟩, w, e', ?_⟩
  · norm_num [powDerivs, Nat.descFactorial] at hv ⊢
    exact hv
  · norm_num [powDerivs, Nat.descFactorial] at hw ⊢
    linarith

/-- The linear lookup, and the dispersion for two wavenumbers. -/
example : (∃ v, findPk quinticTable [3.5] .lin = .ok [v] ∧ |v - 3.5 ^ 5| ≤ 540) ∧
    ∃ vs, runningSigmad2 quinticTable [3, 20] 0.5 = .ok vs ∧
      List.Forall₂ (fun k v => |v - sigmaSpec quinticTable (fun x => x ^ 5) 0.5 k| ≤ 2700 / (6 * Real.pi ^ 2)) [3, 20] vs := by
  have h2 : ∀ x ∈ quinticTable.range, |powDerivs 5 2 x| ≤ 4320 := fun x hx => by
    rw [quintic_range] at hx
    norm_num [powDerivs, Nat.descFactorial]
    rw [abs_of_nonneg (by linarith [hx.1])]
    have : x ^ 3 ≤ 6 ^ 3 := pow_le_pow_left₀ (by linarith [hx.1]) hx.2 3
    linarith
  have hd := powDerivs_derivs 5 2 (quinticTable.k.getD 0 0) (quinticTable.k.getD (quinticTable.nk - 1) 0)
  have e0 : powDerivs 5 0 = fun x => x ^ 5 := by ext x; simp [powDerivs]
  obtain ⟨v, e, hv⟩ := C87_lin quintic_physical.toIncreasing (by norm_num [quinticTable]) quintic_sampled hd h2 3.5
    (by rw [quintic_range]; norm_num) (by norm_num [quinticTable])
  obtain ⟨vs, e', hs⟩ := C87_sigma quintic_physical.toIncreasing (by norm_num [quinticTable]) quintic_sampled hd h2 0.5 (by norm_num) [3, 20] (by norm_num)
  rw [e0] at hv hs
  refine ⟨⟨v, e, hv.trans (by norm_num)⟩, vs, e', hs.imp fun k v h => h.trans ?_⟩
  refine div_le_div_of_nonneg_right ?_ (by positivity)
  norm_num [quinticTable]

end Verif
