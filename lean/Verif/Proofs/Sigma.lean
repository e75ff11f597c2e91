import Verif.Spec.Table
import Verif.Proofs.FindPk
import Mathlib.Analysis.SpecialFunctions.Integrals.Basic

/-! Lemmas on `calc_running_sigmad2`. -/

set_option linter.unusedSectionVars false

namespace Verif

section generic
variable {α : Type} [Add α] [Sub α] [Mul α] [Div α] [Neg α] [Histo α]

theorem sigmaInner_defined (t : Pk α) (h : t.WF) (h1 : 1 ≤ t.nk) (kmax : α) : ∀ (fuel i : ℕ) (acc : α), i ≤ t.nk - 1 →
    t.nk - 1 - i ≤ fuel → ∃ i' acc' w, sigmaInner t kmax fuel i acc = .ok (i', acc', w) ∧ i' ≤ t.nk - 1 ∧
      (i' ≠ t.nk - 1 → w ≠ none) := by
  have hs := h.hsize; have hkl := h.hk; have hpl := h.hpk
  have hm : sizeMod = 2 ^ 64 := rfl
  intro fuel
  induction fuel with
  | zero => intro i acc h2 h3; exact ⟨i, acc, none, rfl, h2, by omega⟩
  | succ n ih =>
    intro i acc h2 h3
    unfold sigmaInner
    rw [subSize_eq h1 (by omega)]
    by_cases hi : i < t.nk - 1
    · rw [if_pos hi, rd_ok (a := t.k) (i := i + 1) (by omega), rd_ok (a := t.k) (i := i) (by omega),
        rd_ok (a := t.pk) (i := i + 1) (by omega), rd_ok (a := t.pk) (i := i) (by omega)]
      simp only [Res.ok_bind]
      split
      · exact ⟨i, _, _, rfl, h2, by simp⟩
      · exact ih _ _ (by omega) (by omega)
    · rw [if_neg hi]
      exact ⟨i, acc, none, rfl, h2, by omega⟩

theorem sigmaLoop_defined (t : Pk α) (h : t.WF) (h1 : 1 ≤ t.nk) (uv : α) : ∀ (ks : List α) (i : ℕ) (acc : α), i ≤ t.nk - 1 →
    ∃ vs, sigmaLoop t uv i acc ks = .ok vs ∧ vs.length = ks.length := by
  have hs := h.hsize; have hkl := h.hk
  have hm : sizeMod = 2 ^ 64 := rfl
  intro ks
  induction ks with
  | nil => intro i acc _; exact ⟨[], rfl, rfl⟩
  | cons k ks ih =>
    intro i acc hi
    unfold sigmaLoop
    dsimp only
    rw [rd_ok (a := t.k) (i := 0) (by omega), subSize_eq h1 (by omega)]
    simp only [Res.ok_bind]
    split
    · obtain ⟨vs, hv, hl⟩ := ih i acc hi
      rw [hv]
      exact ⟨_, rfl, by simp [hl]⟩
    · obtain ⟨i', acc', w, e1, e2, e3⟩ := sigmaInner_defined t h h1 (k * uv) (t.nk - 1 - i) i acc hi le_rfl
      rw [e1]
      simp only [Res.ok_bind]
      obtain ⟨vs, hv, hl⟩ := ih i' acc' e2
      unfold sigmaWritten
      rw [subSize_eq h1 (by omega)]
      by_cases c : i' = t.nk - 1
      · rw [if_pos c]
        simp only [Res.ok_bind]
        rw [hv]
        exact ⟨_, rfl, by simp [hl]⟩
      · rw [if_neg c]
        obtain ⟨v, rfl⟩ := Option.ne_none_iff_exists'.mp (e3 c)
        simp only [Res.ok_bind]
        rw [hv]
        exact ⟨_, rfl, by simp [hl]⟩

end generic

/-- Twice the trapezoid sum up to mode `i`. -/
noncomputable def trap (t : Pk ℝ) (i : ℕ) : ℝ :=
  ∑ j ∈ Finset.range i, (t.pk.getD (j + 1) 0 + t.pk.getD j 0) * (t.k.getD (j + 1) 0 - t.k.getD j 0)

/-- The value written for a mode bracketed by index `i`. -/
noncomputable def sigmaVal (t : Pk ℝ) (kmax : ℝ) (i : ℕ) : ℝ :=
  if i = t.nk - 1 then trap t i / (12 * Real.pi * Real.pi)
  else (trap t i + (interpolLin kmax (t.k.getD i 0) (t.k.getD (i + 1) 0) (t.pk.getD i 0) (t.pk.getD (i + 1) 0) + t.pk.getD i 0) *
    (kmax - t.k.getD i 0)) / (12 * Real.pi * Real.pi)

theorem sigmaInner_real (t : Pk ℝ) (h : t.WF) (h1 : 1 ≤ t.nk) (kmax : ℝ) : ∀ (fuel i : ℕ), i ≤ t.nk - 1 →
    t.nk - 1 - i ≤ fuel → t.k.getD i 0 ≤ kmax →
    ∃ i' w, sigmaInner t kmax fuel i (trap t i) = .ok (i', trap t i', w) ∧ i' ≤ t.nk - 1 ∧ t.k.getD i' 0 ≤ kmax ∧
      (i' ≠ t.nk - 1 → kmax < t.k.getD (i' + 1) 0 ∧ w = some (sigmaVal t kmax i')) := by
  have hs := h.hsize; have hkl := h.hk; have hpl := h.hpk
  have hm : sizeMod = 2 ^ 64 := rfl
  intro fuel
  induction fuel with
  | zero => intro i h2 h3 h4; exact ⟨i, none, rfl, h2, h4, by omega⟩
  | succ n ih =>
    intro i h2 h3 h4
    unfold sigmaInner
    rw [subSize_eq h1 (by omega)]
    by_cases hi : i < t.nk - 1
    · rw [if_pos hi, rd_ok (a := t.k) (i := i + 1) (by omega), rd_ok (a := t.k) (i := i) (by omega),
        rd_ok (a := t.pk) (i := i + 1) (by omega), rd_ok (a := t.pk) (i := i) (by omega)]
      simp only [Res.ok_bind]
      rw [← getD_eq (l := t.k) (i := i + 1) (by omega), ← getD_eq (l := t.k) (i := i) (by omega),
        ← getD_eq (l := t.pk) (i := i + 1) (by omega), ← getD_eq (l := t.pk) (i := i) (by omega)]
      by_cases c : Histo.lt kmax (t.k.getD (i + 1) 0) = true
      · rw [if_pos c]
        rw [lt_real] at c
        refine ⟨i, _, rfl, h2, h4, fun hne => ⟨c, ?_⟩⟩
        rw [sigmaVal, if_neg hne]
        simp
      · rw [if_neg c]
        simp only [lt_real, not_lt] at c
        have : trap t i + (t.pk.getD (i + 1) 0 + t.pk.getD i 0) * (t.k.getD (i + 1) 0 - t.k.getD i 0) = trap t (i + 1) := by
          rw [trap, trap, Finset.sum_range_succ]
        rw [this]
        exact ih (i + 1) (by omega) (by omega) c
    · rw [if_neg hi]
      exact ⟨i, none, rfl, h2, h4, by omega⟩

/-- For ascending cutoffs the stream gives, for each requested mode, 0 below the table and otherwise the value of the
bracketing index. -/
theorem sigmaLoop_ascending (t : Pk ℝ) (h : t.WF) (h1 : 1 ≤ t.nk) (uv : ℝ) : ∀ (ks : List ℝ) (i : ℕ), i ≤ t.nk - 1 →
    ks.Pairwise (fun a b => a * uv ≤ b * uv) → (∀ k ∈ ks, t.k.getD i 0 ≤ k * uv ∨ i = 0) →
    ∃ vs, sigmaLoop t uv i (trap t i) ks = .ok vs ∧ List.Forall₂ (fun k v =>
      (k * uv < t.k.getD 0 0 ∧ v = 0) ∨ (t.k.getD 0 0 ≤ k * uv ∧ ∃ j, j ≤ t.nk - 1 ∧ t.k.getD j 0 ≤ k * uv ∧
        (j ≠ t.nk - 1 → k * uv < t.k.getD (j + 1) 0) ∧ v = sigmaVal t (k * uv) j)) ks vs := by
  have hs := h.hsize; have hkl := h.hk
  have hm : sizeMod = 2 ^ 64 := rfl
  intro ks
  induction ks with
  | nil => intro i _ _ _; exact ⟨[], rfl, List.Forall₂.nil⟩
  | cons k ks ih =>
    intro i hi hsort hge
    rw [List.pairwise_cons] at hsort
    unfold sigmaLoop
    dsimp only
    rw [rd_ok (a := t.k) (i := 0) (by omega), subSize_eq h1 (by omega)]
    simp only [Res.ok_bind]
    rw [← getD_eq (l := t.k) (i := 0) (by omega)]
    by_cases c : Histo.lt (k * uv) (t.k.getD 0 0) = true
    · rw [if_pos c]
      rw [lt_real] at c
      obtain ⟨vs, e1, e2⟩ := ih i hi hsort.2 (fun k' hk' => hge k' (by simp [hk']))
      rw [e1]
      exact ⟨_, rfl, List.Forall₂.cons (Or.inl ⟨c, by simp⟩) e2⟩
    · rw [if_neg c]
      simp only [lt_real, not_lt] at c
      have hk : t.k.getD i 0 ≤ k * uv := by
        rcases hge k (by simp) with h2 | h2
        · exact h2
        · subst h2; exact c
      obtain ⟨i', w, e1, e2, e3, e4⟩ := sigmaInner_real t h h1 (k * uv) (t.nk - 1 - i) i hi le_rfl hk
      rw [e1]
      simp only [Res.ok_bind]
      obtain ⟨vs, f1, f2⟩ := ih i' e2 hsort.2 (fun k' hk' => Or.inl (e3.trans (hsort.1 k' hk')))
      unfold sigmaWritten
      rw [subSize_eq h1 (by omega)]
      by_cases c' : i' = t.nk - 1
      · rw [if_pos c']
        simp only [Res.ok_bind]
        rw [f1]
        refine ⟨_, rfl, List.Forall₂.cons (Or.inr ⟨c, i', e2, e3, fun hne => absurd c' hne, ?_⟩) f2⟩
        rw [sigmaVal, if_pos c']
        simp
      · rw [if_neg c']
        obtain ⟨g1, g2⟩ := e4 c'
        rw [g2]
        simp only [Res.ok_bind]
        rw [f1]
        exact ⟨_, rfl, List.Forall₂.cons (Or.inr ⟨c, i', e2, e3, fun _ => g1, rfl⟩) f2⟩

/-! ### The integral -/

/-- `P` is the piecewise linear function through the table on its range. -/
def PiecewiseLinear (t : Pk ℝ) (P : ℝ → ℝ) : Prop :=
  ∀ i, i + 1 < t.nk → ∀ x ∈ Set.Icc (t.k.getD i 0) (t.k.getD (i + 1) 0),
    P x = t.pk.getD i 0 + (x - t.k.getD i 0) / (t.k.getD (i + 1) 0 - t.k.getD i 0) * (t.pk.getD (i + 1) 0 - t.pk.getD i 0)

theorem integral_affine (a b c d : ℝ) : ∫ x in a..b, (c + (x - a) * d) = (b - a) * (2 * c + (b - a) * d) / 2 := by
  have h1 : ∫ x in a..b, (c + (x - a) * d) = ∫ x in a..b, ((c - a * d) + d * x) := by
    congr 1; ext x; ring
  rw [h1, intervalIntegral.integral_add (by simp) (by apply Continuous.intervalIntegrable; fun_prop),
    intervalIntegral.integral_const, intervalIntegral.integral_const_mul, integral_id]
  simp only [smul_eq_mul]
  ring

theorem integral_piece (t : Pk ℝ) (P : ℝ → ℝ) (hP : PiecewiseLinear t P) (i : ℕ) (hi : i + 1 < t.nk)
    (hk : t.k.getD i 0 < t.k.getD (i + 1) 0) (x : ℝ) (hx : t.k.getD i 0 ≤ x) (hx' : x ≤ t.k.getD (i + 1) 0) :
    IntervalIntegrable P MeasureTheory.volume (t.k.getD i 0) x ∧
    ∫ q in t.k.getD i 0..x, P q = (interpolLin x (t.k.getD i 0) (t.k.getD (i + 1) 0) (t.pk.getD i 0) (t.pk.getD (i + 1) 0) +
      t.pk.getD i 0) * (x - t.k.getD i 0) / 2 := by
  have hcongr : Set.EqOn P (fun q => t.pk.getD i 0 + (q - t.k.getD i 0) *
      ((t.pk.getD (i + 1) 0 - t.pk.getD i 0) / (t.k.getD (i + 1) 0 - t.k.getD i 0))) (Set.uIcc (t.k.getD i 0) x) := by
    intro q hq
    rw [Set.uIcc_of_le hx] at hq
    rw [hP i hi q ⟨hq.1, hq.2.trans hx'⟩]
    ring
  constructor
  · refine IntervalIntegrable.congr (f := fun q => t.pk.getD i 0 + (q - t.k.getD i 0) *
      ((t.pk.getD (i + 1) 0 - t.pk.getD i 0) / (t.k.getD (i + 1) 0 - t.k.getD i 0))) ?_ ?_
    · intro q hq
      exact (hcongr (Set.uIoc_subset_uIcc hq)).symm
    · apply Continuous.intervalIntegrable; fun_prop
  · rw [intervalIntegral.integral_congr hcongr, integral_affine]
    have : t.k.getD (i + 1) 0 - t.k.getD i 0 ≠ 0 := by linarith [sub_pos.mpr hk] |> fun h : (0:ℝ) < _ => h.ne'
    unfold interpolLin
    field_simp
    ring

theorem getD_le {t : Pk ℝ} (h : t.Increasing) {i j : ℕ} (hij : i ≤ j) (hj : j < t.nk) : t.k.getD i 0 ≤ t.k.getD j 0 := by
  have hkl := h.hk
  rw [getD_eq (by omega), getD_eq (by omega)]
  exact h.mono (by omega) (by omega) hij

theorem getD_lt {t : Pk ℝ} (h : t.Increasing) {i j : ℕ} (hij : i < j) (hj : j < t.nk) : t.k.getD i 0 < t.k.getD j 0 := by
  have hkl := h.hk
  rw [getD_eq (by omega), getD_eq (by omega)]
  exact h.strictMono (by omega) (by omega) hij

theorem integral_nodes (t : Pk ℝ) (h : t.Increasing) (P : ℝ → ℝ) (hP : PiecewiseLinear t P) : ∀ i, i < t.nk →
    IntervalIntegrable P MeasureTheory.volume (t.k.getD 0 0) (t.k.getD i 0) ∧
    ∫ q in t.k.getD 0 0..t.k.getD i 0, P q = trap t i / 2 := by
  intro i
  induction i with
  | zero => intro _; simp [trap]
  | succ i ih =>
    intro hi
    obtain ⟨a1, a2⟩ := ih (by omega)
    have hlt := getD_lt h (Nat.lt_succ_self i) hi
    obtain ⟨b1, b2⟩ := integral_piece t P hP i hi hlt _ hlt.le le_rfl
    refine ⟨a1.trans b1, ?_⟩
    rw [← intervalIntegral.integral_add_adjacent_intervals a1 b1, a2, b2, (C05_interpolLin_ends _ _ _ _ hlt.ne).2, trap, trap,
      Finset.sum_range_succ]
    ring

/-- The value written by the code is the integral. -/
theorem sigmaVal_eq (t : Pk ℝ) (h : t.Increasing) (P : ℝ → ℝ) (hP : PiecewiseLinear t P) (x : ℝ) (j : ℕ) (hnk : 1 ≤ t.nk)
    (hj : j ≤ t.nk - 1) (h1 : t.k.getD j 0 ≤ x) (h2 : j ≠ t.nk - 1 → x < t.k.getD (j + 1) 0) :
    sigmaVal t x j = (∫ q in t.k.getD 0 0..min x (t.k.getD (t.nk - 1) 0), P q) / (6 * Real.pi ^ 2) := by
  have hpi := Real.pi_pos.ne'
  obtain ⟨a1, a2⟩ := integral_nodes t h P hP j (by omega)
  unfold sigmaVal
  by_cases c : j = t.nk - 1
  · rw [if_pos c, min_eq_right (by rw [← c]; exact h1), ← c, a2]
    field_simp
    ring
  · rw [if_neg c]
    have h3 := h2 c
    have h4 : x ≤ t.k.getD (t.nk - 1) 0 := h3.le.trans (getD_le h (by omega) (by omega))
    obtain ⟨b1, b2⟩ := integral_piece t P hP j (by omega) (lt_of_le_of_lt h1 h3) x h1 h3.le
    rw [min_eq_left h4, ← intervalIntegral.integral_add_adjacent_intervals a1 b1, a2, b2]
    field_simp
    ring

/-- Every increasing table has a piecewise linear function. -/
theorem exists_piecewiseLinear (t : Pk ℝ) (h : t.Increasing) : ∃ P, PiecewiseLinear t P := by
  classical
  let lin : ℕ → ℝ → ℝ := fun i x => t.pk.getD i 0 + (x - t.k.getD i 0) / (t.k.getD (i + 1) 0 - t.k.getD i 0) * (t.pk.getD (i + 1) 0 - t.pk.getD i 0)
  let Q : ℝ → ℕ → Prop := fun x i => i + 1 < t.nk ∧ x ∈ Set.Icc (t.k.getD i 0) (t.k.getD (i + 1) 0)
  refine ⟨fun x => if hx : ∃ i, Q x i then lin (Nat.find hx) x else 0, ?_⟩
  intro i hi x hx
  have hex : ∃ i, Q x i := ⟨i, hi, hx⟩
  show (if hx : ∃ i, Q x i then lin (Nat.find hx) x else 0) = lin i x
  rw [dif_pos hex]
  obtain ⟨f1, f2⟩ := Nat.find_spec hex
  have f3 : Nat.find hex ≤ i := Nat.find_min' hex ⟨hi, hx⟩
  generalize Nat.find hex = m at f1 f2 f3 ⊢
  rcases Nat.lt_or_eq_of_le f3 with f4 | f4
  · have e1 : t.k.getD (m + 1) 0 ≤ t.k.getD i 0 := getD_le h (by omega) (by omega)
    have e2 : x = t.k.getD i 0 := le_antisymm (f2.2.trans e1) hx.1
    have e3 : t.k.getD (m + 1) 0 = t.k.getD i 0 := le_antisymm e1 (by rw [← e2]; exact f2.2)
    have e4 : m + 1 = i := by
      by_contra hne
      exact absurd e3 (getD_lt h (by omega : m + 1 < i) (by omega)).ne
    have hne : t.k.getD i 0 - t.k.getD (m) 0 ≠ 0 := by
      have := getD_lt h f4 (by omega)
      intro h0; linarith
    simp only [lin]
    rw [e4, e2, div_self hne]
    simp
  · rw [f4]

end Verif
