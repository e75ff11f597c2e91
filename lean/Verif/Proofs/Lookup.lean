import Verif.Proofs.FindPk
import Mathlib.Algebra.BigOperators.Intervals

/-! Values of the lookup over ℝ. -/

namespace Verif

open Polynomial

theorem findPk_single (t : Pk ℝ) (h : t.Increasing) (h1 : 1 ≤ t.nk) (interpol : Interpol) (k : ℝ) :
    findPk t [k] interpol = (lookup t interpol k >>= fun v => .ok [v]) := by
  rw [findPk_ascending t h h1 interpol [k] (by simp)]
  simp

theorem lookup_high (t : Pk ℝ) (i : Interpol) (k : ℝ) (hk : t.k.getD (t.nk - 1) 0 < k) : lookup t i k = extrapolHighk t k := by
  unfold lookup findPkOne
  dsimp only
  rw [if_pos (by simpa using hk)]
  cases extrapolHighk t k <;> rfl

theorem lookup_low (t : Pk ℝ) (i : Interpol) (k : ℝ) (hk' : k ≤ t.k.getD (t.nk - 1) 0) (hk : k < t.k.getD 0 0) :
    lookup t i k = extrapolLowk t k := by
  unfold lookup findPkOne
  dsimp only
  rw [if_neg (by simpa using hk'), if_pos (by simpa using hk)]
  cases extrapolLowk t k <;> rfl

/-- The index at which a mode inside the table is looked up. -/
theorem exists_bracket (t : Pk ℝ) (h : t.Increasing) (h1 : 1 ≤ t.nk) (k : ℝ) (hk0 : t.k.getD 0 0 ≤ k) :
    ∃ r, dichotomy k t.k 0 (t.nk - 1 + 1) = .ok r ∧ r < t.nk ∧ t.k.getD r 0 ≤ k ∧ (r + 1 < t.nk → k < t.k.getD (r + 1) 0) := by
  have hs := h.hsize; have hkl := h.hk
  rw [getD_eq (by omega)] at hk0
  obtain ⟨r, a1, a2, a3, a4, a5⟩ := C02_dichotomy_brackets k t.k h.incr 0 (t.nk - 1 + 1) (by omega) (by omega) (by omega) hk0
  refine ⟨r, a1, by omega, ?_, ?_⟩
  · rw [getD_eq (by omega)]; exact a4
  · intro hr
    rw [getD_eq (by omega)]; exact a5 (by omega)

theorem lookup_in_poly (t : Pk ℝ) (h : t.Increasing) (h1 : 1 ≤ t.nk) (k : ℝ) (hk0 : t.k.getD 0 0 ≤ k)
    (hk1 : k ≤ t.k.getD (t.nk - 1) 0) (r : ℕ) (hr : dichotomy k t.k 0 (t.nk - 1 + 1) = .ok r) (hr2 : r < t.nk) :
    lookup t .poly k = interpolPoly k (t.k.drop (r - 2)) (t.pk.drop (r - 2)) (min (t.nk - 1) (r + 2) - (r - 2) + 1) := by
  have hs := h.hsize; have hkl := h.hk
  have hm : sizeMod = 2 ^ 64 := rfl
  unfold lookup findPkOne
  dsimp only
  rw [subSize_eq h1 (by omega), if_neg (by simpa using hk1), if_neg (by simpa using hk0), hr]
  simp only [Res.ok_bind]
  rw [window_eq (by omega) hs]
  cases interpolPoly k (t.k.drop (r - 2)) (t.pk.drop (r - 2)) (min (t.nk - 1) (r + 2) - (r - 2) + 1) <;> rfl

theorem lookup_in_lin (t : Pk ℝ) (h : t.Increasing) (h1 : 1 ≤ t.nk) (k : ℝ) (hk0 : t.k.getD 0 0 ≤ k)
    (hk1 : k ≤ t.k.getD (t.nk - 1) 0) (r : ℕ) (hr : dichotomy k t.k 0 (t.nk - 1 + 1) = .ok r) (hr2 : r + 1 < t.nk) :
    lookup t .lin k = .ok (interpolLin k (t.k.getD r 0) (t.k.getD (r + 1) 0) (t.pk.getD r 0) (t.pk.getD (r + 1) 0)) := by
  have hs := h.hsize; have hkl := h.hk; have := h.hpk
  have hm : sizeMod = 2 ^ 64 := rfl
  unfold lookup findPkOne
  dsimp only
  rw [subSize_eq h1 (by omega), if_neg (by simpa using hk1), if_neg (by simpa using hk0), hr]
  simp only [Res.ok_bind]
  rw [rd_ok (a := t.k) (i := r) (by omega), rd_ok (a := t.k) (i := r + 1) (by omega),
    rd_ok (a := t.pk) (i := r) (by omega), rd_ok (a := t.pk) (i := r + 1) (by omega), getD_eq (by omega), getD_eq (by omega),
    getD_eq (by omega), getD_eq (by omega)]
  rfl

theorem lookup_in_lin_last (t : Pk ℝ) (h : t.Increasing) (h1 : 1 ≤ t.nk) (k : ℝ) (hk0 : t.k.getD 0 0 ≤ k)
    (hk1 : k ≤ t.k.getD (t.nk - 1) 0) (r : ℕ) (hr : dichotomy k t.k 0 (t.nk - 1 + 1) = .ok r) (hr2 : r + 1 = t.nk) :
    lookup t .lin k = .ub "out of bounds read" := by
  have hs := h.hsize; have hkl := h.hk; have := h.hpk
  have hm : sizeMod = 2 ^ 64 := rfl
  unfold lookup findPkOne
  dsimp only
  rw [subSize_eq h1 (by omega), if_neg (by simpa using hk1), if_neg (by simpa using hk0), hr]
  simp only [Res.ok_bind]
  rw [rd_ok (a := t.k) (i := r) (by omega), rd_ub (a := t.k) (i := r + 1) (by omega)]
  rfl

theorem getD_of_lt {l : List ℝ} {i : ℕ} (h : i < l.length) : l[i]? = some (l.getD i 0) := by
  rw [getD_eq h, List.getElem?_eq_getElem h]

theorem Pk.Increasing.getD_inj {t : Pk ℝ} (h : t.Increasing) {i j : ℕ} (hi : i < t.nk) (hj : j < t.nk)
    (he : t.k.getD i 0 = t.k.getD j 0) : i = j := by
  have hkl := h.hk
  rw [getD_eq (by omega), getD_eq (by omega)] at he
  rcases Nat.lt_trichotomy i j with h' | h' | h'
  · exact absurd he (h.strictMono (by omega) (by omega) h').ne
  · exact h'
  · exact absurd he.symm (h.strictMono (by omega) (by omega) h').ne

/-- A window of the table that samples a polynomial of smaller degree reproduces it. -/
theorem interpolPoly_window (t : Pk ℝ) (h : t.Increasing) (x : ℝ) (a n : ℕ) (hn : 1 ≤ n) (han : a + n ≤ t.nk) (p : ℝ[X])
    (hdeg : p.degree < n) (hp : ∀ i, a ≤ i → i < a + n → p.eval (t.k.getD i 0) = t.pk.getD i 0) :
    interpolPoly x (t.k.drop a) (t.pk.drop a) n = .ok (p.eval x) := by
  have hs := h.hsize; have hkl := h.hk; have hpl := h.hpk
  have hX : ∀ i < n, (t.k.drop a)[i]? = some (t.k.getD (a + i) 0) := by
    intro i hi
    rw [List.getElem?_drop, getD_of_lt (by omega)]
  have hY : ∀ i < n, (t.pk.drop a)[i]? = some (t.pk.getD (a + i) 0) := by
    intro i hi
    rw [List.getElem?_drop, getD_of_lt (by omega)]
  have hinj : ∀ i < n, ∀ i' < n, t.k.getD (a + i) 0 = t.k.getD (a + i') 0 → i = i' := by
    intro i hi i' hi' he
    have := h.getD_inj (by omega) (by omega) he
    omega
  rw [interpolPoly_lagrange x _ _ n (fun i => t.k.getD (a + i) 0) (fun i => t.pk.getD (a + i) 0) hn (by omega) hX hY hinj]
  have : p = Lagrange.interpolate (Finset.range n) (fun i => t.k.getD (a + i) 0) (fun i => t.pk.getD (a + i) 0) := by
    apply Lagrange.eq_interpolate_of_eval_eq
    · intro i hi i' hi' he
      simp at hi hi'
      exact hinj i hi i' hi' he
    · simpa using hdeg
    · intro i hi
      simp at hi
      exact hp (a + i) (by omega) (by omega)
  rw [← this]

/-- Any window has an interpolating polynomial. -/
theorem exists_window_poly (t : Pk ℝ) (h : t.Increasing) (a n : ℕ) (han : a + n ≤ t.nk) :
    ∃ p : ℝ[X], p.degree < n ∧ ∀ i, a ≤ i → i < a + n → p.eval (t.k.getD i 0) = t.pk.getD i 0 := by
  have hinj : Set.InjOn (fun i => t.k.getD i 0) (Finset.Ico a (a + n) : Finset ℕ) := by
    intro i hi i' hi' he
    simp at hi hi'
    exact h.getD_inj (by omega) (by omega) he
  refine ⟨Lagrange.interpolate (Finset.Ico a (a + n)) (fun i => t.k.getD i 0) (fun i => t.pk.getD i 0), ?_, ?_⟩
  · have := Lagrange.degree_interpolate_lt (fun i => t.pk.getD i 0) hinj
    simpa using this
  · intro i h1 h2
    exact Lagrange.eval_interpolate_at_node _ hinj (by simp; omega)

/-! ### Extrapolation -/

/-- Logarithmic slope over the two neighbours of mode `i`. -/
noncomputable def logSlope (t : Pk ℝ) (i : ℕ) : ℝ :=
  Real.log (t.pk.getD (i + 1) 0 / t.pk.getD (i - 1) 0) / Real.log (t.k.getD (i + 1) 0 / t.k.getD (i - 1) 0)

theorem slopeLoop_pos (t : Pk ℝ) (h : t.WF) : ∀ (n ik : ℕ) (acc : ℝ), 1 ≤ ik → (0 < n → ik + n < t.nk) →
    (∀ i, ik - 1 ≤ i → i ≤ ik + n → i < t.nk → 0 < t.pk.getD i 0) →
    slopeLoop t n ik acc = .ok (some (acc + ∑ i ∈ Finset.Ico ik (ik + n), logSlope t i)) := by
  intro n
  induction n with
  | zero => intro ik acc _ _ _; simp [slopeLoop]
  | succ n ih =>
    intro ik acc h1 h2 hpos
    have h3 := h2 (by omega)
    have := h.hk; have := h.hpk
    unfold slopeLoop
    rw [rd_ok (a := t.pk) (i := ik + 1) (by omega), rd_ok (a := t.pk) (i := ik - 1) (by omega),
      rd_ok (a := t.k) (i := ik + 1) (by omega), rd_ok (a := t.k) (i := ik - 1) (by omega)]
    simp only [Res.ok_bind]
    have p1 := hpos (ik + 1) (by omega) (by omega) (by omega)
    have p2 := hpos (ik - 1) (by omega) (by omega) (by omega)
    rw [getD_eq (by omega)] at p1 p2
    rw [if_neg (by simpa using p1), if_neg (by simpa using p2), ih _ _ (by omega) (fun _ => by omega)
      (fun i hi hi' hi'' => hpos i (by omega) (by omega) hi'')]
    congr 2
    rw [Finset.sum_eq_sum_Ico_succ_bot (by omega : ik < ik + (n + 1)), ← add_assoc, logSlope]
    congr 2
    · rw [getD_eq (by omega), getD_eq (by omega), getD_eq (by omega), getD_eq (by omega)]; rfl
    · have : ik + 1 + n = ik + (n + 1) := by omega
      rw [this]

theorem slopeLoop_nonpos (t : Pk ℝ) (h : t.WF) : ∀ (n ik : ℕ) (acc : ℝ), 1 ≤ ik → ik + n < t.nk →
    (∃ i, ik ≤ i ∧ i < ik + n ∧ (t.pk.getD (i + 1) 0 ≤ 0 ∨ t.pk.getD (i - 1) 0 ≤ 0)) →
    slopeLoop t n ik acc = .ok none := by
  intro n
  induction n with
  | zero => intro ik acc _ _ ⟨i, h1, h2, _⟩; omega
  | succ n ih =>
    intro ik acc h1 h2 ⟨i, hi1, hi2, hi3⟩
    have := h.hk; have := h.hpk
    unfold slopeLoop
    rw [rd_ok (a := t.pk) (i := ik + 1) (by omega), rd_ok (a := t.pk) (i := ik - 1) (by omega),
      rd_ok (a := t.k) (i := ik + 1) (by omega), rd_ok (a := t.k) (i := ik - 1) (by omega)]
    simp only [Res.ok_bind]
    split
    · rfl
    · rename_i c1
      split
      · rfl
      · rename_i c2
        apply ih _ _ (by omega) (by omega)
        refine ⟨i, ?_, by omega, hi3⟩
        by_contra hlt
        have : i = ik := by omega
        subst this
        rw [getD_eq (by omega), getD_eq (by omega)] at hi3
        simp at c1 c2
        rcases hi3 with hi3 | hi3 <;> linarith

/-- Effective slope below the table: mean over modes `1..min(15,nk-1)-1`. -/
noncomputable def lowSlope (t : Pk ℝ) : ℝ :=
  (∑ i ∈ Finset.Ico 1 (min 15 (t.nk - 1)), logSlope t i) / ((min 15 (t.nk - 1) - 1 : ℕ) : ℝ)

/-- Effective slope above the table: mean over modes `max(1,nk-16)..nk-2`. -/
noncomputable def highSlope (t : Pk ℝ) : ℝ :=
  (∑ i ∈ Finset.Ico (max 1 (t.nk - 16)) (t.nk - 1), logSlope t i) / ((t.nk - 1 - max 1 (t.nk - 16) : ℕ) : ℝ)

theorem extrapolLowk_pos (t : Pk ℝ) (h : t.WF) (h2 : 2 ≤ t.nk) (hpos : ∀ i < t.nk, 0 < t.pk.getD i 0) (k : ℝ) :
    extrapolLowk t k = .ok (t.pk.getD 1 0 * (k / t.k.getD 1 0) ^ lowSlope t) := by
  have hs := h.hsize; have := h.hk; have := h.hpk
  have hm : sizeMod = 2 ^ 64 := rfl
  unfold extrapolLowk
  dsimp only
  rw [lowEnd_eq (by omega) hs, slopeLoop_pos t h _ 1 _ le_rfl (by omega) (fun i _ _ hi => hpos i hi)]
  simp only [Res.ok_bind]
  rw [rd_ok (a := t.pk) (i := 1) (by omega), rd_ok (a := t.k) (i := 1) (by omega)]
  simp only [Res.ok_bind]
  rw [subSize_eq (by omega) (by omega), getD_eq (by omega), getD_eq (by omega), lowSlope]
  have : 1 + (min 15 (t.nk - 1) - 1) = min 15 (t.nk - 1) := by omega
  rw [this]
  simp

theorem extrapolHighk_pos (t : Pk ℝ) (h : t.WF) (h2 : 2 ≤ t.nk) (hpos : ∀ i < t.nk, 0 < t.pk.getD i 0) (k : ℝ) :
    extrapolHighk t k = .ok (t.pk.getD (t.nk - 1) 0 * (k / t.k.getD (t.nk - 1) 0) ^ highSlope t) := by
  have hs := h.hsize; have := h.hk; have := h.hpk
  have hm : sizeMod = 2 ^ 64 := rfl
  unfold extrapolHighk
  dsimp only
  rw [subSize_eq (by omega : 1 ≤ t.nk) (by omega), highStart_eq (by omega),
    slopeLoop_pos t h _ _ _ (by omega) (by omega) (fun i _ _ hi => hpos i hi)]
  simp only [Res.ok_bind]
  rw [rd_ok (a := t.pk) (i := t.nk - 1) (by omega), rd_ok (a := t.k) (i := t.nk - 1) (by omega)]
  simp only [Res.ok_bind]
  have e1 : t.nk - 1 - 15 = t.nk - 16 := by omega
  rw [e1, subSize_eq (by omega) (by omega), getD_eq (by omega), getD_eq (by omega), highSlope]
  have : max 1 (t.nk - 16) + (t.nk - 1 - max 1 (t.nk - 16)) = t.nk - 1 := by omega
  rw [this]
  simp

theorem extrapolLowk_nonpos (t : Pk ℝ) (h : t.WF) (h4 : 4 ≤ t.nk) (i : ℕ) (hi : i < min 16 t.nk) (hneg : t.pk.getD i 0 ≤ 0)
    (k : ℝ) : extrapolLowk t k = .ok 0 := by
  have hs := h.hsize; have := h.hk; have := h.hpk
  unfold extrapolLowk
  dsimp only
  rw [lowEnd_eq (by omega) hs, slopeLoop_nonpos t h _ 1 _ le_rfl (by omega) ?_]
  · simp only [Res.ok_bind, lit_real, Rat.cast_zero]
  · by_cases h1 : 2 ≤ i
    · refine ⟨i - 1, by omega, by omega, Or.inl ?_⟩
      rw [show i - 1 + 1 = i by omega]; exact hneg
    · exact ⟨i + 1, by omega, by omega, Or.inr (by simpa using hneg)⟩

theorem extrapolHighk_nonpos (t : Pk ℝ) (h : t.WF) (h4 : 4 ≤ t.nk) (i : ℕ) (hi0 : i < t.nk) (hi : t.nk ≤ i + 17)
    (hneg : t.pk.getD i 0 ≤ 0) (k : ℝ) : extrapolHighk t k = .ok 0 := by
  have hs := h.hsize; have := h.hk; have := h.hpk
  have hm : sizeMod = 2 ^ 64 := rfl
  unfold extrapolHighk
  dsimp only
  rw [subSize_eq (by omega : 1 ≤ t.nk) (by omega), highStart_eq (by omega), slopeLoop_nonpos t h _ _ _ (by omega) (by omega) ?_]
  · simp only [Res.ok_bind, lit_real, Rat.cast_zero]
  · by_cases h1 : i + 1 < t.nk - 1
    · exact ⟨i + 1, by omega, by omega, Or.inr (by simpa using hneg)⟩
    · refine ⟨i - 1, by omega, by omega, Or.inl ?_⟩
      rw [show i - 1 + 1 = i by omega]; exact hneg

end Verif
