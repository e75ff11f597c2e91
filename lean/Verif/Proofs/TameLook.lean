import Verif.Proofs.LoopConv

/-!
# The interpolated and extrapolated spectrum is measurable and bounded on compact ranges
-/

namespace Verif

open MeasureTheory Polynomial

theorem extrapolLowk_shape (t : Pk ℝ) (h : t.WF) (h2 : 2 ≤ t.nk) : ∃ c n, ∀ k, extrapolLowk t k = .ok (c * (k / t.k.getD 1 0) ^ (n : ℝ)) := by
  have hs := h.hsize; have := h.hk; have := h.hpk
  obtain ⟨o, ho⟩ := slopeLoop_defined t h (min 15 (t.nk - 1) - 1) 1 (Histo.lit 0) le_rfl (by omega)
  cases o with
  | none =>
    refine ⟨0, 0, fun k => ?_⟩
    unfold extrapolLowk
    dsimp only
    rw [lowEnd_eq (by omega) hs, ho]
    show Res.ok (((0 : ℚ)) : ℝ) = _
    rw [zero_mul, Rat.cast_zero]
  | some s =>
    refine ⟨t.pk[1], s / Histo.ofNat (subSize (min 15 (t.nk - 1)) 1), fun k => ?_⟩
    unfold extrapolLowk
    dsimp only
    rw [lowEnd_eq (by omega) hs, ho]
    simp only [Res.ok_bind]
    rw [rd_ok (a := t.pk) (i := 1) (by omega), rd_ok (a := t.k) (i := 1) (by omega), getD_eq (l := t.k) (by omega)]
    rfl

theorem extrapolHighk_shape (t : Pk ℝ) (h : t.WF) (h2 : 1 ≤ t.nk) :
    ∃ c n, ∀ k, extrapolHighk t k = .ok (c * (k / t.k.getD (t.nk - 1) 0) ^ (n : ℝ)) := by
  have hs := h.hsize; have := h.hk; have := h.hpk
  have hm : sizeMod = 2 ^ 64 := rfl
  obtain ⟨o, ho⟩ := slopeLoop_defined t h (t.nk - 1 - max 1 (t.nk - 1 - 15)) (max 1 (t.nk - 1 - 15)) (Histo.lit 0) (by omega) (by omega)
  cases o with
  | none =>
    refine ⟨0, 0, fun k => ?_⟩
    unfold extrapolHighk
    dsimp only
    rw [subSize_eq h2 (by omega), highStart_eq (by omega), ho]
    show Res.ok (((0 : ℚ)) : ℝ) = _
    rw [zero_mul, Rat.cast_zero]
  | some s =>
    refine ⟨t.pk[t.nk - 1], s / Histo.ofNat (subSize (t.nk - 1) (max 1 (t.nk - 1 - 15))), fun k => ?_⟩
    unfold extrapolHighk
    dsimp only
    rw [subSize_eq h2 (by omega), highStart_eq (by omega), ho]
    simp only [Res.ok_bind]
    rw [rd_ok (a := t.pk) (i := t.nk - 1) (by omega), rd_ok (a := t.k) (i := t.nk - 1) (by omega), getD_eq (l := t.k) (by omega)]
    rfl

theorem tame_powerlaw (c k0 n : ℝ) (h0 : 0 < k0) : Tame fun k => c * (k / k0) ^ n where
  meas := by fun_prop
  bdd a b ha := by
    have hc : ContinuousOn (fun k : ℝ => c * (k / k0) ^ n) (Set.Icc a b) := fun k hk => by
      have : k / k0 ≠ 0 := (div_pos (ha.trans_le hk.1) h0).ne'
      exact (continuousAt_const.mul ((continuousAt_id.div_const k0).rpow_const (Or.inl this))).continuousWithinAt
    obtain ⟨B, hB⟩ := isCompact_Icc.exists_bound_of_continuousOn hc
    exact ⟨B, fun x h1 h2 => hB x ⟨h1, h2⟩⟩

open Classical in
theorem Tame.ite {P Q : ℝ → ℝ} (hP : Tame P) (hQ : Tame Q) (s : Set ℝ) (hs : MeasurableSet s) : Tame fun k => if k ∈ s then P k else Q k where
  meas := Measurable.ite hs hP.meas hQ.meas
  bdd a b ha := by
    obtain ⟨B, hB⟩ := hP.bdd a b ha
    obtain ⟨C, hC⟩ := hQ.bdd a b ha
    refine ⟨max B C, fun x h1 h2 => ?_⟩
    split
    · exact (hB x h1 h2).trans (le_max_left _ _)
    · exact (hC x h1 h2).trans (le_max_right _ _)

/-- A function that on each of finitely many measurable pieces agrees with a tame one is tame. -/
theorem Tame.pieces {P : ℝ → ℝ} (n : ℕ) : ∀ (S : ℕ → Set ℝ) (Q : ℕ → ℝ → ℝ) (_ : ∀ i < n, MeasurableSet (S i)) (_ : ∀ i < n, Tame (Q i))
    (_ : ∀ i < n, ∀ k ∈ S i, P k = Q i k) (_ : ∀ k, ∃ i < n, k ∈ S i), Tame P := by
  intro S Q hS hQ hP hc
  have hm : Measurable P := fun A hA => by
    have e : P ⁻¹' A = ⋃ i ∈ Finset.range n, S i ∩ Q i ⁻¹' A := by
      ext k
      simp only [Set.mem_iUnion, Finset.mem_range, exists_prop, Set.mem_inter_iff, Set.mem_preimage]
      constructor
      · intro hk
        obtain ⟨i, hi, hx⟩ := hc k
        exact ⟨i, hi, hx, by rwa [← hP i hi k hx]⟩
      · rintro ⟨i, hi, hx, hk⟩
        rwa [hP i hi k hx]
    rw [e]
    exact Finset.measurableSet_biUnion _ fun i hi => (hS i (Finset.mem_range.1 hi)).inter ((hQ i (Finset.mem_range.1 hi)).meas hA)
  exact ⟨hm, fun a b ha => by
    choose! B hB using fun i (hi : i < n) => (hQ i hi).bdd a b ha
    refine ⟨∑ i ∈ Finset.range n, |B i|, fun x h1 h2 => ?_⟩
    obtain ⟨i, hi, hx⟩ := hc x
    rw [hP i hi x hx]
    exact ((hB i hi x h1 h2).trans (le_abs_self _)).trans
      (Finset.single_le_sum (f := fun i => |B i|) (fun j _ => abs_nonneg _) (Finset.mem_range.2 hi))⟩

/-- With polynomial interpolation the lookup of any table of positive ascending modes is a tame function. -/
theorem tame_look (t : Pk ℝ) (h : t.Physical) (h2 : 2 ≤ t.nk) : ∃ P, (∀ k, look t .poly k = .ok (P k)) ∧ Tame P := by
  choose P hP using look_defined t h.toIncreasing h2
  refine ⟨P, hP, ?_⟩
  have hl : ∀ k, lookup t .poly k = .ok (P k) := fun k => by rw [← look_lookup t h.toIncreasing (by omega), hP]
  obtain ⟨c, n, hlow⟩ := extrapolLowk_shape t h.toWF h2
  obtain ⟨c', n', hhigh⟩ := extrapolHighk_shape t h.toWF (by omega)
  choose! p hp hpe using fun r (hr : r < t.nk) => exists_window_poly t h.toIncreasing (r - 2) (min (t.nk - 1) (r + 2) - (r - 2) + 1) (by omega)
  let S : ℕ → Set ℝ := fun i => if i = t.nk then {k | t.k.getD (t.nk - 1) 0 < k} else if i = t.nk + 1 then {k | k < t.k.getD 0 0}
    else {k | t.k.getD i 0 ≤ k ∧ k ≤ t.k.getD (t.nk - 1) 0 ∧ (i + 1 < t.nk → k < t.k.getD (i + 1) 0)}
  let Q : ℕ → ℝ → ℝ := fun i => if i = t.nk then fun k => c' * (k / t.k.getD (t.nk - 1) 0) ^ n' else if i = t.nk + 1 then
    fun k => c * (k / t.k.getD 1 0) ^ n else fun k => (p i).eval k
  have hends : t.k.getD 0 0 ≤ t.k.getD (t.nk - 1) 0 := (h.toIncreasing.getD_lt (by omega) (by omega)).le
  refine Tame.pieces (t.nk + 2) S Q ?_ ?_ ?_ ?_
  · intro i hi
    simp only [S]
    split
    · exact measurableSet_Ioi
    split
    · exact measurableSet_Iio
    refine measurableSet_Ici.inter (measurableSet_Iic.inter ?_)
    by_cases hc : i + 1 < t.nk
    · simp only [hc, forall_const]
      exact measurableSet_Iio
    · simp only [hc, false_imp_iff]
      exact MeasurableSet.univ
  · intro i hi
    simp only [Q]
    split
    · exact tame_powerlaw _ _ _ (h.getD_pos (by omega))
    split
    · exact tame_powerlaw _ _ _ (h.getD_pos (by omega))
    exact Tame.of_continuous (p i).continuous
  · intro i hi k hk
    simp only [S] at hk
    simp only [Q]
    split at hk
    · rename_i hi
      rw [if_pos hi]
      have e := (hl k).symm.trans ((lookup_high t .poly k hk).trans (hhigh k))
      simpa using e
    split at hk
    · rename_i hi' hi
      rw [if_neg hi', if_pos hi]
      have hk' : k < t.k.getD 0 0 := hk
      have e := (hl k).symm.trans ((lookup_low t .poly k (hk'.le.trans hends) hk).trans (hlow k))
      simpa using e
    · rename_i h1 h3
      rw [if_neg h1, if_neg h3]
      obtain ⟨k1, k2, k3⟩ := hk
      have hin : i < t.nk := by omega
      have hk0 : t.k.getD 0 0 ≤ k := by
        rcases Nat.eq_zero_or_pos i with e | e
        · rwa [e] at k1
        · exact (h.toIncreasing.getD_lt e hin).le.trans k1
      obtain ⟨r, r1, r2, r3, r4⟩ := exists_bracket t h.toIncreasing (by omega) k hk0
      have hri : r = i := by
        rcases lt_trichotomy r i with e | e | e
        · have a1 := r4 (by omega)
          have a2 : t.k.getD (r + 1) 0 ≤ t.k.getD i 0 := by
            rcases Nat.eq_or_lt_of_le (Nat.succ_le_of_lt e) with e | e
            · rw [← e]
            · exact (h.toIncreasing.getD_lt e hin).le
          linarith
        · exact e
        · have a1 := k3 (by omega)
          have a2 : t.k.getD (i + 1) 0 ≤ t.k.getD r 0 := by
            rcases Nat.eq_or_lt_of_le (Nat.succ_le_of_lt e) with e | e
            · rw [← e]
            · exact (h.toIncreasing.getD_lt e r2).le
          linarith
      subst hri
      have e1 := lookup_in_poly t h.toIncreasing (by omega) k hk0 k2 r r1 r2
      rw [interpolPoly_window t h.toIncreasing k (r - 2) _ (by omega) (by omega) (p r) (hp r r2) (hpe r r2), hl] at e1
      simpa using e1
  · intro k
    by_cases h1 : t.k.getD (t.nk - 1) 0 < k
    · refine ⟨t.nk, by omega, ?_⟩
      simp only [S, if_true]
      exact h1
    by_cases h3 : k < t.k.getD 0 0
    · refine ⟨t.nk + 1, by omega, ?_⟩
      simp only [S]
      rw [if_neg (by omega), if_pos trivial]
      exact h3
    obtain ⟨r, r1, r2, r3, r4⟩ := exists_bracket t h.toIncreasing (by omega) k (not_lt.1 h3)
    refine ⟨r, by omega, ?_⟩
    simp only [S]
    rw [if_neg (by omega), if_neg (by omega)]
    exact ⟨r3, not_lt.1 h1, r4⟩

end Verif
