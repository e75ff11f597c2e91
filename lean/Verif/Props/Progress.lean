import Verif.Model.Progress

/-!
# C49: the progress report
-/

namespace Verif

theorem stepVerbose_eq (nk : ℕ) : stepVerbose nk = max (nk / 10) 1 := by
  unfold stepVerbose
  rw [show (100 : ℕ) = 10 * 10 by norm_num, Nat.mul_div_mul_right _ _ (by norm_num)]

theorem stepVerbose_pos (nk : ℕ) : 0 < stepVerbose nk := by
  rw [stepVerbose_eq]
  omega

/-- The printed values are the multiples of ten `10*m` for the modes `m*step`. -/
theorem mem_progress (nk v : ℕ) : v ∈ progress nk ↔ ∃ m, m * stepVerbose nk < nk ∧ v = 10 * m := by
  have hs := stepVerbose_pos nk
  unfold progress
  simp only [List.mem_map, List.mem_filter, List.mem_range, beq_iff_eq]
  constructor
  · rintro ⟨ik, ⟨h1, h2⟩, rfl⟩
    obtain ⟨m, rfl⟩ := Nat.dvd_of_mod_eq_zero h2
    refine ⟨m, by rwa [Nat.mul_comm] at h1, ?_⟩
    rw [Nat.mul_assoc, Nat.mul_div_cancel_left _ hs, Nat.mul_comm]
  · rintro ⟨m, h1, rfl⟩
    refine ⟨m * stepVerbose nk, ⟨h1, Nat.mul_mod_left _ _⟩, ?_⟩
    rw [Nat.mul_right_comm, Nat.mul_div_cancel _ hs, Nat.mul_comm]

/-- C49, first half: the percentages increase along the modes, starting with `0`. -/
theorem C49_increasing (nk : ℕ) : (progress nk).Pairwise (· < ·) ∧ (0 < nk → (progress nk).head? = some 0) := by
  have hs := stepVerbose_pos nk
  constructor
  · unfold progress
    rw [List.pairwise_map]
    have h1 : ((List.range nk).filter fun ik => ik % stepVerbose nk == 0).Pairwise (· < ·) :=
      (List.pairwise_lt_range).filter _
    refine h1.imp_of_mem fun {a b} ha hb hab => ?_
    simp only [List.mem_filter, beq_iff_eq] at ha hb
    obtain ⟨m, rfl⟩ := Nat.dvd_of_mod_eq_zero ha.2
    obtain ⟨m', rfl⟩ := Nat.dvd_of_mod_eq_zero hb.2
    rw [Nat.mul_assoc, Nat.mul_assoc, Nat.mul_div_cancel_left _ hs, Nat.mul_div_cancel_left _ hs]
    have := lt_of_mul_lt_mul_left hab (Nat.zero_le _)
    omega
  · intro h
    unfold progress
    obtain ⟨n, rfl⟩ : ∃ n, nk = n + 1 := ⟨nk - 1, by omega⟩
    rw [List.range_succ_eq_map, List.filter_cons_of_pos (by simp)]
    simp

example : progress 25 = [0, 10, 20, 30, 40, 50, 60, 70, 80, 90, 100, 110, 120] := by decide

/-- C49, second half: the report stays within 100 percent exactly when the last digit of the number of modes is at most the
number formed by the others, or there are fewer than ten modes; in particular from 90 modes on.  Missing for the full C49: the
other numbers of modes, for which the bound fails (`C49_percent_violation`); the report then stays below 200. -/
theorem C49_percent_partial (nk : ℕ) :
    ((∀ v ∈ progress nk, v ≤ 100) ↔ nk < 10 ∨ nk % 10 ≤ nk / 10) ∧ (∀ v ∈ progress nk, v < 200) := by
  constructor
  · constructor
    · intro h
      by_contra hc
      have hs : stepVerbose nk = nk / 10 := by rw [stepVerbose_eq]; omega
      have := h (10 * 11) ((mem_progress nk _).2 ⟨11, by rw [hs]; omega, rfl⟩)
      omega
    · intro h v hv
      obtain ⟨m, hm, rfl⟩ := (mem_progress nk v).1 hv
      rcases h with h | h
      · have hs : stepVerbose nk = 1 := by rw [stepVerbose_eq]; omega
        rw [hs] at hm
        omega
      · rcases Nat.lt_or_ge nk 10 with h10 | h10
        · have hs : stepVerbose nk = 1 := by rw [stepVerbose_eq]; omega
          rw [hs] at hm
          omega
        · have hs : stepVerbose nk = nk / 10 := by rw [stepVerbose_eq]; omega
          rw [hs] at hm
          by_contra hc
          have h11 : 11 * (nk / 10) ≤ m * (nk / 10) := Nat.mul_le_mul_right _ (by omega)
          omega
  · intro v hv
    obtain ⟨m, hm, rfl⟩ := (mem_progress nk v).1 hv
    rcases Nat.lt_or_ge nk 10 with h10 | h10
    · have hs : stepVerbose nk = 1 := by rw [stepVerbose_eq]; omega
      rw [hs] at hm
      omega
    · have hs : stepVerbose nk = nk / 10 := by rw [stepVerbose_eq]; omega
      rw [hs] at hm
      by_contra hc
      have h20 : 20 * (nk / 10) ≤ m * (nk / 10) := Nat.mul_le_mul_right _ (by omega)
      omega

/-- Non-vacuity: 120 modes stay within 100 percent. -/
example : ∀ v ∈ progress 120, v ≤ 100 := (C49_percent_partial 120).1.2 (Or.inr (by norm_num))

/-- C49 fails for 19 modes: the last report is 180 percent. -/
theorem C49_percent_violation : (progress 19).getLast? = some 180 := by decide

end Verif
