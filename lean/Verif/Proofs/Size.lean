import Verif.Model.Common

/-! Lemmas on unsigned arithmetic. -/

namespace Verif

theorem subSize_eq {a b : ℕ} (h : b ≤ a) (ha : a < sizeMod) : subSize a b = a - b := by
  unfold subSize
  have : a + sizeMod - b = (a - b) + sizeMod := by omega
  rw [this, Nat.add_mod_right, Nat.mod_eq_of_lt (by omega)]

theorem subSize_zero_one : subSize 0 1 = sizeMod - 1 := by
  unfold subSize sizeMod; norm_num

theorem addSize_eq {a b : ℕ} (h : a + b < sizeMod) : addSize a b = a + b := Nat.mod_eq_of_lt h

theorem mulSize_eq {a b : ℕ} (h : a * b < sizeMod) : mulSize a b = a * b := Nat.mod_eq_of_lt h

/-- Decrementing and incrementing a `size_t` cancel, wrap included. -/
theorem addSize_subSize {a : ℕ} (ha : a < sizeMod) : addSize (subSize a 1) 1 = a := by
  rcases Nat.eq_zero_or_pos a with rfl | h
  · rw [subSize_zero_one]; unfold addSize sizeMod; norm_num
  · rw [subSize_eq h ha, addSize_eq (by omega)]; omega

theorem ofLong_of_nonneg {z : ℤ} (h0 : 0 ≤ z) (h : z < sizeMod) : ofLong z = z.toNat := by
  unfold ofLong
  rw [Int.emod_eq_of_lt h0 h]

end Verif
