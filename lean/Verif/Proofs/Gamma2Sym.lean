import Verif.Model.Gamma2
import Verif.Props.Powers

/-!
# Exchange of the two incoming momenta in the expressions of the second-order loop kernels
-/

set_option linter.unusedSimpArgs false

namespace Verif

theorem WFunc_symm (a b c q : ℝ) : WFunc a b c q = WFunc b a c q := by
  have h1 : -4 * (c * c) * (q * q) - 2 * (a * a - q * q) * (b * b - q * q) = -4 * (c * c) * (q * q) - 2 * (b * b - q * q) * (a * a - q * q) := by ring
  have h2 : a * a * (b * b) + (-(a * a) - b * b + c * c) * (q * q) + q * q * (q * q) =
      b * b * (a * a) + (-(b * b) - a * a + c * c) * (q * q) + q * q * (q * q) := by ring
  unfold WFunc
  dsimp only
  rw [h1, h2]

theorem bigBeta_symm (a b c q : ℝ) : bigBeta a b c q = bigBeta b a c q := by
  have h1 : (a * a - q * q) * (b * b - q * q) = (b * b - q * q) * (a * a - q * q) := by ring
  unfold bigBeta
  dsimp only
  rw [h1]

theorem g2dExact1_symm (k1 k2 k3 q : ℝ) : g2dExact1 (pw k1) (pw k2) (pw k3) (pw q) = g2dExact1 (pw k2) (pw k1) (pw k3) (pw q) := by
  unfold g2dExact1 pw
  try simp only [C01_power, Real.rpow_ofNat]
  ring

theorem g2dExact4_symm (k1 k2 k3 q : ℝ) : g2dExact4 (pw k1) (pw k2) (pw k3) (pw q) = g2dExact4 (pw k2) (pw k1) (pw k3) (pw q) := by
  unfold g2dExact4 pw
  try simp only [C01_power, Real.rpow_ofNat]
  ring

theorem g2dExact23_symm (k1 k2 k3 q : ℝ) : g2dExact2 (pw k1) (pw k2) (pw k3) (pw q) = g2dExact3 (pw k2) (pw k1) (pw k3) (pw q) := by
  unfold g2dExact2 g2dExact3 pw
  try simp only [C01_power, Real.rpow_ofNat]
  ring

theorem g2dHighkE_symm (k1 k2 k3 q : ℝ) : g2dHighkE (pw k1) (pw k2) (pw k3) (pw q) = g2dHighkE (pw k2) (pw k1) (pw k3) (pw q) := by
  unfold g2dHighkE pw
  try simp only [C01_power, Real.rpow_ofNat]
  ring

theorem g2dLowkE_symm (k1 k2 k3 q : ℝ) : g2dLowkE (pw k1) (pw k2) (pw k3) (pw q) = g2dLowkE (pw k2) (pw k1) (pw k3) (pw q) := by
  unfold g2dLowkE pw
  try simp only [C01_power, Real.rpow_ofNat]
  ring

theorem g2dPoly0_symm (k1 k2 k3 q : ℝ) : g2dPoly0 (pw k1) (pw k2) (pw k3) (pw q) = g2dPoly0 (pw k2) (pw k1) (pw k3) (pw q) := by
  unfold g2dPoly0 pw
  try simp only [C01_power, Real.rpow_ofNat]
  ring

theorem g2dPoly1_symm (k1 k2 k3 q : ℝ) : g2dPoly1 (pw k1) (pw k2) (pw k3) (pw q) = g2dPoly1 (pw k2) (pw k1) (pw k3) (pw q) := by
  unfold g2dPoly1 pw
  try simp only [C01_power, Real.rpow_ofNat]
  ring

theorem g2dPoly2_symm (k1 k2 k3 q : ℝ) : g2dPoly2 (pw k1) (pw k2) (pw k3) (pw q) = g2dPoly2 (pw k2) (pw k1) (pw k3) (pw q) := by
  unfold g2dPoly2 pw
  try simp only [C01_power, Real.rpow_ofNat]
  ring

theorem g2dPoly3_symm (k1 k2 k3 q : ℝ) : g2dPoly3 (pw k1) (pw k2) (pw k3) (pw q) = g2dPoly3 (pw k2) (pw k1) (pw k3) (pw q) := by
  unfold g2dPoly3 pw
  try simp only [C01_power, Real.rpow_ofNat]
  ring

theorem g2dPoly4_symm (k1 k2 k3 q : ℝ) : g2dPoly4 (pw k1) (pw k2) (pw k3) (pw q) = g2dPoly4 (pw k2) (pw k1) (pw k3) (pw q) := by
  unfold g2dPoly4 pw
  try simp only [C01_power, Real.rpow_ofNat]
  ring

theorem g2dPoly5_symm (k1 k2 k3 q : ℝ) : g2dPoly5 (pw k1) (pw k2) (pw k3) (pw q) = g2dPoly5 (pw k2) (pw k1) (pw k3) (pw q) := by
  unfold g2dPoly5 pw
  try simp only [C01_power, Real.rpow_ofNat]
  ring

theorem g2dPoly6_symm (k1 k2 k3 q : ℝ) : g2dPoly6 (pw k1) (pw k2) (pw k3) (pw q) = g2dPoly6 (pw k2) (pw k1) (pw k3) (pw q) := by
  unfold g2dPoly6 pw
  try simp only [C01_power, Real.rpow_ofNat]
  ring

theorem g2dPoly7_symm (k1 k2 k3 q : ℝ) : g2dPoly7 (pw k1) (pw k2) (pw k3) (pw q) = g2dPoly7 (pw k2) (pw k1) (pw k3) (pw q) := by
  unfold g2dPoly7 pw
  try simp only [C01_power, Real.rpow_ofNat]
  ring

theorem g2dPoly8_symm (k1 k2 k3 q : ℝ) : g2dPoly8 (pw k1) (pw k2) (pw k3) (pw q) = g2dPoly8 (pw k2) (pw k1) (pw k3) (pw q) := by
  unfold g2dPoly8 pw
  try simp only [C01_power, Real.rpow_ofNat]
  ring

theorem g2dPoly9_symm (k1 k2 k3 q : ℝ) : g2dPoly9 (pw k1) (pw k2) (pw k3) (pw q) = g2dPoly9 (pw k2) (pw k1) (pw k3) (pw q) := by
  unfold g2dPoly9 pw
  try simp only [C01_power, Real.rpow_ofNat]
  ring

theorem g2dPoly10_symm (k1 k2 k3 q : ℝ) : g2dPoly10 (pw k1) (pw k2) (pw k3) (pw q) = g2dPoly10 (pw k2) (pw k1) (pw k3) (pw q) := by
  unfold g2dPoly10 pw
  try simp only [C01_power, Real.rpow_ofNat]
  ring

theorem g2dPoly11_symm (k1 k2 k3 q : ℝ) : g2dPoly11 (pw k1) (pw k2) (pw k3) (pw q) = g2dPoly11 (pw k2) (pw k1) (pw k3) (pw q) := by
  unfold g2dPoly11 pw
  try simp only [C01_power, Real.rpow_ofNat]
  ring

theorem g2dPoly12_symm (k1 k2 k3 q : ℝ) : g2dPoly12 (pw k1) (pw k2) (pw k3) (pw q) = g2dPoly12 (pw k2) (pw k1) (pw k3) (pw q) := by
  unfold g2dPoly12 pw
  try simp only [C01_power, Real.rpow_ofNat]
  ring

theorem g2dBeta3_symm (k1 k2 k3 q : ℝ) : g2dBeta3 (pw k1) (pw k2) (pw k3) (pw q) = g2dBeta3 (pw k2) (pw k1) (pw k3) (pw q) := by
  unfold g2dBeta3 pw
  try simp only [C01_power, Real.rpow_ofNat]
  ring

theorem g2dBeta12_symm (k1 k2 k3 q : ℝ) : g2dBeta1 (pw k1) (pw k2) (pw k3) (pw q) = g2dBeta2 (pw k2) (pw k1) (pw k3) (pw q) := by
  unfold g2dBeta1 g2dBeta2 pw
  try simp only [C01_power, Real.rpow_ofNat]
  ring

theorem g2dDen_symm (k1 k2 k3 q : ℝ) : g2dDen (pw k1) (pw k2) (pw k3) (pw q) = g2dDen (pw k2) (pw k1) (pw k3) (pw q) := by
  unfold g2dDen pw
  rw [show (k1 ^ 1 + q ^ 1) * (k2 ^ 1 + q ^ 1) * (k3 ^ 1 + q ^ 1) = (k2 ^ 1 + q ^ 1) * (k1 ^ 1 + q ^ 1) * (k3 ^ 1 + q ^ 1) from by ring]
  ring

theorem g2tExact1_symm (k1 k2 k3 q : ℝ) : g2tExact1 (pw k1) (pw k2) (pw k3) (pw q) = g2tExact1 (pw k2) (pw k1) (pw k3) (pw q) := by
  unfold g2tExact1 pw
  try simp only [C01_power, Real.rpow_ofNat]
  ring

theorem g2tExact4_symm (k1 k2 k3 q : ℝ) : g2tExact4 (pw k1) (pw k2) (pw k3) (pw q) = g2tExact4 (pw k2) (pw k1) (pw k3) (pw q) := by
  unfold g2tExact4 pw
  try simp only [C01_power, Real.rpow_ofNat]
  ring

theorem g2tExact23_symm (k1 k2 k3 q : ℝ) : g2tExact2 (pw k1) (pw k2) (pw k3) (pw q) = g2tExact3 (pw k2) (pw k1) (pw k3) (pw q) := by
  unfold g2tExact2 g2tExact3 pw
  try simp only [C01_power, Real.rpow_ofNat]
  ring

theorem g2tHighkE_symm (k1 k2 k3 q : ℝ) : g2tHighkE (pw k1) (pw k2) (pw k3) (pw q) = g2tHighkE (pw k2) (pw k1) (pw k3) (pw q) := by
  unfold g2tHighkE pw
  try simp only [C01_power, Real.rpow_ofNat]
  ring

theorem g2tLowkE_symm (k1 k2 k3 q : ℝ) : g2tLowkE (pw k1) (pw k2) (pw k3) (pw q) = g2tLowkE (pw k2) (pw k1) (pw k3) (pw q) := by
  unfold g2tLowkE pw
  try simp only [C01_power, Real.rpow_ofNat]
  ring

theorem g2tPoly0_symm (k1 k2 k3 q : ℝ) : g2tPoly0 (pw k1) (pw k2) (pw k3) (pw q) = g2tPoly0 (pw k2) (pw k1) (pw k3) (pw q) := by
  unfold g2tPoly0 pw
  try simp only [C01_power, Real.rpow_ofNat]
  ring

theorem g2tPoly1_symm (k1 k2 k3 q : ℝ) : g2tPoly1 (pw k1) (pw k2) (pw k3) (pw q) = g2tPoly1 (pw k2) (pw k1) (pw k3) (pw q) := by
  unfold g2tPoly1 pw
  try simp only [C01_power, Real.rpow_ofNat]
  ring

theorem g2tPoly2_symm (k1 k2 k3 q : ℝ) : g2tPoly2 (pw k1) (pw k2) (pw k3) (pw q) = g2tPoly2 (pw k2) (pw k1) (pw k3) (pw q) := by
  unfold g2tPoly2 pw
  try simp only [C01_power, Real.rpow_ofNat]
  ring

theorem g2tPoly3_symm (k1 k2 k3 q : ℝ) : g2tPoly3 (pw k1) (pw k2) (pw k3) (pw q) = g2tPoly3 (pw k2) (pw k1) (pw k3) (pw q) := by
  unfold g2tPoly3 pw
  try simp only [C01_power, Real.rpow_ofNat]
  ring

theorem g2tPoly4_symm (k1 k2 k3 q : ℝ) : g2tPoly4 (pw k1) (pw k2) (pw k3) (pw q) = g2tPoly4 (pw k2) (pw k1) (pw k3) (pw q) := by
  unfold g2tPoly4 pw
  try simp only [C01_power, Real.rpow_ofNat]
  ring

theorem g2tPoly5_symm (k1 k2 k3 q : ℝ) : g2tPoly5 (pw k1) (pw k2) (pw k3) (pw q) = g2tPoly5 (pw k2) (pw k1) (pw k3) (pw q) := by
  unfold g2tPoly5 pw
  try simp only [C01_power, Real.rpow_ofNat]
  ring

theorem g2tPoly6_symm (k1 k2 k3 q : ℝ) : g2tPoly6 (pw k1) (pw k2) (pw k3) (pw q) = g2tPoly6 (pw k2) (pw k1) (pw k3) (pw q) := by
  unfold g2tPoly6 pw
  try simp only [C01_power, Real.rpow_ofNat]
  ring

theorem g2tPoly7_symm (k1 k2 k3 q : ℝ) : g2tPoly7 (pw k1) (pw k2) (pw k3) (pw q) = g2tPoly7 (pw k2) (pw k1) (pw k3) (pw q) := by
  unfold g2tPoly7 pw
  try simp only [C01_power, Real.rpow_ofNat]
  ring

theorem g2tPoly8_symm (k1 k2 k3 q : ℝ) : g2tPoly8 (pw k1) (pw k2) (pw k3) (pw q) = g2tPoly8 (pw k2) (pw k1) (pw k3) (pw q) := by
  unfold g2tPoly8 pw
  try simp only [C01_power, Real.rpow_ofNat]
  ring

theorem g2tPoly9_symm (k1 k2 k3 q : ℝ) : g2tPoly9 (pw k1) (pw k2) (pw k3) (pw q) = g2tPoly9 (pw k2) (pw k1) (pw k3) (pw q) := by
  unfold g2tPoly9 pw
  try simp only [C01_power, Real.rpow_ofNat]
  ring

theorem g2tPoly10_symm (k1 k2 k3 q : ℝ) : g2tPoly10 (pw k1) (pw k2) (pw k3) (pw q) = g2tPoly10 (pw k2) (pw k1) (pw k3) (pw q) := by
  unfold g2tPoly10 pw
  try simp only [C01_power, Real.rpow_ofNat]
  ring

theorem g2tPoly11_symm (k1 k2 k3 q : ℝ) : g2tPoly11 (pw k1) (pw k2) (pw k3) (pw q) = g2tPoly11 (pw k2) (pw k1) (pw k3) (pw q) := by
  unfold g2tPoly11 pw
  try simp only [C01_power, Real.rpow_ofNat]
  ring

theorem g2tPoly12_symm (k1 k2 k3 q : ℝ) : g2tPoly12 (pw k1) (pw k2) (pw k3) (pw q) = g2tPoly12 (pw k2) (pw k1) (pw k3) (pw q) := by
  unfold g2tPoly12 pw
  try simp only [C01_power, Real.rpow_ofNat]
  ring

theorem g2tPoly13_symm (k1 k2 k3 q : ℝ) : g2tPoly13 (pw k1) (pw k2) (pw k3) (pw q) = g2tPoly13 (pw k2) (pw k1) (pw k3) (pw q) := by
  unfold g2tPoly13 pw
  try simp only [C01_power, Real.rpow_ofNat]
  ring

theorem g2tPoly14_symm (k1 k2 k3 q : ℝ) : g2tPoly14 (pw k1) (pw k2) (pw k3) (pw q) = g2tPoly14 (pw k2) (pw k1) (pw k3) (pw q) := by
  unfold g2tPoly14 pw
  try simp only [C01_power, Real.rpow_ofNat]
  ring

theorem g2tPoly15_symm (k1 k2 k3 q : ℝ) : g2tPoly15 (pw k1) (pw k2) (pw k3) (pw q) = g2tPoly15 (pw k2) (pw k1) (pw k3) (pw q) := by
  unfold g2tPoly15 pw
  try simp only [C01_power, Real.rpow_ofNat]
  ring

theorem g2tPoly16_symm (k1 k2 k3 q : ℝ) : g2tPoly16 (pw k1) (pw k2) (pw k3) (pw q) = g2tPoly16 (pw k2) (pw k1) (pw k3) (pw q) := by
  unfold g2tPoly16 pw
  try simp only [C01_power, Real.rpow_ofNat]
  ring

theorem g2tBeta3_symm (k1 k2 k3 q : ℝ) : g2tBeta3 (pw k1) (pw k2) (pw k3) (pw q) = g2tBeta3 (pw k2) (pw k1) (pw k3) (pw q) := by
  unfold g2tBeta3 pw
  try simp only [C01_power, Real.rpow_ofNat]
  ring

theorem g2tBeta12_symm (k1 k2 k3 q : ℝ) : g2tBeta1 (pw k1) (pw k2) (pw k3) (pw q) = g2tBeta2 (pw k2) (pw k1) (pw k3) (pw q) := by
  unfold g2tBeta1 g2tBeta2 pw
  try simp only [C01_power, Real.rpow_ofNat]
  ring

theorem g2tDen_symm (k1 k2 k3 q : ℝ) : g2tDen (pw k1) (pw k2) (pw k3) (pw q) = g2tDen (pw k2) (pw k1) (pw k3) (pw q) := by
  unfold g2tDen pw
  rw [show (k1 ^ 1 + q ^ 1) * (k2 ^ 1 + q ^ 1) * (k3 ^ 1 + q ^ 1) = (k2 ^ 1 + q ^ 1) * (k1 ^ 1 + q ^ 1) * (k3 ^ 1 + q ^ 1) from by ring]
  ring

theorem g2dExact_last_symm (k1 k2 k3 q : ℝ) : g2dExact5 (pw k1) (pw k2) (pw k3) (pw q) =
    g2dExact5 (pw k2) (pw k1) (pw k3) (pw q) := by
  unfold g2dExact5 pw
  rw [WFunc_symm (k2 ^ 1) (k1 ^ 1)]
  have h1 : k2 ^ 2 * k1 ^ 2 - (k2 ^ 2 + k1 ^ 2 - k3 ^ 2) * q ^ 2 + q ^ 4 = k1 ^ 2 * k2 ^ 2 - (k1 ^ 2 + k2 ^ 2 - k3 ^ 2) * q ^ 2 + q ^ 4 := by ring
  have h2 : ∀ a b : ℝ, a ^ 2 * q ^ 2 + (b ^ 1 - q ^ 1) * (k3 ^ 1 - q ^ 1) * (b ^ 1 + q ^ 1) * (k3 ^ 1 + q ^ 1) =
      b ^ 2 * k3 ^ 2 - (b ^ 2 - a ^ 2 + k3 ^ 2) * q ^ 2 + q ^ 4 := fun a b => by ring
  rw [h1, h2, h2]
  ring

theorem g2dExact_symm (k1 k2 k3 q : ℝ) : g2dExact k1 k2 k3 q = g2dExact k2 k1 k3 q := by
  have h := g2dExact_last_symm k1 k2 k3 q
  unfold g2dExact
  rw [g2dExact1_symm k1 k2, g2dExact4_symm k1 k2, g2dExact23_symm k1 k2, ← g2dExact23_symm k2 k1]
  linarith

theorem g2dHighk_symm (k1 k2 k3 q : ℝ) : g2dHighk k1 k2 k3 q = g2dHighk k2 k1 k3 q := g2dHighkE_symm k1 k2 k3 q

theorem g2dLowk_symm (k1 k2 k3 q : ℝ) : g2dLowk k1 k2 k3 q = g2dLowk k2 k1 k3 q := g2dLowkE_symm k1 k2 k3 q

theorem g2dElongate_symm (k1 k2 k3 q : ℝ) : g2dElongate k1 k2 k3 q = g2dElongate k2 k1 k3 q := by
  unfold g2dElongate
  rcases lt_trichotomy k1 k2 with h | h | h
  · rw [if_neg (by simp [h.le, h]), if_pos (by simp [h, h.le])]
  · subst h; rfl
  · rw [if_pos (by simp [h, h.le]), if_neg (by simp [h.le, h])]

theorem g2dBeta0_symm (k1 k2 k3 q : ℝ) : g2dBeta0 (pw k1) (pw k2) (pw k3) (pw q) = g2dBeta0 (pw k2) (pw k1) (pw k3) (pw q) := by
  unfold g2dBeta0 pw
  try simp only [C01_power, Real.rpow_ofNat]
  have h1 : ∀ a b : ℝ, a ^ 2 * (b ^ 2 - q ^ 2) + q ^ 2 * (-b ^ 2 + k3 ^ 2 + q ^ 2) = a ^ 2 * b ^ 2 - (a ^ 2 + b ^ 2 - k3 ^ 2) * q ^ 2 + q ^ 4 := fun a b => by ring
  have h2 : ∀ a b : ℝ, a ^ 2 * b ^ 2 + (-a ^ 2 - b ^ 2 + k3 ^ 2) * q ^ 2 + q ^ 4 = a ^ 2 * b ^ 2 - (a ^ 2 + b ^ 2 - k3 ^ 2) * q ^ 2 + q ^ 4 := fun a b => by ring
  have h3 : ∀ a b : ℝ, k3 ^ 2 * (a ^ 2 - q ^ 2) + q ^ 2 * (b ^ 2 - a ^ 2 + q ^ 2) = a ^ 2 * k3 ^ 2 - (a ^ 2 - b ^ 2 + k3 ^ 2) * q ^ 2 + q ^ 4 := fun a b => by ring
  have h4 : ∀ a b : ℝ, k3 ^ 2 * (a ^ 2 - q ^ 2) + q ^ 2 * (-a ^ 2 + b ^ 2 + q ^ 2) = a ^ 2 * k3 ^ 2 - (a ^ 2 - b ^ 2 + k3 ^ 2) * q ^ 2 + q ^ 4 := fun a b => by ring
  have h5 : ∀ a b : ℝ, a ^ 2 * k3 ^ 2 - (-b ^ 2 + a ^ 2 + k3 ^ 2) * q ^ 2 + q ^ 4 = a ^ 2 * k3 ^ 2 - (a ^ 2 - b ^ 2 + k3 ^ 2) * q ^ 2 + q ^ 4 := fun a b => by ring
  simp only [h1, h2, h3, h4, h5]
  rw [show k2 ^ 2 * k1 ^ 2 - (k2 ^ 2 + k1 ^ 2 - k3 ^ 2) * q ^ 2 + q ^ 4 = k1 ^ 2 * k2 ^ 2 - (k1 ^ 2 + k2 ^ 2 - k3 ^ 2) * q ^ 2 + q ^ 4 from by ring]
  generalize Real.sqrt (k1 ^ 2 * k2 ^ 2 - (k1 ^ 2 + k2 ^ 2 - k3 ^ 2) * q ^ 2 + q ^ 4) = s
  generalize Real.sqrt (k1 ^ 2 * k3 ^ 2 - (k1 ^ 2 - k2 ^ 2 + k3 ^ 2) * q ^ 2 + q ^ 4) = s1
  generalize Real.sqrt (k2 ^ 2 * k3 ^ 2 - (k2 ^ 2 - k1 ^ 2 + k3 ^ 2) * q ^ 2 + q ^ 4) = s2
  ring

theorem g2dBeta4_symm (k1 k2 k3 q : ℝ) : g2dBeta4 (pw k1) (pw k2) (pw k3) (pw q) = g2dBeta4 (pw k2) (pw k1) (pw k3) (pw q) := by
  unfold g2dBeta4 pw
  rw [bigBeta_symm (k2 ^ 1) (k1 ^ 1), bigBeta_symm (k1 ^ 1) (k3 ^ 1), bigBeta_symm (k2 ^ 1) (k3 ^ 1)]
  ring

theorem g2dReg3rd_symm (k1 k2 k3 q : ℝ) : g2dReg3rd k1 k2 k3 q = g2dReg3rd k2 k1 k3 q := by
  unfold g2dReg3rd
  rw [g2dDen_symm k1 k2, g2dBeta0_symm k1 k2, g2dBeta3_symm k1 k2, g2dBeta4_symm k1 k2, g2dBeta12_symm k1 k2, ← g2dBeta12_symm k2 k1,
    g2dPoly0_symm k1 k2, g2dPoly1_symm k1 k2, g2dPoly2_symm k1 k2, g2dPoly3_symm k1 k2, g2dPoly4_symm k1 k2, g2dPoly5_symm k1 k2, g2dPoly6_symm k1 k2, g2dPoly7_symm k1 k2, g2dPoly8_symm k1 k2, g2dPoly9_symm k1 k2, g2dPoly10_symm k1 k2, g2dPoly11_symm k1 k2, g2dPoly12_symm k1 k2]
  ring

theorem g2dColl0_symm (k1 k2 q : ℝ) :
    g2dColl0 (pw k1) (pw k2) (pw 1) (pw q) = g2dColl0 (pw k2) (pw k1) (pw 1) (pw q) := by
  unfold g2dColl0 pw
  have h1 : ∀ a b : ℝ, -a ^ 2 + b ^ 2 + q ^ 2 = b ^ 2 - a ^ 2 + q ^ 2 := fun a b => by ring
  have h2 : ∀ a b s : ℝ, -((-(a ^ 2 * q ^ 1) + 2 * b ^ 2 * q ^ 1 + q ^ 3 + 2 * b ^ 1 * s) / (a ^ 2 * q ^ 1 - 2 * b ^ 2 * q ^ 1 - q ^ 3 + 2 * b ^ 1 * s)) =
      (2 * b ^ 2 * q ^ 1 - a ^ 2 * q ^ 1 + q ^ 3 + 2 * b ^ 1 * s) / (2 * b ^ 2 * q ^ 1 - a ^ 2 * q ^ 1 + q ^ 3 - 2 * b ^ 1 * s) := fun a b s => by
    rw [← div_neg]; congr 1 <;> ring
  simp only [C01_power, h1, h2]
  generalize Real.log ((2 * k1 ^ 2 * q ^ 1 - k2 ^ 2 * q ^ 1 + q ^ 3 + 2 * k1 ^ 1 * _) / _) = l1
  generalize Real.log ((2 * k2 ^ 2 * q ^ 1 - k1 ^ 2 * q ^ 1 + q ^ 3 + 2 * k2 ^ 1 * _) / _) = l2
  generalize Real.sqrt (q ^ 2 * (k1 ^ 2 - k2 ^ 2 + q ^ 2)) = s1
  generalize Real.sqrt (q ^ 2 * (k2 ^ 2 - k1 ^ 2 + q ^ 2)) = s2
  generalize Real.log (abs ((k1 ^ 1 + q ^ 1) / (k1 ^ 1 - q ^ 1))) = m1
  generalize Real.log (abs ((k2 ^ 1 + q ^ 1) / (k2 ^ 1 - q ^ 1))) = m2
  ring

theorem g2dColl1_symm (k1 k2 q : ℝ) :
    g2dColl1 (pw k1) (pw k2) (pw 1) (pw q) * k1 ^ 2 = g2dColl1 (pw k2) (pw k1) (pw 1) (pw q) * k2 ^ 2 := by
  unfold g2dColl1 pw
  have h1 : ∀ a b : ℝ, -a ^ 2 + b ^ 2 + q ^ 2 = b ^ 2 - a ^ 2 + q ^ 2 := fun a b => by ring
  have h2 : ∀ a b s : ℝ, -((-(a ^ 2 * q ^ 1) + 2 * b ^ 2 * q ^ 1 + q ^ 3 + 2 * b ^ 1 * s) / (a ^ 2 * q ^ 1 - 2 * b ^ 2 * q ^ 1 - q ^ 3 + 2 * b ^ 1 * s)) =
      (2 * b ^ 2 * q ^ 1 - a ^ 2 * q ^ 1 + q ^ 3 + 2 * b ^ 1 * s) / (2 * b ^ 2 * q ^ 1 - a ^ 2 * q ^ 1 + q ^ 3 - 2 * b ^ 1 * s) := fun a b s => by
    rw [← div_neg]; congr 1 <;> ring
  simp only [C01_power, h1, h2]
  generalize Real.log ((2 * k1 ^ 2 * q ^ 1 - k2 ^ 2 * q ^ 1 + q ^ 3 + 2 * k1 ^ 1 * _) / _) = l1
  generalize Real.log ((2 * k2 ^ 2 * q ^ 1 - k1 ^ 2 * q ^ 1 + q ^ 3 + 2 * k2 ^ 1 * _) / _) = l2
  generalize Real.sqrt (q ^ 2 * (k1 ^ 2 - k2 ^ 2 + q ^ 2)) = s1
  generalize Real.sqrt (q ^ 2 * (k2 ^ 2 - k1 ^ 2 + q ^ 2)) = s2
  generalize Real.log (abs ((k1 ^ 1 + q ^ 1) / (k1 ^ 1 - q ^ 1))) = m1
  generalize Real.log (abs ((k2 ^ 1 + q ^ 1) / (k2 ^ 1 - q ^ 1))) = m2
  generalize (q ^ 2 * (k1 ^ 2 - k2 ^ 2 + q ^ 2)) ^ (1.5:ℝ) = r1
  generalize (q ^ 2 * (k2 ^ 2 - k1 ^ 2 + q ^ 2)) ^ (1.5:ℝ) = r2
  ring

theorem g2dColl2_symm (k1 k2 q : ℝ) :
    g2dColl2 (pw k1) (pw k2) (pw 1) (pw q) * k1 ^ 4 = g2dColl2 (pw k2) (pw k1) (pw 1) (pw q) * k2 ^ 4 := by
  unfold g2dColl2 pw
  have h1 : ∀ a b : ℝ, -a ^ 2 + b ^ 2 + q ^ 2 = b ^ 2 - a ^ 2 + q ^ 2 := fun a b => by ring
  have h2 : ∀ a b s : ℝ, -((-(a ^ 2 * q ^ 1) + 2 * b ^ 2 * q ^ 1 + q ^ 3 + 2 * b ^ 1 * s) / (a ^ 2 * q ^ 1 - 2 * b ^ 2 * q ^ 1 - q ^ 3 + 2 * b ^ 1 * s)) =
      (2 * b ^ 2 * q ^ 1 - a ^ 2 * q ^ 1 + q ^ 3 + 2 * b ^ 1 * s) / (2 * b ^ 2 * q ^ 1 - a ^ 2 * q ^ 1 + q ^ 3 - 2 * b ^ 1 * s) := fun a b s => by
    rw [← div_neg]; congr 1 <;> ring
  simp only [C01_power, h1, h2]
  generalize Real.log ((2 * k1 ^ 2 * q ^ 1 - k2 ^ 2 * q ^ 1 + q ^ 3 + 2 * k1 ^ 1 * _) / _) = l1
  generalize Real.log ((2 * k2 ^ 2 * q ^ 1 - k1 ^ 2 * q ^ 1 + q ^ 3 + 2 * k2 ^ 1 * _) / _) = l2
  generalize Real.sqrt (q ^ 2 * (k1 ^ 2 - k2 ^ 2 + q ^ 2)) = s1
  generalize Real.sqrt (q ^ 2 * (k2 ^ 2 - k1 ^ 2 + q ^ 2)) = s2
  generalize Real.log (abs ((k1 ^ 1 + q ^ 1) / (k1 ^ 1 - q ^ 1))) = m1
  generalize Real.log (abs ((k2 ^ 1 + q ^ 1) / (k2 ^ 1 - q ^ 1))) = m2
  ring

theorem g2dColl_symm (k1 k2 k3 q : ℝ) (h1 : k1 ≠ 0) (h2 : k2 ≠ 0) : g2dColl k1 k2 k3 q = g2dColl k2 k1 k3 q := by
  have e0 : ∀ a b e : ℝ, g2dColl0 (pw a) (pw b) (pw e) (pw q) = g2dColl0 (pw a) (pw b) (pw 1) (pw q) := fun a b e => rfl
  have e1 : ∀ a b e : ℝ, g2dColl1 (pw a) (pw b) (pw e) (pw q) = e ^ 2 * g2dColl1 (pw a) (pw b) (pw 1) (pw q) := fun a b e => by
    have he : pw e 2 = e ^ 2 * pw 1 2 := by simp [pw]
    unfold g2dColl1
    rw [he]
    ring
  have e2 : ∀ a b e : ℝ, g2dColl2 (pw a) (pw b) (pw e) (pw q) = e ^ 4 * g2dColl2 (pw a) (pw b) (pw 1) (pw q) := fun a b e => by
    have he : pw e 4 = e ^ 4 * pw 1 4 := by simp [pw]
    unfold g2dColl2
    rw [he]
    ring
  have s0 := g2dColl0_symm k1 k2 q
  have s1 := g2dColl1_symm k1 k2 q
  have s2 := g2dColl2_symm k1 k2 q
  unfold g2dColl
  rw [e0, e1, e2, e0 k2, e1 k2, e2 k2, s0]
  generalize g2dColl1 (pw k1) (pw k2) (pw 1) (pw q) = x1 at *
  generalize g2dColl1 (pw k2) (pw k1) (pw 1) (pw q) = y1 at *
  generalize g2dColl2 (pw k1) (pw k2) (pw 1) (pw q) = x2 at *
  generalize g2dColl2 (pw k2) (pw k1) (pw 1) (pw q) = y2 at *
  have t1 : (k3 / k2) ^ 2 * x1 = (k3 / k1) ^ 2 * y1 := by field_simp; linear_combination k3 ^ 2 * s1
  have t2 : (k3 / k2) ^ 4 * x2 = (k3 / k1) ^ 4 * y2 := by field_simp; linear_combination k3 ^ 4 * s2
  rw [t1, t2]

theorem g2tExact_last_symm (k1 k2 k3 q : ℝ) : g2tExact5 (pw k1) (pw k2) (pw k3) (pw q) + g2tExact6 (pw k1) (pw k2) (pw k3) (pw q) =
    g2tExact5 (pw k2) (pw k1) (pw k3) (pw q) + g2tExact6 (pw k2) (pw k1) (pw k3) (pw q) := by
  unfold g2tExact5 g2tExact6 pw
  rw [WFunc_symm (k2 ^ 1) (k1 ^ 1)]
  have h1 : k2 ^ 2 * k1 ^ 2 - (k2 ^ 2 + k1 ^ 2 - k3 ^ 2) * q ^ 2 + q ^ 4 = k1 ^ 2 * k2 ^ 2 - (k1 ^ 2 + k2 ^ 2 - k3 ^ 2) * q ^ 2 + q ^ 4 := by ring
  have h2 : ∀ a b : ℝ, a ^ 2 * q ^ 2 + (b ^ 1 - q ^ 1) * (k3 ^ 1 - q ^ 1) * (b ^ 1 + q ^ 1) * (k3 ^ 1 + q ^ 1) =
      b ^ 2 * k3 ^ 2 - (b ^ 2 - a ^ 2 + k3 ^ 2) * q ^ 2 + q ^ 4 := fun a b => by ring
  rw [h1, h2, h2]
  ring

theorem g2tExact_symm (k1 k2 k3 q : ℝ) : g2tExact k1 k2 k3 q = g2tExact k2 k1 k3 q := by
  have h := g2tExact_last_symm k1 k2 k3 q
  unfold g2tExact
  rw [g2tExact1_symm k1 k2, g2tExact4_symm k1 k2, g2tExact23_symm k1 k2, ← g2tExact23_symm k2 k1]
  linarith

theorem g2tHighk_symm (k1 k2 k3 q : ℝ) : g2tHighk k1 k2 k3 q = g2tHighk k2 k1 k3 q := g2tHighkE_symm k1 k2 k3 q

theorem g2tLowk_symm (k1 k2 k3 q : ℝ) : g2tLowk k1 k2 k3 q = g2tLowk k2 k1 k3 q := g2tLowkE_symm k1 k2 k3 q

theorem g2tElongate_symm (k1 k2 k3 q : ℝ) : g2tElongate k1 k2 k3 q = g2tElongate k2 k1 k3 q := by
  unfold g2tElongate
  rcases lt_trichotomy k1 k2 with h | h | h
  · rw [if_neg (by simp [h.le, h]), if_pos (by simp [h, h.le])]
  · subst h; rfl
  · rw [if_pos (by simp [h, h.le]), if_neg (by simp [h.le, h])]

theorem g2tBeta0_symm (k1 k2 k3 q : ℝ) : g2tBeta0 (pw k1) (pw k2) (pw k3) (pw q) = g2tBeta0 (pw k2) (pw k1) (pw k3) (pw q) := by
  unfold g2tBeta0 pw
  try simp only [C01_power, Real.rpow_ofNat]
  have h1 : ∀ a b : ℝ, a ^ 2 * (b ^ 2 - q ^ 2) + q ^ 2 * (-b ^ 2 + k3 ^ 2 + q ^ 2) = a ^ 2 * b ^ 2 - (a ^ 2 + b ^ 2 - k3 ^ 2) * q ^ 2 + q ^ 4 := fun a b => by ring
  have h2 : ∀ a b : ℝ, a ^ 2 * b ^ 2 + (-a ^ 2 - b ^ 2 + k3 ^ 2) * q ^ 2 + q ^ 4 = a ^ 2 * b ^ 2 - (a ^ 2 + b ^ 2 - k3 ^ 2) * q ^ 2 + q ^ 4 := fun a b => by ring
  have h3 : ∀ a b : ℝ, k3 ^ 2 * (a ^ 2 - q ^ 2) + q ^ 2 * (b ^ 2 - a ^ 2 + q ^ 2) = a ^ 2 * k3 ^ 2 - (a ^ 2 - b ^ 2 + k3 ^ 2) * q ^ 2 + q ^ 4 := fun a b => by ring
  have h4 : ∀ a b : ℝ, k3 ^ 2 * (a ^ 2 - q ^ 2) + q ^ 2 * (-a ^ 2 + b ^ 2 + q ^ 2) = a ^ 2 * k3 ^ 2 - (a ^ 2 - b ^ 2 + k3 ^ 2) * q ^ 2 + q ^ 4 := fun a b => by ring
  have h5 : ∀ a b : ℝ, a ^ 2 * k3 ^ 2 - (-b ^ 2 + a ^ 2 + k3 ^ 2) * q ^ 2 + q ^ 4 = a ^ 2 * k3 ^ 2 - (a ^ 2 - b ^ 2 + k3 ^ 2) * q ^ 2 + q ^ 4 := fun a b => by ring
  simp only [h1, h2, h3, h4, h5]
  rw [show k2 ^ 2 * k1 ^ 2 - (k2 ^ 2 + k1 ^ 2 - k3 ^ 2) * q ^ 2 + q ^ 4 = k1 ^ 2 * k2 ^ 2 - (k1 ^ 2 + k2 ^ 2 - k3 ^ 2) * q ^ 2 + q ^ 4 from by ring]
  generalize Real.sqrt (k1 ^ 2 * k2 ^ 2 - (k1 ^ 2 + k2 ^ 2 - k3 ^ 2) * q ^ 2 + q ^ 4) = s
  generalize Real.sqrt (k1 ^ 2 * k3 ^ 2 - (k1 ^ 2 - k2 ^ 2 + k3 ^ 2) * q ^ 2 + q ^ 4) = s1
  generalize Real.sqrt (k2 ^ 2 * k3 ^ 2 - (k2 ^ 2 - k1 ^ 2 + k3 ^ 2) * q ^ 2 + q ^ 4) = s2
  ring

theorem g2tBeta4_symm (k1 k2 k3 q : ℝ) : g2tBeta4 (pw k1) (pw k2) (pw k3) (pw q) = g2tBeta4 (pw k2) (pw k1) (pw k3) (pw q) := by
  unfold g2tBeta4 pw
  rw [bigBeta_symm (k2 ^ 1) (k1 ^ 1), bigBeta_symm (k3 ^ 1) (k1 ^ 1), bigBeta_symm (k2 ^ 1) (k3 ^ 1), bigBeta_symm (k1 ^ 1) (k3 ^ 1)]
  ring

theorem g2tReg3rd_symm (k1 k2 k3 q : ℝ) : g2tReg3rd k1 k2 k3 q = g2tReg3rd k2 k1 k3 q := by
  unfold g2tReg3rd
  rw [g2tDen_symm k1 k2, g2tBeta0_symm k1 k2, g2tBeta3_symm k1 k2, g2tBeta4_symm k1 k2, g2tBeta12_symm k1 k2, ← g2tBeta12_symm k2 k1,
    g2tPoly0_symm k1 k2, g2tPoly1_symm k1 k2, g2tPoly2_symm k1 k2, g2tPoly3_symm k1 k2, g2tPoly4_symm k1 k2, g2tPoly5_symm k1 k2, g2tPoly6_symm k1 k2, g2tPoly7_symm k1 k2, g2tPoly8_symm k1 k2, g2tPoly9_symm k1 k2, g2tPoly10_symm k1 k2, g2tPoly11_symm k1 k2, g2tPoly12_symm k1 k2, g2tPoly13_symm k1 k2, g2tPoly14_symm k1 k2, g2tPoly15_symm k1 k2, g2tPoly16_symm k1 k2]
  ring

theorem g2tColl0_symm (k1 k2 q : ℝ) :
    g2tColl0 (pw k1) (pw k2) (pw 1) (pw q) = g2tColl0 (pw k2) (pw k1) (pw 1) (pw q) := by
  unfold g2tColl0 pw
  have h1 : ∀ a b : ℝ, -a ^ 2 + b ^ 2 + q ^ 2 = b ^ 2 - a ^ 2 + q ^ 2 := fun a b => by ring
  have h2 : ∀ a b s : ℝ, -((-(a ^ 2 * q ^ 1) + 2 * b ^ 2 * q ^ 1 + q ^ 3 + 2 * b ^ 1 * s) / (a ^ 2 * q ^ 1 - 2 * b ^ 2 * q ^ 1 - q ^ 3 + 2 * b ^ 1 * s)) =
      (2 * b ^ 2 * q ^ 1 - a ^ 2 * q ^ 1 + q ^ 3 + 2 * b ^ 1 * s) / (2 * b ^ 2 * q ^ 1 - a ^ 2 * q ^ 1 + q ^ 3 - 2 * b ^ 1 * s) := fun a b s => by
    rw [← div_neg]; congr 1 <;> ring
  simp only [C01_power, h1, h2]
  generalize Real.log ((2 * k1 ^ 2 * q ^ 1 - k2 ^ 2 * q ^ 1 + q ^ 3 + 2 * k1 ^ 1 * _) / _) = l1
  generalize Real.log ((2 * k2 ^ 2 * q ^ 1 - k1 ^ 2 * q ^ 1 + q ^ 3 + 2 * k2 ^ 1 * _) / _) = l2
  generalize Real.sqrt (q ^ 2 * (k1 ^ 2 - k2 ^ 2 + q ^ 2)) = s1
  generalize Real.sqrt (q ^ 2 * (k2 ^ 2 - k1 ^ 2 + q ^ 2)) = s2
  generalize Real.log (abs ((k1 ^ 1 + q ^ 1) / (k1 ^ 1 - q ^ 1))) = m1
  generalize Real.log (abs ((k2 ^ 1 + q ^ 1) / (k2 ^ 1 - q ^ 1))) = m2
  ring

theorem g2tColl1_symm (k1 k2 q : ℝ) :
    g2tColl1 (pw k1) (pw k2) (pw 1) (pw q) * k1 ^ 2 = g2tColl1 (pw k2) (pw k1) (pw 1) (pw q) * k2 ^ 2 := by
  unfold g2tColl1 pw
  have h1 : ∀ a b : ℝ, -a ^ 2 + b ^ 2 + q ^ 2 = b ^ 2 - a ^ 2 + q ^ 2 := fun a b => by ring
  have h2 : ∀ a b s : ℝ, -((-(a ^ 2 * q ^ 1) + 2 * b ^ 2 * q ^ 1 + q ^ 3 + 2 * b ^ 1 * s) / (a ^ 2 * q ^ 1 - 2 * b ^ 2 * q ^ 1 - q ^ 3 + 2 * b ^ 1 * s)) =
      (2 * b ^ 2 * q ^ 1 - a ^ 2 * q ^ 1 + q ^ 3 + 2 * b ^ 1 * s) / (2 * b ^ 2 * q ^ 1 - a ^ 2 * q ^ 1 + q ^ 3 - 2 * b ^ 1 * s) := fun a b s => by
    rw [← div_neg]; congr 1 <;> ring
  simp only [C01_power, h1, h2]
  generalize Real.log ((2 * k1 ^ 2 * q ^ 1 - k2 ^ 2 * q ^ 1 + q ^ 3 + 2 * k1 ^ 1 * _) / _) = l1
  generalize Real.log ((2 * k2 ^ 2 * q ^ 1 - k1 ^ 2 * q ^ 1 + q ^ 3 + 2 * k2 ^ 1 * _) / _) = l2
  generalize Real.sqrt (q ^ 2 * (k1 ^ 2 - k2 ^ 2 + q ^ 2)) = s1
  generalize Real.sqrt (q ^ 2 * (k2 ^ 2 - k1 ^ 2 + q ^ 2)) = s2
  generalize Real.log (abs ((k1 ^ 1 + q ^ 1) / (k1 ^ 1 - q ^ 1))) = m1
  generalize Real.log (abs ((k2 ^ 1 + q ^ 1) / (k2 ^ 1 - q ^ 1))) = m2
  generalize (q ^ 2 * (k1 ^ 2 - k2 ^ 2 + q ^ 2)) ^ (1.5:ℝ) = r1
  generalize (q ^ 2 * (k2 ^ 2 - k1 ^ 2 + q ^ 2)) ^ (1.5:ℝ) = r2
  ring

theorem g2tColl2_symm (k1 k2 q : ℝ) :
    g2tColl2 (pw k1) (pw k2) (pw 1) (pw q) * k1 ^ 4 = g2tColl2 (pw k2) (pw k1) (pw 1) (pw q) * k2 ^ 4 := by
  unfold g2tColl2 pw
  have h1 : ∀ a b : ℝ, -a ^ 2 + b ^ 2 + q ^ 2 = b ^ 2 - a ^ 2 + q ^ 2 := fun a b => by ring
  have h2 : ∀ a b s : ℝ, -((-(a ^ 2 * q ^ 1) + 2 * b ^ 2 * q ^ 1 + q ^ 3 + 2 * b ^ 1 * s) / (a ^ 2 * q ^ 1 - 2 * b ^ 2 * q ^ 1 - q ^ 3 + 2 * b ^ 1 * s)) =
      (2 * b ^ 2 * q ^ 1 - a ^ 2 * q ^ 1 + q ^ 3 + 2 * b ^ 1 * s) / (2 * b ^ 2 * q ^ 1 - a ^ 2 * q ^ 1 + q ^ 3 - 2 * b ^ 1 * s) := fun a b s => by
    rw [← div_neg]; congr 1 <;> ring
  simp only [C01_power, h1, h2]
  generalize Real.log ((2 * k1 ^ 2 * q ^ 1 - k2 ^ 2 * q ^ 1 + q ^ 3 + 2 * k1 ^ 1 * _) / _) = l1
  generalize Real.log ((2 * k2 ^ 2 * q ^ 1 - k1 ^ 2 * q ^ 1 + q ^ 3 + 2 * k2 ^ 1 * _) / _) = l2
  generalize Real.sqrt (q ^ 2 * (k1 ^ 2 - k2 ^ 2 + q ^ 2)) = s1
  generalize Real.sqrt (q ^ 2 * (k2 ^ 2 - k1 ^ 2 + q ^ 2)) = s2
  generalize Real.log (abs ((k1 ^ 1 + q ^ 1) / (k1 ^ 1 - q ^ 1))) = m1
  generalize Real.log (abs ((k2 ^ 1 + q ^ 1) / (k2 ^ 1 - q ^ 1))) = m2
  ring

theorem g2tColl_symm (k1 k2 k3 q : ℝ) (h1 : k1 ≠ 0) (h2 : k2 ≠ 0) : g2tColl k1 k2 k3 q = g2tColl k2 k1 k3 q := by
  have e0 : ∀ a b e : ℝ, g2tColl0 (pw a) (pw b) (pw e) (pw q) = g2tColl0 (pw a) (pw b) (pw 1) (pw q) := fun a b e => rfl
  have e1 : ∀ a b e : ℝ, g2tColl1 (pw a) (pw b) (pw e) (pw q) = e ^ 2 * g2tColl1 (pw a) (pw b) (pw 1) (pw q) := fun a b e => by
    have he : pw e 2 = e ^ 2 * pw 1 2 := by simp [pw]
    unfold g2tColl1
    rw [he]
    ring
  have e2 : ∀ a b e : ℝ, g2tColl2 (pw a) (pw b) (pw e) (pw q) = e ^ 4 * g2tColl2 (pw a) (pw b) (pw 1) (pw q) := fun a b e => by
    have he : pw e 4 = e ^ 4 * pw 1 4 := by simp [pw]
    unfold g2tColl2
    rw [he]
    ring
  have s0 := g2tColl0_symm k1 k2 q
  have s1 := g2tColl1_symm k1 k2 q
  have s2 := g2tColl2_symm k1 k2 q
  unfold g2tColl
  rw [e0, e1, e2, e0 k2, e1 k2, e2 k2, s0]
  generalize g2tColl1 (pw k1) (pw k2) (pw 1) (pw q) = x1 at *
  generalize g2tColl1 (pw k2) (pw k1) (pw 1) (pw q) = y1 at *
  generalize g2tColl2 (pw k1) (pw k2) (pw 1) (pw q) = x2 at *
  generalize g2tColl2 (pw k2) (pw k1) (pw 1) (pw q) = y2 at *
  have t1 : (k3 / k2) ^ 2 * x1 = (k3 / k1) ^ 2 * y1 := by field_simp; linear_combination k3 ^ 2 * s1
  have t2 : (k3 / k2) ^ 4 * x2 = (k3 / k1) ^ 4 * y2 := by field_simp; linear_combination k3 ^ 4 * s2
  rw [t1, t2]

end Verif
