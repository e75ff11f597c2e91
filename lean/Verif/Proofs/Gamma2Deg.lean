import Verif.Proofs.Degree

/-!
# Degrees of the expressions of the second-order loop kernels
-/

namespace Verif

section

variable {u : ℝ} (hu : 0 < u) {k1 k2 k3 eps q k1' k2' k3' q' : ℕ → ℝ} (h1 : ∀ n : ℕ, Deg u n (k1 n) (k1' n)) (h2 : ∀ n : ℕ, Deg u n (k2 n) (k2' n))
  (h3 : ∀ n : ℕ, Deg u n (k3 n) (k3' n)) (hq : ∀ n : ℕ, Deg u n (q n) (q' n))

include hu h1 h3 hq in
theorem g2dElongateE_deg : Deg u 0 (g2dElongateE k1 eps k3 q) (g2dElongateE k1' eps k3' q') := by degree

include hu h1 h2 h3 hq in
theorem g2dExact1_deg : Deg u 0 (g2dExact1 k1 k2 k3 q) (g2dExact1 k1' k2' k3' q') := by degree

include hu h1 h2 h3 hq in
theorem g2dExact2_deg : Deg u 0 (g2dExact2 k1 k2 k3 q) (g2dExact2 k1' k2' k3' q') := by degree

include hu h1 h2 h3 hq in
theorem g2dExact3_deg : Deg u 0 (g2dExact3 k1 k2 k3 q) (g2dExact3 k1' k2' k3' q') := by degree

include hu h1 h2 h3 hq in
theorem g2dExact4_deg : Deg u 0 (g2dExact4 k1 k2 k3 q) (g2dExact4 k1' k2' k3' q') := by degree

include hu h1 h2 h3 hq in
theorem g2dExact5_deg : Deg u 0 (g2dExact5 k1 k2 k3 q) (g2dExact5 k1' k2' k3' q') := by degree

include hu h1 h2 h3 hq in
theorem g2dHighkE_deg : Deg u 0 (g2dHighkE k1 k2 k3 q) (g2dHighkE k1' k2' k3' q') := by degree

include hu h1 h2 h3 hq in
theorem g2dLowkE_deg : Deg u 0 (g2dLowkE k1 k2 k3 q) (g2dLowkE k1' k2' k3' q') := by degree

include hu h1 h2 hq in
theorem g2dColl0_deg : Deg u 0 (g2dColl0 k1 k2 eps q) (g2dColl0 k1' k2' eps q') := by degree

include hu h1 h2 hq in
theorem g2dColl1_deg : Deg u 0 (g2dColl1 k1 k2 eps q) (g2dColl1 k1' k2' eps q') := by degree

include hu h1 h2 hq in
theorem g2dColl2_deg : Deg u 0 (g2dColl2 k1 k2 eps q) (g2dColl2 k1' k2' eps q') := by degree

include hu h1 h2 h3 hq in
theorem g2dPoly0_deg : Deg u 28 (g2dPoly0 k1 k2 k3 q) (g2dPoly0 k1' k2' k3' q') := by degree

include hu h1 h2 h3 hq in
theorem g2dPoly1_deg : Deg u 28 (g2dPoly1 k1 k2 k3 q) (g2dPoly1 k1' k2' k3' q') := by degree

include hu h1 h2 h3 hq in
theorem g2dPoly2_deg : Deg u 28 (g2dPoly2 k1 k2 k3 q) (g2dPoly2 k1' k2' k3' q') := by degree

include hu h1 h2 h3 hq in
theorem g2dPoly3_deg : Deg u 28 (g2dPoly3 k1 k2 k3 q) (g2dPoly3 k1' k2' k3' q') := by degree

include hu h1 h2 h3 hq in
theorem g2dPoly4_deg : Deg u 28 (g2dPoly4 k1 k2 k3 q) (g2dPoly4 k1' k2' k3' q') := by degree

include hu h1 h2 h3 hq in
theorem g2dPoly5_deg : Deg u 28 (g2dPoly5 k1 k2 k3 q) (g2dPoly5 k1' k2' k3' q') := by degree

include hu h1 h2 h3 hq in
theorem g2dPoly6_deg : Deg u 28 (g2dPoly6 k1 k2 k3 q) (g2dPoly6 k1' k2' k3' q') := by degree

include hu h1 h2 h3 hq in
theorem g2dPoly7_deg : Deg u 28 (g2dPoly7 k1 k2 k3 q) (g2dPoly7 k1' k2' k3' q') := by degree

include hu h1 h2 h3 hq in
theorem g2dPoly8_deg : Deg u 28 (g2dPoly8 k1 k2 k3 q) (g2dPoly8 k1' k2' k3' q') := by degree

include hu h1 h2 h3 hq in
theorem g2dPoly9_deg : Deg u 28 (g2dPoly9 k1 k2 k3 q) (g2dPoly9 k1' k2' k3' q') := by degree

include hu h1 h2 h3 hq in
theorem g2dPoly10_deg : Deg u 28 (g2dPoly10 k1 k2 k3 q) (g2dPoly10 k1' k2' k3' q') := by degree

include hu h1 h2 h3 hq in
theorem g2dPoly11_deg : Deg u 28 (g2dPoly11 k1 k2 k3 q) (g2dPoly11 k1' k2' k3' q') := by degree

include hu h1 h2 h3 hq in
theorem g2dPoly12_deg : Deg u 28 (g2dPoly12 k1 k2 k3 q) (g2dPoly12 k1' k2' k3' q') := by degree

include hu h1 h2 h3 hq in
theorem g2dBeta0_deg : Deg u 0 (g2dBeta0 k1 k2 k3 q) (g2dBeta0 k1' k2' k3' q') := by degree

include hu h1 h2 h3 hq in
theorem g2dBeta1_deg : Deg u 0 (g2dBeta1 k1 k2 k3 q) (g2dBeta1 k1' k2' k3' q') := by degree

include hu h1 h2 h3 hq in
theorem g2dBeta2_deg : Deg u 0 (g2dBeta2 k1 k2 k3 q) (g2dBeta2 k1' k2' k3' q') := by degree

include hu h1 h2 h3 hq in
theorem g2dBeta3_deg : Deg u 0 (g2dBeta3 k1 k2 k3 q) (g2dBeta3 k1' k2' k3' q') := by degree

include hu h1 h2 h3 hq in
theorem g2dBeta4_deg : Deg u 0 (g2dBeta4 k1 k2 k3 q) (g2dBeta4 k1' k2' k3' q') := by degree

include hu h1 h2 h3 hq in
theorem g2dDen_deg : Deg u 28 (g2dDen k1 k2 k3 q) (g2dDen k1' k2' k3' q') := by degree

include hu h1 h3 hq in
theorem g2tElongateE_deg : Deg u 0 (g2tElongateE k1 eps k3 q) (g2tElongateE k1' eps k3' q') := by degree

include hu h1 h2 h3 hq in
theorem g2tExact1_deg : Deg u 0 (g2tExact1 k1 k2 k3 q) (g2tExact1 k1' k2' k3' q') := by degree

include hu h1 h2 h3 hq in
theorem g2tExact2_deg : Deg u 0 (g2tExact2 k1 k2 k3 q) (g2tExact2 k1' k2' k3' q') := by degree

include hu h1 h2 h3 hq in
theorem g2tExact3_deg : Deg u 0 (g2tExact3 k1 k2 k3 q) (g2tExact3 k1' k2' k3' q') := by degree

include hu h1 h2 h3 hq in
theorem g2tExact4_deg : Deg u 0 (g2tExact4 k1 k2 k3 q) (g2tExact4 k1' k2' k3' q') := by degree

include hu h1 h2 h3 hq in
theorem g2tExact5_deg : Deg u 0 (g2tExact5 k1 k2 k3 q) (g2tExact5 k1' k2' k3' q') := by degree

include hu h1 h2 h3 hq in
theorem g2tExact6_deg : Deg u 0 (g2tExact6 k1 k2 k3 q) (g2tExact6 k1' k2' k3' q') := by degree

include hu h1 h2 h3 hq in
theorem g2tHighkE_deg : Deg u 0 (g2tHighkE k1 k2 k3 q) (g2tHighkE k1' k2' k3' q') := by degree

include hu h1 h2 h3 hq in
theorem g2tLowkE_deg : Deg u 0 (g2tLowkE k1 k2 k3 q) (g2tLowkE k1' k2' k3' q') := by degree

include hu h1 h2 hq in
theorem g2tColl0_deg : Deg u 0 (g2tColl0 k1 k2 eps q) (g2tColl0 k1' k2' eps q') := by degree

include hu h1 h2 hq in
theorem g2tColl1_deg : Deg u 0 (g2tColl1 k1 k2 eps q) (g2tColl1 k1' k2' eps q') := by degree

include hu h1 h2 hq in
theorem g2tColl2_deg : Deg u 0 (g2tColl2 k1 k2 eps q) (g2tColl2 k1' k2' eps q') := by degree

include hu h1 h2 h3 hq in
theorem g2tPoly0_deg : Deg u 28 (g2tPoly0 k1 k2 k3 q) (g2tPoly0 k1' k2' k3' q') := by degree

include hu h1 h2 h3 hq in
theorem g2tPoly1_deg : Deg u 28 (g2tPoly1 k1 k2 k3 q) (g2tPoly1 k1' k2' k3' q') := by degree

include hu h1 h2 h3 hq in
theorem g2tPoly2_deg : Deg u 28 (g2tPoly2 k1 k2 k3 q) (g2tPoly2 k1' k2' k3' q') := by degree

include hu h1 h2 h3 hq in
theorem g2tPoly3_deg : Deg u 28 (g2tPoly3 k1 k2 k3 q) (g2tPoly3 k1' k2' k3' q') := by degree

include hu h1 h2 h3 hq in
theorem g2tPoly4_deg : Deg u 28 (g2tPoly4 k1 k2 k3 q) (g2tPoly4 k1' k2' k3' q') := by degree

include hu h1 h2 h3 hq in
theorem g2tPoly5_deg : Deg u 28 (g2tPoly5 k1 k2 k3 q) (g2tPoly5 k1' k2' k3' q') := by degree

include hu h1 h2 h3 hq in
theorem g2tPoly6_deg : Deg u 28 (g2tPoly6 k1 k2 k3 q) (g2tPoly6 k1' k2' k3' q') := by degree

include hu h1 h2 h3 hq in
theorem g2tPoly7_deg : Deg u 28 (g2tPoly7 k1 k2 k3 q) (g2tPoly7 k1' k2' k3' q') := by degree

include hu h1 h2 h3 hq in
theorem g2tPoly8_deg : Deg u 28 (g2tPoly8 k1 k2 k3 q) (g2tPoly8 k1' k2' k3' q') := by degree

include hu h1 h2 h3 hq in
theorem g2tPoly9_deg : Deg u 28 (g2tPoly9 k1 k2 k3 q) (g2tPoly9 k1' k2' k3' q') := by degree

include hu h1 h2 h3 hq in
theorem g2tPoly10_deg : Deg u 28 (g2tPoly10 k1 k2 k3 q) (g2tPoly10 k1' k2' k3' q') := by degree

include hu h1 h2 h3 hq in
theorem g2tPoly11_deg : Deg u 28 (g2tPoly11 k1 k2 k3 q) (g2tPoly11 k1' k2' k3' q') := by degree

include hu h1 h2 h3 hq in
theorem g2tPoly12_deg : Deg u 28 (g2tPoly12 k1 k2 k3 q) (g2tPoly12 k1' k2' k3' q') := by degree

include hu h1 h2 h3 hq in
theorem g2tPoly13_deg : Deg u 28 (g2tPoly13 k1 k2 k3 q) (g2tPoly13 k1' k2' k3' q') := by degree

include hu h1 h2 h3 hq in
theorem g2tPoly14_deg : Deg u 28 (g2tPoly14 k1 k2 k3 q) (g2tPoly14 k1' k2' k3' q') := by degree

include hu h1 h2 h3 hq in
theorem g2tPoly15_deg : Deg u 28 (g2tPoly15 k1 k2 k3 q) (g2tPoly15 k1' k2' k3' q') := by degree

include hu h1 h2 h3 hq in
theorem g2tPoly16_deg : Deg u 28 (g2tPoly16 k1 k2 k3 q) (g2tPoly16 k1' k2' k3' q') := by degree

include hu h1 h2 h3 hq in
theorem g2tBeta0_deg : Deg u 0 (g2tBeta0 k1 k2 k3 q) (g2tBeta0 k1' k2' k3' q') := by degree

include hu h1 h2 h3 hq in
theorem g2tBeta1_deg : Deg u 0 (g2tBeta1 k1 k2 k3 q) (g2tBeta1 k1' k2' k3' q') := by degree

include hu h1 h2 h3 hq in
theorem g2tBeta2_deg : Deg u 0 (g2tBeta2 k1 k2 k3 q) (g2tBeta2 k1' k2' k3' q') := by degree

include hu h1 h2 h3 hq in
theorem g2tBeta3_deg : Deg u 0 (g2tBeta3 k1 k2 k3 q) (g2tBeta3 k1' k2' k3' q') := by degree

include hu h1 h2 h3 hq in
theorem g2tBeta4_deg : Deg u 0 (g2tBeta4 k1 k2 k3 q) (g2tBeta4 k1' k2' k3' q') := by degree

include hu h1 h2 h3 hq in
theorem g2tDen_deg : Deg u 28 (g2tDen k1 k2 k3 q) (g2tDen k1' k2' k3' q') := by degree

end

/-! ## The kernels -/

section

variable {u : ℝ} (hu : 0 < u) (k1 k2 k3 q : ℝ)

include hu

theorem ratio_unit (a b : ℝ) : u * a / (u * b) = a / b := mul_div_mul_left _ _ hu.ne'

theorem g2dHighk_unit : g2dHighk (u * k1) (u * k2) (u * k3) (u * q) = g2dHighk k1 k2 k3 q :=
  (g2dHighkE_deg hu (pw_deg hu k1) (pw_deg hu k2) (pw_deg hu k3) (pw_deg hu q)).eq

theorem g2dLowk_unit : g2dLowk (u * k1) (u * k2) (u * k3) (u * q) = g2dLowk k1 k2 k3 q :=
  (g2dLowkE_deg hu (pw_deg hu k1) (pw_deg hu k2) (pw_deg hu k3) (pw_deg hu q)).eq

theorem g2dElongate_unit : g2dElongate (u * k1) (u * k2) (u * k3) (u * q) = g2dElongate k1 k2 k3 q := by
  unfold g2dElongate
  simp only [mul_lt_mul_iff_right₀ hu, ratio_unit hu]
  split
  · exact (g2dElongateE_deg hu (pw_deg hu k1) (pw_deg hu k3) (pw_deg hu q)).eq
  · exact (g2dElongateE_deg hu (pw_deg hu k2) (pw_deg hu k3) (pw_deg hu q)).eq

theorem g2dColl_unit : g2dColl (u * k1) (u * k2) (u * k3) (u * q) = g2dColl k1 k2 k3 q := by
  unfold g2dColl
  rw [ratio_unit hu, (g2dColl0_deg hu (pw_deg hu k1) (pw_deg hu k2) (pw_deg hu q)).eq,
    (g2dColl1_deg hu (pw_deg hu k1) (pw_deg hu k2) (pw_deg hu q)).eq,
    (g2dColl2_deg hu (pw_deg hu k1) (pw_deg hu k2) (pw_deg hu q)).eq]

theorem g2dExact_unit : g2dExact (u * k1) (u * k2) (u * k3) (u * q) = g2dExact k1 k2 k3 q := by
  unfold g2dExact
  rw [(g2dExact1_deg hu (pw_deg hu k1) (pw_deg hu k2) (pw_deg hu k3) (pw_deg hu q)).eq,
    (g2dExact2_deg hu (pw_deg hu k1) (pw_deg hu k2) (pw_deg hu k3) (pw_deg hu q)).eq,
    (g2dExact3_deg hu (pw_deg hu k1) (pw_deg hu k2) (pw_deg hu k3) (pw_deg hu q)).eq,
    (g2dExact4_deg hu (pw_deg hu k1) (pw_deg hu k2) (pw_deg hu k3) (pw_deg hu q)).eq,
    (g2dExact5_deg hu (pw_deg hu k1) (pw_deg hu k2) (pw_deg hu k3) (pw_deg hu q)).eq]

theorem g2dReg3rd_unit : g2dReg3rd (u * k1) (u * k2) (u * k3) (u * q) = g2dReg3rd k1 k2 k3 q := by
  have hd := g2dDen_deg hu (pw_deg hu k1) (pw_deg hu k2) (pw_deg hu k3) (pw_deg hu q)
  have e : ∀ {x y z w : ℝ}, Deg u 28 x y → Deg u 28 z w → y / w = x / z := fun h h' => (Deg.div u hu _ _ 0 _ _ _ _ h h' rfl).eq
  unfold g2dReg3rd
  rw [e (g2dPoly0_deg hu (pw_deg hu k1) (pw_deg hu k2) (pw_deg hu k3) (pw_deg hu q)) hd,
    e (g2dPoly1_deg hu (pw_deg hu k1) (pw_deg hu k2) (pw_deg hu k3) (pw_deg hu q)) hd,
    e (g2dPoly2_deg hu (pw_deg hu k1) (pw_deg hu k2) (pw_deg hu k3) (pw_deg hu q)) hd,
    e (g2dPoly3_deg hu (pw_deg hu k1) (pw_deg hu k2) (pw_deg hu k3) (pw_deg hu q)) hd,
    e (g2dPoly4_deg hu (pw_deg hu k1) (pw_deg hu k2) (pw_deg hu k3) (pw_deg hu q)) hd,
    e (g2dPoly5_deg hu (pw_deg hu k1) (pw_deg hu k2) (pw_deg hu k3) (pw_deg hu q)) hd,
    e (g2dPoly6_deg hu (pw_deg hu k1) (pw_deg hu k2) (pw_deg hu k3) (pw_deg hu q)) hd,
    e (g2dPoly7_deg hu (pw_deg hu k1) (pw_deg hu k2) (pw_deg hu k3) (pw_deg hu q)) hd,
    e (g2dPoly8_deg hu (pw_deg hu k1) (pw_deg hu k2) (pw_deg hu k3) (pw_deg hu q)) hd,
    e (g2dPoly9_deg hu (pw_deg hu k1) (pw_deg hu k2) (pw_deg hu k3) (pw_deg hu q)) hd,
    e (g2dPoly10_deg hu (pw_deg hu k1) (pw_deg hu k2) (pw_deg hu k3) (pw_deg hu q)) hd,
    e (g2dPoly11_deg hu (pw_deg hu k1) (pw_deg hu k2) (pw_deg hu k3) (pw_deg hu q)) hd,
    e (g2dPoly12_deg hu (pw_deg hu k1) (pw_deg hu k2) (pw_deg hu k3) (pw_deg hu q)) hd,
    (g2dBeta0_deg hu (pw_deg hu k1) (pw_deg hu k2) (pw_deg hu k3) (pw_deg hu q)).eq,
    (g2dBeta1_deg hu (pw_deg hu k1) (pw_deg hu k2) (pw_deg hu k3) (pw_deg hu q)).eq,
    (g2dBeta2_deg hu (pw_deg hu k1) (pw_deg hu k2) (pw_deg hu k3) (pw_deg hu q)).eq,
    (g2dBeta3_deg hu (pw_deg hu k1) (pw_deg hu k2) (pw_deg hu k3) (pw_deg hu q)).eq,
    (g2dBeta4_deg hu (pw_deg hu k1) (pw_deg hu k2) (pw_deg hu k3) (pw_deg hu q)).eq]

theorem g2tHighk_unit : g2tHighk (u * k1) (u * k2) (u * k3) (u * q) = g2tHighk k1 k2 k3 q :=
  (g2tHighkE_deg hu (pw_deg hu k1) (pw_deg hu k2) (pw_deg hu k3) (pw_deg hu q)).eq

theorem g2tLowk_unit : g2tLowk (u * k1) (u * k2) (u * k3) (u * q) = g2tLowk k1 k2 k3 q :=
  (g2tLowkE_deg hu (pw_deg hu k1) (pw_deg hu k2) (pw_deg hu k3) (pw_deg hu q)).eq

theorem g2tElongate_unit : g2tElongate (u * k1) (u * k2) (u * k3) (u * q) = g2tElongate k1 k2 k3 q := by
  unfold g2tElongate
  simp only [mul_le_mul_iff_right₀ hu, ratio_unit hu]
  split
  · exact (g2tElongateE_deg hu (pw_deg hu k1) (pw_deg hu k3) (pw_deg hu q)).eq
  · exact (g2tElongateE_deg hu (pw_deg hu k2) (pw_deg hu k3) (pw_deg hu q)).eq

theorem g2tColl_unit : g2tColl (u * k1) (u * k2) (u * k3) (u * q) = g2tColl k1 k2 k3 q := by
  unfold g2tColl
  rw [ratio_unit hu, (g2tColl0_deg hu (pw_deg hu k1) (pw_deg hu k2) (pw_deg hu q)).eq,
    (g2tColl1_deg hu (pw_deg hu k1) (pw_deg hu k2) (pw_deg hu q)).eq,
    (g2tColl2_deg hu (pw_deg hu k1) (pw_deg hu k2) (pw_deg hu q)).eq]

theorem g2tExact_unit : g2tExact (u * k1) (u * k2) (u * k3) (u * q) = g2tExact k1 k2 k3 q := by
  unfold g2tExact
  rw [(g2tExact1_deg hu (pw_deg hu k1) (pw_deg hu k2) (pw_deg hu k3) (pw_deg hu q)).eq,
    (g2tExact2_deg hu (pw_deg hu k1) (pw_deg hu k2) (pw_deg hu k3) (pw_deg hu q)).eq,
    (g2tExact3_deg hu (pw_deg hu k1) (pw_deg hu k2) (pw_deg hu k3) (pw_deg hu q)).eq,
    (g2tExact4_deg hu (pw_deg hu k1) (pw_deg hu k2) (pw_deg hu k3) (pw_deg hu q)).eq,
    (g2tExact5_deg hu (pw_deg hu k1) (pw_deg hu k2) (pw_deg hu k3) (pw_deg hu q)).eq,
    (g2tExact6_deg hu (pw_deg hu k1) (pw_deg hu k2) (pw_deg hu k3) (pw_deg hu q)).eq]

theorem g2tReg3rd_unit : g2tReg3rd (u * k1) (u * k2) (u * k3) (u * q) = g2tReg3rd k1 k2 k3 q := by
  have hd := g2tDen_deg hu (pw_deg hu k1) (pw_deg hu k2) (pw_deg hu k3) (pw_deg hu q)
  have e : ∀ {x y z w : ℝ}, Deg u 28 x y → Deg u 28 z w → y / w = x / z := fun h h' => (Deg.div u hu _ _ 0 _ _ _ _ h h' rfl).eq
  unfold g2tReg3rd
  rw [e (g2tPoly0_deg hu (pw_deg hu k1) (pw_deg hu k2) (pw_deg hu k3) (pw_deg hu q)) hd,
    e (g2tPoly1_deg hu (pw_deg hu k1) (pw_deg hu k2) (pw_deg hu k3) (pw_deg hu q)) hd,
    e (g2tPoly2_deg hu (pw_deg hu k1) (pw_deg hu k2) (pw_deg hu k3) (pw_deg hu q)) hd,
    e (g2tPoly3_deg hu (pw_deg hu k1) (pw_deg hu k2) (pw_deg hu k3) (pw_deg hu q)) hd,
    e (g2tPoly4_deg hu (pw_deg hu k1) (pw_deg hu k2) (pw_deg hu k3) (pw_deg hu q)) hd,
    e (g2tPoly5_deg hu (pw_deg hu k1) (pw_deg hu k2) (pw_deg hu k3) (pw_deg hu q)) hd,
    e (g2tPoly6_deg hu (pw_deg hu k1) (pw_deg hu k2) (pw_deg hu k3) (pw_deg hu q)) hd,
    e (g2tPoly7_deg hu (pw_deg hu k1) (pw_deg hu k2) (pw_deg hu k3) (pw_deg hu q)) hd,
    e (g2tPoly8_deg hu (pw_deg hu k1) (pw_deg hu k2) (pw_deg hu k3) (pw_deg hu q)) hd,
    e (g2tPoly9_deg hu (pw_deg hu k1) (pw_deg hu k2) (pw_deg hu k3) (pw_deg hu q)) hd,
    e (g2tPoly10_deg hu (pw_deg hu k1) (pw_deg hu k2) (pw_deg hu k3) (pw_deg hu q)) hd,
    e (g2tPoly11_deg hu (pw_deg hu k1) (pw_deg hu k2) (pw_deg hu k3) (pw_deg hu q)) hd,
    e (g2tPoly12_deg hu (pw_deg hu k1) (pw_deg hu k2) (pw_deg hu k3) (pw_deg hu q)) hd,
    e (g2tPoly13_deg hu (pw_deg hu k1) (pw_deg hu k2) (pw_deg hu k3) (pw_deg hu q)) hd,
    e (g2tPoly14_deg hu (pw_deg hu k1) (pw_deg hu k2) (pw_deg hu k3) (pw_deg hu q)) hd,
    e (g2tPoly15_deg hu (pw_deg hu k1) (pw_deg hu k2) (pw_deg hu k3) (pw_deg hu q)) hd,
    e (g2tPoly16_deg hu (pw_deg hu k1) (pw_deg hu k2) (pw_deg hu k3) (pw_deg hu q)) hd,
    (g2tBeta0_deg hu (pw_deg hu k1) (pw_deg hu k2) (pw_deg hu k3) (pw_deg hu q)).eq,
    (g2tBeta1_deg hu (pw_deg hu k1) (pw_deg hu k2) (pw_deg hu k3) (pw_deg hu q)).eq,
    (g2tBeta2_deg hu (pw_deg hu k1) (pw_deg hu k2) (pw_deg hu k3) (pw_deg hu q)).eq,
    (g2tBeta3_deg hu (pw_deg hu k1) (pw_deg hu k2) (pw_deg hu k3) (pw_deg hu q)).eq,
    (g2tBeta4_deg hu (pw_deg hu k1) (pw_deg hu k2) (pw_deg hu k3) (pw_deg hu q)).eq]

theorem g2Branch_unit : g2Branch (u * k1) (u * k2) (u * k3) (u * q) = g2Branch k1 k2 k3 q := by
  have hmax : ∀ a b, rMax (u * a) (u * b) = u * rMax a b := by
    intro a b; unfold rMax; rw [apply_ite (u * ·)]; simp only [mul_lt_mul_iff_right₀ hu]
  have hmin : ∀ a b, rMin (u * a) (u * b) = u * rMin a b := by
    intro a b; unfold rMin; rw [apply_ite (u * ·)]; simp only [mul_lt_mul_iff_right₀ hu]
  have h3 : |u * k1 * (u * k1) - u * k3 * (u * k3)| < u * q * (u * q) ↔ |k1 * k1 - k3 * k3| < q * q := by
    rw [show u * k1 * (u * k1) - u * k3 * (u * k3) = u * u * (k1 * k1 - k3 * k3) by ring, abs_mul, abs_of_pos (mul_pos hu hu),
      show u * q * (u * q) = u * u * (q * q) by ring, mul_lt_mul_iff_right₀ (mul_pos hu hu)]
  have hc : ∀ c x y : ℝ, c * (u * x) < u * y ↔ c * x < y := fun c x y => by
    rw [mul_left_comm, mul_lt_mul_iff_right₀ hu]
  have hc' : ∀ c x y : ℝ, u * y < c * (u * x) ↔ y < c * x := fun c x y => by
    rw [mul_left_comm, mul_lt_mul_iff_right₀ hu]
  unfold g2Branch
  simp only [ratio_unit hu, rMax3, rMin3, hmax, hmin, h3, hc, hc']
  congr!

/-- The second-order loop kernels are dimensionless: they depend on ratios of wavenumbers only. -/
theorem kernelGamma2_unit (a : Field) : kernelGamma2 a (u * k1) (u * k2) (u * k3) (u * q) = kernelGamma2 a k1 k2 k3 q := by
  unfold kernelGamma2
  rw [g2Branch_unit hu]
  cases a <;> cases g2Branch k1 k2 k3 q <;> dsimp only [g2Eval]
  · exact g2dReg3rd_unit hu k1 k2 k3 q
  · exact g2dLowk_unit hu k1 k2 k3 q
  · exact g2dHighk_unit hu k1 k2 k3 q
  · exact g2dElongate_unit hu k1 k2 k3 q
  · exact g2dColl_unit hu k1 k2 k3 q
  · exact g2dExact_unit hu k1 k2 k3 q
  · exact g2tReg3rd_unit hu k1 k2 k3 q
  · exact g2tLowk_unit hu k1 k2 k3 q
  · exact g2tHighk_unit hu k1 k2 k3 q
  · exact g2tElongate_unit hu k1 k2 k3 q
  · exact g2tColl_unit hu k1 k2 k3 q
  · exact g2tExact_unit hu k1 k2 k3 q

end

end Verif
