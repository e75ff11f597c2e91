import Verif.Proofs.Gamma2Form

/-!
# The coefficients of the exact second-order kernels near `k1 = k2`

Written by `tools/gamma2iso.py`: the derivative in `k2` at `k2 = k1 = k` of each coefficient of `Verif.Proofs.Gamma2Form`.
-/

set_option linter.unusedVariables false

namespace Verif

noncomputable section

/-- A polynomial by Horner's rule. -/
def hor : List ℝ → ℝ → ℝ
  | [], _ => 0
  | c :: l, y => c + y * hor l y

/-- Its derivative. -/
def horD : List ℝ → ℝ → ℝ
  | [], _ => 0
  | _ :: l, y => hor l y + y * horD l y

theorem hor_deriv (l : List ℝ) (y : ℝ) : HasDerivAt (hor l) (horD l y) y := by
  induction l with
  | nil => exact hasDerivAt_const _ _
  | cons c l ih =>
    have h := ((hasDerivAt_id' y).fun_mul ih).const_add c
    rw [one_mul] at h
    exact h

theorem laurent_deriv (l : List ℝ) (s n : ℕ) (D k : ℝ) (hk : k ≠ 0) :
    HasDerivAt (fun x => hor l (x ^ 2) * x ^ s / (D * x ^ n))
      (((horD l (k ^ 2) * (2 * k) * k ^ s + hor l (k ^ 2) * (s * k ^ (s - 1))) * k - n * (hor l (k ^ 2) * k ^ s)) / (D * k ^ (n + 1))) k := by
  have h2 : HasDerivAt (fun x : ℝ => x ^ 2) (2 * k) k := by simpa using hasDerivAt_pow 2 k
  have hl : HasDerivAt (fun x => hor l (x ^ 2)) (horD l (k ^ 2) * (2 * k)) k := (hor_deriv l (k ^ 2)).comp k h2
  have hs := hl.fun_mul (hasDerivAt_pow s k)
  have hn := hs.fun_div (hasDerivAt_pow n k) (pow_ne_zero n hk)
  have hd := hn.div_const D
  refine (hd.congr_deriv ?_).congr_of_eventuallyEq (Filter.Eventually.of_forall fun x => ?_)
  · rcases eq_or_ne D 0 with rfl | hD
    · simp
    cases n with
    | zero => simp; field_simp
    | succ n => simp only [Nat.add_sub_cancel]; field_simp; ring
  · simp only; rw [div_div, mul_comm D]

/-- Derivative of `g2dC0` in `k2` at `k2 = k1`. -/
def g2dC0D (k k3 q : ℝ) : ℝ :=
  (10440*k^12*k3^4 - 5415*k^8*k3^8 - 420*k^6*k3^10 - 7560*k^12*k3^2*q^2 + 120370*k^8*k3^6*q^2 + 68910*k^6*k3^8*q^2 - 143794*k^8*k3^4*q^4 -
    87382*k^6*k3^6*q^4 - 27270*k^4*k3^8*q^4 + 47775*k^8*k3^2*q^6 + 136650*k^6*k3^4*q^6 + 69525*k^4*k3^6*q^6 - 1200*k^2*k3^8*q^6 -
    3780*k^6*k3^2*q^8 - 55080*k^4*k3^4*q^8 - 7560*k^8*q^8 - 2160*k^2*k3^6*q^8 + 12375*k3^8*q^8)/(776160*k^11*k3^2*q^4)

set_option maxHeartbeats 1000000 in
theorem g2dC0_deriv (k k3 q : ℝ) (hk : 0 < k) (h3 : 0 < k3) (hq : 0 < q) :
    HasDerivAt (fun x => g2dC0 (pw k) (pw x) (pw k3) (pw q)) (g2dC0D k k3 q) k := by
  refine ((laurent_deriv
    [2475*k^12*k3^4*q^8 - 7425*k^10*k3^6*q^8 + 7425*k^8*k3^8*q^8 - 2475*k^6*k3^10*q^8, -29235*k^12*k3^4*q^6 + 58770*k^10*k3^6*q^6 -
    29835*k^8*k3^8*q^6 + 300*k^6*k3^10*q^6 - 12825*k^10*k3^4*q^8 + 19710*k^8*k3^6*q^8 - 6885*k^6*k3^8*q^8, 58425*k^12*k3^4*q^4 -
    106440*k^10*k3^6*q^4 + 38925*k^8*k3^8*q^4 + 9090*k^6*k3^10*q^4 + 130410*k^10*k3^4*q^6 - 98490*k^8*k3^6*q^6 + 6660*k^6*k3^8*q^6 +
    7065*k^8*k3^4*q^8 + 6075*k^6*k3^6*q^8, 585*k^14*k3^4 - 12075*k^12*k3^6 + 5655*k^10*k3^8 + 5415*k^8*k3^10 + 420*k^6*k3^12 -
    27330*k^12*k3^4*q^2 + 222610*k^10*k3^6*q^2 - 120370*k^8*k3^8*q^2 - 68910*k^6*k3^10*q^2 + 3150*k^12*k3^2*q^4 - 419226*k^10*k3^4*q^4 +
    250234*k^8*k3^6*q^4 + 9532*k^6*k3^8*q^4 + 9090*k^4*k3^10*q^4 - 2835*k^12*q^6 + 54180*k^10*k3^2*q^6 - 148950*k^8*k3^4*q^6 -
    57210*k^6*k3^6*q^6 + 6660*k^4*k3^8*q^6 + 300*k^2*k3^10*q^6 - 11340*k^10*q^8 + 7560*k^8*k3^2*q^8 + 10350*k^6*k3^4*q^8 + 6075*k^4*k3^6*q^8
    - 6885*k^2*k3^8*q^8 - 2475*k3^10*q^8, -1350*k^12*k3^4 + 22515*k^10*k3^6 + 14100*k^8*k3^8 + 5415*k^6*k3^10 + 19770*k^10*k3^4*q^2 -
    455660*k^8*k3^6*q^2 - 120370*k^6*k3^8*q^2 - 3150*k^10*k3^2*q^4 + 740922*k^8*k3^4*q^4 + 250234*k^6*k3^6*q^4 + 38925*k^4*k3^8*q^4 +
    2835*k^10*q^6 - 100800*k^8*k3^2*q^6 - 148950*k^6*k3^4*q^6 - 98490*k^4*k3^6*q^6 - 29835*k^2*k3^8*q^6 + 22680*k^8*q^8 + 7560*k^6*k3^2*q^8
    + 7065*k^4*k3^4*q^8 + 19710*k^2*k3^6*q^8 + 7425*k3^8*q^8, 1530*k^10*k3^4 + 22515*k^8*k3^6 + 5655*k^6*k3^8 + 19770*k^8*k3^4*q^2 +
    222610*k^6*k3^6*q^2 - 3150*k^8*k3^2*q^4 - 419226*k^6*k3^4*q^4 - 106440*k^4*k3^6*q^4 + 2835*k^8*q^6 + 54180*k^6*k3^2*q^6 +
    130410*k^4*k3^4*q^6 + 58770*k^2*k3^6*q^6 - 11340*k^6*q^8 - 12825*k^2*k3^4*q^8 - 7425*k3^6*q^8, -1350*k^8*k3^4 - 12075*k^6*k3^6 -
    27330*k^6*k3^4*q^2 + 3150*k^6*k3^2*q^4 + 58425*k^4*k3^4*q^4 - 2835*k^6*q^6 - 29235*k^2*k3^4*q^6 + 2475*k3^4*q^8, 585*k^6*k3^4]
    0 8 (1552320*k^8*k3^4*q^4) k hk.ne').congr_deriv ?_).congr_of_eventuallyEq (Filter.Eventually.of_forall fun x => ?_)
  · simp only [hor, horD, g2dC0D]
    rw [div_eq_div_iff (by positivity) (by positivity)]
    push_cast
    ring
  · simp only [g2dC0, hor, pw]
    congr 1 <;> ring

/-- Derivative of `g2dCL1` in `k2` at `k2 = k1`. -/
def g2dCL1D (k k3 q : ℝ) : ℝ :=
  (-996*k^16 - 158*k^14*k3^2 + 601*k^12*k3^4 + 151*k^10*k3^6 + 4476*k^14*q^2 + 3780*k^12*k3^2*q^2 - 1023*k^10*k3^4*q^2 - 33*k^8*k3^6*q^2 -
    8196*k^12*q^4 - 11292*k^10*k3^2*q^4 - 78*k^8*k3^4*q^4 - 642*k^6*k3^6*q^4 + 7692*k^10*q^6 + 12776*k^8*k3^2*q^6 + 362*k^6*k3^4*q^6 +
    614*k^4*k3^6*q^6 - 3720*k^8*q^8 - 6006*k^6*k3^2*q^8 + 597*k^4*k3^4*q^8 + 75*k^2*k3^6*q^8 + 744*k^6*q^10 + 900*k^4*k3^2*q^10 -
    459*k^2*k3^4*q^10 - 165*k3^6*q^10)/(206976*k^12*q^5)

theorem g2dCL1_deriv (k k3 q : ℝ) (hk : 0 < k) (h3 : 0 < k3) (hq : 0 < q) :
    HasDerivAt (fun x => g2dCL1 (pw k) (pw x) (pw k3) (pw q)) (g2dCL1D k k3 q) k := by
  refine ((laurent_deriv
    [-39*k^16 + 791*k^14*k3^2 - 601*k^12*k3^4 - 151*k^10*k3^6 + 2025*k^14*q^2 - 3369*k^12*k3^2*q^2 + 1023*k^10*k3^4*q^2 + 33*k^8*k3^6*q^2 -
    5622*k^12*q^4 + 5478*k^10*k3^2*q^4 + 78*k^8*k3^4*q^4 + 642*k^6*k3^6*q^4 + 5106*k^10*q^6 - 4418*k^8*k3^2*q^6 - 362*k^6*k3^4*q^6 -
    614*k^4*k3^6*q^6 - 1251*k^8*q^8 + 1923*k^6*k3^2*q^8 - 597*k^4*k3^4*q^8 - 75*k^2*k3^6*q^8 - 219*k^6*q^10 - 405*k^4*k3^2*q^10 +
    459*k^2*k3^4*q^10 + 165*k3^6*q^10, 582*k^14 - 2120*k^12*k3^2 - 390*k^10*k3^4 - 8055*k^12*q^2 + 3482*k^10*k3^2*q^2 + 389*k^8*k3^4*q^2 +
    21648*k^10*q^4 + 3772*k^8*k3^2*q^4 + 1556*k^6*k3^4*q^4 - 21930*k^8*q^6 - 10824*k^6*k3^2*q^6 - 3214*k^4*k3^4*q^6 + 8226*k^6*q^8 +
    7004*k^4*k3^2*q^8 + 2154*k^2*k3^4*q^8 - 471*k^4*q^10 - 1314*k^2*k3^2*q^10 - 495*k3^4*q^10, -51*k^12 + 633*k^10*k3^2 + 6567*k^10*q^2 +
    411*k^8*k3^2*q^2 - 20250*k^8*q^4 - 5814*k^6*k3^2*q^4 + 21858*k^6*q^6 + 8358*k^4*k3^2*q^6 - 8979*k^4*q^8 - 4083*k^2*k3^2*q^8 +
    855*k^2*q^10 + 495*k3^2*q^10, -492*k^10 - 33*k^8*q^2 + 3216*k^6*q^4 - 4530*k^4*q^6 + 2004*k^2*q^8 - 165*q^10]
    0 2 (413952*k^9*q^5) k hk.ne').congr_deriv ?_).congr_of_eventuallyEq (Filter.Eventually.of_forall fun x => ?_)
  · simp only [hor, horD, g2dCL1D]
    rw [div_eq_div_iff (by positivity) (by positivity)]
    push_cast
    ring
  · simp only [g2dCL1, hor, pw]
    congr 1 <;> ring

/-- Derivative of `g2dCL2` in `k2` at `k2 = k1`. -/
def g2dCL2D (k k3 q : ℝ) : ℝ :=
  (1992*k^16 - 1772*k^14*k3^2 - 2193*k^12*k3^4 - 151*k^10*k3^6 - 7440*k^14*q^2 - 7036*k^12*k3^2*q^2 + 634*k^10*k3^4*q^2 - 33*k^8*k3^6*q^2 +
    15384*k^12*q^4 + 19148*k^10*k3^2*q^4 - 4746*k^8*k3^4*q^4 - 1926*k^6*k3^6*q^4 - 15888*k^10*q^6 - 4900*k^8*k3^2*q^6 + 17156*k^6*k3^4*q^6 +
    3070*k^4*k3^6*q^6 + 7440*k^8*q^8 - 12208*k^6*k3^2*q^8 - 12093*k^4*k3^4*q^8 + 525*k^2*k3^6*q^8 - 1488*k^6*q^10 + 6768*k^4*k3^2*q^10 +
    1242*k^2*k3^4*q^10 - 1485*k3^6*q^10)/(413952*k^12*q^5)

theorem g2dCL2_deriv (k k3 q : ℝ) (hk : 0 < k) (h3 : 0 < k3) (hq : 0 < q) :
    HasDerivAt (fun x => g2dCL2 (pw k) (pw x) (pw k3) (pw q)) (g2dCL2D k k3 q) k := by
  refine ((laurent_deriv
    [-165*k^6*q^10 + 495*k^4*k3^2*q^10 - 495*k^2*k3^4*q^10 + 165*k3^6*q^10, 2004*k^6*q^8 - 4083*k^4*k3^2*q^8 + 2154*k^2*k3^4*q^8 -
    75*k3^6*q^8 + 855*k^4*q^10 - 1314*k^2*k3^2*q^10 + 459*k3^4*q^10, -4530*k^6*q^6 + 8358*k^4*k3^2*q^6 - 3214*k^2*k3^4*q^6 - 614*k3^6*q^6 -
    8979*k^4*q^8 + 7004*k^2*k3^2*q^8 - 597*k3^4*q^8 - 471*k^2*q^10 - 405*k3^2*q^10, 3216*k^6*q^4 - 5814*k^4*k3^2*q^4 + 1556*k^2*k3^4*q^4 +
    642*k3^6*q^4 + 21858*k^4*q^6 - 10824*k^2*k3^2*q^6 - 362*k3^4*q^6 + 8226*k^2*q^8 + 1923*k3^2*q^8 - 219*q^10, -33*k^6*q^2 +
    411*k^4*k3^2*q^2 + 389*k^2*k3^4*q^2 + 33*k3^6*q^2 - 20250*k^4*q^4 + 3772*k^2*k3^2*q^4 + 78*k3^4*q^4 - 21930*k^2*q^6 - 4418*k3^2*q^6 -
    1251*q^8, -492*k^6 + 633*k^4*k3^2 - 390*k^2*k3^4 - 151*k3^6 + 6567*k^4*q^2 + 3482*k^2*k3^2*q^2 + 1023*k3^4*q^2 + 21648*k^2*q^4 +
    5478*k3^2*q^4 + 5106*q^6, -51*k^4 - 2120*k^2*k3^2 - 601*k3^4 - 8055*k^2*q^2 - 3369*k3^2*q^2 - 5622*q^4, 582*k^2 + 791*k3^2 + 2025*q^2,
    -39]
    0 9 (413952*k^2*q^5) k hk.ne').congr_deriv ?_).congr_of_eventuallyEq (Filter.Eventually.of_forall fun x => ?_)
  · simp only [hor, horD, g2dCL2D]
    rw [div_eq_div_iff (by positivity) (by positivity)]
    push_cast
    ring
  · simp only [g2dCL2, hor, pw]
    congr 1 <;> ring

/-- Derivative of `g2dCL3` in `k2` at `k2 = k1`. -/
def g2dCL3D (k k3 q : ℝ) : ℝ :=
  (-16*k^6*k3^6 + 30*k^2*k3^10 + 4*k3^12 - 56*k^6*k3^4*q^2 + 13*k^2*k3^8*q^2 + 14*k3^10*q^2 + 72*k^6*k3^2*q^4 - 363*k^2*k3^6*q^4 -
    14*k3^8*q^4 + 727*k^2*k3^4*q^6 + 6*k3^6*q^6 - 479*k^2*k3^2*q^8 - 46*k3^4*q^8 + 72*k^2*q^10 + 36*k3^2*q^10)/(29568*k^5*k3^3*q^5)

theorem g2dCL3_deriv (k k3 q : ℝ) (hk : 0 < k) (h3 : 0 < k3) (hq : 0 < q) :
    HasDerivAt (fun x => g2dCL3 (pw k) (pw x) (pw k3) (pw q)) (g2dCL3D k k3 q) k := by
  refine ((laurent_deriv
    [2*k^6*k3^8 + 32*k^4*k3^10 - 30*k^2*k3^12 - 4*k3^14 + 11*k^6*k3^6*q^2 - 13*k^2*k3^10*q^2 - 14*k3^12*q^2 - k^6*k3^4*q^4 -
    432*k^4*k3^6*q^4 + 363*k^2*k3^8*q^4 + 14*k3^10*q^4 - 39*k^6*k3^2*q^6 + 844*k^4*k3^4*q^6 - 727*k^2*k3^6*q^6 - 6*k3^8*q^6 + 27*k^6*q^8 -
    552*k^4*k3^2*q^8 + 479*k^2*k3^4*q^8 + 46*k3^6*q^8 + 108*k^4*q^10 - 72*k^2*k3^2*q^10 - 36*k3^4*q^10, -18*k^4*k3^8 - 64*k^2*k3^10 -
    30*k3^12 - 67*k^4*k3^6*q^2 + 48*k^2*k3^8*q^2 - 13*k3^10*q^2 + 73*k^4*k3^4*q^4 + 1048*k^2*k3^6*q^4 + 363*k3^8*q^4 + 39*k^4*k3^2*q^6 -
    1848*k^2*k3^4*q^6 - 727*k3^6*q^6 - 27*k^4*q^8 + 1032*k^2*k3^2*q^8 + 479*k3^4*q^8 - 216*k^2*q^10 - 72*k3^2*q^10, -18*k^2*k3^8 + 32*k3^10
    - 67*k^2*k3^6*q^2 + 73*k^2*k3^4*q^4 - 432*k3^6*q^4 + 39*k^2*k3^2*q^6 + 844*k3^4*q^6 - 27*k^2*q^8 - 552*k3^2*q^8 + 108*q^10, 2*k3^8 +
    11*k3^6*q^2 - k3^4*q^4 - 39*k3^2*q^6 + 27*q^8]
    0 2 (59136*k^2*k3^5*q^5) k hk.ne').congr_deriv ?_).congr_of_eventuallyEq (Filter.Eventually.of_forall fun x => ?_)
  · simp only [hor, horD, g2dCL3D]
    rw [div_eq_div_iff (by positivity) (by positivity)]
    push_cast
    ring
  · simp only [g2dCL3, hor, pw]
    congr 1 <;> ring

/-- Derivative of `g2dCW1` in `k2` at `k2 = k1`. -/
def g2dCW1D (k k3 q : ℝ) : ℝ :=
  (3*k^8*k3^3 - 6*k^6*k3^3*q^2 + 6*k^2*k3^3*q^6 - 3*k3^3*q^8)/(2156*k^5*q^5)

theorem g2dCW1_deriv (k k3 q : ℝ) (hk : 0 < k) (h3 : 0 < k3) (hq : 0 < q) :
    HasDerivAt (fun x => g2dCW1 (pw k) (pw x) (pw k3) (pw q)) (g2dCW1D k k3 q) k := by
  refine ((laurent_deriv
    [3*k^4*k3^3*q^4 - 6*k^2*k3^3*q^6 + 3*k3^3*q^8, -6*k^4*k3^3*q^2 + 12*k^2*k3^3*q^4 - 6*k3^3*q^6, 3*k^4*k3^3 - 6*k^2*k3^3*q^2 + 3*k3^3*q^4]
    0 2 (4312*k^2*q^5) k hk.ne').congr_deriv ?_).congr_of_eventuallyEq (Filter.Eventually.of_forall fun x => ?_)
  · simp only [hor, horD, g2dCW1D]
    rw [div_eq_div_iff (by positivity) (by positivity)]
    push_cast
    ring
  · simp only [g2dCW1, hor, pw]
    congr 1 <;> ring

/-- Derivative of `g2dCW2` in `k2` at `k2 = k1`. -/
def g2dCW2D (k k3 q : ℝ) : ℝ :=
  (2*k^4*k3^4 + 7*k^4*k3^2*q^2 - 4*k^2*k3^4*q^2 - 9*k^4*q^4 - 14*k^2*k3^2*q^4 + 2*k3^4*q^4 + 18*k^2*q^6 + 7*k3^2*q^6 - 9*q^8)/(7392*k^2*q^5)

theorem g2dCW2_deriv (k k3 q : ℝ) (hk : 0 < k) (h3 : 0 < k3) (hq : 0 < q) :
    HasDerivAt (fun x => g2dCW2 (pw k) (pw x) (pw k3) (pw q)) (g2dCW2D k k3 q) k := by
  refine ((laurent_deriv
    [2*k^4*k3^4 + 7*k^4*k3^2*q^2 - 4*k^2*k3^4*q^2 - 9*k^4*q^4 - 14*k^2*k3^2*q^4 + 2*k3^4*q^4 + 18*k^2*q^6 + 7*k3^2*q^6 - 9*q^8]
    1 0 (7392*k^2*q^5) k hk.ne').congr_deriv ?_).congr_of_eventuallyEq (Filter.Eventually.of_forall fun x => ?_)
  · simp only [hor, horD, g2dCW2D]
    rw [div_eq_div_iff (by positivity) (by positivity)]
    push_cast
    ring
  · simp only [g2dCW2, hor, pw]
    congr 1 <;> ring

/-- Derivative of `g2dCW3` in `k2` at `k2 = k1`. -/
def g2dCW3D (k k3 q : ℝ) : ℝ :=
  (2*k^4*k3^4 + 7*k^4*k3^2*q^2 - 9*k^4*q^4 - 2*k3^4*q^4 - 7*k3^2*q^6 + 9*q^8)/(3696*k^2*q^5)

theorem g2dCW3_deriv (k k3 q : ℝ) (hk : 0 < k) (h3 : 0 < k3) (hq : 0 < q) :
    HasDerivAt (fun x => g2dCW3 (pw k) (pw x) (pw k3) (pw q)) (g2dCW3D k k3 q) k := by
  refine ((laurent_deriv
    [2*k^1*k3^4*q^4 + 7*k^1*k3^2*q^6 - 9*k^1*q^8, -4*k^1*k3^4*q^2 - 14*k^1*k3^2*q^4 + 18*k^1*q^6, 2*k^1*k3^4 + 7*k^1*k3^2*q^2 - 9*k^1*q^4]
    0 2 (7392*q^5) k hk.ne').congr_deriv ?_).congr_of_eventuallyEq (Filter.Eventually.of_forall fun x => ?_)
  · simp only [hor, horD, g2dCW3D]
    rw [div_eq_div_iff (by positivity) (by positivity)]
    push_cast
    ring
  · simp only [g2dCW3, hor, pw]
    congr 1 <;> ring

/-- Derivative of `g2tC0` in `k2` at `k2 = k1`. -/
def g2tC0D (k k3 q : ℝ) : ℝ :=
  (840*k^12*k3^4 - 17535*k^8*k3^8 - 1680*k^6*k3^10 - 2520*k^12*k3^2*q^2 + 81190*k^8*k3^6*q^2 + 133850*k^6*k3^8*q^2 + 5272*k^8*k3^4*q^4 +
    193586*k^6*k3^6*q^4 - 96870*k^4*k3^8*q^4 + 9765*k^8*k3^2*q^6 + 35430*k^6*k3^4*q^6 - 71865*k^4*k3^6*q^6 + 49760*k^2*k3^8*q^6 -
    1260*k^6*k3^2*q^8 - 18360*k^4*k3^4*q^8 - 2520*k^8*q^8 - 720*k^2*k3^6*q^8 + 4125*k3^8*q^8)/(776160*k^11*k3^2*q^4)

set_option maxHeartbeats 1000000 in
theorem g2tC0_deriv (k k3 q : ℝ) (hk : 0 < k) (h3 : 0 < k3) (hq : 0 < q) :
    HasDerivAt (fun x => g2tC0 (pw k) (pw x) (pw k3) (pw q)) (g2tC0D k k3 q) k := by
  refine ((laurent_deriv
    [825*k^12*k3^4*q^8 - 2475*k^10*k3^6*q^8 + 2475*k^8*k3^8*q^8 - 825*k^6*k3^10*q^8, -9745*k^12*k3^4*q^6 + 7050*k^10*k3^6*q^6 +
    15135*k^8*k3^8*q^6 - 12440*k^6*k3^10*q^6 - 4275*k^10*k3^4*q^8 + 6570*k^8*k3^6*q^8 - 2295*k^6*k3^8*q^8, 19475*k^12*k3^4*q^4 -
    1380*k^10*k3^6*q^4 - 50385*k^8*k3^8*q^4 + 32290*k^6*k3^10*q^4 + 43470*k^10*k3^4*q^6 - 22710*k^8*k3^6*q^6 + 8820*k^6*k3^8*q^6 +
    2355*k^8*k3^4*q^8 + 2025*k^6*k3^6*q^8, 195*k^14*k3^4 - 29655*k^12*k3^6 + 10245*k^10*k3^8 + 17535*k^8*k3^10 + 1680*k^6*k3^12 -
    6030*k^12*k3^4*q^2 + 245070*k^10*k3^6*q^2 - 81190*k^8*k3^8*q^2 - 133850*k^6*k3^10*q^2 - 1260*k^12*k3^2*q^4 - 93542*k^10*k3^4*q^4 -
    3892*k^8*k3^6*q^4 - 92816*k^6*k3^8*q^4 + 32290*k^4*k3^10*q^4 - 945*k^12*q^6 + 8820*k^10*k3^2*q^6 - 43490*k^8*k3^4*q^6 -
    4110*k^6*k3^6*q^6 + 8820*k^4*k3^8*q^6 - 12440*k^2*k3^10*q^6 - 3780*k^10*q^8 + 2520*k^8*k3^2*q^8 + 3450*k^6*k3^4*q^8 + 2025*k^4*k3^6*q^8
    - 2295*k^2*k3^8*q^8 - 825*k3^10*q^8, -450*k^12*k3^4 + 30495*k^10*k3^6 + 18780*k^8*k3^8 + 17535*k^6*k3^10 + 3510*k^10*k3^4*q^2 -
    505060*k^8*k3^6*q^2 - 81190*k^6*k3^8*q^2 + 1260*k^10*k3^2*q^4 + 160734*k^8*k3^4*q^4 - 3892*k^6*k3^6*q^4 - 50385*k^4*k3^8*q^4 +
    945*k^10*q^6 - 15120*k^8*k3^2*q^6 - 43490*k^6*k3^4*q^6 - 22710*k^4*k3^6*q^6 + 15135*k^2*k3^8*q^6 + 7560*k^8*q^8 + 2520*k^6*k3^2*q^8 +
    2355*k^4*k3^4*q^8 + 6570*k^2*k3^6*q^8 + 2475*k3^8*q^8, 510*k^10*k3^4 + 30495*k^8*k3^6 + 10245*k^6*k3^8 + 3510*k^8*k3^4*q^2 +
    245070*k^6*k3^6*q^2 + 1260*k^8*k3^2*q^4 - 93542*k^6*k3^4*q^4 - 1380*k^4*k3^6*q^4 + 945*k^8*q^6 + 8820*k^6*k3^2*q^6 + 43470*k^4*k3^4*q^6
    + 7050*k^2*k3^6*q^6 - 3780*k^6*q^8 - 4275*k^2*k3^4*q^8 - 2475*k3^6*q^8, -450*k^8*k3^4 - 29655*k^6*k3^6 - 6030*k^6*k3^4*q^2 -
    1260*k^6*k3^2*q^4 + 19475*k^4*k3^4*q^4 - 945*k^6*q^6 - 9745*k^2*k3^4*q^6 + 825*k3^4*q^8, 195*k^6*k3^4]
    0 8 (1552320*k^8*k3^4*q^4) k hk.ne').congr_deriv ?_).congr_of_eventuallyEq (Filter.Eventually.of_forall fun x => ?_)
  · simp only [hor, horD, g2tC0D]
    rw [div_eq_div_iff (by positivity) (by positivity)]
    push_cast
    ring
  · simp only [g2tC0, hor, pw]
    congr 1 <;> ring

/-- Derivative of `g2tCL1` in `k2` at `k2 = k1`. -/
def g2tCL1D (k k3 q : ℝ) : ℝ :=
  (-332*k^16 - 2722*k^14*k3^2 + 1579*k^12*k3^4 + 329*k^10*k3^6 + 1492*k^14*q^2 + 8036*k^12*k3^2*q^2 - 4917*k^10*k3^4*q^2 - 11*k^8*k3^6*q^2 -
    2732*k^12*q^4 - 8076*k^10*k3^2*q^4 + 5430*k^8*k3^4*q^4 - 1886*k^6*k3^6*q^4 + 2564*k^10*q^6 + 3232*k^8*k3^2*q^6 - 2578*k^6*k3^4*q^6 +
    2434*k^4*k3^6*q^6 - 1240*k^8*q^8 - 770*k^6*k3^2*q^8 + 639*k^4*k3^4*q^8 - 811*k^2*k3^6*q^8 + 248*k^6*q^10 + 300*k^4*k3^2*q^10 -
    153*k^2*k3^4*q^10 - 55*k3^6*q^10)/(206976*k^12*q^5)

theorem g2tCL1_deriv (k k3 q : ℝ) (hk : 0 < k) (h3 : 0 < k3) (hq : 0 < q) :
    HasDerivAt (fun x => g2tCL1 (pw k) (pw x) (pw k3) (pw q)) (g2tCL1D k k3 q) k := by
  refine ((laurent_deriv
    [-13*k^16 + 1921*k^14*k3^2 - 1579*k^12*k3^4 - 329*k^10*k3^6 + 675*k^14*q^2 - 6755*k^12*k3^2*q^2 + 4917*k^10*k3^4*q^2 + 11*k^8*k3^6*q^2 -
    1874*k^12*q^4 + 7722*k^10*k3^2*q^4 - 5430*k^8*k3^4*q^4 + 1886*k^6*k3^6*q^4 + 1702*k^10*q^6 - 2998*k^8*k3^2*q^6 + 2578*k^6*k3^4*q^6 -
    2434*k^4*k3^6*q^6 - 417*k^8*q^8 + 245*k^6*k3^2*q^8 - 639*k^4*k3^4*q^8 + 811*k^2*k3^6*q^8 - 73*k^6*q^10 - 135*k^4*k3^2*q^10 +
    153*k^2*k3^4*q^10 + 55*k3^6*q^10, 194*k^14 - 1176*k^12*k3^2 - 306*k^10*k3^4 - 2685*k^12*q^2 + 5766*k^10*k3^2*q^2 + 1919*k^8*k3^4*q^2 +
    7216*k^10*q^4 - 7220*k^8*k3^2*q^4 - 4204*k^6*k3^4*q^4 - 7310*k^8*q^6 + 1408*k^6*k3^2*q^6 + 3710*k^4*k3^4*q^6 + 2742*k^6*q^8 +
    1660*k^4*k3^2*q^8 - 954*k^2*k3^4*q^8 - 157*k^4*q^10 - 438*k^2*k3^2*q^10 - 165*k3^4*q^10, -17*k^12 - 801*k^10*k3^2 + 2189*k^10*q^2 +
    1281*k^8*k3^2*q^2 - 6750*k^8*q^4 - 354*k^6*k3^2*q^4 + 7286*k^6*q^6 + 234*k^4*k3^2*q^6 - 2993*k^4*q^8 - 525*k^2*k3^2*q^8 + 285*k^2*q^10 +
    165*k3^2*q^10, -164*k^10 - 11*k^8*q^2 + 1072*k^6*q^4 - 1510*k^4*q^6 + 668*k^2*q^8 - 55*q^10]
    0 2 (413952*k^9*q^5) k hk.ne').congr_deriv ?_).congr_of_eventuallyEq (Filter.Eventually.of_forall fun x => ?_)
  · simp only [hor, horD, g2tCL1D]
    rw [div_eq_div_iff (by positivity) (by positivity)]
    push_cast
    ring
  · simp only [g2tCL1, hor, pw]
    congr 1 <;> ring

/-- Derivative of `g2tCL2` in `k2` at `k2 = k1`. -/
def g2tCL2D (k k3 q : ℝ) : ℝ :=
  (664*k^16 + 5276*k^14*k3^2 - 5043*k^12*k3^4 - 329*k^10*k3^6 - 2480*k^14*q^2 - 15780*k^12*k3^2*q^2 + 2998*k^10*k3^4*q^2 - 11*k^8*k3^6*q^2 +
    5128*k^12*q^4 + 16004*k^10*k3^2*q^4 + 18042*k^8*k3^4*q^4 - 5658*k^6*k3^6*q^4 - 5296*k^10*q^6 - 2396*k^8*k3^2*q^6 - 26284*k^6*k3^4*q^6 +
    12170*k^4*k3^6*q^6 + 2480*k^8*q^8 - 5360*k^6*k3^2*q^8 + 9873*k^4*k3^4*q^8 - 5677*k^2*k3^6*q^8 - 496*k^6*q^10 + 2256*k^4*k3^2*q^10 +
    414*k^2*k3^4*q^10 - 495*k3^6*q^10)/(413952*k^12*q^5)

theorem g2tCL2_deriv (k k3 q : ℝ) (hk : 0 < k) (h3 : 0 < k3) (hq : 0 < q) :
    HasDerivAt (fun x => g2tCL2 (pw k) (pw x) (pw k3) (pw q)) (g2tCL2D k k3 q) k := by
  refine ((laurent_deriv
    [-55*k^6*q^10 + 165*k^4*k3^2*q^10 - 165*k^2*k3^4*q^10 + 55*k3^6*q^10, 668*k^6*q^8 - 525*k^4*k3^2*q^8 - 954*k^2*k3^4*q^8 + 811*k3^6*q^8 +
    285*k^4*q^10 - 438*k^2*k3^2*q^10 + 153*k3^4*q^10, -1510*k^6*q^6 + 234*k^4*k3^2*q^6 + 3710*k^2*k3^4*q^6 - 2434*k3^6*q^6 - 2993*k^4*q^8 +
    1660*k^2*k3^2*q^8 - 639*k3^4*q^8 - 157*k^2*q^10 - 135*k3^2*q^10, 1072*k^6*q^4 - 354*k^4*k3^2*q^4 - 4204*k^2*k3^4*q^4 + 1886*k3^6*q^4 +
    7286*k^4*q^6 + 1408*k^2*k3^2*q^6 + 2578*k3^4*q^6 + 2742*k^2*q^8 + 245*k3^2*q^8 - 73*q^10, -11*k^6*q^2 + 1281*k^4*k3^2*q^2 +
    1919*k^2*k3^4*q^2 + 11*k3^6*q^2 - 6750*k^4*q^4 - 7220*k^2*k3^2*q^4 - 5430*k3^4*q^4 - 7310*k^2*q^6 - 2998*k3^2*q^6 - 417*q^8, -164*k^6 -
    801*k^4*k3^2 - 306*k^2*k3^4 - 329*k3^6 + 2189*k^4*q^2 + 5766*k^2*k3^2*q^2 + 4917*k3^4*q^2 + 7216*k^2*q^4 + 7722*k3^2*q^4 + 1702*q^6,
    -17*k^4 - 1176*k^2*k3^2 - 1579*k3^4 - 2685*k^2*q^2 - 6755*k3^2*q^2 - 1874*q^4, 194*k^2 + 1921*k3^2 + 675*q^2, -13]
    0 9 (413952*k^2*q^5) k hk.ne').congr_deriv ?_).congr_of_eventuallyEq (Filter.Eventually.of_forall fun x => ?_)
  · simp only [hor, horD, g2tCL2D]
    rw [div_eq_div_iff (by positivity) (by positivity)]
    push_cast
    ring
  · simp only [g2tCL2, hor, pw]
    congr 1 <;> ring

/-- Derivative of `g2tCL3` in `k2` at `k2 = k1`. -/
def g2tCL3D (k k3 q : ℝ) : ℝ :=
  (-64*k^6*k3^6 + 120*k^2*k3^10 + 16*k3^12 + 40*k^6*k3^4*q^2 - 443*k^2*k3^8*q^2 - 10*k3^10*q^2 + 24*k^6*k3^2*q^4 + 561*k^2*k3^6*q^4 +
    10*k3^8*q^4 - 161*k^2*k3^4*q^6 - 42*k3^6*q^6 - 101*k^2*k3^2*q^8 + 14*k3^4*q^8 + 24*k^2*q^10 + 12*k3^2*q^10)/(29568*k^5*k3^3*q^5)

theorem g2tCL3_deriv (k k3 q : ℝ) (hk : 0 < k) (h3 : 0 < k3) (hq : 0 < q) :
    HasDerivAt (fun x => g2tCL3 (pw k) (pw x) (pw k3) (pw q)) (g2tCL3D k k3 q) k := by
  refine ((laurent_deriv
    [8*k^6*k3^8 + 128*k^4*k3^10 - 120*k^2*k3^12 - 16*k3^14 + 11*k^6*k3^6*q^2 - 528*k^4*k3^8*q^2 + 443*k^2*k3^10*q^2 + 10*k3^12*q^2 -
    37*k^6*k3^4*q^4 + 648*k^4*k3^6*q^4 - 561*k^2*k3^8*q^4 - 10*k3^10*q^4 + 9*k^6*k3^2*q^6 - 188*k^4*k3^4*q^6 + 161*k^2*k3^6*q^6 +
    42*k3^8*q^6 + 9*k^6*q^8 - 96*k^4*k3^2*q^8 + 101*k^2*k3^4*q^8 - 14*k3^6*q^8 + 36*k^4*q^10 - 24*k^2*k3^2*q^10 - 12*k3^4*q^10, -72*k^4*k3^8
    - 256*k^2*k3^10 - 120*k3^12 + 29*k^4*k3^6*q^2 + 1248*k^2*k3^8*q^2 + 443*k3^10*q^2 + 61*k^4*k3^4*q^4 - 1352*k^2*k3^6*q^4 - 561*k3^8*q^4 -
    9*k^4*k3^2*q^6 + 264*k^2*k3^4*q^6 + 161*k3^6*q^6 - 9*k^4*q^8 + 168*k^2*k3^2*q^8 + 101*k3^4*q^8 - 72*k^2*q^10 - 24*k3^2*q^10,
    -72*k^2*k3^8 + 128*k3^10 + 29*k^2*k3^6*q^2 - 528*k3^8*q^2 + 61*k^2*k3^4*q^4 + 648*k3^6*q^4 - 9*k^2*k3^2*q^6 - 188*k3^4*q^6 - 9*k^2*q^8 -
    96*k3^2*q^8 + 36*q^10, 8*k3^8 + 11*k3^6*q^2 - 37*k3^4*q^4 + 9*k3^2*q^6 + 9*q^8]
    0 2 (59136*k^2*k3^5*q^5) k hk.ne').congr_deriv ?_).congr_of_eventuallyEq (Filter.Eventually.of_forall fun x => ?_)
  · simp only [hor, horD, g2tCL3D]
    rw [div_eq_div_iff (by positivity) (by positivity)]
    push_cast
    ring
  · simp only [g2tCL3, hor, pw]
    congr 1 <;> ring

/-- Derivative of `g2tCW1` in `k2` at `k2 = k1`. -/
def g2tCW1D (k k3 q : ℝ) : ℝ :=
  (3*k^8*k3^3 - 6*k^6*k3^3*q^2 + 6*k^2*k3^3*q^6 - 3*k3^3*q^8)/(539*k^5*q^5)

theorem g2tCW1_deriv (k k3 q : ℝ) (hk : 0 < k) (h3 : 0 < k3) (hq : 0 < q) :
    HasDerivAt (fun x => g2tCW1 (pw k) (pw x) (pw k3) (pw q)) (g2tCW1D k k3 q) k := by
  refine ((laurent_deriv
    [3*k^4*k3^3*q^4 - 6*k^2*k3^3*q^6 + 3*k3^3*q^8, -6*k^4*k3^3*q^2 + 12*k^2*k3^3*q^4 - 6*k3^3*q^6, 3*k^4*k3^3 - 6*k^2*k3^3*q^2 + 3*k3^3*q^4]
    0 2 (1078*k^2*q^5) k hk.ne').congr_deriv ?_).congr_of_eventuallyEq (Filter.Eventually.of_forall fun x => ?_)
  · simp only [hor, horD, g2tCW1D]
    rw [div_eq_div_iff (by positivity) (by positivity)]
    push_cast
    ring
  · simp only [g2tCW1, hor, pw]
    congr 1 <;> ring

/-- Derivative of `g2tCW2` in `k2` at `k2 = k1`. -/
def g2tCW2D (k k3 q : ℝ) : ℝ :=
  (8*k^4*k3^4 - 5*k^4*k3^2*q^2 - 16*k^2*k3^4*q^2 - 3*k^4*q^4 + 10*k^2*k3^2*q^4 + 8*k3^4*q^4 + 6*k^2*q^6 - 5*k3^2*q^6 - 3*q^8)/(7392*k^2*q^5)

theorem g2tCW2_deriv (k k3 q : ℝ) (hk : 0 < k) (h3 : 0 < k3) (hq : 0 < q) :
    HasDerivAt (fun x => g2tCW2 (pw k) (pw x) (pw k3) (pw q)) (g2tCW2D k k3 q) k := by
  refine ((laurent_deriv
    [8*k^4*k3^4 - 5*k^4*k3^2*q^2 - 16*k^2*k3^4*q^2 - 3*k^4*q^4 + 10*k^2*k3^2*q^4 + 8*k3^4*q^4 + 6*k^2*q^6 - 5*k3^2*q^6 - 3*q^8]
    1 0 (7392*k^2*q^5) k hk.ne').congr_deriv ?_).congr_of_eventuallyEq (Filter.Eventually.of_forall fun x => ?_)
  · simp only [hor, horD, g2tCW2D]
    rw [div_eq_div_iff (by positivity) (by positivity)]
    push_cast
    ring
  · simp only [g2tCW2, hor, pw]
    congr 1 <;> ring

/-- Derivative of `g2tCW3` in `k2` at `k2 = k1`. -/
def g2tCW3D (k k3 q : ℝ) : ℝ :=
  (8*k^4*k3^4 - 5*k^4*k3^2*q^2 - 3*k^4*q^4 - 8*k3^4*q^4 + 5*k3^2*q^6 + 3*q^8)/(3696*k^2*q^5)

theorem g2tCW3_deriv (k k3 q : ℝ) (hk : 0 < k) (h3 : 0 < k3) (hq : 0 < q) :
    HasDerivAt (fun x => g2tCW3 (pw k) (pw x) (pw k3) (pw q)) (g2tCW3D k k3 q) k := by
  refine ((laurent_deriv
    [8*k^1*k3^4*q^4 - 5*k^1*k3^2*q^6 - 3*k^1*q^8, -16*k^1*k3^4*q^2 + 10*k^1*k3^2*q^4 + 6*k^1*q^6, 8*k^1*k3^4 - 5*k^1*k3^2*q^2 - 3*k^1*q^4]
    0 2 (7392*q^5) k hk.ne').congr_deriv ?_).congr_of_eventuallyEq (Filter.Eventually.of_forall fun x => ?_)
  · simp only [hor, horD, g2tCW3D]
    rw [div_eq_div_iff (by positivity) (by positivity)]
    push_cast
    ring
  · simp only [g2tCW3, hor, pw]
    congr 1 <;> ring

/-- The part of `kernel_gamma2d_iso` without logarithms (`src/gamma2d_1loop.c:139-205`), without the factor `π`. -/
def g2dI0 (k e k3 q : ℝ) : ℝ :=
  ((-60)*e*(k - q)*q*(k + q)*(165*k3^6*q^6 + k^10*((-696)*k3^2 + 504*q^2) - k^8*(991*k3^4 + 868*k3^2*q^2) + k^6*((-151)*k3^6 - 570*k3^4*q^2
    + 2396*k3^2*q^4) + k^4*((-269)*k3^6*q^2 + 1485*k3^4*q^4 - 1224*k3^2*q^6) + 3*k^2*(85*k3^6*q^4 - 12*k3^4*q^6))/k^10 + 8*q*(420*e*(k^2 -
    q^2)*(k^2 - q^2)*(2*k3^4 + 7*k3^2*q^2 - 9*q^4)/(k^2*k3^2 - k3^2*q^2 + q^4) + 2160*e*k3^4*(-k^2 + q^2)^3/(k^2*(k^4 - 2*k^2*q^2 + k3^2*q^2
    + q^4)) + ((-420)*e*k^12*k3^2*(k^2 - q^2)*(2*k3^4 + 7*k3^2*q^2 - 9*q^4) + (k^2*k3^2 - k3^2*q^2 + q^4)*(2475*(-1 + 5*e)*k3^8*q^8 + 360*(1
    + e)*k^12*k3^2*(29*k3^2 - 21*q^2) - 60*(-1 + 4*e)*k^2*k3^6*q^6*(5*k3^2 + 9*q^2) - 45*(-1 + 3*e)*k^4*k3^4*q^4*(202*k3^4 - 515*k3^2*q^2 +
    408*q^4) + 15*k^10*(847*k3^6 - 348*k3^4*q^2 + 644*k3^2*q^4 + 252*q^6) - (-1 + 2*e)*k^6*k3^2*(210*k3^8 - 34455*k3^6*q^2 + 43691*k3^4*q^4
    - 68325*k3^2*q^6 + 1890*q^8) - (-1 + e)*k^8*(5415*k3^8 - 120370*k3^6*q^2 + 143794*k3^4*q^4 - 47775*k3^2*q^6 +
    7560*q^8)))/(k^10*k3^2*(k^2*k3^2 - k3^2*q^2 + q^4))))/(6.20928e6*q^5)

/-- The part of `kernel_gamma2d_iso` with `LFunc(k1,q)` (`src/gamma2d_1loop.c:139-205`), without the factor `π`. -/
def g2dI1 (k e k3 q : ℝ) : ℝ :=
  (15*(165*(2 - 11*e)*k3^6*q^10 - 24*(2 + 3*e)*k^14*(29*k3^2 - 21*q^2) + 3*(-2 + 9*e)*k^2*k3^4*q^8*(25*k3^2 + 12*q^2) - (-2 +
    3*e)*k^8*k3^2*q^2*(33*k3^4 + 1634*k3^2*q^2 - 6884*q^4) - (2 + e)*k^12*(991*k3^4 - 524*k3^2*q^2 + 1008*q^4) + (-2 +
    7*e)*k^4*k3^2*q^6*(614*k3^4 - 1557*k3^2*q^2 + 1224*q^4) - 2*(-2 + 5*e)*k^6*k3^2*q^4*(321*k3^4 - 1788*k3^2*q^2 + 2422*q^4) + (-2 +
    e)*k^10*(151*k3^6 - 1412*k3^4*q^2 - 3436*k3^2*q^4 - 504*q^6))/k^11)/(6.20928e6*q^5)

/-- The part of `kernel_gamma2d_iso` with `LFunc(k3,q)` (`src/gamma2d_1loop.c:139-205`), without the factor `π`. -/
def g2dI3 (k e k3 q : ℝ) : ℝ :=
  (-210*(2*k3^4 + 7*k3^2*q^2 - 9*q^4)*(8*(1 + e)*k^6*k3^2 - 4*k^4*(3*k3^2*q^2 + q^4) - (-1 + e)*k^2*(15*k3^6 - 46*k3^4*q^2 + 47*k3^2*q^4 -
    8*q^6) - (-1 + 2*e)*k3^2*(k3^6 + k3^2*q^4 - 2*q^6))/(k^4*k3^3))/(6.20928e6*q^5)

/-- The part of `kernel_gamma2d_iso` with the logarithm of `WFunc(k1,k3,k1,q)` over its square root (`src/gamma2d_1loop.c:139-205`), without the factor `π`. -/
def g2dIS (k e k3 q : ℝ) : ℝ :=
  (840*(-k + q)*(k + q)*((-2)*k3^4 - 7*k3^2*q^2 + 9*q^4)*(2*(1 + e)*k^4*k3^2 + (-2 + e)*q^4*(-k3^2 + q^2) + k^2*q^2*(-((4 + e)*k3^2) + (2 +
    3*e)*q^2))/(k*(k^2*k3^2 - k3^2*q^2 + q^4)))/(6.20928e6*q^5)

/-- The part of `kernel_gamma2d_iso` with the logarithm of `WFunc(k1,k1,k3,q)` over its square root (`src/gamma2d_1loop.c:139-205`), without the factor `π`. -/
def g2dIT (k e k3 q : ℝ) : ℝ :=
  (4320*k3^3*(k^2 - q^2)^3*((1 + e)*k^6 - 3*k^4*q^2 + (-1 + 2*e)*q^4*(k3^2 + q^2) + k^2*q^2*((1 + 2*e)*k3^2 - 3*(-1 + e)*q^2))/(k^4*(k^4 -
    2*k^2*q^2 + k3^2*q^2 + q^4)))/(6.20928e6*q^5)

/-- The part of `kernel_gamma2t_iso` without logarithms (`src/gamma2t_1loop.c:124-188`), without the factor `π`. -/
def g2tI0 (k e k3 q : ℝ) : ℝ :=
  ((-60)*e*(k - q)*q*(k + q)*(55*k3^6*q^6 - 56*k^10*(k3^2 - 3*q^2) - 5*k^8*(377*k3^4 - 36*k3^2*q^2) + k^6*((-329)*k3^6 + 3066*k3^4*q^2 +
    564*k3^2*q^4) - k^4*(647*k3^6*q^2 + 1617*k3^4*q^4 + 408*k3^2*q^6) + 3*k^2*(307*k3^6*q^4 - 4*k3^4*q^6))/k^10 + 8*q*(8640*e*k3^4*(-k^2 +
    q^2)^3/(k^2*(k^4 - 2*k^2*q^2 + k3^2*q^2 + q^4)) - 420*e*(k^2 - q^2)*(k^2 - q^2)*((-8)*k3^4 + 5*k3^2*q^2 + 3*q^4)/(k^2*k3^2 - k3^2*q^2 +
    q^4) + ((-420)*e*k^12*k3^2*(k - q)*(k3 - q)*(k + q)*(k3 + q)*(8*k3^2 + 3*q^2) + (k^2*k3^2 - k3^2*q^2 + q^4)*(825*(-1 + 5*e)*k3^8*q^8 +
    20*(-1 + 4*e)*k^2*k3^6*q^6*(622*k3^2 - 9*q^2) + 840*(1 + e)*k^12*k3^2*(k3^2 - 3*q^2) - 5*(-1 + 3*e)*k^4*k3^4*q^4*(6458*k3^4 +
    4791*k3^2*q^2 + 1224*q^4) + 5*k^10*(3927*k3^6 - 1492*k3^4*q^2 + 1260*k3^2*q^4 + 252*q^6) - (-1 + 2*e)*k^6*k3^2*(840*k3^8 -
    66925*k3^6*q^2 - 96793*k3^4*q^4 - 17715*k3^2*q^6 + 630*q^8) - (-1 + e)*k^8*(17535*k3^8 - 81190*k3^6*q^2 - 5272*k3^4*q^4 - 9765*k3^2*q^6
    + 2520*q^8)))/(k^10*k3^2*(k^2*k3^2 - k3^2*q^2 + q^4))))/(6.20928e6*q^5)

/-- The part of `kernel_gamma2t_iso` with `LFunc(k1,q)` (`src/gamma2t_1loop.c:124-188`), without the factor `π`. -/
def g2tI1 (k e k3 q : ℝ) : ℝ :=
  (15*(55*(2 - 11*e)*k3^6*q^10 - (-2 + 9*e)*k^2*k3^4*q^8*(811*k3^2 - 12*q^2) - 56*(2 + 3*e)*k^14*(k3^2 - 3*q^2) - (-2 +
    3*e)*k^8*k3^2*q^2*(11*k3^4 - 9634*k3^2*q^2 - 1356*q^4) - (2 + e)*k^12*(1885*k3^4 - 292*k3^2*q^2 + 336*q^4) + (-2 +
    7*e)*k^4*k3^2*q^6*(2434*k3^4 + 1593*k3^2*q^2 + 408*q^4) - 2*(-2 + 5*e)*k^6*k3^2*q^4*(943*k3^4 + 3144*k3^2*q^2 + 690*q^4) + (-2 +
    e)*k^10*(329*k3^6 - 6836*k3^4*q^2 - 148*k3^2*q^4 - 168*q^6))/k^11)/(6.20928e6*q^5)

/-- The part of `kernel_gamma2t_iso` with `LFunc(k3,q)` (`src/gamma2t_1loop.c:124-188`), without the factor `π`. -/
def g2tI3 (k e k3 q : ℝ) : ℝ :=
  (-210*(k3 - q)*(k3 + q)*(8*k3^2 + 3*q^2)*(8*(1 + e)*k^6*k3^2 - 4*k^4*(3*k3^2*q^2 + q^4) - (-1 + e)*k^2*(15*k3^6 - 46*k3^4*q^2 +
    47*k3^2*q^4 - 8*q^6) - (-1 + 2*e)*k3^2*(k3^6 + k3^2*q^4 - 2*q^6))/(k^4*k3^3))/(6.20928e6*q^5)

/-- The part of `kernel_gamma2t_iso` with the logarithm of `WFunc(k1,k3,k1,q)` over its square root, with the factor `k1` outside the power (`src/gamma2t_1loop.c:124-188`), without the factor `π`. -/
def g2tIS (k e k3 q : ℝ) : ℝ :=
  (840*(-k^2 + q^2)*((-8)*k3^4 + 5*k3^2*q^2 + 3*q^4)*(2*(1 + e)*k^4*k3^2 + (-2 + e)*q^4*(-k3^2 + q^2) + k^2*q^2*(-((4 + e)*k3^2) + (2 +
    3*e)*q^2))/(k*(k^2*k3^2 - k3^2*q^2 + q^4)))/(6.20928e6*q^5)

/-- The part of `kernel_gamma2t_iso` with the logarithm of `WFunc(k1,k1,k3,q)` over its square root (`src/gamma2t_1loop.c:124-188`), without the factor `π`. -/
def g2tIT (k e k3 q : ℝ) : ℝ :=
  (17280*k3^3*(k^2 - q^2)^3*((1 + e)*k^6 - 3*k^4*q^2 + (-1 + 2*e)*q^4*(k3^2 + q^2) + k^2*q^2*((1 + 2*e)*k3^2 - 3*(-1 + e)*q^2))/(k^4*(k^4 -
    2*k^2*q^2 + k3^2*q^2 + q^4)))/(6.20928e6*q^5)

end

end Verif
