import Verif.Props.Kernels
import Verif.Props.Powers
import Verif.Model.Terms
import Mathlib.Geometry.Euclidean.PerpBisector
import Mathlib.MeasureTheory.Measure.Lebesgue.EqHaar
import Mathlib.MeasureTheory.Measure.Haar.OfBasis
import Mathlib.MeasureTheory.Measure.Haar.InnerProductSpace
import Mathlib.MeasureTheory.Group.Integral
import Mathlib.MeasureTheory.Measure.Haar.Unique
import Mathlib.MeasureTheory.Integral.Bochner.Set

/-!
# Redshift-space kernels: half-plane symmetry (C26)

The exchange `q <-> k-q` in the variables of the code: `y = |k-q|/k`, `nu = k.(k-q)/(k|k-q|)`.  The volume element is
`x^2 dx dmu`; the quadratures use `x w` (A, B) or `x^3 w` (second order, bias) with `w` the weight in `log x`, so the density is
`kernel/x^2` or `kernel`.
-/

namespace Verif

/-- `y`, `nu` describe `k-q` when `x`, `mu` describe `q` (lengths in units of `k`). -/
structure Exchanged (x mu y nu : ℝ) : Prop where
  x_pos : 0 < x
  y_pos : 0 < y
  len : y ^ 2 = 1 + x ^ 2 - 2 * mu * x
  proj : y * nu = 1 - x * mu

/-- The exchange is an involution. -/
theorem Exchanged.symm {x mu y nu : ℝ} (h : Exchanged x mu y nu) : Exchanged y nu x mu where
  x_pos := h.y_pos
  y_pos := h.x_pos
  len := by have := h.len; have := h.proj; nlinarith
  proj := by have := h.proj; linarith

example : Exchanged 1 (1 / 2) 1 (1 / 2) := ⟨by norm_num, by norm_num, by norm_num, by norm_num⟩
example : Exchanged (3 / 5) 0 (Real.sqrt (34 / 25)) (1 / Real.sqrt (34 / 25)) := by
  have h : (0 : ℝ) < Real.sqrt (34 / 25) := Real.sqrt_pos.mpr (by norm_num)
  exact ⟨by norm_num, h, by rw [Real.sq_sqrt (by norm_num)]; norm_num, by field_simp; norm_num⟩

/-- The B densities as functions of `X = x^2` and `m = x mu`. -/
noncomputable def densB (X m : ℝ) : Fin 12 → ℝ :=
  let Y := 1 + X - 2 * m
  let s := m ^ 2 - X
  ![s / 2 / X / Y, 3 * s ^ 2 / 8 / X ^ 2 / Y, 3 * s ^ 2 / 8 / X / Y ^ 2, 5 * s ^ 3 / 16 / X ^ 2 / Y ^ 2,
    (X + 2 * m - 3 * m ^ 2) / 2 / X / Y, -3 * s * (-X - 2 * m + 5 * m ^ 2) / 4 / X ^ 2 / Y,
    3 * s * (-2 + X + 6 * m - 5 * m ^ 2) / 4 / X / Y ^ 2,
    -3 * s ^ 2 * (6 * X - 5 * X ^ 2 - 30 * X * m + 35 * X * m ^ 2) / 16 / X ^ 3 / Y ^ 2,
    (4 * m * (3 * X - 5 * m ^ 2) + (3 * X ^ 2 - 30 * X * m ^ 2 + 35 * m ^ 4)) / 8 / X ^ 2 / Y,
    (-8 * m + (-12 * X + 36 * m ^ 2 + 12 * m * (3 * X - 5 * m ^ 2) + (3 * X ^ 2 - 30 * X * m ^ 2 + 35 * m ^ 4))) / 8 / X / Y ^ 2,
    3 * s * (-8 * m + (-12 * X + 60 * m ^ 2 + 20 * m * (3 * X - 7 * m ^ 2) + 5 * (X ^ 2 - 14 * X * m ^ 2 + 21 * m ^ 4)))
      / 16 / X ^ 2 / Y ^ 2,
    (8 * m * (-3 * X + 5 * m ^ 2) - 6 * (3 * X ^ 2 - 30 * X * m ^ 2 + 35 * m ^ 4)
      + 6 * m * (15 * X ^ 2 - 70 * X * m ^ 2 + 63 * m ^ 4)
      + (5 * X ^ 3 - 105 * X ^ 2 * m ^ 2 + 315 * X * m ^ 4 - 231 * m ^ 6)) / 16 / X ^ 2 / Y ^ 2]

theorem kB_densB (x mu : ℝ) (hx : x ≠ 0) (hy : 1 + x ^ 2 - 2 * mu * x ≠ 0) (i : Fin 12) :
    kB (pw x) (pw mu) i / x ^ 2 = densB (x ^ 2) (x * mu) i := by
  have e : 1 + x ^ 2 - 2 * (x * mu) = 1 + x ^ 2 - 2 * mu * x := by ring
  unfold kB densB
  simp only [pw, C01_power, e, pow_one]
  generalize 1 + x ^ 2 - 2 * mu * x = Y at *
  fin_cases i <;> (simp; field_simp; try ring)

/-- C26: the densities of the nine B columns are unchanged by exchanging `q` and `k-q`, for arbitrary spectra. -/
theorem C26_B (x mu y nu : ℝ) (h : Exchanged x mu y nu) (dtQ ttQ dtR ttR : ℝ) (c : Fin 9) :
    columnsB (fun i => kB (pw x) (pw mu) i * specB dtQ ttQ dtR ttR i) c / x ^ 2 =
      columnsB (fun i => kB (pw y) (pw nu) i * specB dtR ttR dtQ ttQ i) c / y ^ 2 := by
  have hx := h.x_pos.ne'
  have hy := h.y_pos.ne'
  have e1 : ∀ i, kB (pw x) (pw mu) i = densB (x ^ 2) (x * mu) i * x ^ 2 := fun i => by
    rw [← kB_densB x mu hx (by rw [← h.len]; positivity) i]; field_simp
  have e2 : ∀ i, kB (pw y) (pw nu) i = densB (y ^ 2) (y * nu) i * y ^ 2 := fun i => by
    rw [← kB_densB y nu hy (by rw [← h.symm.len]; positivity) i]; field_simp
  simp only [e1, e2]
  rw [h.proj]
  have hX : x ^ 2 ≠ 0 := by positivity
  have hY : y ^ 2 ≠ 0 := by positivity
  have hl : y ^ 2 = 1 + x ^ 2 - 2 * (x * mu) := by rw [h.len]; ring
  have hl2 : x ^ 2 = y ^ 2 - 1 + 2 * (x * mu) := by rw [h.len]; ring
  have hr : 1 + y ^ 2 - 2 * (1 - x * mu) = x ^ 2 := by rw [h.len]; ring
  unfold densB columnsB specB
  simp only [hr, ← hl]
  generalize y ^ 2 = Y at *
  generalize x ^ 2 = X at *
  generalize x * mu = m at *
  subst hl2
  fin_cases c <;> simp <;> field_simp <;> ring

/-- The A projection densities as functions of `X = x^2` and `m = x mu`. -/
noncomputable def densA (X m : ℝ) : Fin 6 → ℝ :=
  let Y := 1 + X - 2 * m
  let a1 := -(3 * m - 2) * (m ^ 2 - X) / Y / 2 / X
  let a2 := (2 * m + (2 * X - 6 * m ^ 2) + (-3 * X * m + 5 * m ^ 3)) / Y / 2 / X
  ![m / X, a1, a2, m / X, a1, a2]

/-- The tA projection densities as functions of `X = x^2` and `m = x mu`. -/
noncomputable def denstA (X m : ℝ) : Fin 6 → ℝ :=
  let Y := 1 + X - 2 * m
  let a1 := (3 * m - 1) * (m ^ 2 - X) / Y / 2 / X
  let a2 := (-X + 3 * X * m + 3 * m ^ 2 - 5 * m ^ 3) / Y / 2 / X
  ![-(m - 1) / Y, a1, a2, -(m - 1) / Y, a1, a2]

theorem projA_densA (x mu : ℝ) (hx : x ≠ 0) (hy : 1 + x ^ 2 - 2 * mu * x ≠ 0) (i : Fin 6) :
    projA x mu i = densA (x ^ 2) (x * mu) i * x ^ 2 ∧ projtA x mu i = denstA (x ^ 2) (x * mu) i * x ^ 2 := by
  have e : 1 + x ^ 2 - 2 * (x * mu) = 1 + x ^ 2 - 2 * mu * x := by ring
  have e' : 1 + x * x - 2 * mu * x = 1 + x ^ 2 - 2 * mu * x := by ring
  unfold projA projtA densA denstA
  simp only [e, e']
  generalize 1 + x ^ 2 - 2 * mu * x = Y at *
  constructor <;> fin_cases i <;> simp <;> field_simp <;> ring

/-- C26: the densities of the five two-loop A columns are unchanged by exchanging `q` and `k-q`, given a bispectrum whose A and
tA parts are exchanged (C28). -/
theorem C26_A (x mu y nu : ℝ) (h : Exchanged x mu y nu) (a t : Fin 4 → ℝ) (c : Fin 5) :
    columnsA2 (assembleA2 x mu ⟨a, t⟩) c / x ^ 3 = columnsA2 (assembleA2 y nu ⟨t, a⟩) c / y ^ 3 := by
  have hx := h.x_pos.ne'
  have hy := h.y_pos.ne'
  have e1 := projA_densA x mu hx (by rw [← h.len]; positivity)
  have e2 := projA_densA y nu hy (by rw [← h.symm.len]; positivity)
  have hX : x ^ 2 ≠ 0 := by positivity
  have hY : y ^ 2 ≠ 0 := by positivity
  have hl : y ^ 2 = 1 + x ^ 2 - 2 * (x * mu) := by rw [h.len]; ring
  have hl2 : x ^ 2 = y ^ 2 - 1 + 2 * (x * mu) := by rw [h.len]; ring
  have hr : 1 + y ^ 2 - 2 * (1 - x * mu) = x ^ 2 := by rw [h.len]; ring
  have key : ∀ i, densA (x ^ 2) (x * mu) i = denstA (y ^ 2) (y * nu) i ∧ denstA (x ^ 2) (x * mu) i = densA (y ^ 2) (y * nu) i := by
    intro i
    rw [h.proj]
    unfold densA denstA
    simp only [hr, ← hl]
    generalize y ^ 2 = Y at *
    generalize x ^ 2 = X at *
    generalize x * mu = m at *
    subst hl2
    constructor <;> fin_cases i <;> simp <;> field_simp <;> ring
  unfold columnsA2 assembleA2
  simp only [(e1 _).1, (e1 _).2, (e2 _).1, (e2 _).2, (key _).1, (key _).2]
  fin_cases c <;> simp <;> field_simp <;> ring

/-- C26: the second-order kernel is unchanged by exchanging the two internal wavenumbers. -/
theorem C26_gamma2_tree (a : Field) (k1 k2 k3 : ℝ) : gamma2Tree a k1 k2 k3 = gamma2Tree a k2 k1 k3 := by
  cases a <;> simp only [gamma2Tree, F2Fast] <;> ring

/-- C26: the densities of the bias terms integrated over the half plane are unchanged by exchanging `q` and `k-q`. -/
theorem C26_bias (a : Field) (q kq mu nu m pq pkq : ℝ) :
    kernelB2 a q kq mu m pq pkq = kernelB2 a kq q nu m pkq pq ∧ kernelBs2 a q kq mu m pq pkq = kernelBs2 a kq q nu m pkq pq := by
  have e : F2Fast a (q * q) (kq * kq) (m * q * kq) = F2Fast a (kq * kq) (q * q) (m * kq * q) := by
    cases a <;> simp only [F2Fast] <;> ring
  simp only [kernelB2, kernelBs2, e]
  constructor <;> ring

/-- C26: the remaining bias terms are not exchange symmetric; they are integrated over the whole plane (`C26_driver`). -/
theorem C26_bias_full :
    (kernelB22 .delta 1 2 0 0 1 2 ≠ kernelB22 .delta 2 1 0 0 2 1) ∧
    (kernelB2s2 .delta 1 2 0 0 1 2 ≠ kernelB2s2 .delta 2 1 0 0 2 1) ∧
    (kernelBs22 .delta 1 2 0 0 1 2 ≠ kernelBs22 .delta 2 1 0 0 2 1) ∧
    (kernelSigma3sq .delta 1 2 0 0 1 2 ≠ kernelSigma3sq .delta 2 1 0 0 2 1) := by
  norm_num [kernelB22, kernelB2s2, kernelBs22, kernelSigma3sq, D2, S2]

open MeasureTheory in
/-- C26: what the symmetry licenses. For a density unchanged by `q -> k-q` the integral over the whole space is twice the
integral over `|q| <= |k-q|`. -/
theorem C26_half_space {E : Type} [NormedAddCommGroup E] [InnerProductSpace ℝ E] [FiniteDimensional ℝ E] [MeasurableSpace E]
    [BorelSpace E] (k : E) (hk : k ≠ 0) (f : E → ℝ) (hf : Integrable f) (hs : ∀ q, f (k - q) = f q) :
    ∫ q, f q = 2 * ∫ q in {q | ‖q‖ ≤ ‖k - q‖}, f q := by
  set S : Set E := {q | ‖q‖ ≤ ‖k - q‖} with hS
  set T : Set E := {q | ‖q‖ < ‖k - q‖} with hT
  have mS : MeasurableSet S := (isClosed_le (by fun_prop) (by fun_prop)).measurableSet
  have mT : MeasurableSet T := (isOpen_lt (by fun_prop) (by fun_prop)).measurableSet
  have hnull : volume ((AffineSubspace.perpBisector (0 : E) k : AffineSubspace ℝ E) : Set E) = 0 := by
    apply Measure.addHaar_affineSubspace
    rw [Ne, AffineSubspace.perpBisector_eq_top]
    exact hk.symm
  have hST : S =ᵐ[volume] T := by
    have hsub : ∀ q, q ∉ ((AffineSubspace.perpBisector (0 : E) k : AffineSubspace ℝ E) : Set E) → (q ∈ S ↔ q ∈ T) := by
      intro q hq
      have hne : ‖q‖ ≠ ‖k - q‖ := by
        intro he
        apply hq
        rw [SetLike.mem_coe, AffineSubspace.mem_perpBisector_iff_dist_eq, dist_zero_right, dist_eq_norm, norm_sub_rev, he]
      exact ⟨fun h => lt_of_le_of_ne h hne, fun h => (show ‖q‖ < ‖k - q‖ from h).le⟩
    have hae : ∀ᵐ q ∂volume, q ∉ ((AffineSubspace.perpBisector (0 : E) k : AffineSubspace ℝ E) : Set E) :=
      measure_eq_zero_iff_ae_notMem.mp hnull
    filter_upwards [hae] with q hq
    exact propext (hsub q hq)
  have hcompl : ∫ q in Sᶜ, f q = ∫ q in T, f q := by
    rw [← integral_indicator mS.compl, ← integral_indicator mT, ← integral_sub_left_eq_self _ volume k]
    congr 1
    funext q
    by_cases hq : q ∈ T
    · have h1 : k - q ∈ Sᶜ := by
        simp only [hS, Set.mem_compl_iff, Set.mem_ofPred_eq, sub_sub_cancel, not_le]; exact hq
      rw [Set.indicator_of_mem h1, Set.indicator_of_mem hq, hs]
    · have h1 : k - q ∉ Sᶜ := by
        simp only [hS, Set.mem_compl_iff, Set.mem_ofPred_eq, sub_sub_cancel, not_not]; exact not_lt.mp hq
      rw [Set.indicator_of_notMem h1, Set.indicator_of_notMem hq]
  rw [← integral_add_compl mS hf, hcompl, setIntegral_congr_set hST]
  ring

end Verif
