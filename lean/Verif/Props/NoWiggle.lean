import Verif.Model.NoWiggle
import Mathlib.Tactic.Positivity
import Mathlib.Analysis.Complex.ExponentialBounds

/-!
# C50: the smooth reference spectrum
-/

namespace Verif

/-- C50: the transfer function lies in `(0,1]` for every mode at which the effective shape is positive. -/
theorem C50_transfer (c : Cosmo) (k : ℝ) (hk : 0 ≤ k) (hg : 0 < c.gammaEff k) : 0 < c.transfer k ∧ c.transfer k ≤ 1 := by
  unfold Cosmo.transfer
  dsimp only
  have hq : 0 ≤ k * (c.T_cmb / 2.7) ^ 2 / c.gammaEff k := by positivity
  generalize k * (c.T_cmb / 2.7) ^ 2 / c.gammaEff k = q at hq
  have he : (1 : ℝ) < Real.exp 1 := by rw [Real.one_lt_exp_iff]; norm_num
  have hL : 0 < Real.log (2 * Real.exp 1 + 1.8 * q) := by
    have : (0 : ℝ) ≤ 1.8 * q := by positivity
    exact Real.log_pos (by linarith)
  have hC : 0 < 14.2 + 731.0 / (1 + 62.5 * q) := by positivity
  have hS : 0 ≤ (14.2 + 731.0 / (1 + 62.5 * q)) * q ^ 2 := by positivity
  constructor
  · exact div_pos hL (by linarith)
  · rw [div_le_one (by linarith)]
    linarith

/-- C50: on the largest scales the transfer function is `1`. -/
theorem C50_large_scales (c : Cosmo) : c.transfer 0 = 1 := by
  unfold Cosmo.transfer
  dsimp only
  have he : (1 : ℝ) < Real.exp 1 := by rw [Real.one_lt_exp_iff]; norm_num
  have hL : 0 < Real.log (2 * Real.exp 1) := Real.log_pos (by linarith)
  simp only [zero_mul, zero_div, mul_zero, add_zero]
  rw [zero_pow (by norm_num), mul_zero, add_zero, div_self hL.ne']

/-- C50: without an amplitude, the spectrum has one value per mode, agrees with the given one at the first mode and is
proportional to `k^n_s T(k)^2`. -/
theorem C50_normalised (c : Cosmo) (n_s p0 k0 : ℝ) (pk ks : List ℝ) (hk : 0 < k0) (hg : 0 < c.gammaEff k0) :
    ∃ l, c.runNoWiggle n_s (some (p0 :: pk)) none (k0 :: ks) = some l ∧ l.length = (k0 :: ks).length ∧ l.head? = some p0 ∧
      ∃ A, l = (k0 :: ks).map fun k => A * (k ^ n_s * c.transfer k ^ 2) := by
  have hT := (C50_transfer c k0 hk.le hg).1
  have hw : k0 ^ n_s * c.transfer k0 ^ 2 ≠ 0 := by
    have := Real.rpow_pos_of_pos hk n_s
    positivity
  refine ⟨_, rfl, by simp, ?_, p0 / (k0 ^ n_s * c.transfer k0 ^ 2), ?_⟩
  · simp only [List.map_cons, List.head?_cons]
    rw [div_mul_cancel₀ _ hw]
  · simp [List.map_map, Function.comp_def]

/-- C50: with an amplitude, the spectrum is that multiple of `k^n_s T(k)^2`, whatever `pk`. -/
theorem C50_amplitude (c : Cosmo) (n_s A : ℝ) (pk : Option (List ℝ)) (ks : List ℝ) :
    c.runNoWiggle n_s pk (some A) ks = some (ks.map fun k => A * (k ^ n_s * c.transfer k ^ 2)) := by
  unfold Cosmo.runNoWiggle
  simp [List.map_map, Function.comp_def]

/-- A cosmology without baryons: the effective shape is `omega_m / h`, here `1`. -/
noncomputable def exCosmo : Cosmo := { h := 1, omega_b := 0, omega_m := 1 }

theorem exCosmo_gammaEff (k : ℝ) : exCosmo.gammaEff k = 1 := by
  simp [Cosmo.gammaEff, exCosmo, Cosmo.om, Cosmo.ob]

/-- Non-vacuity of `C50_transfer` and `C50_normalised`. -/
example : 0 < exCosmo.transfer (1 / 10) ∧ ∃ l, exCosmo.runNoWiggle 1 (some [7, 8]) none [1 / 10, 1] = some l ∧ l.head? = some 7 := by
  have hg : ∀ k, 0 < exCosmo.gammaEff k := fun k => by rw [exCosmo_gammaEff]; exact one_pos
  refine ⟨(C50_transfer _ _ (by norm_num) (hg _)).1, ?_⟩
  obtain ⟨l, h1, -, h2, -⟩ := C50_normalised exCosmo 1 7 (1 / 10) [8] [1] (by norm_num) (hg _)
  exact ⟨l, h1, h2⟩

/-- C50: density parameters given as fractions are converted with the square of `h`; giving the physical densities directly is the
same. -/
theorem C50_parameters (c : Cosmo) (Om Ob k : ℝ) :
    ({ c with Omega_m := some Om, Omega_b := some Ob } : Cosmo).transfer k
      = ({ c with Omega_m := none, Omega_b := none, omega_m := Om * c.h ^ 2, omega_b := Ob * c.h ^ 2 } : Cosmo).transfer k := rfl

/-- Suppression of the effective shape on small scales (Eisenstein & Hu 1998, eq. 31). -/
noncomputable def alphaGamma (c : Cosmo) : ℝ :=
  1 - 0.328 * Real.log (431 * c.om) * (c.ob / c.om) + 0.38 * Real.log (22.3 * c.om) * (c.ob / c.om) ^ 2

/-- C50: the effective shape is positive at every mode as soon as the suppression is. -/
theorem C50_shape (c : Cosmo) (hm : 0 < c.om) (hh : 0 < c.h) (ha : 0 < alphaGamma c) (k : ℝ) : 0 < c.gammaEff k := by
  unfold Cosmo.gammaEff
  dsimp only
  have e : 1 - 0.328 * Real.log (431 * c.om) * (c.ob / c.om) + 0.38 * Real.log (22.3 * c.om) * (c.ob / c.om) ^ 2 = alphaGamma c := rfl
  rw [e]
  generalize (0.43 * (k * (44.5 * c.h * Real.log (9.83 / c.om) / Real.sqrt (1 + 10 * c.ob ^ (0.75 : ℝ))))) = x
  have hx : 0 ≤ x ^ 4 := by positivity
  have : alphaGamma c + (1 - alphaGamma c) / (1 + x ^ 4) = (alphaGamma c * x ^ 4 + 1) / (1 + x ^ 4) := by
    field_simp
    ring
  rw [this]
  positivity

/-- C50 for the default cosmology: the transfer function lies in `(0,1]` at every mode. -/
theorem C50_default (k : ℝ) (hk : 0 ≤ k) : 0 < ({} : Cosmo).transfer k ∧ ({} : Cosmo).transfer k ≤ 1 := by
  refine C50_transfer _ k hk (C50_shape _ ?_ ?_ ?_ k)
  · norm_num [Cosmo.om]
  · norm_num
  · have h1 : Real.log (431 * 0.21) ≤ 5 := by
      have : (431 * 0.21 : ℝ) ≤ Real.exp 5 := by
        have h := Real.exp_one_gt_d9
        have e : Real.exp 5 = Real.exp 1 ^ 5 := by rw [← Real.exp_nat_mul]; norm_num
        rw [e]
        calc (431 * 0.21 : ℝ) ≤ 2.7 ^ 5 := by norm_num
          _ ≤ Real.exp 1 ^ 5 := by gcongr; linarith
      exact (Real.log_le_iff_le_exp (by norm_num)).2 this
    have h2 : 0 ≤ Real.log (22.3 * 0.21) := Real.log_nonneg (by norm_num)
    simp only [alphaGamma, Cosmo.om, Cosmo.ob]
    have h3 : 0 ≤ 0.38 * Real.log (22.3 * 0.21) * ((0.022 / 0.21 : ℝ) ^ 2) := by positivity
    have h4 : 0.328 * Real.log (431 * 0.21) * (0.022 / 0.21 : ℝ) ≤ 0.328 * 5 * (0.022 / 0.21) := by gcongr
    norm_num at h3 h4 ⊢
    linarith

/-- Setting up the object completes for every class of the library that is computed by the C code.  Missing for the full C50:
the class `SpectrumNoWiggle` itself (`C50_set_terms_violation`). -/
theorem C50_set_terms_partial : ∀ c ∈ [cls1, cls2, clsBias, clsA, clsB], zerosCompletes c.name c.fields = true := by
  intro c hc
  simp only [List.mem_cons, List.not_mem_nil, or_false] at hc
  rcases hc with rfl | rfl | rfl | rfl | rfl <;> decide

/-- C50 fails: `SpectrumNoWiggle.set_terms(k)` raises, since neither the class nor its bases define `C_TYPE`. -/
theorem C50_set_terms_violation : zerosCompletes "SpectrumNoWiggle" ["k", "pk"] = false := by decide

end Verif
