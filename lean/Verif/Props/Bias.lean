import Verif.Spec.Bias
import Verif.Props.Kernels
import Verif.Props.FindPk
import Verif.Proofs.Runs
import Mathlib.Analysis.SpecialFunctions.Integrals.Basic

/-!
# C60: bias integrands
-/

namespace Verif

open Res

/-- The C kernel used for a bias term. -/
noncomputable def biasCode : BiasTerm → BiasKernel
  | .b2 => kernelB2
  | .bs2 => kernelBs2
  | .b22 => kernelB22
  | .b2s2 => kernelB2s2
  | .bs22 => kernelBs22
  | .sigma3sq => kernelSigma3sq

theorem Vec.modulus_sq (p : Vec) : p.modulus * p.modulus = p.dot p := Real.mul_self_sqrt p.dot_self_nonneg

theorem Vec.modulus_pos {p : Vec} (h : p.dot p ≠ 0) : 0 < p.modulus := Real.sqrt_pos.2 (lt_of_le_of_ne p.dot_self_nonneg h.symm)

theorem Vec.sub_dot_self (p q : Vec) : (p - q).dot (p - q) = p.dot p + q.dot q - 2 * p.dot q := by
  simp [Vec.dot]; ring

theorem Vec.dot_sub (p q : Vec) : q.dot (p - q) = p.dot q - q.dot q := by
  simp [Vec.dot]; ring

/-- C60: at the wavevectors `k`, `q` the integrand of every bias term is the one of the literature, evaluated on the table and on
one lookup at `|k-q|`. -/
theorem C60_integrand (t : Pk ℝ) (i : Interpol) (P : ℝ → ℝ) (a : Field) (b : BiasTerm) (k q : Vec) (hk : k.dot k ≠ 0)
    (hq : q.dot q ≠ 0) (hkq : (k - q).dot (k - q) ≠ 0) (g : GLQ ℝ) (iq : ℕ) (h1 : g.k = k.modulus) (h2 : rd g.q iq = .ok q.modulus)
    (h3 : rd g.x iq = .ok (q.modulus / k.modulus)) (h4 : rd g.pk iq = .ok (P q.modulus))
    (h5 : look t i (k - q).modulus = .ok (P (k - q).modulus)) :
    kernelPkBias t i (biasCode b) a g iq (k.cosine q) = .ok fun _ => specBias P a k q b := by
  have pk := Vec.modulus_pos hk
  have pq := Vec.modulus_pos hq
  have pr := Vec.modulus_pos hkq
  have sk := Vec.modulus_sq k
  have sq := Vec.modulus_sq q
  have sr := Vec.modulus_sq (k - q)
  have e1 : k.modulus * Real.sqrt (1 + q.modulus / k.modulus * (q.modulus / k.modulus) - 2 * k.cosine q * (q.modulus / k.modulus)) = (k - q).modulus := by
    have h : k.modulus * k.modulus * (1 + q.modulus / k.modulus * (q.modulus / k.modulus) - 2 * k.cosine q * (q.modulus / k.modulus)) =
        (k - q).dot (k - q) := by
      rw [Vec.sub_dot_self, ← sk, ← sq]
      unfold Vec.cosine
      field_simp
    rw [show (k - q).modulus = Real.sqrt ((k - q).dot (k - q)) from rfl, ← h, Real.sqrt_mul (mul_self_nonneg _),
      Real.sqrt_mul_self pk.le]
  have e2 : (k.modulus * k.modulus - (k - q).modulus * (k - q).modulus - q.modulus * q.modulus) / 2 / q.modulus / (k - q).modulus = q.cosine (k - q) := by
    unfold Vec.cosine
    rw [Vec.dot_sub, sk, sr, sq, Vec.sub_dot_self]
    field_simp
    ring
  have e3 : F2Fast a (q.modulus * q.modulus) ((k - q).modulus * (k - q).modulus) (q.cosine (k - q) * q.modulus * (k - q).modulus) =
      sptSym2 a q (k - q) := by
    rw [← C17_F2_spt a q (k - q) hq hkq]
    unfold F2Full
    rw [sq, sr]
    congr 1
    unfold Vec.cosine
    field_simp
  have e4 : k.cosine q = q.cosine k := by
    unfold Vec.cosine
    rw [Vec.dot_comm, mul_comm]
  unfold kernelPkBias
  rw [h3, ok_bind, h2, ok_bind, h4, ok_bind]
  dsimp only
  rw [h1, e1, h5, ok_bind, e2]
  congr 1
  funext _
  cases b
  · simp only [biasCode, specBias, kernelB2, e3]
  · simp only [biasCode, specBias, kernelBs2, e3, S2, specS2]; ring
  · simp only [biasCode, specBias, kernelB22]; ring
  · simp only [biasCode, specBias, kernelB2s2, S2, specS2]; ring
  · simp only [biasCode, specBias, kernelBs22, S2, specS2]; ring
  · simp only [biasCode, specBias, kernelSigma3sq, S2, D2, specS2, specD2, e4]; ring

/-- C60: the three auto terms are renormalised: their integrands vanish when the external wavenumber does, `k-q = -q`. -/
theorem C60_large_scales (a : Field) (q pq mu : ℝ) :
    kernelB22 a q q mu (-1) pq pq = 0 ∧ kernelB2s2 a q q mu (-1) pq pq = 0 ∧ kernelBs22 a q q mu (-1) pq pq = 0 := by
  refine ⟨?_, ?_, ?_⟩ <;> norm_num [kernelB22, kernelB2s2, kernelBs22, S2] <;> right <;> ring

/-- C60: so is the third-order term: for `q` much larger than `k`, `k-q` is opposite to `q` and the average over directions
vanishes. -/
theorem C60_sigma3sq_ultraviolet (a : Field) (q kq pq pkq : ℝ) :
    ∫ mu in (-1 : ℝ)..1, kernelSigma3sq a q kq mu (-1) pq pkq = 0 := by
  have : ∀ mu : ℝ, kernelSigma3sq a q kq mu (-1) pq pkq = (5 * pq / 4) * mu ^ 2 - 5 * pq / 12 := by
    intro mu
    simp only [kernelSigma3sq, S2, D2]
    ring
  simp only [this]
  rw [intervalIntegral.integral_sub (Continuous.intervalIntegrable (by fun_prop) _ _) (Continuous.intervalIntegrable (by fun_prop) _ _), intervalIntegral.integral_const_mul, integral_pow]
  simp
  ring

/-- C60: the tidal kernel has no monopole. -/
theorem C60_tidal_average : ∫ mu in (-1 : ℝ)..1, S2 mu = 0 := by
  have : ∀ mu : ℝ, S2 mu = mu ^ 2 - 1 / 3 := fun mu => by simp only [S2]; ring
  simp only [this]
  rw [intervalIntegral.integral_sub (Continuous.intervalIntegrable (by fun_prop) _ _) (Continuous.intervalIntegrable (by fun_prop) _ _), integral_pow]
  norm_num

/-- Non-vacuity: `k = (0,0,1)`, `q = (1,0,1)`, so that `k-q` has modulus 1, with one node. -/
example (a : Field) (b : BiasTerm) : ∃ v : ℝ, kernelPkBias exTable .poly (biasCode b) a
    ⟨1, 1, [Real.sqrt 2], [Real.sqrt 2], [1], [3]⟩ 0 (1 / Real.sqrt 2) = .ok fun _ => v := by
  have n1 : (⟨0, 0, 1⟩ : Vec).modulus = 1 := by simp [Vec.modulus, Vec.dot]
  have n2 : (⟨1, 0, 1⟩ : Vec).modulus = Real.sqrt 2 := by simp [Vec.modulus, Vec.dot]; norm_num
  have n3 : ((⟨0, 0, 1⟩ : Vec) - ⟨1, 0, 1⟩).modulus = 1 := by simp [Vec.modulus, Vec.dot]
  obtain ⟨v, hv⟩ : (look exTable .poly 1).defined := by
    obtain ⟨l, hl⟩ := C06_findPk_poly_safe exTable exTable_physical.toWF (by norm_num [exTable]) [1]
    have hlen := findPk_length hl
    unfold look
    rw [hl, ok_bind]
    exact ⟨_, rd_ok (by rw [hlen]; simp)⟩
  have hne : Real.sqrt 2 ≠ 1 := by
    intro h
    have := Real.mul_self_sqrt (show (0 : ℝ) ≤ 2 by norm_num)
    rw [h] at this
    norm_num at this
  have := C60_integrand exTable .poly (fun x => if x = 1 then v else 3) a b ⟨0, 0, 1⟩ ⟨1, 0, 1⟩ (by simp [Vec.dot]) (by simp [Vec.dot])
    (by simp [Vec.dot]) ⟨1, 1, [Real.sqrt 2], [Real.sqrt 2], [1], [3]⟩ 0 (by rw [n1])
    (by rw [n2]; rfl) (by rw [n1, n2]; simp [rd]) (by rw [n2]; simp [rd, hne]) (by rw [n3]; simpa using hv)
  rw [show Vec.cosine ⟨0, 0, 1⟩ ⟨1, 0, 1⟩ = 1 / Real.sqrt 2 by unfold Vec.cosine; rw [n1, n2]; simp [Vec.dot]] at this
  exact ⟨_, this⟩

end Verif
