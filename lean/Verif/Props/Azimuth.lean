import Verif.Spec.Azimuth
import Verif.Props.Redshift

/-!
# Redshift-space kernels are azimuthal averages (C57, C58)
-/

namespace Verif

/-- Moments of the cosine. -/
theorem azAvg_poly (a : ℕ → ℝ) :
    azAvg (fun p => ∑ i ∈ Finset.range 7, a i * Real.cos p ^ i) = a 0 + a 2 / 2 + 3 / 8 * a 4 + 5 / 16 * a 6 := by
  have h0 : ∫ x in (0:ℝ)..2 * Real.pi, Real.cos x ^ 0 = 2 * Real.pi := by simp
  have h1 : ∫ x in (0:ℝ)..2 * Real.pi, Real.cos x ^ 1 = 0 := by simp
  have hrec : ∀ n : ℕ, ∫ x in (0:ℝ)..2 * Real.pi, Real.cos x ^ (n + 2) =
      (n + 1) / (n + 2) * ∫ x in (0:ℝ)..2 * Real.pi, Real.cos x ^ n := by
    intro n
    rw [integral_cos_pow]; simp
  have h2 := hrec 0
  have h3 := hrec 1
  have h4 := hrec 2
  have h5 := hrec 3
  have h6 := hrec 4
  simp only [Nat.reduceAdd] at h2 h3 h4 h5 h6
  rw [h0] at h2; rw [h1] at h3; rw [h2] at h4; rw [h3] at h5; rw [h4] at h6
  unfold azAvg
  rw [intervalIntegral.integral_finsetSum (fun i _ => Continuous.intervalIntegrable (by fun_prop) _ _)]
  simp only [intervalIntegral.integral_const_mul]
  have hp := Real.pi_pos.ne'
  simp only [Finset.sum_range_succ, Finset.range_zero, Finset.sum_empty]
  rw [h0, h1, h2, h3, h4, h5, h6]
  push_cast
  field_simp
  ring

theorem azAvg_eq (g : ℝ → ℝ) (a : ℕ → ℝ) (h : ∀ c, g c = ∑ i ∈ Finset.range 7, a i * c ^ i) :
    azAvg (fun p => g (Real.cos p)) = a 0 + a 2 / 2 + 3 / 8 * a 4 + 5 / 16 * a 6 := by
  rw [← azAvg_poly]
  simp only [h]

/-- Average of a product of powers of two line-of-sight components `u+s cos`, `v+t cos`, as the moments of a product of two
polynomials. -/
theorem azAvg_mul (u s v t A B C D : ℝ) :
    azAvg (fun p => (u + s * Real.cos p) * (A + B * (u + s * Real.cos p) ^ 2) * ((v + t * Real.cos p) * (C + D * (v + t * Real.cos p) ^ 2)))
      = A * C * (u * v + s * t / 2) + A * D * (u * v ^ 3 + 3 / 2 * u * v * t ^ 2 + 3 / 2 * v ^ 2 * s * t + 3 / 8 * s * t ^ 3)
        + B * C * (v * u ^ 3 + 3 / 2 * u * v * s ^ 2 + 3 / 2 * u ^ 2 * s * t + 3 / 8 * t * s ^ 3)
        + B * D * (u ^ 3 * v ^ 3 + (3 * u ^ 3 * v * t ^ 2 + 9 * u ^ 2 * s * v ^ 2 * t + 3 * u * s ^ 2 * v ^ 3) / 2
          + 3 / 8 * (3 * u ^ 2 * s * t ^ 3 + 9 * u * s ^ 2 * v * t ^ 2 + 3 * s ^ 3 * v ^ 2 * t) + 5 / 16 * s ^ 3 * t ^ 3) := by
  rw [azAvg_eq (fun c => (u + s * c) * (A + B * (u + s * c) ^ 2) * ((v + t * c) * (C + D * (v + t * c) ^ 2)))
    (fun i => match i with
      | 0 => (A * u + B * u ^ 3) * (C * v + D * v ^ 3)
      | 1 => (A * s + 3 * B * u ^ 2 * s) * (C * v + D * v ^ 3) + (A * u + B * u ^ 3) * (C * t + 3 * D * v ^ 2 * t)
      | 2 => 3 * B * u * s ^ 2 * (C * v + D * v ^ 3) + (A * s + 3 * B * u ^ 2 * s) * (C * t + 3 * D * v ^ 2 * t)
          + (A * u + B * u ^ 3) * (3 * D * v * t ^ 2)
      | 3 => B * s ^ 3 * (C * v + D * v ^ 3) + 3 * B * u * s ^ 2 * (C * t + 3 * D * v ^ 2 * t)
          + (A * s + 3 * B * u ^ 2 * s) * (3 * D * v * t ^ 2) + (A * u + B * u ^ 3) * (D * t ^ 3)
      | 4 => B * s ^ 3 * (C * t + 3 * D * v ^ 2 * t) + 3 * B * u * s ^ 2 * (3 * D * v * t ^ 2)
          + (A * s + 3 * B * u ^ 2 * s) * (D * t ^ 3)
      | 5 => B * s ^ 3 * (3 * D * v * t ^ 2) + 3 * B * u * s ^ 2 * (D * t ^ 3)
      | _ => B * s ^ 3 * (D * t ^ 3))
    (fun c => by simp only [Finset.sum_range_succ, Finset.range_zero, Finset.sum_empty]; ring)]
  ring_nf
  ring

/-- The case of two components adding up to a constant. -/
theorem azAvg_mul_sub (u s v w A B C D : ℝ) (hw : s ^ 2 = w) :
    azAvg (fun p => (u + s * Real.cos p) * (A + B * (u + s * Real.cos p) ^ 2) * ((v + -s * Real.cos p) * (C + D * (v + -s * Real.cos p) ^ 2)))
      = A * C * (u * v - w / 2) + A * D * (u * v ^ 3 + 3 / 2 * u * v * w - 3 / 2 * v ^ 2 * w - 3 / 8 * w ^ 2)
        + B * C * (v * u ^ 3 + 3 / 2 * u * v * w - 3 / 2 * u ^ 2 * w - 3 / 8 * w ^ 2)
        + B * D * (u ^ 3 * v ^ 3 + (3 * u ^ 3 * v * w - 9 * u ^ 2 * v ^ 2 * w + 3 * u * w * v ^ 3) / 2
          + 3 / 8 * (-3 * u ^ 2 * w ^ 2 + 9 * u * v * w ^ 2 - 3 * v ^ 2 * w ^ 2) - 5 / 16 * w ^ 3) := by
  rw [azAvg_mul, ← hw]
  ring

/-- Powers of the line-of-sight cosine (halved) and of the growth rate of the nine B columns (`src/spectrum_B.c:126-134`,
comments, and the order used by `B1Loop.pk_interp`). -/
def expB : Fin 9 → ℕ × ℕ := ![(1, 2), (1, 3), (1, 4), (2, 2), (2, 3), (2, 4), (3, 3), (3, 4), (4, 4)]

/-- Powers of the line-of-sight cosine (halved) and of the growth rate of the five A columns. -/
def expA : Fin 5 → ℕ × ℕ := ![(1, 1), (1, 2), (2, 2), (2, 3), (3, 3)]

/-- C57: the twelve B kernels, combined into columns with their signs and powers, are the azimuthal average of the B correction. -/
theorem C57_B (x mu nu f Dq Tq Dr Tr : ℝ) (hx : x ≠ 0) (hy : 1 + x ^ 2 - 2 * mu * x ≠ 0) (hm : mu ^ 2 ≤ 1) (hn : nu ^ 2 ≤ 1) :
    azAvg (fun p => losB nu f (x ^ 2) (1 + x ^ 2 - 2 * mu * x) (x * losCos nu mu p) (nu - x * losCos nu mu p) Dq Tq Dr Tr) * x ^ 2
      = ∑ c, nu ^ (2 * (expB c).1) * f ^ (expB c).2 * columnsB (fun i => kB (pw x) (pw mu) i * specB Dq Tq Dr Tr i) c := by
  have e1 : ∀ i, kB (pw x) (pw mu) i = densB (x ^ 2) (x * mu) i * x ^ 2 := fun i => by
    rw [← kB_densB x mu hx hy i]; field_simp
  set Y := 1 + x ^ 2 - 2 * mu * x with hY
  set s := Real.sqrt (1 - nu ^ 2) * Real.sqrt (1 - mu ^ 2) with hs
  have hs2 : s ^ 2 = (1 - nu ^ 2) * (1 - mu ^ 2) := by
    rw [hs, mul_pow, Real.sq_sqrt (by linarith), Real.sq_sqrt (by linarith)]
  have hl : ∀ p, losB nu f (x ^ 2) Y (x * losCos nu mu p) (nu - x * losCos nu mu p) Dq Tq Dr Tr =
      (x * (nu * mu) + x * s * Real.cos p) * ((nu * f) ^ 2 / x ^ 2 * Dq + (nu * f) ^ 2 / x ^ 2 * f / x ^ 2 * Tq
          * (x * (nu * mu) + x * s * Real.cos p) ^ 2)
        * ((nu - x * (nu * mu) + -(x * s) * Real.cos p) * (Dr / Y + f / Y / Y * Tr * (nu - x * (nu * mu) + -(x * s) * Real.cos p) ^ 2)) := by
    intro p
    unfold losB losCos
    rw [← hs]
    ring
  have hxs : (x * s) ^ 2 = (1 - nu ^ 2) * (x ^ 2 - (x * mu) ^ 2) := by rw [mul_pow, hs2]; ring
  simp only [hl]
  rw [azAvg_mul_sub _ _ _ _ _ _ _ _ hxs]
  simp only [e1]
  have hz : x * (nu * mu) = nu * (x * mu) := by ring
  rw [hz]
  have hY' : Y = 1 + x ^ 2 - 2 * (x * mu) := by rw [hY]; ring
  have hX : x ^ 2 ≠ 0 := by positivity
  clear_value Y s
  unfold densB columnsB specB expB
  simp only [← hY']
  generalize x ^ 2 = X at *
  generalize x * mu = m at *
  simp only [Fin.sum_univ_succ, Finset.univ_eq_empty, Finset.sum_empty]
  simp
  field_simp
  ring

/-- Non-vacuity of `C57_B`: perpendicular wavevector, arbitrary line of sight. -/
example (nu f Dq Tq Dr Tr : ℝ) (hn : nu ^ 2 ≤ 1) :
    azAvg (fun p => losB nu f 1 2 (losCos nu 0 p) (nu - losCos nu 0 p) Dq Tq Dr Tr)
      = ∑ c, nu ^ (2 * (expB c).1) * f ^ (expB c).2 * columnsB (fun i => kB (pw 1) (pw 0) i * specB Dq Tq Dr Tr i) c := by
  have h := C57_B 1 0 nu f Dq Tq Dr Tr (by norm_num) (by norm_num) (by norm_num) hn
  norm_num at h ⊢
  exact h

/-- Average of one component times a quadratic in the other. -/
theorem azAvg_lin_quad (u s v w A B : ℝ) (hw : s ^ 2 = w) :
    azAvg (fun p => (u + s * Real.cos p) * (A + B * (v + -s * Real.cos p) ^ 2)) = A * u + B * (u * v ^ 2 + u * w / 2 - v * w) ∧
    azAvg (fun p => (v + -s * Real.cos p) * (A + B * (u + s * Real.cos p) ^ 2)) = A * v + B * (v * u ^ 2 + v * w / 2 - u * w) := by
  constructor
  · rw [azAvg_eq (fun c => (u + s * c) * (A + B * (v + -s * c) ^ 2))
      (fun i => match i with
        | 0 => u * (A + B * v ^ 2)
        | 1 => s * (A + B * v ^ 2) - 2 * B * u * v * s
        | 2 => B * u * s ^ 2 - 2 * B * v * s ^ 2
        | 3 => B * s ^ 3
        | _ => 0)
      (fun c => by simp only [Finset.sum_range_succ, Finset.range_zero, Finset.sum_empty]; ring)]
    rw [← hw]
    ring_nf
    ring
  · rw [azAvg_eq (fun c => (v + -s * c) * (A + B * (u + s * c) ^ 2))
      (fun i => match i with
        | 0 => v * (A + B * u ^ 2)
        | 1 => -s * (A + B * u ^ 2) + 2 * B * u * v * s
        | 2 => B * v * s ^ 2 - 2 * B * u * s ^ 2
        | 3 => -B * s ^ 3
        | _ => 0)
      (fun c => by simp only [Finset.sum_range_succ, Finset.range_zero, Finset.sum_empty]; ring)]
    rw [← hw]
    ring_nf
    ring

/-- C58: the A projection kernels, combined into columns with their powers, are the azimuthal average of the A correction, for
arbitrary bispectra. -/
theorem C58_A (x mu nu f : ℝ) (b : BiOut) (hx : x ≠ 0) (hy : 1 + x ^ 2 - 2 * mu * x ≠ 0) (hm : mu ^ 2 ≤ 1) (hn : nu ^ 2 ≤ 1) :
    (azAvg (fun p => losA nu f (x ^ 2) (1 + x ^ 2 - 2 * mu * x) (x * losCos nu mu p) (nu - x * losCos nu mu p)
        (b.a 0) (b.a 1) (b.a 2) (b.a 3))
      + azAvg (fun p => losA nu f (1 + x ^ 2 - 2 * mu * x) (x ^ 2) (nu - x * losCos nu mu p) (x * losCos nu mu p)
        (b.t 0) (b.t 1) (b.t 2) (b.t 3))) * x ^ 3
      = ∑ c, nu ^ (2 * (expA c).1) * f ^ (expA c).2 * columnsA2 (assembleA2 x mu b) c := by
  have e1 := projA_densA x mu hx hy
  set Y := 1 + x ^ 2 - 2 * mu * x with hY
  set s := Real.sqrt (1 - nu ^ 2) * Real.sqrt (1 - mu ^ 2) with hs
  have hs2 : s ^ 2 = (1 - nu ^ 2) * (1 - mu ^ 2) := by
    rw [hs, mul_pow, Real.sq_sqrt (by linarith), Real.sq_sqrt (by linarith)]
  have hxs : (x * s) ^ 2 = (1 - nu ^ 2) * (x ^ 2 - (x * mu) ^ 2) := by rw [mul_pow, hs2]; ring
  have hl1 : ∀ p, losA nu f (x ^ 2) Y (x * losCos nu mu p) (nu - x * losCos nu mu p) (b.a 0) (b.a 1) (b.a 2) (b.a 3) =
      (nu * (x * mu) + x * s * Real.cos p) * (nu * f / x ^ 2 * (b.a 0 + f * nu ^ 2 * b.a 2)
        + nu * f / x ^ 2 * (f / Y * b.a 1 + f / Y * (f * nu ^ 2) * b.a 3) * (nu - nu * (x * mu) + -(x * s) * Real.cos p) ^ 2) := by
    intro p
    unfold losA losCos
    rw [← hs]
    ring
  have hl2 : ∀ p, losA nu f Y (x ^ 2) (nu - x * losCos nu mu p) (x * losCos nu mu p) (b.t 0) (b.t 1) (b.t 2) (b.t 3) =
      (nu - nu * (x * mu) + -(x * s) * Real.cos p) * (nu * f / Y * (b.t 0 + f * nu ^ 2 * b.t 2)
        + nu * f / Y * (f / x ^ 2 * b.t 1 + f / x ^ 2 * (f * nu ^ 2) * b.t 3) * (nu * (x * mu) + x * s * Real.cos p) ^ 2) := by
    intro p
    unfold losA losCos
    rw [← hs]
    ring
  simp only [hl1, hl2]
  rw [(azAvg_lin_quad _ _ _ _ _ _ hxs).1, (azAvg_lin_quad _ _ _ _ _ _ hxs).2]
  have hY' : Y = 1 + x ^ 2 - 2 * (x * mu) := by rw [hY]; ring
  have hX : x ^ 2 ≠ 0 := by positivity
  clear_value Y s
  unfold columnsA2 assembleA2 expA
  simp only [(e1 _).1, (e1 _).2]
  unfold densA denstA
  simp only [← hY']
  have h3 : x ^ 3 = x ^ 2 * x := by ring
  rw [h3]
  generalize x ^ 2 = X at *
  generalize x * mu = m at *
  simp only [Fin.sum_univ_succ, Finset.univ_eq_empty, Finset.sum_empty]
  simp
  field_simp
  ring

example (nu f : ℝ) (b : BiOut) (hn : nu ^ 2 ≤ 1) :
    azAvg (fun p => losA nu f 1 2 (losCos nu 0 p) (nu - losCos nu 0 p) (b.a 0) (b.a 1) (b.a 2) (b.a 3))
      + azAvg (fun p => losA nu f 2 1 (nu - losCos nu 0 p) (losCos nu 0 p) (b.t 0) (b.t 1) (b.t 2) (b.t 3))
      = ∑ c, nu ^ (2 * (expA c).1) * f ^ (expA c).2 * columnsA2 (assembleA2 1 0 b) c := by
  have h := C58_A 1 0 nu f b (by norm_num) (by norm_num) (by norm_num) hn
  norm_num at h ⊢
  exact h

end Verif
