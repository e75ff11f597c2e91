import Verif.Spec.Legendre
import Mathlib.Algebra.Polynomial.Derivative
import Mathlib.Tactic.LinearCombination
import Mathlib.Tactic.FieldSimp
import Mathlib.LinearAlgebra.Lagrange
import Mathlib.Analysis.Calculus.Deriv.Polynomial

/-! Legendre polynomials from the three-term recurrence: differential identities, orthogonality, Gauss quadrature. -/

open Polynomial

namespace Verif

/-- Polynomials given by the recurrence used in the code. -/
noncomputable def leg : ℕ → ℝ[X]
  | 0 => 1
  | 1 => X
  | n + 2 => C (1 / ((n : ℝ) + 2)) * (C (2 * (n : ℝ) + 3) * X * leg (n + 1) - C ((n : ℝ) + 1) * leg n)

theorem leg_rec (n : ℕ) : C ((n : ℝ) + 2) * leg (n + 2) = C (2 * (n : ℝ) + 3) * X * leg (n + 1) - C ((n : ℝ) + 1) * leg n := by
  have h : ((n : ℝ) + 2) ≠ 0 := by positivity
  rw [leg, ← mul_assoc, ← C_mul, mul_one_div_cancel h, C_1, one_mul]

/-- `P'_{n+1} = x P'_n + (n+1) P_n` and `x P'_{n+1} - P'_n = (n+1) P_{n+1}`. -/
theorem leg_deriv (n : ℕ) :
    derivative (leg (n + 1)) = X * derivative (leg n) + C ((n : ℝ) + 1) * leg n ∧
    X * derivative (leg (n + 1)) - derivative (leg n) = C ((n : ℝ) + 1) * leg (n + 1) := by
  induction n with
  | zero => simp [leg]
  | succ n ih =>
    obtain ⟨h1, h2⟩ := ih
    have hr := leg_rec n
    have hd := congrArg derivative hr
    simp only [derivative_mul, derivative_sub, derivative_C, derivative_X, zero_mul, zero_add, mul_one] at hd
    have hn : (C ((n : ℝ) + 2) : ℝ[X]) ≠ 0 := by
      rw [Ne, C_eq_zero]; positivity
    push_cast
    have e1 : (C ((n : ℝ) + 2) : ℝ[X]) = C (n : ℝ) + 2 := by rw [C_add, map_ofNat]
    have e2 : (C ((n : ℝ) + 1) : ℝ[X]) = C (n : ℝ) + 1 := by simp
    have e3 : (C (2 * (n : ℝ) + 3) : ℝ[X]) = 2 * C (n : ℝ) + 3 := by rw [C_add, C_mul, map_ofNat, map_ofNat]
    have e4 : (C ((n : ℝ) + 1 + 1) : ℝ[X]) = C (n : ℝ) + 2 := by simp; ring
    simp only [e1, e2, e3, e4] at *
    generalize C (n : ℝ) = N at *
    have k1 : derivative (leg (n + 2)) = X * derivative (leg (n + 1)) + (N + 2) * leg (n + 1) := by
      apply mul_left_cancel₀ hn
      linear_combination hd + (N + 1) * h2
    refine ⟨k1, ?_⟩
    have k2 : X * derivative (leg (n + 2)) - derivative (leg (n + 1)) = (N + 2) * leg (n + 2) := by
      linear_combination X * k1 - hr + (-1 : ℝ[X]) * h1 + X * h2
    exact k2

theorem leg_sq (n : ℕ) : (X ^ 2 - 1) * derivative (leg (n + 1)) = C ((n : ℝ) + 1) * (X * leg (n + 1) - leg n) := by
  obtain ⟨h1, h2⟩ := leg_deriv n
  linear_combination X * h2 - h1

theorem leg_ode (n : ℕ) : derivative ((X ^ 2 - 1) * derivative (leg n)) = C ((n : ℝ) * (n + 1)) * leg n := by
  cases n with
  | zero => simp [leg]
  | succ n =>
    obtain ⟨h1, h2⟩ := leg_deriv n
    rw [leg_sq]
    simp only [derivative_mul, derivative_sub, derivative_C, derivative_X, zero_mul, zero_add, one_mul]
    push_cast
    have e : (C (((n : ℝ) + 1) * ((n : ℝ) + 1 + 1)) : ℝ[X]) = C ((n : ℝ) + 1) * C ((n : ℝ) + 1) + C ((n : ℝ) + 1) := by
      rw [← C_mul, ← C_add]; congr 1; ring
    rw [e]
    linear_combination C ((n : ℝ) + 1) * h2

theorem leg_one (n : ℕ) : (leg n).eval 1 = 1 ∧ (leg n).eval (-1) = (-1) ^ n := by
  induction n using Nat.strong_induction_on with
  | _ n ih =>
    match n with
    | 0 => simp [leg]
    | 1 => simp [leg]
    | n + 2 =>
      obtain ⟨a1, a2⟩ := ih n (by omega)
      obtain ⟨b1, b2⟩ := ih (n + 1) (by omega)
      have h : ((n : ℝ) + 2) ≠ 0 := by positivity
      constructor
      · simp only [leg, eval_mul, eval_sub, eval_C, eval_X, a1, b1]
        field_simp
        ring
      · simp only [leg, eval_mul, eval_sub, eval_C, eval_X, a2, b2]
        field_simp
        ring

theorem leg_degree (n : ℕ) : (leg n).natDegree ≤ n ∧ 0 < (leg n).coeff n := by
  induction n using Nat.strong_induction_on with
  | _ n ih =>
    match n with
    | 0 => simp [leg]
    | 1 => simp [leg]
    | n + 2 =>
      obtain ⟨a1, a2⟩ := ih n (by omega)
      obtain ⟨b1, b2⟩ := ih (n + 1) (by omega)
      constructor
      · rw [leg]
        refine natDegree_C_mul_le _ _ |>.trans ?_
        refine (natDegree_sub_le _ _).trans (max_le ?_ ?_)
        · refine natDegree_mul_le.trans ?_
          have : (C (2 * (n : ℝ) + 3) * X : ℝ[X]).natDegree ≤ 1 := (natDegree_C_mul_le _ _).trans natDegree_X_le
          omega
        · exact (natDegree_C_mul_le _ _).trans (by omega)
      · rw [leg, coeff_C_mul, coeff_sub, mul_assoc, coeff_C_mul, coeff_C_mul, coeff_X_mul,
          coeff_eq_zero_of_natDegree_lt (lt_of_le_of_lt a1 (by omega : n < n + 2))]
        rw [mul_zero, sub_zero]
        positivity

theorem leg_degree_eq (n : ℕ) : (leg n).degree = n := by
  obtain ⟨h1, h2⟩ := leg_degree n
  exact degree_eq_of_le_of_coeff_ne_zero (natDegree_le_iff_degree_le.mp h1) h2.ne'

/-! ### The integral as a linear functional -/

theorem integrable_eval (p : ℝ[X]) (a b : ℝ) : IntervalIntegrable (fun x => p.eval x) MeasureTheory.volume a b :=
  p.continuous.intervalIntegrable _ _

theorem integ_add (p q : ℝ[X]) : integ (p + q) = integ p + integ q := by
  simp only [integ, eval_add]
  exact intervalIntegral.integral_add (integrable_eval p _ _) (integrable_eval q _ _)

theorem integ_sub (p q : ℝ[X]) : integ (p - q) = integ p - integ q := by
  simp only [integ, eval_sub]
  exact intervalIntegral.integral_sub (integrable_eval p _ _) (integrable_eval q _ _)

theorem integ_C_mul (c : ℝ) (p : ℝ[X]) : integ (C c * p) = c * integ p := by
  simp only [integ, eval_mul, eval_C]
  exact intervalIntegral.integral_const_mul _ _

theorem integ_sum {ι : Type} (s : Finset ι) (f : ι → ℝ[X]) : integ (∑ i ∈ s, f i) = ∑ i ∈ s, integ (f i) := by
  simp only [integ, eval_finsetSum]
  exact intervalIntegral.integral_finsetSum (fun i _ => integrable_eval _ _ _)

theorem integ_derivative (p : ℝ[X]) : integ (derivative p) = p.eval 1 - p.eval (-1) := by
  unfold integ
  exact intervalIntegral.integral_eq_sub_of_hasDerivAt (fun x _ => p.hasDerivAt x) (integrable_eval _ _ _)

theorem integ_sq_nonneg (p : ℝ[X]) : 0 ≤ integ (p * p) := by
  unfold integ
  apply intervalIntegral.integral_nonneg (by norm_num)
  intro x _
  rw [eval_mul]
  exact mul_self_nonneg _

/-! ### Orthogonality -/

theorem leg_orth_ne (n m : ℕ) (h : n ≠ m) : integ (leg n * leg m) = 0 := by
  have key : ∀ a b : ℕ, (a : ℝ) * (a + 1) * integ (leg a * leg b) = - integ ((X ^ 2 - 1) * derivative (leg a) * derivative (leg b)) := by
    intro a b
    have h1 : C ((a : ℝ) * (a + 1)) * (leg a * leg b) =
        derivative ((X ^ 2 - 1) * derivative (leg a) * leg b) - (X ^ 2 - 1) * derivative (leg a) * derivative (leg b) := by
      rw [derivative_mul (f := (X ^ 2 - 1) * derivative (leg a)), leg_ode]
      ring
    rw [← integ_C_mul, h1, integ_sub, integ_derivative]
    simp
  have h1 := key n m
  have h2 := key m n
  have h3 : integ (leg m * leg n) = integ (leg n * leg m) := by rw [mul_comm]
  have h4 : integ ((X ^ 2 - 1) * derivative (leg m) * derivative (leg n)) = integ ((X ^ 2 - 1) * derivative (leg n) * derivative (leg m)) := by
    congr 1; ring
  rw [h3, h4] at h2
  have h5 : ((n : ℝ) * (n + 1) - m * (m + 1)) * integ (leg n * leg m) = 0 := by linear_combination h1 - h2
  rcases mul_eq_zero.mp h5 with h6 | h6
  · exfalso
    have h7 : ((n : ℝ) - m) * (n + m + 1) = 0 := by linear_combination h6
    rcases mul_eq_zero.mp h7 with h8 | h8
    · exact h (by exact_mod_cast sub_eq_zero.mp h8)
    · have : (0 : ℝ) < n + m + 1 := by positivity
      linarith
  · exact h6

theorem leg_orth_lt (n d : ℕ) (hd : d ≤ n) (q : ℝ[X]) (hq : q.degree < d) : integ (leg n * q) = 0 := by
  induction d generalizing q with
  | zero =>
    have : q = 0 := by
      have h0 : q.degree < 0 := by simpa using hq
      exact degree_eq_bot.mp (Nat.WithBot.lt_zero_iff.mp h0)
    simp [this, integ]
  | succ d ih =>
    obtain ⟨h1, h2⟩ := leg_degree d
    set c := q.coeff d / (leg d).coeff d with hc
    have hlow : (q - C c * leg d).degree < d := by
      rw [degree_lt_iff_coeff_zero]
      intro m hm
      rcases hm.eq_or_lt with rfl | hm
      · rw [coeff_sub, coeff_C_mul, hc, div_mul_cancel₀ _ h2.ne', sub_self]
      · have e1 := (degree_lt_iff_coeff_zero q (d + 1)).mp hq m hm
        have e2 := coeff_eq_zero_of_natDegree_lt (lt_of_le_of_lt h1 hm)
        rw [coeff_sub, coeff_C_mul, e1, e2]; simp
    have h3 := ih (by omega) _ hlow
    have h4 : leg n * q = leg n * (q - C c * leg d) + C c * (leg n * leg d) := by ring
    rw [h4, integ_add, h3, integ_C_mul, leg_orth_ne n d (by omega)]
    simp

theorem leg_isLegendre (n : ℕ) : IsLegendre n (leg n) :=
  ⟨leg_degree_eq n, (leg_one n).1, fun q hq => leg_orth_lt n n le_rfl q hq⟩

theorem integ_sq_pos {p : ℝ[X]} (hp : p ≠ 0) : 0 < integ (p * p) := by
  obtain ⟨c, hc, hc0⟩ : ∃ c ∈ Set.Icc (-1 : ℝ) 1, p.eval c ≠ 0 := by
    by_contra hno
    push Not at hno
    exact hp (eq_zero_of_infinite_isRoot p ((Set.Icc_infinite (by norm_num : (-1 : ℝ) < 1)).mono fun x hx => hno x hx))
  refine intervalIntegral.integral_pos (by norm_num) (p * p).continuous.continuousOn ?_ ⟨c, hc, ?_⟩
  · intro x _; rw [eval_mul]; exact mul_self_nonneg _
  · rw [eval_mul]; exact mul_self_pos.mpr hc0

/-- The Legendre polynomial of each degree is unique. -/
theorem IsLegendre.unique {n : ℕ} {P : ℝ[X]} (h : IsLegendre n P) : P = leg n := by
  obtain ⟨h1, h2⟩ := leg_degree n
  set c := P.coeff n / (leg n).coeff n with hc
  have hlow : (P - C c * leg n).degree < n := by
    rw [degree_lt_iff_coeff_zero]
    intro m hm
    rcases hm.eq_or_lt with rfl | hm
    · rw [coeff_sub, coeff_C_mul, hc, div_mul_cancel₀ _ h2.ne', sub_self]
    · have e1 : P.coeff m = 0 := coeff_eq_zero_of_degree_lt (by rw [h.degree]; exact_mod_cast hm)
      have e2 := coeff_eq_zero_of_natDegree_lt (lt_of_le_of_lt h1 hm)
      rw [coeff_sub, coeff_C_mul, e1, e2]; simp
  have hz : P - C c * leg n = 0 := by
    by_contra hne
    have hpos := integ_sq_pos hne
    have : integ ((P - C c * leg n) * (P - C c * leg n)) = 0 := by
      have e : (P - C c * leg n) * (P - C c * leg n) = P * (P - C c * leg n) - C c * (leg n * (P - C c * leg n)) := by ring
      rw [e, integ_sub, integ_C_mul, h.orthogonal _ hlow, leg_orth_lt n n le_rfl _ hlow]
      simp
    linarith
  have hP : P = C c * leg n := sub_eq_zero.mp hz
  have hc1 : c = 1 := by
    have := h.one
    rw [hP, eval_mul, eval_C, (leg_one n).1, mul_one] at this
    exact this
  rw [hP, hc1, C_1, one_mul]

/-! ### Gauss quadrature -/

section gauss
variable {n : ℕ} {z : ℕ → ℝ} (hinj : Set.InjOn z (Finset.range n)) (hroot : ∀ i < n, (leg n).eval (z i) = 0)

theorem eq_lagrange (hinj : Set.InjOn z (Finset.range n)) (f : ℝ[X]) (hf : f.degree < n) :
    f = ∑ i ∈ Finset.range n, C (f.eval (z i)) * Lagrange.basis (Finset.range n) z i := by
  have := Lagrange.eq_interpolate (s := Finset.range n) (v := z) hinj (f := f) (by simpa using hf)
  rw [Lagrange.interpolate_apply] at this
  exact this

theorem gauss_exact_lt (hinj : Set.InjOn z (Finset.range n)) (f : ℝ[X]) (hf : f.degree < n) :
    integ f = ∑ i ∈ Finset.range n, integ (Lagrange.basis (Finset.range n) z i) * f.eval (z i) := by
  conv_lhs => rw [eq_lagrange hinj f hf]
  rw [integ_sum]
  refine Finset.sum_congr rfl fun i _ => ?_
  rw [integ_C_mul, mul_comm]

include hroot in
theorem gauss_exact_basis (hinj : Set.InjOn z (Finset.range n)) (f : ℝ[X]) (hf : f.degree < ((2 * n : ℕ) : WithBot ℕ)) :
    integ f = ∑ i ∈ Finset.range n, integ (Lagrange.basis (Finset.range n) z i) * f.eval (z i) := by
  have hL : leg n ≠ 0 := by
    intro h0
    have := (leg_one n).1
    rw [h0] at this; simp at this
  have hdiv : leg n * (f / leg n) + f % leg n = f := EuclideanDomain.div_add_mod f (leg n)
  have hr : (f % leg n).degree < n := by rw [← leg_degree_eq n]; exact degree_mod_lt f hL
  have hg : (f / leg n).degree < n := by
    by_cases hlt : f.degree < (leg n).degree
    · rw [(Polynomial.div_eq_zero_iff hL).mpr hlt]
      simp [bot_lt_iff_ne_bot]
    · have hdd := degree_add_div hL (not_lt.mp hlt)
      rw [leg_degree_eq] at hdd
      by_cases hq : f / leg n = 0
      · rw [hq]; simp [bot_lt_iff_ne_bot]
      · rw [degree_eq_natDegree hq] at hdd ⊢
        rw [← hdd] at hf
        have : n + (f / leg n).natDegree < 2 * n := by exact_mod_cast hf
        exact_mod_cast (by omega : (f / leg n).natDegree < n)
  have heval : ∀ i < n, f.eval (z i) = (f % leg n).eval (z i) := by
    intro i hi
    conv_lhs => rw [← hdiv]
    rw [eval_add, eval_mul, hroot i hi, zero_mul, zero_add]
  conv_lhs => rw [← hdiv]
  rw [integ_add, leg_orth_lt n n le_rfl _ hg, zero_add, gauss_exact_lt hinj _ hr]
  refine Finset.sum_congr rfl fun i hi => ?_
  rw [heval i (Finset.mem_range.mp hi)]

include hroot in
/-- The weight of node `i` and the formula of the code. -/
theorem gauss_weight (hinj : Set.InjOn z (Finset.range n)) (i : ℕ) (hi : i < n) :
    integ (Lagrange.basis (Finset.range n) z i) = 2 / ((1 - z i * z i) * (derivative (leg n)).eval (z i) * (derivative (leg n)).eval (z i)) ∧
    0 < integ (Lagrange.basis (Finset.range n) z i) := by
  set P := leg n
  set W := integ (Lagrange.basis (Finset.range n) z i) with hW
  obtain ⟨Q, hQ⟩ : (X - C (z i)) ∣ P := dvd_iff_isRoot.mpr (hroot i hi)
  have hP0 : P ≠ 0 := by
    intro h0
    have := (leg_one n).1
    change P.eval 1 = 1 at this
    rw [h0] at this; simp at this
  have hQ0 : Q ≠ 0 := by rintro rfl; rw [mul_zero] at hQ; exact hP0 hQ
  have hdP : derivative P = Q + (X - C (z i)) * derivative Q := by
    rw [hQ, derivative_mul]; simp
  have hQz : (derivative P).eval (z i) = Q.eval (z i) := by rw [hdP]; simp
  -- values of Q at the other nodes
  have hQj : ∀ j < n, j ≠ i → Q.eval (z j) = 0 := by
    intro j hj hji
    have h1 := hroot j hj
    change P.eval (z j) = 0 at h1
    rw [hQ, eval_mul] at h1
    rcases mul_eq_zero.mp h1 with h2 | h2
    · exfalso
      simp only [eval_sub, eval_X, eval_C] at h2
      exact hji (hinj (by simpa using hj) (by simpa using hi) (sub_eq_zero.mp h2))
    · exact h2
  have hQdeg : Q.natDegree + 1 = n := by
    have h1 : P.natDegree = n := natDegree_eq_of_degree_eq_some (leg_degree_eq n)
    rw [hQ, natDegree_mul (X_sub_C_ne_zero _) hQ0, natDegree_X_sub_C] at h1
    omega
  have hdPdeg : (derivative P).natDegree ≤ n - 1 := by
    refine (natDegree_derivative_le P).trans ?_
    have h1 : P.natDegree = n := natDegree_eq_of_degree_eq_some (leg_degree_eq n)
    omega
  have hsum : ∀ f : ℝ[X], f.natDegree ≤ n - 1 → integ (Q * f) = W * (Q.eval (z i) * f.eval (z i)) := by
    intro f hf
    rw [gauss_exact_basis hroot hinj (Q * f)]
    · rw [Finset.sum_eq_single i]
      · rw [eval_mul]
      · intro j hj hji
        rw [eval_mul, hQj j (Finset.mem_range.mp hj) hji]; simp
      · intro h; exact absurd (Finset.mem_range.mpr hi) h
    · refine lt_of_le_of_lt degree_le_natDegree ?_
      have := natDegree_mul_le (p := Q) (q := f)
      exact_mod_cast (by omega : (Q * f).natDegree < 2 * n)
  have e1 := hsum Q (by omega)
  have e2 := hsum (derivative P) hdPdeg
  have e3 : derivative ((X - C (z i)) * (Q * Q)) = C 2 * (Q * derivative P) - Q * Q := by
    rw [hdP]
    simp only [derivative_mul, derivative_sub, derivative_X, derivative_C, sub_zero, one_mul]
    rw [show (C (2 : ℝ) : ℝ[X]) = 2 from map_ofNat C 2]
    ring
  have e4 := congrArg integ e3
  rw [integ_derivative, integ_sub, integ_C_mul, e1, e2, hQz] at e4
  simp only [eval_mul, eval_sub, eval_X, eval_C] at e4
  have p1 : (1 - z i) * Q.eval 1 = 1 := by
    have := (leg_one n).1
    change P.eval 1 = 1 at this
    rw [hQ, eval_mul] at this
    simpa using this
  have p2 : ((-1 - z i) * Q.eval (-1)) ^ 2 = 1 := by
    have := (leg_one n).2
    change P.eval (-1) = (-1) ^ n at this
    rw [hQ, eval_mul] at this
    simp only [eval_sub, eval_X, eval_C] at this
    rw [this, ← pow_mul, mul_comm, pow_mul]; simp
  have q1 : 1 - z i ≠ 0 := by intro h; rw [h, zero_mul] at p1; exact zero_ne_one p1
  have q2 : 1 + z i ≠ 0 := by
    intro h
    have : -1 - z i = 0 := by linarith
    rw [this] at p2; norm_num at p2
  -- W Q(z)^2 = 2/(1-z^2)
  have key : (1 - z i * z i) * (W * (Q.eval (z i) * Q.eval (z i))) = 2 := by
    have e5 : W * (Q.eval (z i) * Q.eval (z i)) = (1 - z i) * (Q.eval 1 * Q.eval 1) - (-1 - z i) * (Q.eval (-1) * Q.eval (-1)) := by
      linarith
    rw [e5]
    linear_combination (1 + z i) * ((1 - z i) * Q.eval 1 + 1) * p1 + (1 - z i) * p2
  have hQne : Q.eval (z i) ≠ 0 := by intro h; rw [h] at key; norm_num at key
  have hne : 1 - z i * z i ≠ 0 := by intro h; rw [h, zero_mul] at key; norm_num at key
  rw [hQz]
  have hWv : W = 2 / ((1 - z i * z i) * Q.eval (z i) * Q.eval (z i)) := by
    rw [eq_div_iff (by positivity)]
    linear_combination key
  refine ⟨hWv, ?_⟩
  have hpos := integ_sq_pos hQ0
  rw [e1] at hpos
  exact pos_of_mul_pos_left hpos (mul_self_nonneg _)

include hroot in
/-- Gauss-Legendre quadrature with the weights of the code is exact up to degree `2n-1`. -/
theorem gauss_exact (hinj : Set.InjOn z (Finset.range n)) (f : ℝ[X]) (hf : f.degree < ((2 * n : ℕ) : WithBot ℕ)) :
    integ f = ∑ i ∈ Finset.range n,
      2 / ((1 - z i * z i) * (derivative (leg n)).eval (z i) * (derivative (leg n)).eval (z i)) * f.eval (z i) := by
  rw [gauss_exact_basis hroot hinj f hf]
  refine Finset.sum_congr rfl fun i hi => ?_
  rw [(gauss_weight hroot hinj i (Finset.mem_range.mp hi)).1]

end gauss

end Verif
