import Verif.Props.LoopBispectrum
import Verif.Props.Quadrature
import Verif.Proofs.Spherical

/-!
# C64: the two parts of the two-loop A term

The quadrature part (`calc_pk_A_2loop_I`) and the Monte-Carlo part (`calc_pk_A_2loop_II_III`) are added.  Each is an integral over
the triangles `(k, p, k-p)`; the second has a further loop momentum.  The coordinates of the unit cube are described below without
reference to the code, and the integrand is compared with the assembly of the quadrature part.
-/

namespace Verif

/-- What a point of the unit cube stands for: radius and cosine of `p`, and the loop momentum `q` in spherical coordinates. -/
structure A2Point where
  p : ℝ
  mu : ℝ
  q : ℝ
  theta : ℝ
  phi : ℝ

/-- Logarithmic radii between `qmin` and `qmax`, cosine over `[-1,1]`, polar angle over `[0,π]`, azimuth over `[0,2π]`. -/
noncomputable def a2Point (qmin qmax : ℝ) (xx : Fin 5 → ℝ) : A2Point where
  p := qmin * (qmax / qmin) ^ xx 0
  mu := 2 * xx 1 - 1
  q := qmin * (qmax / qmin) ^ xx 2
  theta := Real.pi * xx 3
  phi := 2 * Real.pi * xx 4

namespace A2Point

/-- The wavevector `p`, in the plane of the first and third axes. -/
noncomputable def pv (s : A2Point) : Vec := ⟨s.p * Real.sqrt (1 - s.mu ^ 2), 0, s.p * s.mu⟩

/-- The third side of the triangle, `k - p` with `k` along the third axis. -/
noncomputable def rv (s : A2Point) (k : ℝ) : Vec := ⟨0, 0, k⟩ - s.pv

/-- The loop momentum. -/
noncomputable def qv (s : A2Point) : Vec :=
  ⟨s.q * Real.sin s.theta * Real.cos s.phi, s.q * Real.sin s.theta * Real.sin s.phi, s.q * Real.cos s.theta⟩

/-- Jacobian of the coordinates: `dp/p · dμ` for the outer integral and `d³q` for the loop, per unit volume of the cube. -/
noncomputable def jac (s : A2Point) (qmin qmax : ℝ) : ℝ :=
  (Real.log (qmax / qmin) * 2) * (s.q ^ 3 * Real.sin s.theta * (Real.log (qmax / qmin) * Real.pi * (2 * Real.pi)))

end A2Point

/-- Fields of the second and third legs of the four bispectra (the first leg is a velocity). -/
def a2Fields : Fin 4 → Field × Field := ![(.delta, .delta), (.theta, .delta), (.delta, .theta), (.theta, .theta)]

theorem a2_radius (qmin qmax x : ℝ) (h0 : 0 < qmin) (h1 : qmin ≤ qmax) :
    Real.exp (Real.log qmin + (Real.log qmax - Real.log qmin) * x) = qmin * (qmax / qmin) ^ x := by
  have hq : 0 < qmax := h0.trans_le h1
  rw [Real.exp_add, Real.exp_log h0, ← Real.log_div hq.ne' h0.ne', Real.rpow_def_of_pos (div_pos hq h0)]

/-- C64: the three legs form a triangle with sides `p`, `|k-p|` and `k`, the radii are within the range and the loop momentum has
the modulus `q`. -/
theorem C64_triangle (k qmin qmax : ℝ) (h0 : 0 < qmin) (h1 : qmin ≤ qmax) (xx : Fin 5 → ℝ) (hx : ∀ i, 0 ≤ xx i ∧ xx i ≤ 1) :
    let s := a2Point qmin qmax xx
    s.pv + s.rv k + ⟨0, 0, -k⟩ = ⟨0, 0, 0⟩ ∧ s.pv.modulus = s.p ∧ s.qv.modulus = s.q ∧
      (s.rv k).modulus = Real.sqrt (k ^ 2 + s.p ^ 2 - 2 * k * s.p * s.mu) ∧
      s.pv.dot ⟨0, 0, k⟩ = s.p * k * s.mu ∧ qmin ≤ s.p ∧ s.p ≤ qmax ∧ qmin ≤ s.q ∧ s.q ≤ qmax := by
  intro s
  have hq : 0 < qmax := h0.trans_le h1
  have hr : ∀ i, qmin ≤ qmin * (qmax / qmin) ^ xx i ∧ qmin * (qmax / qmin) ^ xx i ≤ qmax := fun i => by
    have h : 1 ≤ qmax / qmin := (one_le_div h0).2 h1
    constructor
    · exact le_mul_of_one_le_right h0.le (Real.one_le_rpow h (hx i).1)
    · have := Real.rpow_le_rpow_of_exponent_le h (hx i).2
      rw [Real.rpow_one] at this
      calc qmin * (qmax / qmin) ^ xx i ≤ qmin * (qmax / qmin) := mul_le_mul_of_nonneg_left this h0.le
        _ = qmax := by field_simp
  have hp0 : 0 ≤ s.p := h0.le.trans (hr 0).1
  have hq0 : 0 ≤ s.q := h0.le.trans (hr 2).1
  have hmu : 0 ≤ 1 - s.mu ^ 2 := by
    have := hx 1
    show 0 ≤ 1 - (2 * xx 1 - 1) ^ 2
    nlinarith
  have hs := Real.mul_self_sqrt hmu
  refine ⟨?_, ?_, ?_, ?_, ?_, (hr 0).1, (hr 0).2, (hr 2).1, (hr 2).2⟩
  · show Vec.mk _ _ _ = Vec.mk _ _ _
    simp [A2Point.rv]
  · unfold Vec.modulus
    have : s.pv.dot s.pv = s.p ^ 2 := by
      simp only [A2Point.pv, Vec.dot]
      linear_combination s.p ^ 2 * hs
    rw [this, Real.sqrt_sq hp0]
  · unfold Vec.modulus
    have : s.qv.dot s.qv = s.q ^ 2 := by
      simp only [A2Point.qv, Vec.dot]
      have h2 := Real.sin_sq_add_cos_sq s.theta
      have h3 := Real.sin_sq_add_cos_sq s.phi
      linear_combination s.q ^ 2 * (h2 + Real.sin s.theta ^ 2 * h3)
    rw [this, Real.sqrt_sq hq0]
  · unfold Vec.modulus
    congr 1
    simp only [A2Point.rv, A2Point.pv, Vec.dot, Vec.sub_x, Vec.sub_y, Vec.sub_z]
    linear_combination s.p ^ 2 * hs
  · simp only [A2Point.pv, Vec.dot]
    ring

/-- The twelve products of the integrand are the assembly times a common factor. -/
theorem a2_scale (x mu e q s j : ℝ) (A T : Fin 4 → ℝ) :
    (![projA x mu 0 * (e * x * q * q * q * s * j) * A 0, projA x mu 1 * (e * x * q * q * q * s * j) * A 1,
      projA x mu 2 * (e * x * q * q * q * s * j) * A 1, projA x mu 3 * (e * x * q * q * q * s * j) * A 2,
      projA x mu 4 * (e * x * q * q * q * s * j) * A 3, projA x mu 5 * (e * x * q * q * q * s * j) * A 3,
      projtA x mu 0 * (e * x * q * q * q * s * j) * T 0, projtA x mu 1 * (e * x * q * q * q * s * j) * T 1,
      projtA x mu 2 * (e * x * q * q * q * s * j) * T 1, projtA x mu 3 * (e * x * q * q * q * s * j) * T 2,
      projtA x mu 4 * (e * x * q * q * q * s * j) * T 3, projtA x mu 5 * (e * x * q * q * q * s * j) * T 3] : Fin 12 → ℝ) =
    fun i => assembleA2 x mu ⟨A, T⟩ i * (e * q * q * q * s * j) := by
  unfold assembleA2
  dsimp only
  generalize projA x mu = a
  generalize projtA x mu = b
  funext i
  fin_cases i <;> simp only [Fin.mk_zero, Fin.mk_one, Fin.reduceFinMk, Matrix.cons_val] <;> ring

open Classical in
/-- C64: the integrand is evaluated exactly in the half plane `p ≤ |k-p|`; there it is the assembly used by the quadrature part
(`assembleA2`), applied to the eight loop bispectra, times the damping factor and the Jacobian, unless the damping exponent
reaches 100.  Missing for C64: the restriction of `|k-p|` to the range, see `C64_domain_violation`. -/
theorem C64_integrand_partial (t : Pk ℝ) (interpol : Interpol) (uvcutoff k qmin qmax : ℝ) (hk : 0 < k) (h0 : 0 < qmin) (h1 : qmin ≤ qmax)
    (xx : Fin 5 → ℝ) (hx : ∀ i, 0 ≤ xx i ∧ xx i ≤ 1) (sk sp sr : ℝ) (A T : Fin 4 → ℝ) :
    let s := a2Point qmin qmax xx
    sigma1 t uvcutoff k = .ok sk → sigma1 t uvcutoff s.pv.modulus = .ok sp → sigma1 t uvcutoff (s.rv k).modulus = .ok sr →
    (∀ i, biSum t interpol s.pv (s.rv k) ⟨0, 0, -k⟩ s.qv .theta (a2Fields i).1 (a2Fields i).2 = .ok (A i)) →
    (∀ i, biSum t interpol (s.rv k) s.pv ⟨0, 0, -k⟩ s.qv .theta (a2Fields i).1 (a2Fields i).2 = .ok (T i)) →
    let E := (k ^ 2 * sk + s.pv.modulus ^ 2 * sp + (s.rv k).modulus ^ 2 * sr) / 2
    kernelA2II t interpol uvcutoff k qmin qmax xx = .ok (
      if s.pv.modulus ≤ (s.rv k).modulus ∧ E < 100 then
        fun i => assembleA2 (s.p / k) s.mu ⟨A, T⟩ i * Real.exp (-E) * s.jac qmin qmax
      else fun _ => 0) := by
  intro s hsk hsp hsr hA hT E
  obtain ⟨-, hp, -, hr, -, hp1, -⟩ := C64_triangle k qmin qmax h0 h1 xx hx
  have hpp : 0 < s.p := h0.trans_le hp1
  have hlog : Real.log qmax - Real.log qmin = Real.log (qmax / qmin) := (Real.log_div (h0.trans_le h1).ne' h0.ne').symm
  have hmu : -1 + 2 * xx 1 = s.mu := by show _ = 2 * xx 1 - 1; ring
  have e0 : qmin * (qmax / qmin) ^ xx 0 = s.p := rfl
  have e2 : qmin * (qmax / qmin) ^ xx 2 = s.q := rfl
  have eth : xx 3 * Real.pi = s.theta := by show _ = Real.pi * xx 3; ring
  have eph : xx 4 * 2 * Real.pi = s.phi := by show _ = 2 * Real.pi * xx 4; ring
  have hpv : (⟨s.p * Real.sqrt (1 - s.mu * s.mu), 0, s.p * s.mu⟩ : Vec) = s.pv := by
    show Vec.mk _ _ _ = Vec.mk _ _ _
    rw [pow_two]
  have hkn : (-(⟨0, 0, -k⟩ : Vec)) = ⟨0, 0, k⟩ := by
    show Vec.mk _ _ _ = Vec.mk _ _ _
    simp
  have hkp : k * Real.sqrt (1 + s.p / k * (s.p / k) - 2 * (s.p / k) * s.mu) = (s.rv k).modulus := by
    rw [hr]
    have : k ^ 2 + s.p ^ 2 - 2 * k * s.p * s.mu = k ^ 2 * (1 + s.p / k * (s.p / k) - 2 * (s.p / k) * s.mu) := by
      field_simp
    rw [this, Real.sqrt_mul (sq_nonneg k), Real.sqrt_sq hk.le]
  have hcond : 0.5 / (s.p / k) < s.mu ↔ ¬ s.pv.modulus ≤ (s.rv k).modulus := by
    rw [hp, hr, not_le, Real.sqrt_lt' hpp]
    rw [div_lt_iff₀ (div_pos hpp hk)]
    have : s.mu * (s.p / k) = s.p * s.mu / k := by ring
    rw [this, lt_div_iff₀ hk]
    constructor <;> intro h <;> nlinarith
  unfold kernelA2II
  dsimp only
  rw [a2_radius _ _ _ h0 h1, a2_radius _ _ _ h0 h1, hmu, e0, e2, eth, eph, hlog]
  by_cases hc : s.pv.modulus ≤ (s.rv k).modulus
  · rw [if_neg (by rw [hcond]; exact not_not.2 hc), hkp, hsk]
    rw [hpv, hkn, show (⟨0, 0, k⟩ - s.pv : Vec) = s.rv k from rfl]
    rw [hp] at hsp
    rw [hsp, hsr]
    simp only [Res.ok_bind]
    have hE : (k * k * sk + s.p * s.p * sp + (s.rv k).modulus * (s.rv k).modulus * sr) / 2 = E := by
      simp only [E]
      rw [hp]
      ring
    rw [hE]
    by_cases hE1 : 100 ≤ E
    · rw [if_pos hE1, if_neg fun h => (not_lt.2 hE1) h.2]
    · rw [if_neg hE1, if_pos ⟨hc, not_le.1 hE1⟩]
      have a0 := hA 0
      have a1 := hA 1
      have a2 := hA 2
      have a3 := hA 3
      have t0 := hT 0
      have t1 := hT 1
      have t2 := hT 2
      have t3 := hT 3
      simp only [a2Fields, Matrix.cons_val] at a0 a1 a2 a3 t0 t1 t2 t3
      rw [show (⟨s.q * Real.sin s.theta * Real.cos s.phi, s.q * Real.sin s.theta * Real.sin s.phi, s.q * Real.cos s.theta⟩ : Vec) =
        s.qv from rfl, a0, a1, a2, a3, t0, t1, t2, t3]
      simp only [Res.ok_bind]
      rw [a2_scale]
      congr 1
      funext i
      have : Real.exp (-E) * s.q * s.q * s.q * Real.sin s.theta *
          (Real.log (qmax / qmin) * Real.log (qmax / qmin) * 4 * Real.pi * Real.pi) = Real.exp (-E) * s.jac qmin qmax := by
        simp only [A2Point.jac]
        ring
      rw [this, mul_assoc]
  · rw [if_pos (hcond.2 hc), if_neg fun h => hc h.1]

/-! ## The two parts integrate different configurations -/

/-- A point of the unit cube: with modes from 1 to 4 it stands for `p = q = 2` at cosine `-3/5`. -/
noncomputable def exCube : Fin 5 → ℝ := ![1 / 2, 1 / 5, 1 / 2, 1 / 2, 1 / 4]

theorem exCube_unit (i : Fin 5) : 0 ≤ exCube i ∧ exCube i ≤ 1 := by
  fin_cases i <;> norm_num [exCube]

theorem exCube_point : a2Point 1 4 exCube = ⟨2, -3 / 5, 2, Real.pi / 2, Real.pi / 2⟩ := by
  have h : (4 : ℝ) ^ ((1 : ℝ) / 2) = 2 := by
    rw [← Real.sqrt_eq_rpow, show (4 : ℝ) = 2 ^ 2 by norm_num, Real.sqrt_sq (by norm_num)]
  simp only [a2Point, exCube, Matrix.cons_val, div_one, one_mul, h, A2Point.mk.injEq, true_and]
  refine ⟨by norm_num, by ring, by ring⟩

theorem exCube_pv : (a2Point 1 4 exCube).pv = ⟨8 / 5, 0, -6 / 5⟩ := by
  rw [exCube_point]
  have : Real.sqrt (1 - (-3 / 5) ^ 2) = 4 / 5 := by
    rw [show (1 : ℝ) - (-3 / 5) ^ 2 = (4 / 5) ^ 2 by norm_num, Real.sqrt_sq (by norm_num)]
  show Vec.mk _ _ _ = Vec.mk _ _ _
  simp only [this, Vec.mk.injEq]
  norm_num

theorem exCube_rv : (a2Point 1 4 exCube).rv 3 = ⟨-8 / 5, 0, 21 / 5⟩ := by
  unfold A2Point.rv
  rw [exCube_pv]
  show Vec.mk _ _ _ = Vec.mk _ _ _
  norm_num

theorem exCube_qv : (a2Point 1 4 exCube).qv = ⟨0, 2, 0⟩ := by
  rw [exCube_point]
  show Vec.mk _ _ _ = Vec.mk _ _ _
  simp

/-- With a constant spectrum the sum of the two parts at given legs, all internal momenta being longer than `q`. -/
theorem biSum_flat (t : Pk ℝ) (interpol : Interpol) (hP : ∀ k, look t interpol k = .ok 1) (k1 k2 k3 q : Vec) (a b c : Field)
    (h1 : q.norm < (k1 - q).norm) (h2 : q.norm < (k2 - q).norm) (h3 : q.norm < (k3 - q).norm)
    (h1' : q.norm < (k1 + q).norm) (h2' : q.norm < (k2 + q).norm) (h3' : q.norm < (k3 + q).norm) :
    biSum t interpol k1 k2 k3 q a b c = .ok (
      (F2Full a (k1 - q) q * F2Full b (k2 + q) (-q) * F2Full c (k2 + q) (k1 - q)
        + F2Full a (k1 + q) (-q) * F2Full b (k2 - q) q * F2Full c (k2 - q) (k1 + q)
        + F2Full c (k3 - q) q * F2Full b (k2 + q) (-q) * F2Full a (k2 + q) (k3 - q)
        + F2Full c (k3 + q) (-q) * F2Full b (k2 - q) q * F2Full a (k2 - q) (k3 + q)
        + F2Full a (k1 - q) q * F2Full c (k3 + q) (-q) * F2Full b (k3 + q) (k1 - q)
        + F2Full a (k1 + q) (-q) * F2Full c (k3 - q) q * F2Full b (k3 - q) (k1 + q)) * (4 / power (2 * Real.pi) 3)
      + ((F3Sym a k3 (k2 - q) q + F3Sym c k1 (k2 - q) q) * F2Full b (k2 - q) q
        + (F3Sym a k3 (k2 + q) (-q) + F3Sym c k1 (k2 + q) (-q)) * F2Full b (k2 + q) (-q)
        + (F3Sym a k2 (k3 - q) q + F3Sym b k1 (k3 - q) q) * F2Full c (k3 - q) q
        + (F3Sym a k2 (k3 + q) (-q) + F3Sym b k1 (k3 + q) (-q)) * F2Full c (k3 + q) (-q)
        + (F3Sym b k3 (k1 - q) q + F3Sym c k2 (k1 - q) q) * F2Full a (k1 - q) q
        + (F3Sym b k3 (k1 + q) (-q) + F3Sym c k2 (k1 + q) (-q)) * F2Full a (k1 + q) (-q)) * (6 / power (2 * Real.pi) 3)) := by
  unfold biSum bispectrumII
  dsimp only
  rw [hP, biLeg_eq t (fun _ => 1) interpol hP, biLeg_eq t (fun _ => 1) interpol hP, biLeg_eq t (fun _ => 1) interpol hP]
  simp only [Res.ok_bind, bk222, bk321, legOf, if_pos h1, if_pos h2, if_pos h3, if_pos h1', if_pos h2', if_pos h3',
    if_pos (And.intro h1 h2'), if_pos (And.intro h1' h2), if_pos (And.intro h3 h2'), if_pos (And.intro h3' h2),
    if_pos (And.intro h1 h3'), if_pos (And.intro h1' h3)]
  congr 1
  ring

theorem vec_add_mk (a b c p q r : ℝ) : (⟨a, b, c⟩ : Vec) + ⟨p, q, r⟩ = ⟨a + p, b + q, c + r⟩ := rfl

theorem vec_sub_mk (a b c p q r : ℝ) : (⟨a, b, c⟩ : Vec) - ⟨p, q, r⟩ = ⟨a - p, b - q, c - r⟩ := rfl

theorem vec_neg_mk (a b c : ℝ) : -(⟨a, b, c⟩ : Vec) = ⟨-a, -b, -c⟩ := rfl

/-! The third-order kernels met at the point. -/

theorem exF3_1 : F3Sym .theta ⟨0, 0, -3⟩ ⟨-(8 / 5), -2, 21 / 5⟩ ⟨0, 2, 0⟩ = -103 / 23595 := by
  norm_num [F3Sym, F3, vec_add_mk, tiny, eps, abs_lt, F2Fast, Vec.dot, sigmaab]

theorem exF3_2 : F3Sym .delta ⟨8 / 5, 0, -(6 / 5)⟩ ⟨-(8 / 5), -2, 21 / 5⟩ ⟨0, 2, 0⟩ = -13567 / 440440 := by
  norm_num [F3Sym, F3, vec_add_mk, tiny, eps, abs_lt, F2Fast, Vec.dot, sigmaab]

theorem exF3_3 : F3Sym .theta ⟨0, 0, -3⟩ ⟨-(8 / 5), 2, 21 / 5⟩ ⟨0, -2, 0⟩ = -103 / 23595 := by
  norm_num [F3Sym, F3, vec_add_mk, tiny, eps, abs_lt, F2Fast, Vec.dot, sigmaab]

theorem exF3_4 : F3Sym .delta ⟨8 / 5, 0, -(6 / 5)⟩ ⟨-(8 / 5), 2, 21 / 5⟩ ⟨0, -2, 0⟩ = -13567 / 440440 := by
  norm_num [F3Sym, F3, vec_add_mk, tiny, eps, abs_lt, F2Fast, Vec.dot, sigmaab]

theorem exF3_5 : F3Sym .theta ⟨-(8 / 5), 0, 21 / 5⟩ ⟨0, -2, -3⟩ ⟨0, 2, 0⟩ = -3439 / 476619 := by
  norm_num [F3Sym, F3, vec_add_mk, tiny, eps, abs_lt, F2Fast, Vec.dot, sigmaab]

theorem exF3_6 : F3Sym .delta ⟨8 / 5, 0, -(6 / 5)⟩ ⟨0, -2, -3⟩ ⟨0, 2, 0⟩ = 5049377 / 19819800 := by
  norm_num [F3Sym, F3, vec_add_mk, tiny, eps, abs_lt, F2Fast, Vec.dot, sigmaab]

theorem exF3_7 : F3Sym .theta ⟨-(8 / 5), 0, 21 / 5⟩ ⟨0, 2, -3⟩ ⟨0, -2, 0⟩ = -3439 / 476619 := by
  norm_num [F3Sym, F3, vec_add_mk, tiny, eps, abs_lt, F2Fast, Vec.dot, sigmaab]

theorem exF3_8 : F3Sym .delta ⟨8 / 5, 0, -(6 / 5)⟩ ⟨0, 2, -3⟩ ⟨0, -2, 0⟩ = 5049377 / 19819800 := by
  norm_num [F3Sym, F3, vec_add_mk, tiny, eps, abs_lt, F2Fast, Vec.dot, sigmaab]

theorem exF3_9 : F3Sym .delta ⟨0, 0, -3⟩ ⟨8 / 5, -2, -(6 / 5)⟩ ⟨0, 2, 0⟩ = 2204681 / 9909900 := by
  norm_num [F3Sym, F3, vec_add_mk, tiny, eps, abs_lt, F2Fast, Vec.dot, sigmaab]

theorem exF3_10 : F3Sym .delta ⟨-(8 / 5), 0, 21 / 5⟩ ⟨8 / 5, -2, -(6 / 5)⟩ ⟨0, 2, 0⟩ = -206707 / 22242220 := by
  norm_num [F3Sym, F3, vec_add_mk, tiny, eps, abs_lt, F2Fast, Vec.dot, sigmaab]

theorem exF3_11 : F3Sym .delta ⟨0, 0, -3⟩ ⟨8 / 5, 2, -(6 / 5)⟩ ⟨0, -2, 0⟩ = 2204681 / 9909900 := by
  norm_num [F3Sym, F3, vec_add_mk, tiny, eps, abs_lt, F2Fast, Vec.dot, sigmaab]

theorem exF3_12 : F3Sym .delta ⟨-(8 / 5), 0, 21 / 5⟩ ⟨8 / 5, 2, -(6 / 5)⟩ ⟨0, -2, 0⟩ = -206707 / 22242220 := by
  norm_num [F3Sym, F3, vec_add_mk, tiny, eps, abs_lt, F2Fast, Vec.dot, sigmaab]

theorem exCube_biSum : biSum exFlat .poly ⟨8 / 5, 0, -6 / 5⟩ ⟨-8 / 5, 0, 21 / 5⟩ ⟨0, 0, -3⟩ ⟨0, 2, 0⟩ .theta .delta .delta =
    .ok (6089293922513 / 25715453864100 / power (2 * Real.pi) 3) := by
  have hn : ∀ v : Vec, 4 < v.x * v.x + v.y * v.y + v.z * v.z → Vec.norm ⟨0, 2, 0⟩ < v.norm := fun v h =>
    Real.sqrt_lt_sqrt (by norm_num) (by norm_num; linarith)
  rw [biSum_flat exFlat .poly exFlat_look _ _ _ _ _ _ _ (hn _ (by norm_num)) (hn _ (by norm_num)) (hn _ (by norm_num))
    (hn _ (by norm_num)) (hn _ (by norm_num)) (hn _ (by norm_num))]
  norm_num only [vec_add_mk, vec_sub_mk, vec_neg_mk]
  simp only [exF3_1, exF3_2, exF3_3, exF3_4, exF3_5, exF3_6, exF3_7, exF3_8, exF3_9, exF3_10, exF3_11, exF3_12]
  norm_num [F2Full, F2Fast, Vec.dot]
  ring

theorem exFlat_biSum (k1 k2 k3 q : Vec) (a b c : Field) : ∃ v, biSum exFlat .poly k1 k2 k3 q a b c = .ok v := by
  unfold biSum bispectrumII
  dsimp only
  rw [exFlat_look, biLeg_eq exFlat (fun _ => 1) .poly exFlat_look, biLeg_eq exFlat (fun _ => 1) .poly exFlat_look,
    biLeg_eq exFlat (fun _ => 1) .poly exFlat_look]
  exact ⟨_, rfl⟩

theorem exFlat_sigma (k : ℝ) : ∃ v, sigma1 exFlat 0.5 k = .ok v ∧ 0 ≤ v ∧ v ≤ 1 := by
  obtain ⟨vs, h1, -, h2, -⟩ := C12_sigmad2_shape exFlat exFlat_physical.toIncreasing (by norm_num [exFlat])
    (fun i hi => by
      have : i = 0 ∨ i = 1 ∨ i = 2 := by simp [exFlat] at hi; omega
      rcases this with rfl | rfl | rfl <;> simp [exFlat]) 0.5 (by norm_num) [k] (by simp)
  obtain ⟨v, hv⟩ := sigma1_defined exFlat_physical.toWF (by norm_num [exFlat]) 0.5 k
  have hv' := hv
  unfold sigma1 at hv'
  rw [h1, Res.ok_bind] at hv'
  have hm : v ∈ vs := by
    unfold rd at hv'
    split at hv'
    · cases hv'
      rename_i h
      exact List.mem_of_getElem? h
    · cases hv'
  refine ⟨v, hv, (h2 v hm).1, (h2 v hm).2.trans ?_⟩
  have hpi := Real.two_le_pi
  simp only [sigmav2, exFlat]
  norm_num [Finset.sum_range_succ]
  rw [div_div, div_mul_eq_mul_div, div_le_one (by positivity)]
  nlinarith

/-- The hypotheses of `C64_integrand_partial` hold for the constant spectrum at the point `exCube`, in the half plane and below the damping
threshold. -/
theorem exCube_kernel : ∃ (A T : Fin 4 → ℝ) (E : ℝ), A 0 = 6089293922513 / 25715453864100 / power (2 * Real.pi) 3 ∧
    kernelA2II exFlat .poly 0.5 3 1 4 exCube = .ok fun i =>
      assembleA2 (2 / 3) (-3 / 5) ⟨A, T⟩ i * Real.exp (-E) * (a2Point 1 4 exCube).jac 1 4 := by
  obtain ⟨sk, hsk, hk0, hk1⟩ := exFlat_sigma 3
  obtain ⟨sp, hsp, hp0, hp1⟩ := exFlat_sigma (a2Point 1 4 exCube).pv.modulus
  obtain ⟨sr, hsr, hr0, hr1⟩ := exFlat_sigma ((a2Point 1 4 exCube).rv 3).modulus
  choose A hA using fun i => exFlat_biSum (a2Point 1 4 exCube).pv ((a2Point 1 4 exCube).rv 3) ⟨0, 0, -3⟩ (a2Point 1 4 exCube).qv .theta
    (a2Fields i).1 (a2Fields i).2
  choose T hT using fun i => exFlat_biSum ((a2Point 1 4 exCube).rv 3) (a2Point 1 4 exCube).pv ⟨0, 0, -3⟩ (a2Point 1 4 exCube).qv .theta
    (a2Fields i).1 (a2Fields i).2
  have key := C64_integrand_partial exFlat .poly 0.5 3 1 4 (by norm_num) (by norm_num) (by norm_num) exCube exCube_unit sk sp sr A T hsk hsp hsr hA hT
  have e1 : (a2Point 1 4 exCube).pv.modulus = 2 := by
    rw [exCube_pv, Vec.modulus]
    rw [show Vec.dot ⟨8 / 5, 0, -6 / 5⟩ ⟨8 / 5, 0, -6 / 5⟩ = 2 ^ 2 by norm_num [Vec.dot], Real.sqrt_sq (by norm_num)]
  have e2 : ((a2Point 1 4 exCube).rv 3).modulus ^ 2 = 101 / 5 := by
    rw [exCube_rv, Vec.modulus, Real.sq_sqrt (by norm_num [Vec.dot])]
    norm_num [Vec.dot]
  have e3 : 0 ≤ ((a2Point 1 4 exCube).rv 3).modulus := Real.sqrt_nonneg _
  refine ⟨A, T, (3 ^ 2 * sk + (a2Point 1 4 exCube).pv.modulus ^ 2 * sp + ((a2Point 1 4 exCube).rv 3).modulus ^ 2 * sr) / 2, ?_, ?_⟩
  rotate_left
  · rw [key, if_pos]
    · simp only [show (a2Point 1 4 exCube).p = 2 by rw [exCube_point], show (a2Point 1 4 exCube).mu = -3 / 5 by rw [exCube_point]]
    · refine ⟨by nlinarith, ?_⟩
      rw [e1, e2]
      linarith
  · have := hA 0
    rw [exCube_pv, exCube_rv, exCube_qv] at this
    simp only [a2Fields, Matrix.cons_val] at this
    rw [exCube_biSum, Res.ok.injEq] at this
    exact this.symm

/-- C64 fails for the region: the Monte-Carlo part has a non-zero integrand at a configuration with `|k-p|` above the upper end of the
range (`k = 3`, `p = 2`, `|k-p|² = 101/5 > 4²`); the quadrature part, on any nodes within the same range, never evaluates its integrand
at this cosine. -/
theorem C64_domain_violation : ∃ (t : Pk ℝ) (k qmin qmax : ℝ) (xx : Fin 5 → ℝ) (v : Fin 12 → ℝ),
    t.Physical ∧ 0 < k ∧ 0 < qmin ∧ qmin < qmax ∧ (∀ i, 0 < xx i ∧ xx i < 1) ∧
    kernelA2II t .poly 0.5 k qmin qmax xx = .ok v ∧ v 0 ≠ 0 ∧ qmax < ((a2Point qmin qmax xx).rv k).modulus ∧
    ∀ xs : List ℝ, 1 ≤ xs.length → xs.length < 2 ^ 63 → xs.Pairwise (· < ·) → (∀ y ∈ xs, qmin / k ≤ y ∧ y ≤ qmax / k) →
      (a2Point qmin qmax xx).p / k ∈ xs → ∀ lo hi, muRange true xs xs.length ((a2Point qmin qmax xx).p / k) = .ok (some (lo, hi)) →
      ¬ (lo ≤ (a2Point qmin qmax xx).mu ∧ (a2Point qmin qmax xx).mu ≤ hi) := by
  obtain ⟨A, T, E, hA, hv⟩ := exCube_kernel
  refine ⟨exFlat, 3, 1, 4, exCube, _, exFlat_physical, by norm_num, by norm_num, by norm_num, ?_, hv, ?_, ?_, ?_⟩
  · intro i
    fin_cases i <;> norm_num [exCube]
  · have hj : (a2Point 1 4 exCube).jac 1 4 ≠ 0 := by
      rw [exCube_point]
      have := (Real.log_pos (by norm_num : (1 : ℝ) < 4)).ne'
      simp only [A2Point.jac, Real.sin_pi_div_two]
      have := Real.pi_pos.ne'
      positivity
    have hp : power (2 * Real.pi) 3 ≠ 0 := by
      rw [C01_power]
      positivity
    simp only [assembleA2, projA, Matrix.cons_val_zero, hA]
    refine mul_ne_zero (mul_ne_zero (mul_ne_zero (mul_ne_zero (by norm_num) (div_ne_zero (by norm_num) hp)) (by norm_num)) (Real.exp_ne_zero _)) hj
  · rw [exCube_rv, Vec.modulus]
    refine Real.lt_sqrt_of_sq_lt ?_
    norm_num [Vec.dot]
  · rw [exCube_point]
    intro xs h1 hn hasc hr hx lo hi hm ⟨ha, hb⟩
    obtain ⟨r, h, h', -⟩ := C16_muRange true xs h1 hn (fun y hy => (by norm_num : (0 : ℝ) < 1 / 3).trans_le (hr y hy).1) hasc _ hx
    rw [hm] at h
    cases h
    obtain ⟨-, -, -, h4⟩ := h' lo hi rfl
    have h5 := (h4 _ ha hb).2.1
    have hl : xs.getD (xs.length - 1) 0 ∈ xs := by
      rw [List.getD_eq_getElem?_getD, List.getElem?_eq_getElem (by omega)]
      exact List.getElem_mem _
    have h6 := hr _ hl
    norm_num at h5 h6
    nlinarith

/-! ## Integral over the loop momentum -/

open MeasureTheory

/-- Point of Euclidean space with the given components. -/
noncomputable def ofVec (v : Vec) : E3 := !₂[v.x, v.y, v.z]

theorem toVec_ofVec (v : Vec) : toVec (ofVec v) = v := by
  simp [toVec, ofVec]

/-- The standard one-loop bispectrum (222 and 321) of three legs, over the loop momenta whose shortest internal momentum is in the
range. -/
noncomputable def loopB (P : ℝ → ℝ) (l : Fin 3 → Field) (k : Fin 3 → E3) (qmin qmax : ℝ) : ℝ :=
  (∫ q in {q : E3 | min ‖q‖ (min ‖k 0 - q‖ ‖k 1 + q‖) ∈ qRange qmin qmax}, spec222 P (l 0) (l 1) (l 2) (toVec (k 0)) (toVec (k 1)) (toVec q))
    + (loop321 P (l 0) (l 1) (k 1) (k 2) qmin qmax + loop321 P (l 2) (l 1) (k 1) (k 0) qmin qmax
      + loop321 P (l 0) (l 2) (k 2) (k 1) qmin qmax + loop321 P (l 1) (l 2) (k 2) (k 0) qmin qmax
      + loop321 P (l 1) (l 0) (k 0) (k 2) qmin qmax + loop321 P (l 2) (l 0) (k 0) (k 1) qmin qmax)

/-- The integrals of `loopB` converge. -/
def LoopConv (P : ℝ → ℝ) (l : Fin 3 → Field) (k : Fin 3 → E3) (qmin qmax : ℝ) : Prop :=
  IntegrableOn (fun q => spec222 P (l 0) (l 1) (l 2) (toVec (k 0)) (toVec (k 1)) (toVec q))
    {q : E3 | min ‖q‖ (min ‖k 0 - q‖ ‖k 1 + q‖) ∈ qRange qmin qmax} ∧
  ∀ i j m : Fin 3, i ≠ j → j ≠ m → i ≠ m → IntegrableOn (fun q => spec321 P (l i) (l j) (toVec (k j)) (toVec (k m)) (toVec q))
    {q : E3 | min ‖q‖ ‖k j - q‖ ∈ qRange qmin qmax}

/-- Both parts of `C63` together. -/
theorem biSum_loop (t : Pk ℝ) (P : ℝ → ℝ) (interpol : Interpol) (hP : ∀ k, look t interpol k = .ok (P k)) (l : Fin 3 → Field)
    (k : Fin 3 → E3) (hs : k 0 + k 1 + k 2 = 0) (hk : ∀ i, k i ≠ 0) (qmin qmax : ℝ) (h0 : 0 < qmin) (hc : LoopConv P l k qmin qmax) :
    ∃ r : E3 → ℝ, (∀ q, biSum t interpol (toVec (k 0)) (toVec (k 1)) (toVec (k 2)) (toVec q) (l 0) (l 1) (l 2) = .ok (r q)) ∧
      ∫ q in {q : E3 | ‖q‖ ∈ qRange qmin qmax}, r q = loopB P l k qmin qmax := by
  obtain ⟨r, h1, h2, h3⟩ := C63_loop_222 t P interpol hP (l 0) (l 1) (l 2) (k 0) (k 1) (k 2) hs (hk 0) (hk 1) (hk 2) qmin qmax h0 hc.1
  obtain ⟨r', h1', h2', h3'⟩ := C63_loop_321 t P interpol hP l k hk qmin qmax h0 hc.2
  have e : r' = r := funext fun q => by
    have := (h1' q).symm.trans (h1 q)
    simpa using this
  subst e
  refine ⟨fun q => (r' q).1 + (r' q).2, fun q => ?_, ?_⟩
  · unfold biSum
    rw [h1]
    rfl
  · rw [integral_add h2 h2', h3, h3']
    rfl

/-- Each component of the assembly is a constant times one bispectrum. -/
theorem assembleA2_comp (x mu : ℝ) (i : Fin 12) : ∃ (c : ℝ) (j : Fin 4 ⊕ Fin 4), ∀ A T : Fin 4 → ℝ,
    assembleA2 x mu ⟨A, T⟩ i = Sum.elim A T j * c := by
  unfold assembleA2
  dsimp only
  generalize projA x mu = a
  generalize projtA x mu = b
  fin_cases i
  · exact ⟨a 0 * x, .inl 0, fun A T => by simp; ring⟩
  · exact ⟨a 1 * x, .inl 1, fun A T => by simp; ring⟩
  · exact ⟨a 2 * x, .inl 1, fun A T => by simp; ring⟩
  · exact ⟨a 3 * x, .inl 2, fun A T => by simp; ring⟩
  · exact ⟨a 4 * x, .inl 3, fun A T => by simp; ring⟩
  · exact ⟨a 5 * x, .inl 3, fun A T => by simp; ring⟩
  · exact ⟨b 0 * x, .inr 0, fun A T => by simp; ring⟩
  · exact ⟨b 1 * x, .inr 1, fun A T => by simp; ring⟩
  · exact ⟨b 2 * x, .inr 1, fun A T => by simp; ring⟩
  · exact ⟨b 3 * x, .inr 2, fun A T => by simp; ring⟩
  · exact ⟨b 4 * x, .inr 3, fun A T => by simp; ring⟩
  · exact ⟨b 5 * x, .inr 3, fun A T => by simp; ring⟩

/-- C64: at a fixed triangle in the half plane below the damping threshold, the integral of the integrand over the three coordinates
of the loop momentum is the assembly of the quadrature part applied to the standard one-loop bispectra of the triangle, times the
damping factor and the Jacobian of `(log p, μ)`. -/
theorem C64_loop_partial (t : Pk ℝ) (P : ℝ → ℝ) (interpol : Interpol) (hP : ∀ k, look t interpol k = .ok (P k))
    (uvcutoff k qmin qmax : ℝ) (hk : 0 < k) (h0 : 0 < qmin) (h1 : qmin < qmax) (u v sk sp sr : ℝ) (hu : 0 ≤ u ∧ u ≤ 1) (hv : 0 ≤ v ∧ v ≤ 1) :
    let s := a2Point qmin qmax ![u, v, 0, 0, 0]
    let legs : Fin 3 → E3 := ![ofVec s.pv, ofVec (s.rv k), ofVec ⟨0, 0, -k⟩]
    let legs' : Fin 3 → E3 := ![ofVec (s.rv k), ofVec s.pv, ofVec ⟨0, 0, -k⟩]
    let l : Fin 4 → Fin 3 → Field := fun i => ![.theta, (a2Fields i).1, (a2Fields i).2]
    let E := (k ^ 2 * sk + s.pv.modulus ^ 2 * sp + (s.rv k).modulus ^ 2 * sr) / 2
    sigma1 t uvcutoff k = .ok sk → sigma1 t uvcutoff s.pv.modulus = .ok sp → sigma1 t uvcutoff (s.rv k).modulus = .ok sr →
    (∀ i, LoopConv P (l i) legs qmin qmax) → (∀ i, LoopConv P (l i) legs' qmin qmax) →
    s.pv.modulus ≤ (s.rv k).modulus → E < 100 →
    ∃ K : (Fin 3 → ℝ) → Fin 12 → ℝ,
      (∀ w ∈ cube3, kernelA2II t interpol uvcutoff k qmin qmax ![u, v, w 0, w 1, w 2] = .ok (K w)) ∧
      ∀ i, ∫ w in cube3, K w i =
        assembleA2 (s.p / k) s.mu ⟨fun i => loopB P (l i) legs qmin qmax, fun i => loopB P (l i) legs' qmin qmax⟩ i * Real.exp (-E)
          * (Real.log (qmax / qmin) * 2) := by
  intro s legs legs' l E hsk hsp hsr hc hc' hhalf hE
  have hunit : ∀ w ∈ cube3, ∀ i, 0 ≤ (![u, v, w 0, w 1, w 2] : Fin 5 → ℝ) i ∧ (![u, v, w 0, w 1, w 2] : Fin 5 → ℝ) i ≤ 1 := fun w hw i => by
    rw [mem_cube3] at hw
    fin_cases i
    · exact hu
    · exact hv
    · exact ⟨(hw 0).1.le, (hw 0).2.le⟩
    · exact ⟨(hw 1).1.le, (hw 1).2.le⟩
    · exact ⟨(hw 2).1.le, (hw 2).2.le⟩
  have hzero : ∀ i, 0 ≤ (![u, v, 0, 0, 0] : Fin 5 → ℝ) i ∧ (![u, v, 0, 0, 0] : Fin 5 → ℝ) i ≤ 1 := fun i => by
    fin_cases i
    · exact hu
    · exact hv
    all_goals norm_num
  obtain ⟨tri, hpm, -, -, -, hp1, -⟩ := C64_triangle k qmin qmax h0 h1.le _ hzero
  have hpp : 0 < s.pv.modulus := by
    show 0 < (a2Point qmin qmax ![u, v, 0, 0, 0]).pv.modulus
    rw [hpm]
    exact h0.trans_le hp1
  have hm0 : ∀ w : Vec, 0 < w.modulus → ofVec w ≠ 0 := fun w hw e => by
    have := toVec_modulus (ofVec w)
    rw [toVec_ofVec, e, norm_zero] at this
    exact hw.ne' this
  have hkm : 0 < Vec.modulus ⟨0, 0, -k⟩ := by
    unfold Vec.modulus
    exact Real.sqrt_pos.2 (by simp only [Vec.dot]; nlinarith)
  have hsum : ofVec s.pv + ofVec (s.rv k) + ofVec ⟨0, 0, -k⟩ = 0 := by
    ext i
    fin_cases i <;> simp [ofVec, A2Point.rv]
  have hr0 : 0 < (s.rv k).modulus := hpp.trans_le hhalf
  have hl : ∀ i, legs i ≠ 0 := fun i => by
    fin_cases i
    · exact hm0 _ hpp
    · exact hm0 _ hr0
    · exact hm0 _ hkm
  have hl' : ∀ i, legs' i ≠ 0 := fun i => by
    fin_cases i
    · exact hm0 _ hr0
    · exact hm0 _ hpp
    · exact hm0 _ hkm
  choose A hA hAi using fun i => biSum_loop t P interpol hP (l i) legs hsum hl qmin qmax h0 (hc i)
  choose T hT hTi using fun i => biSum_loop t P interpol hP (l i) legs' (by
    show ofVec (s.rv k) + ofVec s.pv + ofVec ⟨0, 0, -k⟩ = 0
    rw [add_comm (ofVec (s.rv k)), hsum]) hl' qmin qmax h0 (hc' i)
  let Q : (Fin 3 → ℝ) → E3 := fun w => WithLp.toLp 2 (sph qmin (Real.log (qmax / qmin)) w)
  have hrad : ∀ x : ℝ, qmin * (qmax / qmin) ^ x = qmin * Real.exp (Real.log (qmax / qmin) * x) := fun x => by
    rw [Real.rpow_def_of_pos (div_pos (h0.trans h1) h0)]
  have hq : ∀ w, (a2Point qmin qmax ![u, v, w 0, w 1, w 2]).qv = toVec (Q w) := fun w => by
    show Vec.mk _ _ _ = Vec.mk _ _ _
    simp only [a2Point, Q, sph, Matrix.cons_val, hrad]
  refine ⟨fun w i => assembleA2 (s.p / k) s.mu ⟨fun j => A j (Q w), fun j => T j (Q w)⟩ i * Real.exp (-E)
    * (a2Point qmin qmax ![u, v, w 0, w 1, w 2]).jac qmin qmax, fun w hw => ?_, fun i => ?_⟩
  · have key := C64_integrand_partial t interpol uvcutoff k qmin qmax hk h0 h1.le _ (hunit w hw) sk sp sr (fun j => A j (Q w))
      (fun j => T j (Q w)) hsk hsp hsr
      (fun j => by
        have := hA j (Q w)
        rw [← hq] at this
        simp only [legs, l, Matrix.cons_val, toVec_ofVec] at this
        exact this)
      (fun j => by
        have := hT j (Q w)
        rw [← hq] at this
        simp only [legs', l, Matrix.cons_val, toVec_ofVec] at this
        exact this)
    exact key.trans (by
      congr 1
      exact if_pos ⟨hhalf, hE⟩)
  · obtain ⟨c, j, hcj⟩ := assembleA2_comp (s.p / k) s.mu i
    simp only [hcj]
    have hj : ∀ B : E3 → ℝ, ∫ w in cube3, B (Q w) * c * Real.exp (-E) * (a2Point qmin qmax ![u, v, w 0, w 1, w 2]).jac qmin qmax
        = (∫ q in {q : E3 | ‖q‖ ∈ qRange qmin qmax}, B q) * c * Real.exp (-E) * (Real.log (qmax / qmin) * 2) := fun B => by
      have := integral_shell qmin qmax h0 h1 B
      rw [show {q : E3 | ‖q‖ ∈ qRange qmin qmax} = {q : E3 | qmin ≤ ‖q‖ ∧ ‖q‖ ≤ qmax} from rfl, this, ← integral_mul_const,
        ← integral_mul_const, ← integral_mul_const]
      refine integral_congr_ae (Filter.Eventually.of_forall fun w => ?_)
      simp only [A2Point.jac, a2Point, Matrix.cons_val, hrad, Q]
      ring
    rcases j with j | j
    · simp only [Sum.elim_inl]
      rw [hj (A j), hAi j]
    · simp only [Sum.elim_inr]
      rw [hj (T j), hTi j]

end Verif
