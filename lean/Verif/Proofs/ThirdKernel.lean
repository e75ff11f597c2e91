import Verif.Props.LoopTable
import Verif.Props.LoopQuadrature
import Verif.Proofs.Pair
import Mathlib.MeasureTheory.Function.SpecialFunctions.Inner

/-!
# The third-order kernel: bounds, symmetry under rotations, and the half space of the second wavevector
-/

namespace Verif

open MeasureTheory Spec

/-- The third-order kernel before the average over the choice of the first wavevector. -/
noncomputable def spt3Tri (a : Field) (p q r : Vec) : ℝ :=
  match a with
  | .delta => 1 / 18 * ((7 * sptAlpha (q + r) p + 4 * sptBeta p (q + r)) * F2Full .theta q r + 7 * sptAlpha p (q + r) * F2Full .delta q r)
  | .theta => 1 / 18 * ((3 * sptAlpha (q + r) p + 12 * sptBeta p (q + r)) * F2Full .theta q r + 3 * sptAlpha p (q + r) * F2Full .delta q r)

theorem sptSym3_tri (a : Field) (p q r : Vec) (hp : p.dot p ≠ 0) (hq : q.dot q ≠ 0) (hr : r.dot r ≠ 0) :
    sptSym3 a p q r = (spt3Tri a p q r + spt3Tri a r p q + spt3Tri a q r p) / 3 := by
  have hb : ∀ u v, sptBeta u v = sptBeta v u := by
    intro u v
    unfold sptBeta
    rw [Vec.add_comm u v, Vec.dot_comm u v]
    ring
  have s2 : ∀ b u v, sptKernel b [u, v] = match b with
    | .delta => (sptFG 2 [u, v]).1
    | .theta => (sptFG 2 [u, v]).2 := fun b u v => by cases b <;> rfl
  unfold spt3Tri
  rw [C17_F2_spt _ q r hq hr, C17_F2_spt _ q r hq hr, C17_F2_spt _ p q hp hq, C17_F2_spt _ p q hp hq, C17_F2_spt _ r p hr hp,
    C17_F2_spt _ r p hr hp]
  unfold sptSym2 sptSym3
  simp only [s2]
  cases a <;>
  · simp only [sptKernel, List.length_cons, List.length_nil, spt3, Nat.reduceAdd]
    rw [Vec.add_comm r q, Vec.add_comm p r, Vec.add_comm q p, hb (q + r) p, hb (p + q) r, hb (r + p) q]
    ring

theorem F2_delta_bound (m M : ℝ) (hm : 0 < m) (q r : Vec) (q1 : m ≤ q.dot q) (q2 : q.dot q ≤ M) (r1 : m ≤ r.dot r) (r2 : r.dot r ≤ M) :
    |F2Full .delta q r| ≤ 2 * (M / m) ^ 2 := by
  have hM : 0 < M := hm.trans_le (q1.trans q2)
  have hqr : q.dot r ^ 2 ≤ q.dot q * r.dot r := vec_cauchy q r
  have hqr1 : |q.dot r| ≤ M := by
    refine abs_le_of_sq_le_sq ?_ hM.le
    nlinarith
  have hx : 1 ≤ M / m := (one_le_div hm).2 (q1.trans q2)
  unfold F2Full F2Fast
  have hq0 := hm.trans_le q1
  have hr0 := hm.trans_le r1
  have a1 : |1 / 2 * q.dot r * (1 / q.dot q + 1 / r.dot r)| ≤ M / m := by
    rw [abs_mul, abs_mul, abs_of_pos (by positivity : (0 : ℝ) < 1 / 2), abs_of_pos (by positivity : 0 < 1 / q.dot q + 1 / r.dot r)]
    have b1 : 1 / q.dot q ≤ 1 / m := one_div_le_one_div_of_le hm q1
    have b2 : 1 / r.dot r ≤ 1 / m := one_div_le_one_div_of_le hm r1
    calc 1 / 2 * |q.dot r| * (1 / q.dot q + 1 / r.dot r) ≤ 1 / 2 * M * (1 / m + 1 / m) :=
          mul_le_mul (by linarith) (by linarith) (by positivity) (by positivity)
      _ = M / m := by ring
  have a2 : |2 / 7 * q.dot r * q.dot r / q.dot q / r.dot r| ≤ 2 / 7 := by
    have : 2 / 7 * q.dot r * q.dot r / q.dot q / r.dot r = 2 / 7 * (q.dot r ^ 2 / (q.dot q * r.dot r)) := by field_simp
    rw [this, abs_mul, abs_of_pos (by norm_num : (0 : ℝ) < 2 / 7), abs_of_nonneg (by positivity)]
    have : q.dot r ^ 2 / (q.dot q * r.dot r) ≤ 1 := (div_le_one (by positivity)).2 hqr
    linarith
  have h3 : (M / m) ≤ (M / m) ^ 2 := by nlinarith
  dsimp only
  calc _ ≤ |5 / 7 + 1 / 2 * q.dot r * (1 / q.dot q + 1 / r.dot r)| + _ := abs_add_le _ _
    _ ≤ |(5 / 7 : ℝ)| + |1 / 2 * q.dot r * (1 / q.dot q + 1 / r.dot r)| + _ := add_le_add_left (abs_add_le _ _) _
    _ ≤ _ := by
      rw [abs_of_pos (by positivity : (0 : ℝ) < 5 / 7)]
      linarith

theorem spt3Tri_bound (a : Field) (m M : ℝ) (hm : 0 < m) (p q r : Vec) (p1 : m ≤ p.dot p) (p2 : p.dot p ≤ M) (q1 : m ≤ q.dot q)
    (q2 : q.dot q ≤ M) (r1 : m ≤ r.dot r) (r2 : r.dot r ≤ M) : |spt3Tri a p q r| ≤ 8 * (M / m) ^ 3 := by
  have hM : 0 < M := hm.trans_le (q1.trans q2)
  have hx : 1 ≤ M / m := (one_le_div hm).2 (q1.trans q2)
  have hF : |F2Full .theta q r| ≤ (q + r).dot (q + r) * (1 / m) := F2_theta_bound m hm q r q1 r1
  have hD := F2_delta_bound m M hm q r q1 q2 r1 r2
  have hqr : q.dot r ^ 2 ≤ q.dot q * r.dot r := vec_cauchy q r
  have hc : p.dot (q + r) ^ 2 ≤ p.dot p * (q + r).dot (q + r) := vec_cauchy p (q + r)
  have hs : (q + r).dot (q + r) = q.dot q + r.dot r + 2 * q.dot r := by simp only [Vec.dot, Vec.add_x, Vec.add_y, Vec.add_z]; ring
  have hs0 : 0 ≤ (q + r).dot (q + r) := by simp only [Vec.dot]; nlinarith [sq_nonneg (q + r).x, sq_nonneg (q + r).y, sq_nonneg (q + r).z]
  have hqr1 : |q.dot r| ≤ M := by
    refine abs_le_of_sq_le_sq ?_ hM.le
    nlinarith
  have hs1 : (q + r).dot (q + r) ≤ 4 * M := by
    have := le_abs_self (q.dot r)
    linarith
  have hc1 : |p.dot (q + r)| ≤ 2 * M := by
    refine abs_le_of_sq_le_sq ?_ (by linarith)
    nlinarith
  have ea : sptAlpha (q + r) p = ((q + r).dot (q + r) + p.dot (q + r)) / (q + r).dot (q + r) := by
    unfold sptAlpha
    rw [Vec.add_dot (q + r) p (q + r)]
  have ea' : sptAlpha p (q + r) = (p.dot p + p.dot (q + r)) / p.dot p := by
    unfold sptAlpha
    rw [Vec.add_dot p (q + r) p, Vec.dot_comm (q + r) p]
  have eb : sptBeta p (q + r) = (p.dot p + (q + r).dot (q + r) + 2 * p.dot (q + r)) * p.dot (q + r) / (2 * p.dot p * (q + r).dot (q + r)) := by
    unfold sptBeta
    rw [Vec.add_dot_self p (q + r)]
  clear hs hqr hqr1
  generalize (q + r).dot (q + r) = s at *
  generalize p.dot (q + r) = c at *
  generalize hGe : F2Full .theta q r = G at *
  generalize hDe : F2Full .delta q r = D at *
  generalize p.dot p = pp at *
  have hp0 : 0 < pp := hm.trans_le p1
  have hcs := abs_le.1 hc1
  have hGs : s ≠ 0 → |G / s| ≤ 1 / m := fun h => by
    have hs' : 0 < s := lt_of_le_of_ne hs0 (Ne.symm h)
    rw [abs_div, abs_of_pos hs', div_le_iff₀ hs', _root_.mul_comm]
    exact hF
  have g1 : |sptAlpha (q + r) p * G| ≤ 6 * (M / m) := by
    rw [ea]
    by_cases h : s = 0
    · rw [h, div_zero, zero_mul, abs_zero]
      positivity
    · have : (s + c) / s * G = (s + c) * (G / s) := by field_simp
      rw [this, abs_mul]
      calc |s + c| * |G / s| ≤ (6 * M) * (1 / m) := by
            refine mul_le_mul ?_ (hGs h) (abs_nonneg _) (by positivity)
            rw [abs_le]
            constructor <;> linarith
        _ = _ := by ring
  have g2 : |sptBeta p (q + r) * G| ≤ 9 * (M / m) ^ 2 := by
    rw [eb]
    by_cases h : s = 0
    · rw [h, mul_zero, div_zero, zero_mul, abs_zero]
      positivity
    · have : (pp + s + 2 * c) * c / (2 * pp * s) * G = (pp + s + 2 * c) * c / (2 * pp) * (G / s) := by field_simp
      rw [this, abs_mul, abs_div, abs_mul]
      have h9 : |pp + s + 2 * c| ≤ 9 * M := by
        rw [abs_le]
        constructor <;> linarith
      calc |pp + s + 2 * c| * |c| / |2 * pp| * |G / s| ≤ (9 * M * (2 * M) / (2 * m)) * (1 / m) := by
            refine mul_le_mul ?_ (hGs h) (abs_nonneg _) (by positivity)
            rw [abs_of_pos (by positivity : 0 < 2 * pp)]
            refine div_le_div₀ (by positivity) ?_ (by positivity) (by linarith)
            exact mul_le_mul h9 hc1 (abs_nonneg _) (by positivity)
        _ = _ := by field_simp
  have g3 : |sptAlpha p (q + r) * D| ≤ 3 * (M / m) * (2 * (M / m) ^ 2) := by
    rw [ea', abs_mul]
    refine mul_le_mul ?_ hD (abs_nonneg _) (by positivity)
    rw [abs_div, abs_of_pos hp0]
    calc |pp + c| / pp ≤ (3 * M) / m := by
          refine div_le_div₀ (by positivity) ?_ hm p1
          rw [abs_le]
          constructor <;> linarith
      _ = _ := by ring
  have x2 : M / m ≤ (M / m) ^ 2 := by nlinarith
  have x3 : (M / m) ^ 2 ≤ (M / m) ^ 3 := by nlinarith [pow_pos (zero_lt_one.trans_le hx) 2]
  have x4 : 3 * (M / m) * (2 * (M / m) ^ 2) = 6 * (M / m) ^ 3 := by ring
  rw [x4] at g3
  rw [abs_le] at g1 g2 g3
  generalize (M / m) ^ 3 = X3 at *
  generalize (M / m) ^ 2 = X2 at *
  generalize M / m = X at *
  unfold spt3Tri
  cases a
  · have e : 1 / 18 * ((7 * sptAlpha (q + r) p + 4 * sptBeta p (q + r)) * G + 7 * sptAlpha p (q + r) * D) =
      1 / 18 * (7 * (sptAlpha (q + r) p * G) + 4 * (sptBeta p (q + r) * G)
        + 7 * (sptAlpha p (q + r) * D)) := by ring
    dsimp only
    rw [hGe, hDe, e, abs_le]
    constructor <;> linarith [g1.1, g1.2, g2.1, g2.2, g3.1, g3.2]
  · have e : 1 / 18 * ((3 * sptAlpha (q + r) p + 12 * sptBeta p (q + r)) * G + 3 * sptAlpha p (q + r) * D) =
      1 / 18 * (3 * (sptAlpha (q + r) p * G) + 12 * (sptBeta p (q + r) * G)
        + 3 * (sptAlpha p (q + r) * D)) := by ring
    dsimp only
    rw [hGe, hDe, e, abs_le]
    constructor <;> linarith [g1.1, g1.2, g2.1, g2.2, g3.1, g3.2]

theorem sptSym3_bound (a : Field) (m M : ℝ) (hm : 0 < m) (p q r : Vec) (p1 : m ≤ p.dot p) (p2 : p.dot p ≤ M) (q1 : m ≤ q.dot q)
    (q2 : q.dot q ≤ M) (r1 : m ≤ r.dot r) (r2 : r.dot r ≤ M) : |sptSym3 a p q r| ≤ 8 * (M / m) ^ 3 := by
  rw [sptSym3_tri a p q r (hm.trans_le p1).ne' (hm.trans_le q1).ne' (hm.trans_le r1).ne']
  have h1 := abs_le.1 (spt3Tri_bound a m M hm p q r p1 p2 q1 q2 r1 r2)
  have h2 := abs_le.1 (spt3Tri_bound a m M hm r p q r1 r2 p1 p2 q1 q2)
  have h3 := abs_le.1 (spt3Tri_bound a m M hm q r p q1 q2 r1 r2 p1 p2)
  rw [abs_le]
  constructor <;> linarith

theorem F3Sym_bound (a : Field) (m M : ℝ) (hm : 0 < m) (p q r : Vec) (p1 : m ≤ p.dot p) (p2 : p.dot p ≤ M) (q1 : m ≤ q.dot q)
    (q2 : q.dot q ≤ M) (r1 : m ≤ r.dot r) (r2 : r.dot r ≤ M) : |F3Sym a p q r| ≤ 8 * (M / m) ^ 3 := by
  have hx : 0 ≤ 8 * (M / m) ^ 3 := (abs_nonneg _).trans (spt3Tri_bound a m M hm p q r p1 p2 q1 q2 r1 r2)
  have key : ∀ u v w : Vec, u.dot u ≠ 0 → |spt3Tri a u v w| ≤ 8 * (M / m) ^ 3 → |F3 a u v w| ≤ 8 * (M / m) ^ 3 := fun u v w hu h => by
    by_cases ht : tiny (v + w) ∨ tiny (u + (v + w))
    · rw [show F3 a u v w = 0 from if_pos ht, abs_zero]
      exact hx
    · have : F3 a u v w = spt3Tri a u v w := by
        rw [F3_value a u v w hu (fun h => ht (.inl h)) (fun h => ht (.inr h))]
        unfold spt3Tri
        cases a <;> rfl
      rwa [this]
  have h1 := abs_le.1 (key _ _ _ (hm.trans_le p1).ne' (spt3Tri_bound a m M hm p q r p1 p2 q1 q2 r1 r2))
  have h2 := abs_le.1 (key _ _ _ (hm.trans_le r1).ne' (spt3Tri_bound a m M hm r p q r1 r2 p1 p2 q1 q2))
  have h3 := abs_le.1 (key _ _ _ (hm.trans_le q1).ne' (spt3Tri_bound a m M hm q r p q1 q2 r1 r2 p1 p2))
  unfold F3Sym
  rw [abs_le]
  constructor <;> linarith

/-- A bound of the third-order kernel by the total wavevector and the shortest and longest ones. -/
theorem spt3Tri_sharp (a : Field) (m M K : ℝ) (hm : 0 < m) (hK : 0 ≤ K) (p q r : Vec) (hk : (p + (q + r)).dot (p + (q + r)) = K ^ 2)
    (p1 : m ^ 2 ≤ p.dot p) (q1 : m ^ 2 ≤ q.dot q) (q2 : q.dot q ≤ M ^ 2) (r1 : m ^ 2 ≤ r.dot r) (r2 : r.dot r ≤ M ^ 2) (hmM : m ≤ M) :
    |spt3Tri a p q r| ≤ 2 * (K * M / m ^ 2) * (1 + K / m) := by
  have hM : 0 < M := hm.trans_le hmM
  have hF : |F2Full .theta q r| ≤ (q + r).dot (q + r) * (1 / m ^ 2) := F2_theta_bound (m ^ 2) (by positivity) q r q1 r1
  have hqr : q.dot r ^ 2 ≤ q.dot q * r.dot r := vec_cauchy q r
  have hc : p.dot (q + r) ^ 2 ≤ p.dot p * (q + r).dot (q + r) := vec_cauchy p (q + r)
  have hks : (p + (q + r)).dot (q + r) ^ 2 ≤ K ^ 2 * (q + r).dot (q + r) := hk ▸ vec_cauchy _ _
  have hkp : (p + (q + r)).dot p ^ 2 ≤ K ^ 2 * p.dot p := hk ▸ vec_cauchy _ _
  have hq0 : 0 < q.dot q := lt_of_lt_of_le (by positivity) q1
  have hr0 : 0 < r.dot r := lt_of_lt_of_le (by positivity) r1
  have hp0 : 0 < p.dot p := lt_of_lt_of_le (by positivity) p1
  have hs : (q + r).dot (q + r) = q.dot q + r.dot r + 2 * q.dot r := by simp only [Vec.dot, Vec.add_x, Vec.add_y, Vec.add_z]; ring
  have hs0 : 0 ≤ (q + r).dot (q + r) := by simp only [Vec.dot]; nlinarith [sq_nonneg (q + r).x, sq_nonneg (q + r).y, sq_nonneg (q + r).z]
  have hs1 : (q + r).dot (q + r) ≤ 4 * M ^ 2 := by
    have : |q.dot r| ≤ M ^ 2 := by
      refine abs_le_of_sq_le_sq ?_ (by positivity)
      nlinarith
    have := le_abs_self (q.dot r)
    linarith
  -- the density kernel of two wavevectors
  have hD : |F2Full .delta q r| ≤ 2 * (M / m) := by
    unfold F2Full F2Fast
    dsimp only
    have a1 : |1 / 2 * q.dot r * (1 / q.dot q + 1 / r.dot r)| ≤ M / m := by
      have e : ∀ x y : ℝ, 0 < x → m ^ 2 ≤ x → y ≤ M ^ 2 → q.dot r ^ 2 ≤ x * y → |q.dot r * (1 / x)| ≤ M / m := fun x y hx h1 h2 h => by
        refine abs_le_of_sq_le_sq ?_ (by positivity)
        rw [mul_one_div, div_pow, div_pow, div_le_div_iff₀ (by positivity) (by positivity)]
        have : q.dot r ^ 2 ≤ x * M ^ 2 := h.trans (mul_le_mul_of_nonneg_left h2 hx.le)
        calc q.dot r ^ 2 * m ^ 2 ≤ (x * M ^ 2) * x := mul_le_mul this h1 (by positivity) (by positivity)
          _ = _ := by ring
      have e1 := abs_le.1 (e _ _ hq0 q1 r2 hqr)
      have e2 := abs_le.1 (e _ _ hr0 r1 q2 (by rwa [mul_comm (r.dot r)]))
      rw [show 1 / 2 * q.dot r * (1 / q.dot q + 1 / r.dot r) = (q.dot r * (1 / q.dot q) + q.dot r * (1 / r.dot r)) / 2 by ring, abs_le]
      constructor <;> linarith
    have a2 : |2 / 7 * q.dot r * q.dot r / q.dot q / r.dot r| ≤ 2 / 7 := by
      have : 2 / 7 * q.dot r * q.dot r / q.dot q / r.dot r = 2 / 7 * (q.dot r ^ 2 / (q.dot q * r.dot r)) := by field_simp
      rw [this, abs_mul, abs_of_pos (by norm_num : (0 : ℝ) < 2 / 7), abs_of_nonneg (by positivity)]
      have : q.dot r ^ 2 / (q.dot q * r.dot r) ≤ 1 := (div_le_one (by positivity)).2 hqr
      linarith
    have hx : 1 ≤ M / m := (one_le_div hm).2 hmM
    rw [abs_le] at a1 a2 ⊢
    constructor <;> linarith
  have hGs : (q + r).dot (q + r) ≠ 0 → |F2Full .theta q r / (q + r).dot (q + r)| ≤ 1 / m ^ 2 := fun h => by
    have hs' : 0 < (q + r).dot (q + r) := lt_of_le_of_ne hs0 (Ne.symm h)
    rw [abs_div, abs_of_pos hs', div_le_iff₀ hs', mul_comm]
    exact hF
  have g1 : |sptAlpha (q + r) p * F2Full .theta q r| ≤ 2 * (K * M / m ^ 2) := by
    unfold sptAlpha
    rw [Vec.add_comm (q + r) p]
    by_cases h : (q + r).dot (q + r) = 0
    · rw [h, div_zero, zero_mul, abs_zero]
      positivity
    · rw [div_mul_eq_mul_div, mul_div_assoc, abs_mul]
      calc _ ≤ (K * (2 * M)) * (1 / m ^ 2) := by
            refine mul_le_mul ?_ (hGs h) (abs_nonneg _) (by positivity)
            refine abs_le_of_sq_le_sq ?_ (by positivity)
            calc _ ≤ K ^ 2 * (4 * M ^ 2) := hks.trans (mul_le_mul_of_nonneg_left hs1 (by positivity))
              _ = _ := by ring
        _ = _ := by ring
  have g2 : |sptBeta p (q + r) * F2Full .theta q r| ≤ K * M / m ^ 2 * (K / m) := by
    unfold sptBeta
    rw [hk]
    by_cases h : (q + r).dot (q + r) = 0
    · rw [h, mul_zero, div_zero, zero_mul, abs_zero]
      positivity
    · have : K ^ 2 * p.dot (q + r) / (2 * p.dot p * (q + r).dot (q + r)) * F2Full .theta q r =
          K ^ 2 / 2 * (p.dot (q + r) / p.dot p) * (F2Full .theta q r / (q + r).dot (q + r)) := by field_simp
      rw [this, abs_mul, abs_mul, abs_of_nonneg (by positivity : 0 ≤ K ^ 2 / 2)]
      have hcp : |p.dot (q + r) / p.dot p| ≤ 2 * M / m := by
        refine abs_le_of_sq_le_sq ?_ (by positivity)
        rw [div_pow, div_pow, div_le_div_iff₀ (by positivity) (by positivity)]
        calc _ ≤ (p.dot p * (4 * M ^ 2)) * p.dot p :=
              mul_le_mul (hc.trans (mul_le_mul_of_nonneg_left hs1 hp0.le)) p1 (by positivity) (by positivity)
          _ = _ := by ring
      calc _ ≤ K ^ 2 / 2 * (2 * M / m) * (1 / m ^ 2) :=
            mul_le_mul (mul_le_mul_of_nonneg_left hcp (by positivity)) (hGs h) (abs_nonneg _) (by positivity)
        _ = _ := by field_simp
  have g3 : |sptAlpha p (q + r) * F2Full .delta q r| ≤ 2 * (K * M / m ^ 2) := by
    unfold sptAlpha
    rw [abs_mul]
    have : |(p + (q + r)).dot p / p.dot p| ≤ K / m := by
      refine abs_le_of_sq_le_sq ?_ (by positivity)
      rw [div_pow, div_pow, div_le_div_iff₀ (by positivity) (by positivity)]
      calc _ ≤ (K ^ 2 * p.dot p) * p.dot p := mul_le_mul hkp p1 (by positivity) (by positivity)
        _ = _ := by ring
    calc _ ≤ K / m * (2 * (M / m)) := mul_le_mul this hD (abs_nonneg _) (by positivity)
      _ = _ := by field_simp
  have hX : 0 ≤ K * M / m ^ 2 := by positivity
  have hY : 0 ≤ K * M / m ^ 2 * (K / m) := by positivity
  rw [show 2 * (K * M / m ^ 2) * (1 + K / m) = 2 * (K * M / m ^ 2) + 2 * (K * M / m ^ 2 * (K / m)) by ring]
  generalize K * M / m ^ 2 * (K / m) = Y at *
  generalize K * M / m ^ 2 = X at *
  rw [abs_le] at g1 g2 g3
  unfold spt3Tri
  cases a
  · have e : 1 / 18 * ((7 * sptAlpha (q + r) p + 4 * sptBeta p (q + r)) * F2Full .theta q r + 7 * sptAlpha p (q + r) * F2Full .delta q r) =
      1 / 18 * (7 * (sptAlpha (q + r) p * F2Full .theta q r) + 4 * (sptBeta p (q + r) * F2Full .theta q r)
        + 7 * (sptAlpha p (q + r) * F2Full .delta q r)) := by ring
    dsimp only
    rw [e, abs_le]
    constructor <;> linarith [g1.1, g1.2, g2.1, g2.2, g3.1, g3.2]
  · have e : 1 / 18 * ((3 * sptAlpha (q + r) p + 12 * sptBeta p (q + r)) * F2Full .theta q r + 3 * sptAlpha p (q + r) * F2Full .delta q r) =
      1 / 18 * (3 * (sptAlpha (q + r) p * F2Full .theta q r) + 12 * (sptBeta p (q + r) * F2Full .theta q r)
        + 3 * (sptAlpha p (q + r) * F2Full .delta q r)) := by ring
    dsimp only
    rw [e, abs_le]
    constructor <;> linarith [g1.1, g1.2, g2.1, g2.2, g3.1, g3.2]

/-- The same bound for the symmetrised kernels, of perturbation theory and of the code. -/
theorem sym3_sharp (a : Field) (m M K : ℝ) (hm : 0 < m) (hK : 0 ≤ K) (p q r : Vec) (hk : (p + (q + r)).dot (p + (q + r)) = K ^ 2)
    (p1 : m ^ 2 ≤ p.dot p) (p2 : p.dot p ≤ M ^ 2) (q1 : m ^ 2 ≤ q.dot q) (q2 : q.dot q ≤ M ^ 2) (r1 : m ^ 2 ≤ r.dot r)
    (r2 : r.dot r ≤ M ^ 2) (hmM : m ≤ M) :
    |sptSym3 a p q r| ≤ 2 * (K * M / m ^ 2) * (1 + K / m) ∧ |F3Sym a p q r| ≤ 2 * (K * M / m ^ 2) * (1 + K / m) := by
  have hM : 0 < M := hm.trans_le hmM
  have hx : 0 ≤ 2 * (K * M / m ^ 2) * (1 + K / m) := by positivity
  have pos : ∀ {x : ℝ}, m ^ 2 ≤ x → x ≠ 0 := fun h => (lt_of_lt_of_le (by positivity) h).ne'
  have k1 : r + (p + q) = p + (q + r) := by rw [Vec.add_comm, Vec.add_assoc]
  have k2 : q + (r + p) = p + (q + r) := by rw [← Vec.add_assoc, Vec.add_comm]
  have b1 := spt3Tri_sharp a m M K hm hK p q r hk p1 q1 q2 r1 r2 hmM
  have b2 := spt3Tri_sharp a m M K hm hK r p q (k1 ▸ hk) r1 p1 p2 q1 q2 hmM
  have b3 := spt3Tri_sharp a m M K hm hK q r p (k2 ▸ hk) q1 r1 r2 p1 p2 hmM
  have key : ∀ u v w : Vec, u.dot u ≠ 0 → |spt3Tri a u v w| ≤ 2 * (K * M / m ^ 2) * (1 + K / m) →
      |F3 a u v w| ≤ 2 * (K * M / m ^ 2) * (1 + K / m) := fun u v w hu h => by
    by_cases ht : tiny (v + w) ∨ tiny (u + (v + w))
    · rw [show F3 a u v w = 0 from if_pos ht, abs_zero]
      exact hx
    · have : F3 a u v w = spt3Tri a u v w := by
        rw [F3_value a u v w hu (fun h => ht (.inl h)) (fun h => ht (.inr h))]
        unfold spt3Tri
        cases a <;> rfl
      rwa [this]
  constructor
  · rw [sptSym3_tri a p q r (pos p1) (pos q1) (pos r1)]
    rw [abs_le] at b1 b2 b3 ⊢
    constructor <;> linarith
  · have h1 := abs_le.1 (key _ _ _ (pos p1) b1)
    have h2 := abs_le.1 (key _ _ _ (pos r1) b2)
    have h3 := abs_le.1 (key _ _ _ (pos q1) b3)
    unfold F3Sym
    rw [abs_le]
    constructor <;> linarith

theorem sptKernel3_iso (a : Field) (R : E3 ≃ₗᵢ[ℝ] E3) (p q r : E3) :
    sptKernel a [toVec (R p), toVec (R q), toVec (R r)] = sptKernel a [toVec p, toVec q, toVec r] := by
  have h : sptFG 3 [toVec (R p), toVec (R q), toVec (R r)] = sptFG 3 [toVec p, toVec q, toVec r] := by
    show sptFG (0 + 3) _ = sptFG (0 + 3) _
    rw [spt3, spt3]
    simp only [spt2, sptAlpha, sptBeta, ← toVec_add, ← map_add, toVec_dot, LinearIsometryEquiv.inner_map_map]
  cases a
  · exact congrArg Prod.fst h
  · exact congrArg Prod.snd h

theorem sptSym3_iso (a : Field) (R : E3 ≃ₗᵢ[ℝ] E3) (p q r : E3) :
    sptSym3 a (toVec (R p)) (toVec (R q)) (toVec (R r)) = sptSym3 a (toVec p) (toVec q) (toVec r) := by
  unfold sptSym3
  simp only [sptKernel3_iso]

theorem sptKernel3_meas {X : Type*} [MeasurableSpace X] (a : Field) (f g h : X → E3) (hf : Measurable f) (hg : Measurable g) (hh : Measurable h) :
    Measurable fun x => sptKernel a [toVec (f x), toVec (g x), toVec (h x)] := by
  have hd : Measurable fun x => sptFG 3 [toVec (f x), toVec (g x), toVec (h x)] := by
    show Measurable fun x => sptFG (0 + 3) [toVec (f x), toVec (g x), toVec (h x)]
    simp only [spt3, spt2, sptAlpha, sptBeta, ← toVec_add, toVec_dot]
    fun_prop
  cases a
  · exact hd.fst
  · exact hd.snd

theorem sptSym3_meas {X : Type*} [MeasurableSpace X] (a : Field) (f g h : X → E3) (hf : Measurable f) (hg : Measurable g) (hh : Measurable h) :
    Measurable fun x => sptSym3 a (toVec (f x)) (toVec (g x)) (toVec (h x)) := by
  unfold sptSym3
  exact (((((((sptKernel3_meas a f g h hf hg hh).add (sptKernel3_meas a f h g hf hh hg)).add (sptKernel3_meas a g f h hg hf hh)).add
    (sptKernel3_meas a g h f hg hh hf)).add (sptKernel3_meas a h f g hh hf hg)).add (sptKernel3_meas a h g f hh hg hf)).div_const 6)

/-! ## Half space -/

/-- Both wavevectors and the remaining one are in the range. -/
def region3 (k : E3) (a b : ℝ) : Set (E3 × E3) := {z | z.1 ∈ shellSet a b ∧ z.2 ∈ shellSet a b ∧ k - z.1 - z.2 ∈ shellSet a b}

open Classical in
/-- Twice a function of two wavevectors where the second one is not longer than the remaining one, which is in the range. -/
noncomputable def halfOf (k : E3) (a b : ℝ) (S : E3 → E3 → ℝ) (p q : E3) : ℝ :=
  if ‖q‖ ≤ ‖k - p - q‖ ∧ k - p - q ∈ shellSet a b then 2 * S p q else 0

theorem region3_meas (k : E3) (a b : ℝ) : MeasurableSet (region3 k a b) := by
  have h := shell_measurable a b
  exact (measurable_fst h).inter ((measurable_snd h).inter
    ((measurable_const.sub measurable_fst |>.sub measurable_snd : Measurable fun z : E3 × E3 => k - z.1 - z.2) h))

theorem halfOf_meas (k : E3) (a b : ℝ) {S : E3 → E3 → ℝ} (hS : Measurable fun z : E3 × E3 => S z.1 z.2) :
    Measurable fun z : E3 × E3 => halfOf k a b S z.1 z.2 := by
  unfold halfOf
  have hr : Measurable fun z : E3 × E3 => k - z.1 - z.2 := (measurable_const.sub measurable_fst).sub measurable_snd
  refine Measurable.ite ((measurableSet_le measurable_snd.norm hr.norm).inter (hr (shell_measurable a b))) (hS.const_mul 2) measurable_const

theorem halfOf_bound {k : E3} {a b C : ℝ} {S : E3 → E3 → ℝ} (hC : ∀ z ∈ region3 k a b, |S z.1 z.2| ≤ C) (h0 : 0 ≤ C) (p : E3) (hp : p ∈ shellSet a b)
    (q : E3) (hq : q ∈ shellSet a b) : |halfOf k a b S p q| ≤ 2 * C := by
  unfold halfOf
  split
  · next h =>
    rw [abs_mul, abs_two]
    have := hC (p, q) ⟨hp, hq, h.2⟩
    linarith
  · rw [abs_zero]
    linarith

/-- The half space counts twice for symmetric functions. -/
theorem halfOf_integral {k : E3} {a b C : ℝ} {S : E3 → E3 → ℝ} (hS : Measurable fun z : E3 × E3 => S z.1 z.2)
    (hC : ∀ z ∈ region3 k a b, |S z.1 z.2| ≤ C) (h0 : 0 ≤ C) (hs : ∀ p q, S p (k - p - q) = S p q) :
    ∫ z in shellSet a b ×ˢ shellSet a b, halfOf k a b S z.1 z.2 = ∫ z in region3 k a b, S z.1 z.2 := by
  classical
  let f : E3 → E3 → ℝ := fun p q => if q ∈ shellSet a b ∧ k - p - q ∈ shellSet a b then S p q else 0
  have hshell : MeasurableSet (shellSet a b) := shell_measurable a b
  have hpair : MeasurableSet (shellSet a b ×ˢ shellSet a b) := hshell.prod hshell
  have i1 := shellPair_integrable (halfOf_meas k a b hS) (halfOf_bound hC h0)
  rw [Measure.volume_eq_prod, setIntegral_prod _ (by rwa [← Measure.volume_eq_prod])]
  have hr : Measurable fun z : E3 × E3 => k - z.1 - z.2 := (measurable_const.sub measurable_fst).sub measurable_snd
  have fm : Measurable fun z : E3 × E3 => f z.1 z.2 :=
    Measurable.ite ((measurable_snd hshell).inter (hr hshell)) hS measurable_const
  have fb : ∀ p ∈ shellSet a b, ∀ q, |f p q| ≤ C := fun p hp q => by
    simp only [f]
    split
    · next h => exact hC (p, q) ⟨hp, h.1, h.2⟩
    · rwa [abs_zero]
  have i2 := shellPair_integrable fm fun p hp q _ => fb p hp q
  have hreg : ∫ z in region3 k a b, S z.1 z.2 = ∫ z in shellSet a b ×ˢ shellSet a b, f z.1 z.2 := by
    have e : (fun z : E3 × E3 => f z.1 z.2) =
        fun z => ({z : E3 × E3 | z.2 ∈ shellSet a b ∧ k - z.1 - z.2 ∈ shellSet a b}).indicator (fun z => S z.1 z.2) z := by
      funext z
      simp only [f, Set.indicator, Set.mem_ofPred_eq]
    have hset : MeasurableSet {z : E3 × E3 | z.2 ∈ shellSet a b ∧ k - z.1 - z.2 ∈ shellSet a b} := (measurable_snd hshell).inter (hr hshell)
    rw [e, setIntegral_indicator hset]
    congr 2
    ext z
    simp only [region3, Set.mem_inter_iff, Set.mem_prod, Set.mem_ofPred_eq]
    tauto
  rw [← Measure.volume_eq_prod, hreg, Measure.volume_eq_prod, setIntegral_prod _ (by rwa [← Measure.volume_eq_prod])]
  refine setIntegral_congr_ae hshell ?_
  have hne : ∀ᵐ p : E3, p ≠ k := by
    rw [ae_iff]
    simp
  filter_upwards [hne] with p hpk hp
  have hc : k - p ≠ 0 := sub_ne_zero.2 (Ne.symm hpk)
  have fi : Integrable (f p) := by
    have hz : ∀ q ∉ shellSet a b, f p q = 0 := fun q hq => if_neg fun h => hq h.1
    rw [← integrableOn_iff_integrable_of_support_subset (s := shellSet a b) fun q hq => by
      by_contra h
      exact hq (hz q h)]
    refine Measure.integrableOn_of_bounded (M := C) (shellSet_finite a b).ne ?_ (Filter.Eventually.of_forall (fb p hp))
    exact (fm.comp (measurable_const.prodMk measurable_id)).aestronglyMeasurable
  have hsym : ∀ q, f p (k - p - q) = f p q := fun q => by
    simp only [f, hs, sub_sub_cancel]
    exact if_congr and_comm rfl rfl
  have key := half_space_integral (f p) (k - p) hc fi hsym
  have hfull : ∫ q in shellSet a b, f p q = ∫ q, f p q := setIntegral_eq_integral_of_forall_compl_eq_zero fun q hq => if_neg fun h => hq h.1
  rw [hfull, key, ← integral_const_mul]
  have hhalf : MeasurableSet {q : E3 | ‖q‖ ≤ ‖k - p - q‖} := measurableSet_le (by fun_prop) (by fun_prop)
  have e : ∀ q, halfOf k a b S p q * (if q ∈ shellSet a b then 1 else 0) = ({q : E3 | ‖q‖ ≤ ‖k - p - q‖}).indicator (fun q => 2 * f p q) q := fun q => by
    simp only [halfOf, f, Set.indicator, Set.mem_ofPred_eq]
    by_cases h1 : q ∈ shellSet a b <;> by_cases h2 : ‖q‖ ≤ ‖k - p - q‖ <;> by_cases h3 : k - p - q ∈ shellSet a b <;> simp [h1, h2, h3]
  rw [← integral_indicator hhalf, ← integral_indicator hshell]
  refine integral_congr_ae (Filter.Eventually.of_forall fun q => ?_)
  show (shellSet a b).indicator (fun q => halfOf k a b S p q) q = _
  rw [← e]
  by_cases h1 : q ∈ shellSet a b <;> simp [h1]

end Verif
