from g2r import coefs
def f(x): 
    n,d=x.numerator,x.denominator
    return f'({n}/{d}:ℝ)' if n>=0 else f'(-({-n}/{d}):ℝ)'
out=[]
p=out.append
p('''import Verif.Proofs.Gamma2Sym
import Verif.Props.Gamma1

/-!
# Values of the second-order loop kernels at one triangle

Sides 1, 500, 500 and loop momentum 51: exact rational linear forms in logarithms, used to show that the two evaluation branches
selected for the two orders of the first arguments differ.
-/

set_option linter.unusedSimpArgs false

namespace Verif

theorem pw_one (x : ℝ) : pw x 1 = x := pow_one x

/-- Logarithms at the sample point: rational values with explicit remainder. -/
theorem g2_sample_logs : ∃ rA rB r1 r2 s1 s2 : ℝ, 0 < s1 ∧ 0 < s2 ∧
    Real.sqrt 7012600 = s1 ∧ Real.sqrt 61206267802 = s2 ∧
    0 ≤ rA ∧ rA ≤ 1 / 10 ^ 20 ∧ 0 ≤ rB ∧ rB ≤ 1 / 10 ^ 12 ∧ 0 ≤ r1 ∧ r1 ≤ 2 / 10 ^ 12 ∧ 0 ≤ r2 ∧ r2 ≤ 1 / 10 ^ 20 ∧
    LFunc 1 51 = 4 / 51 * (1 + (1 / 51) ^ 2 / 3 + (1 / 51) ^ 4 / 5 + (1 / 51) ^ 6 / 7 + (1 / 51) ^ 8 / 9 + (1 / 51) ^ 10 / 11 + rA) ∧
    LFunc 500 51 = 204 / 500 * (1 + (51 / 500) ^ 2 / 3 + (51 / 500) ^ 4 / 5 + (51 / 500) ^ 6 / 7 + (51 / 500) ^ 8 / 9 + (51 / 500) ^ 10 / 11 + rB) ∧
    Real.log (551 / 449) = 102 / 500 * (1 + (51 / 500) ^ 2 / 3 + (51 / 500) ^ 4 / 5 + (51 / 500) ^ 6 / 7 + (51 / 500) ^ 8 / 9 + (51 / 500) ^ 10 / 11 + rB) ∧
    WFunc 1 500 500 51 = s1 * (4 / 25500 * (1 + 70126 / 6502500 / 3 + (70126 / 6502500) ^ 2 / 5 + (70126 / 6502500) ^ 3 / 7 +
      (70126 / 6502500) ^ 4 / 9 + (70126 / 6502500) ^ 5 / 11 + r1)) ∧
    WFunc 500 500 1 51 = s2 * (204 / 61206267802 * (1 + 2601 / 61206267802 / 3 + (2601 / 61206267802) ^ 2 / 5 + (2601 / 61206267802) ^ 3 / 7 +
      (2601 / 61206267802) ^ 4 / 9 + (2601 / 61206267802) ^ 5 / 11 + r2)) := by
  obtain ⟨rA, a0, a1, a2⟩ := artanh_six (1 / 51) (by norm_num) (by norm_num)
  obtain ⟨rB, b0, b1, b2⟩ := artanh_six (51 / 500) (by norm_num) (by norm_num)
  have hs1 : 0 < Real.sqrt 7012600 := Real.sqrt_pos.mpr (by norm_num)
  have hs2 : 0 < Real.sqrt 61206267802 := Real.sqrt_pos.mpr (by norm_num)
  have q1 : Real.sqrt 7012600 ^ 2 = 7012600 := Real.sq_sqrt (by norm_num)
  have q2 : Real.sqrt 61206267802 ^ 2 = 61206267802 := Real.sq_sqrt (by norm_num)
  have l1 : Real.sqrt 7012600 < 25500 := by
    rw [Real.sqrt_lt' (by norm_num)]; norm_num
  have l2 : 51 < Real.sqrt 61206267802 := by
    rw [Real.lt_sqrt (by norm_num)]; norm_num
  generalize hd1 : Real.sqrt 7012600 = s1 at *
  generalize hd2 : Real.sqrt 61206267802 = s2 at *
  have p1 : (s1 / 25500) ^ 2 = 70126 / 6502500 := by rw [div_pow, q1]; norm_num
  have p2 : (51 / s2) ^ 2 = 2601 / 61206267802 := by rw [div_pow, q2]; norm_num
  obtain ⟨r1, c0, c1, c2⟩ := artanh_six (s1 / 25500) (by positivity) (by rw [div_lt_one (by norm_num)]; exact l1)
  obtain ⟨r2, d0, d1, d2⟩ := artanh_six (51 / s2) (by positivity) (by rw [div_lt_one hs2]; exact l2)
  refine ⟨rA, rB, r1, r2, s1, s2, hs1, hs2, rfl, rfl, a0, a1.trans (by norm_num), b0, b1.trans (by norm_num), c0, c1.trans (by rw [p1]; norm_num),
    d0, d1.trans (by rw [p2]; norm_num), ?_, ?_, ?_, ?_, ?_⟩
  · have e : |((1 : ℝ) + 51) / (1 - 51)| = (1 + 1 / 51) / (1 - 1 / 51) := by
      rw [abs_of_neg (by norm_num)]; norm_num
    rw [LFunc, e, Real.log_div (by norm_num) (by norm_num), a2]; ring
  · have e : |((500 : ℝ) + 51) / (500 - 51)| = (1 + 51 / 500) / (1 - 51 / 500) := by
      rw [abs_of_pos (by norm_num)]; norm_num
    rw [LFunc, e, Real.log_div (by norm_num) (by norm_num), b2]; ring
  · have e : (551 / 449 : ℝ) = (1 + 51 / 500) / (1 - 51 / 500) := by norm_num
    rw [e, Real.log_div (by norm_num) (by norm_num), b2]; ring
  · obtain ⟨-, s, t0, t1, -, t3⟩ := C19_WFunc 1 500 500 51 ⟨by norm_num, by norm_num, by norm_num, by norm_num, by norm_num, by norm_num⟩
      (by norm_num) (by norm_num) (by norm_num)
    have hs : s = s1 := by
      rw [← hd1, show (7012600 : ℝ) = s ^ 2 from by rw [t1]; norm_num, Real.sqrt_sq t0.le]
    have e : |(s1 + 500 * 51) / (s1 - 500 * 51)| = (1 + s1 / 25500) / (1 - s1 / 25500) := by
      rw [abs_of_neg (div_neg_of_pos_of_neg (by linarith) (by linarith))]
      have : s1 - 500 * 51 ≠ 0 := by linarith
      have : 25500 - s1 ≠ 0 := by linarith
      rw [← div_neg]
      have e1 : 1 + s1 / 25500 = (s1 + 500 * 51) / 25500 := by ring
      have e2 : 1 - s1 / 25500 = -(s1 - 500 * 51) / 25500 := by ring
      rw [e1, e2, div_div_div_cancel_right₀ (by norm_num)]
    have hu : s1 / 25500 < 1 := by rw [div_lt_one (by norm_num)]; exact l1
    have hu0 : 0 < s1 / 25500 := by positivity
    rw [t3, hs, e, Real.log_div (by linarith) (by linarith), c2]
    rw [show (s1 / 25500) ^ 4 = ((s1 / 25500) ^ 2) ^ 2 from by ring, show (s1 / 25500) ^ 6 = ((s1 / 25500) ^ 2) ^ 3 from by ring,
      show (s1 / 25500) ^ 8 = ((s1 / 25500) ^ 2) ^ 4 from by ring, show (s1 / 25500) ^ 10 = ((s1 / 25500) ^ 2) ^ 5 from by ring, p1]
    ring
  · obtain ⟨-, s, t0, t1, -, t3⟩ := C19_WFunc 500 500 1 51 ⟨by norm_num, by norm_num, by norm_num, by norm_num, by norm_num, by norm_num⟩
      (by norm_num) (by norm_num) (by norm_num)
    have hs : s = s2 := by
      rw [← hd2, show (61206267802 : ℝ) = s ^ 2 from by rw [t1]; norm_num, Real.sqrt_sq t0.le]
    have hu : 51 / s2 < 1 := by rw [div_lt_one hs2]; exact l2
    have hu0 : 0 < 51 / s2 := by positivity
    have e : |(s2 + 1 * 51) / (s2 - 1 * 51)| = (1 + 51 / s2) / (1 - 51 / s2) := by
      rw [abs_of_pos (div_pos (by linarith) (by linarith))]
      have e1 : 1 + 51 / s2 = (s2 + 1 * 51) / s2 := by field_simp
      have e2 : 1 - 51 / s2 = (s2 - 1 * 51) / s2 := by field_simp
      rw [e1, e2, div_div_div_cancel_right₀ hs2.ne']
    rw [t3, hs, e, Real.log_div (by linarith) (by linarith), d2]
    rw [show (51 / s2) ^ 4 = ((51 / s2) ^ 2) ^ 2 from by ring, show (51 / s2) ^ 6 = ((51 / s2) ^ 2) ^ 3 from by ring,
      show (51 / s2) ^ 8 = ((51 / s2) ^ 2) ^ 4 from by ring, show (51 / s2) ^ 10 = ((51 / s2) ^ 2) ^ 5 from by ring, p2]
    have : 51 / s2 = s2 * (51 / 61206267802) := by
      rw [div_eq_iff hs2.ne', mul_right_comm, ← sq, q2]; norm_num
    rw [this]
    ring
''')
for t in 'dt':
    b,cA,cB,c1,c2,f0,f1=coefs(t)
    ex=' '.join(f'g2{t}Exact{i}' for i in range(1,6 if t=='d' else 7))
    p(f'''theorem g2{t}Exact_sample (T1 T2 s1 s2 : ℝ) (h1 : 0 < s1) (h2 : 0 < s2) (e1 : Real.sqrt 7012600 = s1) (e2 : Real.sqrt 61206267802 = s2)
    (w1 : WFunc 1 500 500 51 = s1 * T1) (w2 : WFunc 500 500 1 51 = s2 * T2) :
    g2{t}Exact 1 500 500 51 = Real.pi * ({f(b)} + {f(cA)} * LFunc 1 51 + {f(cB)} * LFunc 500 51 + {f(c1)} * T1 + {f(c2)} * T2) := by
  unfold g2{t}Exact {ex}
  simp only [pw_one]
  simp only [w1, w2, pw, C01_power]
  rw [show (1:ℝ) ^ 2 * 500 ^ 2 - (1 ^ 2 + 500 ^ 2 - 500 ^ 2) * 51 ^ 2 + 51 ^ 4 = 7012600 from by norm_num,
    show (1:ℝ) ^ 2 * 500 ^ 2 - (1 ^ 2 - 500 ^ 2 + 500 ^ 2) * 51 ^ 2 + 51 ^ 4 = 7012600 from by norm_num,
    show (1:ℝ) ^ 2 * 51 ^ 2 + (500 - 51) * (500 - 51) * (500 + 51) * (500 + 51) = 61206267802 from by norm_num, e1, e2]
  clear w1 w2 e1 e2
  field_simp
  ring

theorem g2{t}Elongate_sample : g2{t}Elongate 500 1 500 51 = Real.pi * ({f(f0)} + {f(f1*2)} * Real.log (551 / 449)) := by
  unfold g2{t}Elongate
  rw [if_pos (by norm_num)]
  unfold g2{t}ElongateE
  simp only [pw_one]
  simp only [pw, C01_power]
  have hs : Real.sqrt ((51:ℝ) ^ 2 * 51 ^ 2) = 2601 := by
    rw [show (51:ℝ) ^ 2 * 51 ^ 2 = 2601 ^ 2 from by norm_num, Real.sqrt_sq (by norm_num)]
  have hr : ((51:ℝ) ^ 2 * 51 ^ 2) ^ (1.5 : ℝ) = 2601 ^ 3 := by
    rw [show (51:ℝ) ^ 2 * 51 ^ 2 = 2601 ^ (2:ℝ) from by norm_num, ← Real.rpow_mul (by norm_num),
      show (2:ℝ) * 1.5 = (3:ℕ) from by norm_num, Real.rpow_natCast]
  have z1 : (500:ℝ) ^ 2 - 500 ^ 2 + 51 ^ 2 = 51 ^ 2 := by norm_num
  have z2 : -(500:ℝ) ^ 2 + 500 ^ 2 + 51 ^ 2 = 51 ^ 2 := by norm_num
  have la : Real.log (abs ((500 + 51) / (500 - 51) : ℝ)) = Real.log (551 / 449) := by
    rw [abs_of_pos (by norm_num)]; norm_num
  have lb : Real.log ((2 * 500 ^ 2 * 51 - 500 ^ 2 * 51 + 51 ^ 3 + 2 * 500 * 2601) / (2 * 500 ^ 2 * 51 - 500 ^ 2 * 51 + 51 ^ 3 - 2 * 500 * 2601) : ℝ) =
      2 * Real.log (551 / 449) := by
    rw [show ((2 * 500 ^ 2 * 51 - 500 ^ 2 * 51 + 51 ^ 3 + 2 * 500 * 2601) / (2 * 500 ^ 2 * 51 - 500 ^ 2 * 51 + 51 ^ 3 - 2 * 500 * 2601) : ℝ) =
      (551 / 449) ^ 2 from by norm_num, Real.log_pow]; norm_num
  have lc : Real.log (-((-(500 ^ 2 * 51) + 2 * 500 ^ 2 * 51 + 51 ^ 3 + 2 * 500 * 2601) / (500 ^ 2 * 51 - 2 * 500 ^ 2 * 51 - 51 ^ 3 + 2 * 500 * 2601)) : ℝ) =
      2 * Real.log (551 / 449) := by
    rw [show (-((-(500 ^ 2 * 51) + 2 * 500 ^ 2 * 51 + 51 ^ 3 + 2 * 500 * 2601) / (500 ^ 2 * 51 - 2 * 500 ^ 2 * 51 - 51 ^ 3 + 2 * 500 * 2601)) : ℝ) =
      (551 / 449) ^ 2 from by norm_num, Real.log_pow]; norm_num
  rw [z1, z2, hs, hr, la, lb, lc]
  ring

theorem g2{t}_sample_lt : g2{t}Elongate 500 1 500 51 + 0.005 < g2{t}Exact 1 500 500 51 := by
  obtain ⟨rA, rB, r1, r2, s1, s2, hs1, hs2, e1, e2, a0, a1, b0, b1, c0, c1, d0, d1, hA, hB, hl, w1, w2⟩ := g2_sample_logs
  rw [g2{t}Elongate_sample, g2{t}Exact_sample _ _ s1 s2 hs1 hs2 e1 e2 w1 w2, hA, hB, hl]
  have hpi := Real.two_le_pi
  clear w1 w2 hA hB hl e1 e2
  have key : ∀ x y : ℝ, y + 0.0025 < x → Real.pi * y + 0.005 < Real.pi * x := fun x y h => by nlinarith
  apply key
  norm_num at a1 b1 c1 d1 ⊢
  linarith
''')
p('end Verif')
open('/verif/lean/Verif/Proofs/Gamma2Sample.lean','w').write('\n'.join(out)+'\n')
