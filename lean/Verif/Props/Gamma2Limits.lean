import Verif.Props.Gamma2
import Verif.Proofs.Gamma2Low
import Verif.Proofs.Gamma2High
import Verif.Proofs.Gamma2Reg
import Verif.Proofs.Gamma2CollD
import Verif.Proofs.Gamma2CollT
import Verif.Proofs.Gamma2ElongD
import Verif.Proofs.Gamma2ElongT

/-!
# C69 – the branches of the second-order loop kernels agree where they meet
-/

namespace Verif

open Asymptotics Filter Topology

/-- C69: at large loop wavenumber the expansion `lowk` reproduces the exact expression up to `q⁻⁶`. -/
theorem C69_lowk (a : Field) (k1 k2 k3 : ℝ) (h : Triangle k1 k2 k3) :
    (fun q => g2Eval a .exact k1 k2 k3 q - g2Eval a .lowk k1 k2 k3 q) =O[atTop] fun q : ℝ => q ^ (-6 : ℤ) := by
  cases a
  · exact g2d_low k1 k2 k3 h
  · exact g2t_low k1 k2 k3 h

/-- C69: at small loop wavenumber the expansion `highk` reproduces the exact expression up to `q⁴`. -/
theorem C69_highk (a : Field) (k1 k2 k3 : ℝ) (h : Triangle k1 k2 k3) :
    (fun q => g2Eval a .exact k1 k2 k3 q - g2Eval a .highk k1 k2 k3 q) =O[𝓝[>] 0] fun q : ℝ => q ^ (4 : ℤ) := by
  cases a
  · exact g2d_high k1 k2 k3 h
  · exact g2t_high k1 k2 k3 h

theorem tri345 : Triangle 3 4 5 := ⟨by norm_num, by norm_num, by norm_num, by norm_num, by norm_num, by norm_num⟩

example : (fun q => g2Eval .theta .exact 3 4 5 q - g2Eval .theta .lowk 3 4 5 q) =O[atTop] fun q : ℝ => q ^ (-6 : ℤ) :=
  C69_lowk _ _ _ _ tri345

example : (fun q => g2Eval .delta .exact 3 4 5 q - g2Eval .delta .highk 3 4 5 q) =O[𝓝[>] 0] fun q : ℝ => q ^ (4 : ℤ) :=
  C69_highk _ _ _ _ tri345

theorem far_of_large {k q : ℝ} (hk : 0 < k) (hq : 10 * k < q) : ¬ |k / q - 1| < 0.001 := by
  have hq0 : 0 < q := by linarith
  have : k / q < 1 / 10 := by rw [div_lt_iff₀ hq0]; linarith
  rw [not_lt, abs_of_neg (by linarith)]
  norm_num; linarith

theorem far_of_small {k q : ℝ} (hq0 : 0 < q) (hq : q < 0.1 * k) : ¬ |k / q - 1| < 0.001 := by
  have : 10 < k / q := by rw [lt_div_iff₀ hq0]; norm_num at hq; linarith
  rw [not_lt, abs_of_pos (by linarith)]
  norm_num; linarith

theorem g2Branch_large {k1 k2 k3 q : ℝ} (h : Triangle k1 k2 k3) (hq : 10 * rMax3 k1 k2 k3 < q) : g2Branch k1 k2 k3 q = .lowk := by
  have e := rMax3_eq k1 k2 k3
  have m1 : k1 ≤ rMax3 k1 k2 k3 := by rw [e]; exact le_max_left _ _
  have m2 : k2 ≤ rMax3 k1 k2 k3 := by rw [e]; exact (le_max_left _ _).trans (le_max_right _ _)
  have m3 : k3 ≤ rMax3 k1 k2 k3 := by rw [e]; exact (le_max_right _ _).trans (le_max_right _ _)
  have hn : ¬ q < 0.1 * rMin3 k1 k2 k3 := by
    have : rMin3 k1 k2 k3 ≤ k1 := by rw [rMin3_eq]; exact min_le_left _ _
    have := h.pos1
    norm_num; linarith
  unfold g2Branch
  rw [if_neg (by
    rintro (h0 | h0 | h0)
    · exact far_of_large h.pos1 (by linarith) h0
    · exact far_of_large h.pos2 (by linarith) h0
    · exact far_of_large h.pos3 (by linarith) h0), if_pos hq, if_neg hn, if_pos hq, ite_self]

theorem g2Branch_small {k1 k2 k3 q : ℝ} (h : Triangle k1 k2 k3) (hq0 : 0 < q) (hq : q < 0.1 * rMin3 k1 k2 k3) : g2Branch k1 k2 k3 q = .highk := by
  have e := rMin3_eq k1 k2 k3
  have m1 : rMin3 k1 k2 k3 ≤ k1 := by rw [e]; exact min_le_left _ _
  have m2 : rMin3 k1 k2 k3 ≤ k2 := by rw [e]; exact (min_le_right _ _).trans (min_le_left _ _)
  have m3 : rMin3 k1 k2 k3 ≤ k3 := by rw [e]; exact (min_le_right _ _).trans (min_le_right _ _)
  have hn : ¬ 10 * rMax3 k1 k2 k3 < q := by
    have : k1 ≤ rMax3 k1 k2 k3 := by rw [rMax3_eq]; exact le_max_left _ _
    have := h.pos1
    norm_num at hq ⊢; linarith
  unfold g2Branch
  norm_num at hq
  rw [if_neg (by
    rintro (h0 | h0 | h0)
    · exact far_of_small hq0 (by norm_num; linarith) h0
    · exact far_of_small hq0 (by norm_num; linarith) h0
    · exact far_of_small hq0 (by norm_num; linarith) h0), if_neg hn]
  have hq' : q < 0.1 * rMin3 k1 k2 k3 := by norm_num; linarith
  rw [if_pos hq', if_pos hq', ite_self]

/-- C69: so the kernel with its branches follows the exact expression up to `q⁻⁶` at large loop wavenumber. -/
theorem C69_kernel_lowk (a : Field) (k1 k2 k3 : ℝ) (h : Triangle k1 k2 k3) :
    (fun q => kernelGamma2 a k1 k2 k3 q - g2Eval a .exact k1 k2 k3 q) =O[atTop] fun q : ℝ => q ^ (-6 : ℤ) := by
  refine (C69_lowk a k1 k2 k3 h).neg_left.congr' ?_ EventuallyEq.rfl
  filter_upwards [eventually_gt_atTop (10 * rMax3 k1 k2 k3)] with q hq
  rw [kernelGamma2, g2Branch_large h hq]; ring

/-- C69: and up to `q⁴` at small loop wavenumber. -/
theorem C69_kernel_highk (a : Field) (k1 k2 k3 : ℝ) (h : Triangle k1 k2 k3) :
    (fun q => kernelGamma2 a k1 k2 k3 q - g2Eval a .exact k1 k2 k3 q) =O[𝓝[>] 0] fun q : ℝ => q ^ (4 : ℤ) := by
  refine (C69_highk a k1 k2 k3 h).neg_left.congr' ?_ EventuallyEq.rfl
  have hp : 0 < 0.1 * rMin3 k1 k2 k3 := by
    rw [rMin3_eq]
    have := lt_min h.pos1 (lt_min h.pos2 h.pos3)
    positivity
  filter_upwards [Ioo_mem_nhdsGT hp] with q hq
  rw [kernelGamma2, g2Branch_small h hq.1 hq.2]; ring

example : (fun q => kernelGamma2 .delta 3 4 5 q - g2Eval .delta .exact 3 4 5 q) =O[atTop] fun q : ℝ => q ^ (-6 : ℤ) :=
  C69_kernel_lowk _ _ _ _ tri345

example : (fun q => kernelGamma2 .theta 3 4 5 q - g2Eval .theta .exact 3 4 5 q) =O[𝓝[>] 0] fun q : ℝ => q ^ (4 : ℤ) :=
  C69_kernel_highk _ _ _ _ tri345

theorem triM_comm (a b c q : ℝ) : triM a b c q = triM b a c q := by unfold triM; ring

theorem BigClosed.comm {a b c q : ℝ} (h : BigClosed a b c q) : BigClosed b a c q :=
  ⟨by rw [← triM_comm a b]; exact h.far, by rw [← triM_comm a b]; exact h.arg⟩

/-- C69: away from the arguments where the auxiliary functions use their series, the expression meant for the neighbourhood of
the singular configurations equals the exact one. -/
theorem C69_reg3rd (a : Field) (k1 k2 k3 q : ℝ) (h : Triangle k1 k2 k3) (hq : 0 < q) (n1 : q ≠ k1) (n2 : q ≠ k2) (n3 : q ≠ k3)
    (s1 : SmallClosed k1 q) (s2 : SmallClosed k2 q) (s3 : SmallClosed k3 q) (b1 : BigClosed k1 k2 k3 q) (b2 : BigClosed k1 k3 k2 q)
    (b3 : BigClosed k2 k3 k1 q) : g2Eval a .reg3rd k1 k2 k3 q = g2Eval a .exact k1 k2 k3 q := by
  cases a
  · exact g2dReg_exact k1 k2 k3 q h hq n1 n2 n3 s1 s2 s3 b1 b2 b3
  · exact g2tReg_exact k1 k2 k3 q h hq n1 n2 n3 s1 s2 s3 b1 b2.comm b3

theorem smallClosed_num (k q r : ℝ) (hr : r = (k - q) / (k + q)) (h1 : 1 / 1000000 < |r|) (h2 : 1 / 10 < 1 - r ^ 2) : SmallClosed k q :=
  ⟨by rw [← hr]; exact h1, by rw [← hr]; exact h2⟩

theorem bigClosed_num (a b c q lo hi : ℝ) (hcq : 0 < c * q) (hlo : 1 + 1 / 100 < lo) (hhi : hi < 10)
    (h1 : (lo * (c * q)) ^ 2 ≤ triM a b c q) (h2 : triM a b c q ≤ (hi * (c * q)) ^ 2) (hlh : 0 < hi) : BigClosed a b c q := by
  have hl : lo ≤ Real.sqrt (triM a b c q) / (c * q) := by
    rw [le_div_iff₀ hcq]; exact Real.le_sqrt_of_sq_le h1
  have hh : Real.sqrt (triM a b c q) / (c * q) ≤ hi := by
    rw [div_le_iff₀ hcq]; exact (Real.sqrt_le_left (by positivity)).mpr h2
  set x := Real.sqrt (triM a b c q) / (c * q) with hx
  refine ⟨?_, ?_⟩
  · rw [← hx, abs_of_pos (by linarith)]; linarith
  · rw [← hx]
    have hx1 : 0 < 1 + x := by linarith
    have e : 1 - ((x - 1) / (1 + x)) ^ 2 = 4 * x / (1 + x) ^ 2 := by field_simp; ring
    rw [e, lt_div_iff₀ (by positivity)]
    nlinarith

example : g2Eval .delta .reg3rd 3 4 5 2 = g2Eval .delta .exact 3 4 5 2 := by
  refine C69_reg3rd _ _ _ _ _ tri345 (by norm_num) (by norm_num) (by norm_num) (by norm_num)
    (smallClosed_num _ _ (1 / 5) (by norm_num) (by rw [abs_of_pos] <;> norm_num) (by norm_num))
    (smallClosed_num _ _ (1 / 3) (by norm_num) (by rw [abs_of_pos] <;> norm_num) (by norm_num))
    (smallClosed_num _ _ (3 / 7) (by norm_num) (by rw [abs_of_pos] <;> norm_num) (by norm_num)) ?_ ?_ ?_
  · exact bigClosed_num _ _ _ _ 1.2 2 (by norm_num) (by norm_num) (by norm_num) (by norm_num [triM]) (by norm_num [triM]) (by norm_num)
  · exact bigClosed_num _ _ _ _ 1.5 2 (by norm_num) (by norm_num) (by norm_num) (by norm_num [triM]) (by norm_num [triM]) (by norm_num)
  · exact bigClosed_num _ _ _ _ 2 3 (by norm_num) (by norm_num) (by norm_num) (by norm_num [triM]) (by norm_num [triM]) (by norm_num)

/-- C69: when the third side shrinks and the two others approach a common length, `coll` reproduces the exact expression up to
the sixth power of the short side. -/
theorem C69_coll (a : Field) (k q : ℝ) (hk : 0 < k) (hq : 0 < q) (n : q ≠ k) :
    (fun p : ℝ × ℝ × ℝ => g2Eval a .exact p.1 p.2.1 p.2.2 q - g2Eval a .coll p.1 p.2.1 p.2.2 q)
      =O[𝓝[{p | Triangle p.1 p.2.1 p.2.2}] (k, k, 0)] fun p => p.2.2 ^ 6 := by
  cases a
  · exact g2d_coll k q hk hq n
  · exact g2t_coll k q hk hq n

/-- The limit of `C69_coll` is not along the empty set: isosceles triangles with a short base approach the point. -/
theorem triangles_near (k : ℝ) (hk : 0 < k) : (𝓝[{p : ℝ × ℝ × ℝ | Triangle p.1 p.2.1 p.2.2}] (k, k, 0)).NeBot := by
  have ht : Tendsto (fun e : ℝ => (k, k, e)) (𝓝[>] 0) (𝓝[{p : ℝ × ℝ × ℝ | Triangle p.1 p.2.1 p.2.2}] (k, k, 0)) := by
    refine tendsto_nhdsWithin_iff.mpr ⟨?_, ?_⟩
    · exact (Continuous.tendsto (by fun_prop : Continuous fun e : ℝ => (k, k, e)) 0).mono_left nhdsWithin_le_nhds
    · filter_upwards [Ioo_mem_nhdsGT hk] with e he
      exact ⟨hk, hk, he.1, by linarith [he.1], by linarith [he.1], by linarith [he.2]⟩
  exact ht.neBot

example : (fun e : ℝ => g2Eval .delta .exact 1 1 e 3 - g2Eval .delta .coll 1 1 e 3) =O[𝓝[>] 0] fun e => e ^ 6 := by
  have ht : Tendsto (fun e : ℝ => ((1 : ℝ), (1 : ℝ), e)) (𝓝[>] 0) (𝓝[{p : ℝ × ℝ × ℝ | Triangle p.1 p.2.1 p.2.2}] (1, 1, 0)) := by
    refine tendsto_nhdsWithin_iff.mpr ⟨?_, ?_⟩
    · exact (Continuous.tendsto (by fun_prop : Continuous fun e : ℝ => ((1 : ℝ), (1 : ℝ), e)) 0).mono_left nhdsWithin_le_nhds
    · filter_upwards [Ioo_mem_nhdsGT one_pos] with e he
      exact ⟨one_pos, one_pos, he.1, by linarith [he.1], by linarith [he.1], by linarith [he.2]⟩
  have h := (C69_coll .delta 1 3 one_pos (by norm_num) (by norm_num)).comp_tendsto ht
  simp only [Function.comp_def] at h
  exact h

/-- C69: when the second side shrinks and the two others approach a common length, `elongate` reproduces the exact expression up
to the square of the short side. -/
theorem C69_elongate (a : Field) (k q : ℝ) (hk : 0 < k) (hq : 0 < q) (n : q ≠ k) :
    (fun p : ℝ × ℝ × ℝ => g2Eval a .exact p.1 p.2.1 p.2.2 q - g2Eval a .elongate p.1 p.2.1 p.2.2 q)
      =O[𝓝[{p | Triangle p.1 p.2.1 p.2.2}] (k, 0, k)] fun p => p.2.1 ^ 2 := by
  cases a
  · exact g2d_elong k q hk hq n
  · exact g2t_elong k q hk hq n

/-- C69: the same when the first side shrinks. -/
theorem C69_elongate_first (a : Field) (k q : ℝ) (hk : 0 < k) (hq : 0 < q) (n : q ≠ k) :
    (fun p : ℝ × ℝ × ℝ => g2Eval a .exact p.1 p.2.1 p.2.2 q - g2Eval a .elongate p.1 p.2.1 p.2.2 q)
      =O[𝓝[{p | Triangle p.1 p.2.1 p.2.2}] (0, k, k)] fun p => p.1 ^ 2 := by
  have ht : Tendsto (fun p : ℝ × ℝ × ℝ => (p.2.1, p.1, p.2.2)) (𝓝[{p | Triangle p.1 p.2.1 p.2.2}] (0, k, k))
      (𝓝[{p | Triangle p.1 p.2.1 p.2.2}] (k, 0, k)) := by
    refine tendsto_nhdsWithin_iff.mpr ⟨?_, ?_⟩
    · exact (Continuous.tendsto (by fun_prop : Continuous fun p : ℝ × ℝ × ℝ => (p.2.1, p.1, p.2.2)) (0, k, k)).mono_left nhdsWithin_le_nhds
    · filter_upwards [self_mem_nhdsWithin] with p hp
      exact ⟨hp.pos2, hp.pos1, hp.pos3, hp.lt2, hp.lt1, by linarith [hp.lt3]⟩
  have h := (C69_elongate a k q hk hq n).comp_tendsto ht
  simp only [Function.comp_def] at h
  refine h.congr' ?_ EventuallyEq.rfl
  filter_upwards [self_mem_nhdsWithin] with p hp
  rw [C24_branch_symm a .exact p.1 p.2.1 p.2.2 q hp.pos1.ne' hp.pos2.ne', C24_branch_symm a .elongate p.1 p.2.1 p.2.2 q hp.pos1.ne' hp.pos2.ne']

/-- C69: in that limit and away from the other special cases the selected kernel follows the exact expression. -/
theorem C69_kernel_elongate (a : Field) (k q : ℝ) (hk : 0 < k) (hq : 0 < q) (hlow : q < 10 * k) (hfar : 1 / 1000 < |k / q - 1|) :
    (fun p : ℝ × ℝ × ℝ => kernelGamma2 a p.1 p.2.1 p.2.2 q - g2Eval a .exact p.1 p.2.1 p.2.2 q)
      =O[𝓝[{p | Triangle p.1 p.2.1 p.2.2}] (k, 0, k)] fun p => p.2.1 ^ 2 := by
  have n : q ≠ k := by
    rintro rfl
    rw [div_self hq.ne', sub_self, abs_zero] at hfar
    norm_num at hfar
  refine (C69_elongate a k q hk hq n).neg_left.congr' ?_ EventuallyEq.rfl
  have ev {P : ℝ × ℝ × ℝ → Prop} (h : ∀ᶠ p in 𝓝 (k, (0 : ℝ), k), P p) : ∀ᶠ p in 𝓝[{p : ℝ × ℝ × ℝ | Triangle p.1 p.2.1 p.2.2}] (k, 0, k), P p :=
    h.filter_mono nhdsWithin_le_nhds
  have c1 : ContinuousAt (fun p : ℝ × ℝ × ℝ => p.1) (k, 0, k) := by fun_prop
  have c2 : ContinuousAt (fun p : ℝ × ℝ × ℝ => p.2.1) (k, 0, k) := by fun_prop
  have c3 : ContinuousAt (fun p : ℝ × ℝ × ℝ => p.2.2) (k, 0, k) := by fun_prop
  have f1 := ev (((c1.div_const q).sub_const 1).abs.eventually (lt_mem_nhds hfar))
  have f2 := ev (((c2.div_const q).sub_const 1).abs.eventually (lt_mem_nhds (show 1 / 1000 < |(0 : ℝ) / q - 1| by norm_num)))
  have f3 := ev (((c3.div_const q).sub_const 1).abs.eventually (lt_mem_nhds hfar))
  have f4 := ev (((c2.div c1 hk.ne').sub_const 1).abs.eventually (lt_mem_nhds (show 1 / 50 < |(0 : ℝ) / k - 1| by norm_num)))
  have f5 := ev ((c2.const_mul 50).eventually (gt_mem_nhds (show 50 * (0 : ℝ) < q by linarith)))
  have f6 := ev ((c1.const_mul 10).eventually (lt_mem_nhds hlow))
  have f7 := ev (((c1.mul c1).sub (c3.mul c3)).abs.eventually (gt_mem_nhds (show |k * k - k * k| < q * q by rw [sub_self, abs_zero]; positivity)))
  filter_upwards [f1, f2, f3, f4, f5, f6, f7, self_mem_nhdsWithin] with p g1 g2 g3 g4 g5 g6 g7 ht
  have g4' : 1 / 50 < |p.2.1 / p.1 - 1| := g4
  have hb : g2Branch p.1 p.2.1 p.2.2 q = .elongate := by
    have hmin : rMin3 p.1 p.2.1 p.2.2 ≤ p.2.1 := by rw [rMin3_eq]; exact (min_le_right _ _).trans (min_le_left _ _)
    have hmax : p.1 ≤ rMax3 p.1 p.2.1 p.2.2 := by rw [rMax3_eq]; exact le_max_left _ _
    have hm : rMin p.1 p.2.1 ≤ p.2.1 := by rw [rMin_eq]; exact min_le_right _ _
    have h2 := ht.pos2
    unfold g2Branch
    rw [if_neg, if_neg, if_neg, if_neg, if_pos]
    · exact ⟨by linarith, g7⟩
    · rw [not_lt]; linarith
    · rw [not_lt]; norm_num; linarith
    · rw [not_lt]; norm_num; linarith
    · rintro (h0 | h0 | h0) <;> norm_num at h0 g1 g2 g3 <;> linarith
  rw [kernelGamma2, hb]; ring

/-- Thin triangles with a short second side approach the point of `C69_elongate`, and `q = 2` satisfies the conditions for `k = 1`. -/
example : (fun e : ℝ => kernelGamma2 .theta 1 e 1 2 - g2Eval .theta .exact 1 e 1 2) =O[𝓝[>] 0] fun e => e ^ 2 := by
  have ht : Tendsto (fun e : ℝ => ((1 : ℝ), e, (1 : ℝ))) (𝓝[>] 0) (𝓝[{p : ℝ × ℝ × ℝ | Triangle p.1 p.2.1 p.2.2}] (1, 0, 1)) := by
    refine tendsto_nhdsWithin_iff.mpr ⟨?_, ?_⟩
    · exact (Continuous.tendsto (by fun_prop : Continuous fun e : ℝ => ((1 : ℝ), e, (1 : ℝ))) 0).mono_left nhdsWithin_le_nhds
    · filter_upwards [Ioo_mem_nhdsGT one_pos] with e he
      exact ⟨one_pos, he.1, one_pos, by linarith [he.1], by linarith [he.2], by linarith [he.1]⟩
  have h := (C69_kernel_elongate .theta 1 2 one_pos (by norm_num) (by norm_num) (by rw [abs_of_neg] <;> norm_num)).comp_tendsto ht
  simp only [Function.comp_def] at h
  exact h

example : (fun e : ℝ => g2Eval .delta .exact e 1 1 3 - g2Eval .delta .elongate e 1 1 3) =O[𝓝[>] 0] fun e => e ^ 2 := by
  have ht : Tendsto (fun e : ℝ => (e, (1 : ℝ), (1 : ℝ))) (𝓝[>] 0) (𝓝[{p : ℝ × ℝ × ℝ | Triangle p.1 p.2.1 p.2.2}] (0, 1, 1)) := by
    refine tendsto_nhdsWithin_iff.mpr ⟨?_, ?_⟩
    · exact (Continuous.tendsto (by fun_prop : Continuous fun e : ℝ => (e, (1 : ℝ), (1 : ℝ))) 0).mono_left nhdsWithin_le_nhds
    · filter_upwards [Ioo_mem_nhdsGT one_pos] with e he
      exact ⟨he.1, one_pos, one_pos, by linarith [he.2], by linarith [he.1], by linarith [he.1]⟩
  have h := (C69_elongate_first .delta 1 3 one_pos (by norm_num) (by norm_num)).comp_tendsto ht
  simp only [Function.comp_def] at h
  exact h

end Verif
