import Verif.Proofs.Gamma2Sample

/-!
# C24 – second-order loop kernels under exchange of the incoming momenta
-/

namespace Verif

/-- C24: each of the six expressions, for either field, is symmetric in its first two arguments. -/
theorem C24_branch_symm (a : Field) (b : G2Branch) (k1 k2 k3 q : ℝ) (h1 : k1 ≠ 0) (h2 : k2 ≠ 0) :
    g2Eval a b k1 k2 k3 q = g2Eval a b k2 k1 k3 q := by
  cases a <;> cases b <;> dsimp only [g2Eval]
  · exact g2dReg3rd_symm ..
  · exact g2dLowk_symm ..
  · exact g2dHighk_symm ..
  · exact g2dElongate_symm ..
  · exact g2dColl_symm _ _ _ _ h1 h2
  · exact g2dExact_symm ..
  · exact g2tReg3rd_symm ..
  · exact g2tLowk_symm ..
  · exact g2tHighk_symm ..
  · exact g2tElongate_symm ..
  · exact g2tColl_symm _ _ _ _ h1 h2
  · exact g2tExact_symm ..

example : g2Eval .delta .coll 1 2 (1 / 1000) 5 = g2Eval .delta .coll 2 1 (1 / 1000) 5 :=
  C24_branch_symm _ _ _ _ _ _ (by norm_num) (by norm_num)

theorem rMax_comm (a b : ℝ) : rMax a b = rMax b a := by
  unfold rMax; split_ifs <;> linarith

theorem rMin_comm (a b : ℝ) : rMin a b = rMin b a := by
  unfold rMin; split_ifs <;> linarith

theorem rMax_eq (a b : ℝ) : rMax a b = max a b := by
  unfold rMax; split_ifs with h
  · exact (max_eq_left h.le).symm
  · exact (max_eq_right (not_lt.mp h)).symm

theorem rMin_eq (a b : ℝ) : rMin a b = min a b := by
  unfold rMin; split_ifs with h
  · exact (min_eq_left h.le).symm
  · exact (min_eq_right (not_lt.mp h)).symm

theorem rMax3_eq (a b c : ℝ) : rMax3 a b c = max a (max b c) := by
  simp only [rMax3, rMax_eq]
  rw [max_assoc, ← max_assoc b b c, max_self]

theorem rMin3_eq (a b c : ℝ) : rMin3 a b c = min a (min b c) := by
  simp only [rMin3, rMin_eq]
  rw [min_assoc, ← min_assoc b b c, min_self]

theorem rMax3_comm (a b c : ℝ) : rMax3 a b c = rMax3 b a c := by
  rw [rMax3_eq, rMax3_eq, max_left_comm]

theorem rMin3_comm (a b c : ℝ) : rMin3 a b c = rMin3 b a c := by
  rw [rMin3_eq, rMin3_eq, min_left_comm]

/-- The two tests of the branch selection that single out one of the first two arguments come out the same in both orders. -/
structure G2Agree (k1 k2 k3 q : ℝ) : Prop where
  ratio : |k2 / k1 - 1| < 0.02 ↔ |k1 / k2 - 1| < 0.02
  elong : |k1 * k1 - k3 * k3| < q * q ↔ |k2 * k2 - k3 * k3| < q * q

/-- C24: the branch is the same in both orders when the two asymmetric tests agree. -/
theorem C24_branch_partial (k1 k2 k3 q : ℝ) (h : G2Agree k1 k2 k3 q) : g2Branch k1 k2 k3 q = g2Branch k2 k1 k3 q := by
  have e1 : (|k1 / q - 1| < 0.001 ∨ |k2 / q - 1| < 0.001 ∨ |k3 / q - 1| < 0.001) =
      (|k2 / q - 1| < 0.001 ∨ |k1 / q - 1| < 0.001 ∨ |k3 / q - 1| < 0.001) := propext or_left_comm
  have e2 := propext h.ratio
  have e3 := propext h.elong
  unfold g2Branch
  simp only [e1, e2, e3, rMax3_comm k1 k2, rMin3_comm k1 k2, rMin_comm k1 k2]

/-- C24 without the two asymmetric tests: wherever they come out the same in both orders (in particular for `k1 = k2`, and whenever `k1` and `k2`
differ by more than 2% of either and `q` is at most fifty times both), the loop kernel is symmetric.  Missing: the configurations where they differ,
for which see `C24_kernel_violation`. -/
theorem C24_kernel_partial (a : Field) (k1 k2 k3 q : ℝ) (h1 : k1 ≠ 0) (h2 : k2 ≠ 0) (h : G2Agree k1 k2 k3 q) :
    kernelGamma2 a k1 k2 k3 q = kernelGamma2 a k2 k1 k3 q := by
  unfold kernelGamma2
  rw [C24_branch_partial k1 k2 k3 q h, C24_branch_symm a _ k1 k2 k3 q h1 h2]

/-- C24: outside the elongated region and away from the 2% band the symmetry needs no further hypothesis. -/
theorem C24_kernel_wide_partial (a : Field) (k1 k2 k3 q : ℝ) (h1 : 0 < k1) (h2 : 0 < k2)
    (hr : 0.02 ≤ |k2 / k1 - 1|) (hr' : 0.02 ≤ |k1 / k2 - 1|) (hq : q ≤ 50 * min k1 k2) :
    kernelGamma2 a k1 k2 k3 q = kernelGamma2 a k2 k1 k3 q := by
  have hb : g2Branch k1 k2 k3 q = g2Branch k2 k1 k3 q := by
    have e1 : (|k1 / q - 1| < 0.001 ∨ |k2 / q - 1| < 0.001 ∨ |k3 / q - 1| < 0.001) =
        (|k2 / q - 1| < 0.001 ∨ |k1 / q - 1| < 0.001 ∨ |k3 / q - 1| < 0.001) := propext or_left_comm
    have e2 : ¬ |k2 / k1 - 1| < 0.02 := not_lt.mpr hr
    have e3 : ¬ |k1 / k2 - 1| < 0.02 := not_lt.mpr hr'
    have e4 : ¬ 50 * rMin k1 k2 < q := by rw [rMin_eq]; exact not_lt.mpr hq
    unfold g2Branch
    simp only [rMax3_comm k2 k1, rMin3_comm k2 k1, rMin_comm k2 k1, e2, e3, e4, if_false, false_and, e1]
  unfold kernelGamma2
  rw [hb, C24_branch_symm a _ k1 k2 k3 q h1.ne' h2.ne']

/-- The integral of the loop kernel over the quadrature nodes. -/
theorem gamma2OneLoop_sum (a : Field) (g : GLQ ℝ) (h : g.Ok) (k1 k2 k3 : ℝ) :
    gamma2OneLoop a g k1 k2 k3 = .ok ((g.nodes.map fun t => t.2.1 * kernelGamma2 a k1 k2 k3 t.1 * t.1 ^ 3 * t.2.2).sum / (8 * Real.pi ^ 3)) := by
  unfold gamma2OneLoop
  rw [sumLoop_ok _ _ (fun i => g.w.getD i 0 * kernelGamma2 a k1 k2 k3 (g.q.getD i 0) * g.q.getD i 0 ^ 3 * g.pk.getD i 0)]
  · simp only [Res.ok_bind]
    rw [← nodes_sum g h fun q w p => w * kernelGamma2 a k1 k2 k3 q * q ^ 3 * p]
    congr 2
    ring
  · intro i hi
    have hq : i < g.q.length := by rw [h.q]; exact hi
    have hw : i < g.w.length := by rw [h.w]; exact hi
    have hp : i < g.pk.length := by rw [h.pk]; exact hi
    rw [rd_ok hq, rd_ok hw, rd_ok hp]
    simp only [Res.ok_bind]
    rw [List.getD_eq_getElem _ _ hq, List.getD_eq_getElem _ _ hw, List.getD_eq_getElem _ _ hp]
    congr 1
    ring

/-- C24 for the integrals: symmetric when the two asymmetric tests agree at every node.  Missing: see `C24_gamma2_violation`. -/
theorem C24_gamma2_partial (a : Field) (g : GLQ ℝ) (hg : g.Ok) (k1 k2 k3 : ℝ) (h1 : k1 ≠ 0) (h2 : k2 ≠ 0)
    (h : ∀ t ∈ g.nodes, G2Agree k1 k2 k3 t.1) : gamma2OneLoop a g k1 k2 k3 = gamma2OneLoop a g k2 k1 k3 := by
  rw [gamma2OneLoop_sum a g hg, gamma2OneLoop_sum a g hg]
  congr 3
  apply List.map_congr_left
  intro t ht
  rw [C24_kernel_partial a k1 k2 k3 t.1 h1 h2 (h t ht)]

example : G2Agree 1 2 2 3 := ⟨by norm_num [abs_lt], by norm_num [abs_lt]⟩

theorem g2Branch_sample : g2Branch 1 500 500 51 = .exact ∧ g2Branch 500 1 500 51 = .elongate := by
  constructor
  · unfold g2Branch
    rw [if_neg (by norm_num [abs_lt]), if_neg (by norm_num [abs_lt]), if_neg (by rw [rMin3_eq]; norm_num), if_neg (by rw [rMax3_eq]; norm_num),
      if_neg (by norm_num [abs_lt]), if_neg (by norm_num)]
  · unfold g2Branch
    rw [if_neg (by norm_num [abs_lt]), if_neg (by norm_num [abs_lt]), if_neg (by rw [rMin3_eq]; norm_num), if_neg (by rw [rMax3_eq]; norm_num),
      if_pos (by rw [rMin_eq]; norm_num)]

/-- C24 fails: for the triangle with sides 1, 500, 500 and loop momentum 51 the kernel is evaluated with the exact expression in one order and with
the elongated-triangle expansion in the other, and the values differ by more than 0.005. -/
theorem C24_kernel_violation (a : Field) : kernelGamma2 a 500 1 500 51 + 0.005 < kernelGamma2 a 1 500 500 51 := by
  unfold kernelGamma2
  rw [g2Branch_sample.1, g2Branch_sample.2]
  cases a
  · exact g2d_sample_lt
  · exact g2t_sample_lt

/-- C24 fails for the integrals as well, with a one-node rule of positive weight. -/
theorem C24_gamma2_violation (a : Field) : ∃ (g : GLQ ℝ) (x y : ℝ), g.Ok ∧ Triangle 1 500 500 ∧
    gamma2OneLoop a g 1 500 500 = .ok x ∧ gamma2OneLoop a g 500 1 500 = .ok y ∧ y < x := by
  have hg : GLQ.Ok { nq := 1, q := [51], w := [1], pk := [1], x := [], k := 1 } := ⟨rfl, rfl, rfl⟩
  refine ⟨_, _, _, hg, ⟨by norm_num, by norm_num, by norm_num, by norm_num, by norm_num, by norm_num⟩, gamma2OneLoop_sum a _ hg _ _ _, gamma2OneLoop_sum a _ hg _ _ _, ?_⟩
  have h := C24_kernel_violation a
  simp only [GLQ.nodes, List.zip_cons_cons, List.zip_nil_right, List.map_cons, List.map_nil, List.sum_cons, List.sum_nil]
  have : 0 < Real.pi ^ 3 := by positivity
  gcongr
  linarith

end Verif
