import Verif.Spec.SPT
import Mathlib.Tactic.FieldSimp
import Mathlib.Tactic.LinearCombination
import Mathlib.Tactic.Positivity

/-!
# C17, C18 – second- and third-order kernels
-/

namespace Verif

theorem Vec.dot_comm (p q : Vec) : p.dot q = q.dot p := by unfold Vec.dot; ring
theorem Vec.dot_self_nonneg (p : Vec) : 0 ≤ p.dot p := by
  unfold Vec.dot; nlinarith [mul_self_nonneg p.x, mul_self_nonneg p.y, mul_self_nonneg p.z]
theorem Vec.neg_dot_neg (p q : Vec) : (-p).dot (-q) = p.dot q := by simp [Vec.dot]
theorem Vec.neg_add (p q : Vec) : -p + -q = -(p + q) := by
  show Vec.mk _ _ _ = Vec.mk _ _ _
  congr 1 <;> simp <;> ring
theorem Vec.add_comm (p q : Vec) : p + q = q + p := by
  show Vec.mk _ _ _ = Vec.mk _ _ _
  congr 1 <;> ring
theorem Vec.add_assoc (p q r : Vec) : p + q + r = p + (q + r) := by
  show Vec.mk _ _ _ = Vec.mk _ _ _
  congr 1 <;> simp <;> ring
theorem Vec.add_dot_self (p q : Vec) : (p + q).dot (p + q) = p.dot p + q.dot q + 2 * p.dot q := by simp [Vec.dot]; ring
theorem Vec.add_dot (p q r : Vec) : (p + q).dot r = p.dot r + q.dot r := by simp [Vec.dot]; ring
theorem Vec.dot_add (p q r : Vec) : p.dot (q + r) = p.dot q + p.dot r := by simp [Vec.dot]; ring

/-! ## C17 -/

/-- C17: symmetric in the two wavevectors. -/
theorem C17_F2_symm (a : Field) (p q : Vec) : F2Full a p q = F2Full a q p := by
  unfold F2Full
  rw [Vec.dot_comm q p]
  cases a <;> simp only [F2Fast] <;> ring

/-- C17: invariant under every map preserving scalar products (rotations, reflections). -/
theorem C17_F2_rotation (a : Field) (R : Vec → Vec) (hR : ∀ u v, (R u).dot (R v) = u.dot v) (p q : Vec) :
    F2Full a (R p) (R q) = F2Full a p q := by
  unfold F2Full
  rw [hR, hR, hR]

/-- Non-vacuity of `C17_F2_rotation`: a rotation by an arbitrary angle about the z axis. -/
example (a : Field) (t : ℝ) (p q : Vec) :
    F2Full a ⟨Real.cos t * p.x - Real.sin t * p.y, Real.sin t * p.x + Real.cos t * p.y, p.z⟩
      ⟨Real.cos t * q.x - Real.sin t * q.y, Real.sin t * q.x + Real.cos t * q.y, q.z⟩ = F2Full a p q :=
  C17_F2_rotation a (fun p => ⟨Real.cos t * p.x - Real.sin t * p.y, Real.sin t * p.x + Real.cos t * p.y, p.z⟩) (by
    intro u v
    simp only [Vec.dot]
    linear_combination (u.x * v.x + u.y * v.y) * Real.sin_sq_add_cos_sq t) p q

/-- C17: invariant under simultaneous sign change. -/
theorem C17_F2_parity (a : Field) (p q : Vec) : F2Full a (-p) (-q) = F2Full a p q :=
  C17_F2_rotation a (fun v => -v) Vec.neg_dot_neg p q

/-- C17: zero when the two wavevectors cancel. -/
theorem C17_F2_cancel (a : Field) (p : Vec) (hp : p.dot p ≠ 0) : F2Full a p (-p) = 0 := by
  have h1 : (-p).dot (-p) = p.dot p := Vec.neg_dot_neg p p
  have h2 : p.dot (-p) = - p.dot p := by simp [Vec.dot]; ring
  unfold F2Full
  rw [h1, h2]
  cases a <;> simp only [F2Fast] <;> field_simp <;> ring

/-- C17: the implementation taking moduli and cosine agrees with the one taking vectors. -/
theorem C17_F2_mu (a : Field) (p q : Vec) (hp : p.dot p ≠ 0) (hq : q.dot q ≠ 0) :
    F2Mu a (Real.sqrt (p.dot p)) (Real.sqrt (q.dot q)) (p.dot q / (Real.sqrt (p.dot p) * Real.sqrt (q.dot q))) = F2Full a p q := by
  have hp' : 0 < p.dot p := lt_of_le_of_ne p.dot_self_nonneg hp.symm
  have hq' : 0 < q.dot q := lt_of_le_of_ne q.dot_self_nonneg hq.symm
  have sp := Real.sqrt_pos.mpr hp'
  have sq := Real.sqrt_pos.mpr hq'
  unfold F2Full
  generalize hP : Real.sqrt (p.dot p) = P at *
  generalize hQ : Real.sqrt (q.dot q) = Q at *
  have eP : p.dot p = P * P := by rw [← hP, Real.mul_self_sqrt hp'.le]
  have eQ : q.dot q = Q * Q := by rw [← hQ, Real.mul_self_sqrt hq'.le]
  rw [eP, eQ]
  cases a <;> simp only [F2Fast, F2Mu] <;> field_simp

/-- C17: the implementation taking the three moduli agrees with the one taking vectors. -/
theorem C17_gamma2_tree (a : Field) (p q : Vec) :
    gamma2Tree a (Real.sqrt (p.dot p)) (Real.sqrt (q.dot q)) (Real.sqrt ((p + q).dot (p + q))) = F2Full a p q := by
  unfold gamma2Tree F2Full
  dsimp only
  rw [Real.mul_self_sqrt p.dot_self_nonneg, Real.mul_self_sqrt q.dot_self_nonneg, Real.mul_self_sqrt (p + q).dot_self_nonneg,
    Vec.add_dot_self]
  congr 1
  ring

theorem vec_add_zero (v : Vec) : v + ⟨0, 0, 0⟩ = v := by
  show Vec.mk _ _ _ = v
  simp

theorem spt1 (f : ℕ) (p : Vec) : sptFG (f + 1) [p] = (1, 1) := by simp [sptFG]

theorem spt2 (f : ℕ) (p q : Vec) : sptFG (f + 2) [p, q] =
    (1 / 7 * (5 * sptAlpha p q + 2 * sptBeta p q), 1 / 7 * (3 * sptAlpha p q + 4 * sptBeta p q)) := by
  rw [sptFG]
  norm_num [List.range_succ, spt1, vecSum, vec_add_zero]

theorem spt3 (f : ℕ) (p q r : Vec) : sptFG (f + 3) [p, q, r] =
    (1 / 18 * (7 * sptAlpha p (q + r) * (sptFG (f + 2) [q, r]).1 + 2 * sptBeta p (q + r) * (sptFG (f + 2) [q, r]).2) +
      (sptFG (f + 2) [p, q]).2 / 18 * (7 * sptAlpha (p + q) r + 2 * sptBeta (p + q) r),
     1 / 18 * (3 * sptAlpha p (q + r) * (sptFG (f + 2) [q, r]).1 + 6 * sptBeta p (q + r) * (sptFG (f + 2) [q, r]).2) +
      (sptFG (f + 2) [p, q]).2 / 18 * (3 * sptAlpha (p + q) r + 6 * sptBeta (p + q) r)) := by
  rw [sptFG]
  norm_num [List.range_succ, spt1, vecSum, vec_add_zero]

/-- C17: the kernel is the symmetrised second-order kernel of standard perturbation theory. -/
theorem C17_F2_spt (a : Field) (p q : Vec) (hp : p.dot p ≠ 0) (hq : q.dot q ≠ 0) : F2Full a p q = sptSym2 a p q := by
  have hpq : q.dot p = p.dot q := Vec.dot_comm q p
  unfold F2Full sptSym2
  cases a <;>
  · simp only [sptKernel, List.length_cons, List.length_nil, spt2, sptAlpha, sptBeta, F2Fast, Vec.add_dot, Vec.dot_add, hpq]
    field_simp
    ring

example : F2Full .delta ⟨1, 0, 0⟩ ⟨1, 1, 0⟩ = 5 / 7 + 3 / 4 + 1 / 7 := by norm_num [F2Full, F2Fast, Vec.dot]
example : (⟨1, 2, 2⟩ : Vec).dot ⟨1, 2, 2⟩ ≠ 0 := by norm_num [Vec.dot]

/-! ## C18 -/

theorem F3_swap (a : Field) (p q r : Vec) : F3 a p q r = F3 a p r q := by
  unfold F3
  dsimp only
  rw [Vec.add_comm r q]
  split
  · rfl
  · have h : ∀ b, F2Fast b (q.dot q) (r.dot r) (q.dot r) = F2Fast b (r.dot r) (q.dot q) (r.dot q) := fun b => C17_F2_symm b q r
    rw [h, h]

/-- C18: the symmetrised kernel takes the same value for all six orderings. -/
theorem C18_F3_perm (a : Field) (p q r : Vec) :
    F3Sym a p r q = F3Sym a p q r ∧ F3Sym a q p r = F3Sym a p q r ∧ F3Sym a q r p = F3Sym a p q r ∧
    F3Sym a r p q = F3Sym a p q r ∧ F3Sym a r q p = F3Sym a p q r := by
  unfold F3Sym
  rw [F3_swap a p r q, F3_swap a q p r, F3_swap a r q p]
  refine ⟨?_, ?_, ?_, ?_, ?_⟩ <;> ring

/-- C18: stated over permutations of the list of wavevectors. -/
theorem C18_F3_perm_list (a : Field) (p q r p' q' r' : Vec) (h : List.Perm [p, q, r] [p', q', r']) :
    F3Sym a p' q' r' = F3Sym a p q r := by
  have h2 := List.mem_permutations.mpr h.symm
  obtain ⟨e1, e2, e3, e4, e5⟩ := C18_F3_perm a p q r
  have h3 : [p', q', r'] ∈ ([[p, q, r], [q, p, r], [r, q, p], [q, r, p], [r, p, q], [p, r, q]] : List (List Vec)) := by
    simpa [List.permutations, List.permutationsAux, List.permutationsAux.rec] using h2
  simp only [List.mem_cons, List.cons.injEq, and_true, List.not_mem_nil, or_false] at h3
  rcases h3 with ⟨rfl, rfl, rfl⟩ | ⟨rfl, rfl, rfl⟩ | ⟨rfl, rfl, rfl⟩ | ⟨rfl, rfl, rfl⟩ | ⟨rfl, rfl, rfl⟩ | ⟨rfl, rfl, rfl⟩
  · rfl
  · exact e2
  · exact e5
  · exact e3
  · exact e4
  · exact e1

theorem tiny_neg (p : Vec) : tiny (-p) ↔ tiny p := by simp [tiny]

theorem F3_neg (a : Field) (p q r : Vec) : F3 a (-p) (-q) (-r) = F3 a p q r := by
  unfold F3
  dsimp only
  rw [Vec.neg_add q r, Vec.neg_add p (q + r)]
  by_cases c : tiny (q + r) ∨ tiny (p + (q + r))
  · rw [if_pos c, if_pos (by simpa only [tiny_neg] using c)]
  · rw [if_neg c, if_neg (by simpa only [tiny_neg] using c)]
    simp only [Vec.neg_dot_neg]

/-- C18: invariant under simultaneous sign change. -/
theorem C18_F3_parity (a : Field) (p q r : Vec) : F3Sym a (-p) (-q) (-r) = F3Sym a p q r := by
  unfold F3Sym
  rw [F3_neg, F3_neg, F3_neg]

theorem eps_pos : (0 : ℝ) < eps := by norm_num [eps]

theorem tiny_zero : tiny ⟨0, 0, 0⟩ := by simp [tiny, eps_pos]

/-- C18: zero when the three wavevectors sum to zero. -/
theorem C18_F3_zero (a : Field) (p q r : Vec) (h : p + q + r = ⟨0, 0, 0⟩) : F3Sym a p q r = 0 := by
  have h1 : tiny (p + (q + r)) := by rw [← Vec.add_assoc, h]; exact tiny_zero
  have h2 : tiny (r + (p + q)) := by rw [Vec.add_comm, h]; exact tiny_zero
  have h3 : tiny (q + (r + p)) := by
    have : q + (r + p) = p + q + r := by
      rw [← Vec.add_assoc, Vec.add_comm, ← Vec.add_assoc]
    rw [this, h]; exact tiny_zero
  unfold F3Sym F3
  simp [h1, h2, h3]

theorem dot_ne_zero_of_not_tiny {p : Vec} (h : ¬ tiny p) : p.dot p ≠ 0 := by
  intro h0
  apply h
  have hx : p.x = 0 := by unfold Vec.dot at h0; nlinarith [mul_self_nonneg p.x, mul_self_nonneg p.y, mul_self_nonneg p.z]
  have hy : p.y = 0 := by unfold Vec.dot at h0; nlinarith [mul_self_nonneg p.x, mul_self_nonneg p.y, mul_self_nonneg p.z]
  have hz : p.z = 0 := by unfold Vec.dot at h0; nlinarith [mul_self_nonneg p.x, mul_self_nonneg p.y, mul_self_nonneg p.z]
  simp [tiny, hx, hy, hz, eps_pos]

theorem F3_value (a : Field) (p q r : Vec) (hp : p.dot p ≠ 0) (h1 : ¬ tiny (q + r)) (h2 : ¬ tiny (p + (q + r))) :
    F3 a p q r = match a with
      | .delta => 1 / 18 * ((7 * sptAlpha (q + r) p + 4 * sptBeta p (q + r)) * F2Full .theta q r + 7 * sptAlpha p (q + r) * F2Full .delta q r)
      | .theta => 1 / 18 * ((3 * sptAlpha (q + r) p + 12 * sptBeta p (q + r)) * F2Full .theta q r + 3 * sptAlpha p (q + r) * F2Full .delta q r) := by
  have hqr := dot_ne_zero_of_not_tiny h1
  unfold F3
  dsimp only
  rw [if_neg (by tauto)]
  unfold sptAlpha sptBeta F2Full
  rw [Vec.add_dot (q + r) p (q + r), Vec.add_dot p (q + r) p, Vec.add_dot_self p (q + r), Vec.dot_comm (q + r) p]
  generalize p.dot p = A at *
  generalize (q + r).dot (q + r) = B at *
  generalize p.dot (q + r) = M at *
  cases a <;>
  · simp only [sigmaab]
    norm_num
    field_simp
    ring

/-- C18: for generic wavevectors (none zero, no partial or total sum within the code's threshold of zero) the kernel is the
third-order kernel of standard perturbation theory. -/
theorem C18_F3_spt (a : Field) (p q r : Vec) (hp : p.dot p ≠ 0) (hq : q.dot q ≠ 0) (hr : r.dot r ≠ 0)
    (hpq : ¬ tiny (p + q)) (hqr : ¬ tiny (q + r)) (hrp : ¬ tiny (r + p)) (hpqr : ¬ tiny (p + (q + r))) :
    F3Sym a p q r = sptSym3 a p q r := by
  have h2 : ¬ tiny (r + (p + q)) := by
    rwa [Vec.add_comm, Vec.add_assoc]
  have h3 : ¬ tiny (q + (r + p)) := by
    rwa [Vec.add_comm, Vec.add_comm r p, Vec.add_assoc, Vec.add_comm r q]
  have hb : ∀ u v, sptBeta u v = sptBeta v u := by
    intro u v
    unfold sptBeta
    rw [Vec.add_comm u v, Vec.dot_comm u v]
    ring
  have s2 : ∀ b u v, sptKernel b [u, v] = match b with
    | .delta => (sptFG 2 [u, v]).1
    | .theta => (sptFG 2 [u, v]).2 := fun b u v => by cases b <;> rfl
  unfold F3Sym
  rw [F3_value a p q r hp hqr hpqr, F3_value a r p q hr hpq h2, F3_value a q r p hq hrp h3]
  rw [C17_F2_spt _ q r hq hr, C17_F2_spt _ q r hq hr, C17_F2_spt _ p q hp hq, C17_F2_spt _ p q hp hq, C17_F2_spt _ r p hr hp,
    C17_F2_spt _ r p hr hp]
  unfold sptSym2 sptSym3
  simp only [s2]
  cases a <;>
  · simp only [sptKernel, List.length_cons, List.length_nil, spt3, Nat.reduceAdd]
    rw [Vec.add_comm r q, Vec.add_comm p r, Vec.add_comm q p, hb (q + r) p, hb (p + q) r, hb (r + p) q]
    ring

/-- Non-vacuity of `C18_F3_spt` and a degenerate triple for `C18_F3_zero`. -/
example : ¬ tiny ((⟨1, 0, 0⟩ : Vec) + (⟨0, 1, 0⟩ + ⟨0, 0, 1⟩)) ∧ ¬ tiny ((⟨0, 1, 0⟩ : Vec) + ⟨0, 0, 1⟩) := by
  norm_num [tiny, eps]

example : F3Sym .theta ⟨1, 2, 0⟩ ⟨-1, 0, 1⟩ ⟨0, -2, -1⟩ = 0 := C18_F3_zero _ _ _ _ (by
  show Vec.mk _ _ _ = _
  norm_num)

end Verif
