import Verif.Proofs.PosRule
import Verif.Props.LinMode
import Mathlib.Topology.Order.Basic
import Mathlib.Analysis.SpecialFunctions.Exp
import Verif.Props.Powers

/-!
# C30: auto spectra are non-negative, cross spectra obey Cauchy–Schwarz
-/

namespace Verif

/-- Values looked up in the linear spectrum are non-negative. -/
def NonnegLook (t : Pk ℝ) (i : Interpol) : Prop := ∀ k v, 0 ≤ k → look t i k = .ok v → 0 ≤ v

/-! ## Sums -/

/-- Value of a defined computation (zero otherwise). -/
def Res.num : Res ℝ → ℝ
  | .ok v => v
  | .ub _ => 0

theorem Res.num_of {r : Res ℝ} {v : ℝ} (h : r = .ok v) : r.num = v := by rw [h]; rfl

/-- Modulus of `k-q` at a point of the rule. -/
noncomputable def kqAt (g : GLQ ℝ) (iq : ℕ) (mu : ℝ) : ℝ :=
  g.k * Real.sqrt (1 + g.x.getD iq 0 * g.x.getD iq 0 - 2 * mu * g.x.getD iq 0)

/-- `2 P(q) P(|k-q|)` at a point of the rule. -/
noncomputable def couplingAt (t : Pk ℝ) (i : Interpol) (g : GLQ ℝ) (iq : ℕ) (mu : ℝ) : ℝ :=
  2 * g.pk.getD iq 0 * (look t i (kqAt g iq mu)).num

theorem couplingAt_nonneg {t : Pk ℝ} {i : Interpol} (hl : NonnegLook t i) {g : GLQ ℝ} (hg : ∀ p ∈ g.pk, 0 ≤ p) (hk : 0 ≤ g.k) (iq : ℕ)
    (mu : ℝ) : 0 ≤ couplingAt t i g iq mu := by
  refine mul_nonneg (mul_nonneg (by norm_num) (getD_nonneg hg iq)) ?_
  rcases h : look t i (kqAt g iq mu) with v | w
  · exact hl _ v (mul_nonneg hk (Real.sqrt_nonneg _)) h
  · exact le_rfl

theorem kernelGamma2Tree_val {t : Pk ℝ} {i : Interpol} {a b : Field} {g : GLQ ℝ} {iq : ℕ} {mu : ℝ} {v : Unit → ℝ}
    (h : kernelGamma2Tree t i a b g iq mu = .ok v) :
    v () = couplingAt t i g iq mu * (gamma2Tree a (kqAt g iq mu) (g.q.getD iq 0) g.k * gamma2Tree b (kqAt g iq mu) (g.q.getD iq 0) g.k) := by
  unfold kernelGamma2Tree at h
  simp only [Res.bind_eq_ok] at h
  obtain ⟨x, h1, q, h2, p, h3, pk, h4, h⟩ := h
  obtain ⟨rfl, -⟩ := rd_eq_ok h1
  obtain ⟨rfl, -⟩ := rd_eq_ok h2
  obtain ⟨rfl, -⟩ := rd_eq_ok h3
  cases h
  have : (if a = b then gamma2Tree a (kqAt g iq mu) (g.q.getD iq 0) g.k else gamma2Tree b (kqAt g iq mu) (g.q.getD iq 0) g.k) =
      gamma2Tree b (kqAt g iq mu) (g.q.getD iq 0) g.k := by
    split
    · next e => rw [e]
    · rfl
  unfold couplingAt
  rw [← this, kqAt, Res.num_of h4]
  ring

/-- Points of the double loop of the second-order terms. -/
def points (g : GLQ ℝ) (gm : GLMu ℝ) : Finset (ℕ × ℕ) := Finset.range g.nq ×ˢ Finset.range gm.nmu

/-- Weight, prefactor and spectra at a point of the rule. -/
noncomputable def massAt (t : Pk ℝ) (i : Interpol) (g : GLQ ℝ) (gm : GLMu ℝ) (k : ℝ) (p : ℕ × ℕ) : ℝ :=
  quadWeight true (updateGLQ g k) gm (fun x w => x * x * x * w) p.1 p.2 *
    couplingAt t i (updateGLQ g k) p.1 (quadMu true (updateGLQ g k) gm p.1 p.2) * (k * k * k / (2 * Real.pi * Real.pi))

theorem massAt_nonneg {t : Pk ℝ} {i : Interpol} (hl : NonnegLook t i) {g : GLQ ℝ} {gm : GLMu ℝ} (hr : PosRule g gm)
    (hg : ∀ p ∈ g.pk, 0 ≤ p) {k : ℝ} (hk : 0 < k) {p : ℕ × ℕ} (hp : p ∈ points g gm) : 0 ≤ massAt t i g gm k p := by
  have h1 : p.1 < g.nq := by
    have := (Finset.mem_product.mp hp).1
    simpa using this
  refine mul_nonneg (mul_nonneg (quadWeight_nonneg hr hk (fun x w hx hw => by positivity) h1 _)
    (couplingAt_nonneg hl (g := updateGLQ g k) hg hk.le _ _)) (by positivity)

/-- Tree kernel of a field at a point of the rule. -/
noncomputable def treeAt (a : Field) (g : GLQ ℝ) (gm : GLMu ℝ) (k : ℝ) (p : ℕ × ℕ) : ℝ :=
  gamma2Tree a (kqAt (updateGLQ g k) p.1 (quadMu true (updateGLQ g k) gm p.1 p.2)) (g.q.getD p.1 0) k

theorem calcGamma2Tree_sum {t : Pk ℝ} {i : Interpol} {a b : Field} {g : GLQ ℝ} {gm : GLMu ℝ} {k v : ℝ} {s : GLQ ℝ × GLMu ℝ}
    (h : calcGamma2Tree t i a b g gm k = .ok (s, v)) :
    v = ∑ p ∈ points g gm, massAt t i g gm k p * (treeAt a g gm k p * treeAt b g gm k p) := by
  unfold calcGamma2Tree at h
  obtain ⟨⟨gm', r⟩, h1, h⟩ := Res.bind_eq_ok.mp h
  obtain ⟨hd, hs⟩ := quadLoop_sum h1
  cases h
  dsimp only at hs
  rw [hs (), points, Finset.sum_product, Finset.sum_mul]
  refine Finset.sum_congr rfl fun iq hiq => ?_
  rw [Finset.sum_mul]
  refine Finset.sum_congr rfl fun imu himu => ?_
  by_cases hn : quadRange true (updateGLQ g k) iq = none
  · simp [massAt, quadWeight, hn]
  · have := kernelGamma2Tree_val (hd iq (show iq < g.nq by simpa using hiq) hn imu (by simpa using himu))
    rw [this]
    simp only [massAt, treeAt, updateGLQ]
    ring

/-- Cauchy–Schwarz for a non-negative measure. -/
theorem weighted_cauchy {ι : Type} (S : Finset ι) (m f g : ι → ℝ) (hm : ∀ p ∈ S, 0 ≤ m p) :
    (∑ p ∈ S, m p * (f p * g p)) ^ 2 ≤ (∑ p ∈ S, m p * (f p * f p)) * ∑ p ∈ S, m p * (g p * g p) := by
  refine Finset.sum_sq_le_sum_mul_sum_of_sq_le_mul S (fun p hp => ?_) (fun p hp => ?_) (fun p hp => le_of_eq ?_)
  · exact mul_nonneg (hm p hp) (mul_self_nonneg _)
  · exact mul_nonneg (hm p hp) (mul_self_nonneg _)
  · ring

theorem weighted_square {ι : Type} (S : Finset ι) (m f : ι → ℝ) (hm : ∀ p ∈ S, 0 ≤ m p) : 0 ≤ ∑ p ∈ S, m p * (f p * f p) :=
  Finset.sum_nonneg fun p hp => mul_nonneg (hm p hp) (mul_self_nonneg _)

/-! ## Second order -/

/-- C30: the tree second-order term of an auto spectrum is non-negative, for every rule with non-negative weights and every spectrum
whose interpolated values are non-negative. -/
theorem C30_gamma2_tree {t : Pk ℝ} {i : Interpol} (hl : NonnegLook t i) {g : GLQ ℝ} {gm : GLMu ℝ} (hr : PosRule g gm)
    (hg : ∀ p ∈ g.pk, 0 ≤ p) {k : ℝ} (hk : 0 < k) {a : Field} {s : GLQ ℝ × GLMu ℝ} {v : ℝ}
    (h : calcGamma2Tree t i a a g gm k = .ok (s, v)) : 0 ≤ v := by
  rw [calcGamma2Tree_sum h]
  exact weighted_square _ _ _ fun p hp => massAt_nonneg hl hr hg hk hp

/-- C30: the tree second-order terms of two fields obey the Cauchy–Schwarz inequality. -/
theorem C30_gamma2_tree_cross {t : Pk ℝ} {i : Interpol} (hl : NonnegLook t i) {g : GLQ ℝ} {gm : GLMu ℝ} (hr : PosRule g gm)
    (hg : ∀ p ∈ g.pk, 0 ≤ p) {k : ℝ} (hk : 0 < k) {a b : Field} {s1 s2 s3 : GLQ ℝ × GLMu ℝ} {vaa vab vbb : ℝ}
    (haa : calcGamma2Tree t i a a g gm k = .ok (s1, vaa)) (hab : calcGamma2Tree t i a b g gm k = .ok (s2, vab))
    (hbb : calcGamma2Tree t i b b g gm k = .ok (s3, vbb)) : vab ^ 2 ≤ vaa * vbb := by
  rw [calcGamma2Tree_sum haa, calcGamma2Tree_sum hab, calcGamma2Tree_sum hbb]
  exact weighted_cauchy _ _ _ _ fun p hp => massAt_nonneg hl hr hg hk hp

/-- Loop kernel of a field at a point of the rule. -/
noncomputable def loopAt (gd gt : GLQ ℝ) (a : Field) (g : GLQ ℝ) (gm : GLMu ℝ) (k : ℝ) (p : ℕ × ℕ) : ℝ :=
  (gamma2StdPT gd gt a 1 (kqAt (updateGLQ g k) p.1 (quadMu true (updateGLQ g k) gm p.1 p.2)) (g.q.getD p.1 0) k).num

theorem kernelGamma2Loop_val {t : Pk ℝ} {i : Interpol} {gd gt : GLQ ℝ} {a b : Field} {g : GLQ ℝ} {iq : ℕ} {mu : ℝ} {v : Fin 3 → ℝ}
    (h : kernelGamma2Loop t i gd gt a b g iq mu = .ok v) :
    ∀ x y : ℝ, x ^ 2 * v 0 + x * y * v 1 + y ^ 2 * v 2 = couplingAt t i g iq mu *
      ((x * gamma2Tree a (kqAt g iq mu) (g.q.getD iq 0) g.k + y * (gamma2StdPT gd gt a 1 (kqAt g iq mu) (g.q.getD iq 0) g.k).num) *
        (x * gamma2Tree b (kqAt g iq mu) (g.q.getD iq 0) g.k + y * (gamma2StdPT gd gt b 1 (kqAt g iq mu) (g.q.getD iq 0) g.k).num)) := by
  unfold kernelGamma2Loop at h
  simp only [Res.bind_eq_ok] at h
  obtain ⟨x, h1, q, h2, p, h3, pk, h4, a0, h5, a1, h6, b0, h7, b1, h8, h⟩ := h
  obtain ⟨rfl, -⟩ := rd_eq_ok h1
  obtain ⟨rfl, -⟩ := rd_eq_ok h2
  obtain ⟨rfl, -⟩ := rd_eq_ok h3
  cases h
  have h7' := other_ok (f := fun c => gamma2StdPT gd gt c 0 (kqAt g iq mu) (g.q.getD iq 0) g.k) h5 h7
  have h8' := other_ok (f := fun c => gamma2StdPT gd gt c 1 (kqAt g iq mu) (g.q.getD iq 0) g.k) h6 h8
  have e5 : gamma2Tree a (kqAt g iq mu) (g.q.getD iq 0) g.k = a0 := by
    have : (Res.ok (gamma2Tree a (kqAt g iq mu) (g.q.getD iq 0) g.k) : Res ℝ) = .ok a0 := h5
    injection this
  have e7 : gamma2Tree b (kqAt g iq mu) (g.q.getD iq 0) g.k = b0 := by
    have : (Res.ok (gamma2Tree b (kqAt g iq mu) (g.q.getD iq 0) g.k) : Res ℝ) = .ok b0 := h7'
    injection this
  intro x y
  have e6 : (gamma2StdPT gd gt a 1 (kqAt g iq mu) (g.q.getD iq 0) g.k).num = a1 := Res.num_of h6
  have e8 : (gamma2StdPT gd gt b 1 (kqAt g iq mu) (g.q.getD iq 0) g.k).num = b1 := Res.num_of h8'
  rw [e5, e7, e6, e8, couplingAt, kqAt, Res.num_of h4]
  simp only [Matrix.cons_val_zero, Matrix.cons_val_one, Matrix.cons_val]
  ring

theorem calcGamma2Loop_sum {t : Pk ℝ} {i : Interpol} {gd gt : GLQ ℝ} {a b : Field} {g : GLQ ℝ} {gm : GLMu ℝ} {k : ℝ}
    {s : GLQ ℝ × GLMu ℝ} {v : Fin 3 → ℝ} (h : calcGamma2Loop t i gd gt a b g gm k = .ok (s, v)) (x y : ℝ) :
    x ^ 2 * v 0 + x * y * v 1 + y ^ 2 * v 2 = ∑ p ∈ points g gm, massAt t i g gm k p *
      ((x * treeAt a g gm k p + y * loopAt gd gt a g gm k p) * (x * treeAt b g gm k p + y * loopAt gd gt b g gm k p)) := by
  unfold calcGamma2Loop at h
  obtain ⟨⟨gm', r⟩, h1, h⟩ := Res.bind_eq_ok.mp h
  obtain ⟨hd, hs⟩ := quadLoop_sum h1
  cases h
  dsimp only at hs ⊢
  rw [hs 0, hs 1, hs 2, points, Finset.sum_product]
  simp only [Finset.sum_mul, Finset.mul_sum]
  rw [← Finset.sum_add_distrib, ← Finset.sum_add_distrib]
  refine Finset.sum_congr rfl fun iq hiq => ?_
  rw [← Finset.sum_add_distrib, ← Finset.sum_add_distrib]
  refine Finset.sum_congr rfl fun imu himu => ?_
  by_cases hn : quadRange true (updateGLQ g k) iq = none
  · simp [massAt, quadWeight, hn]
  · have := kernelGamma2Loop_val (hd iq (show iq < g.nq by simpa using hiq) hn imu (by simpa using himu)) x y
    simp only [massAt, treeAt, loopAt]
    have e : (updateGLQ g k).k = k := rfl
    have e' : (updateGLQ g k).q = g.q := rfl
    rw [e, e'] at this
    linear_combination (quadWeight true (updateGLQ g k) gm (fun x w => x * x * x * w) iq imu * (k * k * k / (2 * Real.pi * Real.pi))) * this

/-- C30: with the loop corrections the second-order contribution of an auto spectrum is a non-negative quadratic form of the two orders. -/
theorem C30_gamma2_loop {t : Pk ℝ} {i : Interpol} (hl : NonnegLook t i) {g : GLQ ℝ} {gm : GLMu ℝ} (hr : PosRule g gm)
    (hg : ∀ p ∈ g.pk, 0 ≤ p) {k : ℝ} (hk : 0 < k) {gd gt : GLQ ℝ} {a : Field} {s : GLQ ℝ × GLMu ℝ} {v : Fin 3 → ℝ}
    (h : calcGamma2Loop t i gd gt a a g gm k = .ok (s, v)) (x y : ℝ) : 0 ≤ x ^ 2 * v 0 + x * y * v 1 + y ^ 2 * v 2 := by
  rw [calcGamma2Loop_sum h]
  exact weighted_square _ _ _ fun p hp => massAt_nonneg hl hr hg hk hp

/-- C30: Cauchy–Schwarz for the second-order contributions with loop corrections. -/
theorem C30_gamma2_loop_cross {t : Pk ℝ} {i : Interpol} (hl : NonnegLook t i) {g : GLQ ℝ} {gm : GLMu ℝ} (hr : PosRule g gm)
    (hg : ∀ p ∈ g.pk, 0 ≤ p) {k : ℝ} (hk : 0 < k) {gd gt : GLQ ℝ} {a b : Field} {s1 s2 s3 : GLQ ℝ × GLMu ℝ} {vaa vab vbb : Fin 3 → ℝ}
    (haa : calcGamma2Loop t i gd gt a a g gm k = .ok (s1, vaa)) (hab : calcGamma2Loop t i gd gt a b g gm k = .ok (s2, vab))
    (hbb : calcGamma2Loop t i gd gt b b g gm k = .ok (s3, vbb)) (x y : ℝ) :
    (x ^ 2 * vab 0 + x * y * vab 1 + y ^ 2 * vab 2) ^ 2 ≤
      (x ^ 2 * vaa 0 + x * y * vaa 1 + y ^ 2 * vaa 2) * (x ^ 2 * vbb 0 + x * y * vbb 1 + y ^ 2 * vbb 2) := by
  rw [calcGamma2Loop_sum haa, calcGamma2Loop_sum hab, calcGamma2Loop_sum hbb]
  exact weighted_cauchy _ _ _ _ fun p hp => massAt_nonneg hl hr hg hk hp

/-! ## Third order -/

/-- Spectra and volume element of the third-order integrand; zero outside the range. -/
noncomputable def mass3 (t : Pk ℝ) (i : Interpol) (k qmin qmax : ℝ) (xx : Fin 5 → ℝ) : ℝ :=
  let s := g3Point k (Real.log qmin) (Real.log qmax) xx
  let k_p_q := Real.sqrt (s.kpq.x * s.kpq.x + s.kpq.y * s.kpq.y + s.kpq.z * s.kpq.z)
  (look t i s.p).num * (look t i s.q).num * (look t i k_p_q).num *
    (s.p * s.p * s.p * s.q * s.q * s.q * (((Real.log qmax - Real.log qmin) * Real.pi * 2 * Real.pi) ^ 2 * s.sintheta1 * s.sintheta2)) * 2

theorem mass3_nonneg {t : Pk ℝ} {i : Interpol} (hl : NonnegLook t i) (k qmin qmax : ℝ) {xx : Fin 5 → ℝ}
    (hx : ∀ j, 0 ≤ xx j ∧ xx j ≤ 1) : 0 ≤ mass3 t i k qmin qmax xx := by
  have hn : ∀ κ, 0 ≤ κ → 0 ≤ (look t i κ).num := by
    intro κ hκ
    rcases h : look t i κ with v | w
    · exact hl _ v hκ h
    · exact le_rfl
  have hs : ∀ j, 0 ≤ Real.sin (xx j * Real.pi) := fun j =>
    Real.sin_nonneg_of_nonneg_of_le_pi (mul_nonneg (hx j).1 Real.pi_pos.le) (by nlinarith [(hx j).2, Real.pi_pos])
  have hp : 0 ≤ (g3Point k (Real.log qmin) (Real.log qmax) xx).p := (Real.exp_pos _).le
  have hq : 0 ≤ (g3Point k (Real.log qmin) (Real.log qmax) xx).q := (Real.exp_pos _).le
  have h1 : 0 ≤ (g3Point k (Real.log qmin) (Real.log qmax) xx).sintheta1 := hs 1
  have h2 : 0 ≤ (g3Point k (Real.log qmin) (Real.log qmax) xx).sintheta2 := hs 4
  have a := hn _ hp
  have b := hn _ hq
  have c := hn _ (Real.sqrt_nonneg ((g3Point k (Real.log qmin) (Real.log qmax) xx).kpq.x * (g3Point k (Real.log qmin) (Real.log qmax) xx).kpq.x +
    (g3Point k (Real.log qmin) (Real.log qmax) xx).kpq.y * (g3Point k (Real.log qmin) (Real.log qmax) xx).kpq.y +
    (g3Point k (Real.log qmin) (Real.log qmax) xx).kpq.z * (g3Point k (Real.log qmin) (Real.log qmax) xx).kpq.z))
  unfold mass3
  dsimp only
  positivity

/-- Third-order kernel at a point of the cube, zero where the integrand is cut off. -/
noncomputable def f3At (a : Field) (k qmin qmax : ℝ) (xx : Fin 5 → ℝ) : ℝ :=
  let s := g3Point k (Real.log qmin) (Real.log qmax) xx
  let k_p_q := Real.sqrt (s.kpq.x * s.kpq.x + s.kpq.y * s.kpq.y + s.kpq.z * s.kpq.z)
  let k_p := Real.sqrt (s.kp.x * s.kp.x + s.kp.y * s.kp.y + s.kp.z * s.kp.z)
  open Classical in
  if qmin ≤ k_p_q ∧ k_p_q ≤ qmax ∧ s.qq.x * s.kp.x + s.qq.y * s.kp.y + s.qq.z * s.kp.z ≤ 0.5 * k_p * k_p then
    F3Sym a s.pp s.qq s.kpq else 0

theorem kernelGamma3_val {t : Pk ℝ} {i : Interpol} {a b : Field} {k qmin qmax : ℝ} {xx : Fin 5 → ℝ} {v : ℝ}
    (h : kernelGamma3 t i a b k qmin qmax xx = .ok v) :
    v = mass3 t i k qmin qmax xx * (f3At a k qmin qmax xx * f3At b k qmin qmax xx) := by
  unfold kernelGamma3 at h
  unfold f3At
  dsimp only at h ⊢
  split at h
  · next hc =>
    simp only [Res.bind_eq_ok] at h
    obtain ⟨p1, h1, p2, h2, p3, h3, h⟩ := h
    cases h
    rw [if_pos hc, if_pos hc, mass3]
    rw [Res.num_of h1, Res.num_of h2, Res.num_of h3]
    ring
  · next hc =>
    cases h
    rw [if_neg hc]
    ring

/-- A cubature routine whose answers are averages with non-negative weights over points of the cube at which the integrand is defined.
Points and weights may depend on the integrand. -/
def PosCuba (cuba : Cuba ℝ) : Prop :=
  ∀ f I, cuba f = .ok I → ∃ (n : ℕ) (w : Fin n → ℝ) (x : Fin n → Fin 5 → ℝ), (∀ j, 0 ≤ w j ∧ ∀ c, 0 ≤ x j c ∧ x j c ≤ 1) ∧
    (∀ j, (f (x j)).defined) ∧ I = ∑ j, w j * (f (x j)).num

/-- A cubature routine with points and weights that do not depend on the integrand. -/
def FixedCuba (cuba : Cuba ℝ) : Prop :=
  ∃ (n : ℕ) (w : Fin n → ℝ) (x : Fin n → Fin 5 → ℝ), (∀ j, 0 ≤ w j ∧ ∀ c, 0 ≤ x j c ∧ x j c ≤ 1) ∧
    ∀ f I, cuba f = .ok I → (∀ j, (f (x j)).defined) ∧ I = ∑ j, w j * (f (x j)).num

theorem FixedCuba.pos {cuba : Cuba ℝ} (h : FixedCuba cuba) : PosCuba cuba := by
  obtain ⟨n, w, x, h1, h2⟩ := h
  exact fun f I hI => ⟨n, w, x, h1, (h2 f I hI).1, (h2 f I hI).2⟩

/-- C30: the third-order term of an auto spectrum is non-negative. -/
theorem C30_gamma3 {t : Pk ℝ} {i : Interpol} (hl : NonnegLook t i) {cuba : Cuba ℝ} (hc : PosCuba cuba) {a : Field} {qmin qmax k v : ℝ}
    (h : calcGamma3 cuba t i a a qmin qmax k = .ok v) : 0 ≤ v := by
  unfold calcGamma3 at h
  obtain ⟨I, h1, h⟩ := Res.bind_eq_ok.mp h
  cases h
  obtain ⟨n, w, x, hw, hd, rfl⟩ := hc _ _ h1
  rw [C01_power]
  refine div_nonneg (mul_nonneg (by norm_num) (Finset.sum_nonneg fun j _ => mul_nonneg (hw j).1 ?_)) (by positivity)
  obtain ⟨u, hu⟩ := hd j
  rw [Res.num_of hu, kernelGamma3_val hu]
  exact mul_nonneg (mass3_nonneg hl _ _ _ (hw j).2) (mul_self_nonneg _)

/-- C30: the third-order terms obey the Cauchy–Schwarz inequality when all are integrated with the same points and weights. -/
theorem C30_gamma3_cross {t : Pk ℝ} {i : Interpol} (hl : NonnegLook t i) {cuba : Cuba ℝ} (hc : FixedCuba cuba) {a b : Field}
    {qmin qmax k vaa vab vbb : ℝ} (haa : calcGamma3 cuba t i a a qmin qmax k = .ok vaa)
    (hab : calcGamma3 cuba t i a b qmin qmax k = .ok vab) (hbb : calcGamma3 cuba t i b b qmin qmax k = .ok vbb) :
    vab ^ 2 ≤ vaa * vbb := by
  obtain ⟨n, w, x, hw, hf⟩ := hc
  have key : ∀ (c d : Field) (v : ℝ), calcGamma3 cuba t i c d qmin qmax k = .ok v →
      v = ∑ j, 6 / (2 * Real.pi) ^ 6 * (w j * mass3 t i k qmin qmax (x j)) * (f3At c k qmin qmax (x j) * f3At d k qmin qmax (x j)) := by
    intro c d v h
    unfold calcGamma3 at h
    obtain ⟨I, h1, h⟩ := Res.bind_eq_ok.mp h
    cases h
    obtain ⟨hd, rfl⟩ := hf _ _ h1
    rw [C01_power, Finset.mul_sum, Finset.sum_div]
    refine Finset.sum_congr rfl fun j _ => ?_
    obtain ⟨u, hu⟩ := hd j
    rw [Res.num_of hu, kernelGamma3_val hu]
    ring
  rw [key a a _ haa, key a b _ hab, key b b _ hbb]
  refine weighted_cauchy _ _ _ _ fun j _ => ?_
  exact mul_nonneg (by positivity) (mul_nonneg (hw j).1 (mass3_nonneg hl _ _ _ (hw j).2))

/-! ## Spectra -/

/-- Settings and inputs under which everything looked up is non-negative: a non-negative table, linear interpolation in the parts that
read the linear spectrum, proper ranges and node searches that found their nodes in order. -/
structure Env.NonNeg (e : Env) (o : IName) : Prop where
  phys : e.t.Physical
  two : 2 ≤ e.t.nk
  pk : ∀ x ∈ e.t.pk, 0 ≤ x
  size : ∀ p, (e.cfg.prec p).n < 2 ^ 63
  rootsQ : RootsOrdered (e.rt (e.cfg.prec .gamma2_tree_q).n) (e.cfg.prec .gamma2_tree_q).n
  rootsMu : RootsOrdered (e.rt (e.cfg.prec .gamma2_tree_mu).n) (e.cfg.prec .gamma2_tree_mu).n
  range : RangeProper (e.cfg.prec .gamma2_tree_q)
  linQ : (e.cfg.prec .gamma2_tree_q).interpol = .lin
  linMu : (e.cfg.prec .gamma2_tree_mu).interpol = .lin
  lin : e.cfg.interp o = .lin
  kpos : ∀ k ∈ e.ks, 0 < k
  kasc : e.ks.Pairwise (· ≤ ·)

section

variable {e : Env} {o : IName} (he : e.NonNeg o)
include he

theorem Env.NonNeg.look : NonnegLook e.t .lin := fun _ _ hk h => look_lin_nonneg he.phys (by have := he.two; omega) he.pk hk h

theorem Env.NonNeg.rule {g : GLQ ℝ} {gm : GLMu ℝ} (hg : e.tabQ .gamma2_tree_q = .ok g) (hgm : e.tabMu .gamma2_tree_mu = .ok gm) :
    PosRule g gm ∧ ∀ p ∈ g.pk, 0 ≤ p := by
  have hr := posRule_init he.phys he.two he.range (he.size _) he.rootsQ hg (he.size _) he.rootsMu hgm
  refine ⟨hr, ?_⟩
  obtain ⟨a, b, pk, h1, h2, h3⟩ := initGLQ_ok (he.size _) hg
  rw [he.linQ] at h2
  have hq : g.q = (List.range (e.cfg.prec .gamma2_tree_q).n).map fun i => Real.exp (nodeAt (e.rt (e.cfg.prec .gamma2_tree_q).n)
    (Real.log a) (Real.log b) (e.cfg.prec .gamma2_tree_q).n i) := by rw [h3]
  rw [← hq] at h2
  have hpk : g.pk = pk := by rw [h3]
  rw [hpk]
  exact findPk_lin_nonneg he.phys (by have := he.two; omega) he.pk (hr.asc.imp fun h => h.le) (fun k hk => (hr.pos k hk).le) h2

theorem Env.NonNeg.column {pl : List ℝ} (h : findPk e.t e.ks (e.cfg.interp o) = .ok pl) (ik : ℕ) : 0 ≤ pl.getD ik 0 := by
  rw [he.lin] at h
  exact getD_nonneg (findPk_lin_nonneg he.phys (by have := he.two; omega) he.pk he.kasc (fun k hk => (he.kpos k hk).le) h) ik

end

/-- Sums of forms that obey the Cauchy–Schwarz inequality obey it. -/
theorem cauchy_add {a b c a' b' c' : ℝ} (ha : 0 ≤ a) (hb : 0 ≤ b) (h : c ^ 2 ≤ a * b) (ha' : 0 ≤ a') (hb' : 0 ≤ b') (h' : c' ^ 2 ≤ a' * b') :
    (c + c') ^ 2 ≤ (a + a') * (b + b') := by
  have key : 2 * (c * c') ≤ a * b' + a' * b := by
    have h1 : (c * c') ^ 2 ≤ (a * b') * (a' * b) := by
      calc (c * c') ^ 2 = c ^ 2 * c' ^ 2 := by ring
        _ ≤ (a * b) * (a' * b') := mul_le_mul h h' (sq_nonneg _) (mul_nonneg ha hb)
        _ = _ := by ring
    have h2 : 0 ≤ a * b' := mul_nonneg ha hb'
    have h3 : 0 ≤ a' * b := mul_nonneg ha' hb
    refine le_of_abs_le (abs_le_of_sq_le_sq ?_ (by linarith)) 
    nlinarith [sq_nonneg (a * b' - a' * b)]
  nlinarith

/-- The value in an array cell as seen from Python. -/
theorem viewOf_of {cls : PyClass} {μ : Mem} {f : String} {i : ℕ} {v : ℝ} (hf : f ∈ cls.fields)
    (h : μ.at (cellOf cls f i) = some (some v)) : (viewOf cls μ).val f i = v := by
  rw [viewOf_val hf, h]; rfl

/-- C30: the one-loop auto spectrum returned by `Spectrum1Loop.pk` is non-negative, for every growth factor and damping.
Missing: the default `poly` interpolation (`C30_one_loop_violation`) and modes in another order than ascending. -/
theorem C30_one_loop_partial {e : Env} (he : e.NonNeg .spectrum_1loop) {a : Field} {es : List Event} {μ ν : Mem} (hμ : Room 6 e.ks.length μ)
    (hes : Schedule 3 e.ks.length es) (h : runTerms1 e a a es μ = .ok ν) {ik : ℕ} (hik : ik < e.ks.length) (D : ℝ)
    (sig : Option (ℕ → ℝ)) : 0 ≤ (viewOf cls1 ν).pk1 D sig ik := by
  obtain ⟨pl, sg, g1, g, gm, va, vb, s, v2, a1, a2, a3, a4, a5, a6, a7, a8, c1, c2, c3, c4, c5, c6⟩ := C45_one_loop hμ hes h hik
  rw [a6] at a7; injection a7 with a7; subst a7
  obtain ⟨hr, hg⟩ := he.rule a4 a5
  have hk := he.kpos _ (List.getElem_mem hik)
  rw [he.linMu] at a8
  have h2 := C30_gamma2_tree he.look hr hg hk a8
  have hpl := he.column a1 ik
  unfold Terms.pk1
  rw [viewOf_of (by decide) c1, viewOf_of (by decide) c3, viewOf_of (by decide) c4, viewOf_of (by decide) c5]
  refine add_nonneg (mul_nonneg (mul_self_nonneg _) hpl) (mul_nonneg (by positivity) h2)

/-- C30: the one-loop spectra of two fields obey the Cauchy–Schwarz inequality.  Missing: as in `C30_one_loop_partial`. -/
theorem C30_one_loop_cross_partial {e : Env} (he : e.NonNeg .spectrum_1loop) {a b : Field} {es1 es2 es3 : List Event} {μ ν1 ν2 ν3 : Mem}
    (hμ : Room 6 e.ks.length μ) (hes1 : Schedule 3 e.ks.length es1) (hes2 : Schedule 3 e.ks.length es2)
    (hes3 : Schedule 3 e.ks.length es3) (haa : runTerms1 e a a es1 μ = .ok ν1) (hab : runTerms1 e a b es2 μ = .ok ν2)
    (hbb : runTerms1 e b b es3 μ = .ok ν3) {ik : ℕ} (hik : ik < e.ks.length) (D : ℝ) (sig : Option (ℕ → ℝ)) :
    (viewOf cls1 ν2).pk1 D sig ik ^ 2 ≤ (viewOf cls1 ν1).pk1 D sig ik * (viewOf cls1 ν3).pk1 D sig ik := by
  obtain ⟨pl, sg, g1, g, gm, va, va', s, v1, a1, a2, a3, a4, a5, a6, a7, a8, c1, c2, c3, c4, c5, c6⟩ := C45_one_loop hμ hes1 haa hik
  obtain ⟨pl2, sg2, g12, g2, gm2, ua, vb, s2, v2, b1, b2, b3, b4, b5, b6, b7, b8, d1, d2, d3, d4, d5, d6⟩ := C45_one_loop hμ hes2 hab hik
  obtain ⟨pl3, sg3, g13, g3, gm3, ub, ub', s3, v3, x1, x2, x3, x4, x5, x6, x7, x8, y1, y2, y3, y4, y5, y6⟩ := C45_one_loop hμ hes3 hbb hik
  rw [a1] at b1 x1; injection b1 with b1; injection x1 with x1; subst b1 x1
  rw [a2] at b2 x2; injection b2 with b2; injection x2 with x2; subst b2 x2
  rw [a3] at b3 x3; injection b3 with b3; injection x3 with x3; subst b3 x3
  rw [a4] at b4 x4; injection b4 with b4; injection x4 with x4; subst b4 x4
  rw [a5] at b5 x5; injection b5 with b5; injection x5 with x5; subst b5 x5
  rw [a6] at a7 b6; injection a7 with a7; injection b6 with b6; subst a7 b6
  rw [b7] at x6 x7; injection x6 with x6; injection x7 with x7; subst x6 x7
  obtain ⟨hr, hg⟩ := he.rule a4 a5
  have hk := he.kpos _ (List.getElem_mem hik)
  rw [he.linMu] at a8 b8 x8
  have haa' := C30_gamma2_tree he.look hr hg hk a8
  have hbb' := C30_gamma2_tree he.look hr hg hk x8
  have hcc := C30_gamma2_tree_cross he.look hr hg hk a8 b8 x8
  have hpl := he.column a1 ik
  have k1 : (viewOf cls1 ν1).val "k" ik = (viewOf cls1 ν2).val "k" ik := by
    rw [viewOf_val (by decide), viewOf_val (by decide), c6, d6]
  have k3 : (viewOf cls1 ν3).val "k" ik = (viewOf cls1 ν2).val "k" ik := by
    rw [viewOf_val (by decide), viewOf_val (by decide), y6, d6]
  unfold Terms.pk1
  rw [viewOf_of (by decide) c1, viewOf_of (by decide) c2, viewOf_of (by decide) c3, viewOf_of (by decide) c4, viewOf_of (by decide) c5,
    viewOf_of (by decide) d1, viewOf_of (by decide) d2, viewOf_of (by decide) d3, viewOf_of (by decide) d4, viewOf_of (by decide) d5,
    viewOf_of (by decide) y1, viewOf_of (by decide) y2, viewOf_of (by decide) y3, viewOf_of (by decide) y4, viewOf_of (by decide) y5, k1, k3]
  dsimp only
  generalize 0.5 * ((viewOf cls1 ν2).val "k" ik * D) ^ 2 * _ = f
  generalize D * Real.exp (-f) * (1 + f + D ^ 2 * va) = A
  generalize D * Real.exp (-f) * (1 + f + D ^ 2 * vb) = B
  have hE : 0 ≤ D ^ 4 * Real.exp (-2 * f) := by positivity
  generalize D ^ 4 * Real.exp (-2 * f) = E at hE
  refine cauchy_add (mul_nonneg (mul_self_nonneg _) hpl) (mul_nonneg (mul_self_nonneg _) hpl) (le_of_eq (by ring))
    (mul_nonneg hE haa') (mul_nonneg hE hbb') ?_
  have := mul_le_mul_of_nonneg_left hcc (mul_nonneg hE hE)
  nlinarith

/-- C30: the two-loop auto spectrum returned by `Spectrum2Loop.pk` is non-negative, for every cubature routine with non-negative weights.
Missing: as in `C30_one_loop_partial`. -/
theorem C30_two_loop_partial {e : Env} (he : e.NonNeg .spectrum_2loop) (h3 : (e.cfg.prec .gamma3_tree_q).interpol = .lin) {cuba : Cuba ℝ}
    (hc : PosCuba cuba) {a : Field} {es : List Event} {μ ν : Mem} {cfg : Cfg ℝ} (hμ : Room 11 e.ks.length μ)
    (hes : Schedule 7 e.ks.length es) (h : runTerms2 cuba e a a es μ = .ok (cfg, ν)) {ik : ℕ} (hik : ik < e.ks.length) (D : ℝ)
    (sig : Option (ℕ → ℝ)) : 0 ≤ (viewOf cls2 ν).pk2 D sig ik := by
  obtain ⟨pl, sg, g1, g12, g, gm, gd, gt, a1, a2, b1, b2, s, r, g3, range, p1, p2, p3, p4, p5, p6, p7, p8, p9, p10, p11, p12, p13,
    p14, p15, p16, c1, c2, c3, c4, c5, c6, c7, c8, c9, c10, c11⟩ := C45_two_loop hμ hes h hik
  rw [p9] at p10; injection p10 with p10; subst p10
  rw [p11] at p12; injection p12 with p12; subst p12
  obtain ⟨hr, hg⟩ := he.rule p5 p6
  have hk := he.kpos _ (List.getElem_mem hik)
  rw [he.linMu] at p14
  rw [h3] at p16
  have h2 := C30_gamma2_loop he.look hr hg hk p14
  have h3 := C30_gamma3 he.look hc p16
  have hpl := he.column p1 ik
  unfold Terms.pk2
  rw [viewOf_of (by decide) c1, viewOf_of (by decide) c3, viewOf_of (by decide) c4, viewOf_of (by decide) c5, viewOf_of (by decide) c6,
    viewOf_of (by decide) c7, viewOf_of (by decide) c8, viewOf_of (by decide) c9, viewOf_of (by decide) c10]
  dsimp only
  generalize 0.5 * ((viewOf cls2 ν).val "k" ik * D) ^ 2 * _ = f
  refine add_nonneg (add_nonneg (mul_nonneg (mul_self_nonneg _) hpl) (mul_nonneg (by positivity) ?_)) (mul_nonneg (by positivity) h3)
  refine (h2 (1 + f) (D ^ 2)).trans_eq ?_
  ring

/-- C30: the two-loop spectra of two fields obey the Cauchy–Schwarz inequality when the third-order integrals are done with the same
points and weights.  Missing: as in `C30_one_loop_partial`, and adaptive cubature, whose points depend on the integrand. -/
theorem C30_two_loop_cross_partial {e : Env} (he : e.NonNeg .spectrum_2loop) (h3 : (e.cfg.prec .gamma3_tree_q).interpol = .lin) {cuba : Cuba ℝ}
    (hc : FixedCuba cuba) {a b : Field} {es1 es2 es3 : List Event} {μ ν1 ν2 ν3 : Mem} {cfg1 cfg2 cfg3 : Cfg ℝ}
    (hμ : Room 11 e.ks.length μ) (hes1 : Schedule 7 e.ks.length es1) (hes2 : Schedule 7 e.ks.length es2)
    (hes3 : Schedule 7 e.ks.length es3) (haa : runTerms2 cuba e a a es1 μ = .ok (cfg1, ν1))
    (hab : runTerms2 cuba e a b es2 μ = .ok (cfg2, ν2)) (hbb : runTerms2 cuba e b b es3 μ = .ok (cfg3, ν3)) {ik : ℕ}
    (hik : ik < e.ks.length) (D : ℝ) (sig : Option (ℕ → ℝ)) :
    (viewOf cls2 ν2).pk2 D sig ik ^ 2 ≤ (viewOf cls2 ν1).pk2 D sig ik * (viewOf cls2 ν3).pk2 D sig ik := by
  obtain ⟨pl, sg, g1, g12, g, gm, gd, gt, a1, a2, a1', a2', s, r, g3, range, p1, p2, p3, p4, p5, p6, p7, p8, p9, p10, p11, p12, p13,
    p14, p15, p16, c1, c2, c3, c4, c5, c6, c7, c8, c9, c10, c11⟩ := C45_two_loop hμ hes1 haa hik
  obtain ⟨pl2, sg2, _, _, _, _, _, _, u1, u2, b1, b2, s', r', g3', range', q1, q2, q3, q4, q5, q6, q7, q8, q9, q10, q11, q12, q13,
    q14, q15, q16, d1, d2, d3, d4, d5, d6, d7, d8, d9, d10, d11⟩ := C45_two_loop hμ hes2 hab hik
  obtain ⟨pl3, sg3, _, _, _, _, _, _, v1, v2, v1', v2', s'', r'', g3'', range'', x1, x2, x3, x4, x5, x6, x7, x8, x9, x10, x11, x12, x13,
    x14, x15, x16, y1, y2, y3, y4, y5, y6, y7, y8, y9, y10, y11⟩ := C45_two_loop hμ hes3 hbb hik
  rw [p1] at q1 x1; injection q1 with q1; injection x1 with x1; subst q1 x1
  rw [p2] at q2 x2; injection q2 with q2; injection x2 with x2; subst q2 x2
  rw [p3] at q3 x3; injection q3 with q3; injection x3 with x3; subst q3 x3
  rw [p4] at q4 x4; injection q4 with q4; injection x4 with x4; subst q4 x4
  rw [p5] at q5 x5; injection q5 with q5; injection x5 with x5; subst q5 x5
  rw [p6] at q6 x6; injection q6 with q6; injection x6 with x6; subst q6 x6
  rw [p7] at q7 x7; injection q7 with q7; injection x7 with x7; subst q7 x7
  rw [p8] at q8 x8; injection q8 with q8; injection x8 with x8; subst q8 x8
  rw [p9] at p10 q9; injection p10 with p10; injection q9 with q9; subst p10 q9
  rw [p11] at p12 q11; injection p12 with p12; injection q11 with q11; subst p12 q11
  rw [q10] at x9 x10; injection x9 with x9; injection x10 with x10; subst x9 x10
  rw [q12] at x11 x12; injection x11 with x11; injection x12 with x12; subst x11 x12
  rw [p15] at q15 x15; injection q15 with q15; injection x15 with x15; subst q15 x15
  obtain ⟨hr, hg⟩ := he.rule p5 p6
  have hk := he.kpos _ (List.getElem_mem hik)
  rw [he.linMu] at p14 q14 x14
  rw [h3] at p16 q16 x16
  have haa' := C30_gamma2_loop he.look hr hg hk p14
  have hbb' := C30_gamma2_loop he.look hr hg hk x14
  have hcc := C30_gamma2_loop_cross he.look hr hg hk p14 q14 x14
  have taa := C30_gamma3 he.look hc.pos p16
  have tbb := C30_gamma3 he.look hc.pos x16
  have tcc := C30_gamma3_cross he.look hc p16 q16 x16
  have hpl := he.column p1 ik
  have k1 : (viewOf cls2 ν1).val "k" ik = (viewOf cls2 ν2).val "k" ik := by
    rw [viewOf_val (by decide), viewOf_val (by decide), c11, d11]
  have k3 : (viewOf cls2 ν3).val "k" ik = (viewOf cls2 ν2).val "k" ik := by
    rw [viewOf_val (by decide), viewOf_val (by decide), y11, d11]
  unfold Terms.pk2
  rw [viewOf_of (by decide) c1, viewOf_of (by decide) c2, viewOf_of (by decide) c3, viewOf_of (by decide) c4, viewOf_of (by decide) c5,
    viewOf_of (by decide) c6, viewOf_of (by decide) c7, viewOf_of (by decide) c8, viewOf_of (by decide) c9, viewOf_of (by decide) c10,
    viewOf_of (by decide) d1, viewOf_of (by decide) d2, viewOf_of (by decide) d3, viewOf_of (by decide) d4, viewOf_of (by decide) d5,
    viewOf_of (by decide) d6, viewOf_of (by decide) d7, viewOf_of (by decide) d8, viewOf_of (by decide) d9, viewOf_of (by decide) d10,
    viewOf_of (by decide) y1, viewOf_of (by decide) y2, viewOf_of (by decide) y3, viewOf_of (by decide) y4, viewOf_of (by decide) y5,
    viewOf_of (by decide) y6, viewOf_of (by decide) y7, viewOf_of (by decide) y8, viewOf_of (by decide) y9, viewOf_of (by decide) y10,
    k1, k3]
  dsimp only
  generalize 0.5 * ((viewOf cls2 ν2).val "k" ik * D) ^ 2 * _ = f
  generalize D * Real.exp (-f) * (1 + f + 0.5 * f ^ 2 + D ^ 2 * a1 * (1 + f) + D ^ 4 * (a2 + a1 ^ 2 / 2)) = A
  generalize D * Real.exp (-f) * (1 + f + 0.5 * f ^ 2 + D ^ 2 * b1 * (1 + f) + D ^ 4 * (b2 + b1 ^ 2 / 2)) = B
  have hE : 0 ≤ D ^ 4 * Real.exp (-2 * f) := by positivity
  have hE' : 0 ≤ D ^ 6 * Real.exp (-2 * f) := by positivity
  generalize D ^ 4 * Real.exp (-2 * f) = E at hE
  generalize D ^ 6 * Real.exp (-2 * f) = E' at hE'
  have form : ∀ r : Fin 3 → ℝ, r 0 * (1 + f) ^ 2 + r 1 * D ^ 2 * (1 + f) + r 2 * D ^ 4 =
      (1 + f) ^ 2 * r 0 + (1 + f) * D ^ 2 * r 1 + (D ^ 2) ^ 2 * r 2 := fun r => by ring
  rw [form, form, form]
  have haa' := haa' (1 + f) (D ^ 2)
  have hbb' := hbb' (1 + f) (D ^ 2)
  have hcc := hcc (1 + f) (D ^ 2)
  generalize (1 + f) ^ 2 * r 0 + (1 + f) * D ^ 2 * r 1 + (D ^ 2) ^ 2 * r 2 = Q at haa' hcc
  generalize (1 + f) ^ 2 * r' 0 + (1 + f) * D ^ 2 * r' 1 + (D ^ 2) ^ 2 * r' 2 = Q' at hcc
  generalize (1 + f) ^ 2 * r'' 0 + (1 + f) * D ^ 2 * r'' 1 + (D ^ 2) ^ 2 * r'' 2 = Q'' at hbb' hcc
  have scaled : ∀ {E u v w : ℝ}, 0 ≤ E → u ^ 2 ≤ v * w → (E * u) ^ 2 ≤ E * v * (E * w) := by
    intro E u v w hE h
    have := mul_le_mul_of_nonneg_left h (mul_nonneg hE hE)
    nlinarith
  refine cauchy_add (add_nonneg ?_ ?_) (add_nonneg ?_ ?_) (cauchy_add ?_ ?_ (le_of_eq (by ring)) ?_ ?_ (scaled hE hcc)) ?_ ?_ (scaled hE' tcc)
  all_goals first
    | exact mul_nonneg (mul_self_nonneg _) hpl
    | exact mul_nonneg hE haa'
    | exact mul_nonneg hE hbb'
    | exact mul_nonneg hE' taa
    | exact mul_nonneg hE' tbb

/-! ## Non-vacuity -/

/-- Environments with linear interpolation and a non-negative table. -/
theorem Env.LinOk.nonNeg {e : Env} (he : e.LinOk) (hp : ∀ x ∈ e.t.pk, 0 ≤ x) (hk : e.ks.Pairwise (· ≤ ·)) (o : IName) : e.NonNeg o :=
  ⟨he.phys, he.two, hp, he.size, he.roots _, he.roots _, (he.range _).1, he.lin _, he.lin _, he.interp o, he.kpos, hk⟩

theorem linEnv_nonNeg {rt : ℕ → ℕ → ℝ × ℝ} (hrt : ∀ n, n < 2 ^ 63 → RootsOrdered (rt n) n) (o : IName) : (linEnv rt).NonNeg o :=
  (linEnv_ok hrt).nonNeg (by norm_num [linEnv, exTable]) (by norm_num [linEnv]) o

theorem exCuba_fixed : FixedCuba exCuba := by
  refine ⟨1, fun _ => 1, fun _ _ => 1 / 2, fun _ => ⟨zero_le_one, fun _ => ⟨by norm_num, by norm_num⟩⟩, fun f I h => ⟨fun _ => ⟨I, h⟩, ?_⟩⟩
  have h' : f (fun _ => 1 / 2) = .ok I := h
  simp only [h', Finset.univ_unique, Finset.sum_singleton, Res.num, one_mul]

/-- Auto and cross spectra, one and two loops, of the environment `linEnv`. -/
example : ∃ rt νdd νdt νtt, runTerms1 (linEnv rt) .delta .delta (blocks 3 0 0 [2, 0, 3]) exMem = .ok νdd ∧
    runTerms1 (linEnv rt) .delta .theta (blocks 3 0 0 [2, 0, 3]) exMem = .ok νdt ∧
    runTerms1 (linEnv rt) .theta .theta (blocks 3 0 0 [2, 0, 3]) exMem = .ok νtt ∧
    0 ≤ (viewOf cls1 νdd).pk1 (3 / 4) none 2 ∧
    (viewOf cls1 νdt).pk1 (3 / 4) none 2 ^ 2 ≤ (viewOf cls1 νdd).pk1 (3 / 4) none 2 * (viewOf cls1 νtt).pk1 (3 / 4) none 2 := by
  obtain ⟨rt, hrt⟩ := roots_ordered
  have he := linEnv_ok hrt
  have hs : ∀ m, Schedule m (linEnv rt).ks.length (blocks m 0 0 [2, 0, 3]) := fun m => C43_static_schedule m [2, 0, 3] (by simp)
  obtain ⟨ν1, h1⟩ := C62_one_loop he .delta .delta (hs 3) (linRoom rt 6)
  obtain ⟨ν2, h2⟩ := C62_one_loop he .delta .theta (hs 3) (linRoom rt 6)
  obtain ⟨ν3, h3⟩ := C62_one_loop he .theta .theta (hs 3) (linRoom rt 6)
  have hn := linEnv_nonNeg hrt .spectrum_1loop
  exact ⟨rt, ν1, ν2, ν3, h1, h2, h3, C30_one_loop_partial hn (linRoom rt 6) (hs 3) h1 (by simp [linEnv]) _ _,
    C30_one_loop_cross_partial hn (linRoom rt 6) (hs 3) (hs 3) (hs 3) h1 h2 h3 (by simp [linEnv]) _ _⟩

example : ∃ rt r1 r2 r3, runTerms2 exCuba (linEnv rt) .delta .delta (blocks 7 0 0 [2, 0, 3]) exMem = .ok r1 ∧
    runTerms2 exCuba (linEnv rt) .delta .theta (blocks 7 0 0 [2, 0, 3]) exMem = .ok r2 ∧
    runTerms2 exCuba (linEnv rt) .theta .theta (blocks 7 0 0 [2, 0, 3]) exMem = .ok r3 ∧
    0 ≤ (viewOf cls2 r1.2).pk2 (3 / 4) none 2 ∧
    (viewOf cls2 r2.2).pk2 (3 / 4) none 2 ^ 2 ≤ (viewOf cls2 r1.2).pk2 (3 / 4) none 2 * (viewOf cls2 r3.2).pk2 (3 / 4) none 2 := by
  obtain ⟨rt, hrt⟩ := roots_ordered
  have he := linEnv_ok hrt
  have hs : ∀ m, Schedule m (linEnv rt).ks.length (blocks m 0 0 [2, 0, 3]) := fun m => C43_static_schedule m [2, 0, 3] (by simp)
  have hd : ∀ a b, (runTerms2 exCuba (linEnv rt) a b (blocks 7 0 0 [2, 0, 3]) exMem).defined := fun a b => by
    refine C62_two_loop he exCuba_safeIn ?_ ?_ ?_ _ _ (hs 7) (linRoom rt 11) <;> norm_num [linEnv, linCfg, exTable]
  obtain ⟨⟨c1, ν1⟩, h1⟩ := hd .delta .delta
  obtain ⟨⟨c2, ν2⟩, h2⟩ := hd .delta .theta
  obtain ⟨⟨c3, ν3⟩, h3⟩ := hd .theta .theta
  have hn := linEnv_nonNeg hrt .spectrum_2loop
  exact ⟨rt, _, _, _, h1, h2, h3, C30_two_loop_partial hn rfl exCuba_fixed.pos (linRoom rt 11) (hs 7) h1 (by simp [linEnv]) _ _,
    C30_two_loop_cross_partial hn rfl exCuba_fixed (linRoom rt 11) (hs 7) (hs 7) (hs 7) h1 h2 h3 (by simp [linEnv]) _ _⟩

/-! ## Violations -/

/-- A non-negative table of three modes. -/
noncomputable def dipTable : Pk ℝ := ⟨3, [7 / 10, 1, 2], [1, 0, 0]⟩

theorem dipTable_physical : dipTable.Physical where
  hk := rfl
  hpk := rfl
  hsize := by norm_num [dipTable]
  incr := by norm_num [dipTable]
  kpos := by norm_num [dipTable]

open Polynomial in
theorem dip_poly {k : ℝ} (h0 : 7 / 10 ≤ k) (h1 : k ≤ 2) : findPk dipTable [k] .poly = .ok [100 / 39 * (k - 1) * (k - 2)] := by
  have := C08_findPk_poly_quadratic dipTable dipTable_physical.toIncreasing (by norm_num [dipTable])
    (C (100 / 39) * (X - C 1) * (X - C 2)) (by compute_degree)
    (by
      intro i hi
      have : i < 3 := hi
      interval_cases i <;> norm_num [dipTable]) k (by simpa [dipTable] using h0) (by simpa [dipTable] using h1)
  rw [this]
  simp

/-- The default interpolation of this table is negative between the two zeros. -/
theorem dip_negative : findPk dipTable [13 / 10] .poly = .ok [-7 / 13] := by
  rw [dip_poly (by norm_num) (by norm_num)]
  norm_num

/-- C30, violation: with the default settings a non-negative linear spectrum can give a negative one-loop auto spectrum, for all outcomes
of the node searches and small growth factors. -/
theorem C30_one_loop_violation (rt : ℕ → ℕ → ℝ × ℝ) (a : Field) : (∀ p ∈ dipTable.pk, 0 ≤ p) ∧
    ∃ ν, runTerms1 ⟨Cfg.default, rt, dipTable, [13 / 10]⟩ a a (blocks 3 0 0 [1]) exMem = .ok ν ∧
      ∃ D > 0, (viewOf cls1 ν).pk1 D none 0 < 0 := by
  refine ⟨by norm_num [dipTable], ?_⟩
  have he : (⟨Cfg.default, rt, dipTable, [13 / 10]⟩ : Env).Ok :=
    ⟨dipTable_physical.toWF, by norm_num [dipTable], by intro p; cases p <;> norm_num [Cfg.default, defaultPrec],
      by intro p; cases p <;> rfl, by intro o; rfl⟩
  have hs : Schedule 3 (⟨Cfg.default, rt, dipTable, [13 / 10]⟩ : Env).ks.length (blocks 3 0 0 [1]) := C43_static_schedule 3 [1] (by simp)
  have hroom : Room 6 (⟨Cfg.default, rt, dipTable, [13 / 10]⟩ : Env).ks.length exMem := fun i _ => by simp [exMem]
  obtain ⟨ν, h⟩ := C59_one_loop he a a hs hroom
  refine ⟨ν, h, ?_⟩
  obtain ⟨pl, sg, g1, g, gm, va, vb, s, v2, a1, a2, a3, a4, a5, a6, a7, a8, c1, c2, c3, c4, c5, c6⟩ :=
    C45_one_loop hroom hs h (ik := 0) (by simp)
  have a1' : findPk dipTable [13 / 10] .poly = .ok pl := a1
  rw [dip_negative] at a1'
  cases a1'
  generalize hκ : (viewOf cls1 ν).val "k" 0 = κ
  set F : ℝ → ℝ := fun D => Real.exp (-(0.5 * (κ * D) ^ 2 * sg.getD 0 0)) * (1 + 0.5 * (κ * D) ^ 2 * sg.getD 0 0 + D ^ 2 * va) *
    (Real.exp (-(0.5 * (κ * D) ^ 2 * sg.getD 0 0)) * (1 + 0.5 * (κ * D) ^ 2 * sg.getD 0 0 + D ^ 2 * vb)) * (-7 / 13) +
    D ^ 2 * Real.exp (-2 * (0.5 * (κ * D) ^ 2 * sg.getD 0 0)) * v2 with hF
  have hcont : Continuous F := by fun_prop
  have h0 : F 0 < 0 := by norm_num [hF]
  obtain ⟨ε, hε, hb⟩ := Metric.isOpen_iff.mp (isOpen_Iio.preimage hcont) 0 (Set.mem_preimage.mpr (Set.mem_Iio.mpr h0))
  have hD : F (ε / 2) < 0 := hb (by rw [Metric.mem_ball, Real.dist_eq, sub_zero, abs_of_pos (by linarith)]; linarith)
  refine ⟨ε / 2, by linarith, ?_⟩
  have : (viewOf cls1 ν).pk1 (ε / 2) none 0 = (ε / 2) ^ 2 * F (ε / 2) := by
    unfold Terms.pk1
    rw [viewOf_of (by decide) c1, viewOf_of (by decide) c3, viewOf_of (by decide) c4, viewOf_of (by decide) c5,
      viewOf_of (by decide) c2, hκ, hF]
    simp only [List.getD_cons_zero]
    ring
  rw [this]
  exact mul_neg_of_pos_of_neg (by positivity) hD

/-- A rule of two radial nodes and one angle. -/
noncomputable def dipG : GLQ ℝ := ⟨2, 1, [7 / 10, 2], [7 / 10, 2], [1, 1], [1, 0]⟩

/-- One angle. -/
noncomputable def dipMu : GLMu ℝ := ⟨1, [0], [2], [0], [2]⟩

theorem dip_rule : PosRule dipG dipMu where
  len := rfl
  size := by norm_num [dipG]
  pos := by norm_num [dipG]
  asc := by norm_num [dipG]
  w := by norm_num [dipG]
  wref := by norm_num [dipMu]

/-- C30, violation: with the default interpolation the tree second-order term of an auto spectrum can be negative for a non-negative
table and a positive rule. -/
theorem C30_gamma2_tree_violation : (∀ p ∈ dipTable.pk, 0 ≤ p) ∧ PosRule dipG dipMu ∧ findPk dipTable dipG.q .poly = .ok dipG.pk ∧
    ∃ s v, calcGamma2Tree dipTable .poly .delta .delta dipG dipMu 1 = .ok (s, v) ∧ v < 0 := by
  have hq : findPk dipTable dipG.q .poly = .ok dipG.pk := by
    obtain ⟨vs, hvs⟩ := C06_findPk_poly_safe dipTable dipTable_physical.toWF (by norm_num [dipTable]) dipG.q
    obtain ⟨hl, hv⟩ := C07_findPk_pointwise_partial dipTable dipTable_physical.toIncreasing (by norm_num [dipTable]) .poly dipG.q
      (by norm_num [dipG]) vs hvs
    have hl2 : vs.length = 2 := hl
    obtain ⟨u, w, rfl⟩ := List.length_eq_two.mp hl2
    have e0 := hv 0 (by norm_num [dipG]) (by simp)
    have e1 := hv 1 (by norm_num [dipG]) (by simp)
    have e0' : findPk dipTable [7 / 10] .poly = .ok [u] := e0
    have e1' : findPk dipTable [2] .poly = .ok [w] := e1
    rw [dip_poly (by norm_num) (by norm_num)] at e0' e1'
    injection e0' with e0'
    injection e1' with e1'
    rw [hvs]
    norm_num at e0' e1'
    rw [← e0', ← e1']
    rfl
  refine ⟨by norm_num [dipTable], dip_rule, hq, ?_⟩
  obtain ⟨⟨s, v⟩, h⟩ := calcGamma2Tree_defined dipTable_physical.toWF (by norm_num [dipTable]) .delta .delta (g := dipG) (gm := dipMu)
    ⟨rfl, rfl, rfl, by norm_num [dipG]⟩ ⟨rfl, rfl⟩ 1
  refine ⟨s, v, h, ?_⟩
  rw [calcGamma2Tree_sum h]
  have r0 : quadRange true (updateGLQ dipG 1) 0 = some (-1, 5 / 7) := by
    norm_num [quadRange, muRange, updateGLQ, dipG, rd, subSize, sizeMod, ofLong, cMax, cMin]
  have r1 : quadRange true (updateGLQ dipG 1) 1 = some (1 / 4, 1 / 4) := by
    norm_num [quadRange, muRange, updateGLQ, dipG, rd, subSize, sizeMod, ofLong, cMax, cMin]
  have hpts : points dipG dipMu = {(0, 0), (1, 0)} := by decide
  have m1 : massAt dipTable .poly dipG dipMu 1 (1, 0) = 0 := by
    simp [massAt, quadWeight, r1, updateGLMu, dipMu]
  have mu0 : quadMu true (updateGLQ dipG 1) dipMu 0 0 = -1 / 7 := by
    norm_num [quadMu, r0, updateGLMu, dipMu]
  have kq0 : kqAt (updateGLQ dipG 1) 0 (-1 / 7) = 13 / 10 := by
    have : (1 : ℝ) + 7 / 10 * (7 / 10) - 2 * (-1 / 7) * (7 / 10) = (13 / 10) ^ 2 := by norm_num
    show (1 : ℝ) * Real.sqrt (1 + 7 / 10 / 1 * (7 / 10 / 1) - 2 * (-1 / 7) * (7 / 10 / 1)) = 13 / 10
    rw [div_one, this, Real.sqrt_sq (by norm_num), one_mul]
  have lk : look dipTable .poly (13 / 10) = .ok (-7 / 13) := by
    unfold look
    rw [dip_negative]
    rfl
  rw [hpts, Finset.sum_pair (by decide), m1]
  have m0 : massAt dipTable .poly dipG dipMu 1 (0, 0) < 0 := by
    simp only [massAt, couplingAt, mu0, kq0, lk, Res.num]
    have : 0 < 1 * 1 * 1 / (2 * Real.pi * Real.pi) := by positivity
    refine mul_neg_of_neg_of_pos ?_ this
    simp only [quadWeight, r0]
    norm_num [updateGLMu, dipMu, updateGLQ, dipG]
  have t0 : treeAt .delta dipG dipMu 1 (0, 0) ≠ 0 := by
    simp only [treeAt, mu0, kq0]
    norm_num [gamma2Tree, F2Fast, dipG]
  rw [zero_mul, add_zero]
  exact mul_neg_of_neg_of_pos m0 (mul_self_pos.mpr t0)

end Verif
