import Verif.Proofs.Stretch

/-!
# Multiplying every wavenumber by a constant: the integrals
-/

namespace Verif

open Res (Rel)

variable {u : ℝ} (hu : 0 < u)

include hu

/-! ## First order -/

theorem gamma1OneLoop_stretch (a : Field) {g g' : GLQ ℝ} (h : g.Stretched u g') (k : ℝ) :
    Rel (Times (u ^ 3)) (gamma1OneLoop a g k) (gamma1OneLoop a g' (u * k)) := by
  unfold gamma1OneLoop
  rw [updateGLQ_stretch hu h]
  generalize updateGLQ g k = g
  unfold gamma1Loop1
  refine Rel.bind (Q := fun x y => x = y) (Rel.of_eq rfl) ?_
  rintro v _ rfl
  simp only [Res.Rel, Times]
  ring

theorem gamma1TwoLoop_stretch (a : Field) {g g' : GLQ ℝ} (h : g.Stretched u g') (k : ℝ) :
    Rel (Times (u ^ 6)) (gamma1TwoLoop a g k) (gamma1TwoLoop a g' (u * k)) := by
  unfold gamma1TwoLoop
  rw [updateGLQ_stretch hu h]
  generalize updateGLQ g k = g
  refine Rel.bind (Q := Times (u ^ 6)) (sumLoop_times fun i => ?_) fun v v' hv => ?_
  · refine Rel.bind (rd_times u g.q i) ?_
    rintro q1 _ rfl
    refine Rel.bind (Q := Times (u ^ 6)) (sumLoop_times fun j => ?_) fun v v' hv => ?_
    · refine Rel.bind (rd_times u g.q j) ?_
      rintro q2 _ rfl
      refine Rel.bind (Rel.of_eq rfl) ?_
      rintro w _ rfl
      refine Rel.bind (Rel.of_eq rfl) ?_
      rintro p _ rfl
      have : integGamma12 a (g.stretch u).k (u * q1) (u * q2) = integGamma12 a g.k q1 q2 := by
        unfold integGamma12
        rw [show (g.stretch u).k = u * g.k from rfl, mul_div_mul_left _ _ hu.ne', mul_div_mul_left _ _ hu.ne']
      rw [this]
      simp only [Res.Rel, Times]
      ring
    refine Rel.bind (Rel.of_eq rfl) ?_
    rintro w _ rfl
    refine Rel.bind (Rel.of_eq rfl) ?_
    rintro p _ rfl
    rw [show v' = u ^ 6 * v from hv]
    simp only [Res.Rel, Times]
    ring
  · rw [show v' = u ^ 6 * v from hv]; simp only [Res.Rel, Times]; ring

theorem calcGamma1TwoLoop_stretch (a b : Field) {g1 g1' g2 g2' : GLQ ℝ} (h1 : g1.Stretched u g1') (h2 : g2.Stretched u g2') (k : ℝ) :
    Rel (fun r r' => Times (u ^ 3) r.1 r'.1 ∧ Times (u ^ 6) r.2.1 r'.2.1 ∧ Times (u ^ 3) r.2.2.1 r'.2.2.1 ∧
      Times (u ^ 6) r.2.2.2 r'.2.2.2) (calcGamma1TwoLoop a b g1 g2 k) (calcGamma1TwoLoop a b g1' g2' (u * k)) := by
  unfold calcGamma1TwoLoop
  split
  · refine Rel.bind (gamma1OneLoop_stretch hu _ h1 _) ?_
    rintro a1 _ rfl
    refine Rel.bind (gamma1TwoLoop_stretch hu _ h2 _) ?_
    rintro a2 _ rfl
    refine ⟨rfl, ?_, rfl, ?_⟩ <;> simp only [Times] <;> ring
  · refine Rel.bind (gamma1OneLoop_stretch hu _ h1 _) ?_
    rintro a1 _ rfl
    refine Rel.bind (gamma1TwoLoop_stretch hu _ h2 _) ?_
    rintro a2 _ rfl
    refine Rel.bind (gamma1OneLoop_stretch hu _ h1 _) ?_
    rintro b1 _ rfl
    refine Rel.bind (gamma1TwoLoop_stretch hu _ h2 _) ?_
    rintro b2 _ rfl
    refine ⟨rfl, ?_, rfl, ?_⟩ <;> simp only [Times] <;> ring

/-! ## Second order -/

theorem F2Fast_unit (a : Field) (p2 q2 pq : ℝ) : F2Fast a (u * p2) (u * q2) (u * pq) = F2Fast a p2 q2 pq := by
  have h1 : ∀ c x : ℝ, c * (u * pq) * (1 / (u * x)) = c * pq * (1 / x) := fun c x => by
    rw [mul_one_div, mul_one_div, mul_left_comm, mul_div_mul_left _ _ hu.ne']
  have h2 : ∀ c : ℝ, c * (u * pq) * (u * pq) / (u * p2) / (u * q2) = c * pq * pq / p2 / q2 := fun c => by
    rw [show c * (u * pq) * (u * pq) = u * (u * (c * pq * pq)) by ring, mul_div_mul_left _ _ hu.ne', mul_div_assoc,
      mul_div_mul_left _ _ hu.ne']
  cases a <;> simp only [F2Fast, mul_add, h1, h2]

theorem gamma2Tree_unit (a : Field) (k1 k2 k3 : ℝ) : gamma2Tree a (u * k1) (u * k2) (u * k3) = gamma2Tree a k1 k2 k3 := by
  unfold gamma2Tree
  dsimp only
  have e : ∀ k : ℝ, u * k * (u * k) = u ^ 2 * (k * k) := fun k => by ring
  rw [e, e, e, ← F2Fast_unit (pow_pos hu 2) a (k1 * k1) (k2 * k2)]
  congr 1
  ring

theorem gamma2OneLoop_stretch (a : Field) {g g' : GLQ ℝ} (h : g.Stretched u g') (k1 k2 k3 : ℝ) :
    Rel (Times (u ^ 3)) (gamma2OneLoop a g k1 k2 k3) (gamma2OneLoop a g' (u * k1) (u * k2) (u * k3)) := by
  obtain ⟨e1, e2, e3, e4⟩ := h
  unfold gamma2OneLoop
  rw [e1, e2, e3, e4]
  refine Rel.bind (Q := Times (u ^ 3)) (sumLoop_times fun i => ?_) fun v v' hv => ?_
  · refine Rel.bind (rd_times u g.q i) ?_
    rintro q _ rfl
    refine Rel.bind (Rel.of_eq rfl) ?_
    rintro w _ rfl
    refine Rel.bind (Rel.of_eq rfl) ?_
    rintro p _ rfl
    rw [kernelGamma2_unit hu]
    simp only [Res.Rel, Times]
    ring
  · rw [show v' = u ^ 3 * v from hv]; simp only [Res.Rel, Times]; ring

omit hu in
/-- Pairs of tables left by a call, and the value. -/
def CallStretch (u d : ℝ) (r r' : (GLQ ℝ × GLMu ℝ) × ℝ) : Prop := r.1.1.Stretched u r'.1.1 ∧ r'.1.2 = r.1.2 ∧ Times d r.2 r'.2

omit hu in
/-- Pairs of tables left by a call, and the values. -/
def CallsStretch {n : ℕ} (u : ℝ) (d : Fin n → ℝ) (r r' : (GLQ ℝ × GLMu ℝ) × (Fin n → ℝ)) : Prop :=
  r.1.1.Stretched u r'.1.1 ∧ r'.1.2 = r.1.2 ∧ ∀ i, Times (d i) (r.2 i) (r'.2 i)

omit hu in
theorem quadLoop_stretch {ι : Type} (u : ℝ) (d : ι → ℝ) (half : Bool) (g : GLQ ℝ) (gm : GLMu ℝ) {kern kern' : ℕ → ℝ → Res (ι → ℝ)}
    {extra extra' : ℕ → Res (ι → ℝ)} (wt : ℝ → ℝ → ℝ)
    (hk : ∀ iq mu, Rel (fun f f' => ∀ i, Times (d i) (f i) (f' i)) (kern iq mu) (kern' iq mu))
    (hx : ∀ iq, Rel (fun f f' => ∀ i, Times (d i) (f i) (f' i)) (extra iq) (extra' iq)) :
    Rel (fun r r' => r'.1 = r.1 ∧ ∀ i, Times (d i) (r.2 i) (r'.2 i)) (quadLoop half g gm kern extra wt)
      (quadLoop half (g.stretch u) gm kern' extra' wt) := quadLoop_times d 1 half g gm wt hk hx

theorem calcGamma2Tree_stretch (t : Pk ℝ) (i : Interpol) (a b : Field) {g g' : GLQ ℝ} (hg : g.Stretched u g') (gm : GLMu ℝ) (k : ℝ) :
    Rel (CallStretch u (u ^ 3)) (calcGamma2Tree t i a b g gm k) (calcGamma2Tree (t.stretch u) i a b g' gm (u * k)) := by
  unfold calcGamma2Tree
  rw [updateGLQ_stretch hu hg]
  generalize updateGLQ g k = g
  dsimp only
  refine Rel.bind (quadLoop_stretch u (fun _ => 1) true g gm _ (fun iq mu => ?_) (noExtra_times _)) ?_
  · unfold kernelGamma2Tree
    refine Rel.bind (Rel.of_eq rfl) ?_
    rintro x _ rfl
    refine Rel.bind (rd_times u g.q iq) ?_
    rintro q _ rfl
    refine Rel.bind (Rel.of_eq rfl) ?_
    rintro p _ rfl
    rw [show (g.stretch u).k = u * g.k from rfl, mul_assoc u g.k]
    refine Rel.bind (look_stretch hu t i _) ?_
    rintro r _ rfl
    intro _
    rw [gamma2Tree_unit hu, gamma2Tree_unit hu]
    simp only [Times]
    ring
  rintro ⟨m, s⟩ ⟨m', s'⟩ ⟨h1, h2⟩
  dsimp only at h1 h2
  subst h1
  refine ⟨g.stretched_stretch u, rfl, ?_⟩
  show s' () * _ = _
  rw [show s' () = 1 * s () from h2 ()]; ring

theorem gamma2StdPT_stretch {gd gd' gt gt' : GLQ ℝ} (hd : gd.Stretched u gd') (ht : gt.Stretched u gt') (a : Field) (k1 k2 k3 : ℝ) :
    Rel (fun x y => x = y) (gamma2StdPT gd gt a 0 k1 k2 k3) (gamma2StdPT gd' gt' a 0 (u * k1) (u * k2) (u * k3)) ∧
    Rel (Times (u ^ 3)) (gamma2StdPT gd gt a 1 k1 k2 k3) (gamma2StdPT gd' gt' a 1 (u * k1) (u * k2) (u * k3)) := by
  constructor
  · exact (gamma2Tree_unit hu a k1 k2 k3).symm
  · unfold gamma2StdPT
    cases a
    · exact gamma2OneLoop_stretch hu _ hd ..
    · exact gamma2OneLoop_stretch hu _ ht ..

theorem calcGamma2Loop_stretch (t : Pk ℝ) (i : Interpol) {gd gd' gt gt' : GLQ ℝ} (hd : gd.Stretched u gd') (ht : gt.Stretched u gt')
    (a b : Field) {g g' : GLQ ℝ} (hg : g.Stretched u g') (gm : GLMu ℝ) (k : ℝ) :
    Rel (CallsStretch u ![u ^ 3, u ^ 6, u ^ 9]) (calcGamma2Loop t i gd gt a b g gm k)
      (calcGamma2Loop (t.stretch u) i gd' gt' a b g' gm (u * k)) := by
  unfold calcGamma2Loop
  rw [updateGLQ_stretch hu hg]
  generalize updateGLQ g k = g
  dsimp only
  refine Rel.bind (quadLoop_stretch u ![1, u ^ 3, u ^ 6] true g gm _ (fun iq mu => ?_) (noExtra_times _)) ?_
  · unfold kernelGamma2Loop
    refine Rel.bind (Rel.of_eq rfl) ?_
    rintro x _ rfl
    refine Rel.bind (rd_times u g.q iq) ?_
    rintro q _ rfl
    refine Rel.bind (Rel.of_eq rfl) ?_
    rintro p _ rfl
    rw [show (g.stretch u).k = u * g.k from rfl, mul_assoc u g.k]
    refine Rel.bind (look_stretch hu t i _) ?_
    rintro r _ rfl
    refine Rel.bind (gamma2StdPT_stretch hu hd ht ..).1 ?_
    rintro at' _ rfl
    refine Rel.bind (gamma2StdPT_stretch hu hd ht ..).2 fun a1 a1' ha => ?_
    refine Rel.bind (Q := fun x y => x = y) ?_ ?_
    · unfold other
      split
      · rfl
      · exact (gamma2StdPT_stretch hu hd ht ..).1
    rintro bt _ rfl
    refine Rel.bind (other_times ha (gamma2StdPT_stretch hu hd ht ..).2) fun b1 b1' hb => ?_
    rw [show a1' = u ^ 3 * a1 from ha, show b1' = u ^ 3 * b1 from hb]
    intro j
    fin_cases j
    · show _ = 1 * _; dsimp; ring
    · show _ = u ^ 3 * _; dsimp; ring
    · show _ = u ^ 6 * _; dsimp; ring
  rintro ⟨m, s⟩ ⟨m', s'⟩ ⟨h1, h2⟩
  dsimp only at h1 h2
  subst h1
  refine ⟨g.stretched_stretch u, rfl, fun j => ?_⟩
  show s' j * _ = _
  rw [show s' j = _ * s j from h2 j]
  fin_cases j <;> dsimp <;> ring

/-! ## Bias, A and B -/

omit hu in
/-- A bias integrand that depends on ratios of wavenumbers only. -/
def BiasKernel.Free (kn : BiasKernel) : Prop :=
  ∀ (u : ℝ), 0 < u → ∀ (a : Field) (q kq mu m p r : ℝ), kn a (u * q) (u * kq) mu m p r = kn a q kq mu m p r

theorem calcBias_stretch (t : Pk ℝ) (i : Interpol) (a : Field) {kn : BiasKernel} (hkn : kn.Free) (half : Bool) {g g' : GLQ ℝ}
    (hg : g.Stretched u g') (gm : GLMu ℝ) (k : ℝ) :
    Rel (CallStretch u (u ^ 3)) (calcBias t i a kn half g gm k) (calcBias (t.stretch u) i a kn half g' gm (u * k)) := by
  unfold calcBias
  rw [updateGLQ_stretch hu hg]
  generalize updateGLQ g k = g
  dsimp only
  refine Rel.bind (quadLoop_stretch u (fun _ => 1) half g gm _ (fun iq mu => ?_) (noExtra_times _)) ?_
  · unfold kernelPkBias
    refine Rel.bind (Rel.of_eq rfl) ?_
    rintro x _ rfl
    refine Rel.bind (rd_times u g.q iq) ?_
    rintro q _ rfl
    refine Rel.bind (Rel.of_eq rfl) ?_
    rintro p _ rfl
    rw [show (g.stretch u).k = u * g.k from rfl, mul_assoc u g.k]
    refine Rel.bind (look_stretch hu t i _) ?_
    rintro r _ rfl
    intro _
    generalize g.k * Real.sqrt (1 + x * x - 2 * mu * x) = kq
    rw [hkn u hu, show (u * g.k * (u * g.k) - u * kq * (u * kq) - u * q * (u * q)) / 2 / (u * q) / (u * kq) =
      (g.k * g.k - kq * kq - q * q) / 2 / q / kq by
        rw [show (u * g.k * (u * g.k) - u * kq * (u * kq) - u * q * (u * q)) / 2 = u * (u * ((g.k * g.k - kq * kq - q * q) / 2)) by ring,
          mul_div_mul_left _ _ hu.ne', mul_div_assoc, mul_div_mul_left _ _ hu.ne']]
    exact (one_mul _).symm
  rintro ⟨m, s⟩ ⟨m', s'⟩ ⟨h1, h2⟩
  dsimp only at h1 h2
  subst h1
  refine ⟨g.stretched_stretch u, rfl, ?_⟩
  show _ * s' () = _
  rw [show s' () = 1 * s () from h2 ()]; ring

theorem calcA1_stretch (t : Pk ℝ) (i j : Interpol) {g g' : GLQ ℝ} (hg : g.Stretched u g') (gm : GLMu ℝ) (k : ℝ) :
    Rel (CallsStretch u fun _ => u ^ 3) (calcA1 t i j g gm k) (calcA1 (t.stretch u) i j g' gm (u * k)) := by
  unfold calcA1
  rw [updateGLQ_stretch hu hg]
  generalize updateGLQ g k = g
  dsimp only
  refine Rel.bind (look_stretch hu t i k) ?_
  rintro pk _ rfl
  refine Rel.bind (quadLoop_stretch u (fun _ => 1) false g gm _ (fun iq mu => ?_) fun iq => ?_) ?_
  · unfold kernelA1
    refine Rel.bind (Rel.of_eq rfl) ?_
    rintro x _ rfl
    refine Rel.bind (Rel.of_eq rfl) ?_
    rintro p _ rfl
    rw [show (g.stretch u).k = u * g.k from rfl, mul_assoc u g.k]
    refine Rel.bind (look_stretch hu t j _) ?_
    rintro r _ rfl
    exact fun l => (one_mul _).symm
  · unfold kernelA1a
    refine Rel.bind (Rel.of_eq rfl) ?_
    rintro x _ rfl
    refine Rel.bind (Rel.of_eq rfl) ?_
    rintro p _ rfl
    exact fun l => (one_mul _).symm
  rintro ⟨m, s⟩ ⟨m', s'⟩ ⟨h1, h2⟩
  dsimp only at h1 h2
  subst h1
  refine ⟨g.stretched_stretch u, rfl, fun j => ?_⟩
  show s' j * _ = _
  rw [show s' j = _ * s j from h2 j]; ring

theorem calcB_stretch (dt tt : Pk ℝ) (i : Interpol) {g g' : GLQ ℝ} (hg : g.Stretched u g') (gm : GLMu ℝ) (k : ℝ) :
    Rel (CallsStretch u fun _ => u ^ 3) (calcB dt tt i g gm k) (calcB (dt.stretch u) (tt.stretch u) i g' gm (u * k)) := by
  unfold calcB
  rw [updateGLQ_stretch hu hg]
  generalize updateGLQ g k = g
  dsimp only
  refine Rel.bind (quadLoop_stretch u (fun _ => 1) true g gm _ (fun iq mu => ?_) (noExtra_times _)) ?_
  · unfold kernelB
    refine Rel.bind (Rel.of_eq rfl) ?_
    rintro x _ rfl
    refine Rel.bind (rd_times u g.q iq) ?_
    rintro q _ rfl
    rw [show (g.stretch u).k = u * g.k from rfl]
    dsimp only
    rw [mul_assoc u g.k]
    refine Rel.bind (look_stretch hu dt i _) ?_
    rintro p _ rfl
    refine Rel.bind (look_stretch hu dt i _) ?_
    rintro r _ rfl
    refine Rel.bind (look_stretch hu tt i _) ?_
    rintro v _ rfl
    refine Rel.bind (look_stretch hu tt i _) ?_
    rintro w _ rfl
    exact fun l => (one_mul _).symm
  rintro ⟨m, s⟩ ⟨m', s'⟩ ⟨h1, h2⟩
  dsimp only at h1 h2
  subst h1
  refine ⟨g.stretched_stretch u, rfl, fun j => ?_⟩
  show s' j * _ = _
  rw [show s' j = _ * s j from h2 j]; ring

/-! ## Third order -/

omit hu in
/-- A wavevector multiplied by `u`. -/
def Vec.stretch (u : ℝ) (p : Vec) : Vec := ⟨u * p.x, u * p.y, u * p.z⟩

omit hu in
theorem Vec.stretch_dot (u : ℝ) (p q : Vec) : (p.stretch u).dot (q.stretch u) = u ^ 2 * p.dot q := by
  simp only [Vec.dot, Vec.stretch]; ring

omit hu in
theorem Vec.stretch_add (u : ℝ) (p q : Vec) : p.stretch u + q.stretch u = (p + q).stretch u := by
  show Vec.mk _ _ _ = Vec.mk _ _ _
  simp only [Vec.stretch, Vec.add_x, Vec.add_y, Vec.add_z, mul_add]

theorem F3_unit (a : Field) (p q r : Vec) (h1 : tiny (q + r) ↔ tiny ((q + r).stretch u))
    (h2 : tiny (p + (q + r)) ↔ tiny ((p + (q + r)).stretch u)) : F3 a (p.stretch u) (q.stretch u) (r.stretch u) = F3 a p q r := by
  unfold F3
  dsimp only
  rw [Vec.stretch_add, Vec.stretch_add]
  by_cases c : tiny (q + r) ∨ tiny (p + (q + r))
  · rw [if_pos c, if_pos (by rwa [← h1, ← h2])]
  · rw [if_neg c, if_neg (by rwa [← h1, ← h2])]
    simp only [Vec.stretch_dot]
    have h2 : (0 : ℝ) < u ^ 2 := pow_pos hu 2
    have e1 : ∀ x y : ℝ, u ^ 2 * x / (u ^ 2 * y) = x / y := fun x y => mul_div_mul_left _ _ h2.ne'
    have e2 : ∀ x y z w : ℝ, u ^ 2 * x * (u ^ 2 * y + u ^ 2 * z + 2 * (u ^ 2 * x)) / (u ^ 2 * y * (u ^ 2 * w)) =
        x * (y + z + 2 * x) / (y * w) := fun x y z w => by
      rw [show u ^ 2 * x * (u ^ 2 * y + u ^ 2 * z + 2 * (u ^ 2 * x)) = u ^ 2 * u ^ 2 * (x * (y + z + 2 * x)) by ring,
        show u ^ 2 * y * (u ^ 2 * w) = u ^ 2 * u ^ 2 * (y * w) by ring, mul_div_mul_left _ _ (mul_pos h2 h2).ne']
    rw [e1, e1, e2, F2Fast_unit h2, F2Fast_unit h2]

omit hu in
/-- The tests of `F3` on a sum of wavevectors come out the same in both units, for the six sums tested by `F3_sym`. -/
def SameTests (u : ℝ) (p q r : Vec) : Prop :=
  ∀ s ∈ [q + r, p + (q + r), p + q, r + (p + q), r + p, q + (r + p)], tiny s ↔ tiny (s.stretch u)

theorem F3Sym_unit (a : Field) (p q r : Vec) (h : SameTests u p q r) :
    F3Sym a (p.stretch u) (q.stretch u) (r.stretch u) = F3Sym a p q r := by
  unfold F3Sym
  rw [F3_unit hu a p q r (h _ (by simp)) (h _ (by simp)), F3_unit hu a r p q (h _ (by simp)) (h _ (by simp)),
    F3_unit hu a q r p (h _ (by simp)) (h _ (by simp))]

theorem sqrt_unit (x y z : ℝ) : Real.sqrt (u * x * (u * x) + u * y * (u * y) + u * z * (u * z)) = u * Real.sqrt (x * x + y * y + z * z) := by
  rw [show u * x * (u * x) + u * y * (u * y) + u * z * (u * z) = u ^ 2 * (x * x + y * y + z * z) by ring, Real.sqrt_mul (by positivity),
    Real.sqrt_sq hu.le]

omit hu in
/-- The point of the cubature with all wavenumbers multiplied by `u`. -/
noncomputable def G3Point.stretch (u : ℝ) (s : G3Point) : G3Point :=
  ⟨u * s.p, u * s.q, s.sintheta1, s.sintheta2, s.pp.stretch u, s.qq.stretch u, s.kpq.stretch u, s.kp.stretch u⟩

theorem g3Point_stretch (k : ℝ) {qmin qmax : ℝ} (h1 : 0 < qmin) (h2 : 0 < qmax) (xx : Fin 5 → ℝ) :
    g3Point (u * k) (Real.log (u * qmin)) (Real.log (u * qmax)) xx = (g3Point k (Real.log qmin) (Real.log qmax) xx).stretch u := by
  have e : ∀ x, Real.exp (Real.log (u * qmin) + (Real.log (u * qmax) - Real.log (u * qmin)) * x) =
      u * Real.exp (Real.log qmin + (Real.log qmax - Real.log qmin) * x) := by
    intro x
    rw [Real.log_mul hu.ne' h1.ne', Real.log_mul hu.ne' h2.ne', show Real.log u + Real.log qmin + (Real.log u + Real.log qmax -
      (Real.log u + Real.log qmin)) * x = Real.log u + (Real.log qmin + (Real.log qmax - Real.log qmin) * x) by ring, Real.exp_add,
      Real.exp_log hu]
  unfold g3Point G3Point.stretch
  dsimp only
  rw [e, e]
  simp only [Vec.stretch, G3Point.mk.injEq, Vec.mk.injEq, true_and]
  refine ⟨⟨?_, ?_, ?_⟩, ⟨?_, ?_, ?_⟩, ⟨?_, ?_, ?_⟩, ?_, ?_, ?_⟩ <;> ring

theorem kernelGamma3_stretch (t : Pk ℝ) (i : Interpol) (a b : Field) (k : ℝ) {qmin qmax : ℝ} (h1 : 0 < qmin) (h2 : 0 < qmax)
    (xx : Fin 5 → ℝ) (hs : let s := g3Point k (Real.log qmin) (Real.log qmax) xx; SameTests u s.pp s.qq s.kpq) :
    Rel (Times (u ^ 6)) (kernelGamma3 t i a b k qmin qmax xx)
      (kernelGamma3 (t.stretch u) i a b (u * k) (u * qmin) (u * qmax) xx) := by
  unfold kernelGamma3
  dsimp only at hs ⊢
  rw [g3Point_stretch hu k h1 h2]
  generalize g3Point k (Real.log qmin) (Real.log qmax) xx = s at hs ⊢
  simp only [G3Point.stretch, F3Sym_unit hu _ _ _ _ hs]
  simp only [Vec.stretch, sqrt_unit hu]
  have c : (u * qmin ≤ u * Real.sqrt (s.kpq.x * s.kpq.x + s.kpq.y * s.kpq.y + s.kpq.z * s.kpq.z) ∧
      u * Real.sqrt (s.kpq.x * s.kpq.x + s.kpq.y * s.kpq.y + s.kpq.z * s.kpq.z) ≤ u * qmax ∧
      u * s.qq.x * (u * s.kp.x) + u * s.qq.y * (u * s.kp.y) + u * s.qq.z * (u * s.kp.z) ≤
        0.5 * (u * Real.sqrt (s.kp.x * s.kp.x + s.kp.y * s.kp.y + s.kp.z * s.kp.z)) *
          (u * Real.sqrt (s.kp.x * s.kp.x + s.kp.y * s.kp.y + s.kp.z * s.kp.z))) ↔
      (qmin ≤ Real.sqrt (s.kpq.x * s.kpq.x + s.kpq.y * s.kpq.y + s.kpq.z * s.kpq.z) ∧
      Real.sqrt (s.kpq.x * s.kpq.x + s.kpq.y * s.kpq.y + s.kpq.z * s.kpq.z) ≤ qmax ∧
      s.qq.x * s.kp.x + s.qq.y * s.kp.y + s.qq.z * s.kp.z ≤
        0.5 * Real.sqrt (s.kp.x * s.kp.x + s.kp.y * s.kp.y + s.kp.z * s.kp.z) *
          Real.sqrt (s.kp.x * s.kp.x + s.kp.y * s.kp.y + s.kp.z * s.kp.z)) := by
    rw [mul_le_mul_iff_right₀ hu, mul_le_mul_iff_right₀ hu]
    refine and_congr_right fun _ => and_congr_right fun _ => ?_
    generalize Real.sqrt (s.kp.x * s.kp.x + s.kp.y * s.kp.y + s.kp.z * s.kp.z) = K
    rw [show u * s.qq.x * (u * s.kp.x) + u * s.qq.y * (u * s.kp.y) + u * s.qq.z * (u * s.kp.z) =
      u ^ 2 * (s.qq.x * s.kp.x + s.qq.y * s.kp.y + s.qq.z * s.kp.z) by ring,
      show 0.5 * (u * K) * (u * K) = u ^ 2 * (0.5 * K * K) by ring, mul_le_mul_iff_right₀ (pow_pos hu 2)]
  rw [Real.log_mul hu.ne' h1.ne', Real.log_mul hu.ne' h2.ne']
  by_cases hc : qmin ≤ Real.sqrt (s.kpq.x * s.kpq.x + s.kpq.y * s.kpq.y + s.kpq.z * s.kpq.z) ∧
      Real.sqrt (s.kpq.x * s.kpq.x + s.kpq.y * s.kpq.y + s.kpq.z * s.kpq.z) ≤ qmax ∧
      s.qq.x * s.kp.x + s.qq.y * s.kp.y + s.qq.z * s.kp.z ≤
        0.5 * Real.sqrt (s.kp.x * s.kp.x + s.kp.y * s.kp.y + s.kp.z * s.kp.z) *
          Real.sqrt (s.kp.x * s.kp.x + s.kp.y * s.kp.y + s.kp.z * s.kp.z)
  · rw [if_pos hc, if_pos (c.mpr hc)]
    refine Rel.bind (look_stretch hu t i _) ?_
    rintro p _ rfl
    refine Rel.bind (look_stretch hu t i _) ?_
    rintro q _ rfl
    refine Rel.bind (look_stretch hu t i _) ?_
    rintro r _ rfl
    simp only [Res.Rel, Times]
    ring
  · rw [if_neg hc, if_neg (mt c.mp hc)]
    simp [Res.Rel, Times]

end Verif
