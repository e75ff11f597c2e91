import Verif.Model.Driver
import Verif.Proofs.Rel

/-!
# Quadrature tables along a run

Between two updates a table differs from its initial value only in what the next update overwrites.
-/

namespace Verif

open Res (Rel)

/-- Equal up to what `updateGLQ` overwrites. -/
def SameQ (g h : GLQ ℝ) : Prop := g.nq = h.nq ∧ g.q = h.q ∧ g.w = h.w ∧ g.pk = h.pk

/-- Equal up to what `updateGLMu` overwrites. -/
def SameMu (g h : GLMu ℝ) : Prop := g.nmu = h.nmu ∧ g.muref = h.muref ∧ g.wref = h.wref

theorem SameQ.refl (g : GLQ ℝ) : SameQ g g := ⟨rfl, rfl, rfl, rfl⟩

theorem SameMu.refl (g : GLMu ℝ) : SameMu g g := ⟨rfl, rfl, rfl⟩

theorem SameQ.trans {g h i : GLQ ℝ} (a : SameQ g h) (b : SameQ h i) : SameQ g i :=
  ⟨a.1.trans b.1, a.2.1.trans b.2.1, a.2.2.1.trans b.2.2.1, a.2.2.2.trans b.2.2.2⟩

theorem SameMu.trans {g h i : GLMu ℝ} (a : SameMu g h) (b : SameMu h i) : SameMu g i :=
  ⟨a.1.trans b.1, a.2.1.trans b.2.1, a.2.2.trans b.2.2⟩

theorem sameQ_update (g : GLQ ℝ) (k : ℝ) : SameQ (updateGLQ g k) g := ⟨rfl, rfl, rfl, rfl⟩

theorem sameMu_update (g : GLMu ℝ) (a b : ℝ) : SameMu (updateGLMu g a b) g := ⟨rfl, rfl, rfl⟩

theorem SameQ.update_eq {g h : GLQ ℝ} (s : SameQ g h) (k : ℝ) : updateGLQ g k = updateGLQ h k := by
  obtain ⟨h1, h2, h3, h4⟩ := s
  cases g; cases h
  simp_all [updateGLQ]

theorem SameMu.update_eq {g h : GLMu ℝ} (s : SameMu g h) (a b : ℝ) : updateGLMu g a b = updateGLMu h a b := by
  obtain ⟨h1, h2, h3⟩ := s
  cases g; cases h
  simp_all [updateGLMu]

theorem SameQ.gamma1 {g h : GLQ ℝ} (s : SameQ g h) (a : Field) (k : ℝ) : gamma1OneLoop a g k = gamma1OneLoop a h k := by
  unfold gamma1OneLoop
  rw [s.update_eq k]

theorem SameQ.gamma12 {g h : GLQ ℝ} (s : SameQ g h) (a : Field) (k : ℝ) : gamma1TwoLoop a g k = gamma1TwoLoop a h k := by
  unfold gamma1TwoLoop
  rw [s.update_eq k]

/-- The double loop only sees the reference nodes of the angular table, and hands them on. -/
theorem quadLoop_rel {ι : Type} (half : Bool) (g : GLQ ℝ) {gm gm' : GLMu ℝ} (hs : SameMu gm gm')
    (kern : ℕ → ℝ → Res (ι → ℝ)) (extra : ℕ → Res (ι → ℝ)) (wt : ℝ → ℝ → ℝ) :
    Rel (fun r r' => SameMu r.1 gm' ∧ r.2 = r'.2) (quadLoop half g gm kern extra wt) (quadLoop half g gm' kern extra wt) := by
  unfold quadLoop
  have key := forRange_rel (lo := 0) (hi := g.nq)
    (Q := fun (s s' : GLMu ℝ × (ι → ℝ)) => SameMu s.1 gm' ∧ SameMu s'.1 gm' ∧ s.2 = s'.2)
    (s := (gm, fun _ : ι => (0 : ℝ))) (t := (gm', fun _ : ι => (0 : ℝ)))
    (b1 := fun iq s => do
      let x ← rd g.x iq
      let r ← muRange half g.x g.nq x
      match r with
      | none => .ok s
      | some (lo, hi) => do
          let gm := updateGLMu s.1 lo hi
          let integ ← forRange 0 gm.nmu (fun _ : ι => (0 : ℝ)) fun imu acc => do
            let mu ← rd gm.mu imu
            let kr ← kern iq mu
            let w ← rd gm.w imu
            .ok (fun i : ι => acc i + kr i * w)
          let ex ← extra iq
          let w ← rd g.w iq
          .ok (gm, fun i => s.2 i + (integ i + ex i) * wt x w))
    (b2 := fun iq s => do
      let x ← rd g.x iq
      let r ← muRange half g.x g.nq x
      match r with
      | none => .ok s
      | some (lo, hi) => do
          let gm := updateGLMu s.1 lo hi
          let integ ← forRange 0 gm.nmu (fun _ : ι => (0 : ℝ)) fun imu acc => do
            let mu ← rd gm.mu imu
            let kr ← kern iq mu
            let w ← rd gm.w imu
            .ok (fun i : ι => acc i + kr i * w)
          let ex ← extra iq
          let w ← rd g.w iq
          .ok (gm, fun i => s.2 i + (integ i + ex i) * wt x w))
    ⟨hs, SameMu.refl gm', rfl⟩ ?_
  · exact key.mono fun r r' h => ⟨h.1, h.2.2⟩
  intro iq s s' _ _ ⟨h1, h2, h3⟩
  refine Rel.bind (Rel.of_eq rfl) fun x _ hx => ?_
  subst hx
  refine Rel.bind (Rel.of_eq rfl) fun r _ hr => ?_
  subst hr
  rcases r with _ | ⟨lo, hi⟩
  · exact ⟨h1, h2, h3⟩
  · dsimp only
    rw [h1.update_eq lo hi, h2.update_eq lo hi]
    refine Rel.bind (Rel.of_eq rfl) fun integ _ hi' => ?_
    subst hi'
    refine Rel.bind (Rel.of_eq rfl) fun ex _ he => ?_
    subst he
    refine Rel.bind (Rel.of_eq rfl) fun w _ hw => ?_
    subst hw
    exact ⟨sameMu_update _ _ _, sameMu_update _ _ _, by rw [h3]⟩

/-- Relation of the results of a term integral: tables same as the reference, equal values. -/
def SameOut {β : Type} (g0 : GLQ ℝ) (gm0 : GLMu ℝ) (r r' : (GLQ ℝ × GLMu ℝ) × β) : Prop :=
  (SameQ r.1.1 g0 ∧ SameMu r.1.2 gm0) ∧ r.2 = r'.2

theorem calcGamma2Tree_rel (t : Pk ℝ) (i : Interpol) (a b : Field) {g g0 : GLQ ℝ} {gm gm0 : GLMu ℝ} (hg : SameQ g g0)
    (hm : SameMu gm gm0) (k : ℝ) :
    Rel (SameOut g0 gm0) (calcGamma2Tree t i a b g gm k) (calcGamma2Tree t i a b g0 gm0 k) := by
  unfold calcGamma2Tree
  dsimp only
  rw [hg.update_eq k]
  refine Rel.bind (quadLoop_rel true _ hm _ _ _) fun r r' h => ?_
  exact ⟨⟨sameQ_update _ _, h.1⟩, by simp [h.2]⟩

theorem calcGamma2Loop_rel (t : Pk ℝ) (i : Interpol) (gd gt : GLQ ℝ) (a b : Field) {g g0 : GLQ ℝ} {gm gm0 : GLMu ℝ}
    (hg : SameQ g g0) (hm : SameMu gm gm0) (k : ℝ) :
    Rel (SameOut g0 gm0) (calcGamma2Loop t i gd gt a b g gm k) (calcGamma2Loop t i gd gt a b g0 gm0 k) := by
  unfold calcGamma2Loop
  dsimp only
  rw [hg.update_eq k]
  refine Rel.bind (quadLoop_rel true _ hm _ _ _) fun r r' h => ?_
  exact ⟨⟨sameQ_update _ _, h.1⟩, by simp [h.2]⟩

theorem calcBias_rel (t : Pk ℝ) (i : Interpol) (a : Field) (kernel : BiasKernel) (half : Bool) {g g0 : GLQ ℝ} {gm gm0 : GLMu ℝ}
    (hg : SameQ g g0) (hm : SameMu gm gm0) (k : ℝ) :
    Rel (SameOut g0 gm0) (calcBias t i a kernel half g gm k) (calcBias t i a kernel half g0 gm0 k) := by
  unfold calcBias
  dsimp only
  rw [hg.update_eq k]
  refine Rel.bind (quadLoop_rel half _ hm _ _ _) fun r r' h => ?_
  exact ⟨⟨sameQ_update _ _, h.1⟩, by simp [h.2]⟩

theorem calcA1_rel (t : Pk ℝ) (i j : Interpol) {g g0 : GLQ ℝ} {gm gm0 : GLMu ℝ} (hg : SameQ g g0) (hm : SameMu gm gm0) (k : ℝ) :
    Rel (SameOut g0 gm0) (calcA1 t i j g gm k) (calcA1 t i j g0 gm0 k) := by
  unfold calcA1
  dsimp only
  rw [hg.update_eq k]
  refine Rel.bind (Rel.of_eq rfl) fun p _ hp => ?_
  subst hp
  refine Rel.bind (quadLoop_rel false _ hm _ _ _) fun r r' h => ?_
  exact ⟨⟨sameQ_update _ _, h.1⟩, by simp [h.2]⟩

theorem calcA2I_rel (bi : ℝ → ℝ → ℝ → Res BiOut) {g g0 : GLQ ℝ} {gm gm0 : GLMu ℝ} (hg : SameQ g g0) (hm : SameMu gm gm0) (k : ℝ) :
    Rel (SameOut g0 gm0) (calcA2I bi g gm k) (calcA2I bi g0 gm0 k) := by
  unfold calcA2I
  dsimp only
  rw [hg.update_eq k]
  refine Rel.bind (quadLoop_rel true _ hm _ _ _) fun r r' h => ?_
  exact ⟨⟨sameQ_update _ _, h.1⟩, by simp [h.2]⟩

theorem calcB_rel (dt tt : Pk ℝ) (i : Interpol) {g g0 : GLQ ℝ} {gm gm0 : GLMu ℝ} (hg : SameQ g g0) (hm : SameMu gm gm0) (k : ℝ) :
    Rel (SameOut g0 gm0) (calcB dt tt i g gm k) (calcB dt tt i g0 gm0 k) := by
  unfold calcB
  dsimp only
  rw [hg.update_eq k]
  refine Rel.bind (quadLoop_rel true _ hm _ _ _) fun r r' h => ?_
  exact ⟨⟨sameQ_update _ _, h.1⟩, by simp [h.2]⟩

/-! ## The six regions -/

/-- Tables of the one-loop region, up to what the iterations overwrite. -/
def SameTab1 (s t : Tab1) : Prop := SameQ s.g1 t.g1 ∧ SameQ s.g t.g ∧ SameMu s.gm t.gm

theorem work1_det (e : Env) (a b : Field) : (work1 e a b).Det SameTab1 := by
  refine ⟨fun s => ⟨.refl _, .refl _, .refl _⟩, fun s s0 ⟨h1, h2, h3⟩ ik => ?_⟩
  simp only [work1]
  refine Rel.bind (Rel.of_eq rfl) fun k _ hk => ?_
  subst hk
  rw [h1.gamma1, h1.gamma1]
  refine Rel.bind (Rel.of_eq rfl) fun a1 _ ha => ?_
  subst ha
  refine Rel.bind (Rel.of_eq rfl) fun b1 _ hb => ?_
  subst hb
  refine Rel.bind (calcGamma2Tree_rel _ _ a b h2 h3 k) fun r r' h => ?_
  exact ⟨⟨(sameQ_update _ _).trans h1, h.1⟩, by simp [h.2]⟩

/-- Tables of the two-loop region, up to what the iterations overwrite. -/
def SameTab2 (s t : Tab2) : Prop :=
  SameQ s.g1 t.g1 ∧ SameQ s.g12 t.g12 ∧ SameQ s.g t.g ∧ SameMu s.gm t.gm ∧ s.gd = t.gd ∧ s.gt = t.gt

theorem calcGamma1TwoLoop_congr {g1 h1 g2 h2 : GLQ ℝ} (s1 : SameQ g1 h1) (s2 : SameQ g2 h2) (a b : Field) (k : ℝ) :
    calcGamma1TwoLoop a b g1 g2 k = calcGamma1TwoLoop a b h1 h2 k := by
  unfold calcGamma1TwoLoop
  rw [s1.gamma1, s1.gamma1, s2.gamma12, s2.gamma12]

theorem work2_det (e : Env) (a b : Field) : (work2 e a b).Det SameTab2 := by
  refine ⟨fun s => ⟨.refl _, .refl _, .refl _, .refl _, rfl, rfl⟩, fun s s0 ⟨h1, h2, h3, h4, h5, h6⟩ ik => ?_⟩
  simp only [work2]
  refine Rel.bind (Rel.of_eq rfl) fun k _ hk => ?_
  subst hk
  rw [calcGamma1TwoLoop_congr h1 h2, h5, h6]
  refine Rel.bind (Rel.of_eq rfl) fun r1 _ ha => ?_
  subst ha
  refine Rel.bind (calcGamma2Loop_rel _ _ _ _ a b h3 h4 k) fun r r' h => ?_
  exact ⟨⟨(sameQ_update _ _).trans h1, (sameQ_update _ _).trans h2, h.1.1, h.1.2, rfl, rfl⟩, by simp [h.2]⟩

/-- A pair of tables, up to what the iterations overwrite. -/
def SamePair (s t : GLQ ℝ × GLMu ℝ) : Prop := SameQ s.1 t.1 ∧ SameMu s.2 t.2

theorem workBias_det (e : Env) : (workBias e).Det SamePair := by
  refine ⟨fun s => ⟨.refl _, .refl _⟩, fun s s0 hs ik => ?_⟩
  simp only [workBias]
  refine Rel.bind (Rel.of_eq rfl) fun k _ hk => ?_
  subst hk
  have step : ∀ (a : Field) (kn : BiasKernel) (half : Bool) (s t : GLQ ℝ × GLMu ℝ), SamePair s s0 → SamePair t s0 →
      Rel (fun r r' => (SamePair r.1 s0 ∧ SamePair r'.1 s0) ∧ r.2 = r'.2) (biasCall e a kn half s k) (biasCall e a kn half t k) := by
    intro a kn half s t hs ht
    unfold biasCall
    have r1 := calcBias_rel e.t (e.cfg.prec .bias_1loop_mu).interpol a kn half hs.1 hs.2 k
    have r2 := calcBias_rel e.t (e.cfg.prec .bias_1loop_mu).interpol a kn half ht.1 ht.2 k
    revert r1 r2
    generalize calcBias e.t _ a kn half s.1 s.2 k = x
    generalize calcBias e.t _ a kn half t.1 t.2 k = y
    generalize calcBias e.t _ a kn half s0.1 s0.2 k = z
    intro r1 r2
    cases x <;> cases y <;> cases z <;> simp_all [Res.Rel, SameOut, SamePair]
  refine Rel.bind (step _ _ _ s s0 hs ⟨.refl _, .refl _⟩) fun r0 r0' h0 => ?_
  refine Rel.bind (step _ _ _ _ _ h0.1.1 h0.1.2) fun r1 r1' h1 => ?_
  refine Rel.bind (step _ _ _ _ _ h1.1.1 h1.1.2) fun r2 r2' h2 => ?_
  refine Rel.bind (step _ _ _ _ _ h2.1.1 h2.1.2) fun r3 r3' h3 => ?_
  refine Rel.bind (step _ _ _ _ _ h3.1.1 h3.1.2) fun r4 r4' h4 => ?_
  refine Rel.bind (step _ _ _ _ _ h4.1.1 h4.1.2) fun r5 r5' h5 => ?_
  refine Rel.bind (step _ _ _ _ _ h5.1.1 h5.1.2) fun r6 r6' h6 => ?_
  refine Rel.bind (step _ _ _ _ _ h6.1.1 h6.1.2) fun r7 r7' h7 => ?_
  exact ⟨h7.1.1, by simp [h0.2, h1.2, h2.2, h3.2, h4.2, h5.2, h6.2, h7.2]⟩

theorem workA1_det (e : Env) : (workA1 e).Det SamePair := by
  refine ⟨fun s => ⟨.refl _, .refl _⟩, fun s s0 hs ik => ?_⟩
  simp only [workA1]
  refine Rel.bind (Rel.of_eq rfl) fun k _ hk => ?_
  subst hk
  exact Rel.bind (calcA1_rel _ _ _ hs.1 hs.2 k) fun r r' h => h

/-- Tables of the region of the two-loop A term, up to what the iterations overwrite. -/
def SameTabA2 (s t : TabA2) : Prop := SameQ s.g t.g ∧ SameMu s.gm t.gm ∧ s.g1 = t.g1 ∧ s.gd = t.gd ∧ s.gt = t.gt

theorem workA2_det (e : Env) : (workA2 e).Det SameTabA2 := by
  refine ⟨fun s => ⟨.refl _, .refl _, rfl, rfl, rfl⟩, fun s s0 ⟨h1, h2, h3, h4, h5⟩ ik => ?_⟩
  simp only [workA2]
  refine Rel.bind (Rel.of_eq rfl) fun k _ hk => ?_
  subst hk
  have hb : e.biI s = e.biI s0 := by simp only [Env.biI, h3, h4, h5]
  rw [hb]
  refine Rel.bind (calcA2I_rel _ h1 h2 k) fun r r' h => ?_
  exact ⟨⟨h.1.1, h.1.2, h3, h4, h5⟩, by simp [h.2]⟩

theorem workB_det (e : Env) (dt tt : Pk ℝ) : (workB e dt tt).Det SamePair := by
  refine ⟨fun s => ⟨.refl _, .refl _⟩, fun s s0 hs ik => ?_⟩
  simp only [workB]
  refine Rel.bind (Rel.of_eq rfl) fun k _ hk => ?_
  subst hk
  refine Rel.bind (calcB_rel _ _ _ hs.1 hs.2 k) fun r r' h => ?_
  exact ⟨h.1, by simp [h.2]⟩

end Verif
