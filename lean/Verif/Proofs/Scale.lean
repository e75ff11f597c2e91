import Verif.Proofs.Sim

/-!
# Multiplying the linear spectrum by a constant

Every step of the library is homogeneous in the tabulated power.
-/

namespace Verif

open Res (Rel)

attribute [local irreducible] ofLong subSize sizeMod

/-- The table with the power multiplied by `c`. -/
noncomputable def Pk.scale (c : ℝ) (t : Pk ℝ) : Pk ℝ := { t with pk := t.pk.map (c * ·) }

/-- The quadrature table with the power multiplied by `c`. -/
noncomputable def GLQ.scale (c : ℝ) (g : GLQ ℝ) : GLQ ℝ := { g with pk := g.pk.map (c * ·) }

/-- `y` is `c` times `x`. -/
def Times (c x y : ℝ) : Prop := y = c * x

theorem rd_times (c : ℝ) (l : List ℝ) (i : ℕ) : Rel (Times c) (rd l i) (rd (l.map (c * ·)) i) := by
  unfold rd
  rw [List.getElem?_map]
  cases l[i]? <;> simp [Res.Rel, Times]

theorem rd_same {α : Type} (l : List α) (i : ℕ) : Rel (fun x y => x = y) (rd l i) (rd l i) := Rel.of_eq rfl

/-! ## Interpolation -/

/-- A buffer with all contents multiplied by `c`. -/
def BufTimes (c : ℝ) (b b' : Buf ℝ) : Prop := b' = b.map (Option.map (c * ·))

theorem Buf.rd_times {c : ℝ} {b b' : Buf ℝ} (h : BufTimes c b b') (i : ℕ) : Rel (Times c) (b.rd i) (b'.rd i) := by
  subst h
  unfold Buf.rd
  rw [List.getElem?_map]
  rcases b[i]? with _ | _ | v <;> simp [Res.Rel, Times]

theorem Buf.wr_times {c : ℝ} {b b' : Buf ℝ} (h : BufTimes c b b') (i : ℕ) {v v' : ℝ} (hv : Times c v v') :
    Rel (BufTimes c) (b.wr i v) (b'.wr i v') := by
  subst h hv
  unfold Buf.wr
  simp only [List.length_map]
  split
  · simp only [Res.Rel, BufTimes, List.map_set, Option.map_some]
  · trivial

theorem interpolPoly_times (c x : ℝ) (tabx taby : List ℝ) (nx : ℕ) :
    Rel (Times c) (interpolPoly x tabx taby nx) (interpolPoly x tabx (taby.map (c * ·)) nx) := by
  unfold interpolPoly
  refine Rel.bind (Q := fun s s' => s'.ixclose = s.ixclose ∧ s'.diff = s.diff ∧ BufTimes c s.c s'.c ∧ BufTimes c s.d s'.d) ?_ ?_
  · unfold polyInit
    refine Rel.bind (Rel.of_eq rfl) ?_
    rintro x0 _ rfl
    refine forRange_rel ⟨rfl, rfl, by simp [BufTimes, malloc], by simp [BufTimes, malloc]⟩ ?_
    rintro ix s s' - - ⟨h1, h2, h3, h4⟩
    refine Rel.bind (Rel.of_eq rfl) ?_
    rintro xi _ rfl
    refine Rel.bind (rd_times c taby ix) fun y y' hy => ?_
    refine Rel.bind (Buf.wr_times h3 ix hy) fun b b' hb => ?_
    refine Rel.bind (Buf.wr_times h4 ix hy) fun d d' hd => ?_
    rw [h2]
    split
    · exact ⟨rfl, rfl, hb, hd⟩
    · exact ⟨h1, rfl, hb, hd⟩
  rintro s s' ⟨h1, -, h3, h4⟩
  rw [h1]
  refine Rel.bind (rd_times c taby _) fun y y' hy => ?_
  refine Rel.bind (Q := fun s s' => s'.ixclose = s.ixclose ∧ Times c s.y s'.y ∧ BufTimes c s.c s'.c ∧ BufTimes c s.d s'.d) ?_
    fun s s' h => (show Times c s.y s'.y from h.2.1)
  refine forRange_rel ⟨rfl, hy, h3, h4⟩ ?_
  rintro jx s s' - - ⟨h1, h2, h3, h4⟩
  unfold polyStep
  refine Rel.bind (Q := fun p p' => BufTimes c p.1 p'.1 ∧ BufTimes c p.2 p'.2) ?_ ?_
  · unfold polyColumn
    refine forRange_rel ⟨h3, h4⟩ ?_
    rintro ix p p' - - ⟨g1, g2⟩
    refine Rel.bind (Buf.rd_times g1 _) fun c1 c1' hc => ?_
    refine Rel.bind (Buf.rd_times g2 _) fun d1 d1' hd => ?_
    refine Rel.bind (Rel.of_eq rfl) ?_
    rintro xi _ rfl
    refine Rel.bind (Rel.of_eq rfl) ?_
    rintro xj _ rfl
    refine Rel.bind (Buf.wr_times g1 _ ?_) fun b b' hb => ?_
    · subst hc hd; unfold Times; ring
    refine Rel.bind (Buf.wr_times g2 _ ?_) fun d d' hd' => ?_
    · subst hc hd; unfold Times; ring
    exact ⟨hb, hd'⟩
  rintro ⟨b, d⟩ ⟨b', d'⟩ ⟨g1, g2⟩
  dsimp only at g1 g2 ⊢
  rw [h1]
  split
  · refine Rel.bind (Buf.rd_times g1 _) fun dy dy' hdy => ?_
    refine ⟨rfl, ?_, g1, g2⟩
    show s'.y + _ = _
    rw [show s'.y = c * s.y from h2, show dy' = c * dy from hdy]; ring
  · refine Rel.bind (Buf.rd_times g2 _) fun dy dy' hdy => ?_
    refine ⟨rfl, ?_, g1, g2⟩
    show s'.y + _ = _
    rw [show s'.y = c * s.y from h2, show dy' = c * dy from hdy]; ring

/-! ## Lookup -/

theorem slopeLoop_scale {c : ℝ} (hc : 0 < c) (t : Pk ℝ) :
    ∀ n ik acc, Rel (fun x y => x = y) (slopeLoop t n ik acc) (slopeLoop (t.scale c) n ik acc)
  | 0, _, _ => rfl
  | n + 1, ik, acc => by
      unfold slopeLoop
      refine Rel.bind (rd_times c t.pk _) fun p p' hp => ?_
      have e : Histo.le p' (Histo.lit 0) = Histo.le p (Histo.lit 0) := by
        rw [Bool.eq_iff_iff]; simp [show p' = c * p from hp, mul_nonpos_iff_pos_imp_nonpos, hc, hc.le]
      rw [e]
      split
      · rfl
      refine Rel.bind (rd_times c t.pk _) fun q q' hq => ?_
      have e : Histo.le q' (Histo.lit 0) = Histo.le q (Histo.lit 0) := by
        rw [Bool.eq_iff_iff]; simp [show q' = c * q from hq, mul_nonpos_iff_pos_imp_nonpos, hc, hc.le]
      rw [e]
      split
      · rfl
      refine Rel.bind (Rel.of_eq rfl) ?_
      rintro kp _ rfl
      refine Rel.bind (Rel.of_eq rfl) ?_
      rintro km _ rfl
      rw [show p' / q' = p / q by rw [show p' = c * p from hp, show q' = c * q from hq]; field_simp]
      exact slopeLoop_scale hc t n (ik + 1) _

/-- The common body of the two extrapolations: slope over `n` nodes from `st`, divided by `d`, from the node `i`. -/
noncomputable def extrapolOf (t : Pk ℝ) (k : ℝ) (n st i : ℕ) (d : ℝ) : Res ℝ := do
  match ← slopeLoop t n st (Histo.lit 0) with
  | none => .ok (Histo.lit 0)
  | some s => do
      let p ← rd t.pk i
      let k0 ← rd t.k i
      .ok (p * Histo.pow (k / k0) (s / d))

theorem extrapolOf_scale {c : ℝ} (hc : 0 < c) (t : Pk ℝ) (k : ℝ) (n st i : ℕ) (d : ℝ) :
    Rel (Times c) (extrapolOf t k n st i d) (extrapolOf (t.scale c) k n st i d) := by
  unfold extrapolOf
  refine Rel.bind (slopeLoop_scale hc t _ _ _) ?_
  rintro (_ | s) _ rfl
  · simp [Res.Rel, Times]
  refine Rel.bind (rd_times c t.pk _) fun p p' hp => ?_
  refine Rel.bind (rd_same t.k i) ?_
  rintro k0 _ rfl
  rw [show p' = c * p from hp]
  exact mul_assoc _ _ _

theorem extrapolLowk_of (t : Pk ℝ) (k : ℝ) : extrapolLowk t k = extrapolOf t k (ofLong (min 15 ((t.nk : ℤ) - 1)) - 1) 1 1
    (Histo.ofNat (subSize (ofLong (min 15 ((t.nk : ℤ) - 1))) 1)) := by
  unfold extrapolLowk extrapolOf
  dsimp only
  congr 1
  funext o
  cases o <;> rfl

theorem extrapolHighk_of (t : Pk ℝ) (k : ℝ) : extrapolHighk t k =
    extrapolOf t k (subSize t.nk 1 - ofLong (max 1 ((subSize t.nk 1 : ℤ) - 15))) (ofLong (max 1 ((subSize t.nk 1 : ℤ) - 15)))
      (subSize t.nk 1) (Histo.ofNat (subSize (subSize t.nk 1) (ofLong (max 1 ((subSize t.nk 1 : ℤ) - 15))))) := by
  unfold extrapolHighk extrapolOf
  dsimp only
  congr 1
  funext o
  cases o <;> rfl

theorem extrapolLowk_scale {c : ℝ} (hc : 0 < c) (t : Pk ℝ) (k : ℝ) :
    Rel (Times c) (extrapolLowk t k) (extrapolLowk (t.scale c) k) := by
  rw [extrapolLowk_of, extrapolLowk_of]
  exact extrapolOf_scale hc t k _ _ _ _

theorem extrapolHighk_scale {c : ℝ} (hc : 0 < c) (t : Pk ℝ) (k : ℝ) :
    Rel (Times c) (extrapolHighk t k) (extrapolHighk (t.scale c) k) := by
  rw [extrapolHighk_of, extrapolHighk_of]
  exact extrapolOf_scale hc t k _ _ _ _

theorem findPkOne_scale {c : ℝ} (hc : 0 < c) (t : Pk ℝ) (i : Interpol) (ks ke : ℝ) (st : ℕ) (k : ℝ) :
    Rel (fun r r' => r'.1 = r.1 ∧ Times c r.2 r'.2) (findPkOne t i ks ke st k) (findPkOne (t.scale c) i ks ke st k) := by
  unfold findPkOne
  rw [show (t.scale c).nk = t.nk from rfl, show (t.scale c).k = t.k from rfl]
  dsimp only
  generalize subSize t.nk 1 = m
  by_cases h : Histo.lt ke k = true
  · rw [if_pos h, if_pos h]
    refine Rel.bind (extrapolHighk_scale hc t k) ?_
    intro v v' hv
    exact ⟨rfl, hv⟩
  rw [if_neg h, if_neg h]
  by_cases h : Histo.lt k ks = true
  · rw [if_pos h, if_pos h]
    refine Rel.bind (extrapolLowk_scale hc t k) ?_
    intro v v' hv
    exact ⟨rfl, hv⟩
  rw [if_neg h, if_neg h]
  refine Rel.bind (Rel.of_eq rfl) ?_
  rintro ind _ rfl
  cases i with
  | poly =>
    refine Rel.bind (Q := Times c) ?_ fun v v' hv => ⟨rfl, hv⟩
    have := interpolPoly_times c k (t.k.drop (ofLong (max 0 ((ind : ℤ) - 2)))) (t.pk.drop (ofLong (max 0 ((ind : ℤ) - 2))))
      (min m (ind + 2) - ofLong (max 0 ((ind : ℤ) - 2)) + 1)
    rwa [List.map_drop] at this
  | lin =>
    refine Rel.bind (Rel.of_eq rfl) ?_
    rintro k0 _ rfl
    refine Rel.bind (Rel.of_eq rfl) ?_
    rintro k1 _ rfl
    refine Rel.bind (rd_times c t.pk _) fun p p' hp => ?_
    refine Rel.bind (rd_times c t.pk _) fun q q' hq => ?_
    refine ⟨rfl, ?_⟩
    rw [show p' = c * p from hp, show q' = c * q from hq]
    simp only [Times, interpolLin]
    ring

theorem findPkLoop_scale {c : ℝ} (hc : 0 < c) (t : Pk ℝ) (i : Interpol) (ks ke : ℝ) :
    ∀ (l : List ℝ) (st : ℕ), Rel (fun r r' => r' = r.map (c * ·)) (findPkLoop t i ks ke st l) (findPkLoop (t.scale c) i ks ke st l)
  | [], _ => rfl
  | k :: l, st => by
      unfold findPkLoop
      refine Rel.bind (findPkOne_scale hc t i ks ke st k) ?_
      rintro ⟨st1, v⟩ ⟨st2, v'⟩ ⟨h1, h2⟩
      dsimp only at h1 h2
      subst h1 h2
      refine Rel.bind (findPkLoop_scale hc t i ks ke l _) ?_
      rintro vs _ rfl
      simp [Res.Rel]

/-- The lookup is homogeneous. -/
theorem findPk_scale {c : ℝ} (hc : 0 < c) (t : Pk ℝ) (ks : List ℝ) (i : Interpol) :
    Rel (fun r r' => r' = r.map (c * ·)) (findPk t ks i) (findPk (t.scale c) ks i) := by
  unfold findPk
  refine Rel.bind (Rel.of_eq rfl) ?_
  rintro k0 _ rfl
  refine Rel.bind (Rel.of_eq rfl) ?_
  rintro k1 _ rfl
  exact findPkLoop_scale hc t i _ _ ks 0

theorem look_scale {c : ℝ} (hc : 0 < c) (t : Pk ℝ) (i : Interpol) (k : ℝ) : Rel (Times c) (look t i k) (look (t.scale c) i k) := by
  unfold look
  refine Rel.bind (findPk_scale hc t [k] i) ?_
  rintro l _ rfl
  exact rd_times c l 0

/-! ## Displacement variance -/

theorem sigmaInner_scale (c : ℝ) (t : Pk ℝ) (kmax : ℝ) (n : ℕ) :
    ∀ ik acc, Rel (fun r r' => r'.1 = r.1 ∧ Times c r.2.1 r'.2.1 ∧ r'.2.2 = r.2.2.map (c * ·)) (sigmaInner t kmax n ik acc)
      (sigmaInner (t.scale c) kmax n ik (c * acc)) := by
  induction n with
  | zero => exact fun _ _ => ⟨rfl, rfl, rfl⟩
  | succ n ih =>
    intro ik acc
    simp only [sigmaInner]
    rw [show (t.scale c).nk = t.nk from rfl, show (t.scale c).k = t.k from rfl]
    generalize subSize t.nk 1 = m
    by_cases h : ik < m
    · rw [if_pos h, if_pos h]
      refine Rel.bind (rd_same _ _) ?_
      rintro k1 _ rfl
      refine Rel.bind (rd_same _ _) ?_
      rintro k0 _ rfl
      refine Rel.bind (rd_times c t.pk _) fun p p' hp => ?_
      refine Rel.bind (rd_times c t.pk _) fun q q' hq => ?_
      rw [show p' = c * p from hp, show q' = c * q from hq]
      split
      · refine ⟨rfl, rfl, ?_⟩
        simp only [Option.map_some, Option.some.injEq, interpolLin]
        ring
      · have := ih (ik + 1) (acc + (p + q) * (k1 - k0))
        rwa [show c * (acc + (p + q) * (k1 - k0)) = c * acc + (c * p + c * q) * (k1 - k0) by ring] at this
    · rw [if_neg h, if_neg h]
      exact ⟨rfl, rfl, rfl⟩

theorem sigmaLoop_scale (c : ℝ) (t : Pk ℝ) (uv : ℝ) :
    ∀ (ks : List ℝ) (ik : ℕ) (acc : ℝ), Rel (fun r r' => r' = r.map (c * ·)) (sigmaLoop t uv ik acc ks)
      (sigmaLoop (t.scale c) uv ik (c * acc) ks)
  | [], _, _ => rfl
  | k :: ks, ik, acc => by
      unfold sigmaLoop
      rw [show (t.scale c).nk = t.nk from rfl, show (t.scale c).k = t.k from rfl]
      dsimp only
      refine Rel.bind (Rel.of_eq rfl) ?_
      rintro k0 _ rfl
      split
      · refine Rel.bind (sigmaLoop_scale c t uv ks ik acc) ?_
        rintro vs _ rfl
        simp [Res.Rel]
      refine Rel.bind (sigmaInner_scale c t _ _ ik acc) ?_
      rintro ⟨i1, a1, w1⟩ ⟨i2, a2, w2⟩ ⟨h1, h2, h3⟩
      dsimp only at h1 h2 h3 ⊢
      unfold Times at h2
      subst h1 h2 h3
      refine Rel.bind (Q := Times c) ?_ fun v v' hv => ?_
      · unfold sigmaWritten
        rw [show (t.scale c).nk = t.nk from rfl]
        generalize subSize t.nk 1 = m
        split
        · simp only [Res.Rel, Times]; ring
        · cases w1 <;> simp [Res.Rel, Times]
      refine Rel.bind (sigmaLoop_scale c t uv ks i2 a1) ?_
      rintro vs _ rfl
      simp [Res.Rel, show v' = c * v from hv]

/-- The displacement variance is homogeneous. -/
theorem runningSigmad2_scale (c : ℝ) (t : Pk ℝ) (ks : List ℝ) (uv : ℝ) :
    Rel (fun r r' => r' = r.map (c * ·)) (runningSigmad2 t ks uv) (runningSigmad2 (t.scale c) ks uv) := by
  unfold runningSigmad2
  have := sigmaLoop_scale c t uv ks 0 (Histo.lit 0)
  rwa [show c * Histo.lit 0 = (Histo.lit 0 : ℝ) by simp] at this

/-! ## Quadratures -/

theorem initGLQ_scale {c : ℝ} (hc : 0 < c) (rt : ℕ → ℝ × ℝ) (t : Pk ℝ) (p : Precision ℝ) :
    Rel (fun g g' => g' = g.scale c) (initGLQ rt t p) (initGLQ rt (t.scale c) p) := by
  unfold initGLQ
  refine Rel.bind (Rel.of_eq rfl) ?_
  rintro ⟨a, b⟩ _ rfl
  dsimp only
  refine Rel.bind (Rel.of_eq rfl) ?_
  rintro ⟨x, w⟩ _ rfl
  dsimp only
  refine Rel.bind (Rel.of_eq rfl) ?_
  rintro x' _ rfl
  refine Rel.bind (Rel.of_eq rfl) ?_
  rintro w' _ rfl
  refine Rel.bind (findPk_scale hc t _ _) ?_
  rintro pk _ rfl
  rfl

theorem updateGLQ_scale (c : ℝ) (g : GLQ ℝ) (k : ℝ) : updateGLQ (g.scale c) k = (updateGLQ g k).scale c := rfl

theorem sumLoop_times {c : ℝ} {n : ℕ} {f f' : ℕ → Res ℝ} (h : ∀ i, Rel (Times c) (f i) (f' i)) :
    Rel (Times c) (sumLoop n f) (sumLoop n f') := by
  unfold sumLoop
  refine forRange_rel (by simp [Times]) ?_
  intro i s s' _ _ hs
  refine Rel.bind (h i) fun v v' hv => ?_
  show s' + v' = c * (s + v)
  rw [show s' = c * s from hs, show v' = c * v from hv]; ring

theorem gamma1OneLoop_scale (c : ℝ) (a : Field) (g : GLQ ℝ) (k : ℝ) :
    Rel (Times c) (gamma1OneLoop a g k) (gamma1OneLoop a (g.scale c) k) := by
  unfold gamma1OneLoop
  rw [updateGLQ_scale]
  generalize updateGLQ g k = g
  unfold gamma1Loop1
  refine Rel.bind (Q := Times c) (sumLoop_times fun i => ?_) fun v v' hv => ?_
  · refine Rel.bind (Rel.of_eq rfl) ?_
    rintro x _ rfl
    refine Rel.bind (rd_times c g.pk i) fun p p' hp => ?_
    refine Rel.bind (Rel.of_eq rfl) ?_
    rintro w _ rfl
    rw [show p' = c * p from hp]
    cases a <;> simp only [Res.Rel, Times] <;> ring
  · rw [show v' = c * v from hv]; simp only [Res.Rel, Times]; ring

theorem gamma1TwoLoop_scale (c : ℝ) (a : Field) (g : GLQ ℝ) (k : ℝ) :
    Rel (Times (c ^ 2)) (gamma1TwoLoop a g k) (gamma1TwoLoop a (g.scale c) k) := by
  unfold gamma1TwoLoop
  rw [updateGLQ_scale]
  generalize updateGLQ g k = g
  refine Rel.bind (Q := Times (c ^ 2)) (sumLoop_times fun i => ?_) fun v v' hv => ?_
  · refine Rel.bind (Rel.of_eq rfl) ?_
    rintro q1 _ rfl
    refine Rel.bind (Q := Times c) (sumLoop_times fun j => ?_) fun v v' hv => ?_
    · refine Rel.bind (Rel.of_eq rfl) ?_
      rintro q2 _ rfl
      refine Rel.bind (Rel.of_eq rfl) ?_
      rintro w _ rfl
      refine Rel.bind (rd_times c g.pk j) fun p p' hp => ?_
      rw [show p' = c * p from hp]
      simp only [Res.Rel, Times, GLQ.scale]
      ring
    refine Rel.bind (Rel.of_eq rfl) ?_
    rintro w _ rfl
    refine Rel.bind (rd_times c g.pk i) fun p p' hp => ?_
    rw [show p' = c * p from hp, show v' = c * v from hv]
    simp only [Res.Rel, Times]
    ring
  · rw [show v' = c ^ 2 * v from hv]; simp only [Res.Rel, Times]; ring

theorem gamma2OneLoop_scale (c : ℝ) (a : Field) (g : GLQ ℝ) (k1 k2 k3 : ℝ) :
    Rel (Times c) (gamma2OneLoop a g k1 k2 k3) (gamma2OneLoop a (g.scale c) k1 k2 k3) := by
  unfold gamma2OneLoop
  refine Rel.bind (Q := Times c) (sumLoop_times fun i => ?_) fun v v' hv => ?_
  · refine Rel.bind (Rel.of_eq rfl) ?_
    rintro q _ rfl
    refine Rel.bind (Rel.of_eq rfl) ?_
    rintro w _ rfl
    refine Rel.bind (rd_times c g.pk i) fun p p' hp => ?_
    rw [show p' = c * p from hp]
    simp only [Res.Rel, Times]
    ring
  · rw [show v' = c * v from hv]; simp only [Res.Rel, Times]; ring

/-- The double loop with an integrand whose component `i` is multiplied by `d i`. -/
theorem quadLoop_times {ι : Type} (d : ι → ℝ) (c : ℝ) (half : Bool) (g : GLQ ℝ) (gm : GLMu ℝ) {kern kern' : ℕ → ℝ → Res (ι → ℝ)}
    {extra extra' : ℕ → Res (ι → ℝ)} (wt : ℝ → ℝ → ℝ)
    (hk : ∀ iq mu, Rel (fun f f' => ∀ i, Times (d i) (f i) (f' i)) (kern iq mu) (kern' iq mu))
    (hx : ∀ iq, Rel (fun f f' => ∀ i, Times (d i) (f i) (f' i)) (extra iq) (extra' iq)) :
    Rel (fun r r' => r'.1 = r.1 ∧ ∀ i, Times (d i) (r.2 i) (r'.2 i)) (quadLoop half g gm kern extra wt)
      (quadLoop half (g.scale c) gm kern' extra' wt) := by
  unfold quadLoop
  refine forRange_rel ⟨rfl, fun i => by simp [Times]⟩ ?_
  rintro iq ⟨m, s⟩ ⟨m', s'⟩ - - ⟨h1, h2⟩
  dsimp only at h1 h2
  subst h1
  refine Rel.bind (Rel.of_eq rfl) ?_
  rintro x _ rfl
  refine Rel.bind (Rel.of_eq rfl) ?_
  rintro r _ rfl
  rcases r with _ | ⟨lo, hi⟩
  · exact ⟨rfl, h2⟩
  dsimp only
  refine Rel.bind (Q := fun f f' => ∀ i, Times (d i) (f i) (f' i)) ?_ fun f f' hf => ?_
  · refine forRange_rel (fun i => by simp [Times]) ?_
    intro imu f f' _ _ hf
    refine Rel.bind (Rel.of_eq rfl) ?_
    rintro mu _ rfl
    refine Rel.bind (hk iq mu) fun v v' hv => ?_
    refine Rel.bind (Rel.of_eq rfl) ?_
    rintro w _ rfl
    intro i
    show f' i + v' i * w = d i * (f i + v i * w)
    rw [show f' i = d i * f i from hf i, show v' i = d i * v i from hv i]; ring
  refine Rel.bind (hx iq) fun v v' hv => ?_
  refine Rel.bind (Rel.of_eq rfl) ?_
  rintro w _ rfl
  refine ⟨rfl, fun i => ?_⟩
  show s' i + (f' i + v' i) * wt x w = d i * (s i + (f i + v i) * wt x w)
  rw [show f' i = d i * f i from hf i, show v' i = d i * v i from hv i, show s' i = d i * s i from h2 i]; ring

theorem noExtra_times {ι : Type} (d : ι → ℝ) (iq : ℕ) :
    Rel (fun f f' => ∀ i, Times (d i) (f i) (f' i)) (noExtra (ι := ι) iq) (noExtra iq) := fun i => by simp [Times]

/-- Pairs of tables left by a call, and the value. -/
def CallTimes (c d : ℝ) (r r' : (GLQ ℝ × GLMu ℝ) × ℝ) : Prop := r'.1 = (r.1.1.scale c, r.1.2) ∧ Times d r.2 r'.2

/-- Pairs of tables left by a call, and the values. -/
def CallsTimes {n : ℕ} (c : ℝ) (d : Fin n → ℝ) (r r' : (GLQ ℝ × GLMu ℝ) × (Fin n → ℝ)) : Prop :=
  r'.1 = (r.1.1.scale c, r.1.2) ∧ ∀ i, Times (d i) (r.2 i) (r'.2 i)

theorem calcGamma2Tree_scale {c : ℝ} (hc : 0 < c) (t : Pk ℝ) (i : Interpol) (a b : Field) (g : GLQ ℝ) (gm : GLMu ℝ) (k : ℝ) :
    Rel (CallTimes c (c ^ 2)) (calcGamma2Tree t i a b g gm k) (calcGamma2Tree (t.scale c) i a b (g.scale c) gm k) := by
  unfold calcGamma2Tree
  rw [updateGLQ_scale]
  generalize updateGLQ g k = g
  dsimp only
  refine Rel.bind (quadLoop_times (fun _ => c ^ 2) c true g gm _ (fun iq mu => ?_) (noExtra_times _)) ?_
  · unfold kernelGamma2Tree
    refine Rel.bind (Rel.of_eq rfl) ?_
    rintro x _ rfl
    refine Rel.bind (Rel.of_eq rfl) ?_
    rintro q _ rfl
    refine Rel.bind (rd_times c g.pk iq) fun p p' hp => ?_
    refine Rel.bind (look_scale hc t i _) fun r r' hr => ?_
    intro _
    rw [show p' = c * p from hp, show r' = c * r from hr]
    simp only [Times, GLQ.scale]
    ring
  rintro ⟨m, s⟩ ⟨m', s'⟩ ⟨h1, h2⟩
  dsimp only at h1 h2
  subst h1
  refine ⟨rfl, ?_⟩
  show s' () * _ = _
  rw [show s' () = c ^ 2 * s () from h2 ()]; ring

theorem gamma2StdPT_scale (c : ℝ) (gd gt : GLQ ℝ) (a : Field) (k1 k2 k3 : ℝ) :
    Rel (fun x y => x = y) (gamma2StdPT gd gt a 0 k1 k2 k3) (gamma2StdPT (gd.scale c) (gt.scale c) a 0 k1 k2 k3) ∧
    Rel (Times c) (gamma2StdPT gd gt a 1 k1 k2 k3) (gamma2StdPT (gd.scale c) (gt.scale c) a 1 k1 k2 k3) := by
  refine ⟨rfl, ?_⟩
  unfold gamma2StdPT
  cases a
  · exact gamma2OneLoop_scale c ..
  · exact gamma2OneLoop_scale c ..

theorem other_times {c : ℝ} {a b : Field} {va va' : ℝ} {r r' : Res ℝ} (ha : Times c va va') (h : Rel (Times c) r r') :
    Rel (Times c) (other a b va r) (other a b va' r') := by
  unfold other
  split
  · exact ha
  · exact h

theorem calcGamma2Loop_scale {c : ℝ} (hc : 0 < c) (t : Pk ℝ) (i : Interpol) (gd gt : GLQ ℝ) (a b : Field) (g : GLQ ℝ) (gm : GLMu ℝ)
    (k : ℝ) : Rel (CallsTimes c ![c ^ 2, c ^ 3, c ^ 4]) (calcGamma2Loop t i gd gt a b g gm k)
      (calcGamma2Loop (t.scale c) i (gd.scale c) (gt.scale c) a b (g.scale c) gm k) := by
  unfold calcGamma2Loop
  rw [updateGLQ_scale]
  generalize updateGLQ g k = g
  dsimp only
  refine Rel.bind (quadLoop_times ![c ^ 2, c ^ 3, c ^ 4] c true g gm _ (fun iq mu => ?_) (noExtra_times _)) ?_
  · unfold kernelGamma2Loop
    refine Rel.bind (Rel.of_eq rfl) ?_
    rintro x _ rfl
    refine Rel.bind (Rel.of_eq rfl) ?_
    rintro q _ rfl
    refine Rel.bind (rd_times c g.pk iq) fun p p' hp => ?_
    refine Rel.bind (look_scale hc t i _) fun r r' hr => ?_
    refine Rel.bind (gamma2StdPT_scale c ..).1 ?_
    rintro at' _ rfl
    refine Rel.bind (gamma2StdPT_scale c ..).2 fun a1 a1' ha => ?_
    refine Rel.bind (Q := fun x y => x = y) ?_ ?_
    · unfold other
      split
      · rfl
      · exact (gamma2StdPT_scale c ..).1
    rintro bt _ rfl
    refine Rel.bind (other_times ha (gamma2StdPT_scale c ..).2) fun b1 b1' hb => ?_
    rw [show p' = c * p from hp, show r' = c * r from hr, show a1' = c * a1 from ha, show b1' = c * b1 from hb]
    intro j
    fin_cases j
    · show _ = c ^ 2 * _; dsimp; ring
    · show _ = c ^ 3 * _; dsimp; ring
    · show _ = c ^ 4 * _; dsimp; ring
  rintro ⟨m, s⟩ ⟨m', s'⟩ ⟨h1, h2⟩
  dsimp only at h1 h2
  subst h1
  refine ⟨rfl, fun j => ?_⟩
  show s' j * _ = _
  rw [show s' j = _ * s j from h2 j]; ring

theorem calcGamma1TwoLoop_scale (c : ℝ) (a b : Field) (g1 g2 : GLQ ℝ) (k : ℝ) :
    Rel (fun r r' => Times c r.1 r'.1 ∧ Times (c ^ 2) r.2.1 r'.2.1 ∧ Times c r.2.2.1 r'.2.2.1 ∧ Times (c ^ 2) r.2.2.2 r'.2.2.2)
      (calcGamma1TwoLoop a b g1 g2 k) (calcGamma1TwoLoop a b (g1.scale c) (g2.scale c) k) := by
  unfold calcGamma1TwoLoop
  split
  · refine Rel.bind (gamma1OneLoop_scale c ..) fun a1 a1' h1 => ?_
    refine Rel.bind (gamma1TwoLoop_scale c ..) fun a2 a2' h2 => ?_
    rw [show a1' = c * a1 from h1, show a2' = c ^ 2 * a2 from h2]
    refine ⟨rfl, ?_, rfl, ?_⟩ <;> simp only [Times] <;> ring
  · refine Rel.bind (gamma1OneLoop_scale c ..) fun a1 a1' h1 => ?_
    refine Rel.bind (gamma1TwoLoop_scale c ..) fun a2 a2' h2 => ?_
    refine Rel.bind (gamma1OneLoop_scale c ..) fun b1 b1' h3 => ?_
    refine Rel.bind (gamma1TwoLoop_scale c ..) fun b2 b2' h4 => ?_
    rw [show a1' = c * a1 from h1, show a2' = c ^ 2 * a2 from h2, show b1' = c * b1 from h3, show b2' = c ^ 2 * b2 from h4]
    refine ⟨rfl, ?_, rfl, ?_⟩ <;> simp only [Times] <;> ring

/-! ## Third order -/

theorem kernelGamma3_scale {c : ℝ} (hc : 0 < c) (t : Pk ℝ) (i : Interpol) (a b : Field) (k qmin qmax : ℝ) (xx : Fin 5 → ℝ) :
    Rel (Times (c ^ 3)) (kernelGamma3 t i a b k qmin qmax xx) (kernelGamma3 (t.scale c) i a b k qmin qmax xx) := by
  unfold kernelGamma3
  dsimp only
  split
  · refine Rel.bind (look_scale hc t i _) fun p p' hp => ?_
    refine Rel.bind (look_scale hc t i _) fun q q' hq => ?_
    refine Rel.bind (look_scale hc t i _) fun r r' hr => ?_
    rw [show p' = c * p from hp, show q' = c * q from hq, show r' = c * r from hr]
    simp only [Res.Rel, Times]
    ring
  · simp [Res.Rel, Times]

/-! ## Bias, A and B -/

/-- A bias integrand of degree `n` in the spectrum. -/
def BiasKernel.Degree (kn : BiasKernel) (n : ℕ) : Prop :=
  ∀ (a : Field) (q kq mu m c p r : ℝ), kn a q kq mu m (c * p) (c * r) = c ^ n * kn a q kq mu m p r

theorem calcBias_scale {c : ℝ} (hc : 0 < c) (t : Pk ℝ) (i : Interpol) (a : Field) {kn : BiasKernel} {n : ℕ} (hkn : kn.Degree n)
    (half : Bool) (g : GLQ ℝ) (gm : GLMu ℝ) (k : ℝ) :
    Rel (CallTimes c (c ^ n)) (calcBias t i a kn half g gm k) (calcBias (t.scale c) i a kn half (g.scale c) gm k) := by
  unfold calcBias
  rw [updateGLQ_scale]
  generalize updateGLQ g k = g
  dsimp only
  refine Rel.bind (quadLoop_times (fun _ => c ^ n) c half g gm _ (fun iq mu => ?_) (noExtra_times _)) ?_
  · unfold kernelPkBias
    refine Rel.bind (Rel.of_eq rfl) ?_
    rintro x _ rfl
    refine Rel.bind (Rel.of_eq rfl) ?_
    rintro q _ rfl
    refine Rel.bind (rd_times c g.pk iq) fun p p' hp => ?_
    refine Rel.bind (look_scale hc t i _) fun r r' hr => ?_
    intro _
    rw [show p' = c * p from hp, show r' = c * r from hr]
    exact hkn ..
  rintro ⟨m, s⟩ ⟨m', s'⟩ ⟨h1, h2⟩
  dsimp only at h1 h2
  subst h1
  refine ⟨rfl, ?_⟩
  show _ * s' () = _
  rw [show s' () = c ^ n * s () from h2 ()]; ring

theorem calcA1_scale {c : ℝ} (hc : 0 < c) (t : Pk ℝ) (i j : Interpol) (g : GLQ ℝ) (gm : GLMu ℝ) (k : ℝ) :
    Rel (CallsTimes c fun _ => c ^ 2) (calcA1 t i j g gm k) (calcA1 (t.scale c) i j (g.scale c) gm k) := by
  unfold calcA1
  rw [updateGLQ_scale]
  generalize updateGLQ g k = g
  dsimp only
  refine Rel.bind (look_scale hc t i k) fun pk pk' hpk => ?_
  refine Rel.bind (quadLoop_times (fun _ => c ^ 2) c false g gm _ (fun iq mu => ?_) fun iq => ?_) ?_
  · unfold kernelA1
    refine Rel.bind (Rel.of_eq rfl) ?_
    rintro x _ rfl
    refine Rel.bind (rd_times c g.pk iq) fun p p' hp => ?_
    refine Rel.bind (look_scale hc t j _) fun r r' hr => ?_
    intro l
    rw [show p' = c * p from hp, show r' = c * r from hr, show pk' = c * pk from hpk]
    simp only [Times]
    ring
  · unfold kernelA1a
    refine Rel.bind (Rel.of_eq rfl) ?_
    rintro x _ rfl
    refine Rel.bind (rd_times c g.pk iq) fun p p' hp => ?_
    intro l
    rw [show p' = c * p from hp, show pk' = c * pk from hpk]
    simp only [Times]
    ring
  rintro ⟨m, s⟩ ⟨m', s'⟩ ⟨h1, h2⟩
  dsimp only at h1 h2
  subst h1
  refine ⟨rfl, fun j => ?_⟩
  show s' j * _ = _
  rw [show s' j = _ * s j from h2 j]; ring

theorem calcB_scale {c : ℝ} (hc : 0 < c) (dt tt : Pk ℝ) (i : Interpol) (g : GLQ ℝ) (gm : GLMu ℝ) (k : ℝ) :
    Rel (CallsTimes c fun _ => c ^ 2) (calcB dt tt i g gm k) (calcB (dt.scale c) (tt.scale c) i (g.scale c) gm k) := by
  unfold calcB
  rw [updateGLQ_scale]
  generalize updateGLQ g k = g
  dsimp only
  refine Rel.bind (quadLoop_times (fun _ => c ^ 2) c true g gm _ (fun iq mu => ?_) (noExtra_times _)) ?_
  · unfold kernelB
    refine Rel.bind (Rel.of_eq rfl) ?_
    rintro x _ rfl
    refine Rel.bind (Rel.of_eq rfl) ?_
    rintro q _ rfl
    refine Rel.bind (look_scale hc dt i _) fun p p' hp => ?_
    refine Rel.bind (look_scale hc dt i _) fun r r' hr => ?_
    refine Rel.bind (look_scale hc tt i _) fun u u' hu => ?_
    refine Rel.bind (look_scale hc tt i _) fun v v' hv => ?_
    rw [show p' = c * p from hp, show r' = c * r from hr, show u' = c * u from hu, show v' = c * v from hv]
    intro l
    have e : specB (c * p) (c * u) (c * r) (c * v) l = c ^ 2 * specB p u r v l := by
      fin_cases l <;> simp only [specB] <;> dsimp <;> ring
    simp only [Times, e]
    ring
  rintro ⟨m, s⟩ ⟨m', s'⟩ ⟨h1, h2⟩
  dsimp only at h1 h2
  subst h1
  refine ⟨rfl, fun j => ?_⟩
  show s' j * _ = _
  rw [show s' j = _ * s j from h2 j]; ring

end Verif
