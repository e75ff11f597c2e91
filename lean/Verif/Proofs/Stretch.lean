import Verif.Proofs.Scale
import Verif.Proofs.Gamma2Deg

/-!
# Multiplying every wavenumber by a constant

The same tabulated powers at wavenumbers multiplied by `u`.
-/

namespace Verif

open Res (Rel)

attribute [local irreducible] ofLong subSize sizeMod

/-- The table with every wavenumber multiplied by `u`. -/
noncomputable def Pk.stretch (u : ℝ) (t : Pk ℝ) : Pk ℝ := { t with k := t.k.map (u * ·) }

/-- The setting with the range multiplied by `u`. -/
noncomputable def Precision.stretch (u : ℝ) (p : Precision ℝ) : Precision ℝ := { p with min := u * p.min, max := u * p.max }

/-- The quadrature table with the nodes and the mode multiplied by `u`; their ratios are the same. -/
noncomputable def GLQ.stretch (u : ℝ) (g : GLQ ℝ) : GLQ ℝ := { g with k := u * g.k, q := g.q.map (u * ·) }

/-- The nodes of `g'` are those of `g` multiplied by `u`; weights and powers are the same. -/
def GLQ.Stretched (u : ℝ) (g g' : GLQ ℝ) : Prop := g'.nq = g.nq ∧ g'.q = g.q.map (u * ·) ∧ g'.w = g.w ∧ g'.pk = g.pk

theorem GLQ.stretched_stretch (u : ℝ) (g : GLQ ℝ) : g.Stretched u (g.stretch u) := ⟨rfl, rfl, rfl, rfl⟩

variable {u : ℝ} (hu : 0 < u)

include hu

theorem lt_unit (a b : ℝ) : Histo.lt (u * a) (u * b) = Histo.lt a b := by rw [Bool.eq_iff_iff]; simp [hu]

theorem le_unit (a : ℝ) : Histo.le (u * a) (Histo.lit 0) = Histo.le a (Histo.lit 0) := by
  rw [Bool.eq_iff_iff]; simp [mul_nonpos_iff_pos_imp_nonpos, hu, hu.le]

theorem updateGLQ_stretch {g g' : GLQ ℝ} (h : g.Stretched u g') (k : ℝ) : updateGLQ g' (u * k) = (updateGLQ g k).stretch u := by
  obtain ⟨h1, h2, h3, h4⟩ := h
  cases g'
  dsimp only at h1 h2 h3 h4
  subst h1 h2 h3 h4
  unfold updateGLQ GLQ.stretch
  simp only [List.map_map]
  congr 2
  funext q
  exact mul_div_mul_left _ _ hu.ne'

/-! ## Interpolation -/

theorem dichAux_stretch (x : ℝ) (tab : List ℝ) :
    ∀ (n mn mx : ℕ), Rel (fun x y => x = y) (dichAux x tab n mn mx) (dichAux (u * x) (tab.map (u * ·)) n mn mx)
  | 0, _, _ => trivial
  | n + 1, mn, mx => by
      unfold dichAux
      split
      · rfl
      refine Rel.bind (rd_times u tab _) ?_
      rintro t _ rfl
      rw [lt_unit hu, lt_unit hu]
      split
      · exact dichAux_stretch ..
      split
      · exact dichAux_stretch ..
      · rfl

theorem interpolPoly_stretch (x : ℝ) (tabx taby : List ℝ) (nx : ℕ) :
    Rel (fun x y => x = y) (interpolPoly x tabx taby nx) (interpolPoly (u * x) (tabx.map (u * ·)) taby nx) := by
  unfold interpolPoly
  refine Rel.bind (Q := fun s s' => s'.ixclose = s.ixclose ∧ s'.c = s.c ∧ s'.d = s.d) ?_ ?_
  · unfold polyInit
    refine Rel.bind (rd_times u tabx _) ?_
    rintro x0 _ rfl
    have ab : ∀ y, Histo.abs (u * x - u * y) = u * Histo.abs (x - y) := fun y => by
      simp only [abs_real]; rw [← mul_sub, abs_mul, abs_of_pos hu]
    have : ∀ {r r' : Res (PolyInit ℝ)}, Rel (fun s s' => s'.ixclose = s.ixclose ∧ Times u s.diff s'.diff ∧ s'.c = s.c ∧ s'.d = s.d) r r' →
        Rel (fun s s' => s'.ixclose = s.ixclose ∧ s'.c = s.c ∧ s'.d = s.d) r r' := by
      intro r r' h
      cases r <;> cases r' <;> simp only [Res.Rel] at h ⊢
      exact ⟨h.1, h.2.2⟩
    refine this (forRange_rel ⟨rfl, ab x0, rfl, rfl⟩ ?_)
    rintro ix s s' - - ⟨h1, h2, h3, h4⟩
    refine Rel.bind (rd_times u tabx _) ?_
    rintro xi _ rfl
    refine Rel.bind (Rel.of_eq rfl) ?_
    rintro y _ rfl
    rw [h3, h4]
    refine Rel.bind (Rel.of_eq rfl) ?_
    rintro c _ rfl
    refine Rel.bind (Rel.of_eq rfl) ?_
    rintro d _ rfl
    rw [h2, ab, lt_unit hu]
    split
    · exact ⟨rfl, rfl, rfl, rfl⟩
    · exact ⟨h1, rfl, rfl, rfl⟩
  rintro s s' ⟨h1, h3, h4⟩
  rw [h1, h3, h4]
  refine Rel.bind (Rel.of_eq rfl) ?_
  rintro y _ rfl
  refine Rel.bind (Q := fun s s' => s = s') ?_ ?_
  · refine forRange_rel rfl ?_
    rintro jx s _ - - rfl
    unfold polyStep
    refine Rel.bind (Q := fun s s' => s = s') ?_ ?_
    · unfold polyColumn
      refine forRange_rel rfl ?_
      rintro ix p _ - - rfl
      refine Rel.bind (Rel.of_eq rfl) ?_
      rintro c1 _ rfl
      refine Rel.bind (Rel.of_eq rfl) ?_
      rintro d1 _ rfl
      refine Rel.bind (rd_times u tabx _) ?_
      rintro xi _ rfl
      refine Rel.bind (rd_times u tabx _) ?_
      rintro xj _ rfl
      have e : ∀ z, (u * z - u * x) * ((c1 - d1) / (u * xi - u * xj)) = (z - x) * ((c1 - d1) / (xi - xj)) := by
        intro z
        rw [← mul_sub, ← mul_sub, mul_div_assoc', mul_assoc, mul_div_mul_left _ _ hu.ne', mul_div_assoc]
      dsimp only
      rw [e, e]
      refine Rel.bind (Rel.of_eq rfl) ?_
      rintro c _ rfl
      refine Rel.bind (Rel.of_eq rfl) ?_
      rintro d _ rfl
      rfl
    rintro p _ rfl
    exact Rel.of_eq rfl
  · rintro s _ rfl
    rfl

theorem slopeLoop_stretch (t : Pk ℝ) : ∀ n ik acc, Rel (fun x y => x = y) (slopeLoop t n ik acc) (slopeLoop (t.stretch u) n ik acc)
  | 0, _, _ => rfl
  | n + 1, ik, acc => by
      unfold slopeLoop
      refine Rel.bind (Rel.of_eq rfl) ?_
      rintro p _ rfl
      split
      · rfl
      refine Rel.bind (Rel.of_eq rfl) ?_
      rintro q _ rfl
      split
      · rfl
      refine Rel.bind (rd_times u t.k _) ?_
      rintro kp _ rfl
      refine Rel.bind (rd_times u t.k _) ?_
      rintro km _ rfl
      rw [mul_div_mul_left _ _ hu.ne']
      exact slopeLoop_stretch t n (ik + 1) _

theorem extrapolOf_stretch (t : Pk ℝ) (k : ℝ) (n st i : ℕ) (d : ℝ) :
    Rel (fun x y => x = y) (extrapolOf t k n st i d) (extrapolOf (t.stretch u) (u * k) n st i d) := by
  unfold extrapolOf
  refine Rel.bind (slopeLoop_stretch hu t _ _ _) ?_
  rintro (_ | s) _ rfl
  · rfl
  refine Rel.bind (Rel.of_eq rfl) ?_
  rintro p _ rfl
  refine Rel.bind (rd_times u t.k i) ?_
  rintro k0 _ rfl
  rw [mul_div_mul_left _ _ hu.ne']
  rfl

theorem findPkOne_stretch (t : Pk ℝ) (i : Interpol) (ks ke : ℝ) (st : ℕ) (k : ℝ) :
    Rel (fun r r' => r = r') (findPkOne t i ks ke st k) (findPkOne (t.stretch u) i (u * ks) (u * ke) st (u * k)) := by
  unfold findPkOne
  rw [lt_unit hu, lt_unit hu, extrapolLowk_of, extrapolLowk_of, extrapolHighk_of, extrapolHighk_of,
    show (t.stretch u).nk = t.nk from rfl]
  dsimp only
  generalize subSize t.nk 1 = m
  split
  · refine Rel.bind (extrapolOf_stretch hu t k _ _ _ _) ?_
    rintro v _ rfl
    rfl
  split
  · refine Rel.bind (extrapolOf_stretch hu t k _ _ _ _) ?_
    rintro v _ rfl
    rfl
  unfold dichotomy
  refine Rel.bind (dichAux_stretch hu k t.k _ _ _) ?_
  rintro ind _ rfl
  cases i with
  | poly =>
    refine Rel.bind (Q := fun x y => x = y) ?_ ?_
    · have := interpolPoly_stretch hu k (t.k.drop (ofLong (max 0 ((ind : ℤ) - 2)))) (t.pk.drop (ofLong (max 0 ((ind : ℤ) - 2))))
        (min m (ind + 2) - ofLong (max 0 ((ind : ℤ) - 2)) + 1)
      rwa [List.map_drop] at this
    · rintro v _ rfl
      rfl
  | lin =>
    refine Rel.bind (rd_times u t.k _) ?_
    rintro k0 _ rfl
    refine Rel.bind (rd_times u t.k _) ?_
    rintro k1 _ rfl
    refine Rel.bind (Rel.of_eq rfl) ?_
    rintro p _ rfl
    refine Rel.bind (Rel.of_eq rfl) ?_
    rintro q _ rfl
    have : interpolLin (u * k) (u * k0) (u * k1) p q = interpolLin k k0 k1 p q := by
      unfold interpolLin
      rw [← mul_sub, ← mul_sub, mul_div_mul_left _ _ hu.ne']
    rw [this]
    rfl

theorem findPkLoop_stretch (t : Pk ℝ) (i : Interpol) (ks ke : ℝ) :
    ∀ (l : List ℝ) (st : ℕ), Rel (fun r r' => r = r') (findPkLoop t i ks ke st l)
      (findPkLoop (t.stretch u) i (u * ks) (u * ke) st (l.map (u * ·)))
  | [], _ => rfl
  | k :: l, st => by
      rw [List.map_cons]
      unfold findPkLoop
      refine Rel.bind (findPkOne_stretch hu t i ks ke st k) ?_
      rintro ⟨st1, v⟩ _ rfl
      dsimp only
      refine Rel.bind (findPkLoop_stretch t i ks ke l _) ?_
      rintro vs _ rfl
      rfl

/-- The lookup at modes multiplied by `u`. -/
theorem findPk_stretch (t : Pk ℝ) (ks : List ℝ) (i : Interpol) :
    Rel (fun r r' => r = r') (findPk t ks i) (findPk (t.stretch u) (ks.map (u * ·)) i) := by
  unfold findPk
  refine Rel.bind (rd_times u t.k _) ?_
  rintro k0 _ rfl
  refine Rel.bind (rd_times u t.k _) ?_
  rintro k1 _ rfl
  exact findPkLoop_stretch hu t i _ _ ks 0

theorem look_stretch (t : Pk ℝ) (i : Interpol) (k : ℝ) : Rel (fun x y => x = y) (look t i k) (look (t.stretch u) i (u * k)) := by
  unfold look
  refine Rel.bind (findPk_stretch hu t [k] i) ?_
  rintro l _ rfl
  exact Rel.of_eq rfl

/-! ## Displacement variance -/

theorem sigmaInner_stretch (t : Pk ℝ) (kmax : ℝ) (n : ℕ) :
    ∀ ik acc, Rel (fun r r' => r'.1 = r.1 ∧ Times u r.2.1 r'.2.1 ∧ r'.2.2 = r.2.2.map (u * ·)) (sigmaInner t kmax n ik acc)
      (sigmaInner (t.stretch u) (u * kmax) n ik (u * acc)) := by
  induction n with
  | zero => exact fun _ _ => ⟨rfl, rfl, rfl⟩
  | succ n ih =>
    intro ik acc
    simp only [sigmaInner]
    rw [show (t.stretch u).nk = t.nk from rfl]
    generalize subSize t.nk 1 = m
    by_cases h : ik < m
    · rw [if_pos h, if_pos h]
      refine Rel.bind (rd_times u t.k _) ?_
      rintro k1 _ rfl
      refine Rel.bind (rd_times u t.k _) ?_
      rintro k0 _ rfl
      refine Rel.bind (Rel.of_eq rfl) ?_
      rintro p _ rfl
      refine Rel.bind (Rel.of_eq rfl) ?_
      rintro q _ rfl
      rw [lt_unit hu]
      split
      · refine ⟨rfl, rfl, ?_⟩
        have : interpolLin (u * kmax) (u * k0) (u * k1) q p = interpolLin kmax k0 k1 q p := by
          unfold interpolLin
          rw [← mul_sub, ← mul_sub, mul_div_mul_left _ _ hu.ne']
        simp only [Option.map_some, Option.some.injEq]
        rw [this]
        ring
      · have := ih (ik + 1) (acc + (p + q) * (k1 - k0))
        rwa [show u * (acc + (p + q) * (k1 - k0)) = u * acc + (p + q) * (u * k1 - u * k0) by ring] at this
    · rw [if_neg h, if_neg h]
      exact ⟨rfl, rfl, rfl⟩

theorem sigmaLoop_stretch (t : Pk ℝ) (uv : ℝ) :
    ∀ (ks : List ℝ) (ik : ℕ) (acc : ℝ), Rel (fun r r' => r' = r.map (u * ·)) (sigmaLoop t uv ik acc ks)
      (sigmaLoop (t.stretch u) uv ik (u * acc) (ks.map (u * ·)))
  | [], _, _ => rfl
  | k :: ks, ik, acc => by
      rw [List.map_cons]
      unfold sigmaLoop
      rw [show (t.stretch u).nk = t.nk from rfl]
      dsimp only
      refine Rel.bind (rd_times u t.k _) ?_
      rintro k0 _ rfl
      rw [mul_assoc u k uv, lt_unit hu]
      split
      · refine Rel.bind (sigmaLoop_stretch t uv ks ik acc) ?_
        rintro vs _ rfl
        simp [Res.Rel]
      refine Rel.bind (sigmaInner_stretch hu t _ _ ik acc) ?_
      rintro ⟨i1, a1, w1⟩ ⟨i2, a2, w2⟩ ⟨h1, h2, h3⟩
      dsimp only at h1 h2 h3 ⊢
      unfold Times at h2
      subst h1 h2 h3
      refine Rel.bind (Q := Times u) ?_ fun v v' hv => ?_
      · unfold sigmaWritten
        rw [show (t.stretch u).nk = t.nk from rfl]
        generalize subSize t.nk 1 = m
        split
        · simp only [Res.Rel, Times]; ring
        · cases w1 <;> simp [Res.Rel, Times]
      refine Rel.bind (sigmaLoop_stretch t uv ks i2 a1) ?_
      rintro vs _ rfl
      simp [Res.Rel, show v' = u * v from hv]

/-- The displacement variance at modes multiplied by `u`. -/
theorem runningSigmad2_stretch (t : Pk ℝ) (ks : List ℝ) (uv : ℝ) :
    Rel (fun r r' => r' = r.map (u * ·)) (runningSigmad2 t ks uv) (runningSigmad2 (t.stretch u) (ks.map (u * ·)) uv) := by
  unfold runningSigmad2
  have := sigmaLoop_stretch hu t uv ks 0 (Histo.lit 0)
  rwa [show u * Histo.lit 0 = (Histo.lit 0 : ℝ) by simp] at this

/-! ## Quadratures -/

omit hu in
/-- A buffer with `L` added to all contents. -/
def BufShift (L : ℝ) (b b' : Buf ℝ) : Prop := b' = b.map (Option.map (· + L))

omit hu in
theorem Buf.wr_shift {L : ℝ} {b b' : Buf ℝ} (h : BufShift L b b') (i : ℕ) {v v' : ℝ} (hv : v' = v + L) :
    Rel (BufShift L) (b.wr i v) (b'.wr i v') := by
  subst h hv
  unfold Buf.wr
  simp only [List.length_map]
  split
  · simp only [Res.Rel, BufShift, List.map_set, Option.map_some]
  · trivial

omit hu in
theorem contents_shift {L : ℝ} : ∀ {b b' : Buf ℝ}, BufShift L b b' → Rel (fun l l' => l' = l.map (· + L)) b.contents b'.contents
  | [], _, h => by
      subst h
      simp [Buf.contents, Res.Rel]
  | none :: b, _, h => by
      subst h
      simp [Buf.contents, Res.Rel]
  | some v :: b, _, h => by
      subst h
      simp only [List.map_cons, Option.map_some, Buf.contents]
      refine Rel.bind (contents_shift (b := b) rfl) ?_
      rintro l _ rfl
      rfl

omit hu in
theorem nodesWeights_shift (rt : ℕ → ℝ × ℝ) (L a b : ℝ) {x x' : Buf ℝ} (hx : BufShift L x x') (w : Buf ℝ) (n : ℕ) :
    Rel (fun r r' => BufShift L r.1 r'.1 ∧ r'.2 = r.2) (nodesWeights rt a b x w n) (nodesWeights rt (a + L) (b + L) x' w n) := by
  unfold nodesWeights
  dsimp only
  rw [show (b + L - (a + L)) = b - a by ring]
  refine forRange_rel ⟨hx, rfl⟩ ?_
  rintro ii ⟨x, w⟩ ⟨x', w'⟩ - - ⟨h1, h2⟩
  dsimp only at h1 h2 ⊢
  subst h2
  refine Rel.bind (Buf.wr_shift h1 _ ?_) fun y y' hy => ?_
  · simp only [lit_real]; push_cast; ring
  refine Rel.bind (Buf.wr_shift hy _ ?_) fun z z' hz => ?_
  · simp only [lit_real]; push_cast; ring
  refine Rel.bind (Rel.of_eq rfl) ?_
  rintro w1 _ rfl
  refine Rel.bind (Rel.of_eq rfl) ?_
  rintro v _ rfl
  refine Rel.bind (Rel.of_eq rfl) ?_
  rintro w2 _ rfl
  exact ⟨hz, rfl⟩

theorem glqRange_stretch {t : Pk ℝ} (ht : ∀ k ∈ t.k, 0 < k) (p : Precision ℝ) :
    Rel (fun r r' => 0 < r.1 ∧ 0 < r.2 ∧ r' = (u * r.1, u * r.2)) (glqRange t p) (glqRange (t.stretch u) (p.stretch u)) := by
  unfold glqRange
  rw [show (p.stretch u).min = u * p.min from rfl, show (p.stretch u).max = u * p.max from rfl, le_unit hu, le_unit hu,
    show (t.stretch u).nk = t.nk from rfl]
  have rdp : ∀ i, Rel (fun x y => 0 < x ∧ y = u * x) (rd t.k i) (rd (t.stretch u).k i) := by
    intro i
    show Rel _ (rd t.k i) (rd (t.k.map (u * ·)) i)
    unfold rd
    rw [List.getElem?_map]
    cases h : t.k[i]? with
    | none => trivial
    | some k => exact ⟨ht k (List.mem_of_getElem? h), rfl⟩
  split
  · refine Rel.bind (rdp _) ?_
    rintro a _ ⟨ha, rfl⟩
    refine Rel.bind (rdp _) ?_
    rintro b _ ⟨hb, rfl⟩
    exact ⟨ha, hb, rfl⟩
  · rename_i h
    simp only [Bool.or_eq_true, le_real, lit_real, Rat.cast_zero, not_or, not_le] at h
    exact ⟨h.1, h.2, rfl⟩

theorem initGLQ_stretch {t : Pk ℝ} (ht : ∀ k ∈ t.k, 0 < k) (rt : ℕ → ℝ × ℝ) (p : Precision ℝ) :
    Rel (GLQ.Stretched u) (initGLQ rt t p) (initGLQ rt (t.stretch u) (p.stretch u)) := by
  unfold initGLQ
  refine Rel.bind (glqRange_stretch hu ht p) ?_
  rintro ⟨a, b⟩ _ ⟨ha, hb, rfl⟩
  dsimp only at ha hb ⊢
  rw [show (p.stretch u).n = p.n from rfl, show (p.stretch u).interpol = p.interpol from rfl]
  have hl : ∀ a : ℝ, 0 < a → Histo.log (u * a) = Histo.log a + Real.log u := fun a ha => by
    simp only [log_real]; rw [Real.log_mul hu.ne' ha.ne', add_comm]
  rw [hl a ha, hl b hb]
  refine Rel.bind (nodesWeights_shift rt (Real.log u) _ _ (x := malloc ℝ p.n) (by simp [BufShift, malloc]) _ _) ?_
  rintro ⟨x, w⟩ ⟨x', w'⟩ ⟨h1, h2⟩
  dsimp only at h1 h2 ⊢
  subst h2
  refine Rel.bind (contents_shift h1) ?_
  rintro xs _ rfl
  refine Rel.bind (Rel.of_eq rfl) ?_
  rintro ws _ rfl
  have e : (xs.map (· + Real.log u)).map Histo.exp = (xs.map Histo.exp).map (u * ·) := by
    rw [List.map_map, List.map_map]
    congr 1
    funext x
    simp only [Function.comp, exp_real]
    rw [Real.exp_add, Real.exp_log hu, mul_comm]
  rw [e]
  refine Rel.bind (findPk_stretch hu t _ _) ?_
  rintro pk _ rfl
  exact ⟨rfl, rfl, rfl, rfl⟩

end Verif
