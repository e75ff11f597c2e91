import Verif.Proofs.Scale
import Verif.Proofs.LinMode
import Mathlib.Algebra.Polynomial.Eval.Degree
import Mathlib.Algebra.Polynomial.Degree.Operations

/-!
# Adding a multiple of one spectrum to another

The runs on the spectra `p + s d`, for all numbers `s` at once.
-/

open Polynomial

namespace Verif

attribute [local irreducible] ofLong subSize sizeMod

/-- A polynomial of degree at most `n` in the parameter. -/
def PolyDeg (n : ℕ) (v : ℝ → ℝ) : Prop := ∃ p : ℝ[X], p.natDegree ≤ n ∧ ∀ s, v s = p.eval s

theorem PolyDeg.const {n : ℕ} (c : ℝ) : PolyDeg n fun _ => c := ⟨C c, by simp, by simp⟩

theorem PolyDeg.line (a b : ℝ) : PolyDeg 1 fun s => a + s * b := by
  refine ⟨C b * X + C a, natDegree_linear_le, fun s => ?_⟩
  simp
  ring

theorem PolyDeg.mono {n m : ℕ} (h : n ≤ m) {v : ℝ → ℝ} (hv : PolyDeg n v) : PolyDeg m v := hv.imp fun _ hp => ⟨hp.1.trans h, hp.2⟩

theorem PolyDeg.add {n : ℕ} {v w : ℝ → ℝ} (hv : PolyDeg n v) (hw : PolyDeg n w) : PolyDeg n fun s => v s + w s := by
  obtain ⟨p, h1, h2⟩ := hv
  obtain ⟨q, h3, h4⟩ := hw
  exact ⟨p + q, (natDegree_add_le p q).trans (max_le h1 h3), fun s => by dsimp only; rw [h2, h4, eval_add]⟩

theorem PolyDeg.mul {n m : ℕ} {v w : ℝ → ℝ} (hv : PolyDeg n v) (hw : PolyDeg m w) : PolyDeg (n + m) fun s => v s * w s := by
  obtain ⟨p, h1, h2⟩ := hv
  obtain ⟨q, h3, h4⟩ := hw
  exact ⟨p * q, natDegree_mul_le.trans (add_le_add h1 h3), fun s => by dsimp only; rw [h2, h4, eval_mul]⟩

theorem PolyDeg.const_mul {n : ℕ} (c : ℝ) {v : ℝ → ℝ} (hv : PolyDeg n v) : PolyDeg n fun s => c * v s := by
  simpa using (PolyDeg.const (n := 0) c).mul hv

theorem PolyDeg.mul_const {n : ℕ} (c : ℝ) {v : ℝ → ℝ} (hv : PolyDeg n v) : PolyDeg n fun s => v s * c := by
  simpa using hv.mul (PolyDeg.const (n := 0) c)

theorem PolyDeg.div_const {n : ℕ} (c : ℝ) {v : ℝ → ℝ} (hv : PolyDeg n v) : PolyDeg n fun s => v s / c := by
  simpa only [div_eq_mul_inv] using hv.mul_const c⁻¹

theorem PolyDeg.sub {n : ℕ} {v w : ℝ → ℝ} (hv : PolyDeg n v) (hw : PolyDeg n w) : PolyDeg n fun s => v s - w s := by
  have := hv.add (hw.const_mul (-1))
  refine this.imp fun p hp => ⟨hp.1, fun s => ?_⟩
  rw [← hp.2 s]
  ring

theorem PolyDeg.congr {n : ℕ} {v w : ℝ → ℝ} (hv : PolyDeg n v) (h : ∀ s, w s = v s) : PolyDeg n w := by
  obtain rfl : w = v := funext h
  exact hv

/-- An affine function of the parameter. -/
def Aff (v : ℝ → ℝ) : Prop := ∃ a b, ∀ s, v s = a + s * b

theorem Aff.deg {v : ℝ → ℝ} (h : Aff v) : PolyDeg 1 v := by
  obtain ⟨a, b, h⟩ := h
  exact (PolyDeg.line a b).congr h

/-! ## Families of executions -/

/-- A family of executions that are all defined, with results related by `R`, or all undefined. -/
def Fam {σ : Type} (R : (ℝ → σ) → Prop) (r : ℝ → Res σ) : Prop := (∀ s, ∃ w, r s = .ub w) ∨ ∃ v, (∀ s, r s = .ok (v s)) ∧ R v

theorem Fam.ok {σ : Type} {R : (ℝ → σ) → Prop} {v : ℝ → σ} (h : R v) : Fam R fun s => .ok (v s) := .inr ⟨v, fun _ => rfl, h⟩

theorem Fam.bind {σ τ : Type} {R : (ℝ → σ) → Prop} {Q : (ℝ → τ) → Prop} {r : ℝ → Res σ} {f : ℝ → σ → Res τ} (h : Fam R r)
    (hf : ∀ v, R v → Fam Q fun s => f s (v s)) : Fam Q fun s => r s >>= f s := by
  rcases h with h | ⟨v, h1, h2⟩
  · exact .inl fun s => by obtain ⟨w, hw⟩ := h s; exact ⟨w, by simp [hw]⟩
  · have := hf v h2
    simpa only [h1, Res.ok_bind] using this

/-- A step that is the same for all. -/
theorem Fam.same {σ τ : Type} {Q : (ℝ → τ) → Prop} {r : Res σ} {f : ℝ → σ → Res τ} (hf : ∀ v, r = .ok v → Fam Q fun s => f s v) :
    Fam Q fun s => r >>= f s := by
  rcases r with v | w
  · exact hf v rfl
  · exact .inl fun s => ⟨w, rfl⟩

theorem Fam.mono {σ : Type} {R Q : (ℝ → σ) → Prop} {r : ℝ → Res σ} (h : Fam R r) (hR : ∀ v, R v → Q v) : Fam Q r :=
  h.imp id fun ⟨v, h1, h2⟩ => ⟨v, h1, hR v h2⟩

/-- One member is defined, hence all are. -/
theorem Fam.all {σ : Type} {R : (ℝ → σ) → Prop} {r : ℝ → Res σ} (h : Fam R r) {s : ℝ} {v : σ} (hv : r s = .ok v) :
    ∃ v', (∀ s, r s = .ok (v' s)) ∧ R v' := by
  rcases h with h | h
  · obtain ⟨w, hw⟩ := h s
    rw [hv] at hw
    cases hw
  · exact h

theorem iter_fam {σ : Type} {R : (ℝ → σ) → Prop} {b : ℝ → ℕ → σ → Res σ} : ∀ (n i : ℕ) (v : ℝ → σ), R v →
    (∀ j v, i ≤ j → j < i + n → R v → Fam R fun s => b s j (v s)) → Fam R fun s => iter (b s) n i (v s)
  | 0, _, _, h, _ => Fam.ok h
  | n + 1, i, v, h, hb => by
      refine Fam.bind (hb i v le_rfl (by omega) h) fun v' h' => ?_
      exact iter_fam n (i + 1) v' h' fun j v hj hj' => hb j v (by omega) (by omega)

theorem forRange_fam {σ : Type} {R : (ℝ → σ) → Prop} {b : ℝ → ℕ → σ → Res σ} {lo hi : ℕ} {v : ℝ → σ} (h : R v)
    (hb : ∀ j v, lo ≤ j → j < hi → R v → Fam R fun s => b s j (v s)) : Fam R fun s => forRange lo hi (v s) (b s) :=
  iter_fam _ _ _ h fun j v hj hj' => hb j v hj (by omega)

/-! ## Lists and buffers -/

/-- A list whose entries are affine in the parameter. -/
def AffList (l : ℝ → List ℝ) : Prop := ∃ c : List (ℝ × ℝ), ∀ s, l s = c.map fun c => c.1 + s * c.2

theorem AffList.rd {l : ℝ → List ℝ} (h : AffList l) (i : ℕ) : Fam Aff fun s => rd (l s) i := by
  obtain ⟨c, h⟩ := h
  simp only [Verif.rd, h, List.getElem?_map]
  rcases c[i]? with _ | ⟨a, b⟩
  · exact .inl fun s => ⟨_, rfl⟩
  · exact Fam.ok ⟨a, b, fun _ => rfl⟩

theorem AffList.drop {l : ℝ → List ℝ} (h : AffList l) (n : ℕ) : AffList fun s => (l s).drop n := by
  obtain ⟨c, h⟩ := h
  exact ⟨c.drop n, fun s => by dsimp only; rw [h, List.map_drop]⟩

theorem AffList.cons {v : ℝ → ℝ} {l : ℝ → List ℝ} (hv : Aff v) (h : AffList l) : AffList fun s => v s :: l s := by
  obtain ⟨a, b, hv⟩ := hv
  obtain ⟨c, h⟩ := h
  exact ⟨(a, b) :: c, fun s => by dsimp only; rw [h, hv]; rfl⟩

theorem AffList.getD {l : ℝ → List ℝ} (h : AffList l) (i : ℕ) : Aff fun s => (l s).getD i 0 := by
  obtain ⟨c, h⟩ := h
  simp only [h, List.getD_eq_getElem?_getD, List.getElem?_map]
  rcases c[i]? with _ | ⟨a, b⟩
  · exact ⟨0, 0, by simp⟩
  · exact ⟨a, b, fun _ => rfl⟩

theorem affList_zip (p d : List ℝ) : AffList fun s => List.zipWith (fun a b => a + s * b) p d :=
  ⟨p.zip d, fun s => by rw [List.zip, List.map_zipWith]⟩

/-- A buffer whose contents are affine in the parameter. -/
def AffBuf (l : ℝ → Buf ℝ) : Prop := ∃ c : List (Option (ℝ × ℝ)), ∀ s, l s = c.map (Option.map fun c => c.1 + s * c.2)

theorem AffBuf.malloc (n : ℕ) : AffBuf fun _ => malloc ℝ n := ⟨List.replicate n none, fun _ => by simp [Verif.malloc]⟩

theorem AffBuf.rd {l : ℝ → Buf ℝ} (h : AffBuf l) (i : ℕ) : Fam Aff fun s => (l s).rd i := by
  obtain ⟨c, h⟩ := h
  simp only [Buf.rd, h, List.getElem?_map]
  rcases c[i]? with _ | _ | ⟨a, b⟩
  · exact .inl fun s => ⟨_, rfl⟩
  · exact .inl fun s => ⟨_, rfl⟩
  · exact Fam.ok ⟨a, b, fun _ => rfl⟩

theorem AffBuf.wr {l : ℝ → Buf ℝ} (h : AffBuf l) (i : ℕ) {v : ℝ → ℝ} (hv : Aff v) : Fam AffBuf fun s => (l s).wr i (v s) := by
  obtain ⟨c, h⟩ := h
  obtain ⟨a, b, hv⟩ := hv
  simp only [Buf.wr, h, List.length_map, hv]
  split
  · exact Fam.ok ⟨c.set i (some (a, b)), fun s => by rw [List.map_set]; rfl⟩
  · exact .inl fun s => ⟨_, rfl⟩

theorem Aff.add {v w : ℝ → ℝ} (hv : Aff v) (hw : Aff w) : Aff fun s => v s + w s := by
  obtain ⟨a, b, hv⟩ := hv
  obtain ⟨a', b', hw⟩ := hw
  exact ⟨a + a', b + b', fun s => by dsimp only; rw [hv, hw]; ring⟩

theorem Aff.sub {v w : ℝ → ℝ} (hv : Aff v) (hw : Aff w) : Aff fun s => v s - w s := by
  obtain ⟨a, b, hv⟩ := hv
  obtain ⟨a', b', hw⟩ := hw
  exact ⟨a - a', b - b', fun s => by dsimp only; rw [hv, hw]; ring⟩

theorem Aff.mul_const {v : ℝ → ℝ} (hv : Aff v) (c : ℝ) : Aff fun s => v s * c := by
  obtain ⟨a, b, hv⟩ := hv
  exact ⟨a * c, b * c, fun s => by dsimp only; rw [hv]; ring⟩

theorem Aff.const_mul {v : ℝ → ℝ} (hv : Aff v) (c : ℝ) : Aff fun s => c * v s := by
  obtain ⟨a, b, hv⟩ := hv
  exact ⟨c * a, c * b, fun s => by dsimp only; rw [hv]; ring⟩

theorem Aff.div_const {v : ℝ → ℝ} (hv : Aff v) (c : ℝ) : Aff fun s => v s / c := by
  simpa only [div_eq_mul_inv] using hv.mul_const c⁻¹

theorem Aff.const (c : ℝ) : Aff fun _ => c := ⟨c, 0, by simp⟩

/-! ## Interpolation and lookup -/

theorem interpolPoly_fam (x : ℝ) (tabx : List ℝ) {taby : ℝ → List ℝ} (hy : AffList taby) (nx : ℕ) :
    Fam Aff fun s => interpolPoly x tabx (taby s) nx := by
  unfold interpolPoly
  refine Fam.bind (R := fun v => ∃ ix df, (∀ s, (v s).ixclose = ix ∧ (v s).diff = df) ∧ AffBuf (fun s => (v s).c) ∧ AffBuf fun s => (v s).d) ?_ ?_
  · unfold polyInit
    refine Fam.same fun x0 _ => ?_
    refine forRange_fam (v := fun _ => (⟨0, Histo.abs (x - x0), malloc ℝ nx, malloc ℝ nx⟩ : PolyInit ℝ)) ⟨_, _, fun s => ⟨rfl, rfl⟩, .malloc nx, .malloc nx⟩ ?_
    rintro j v - - ⟨ix, df, h1, h2, h3⟩
    refine Fam.same fun xi _ => ?_
    refine Fam.bind (hy.rd j) fun y hy => ?_
    refine Fam.bind (h2.wr j hy) fun c hc => ?_
    refine Fam.bind (h3.wr j hy) fun d hd => ?_
    simp only [(h1 _).2, (h1 _).1]
    split
    · exact Fam.ok (v := fun s => (⟨j, _, c s, d s⟩ : PolyInit ℝ)) ⟨_, _, fun s => ⟨rfl, rfl⟩, hc, hd⟩
    · exact Fam.ok (v := fun s => (⟨ix, _, c s, d s⟩ : PolyInit ℝ)) ⟨_, _, fun s => ⟨rfl, rfl⟩, hc, hd⟩
  rintro v ⟨ix, df, h1, h2, h3⟩
  simp only [(h1 _).1]
  refine Fam.bind (hy.rd ix) fun y hy => ?_
  refine Fam.bind (R := fun v => ∃ ix, (∀ s, (v s).ixclose = ix) ∧ Aff (fun s => (v s).y) ∧ AffBuf (fun s => (v s).c) ∧ AffBuf fun s => (v s).d) ?_
    fun v h => Fam.ok h.choose_spec.2.1
  refine forRange_fam (v := fun s => (⟨(v s).c, (v s).d, y s, subSize ix 1⟩ : PolyState ℝ)) ⟨_, fun s => rfl, hy, h2, h3⟩ ?_
  rintro jx v - - ⟨ix, h1, h2, h3, h4⟩
  unfold polyStep
  refine Fam.bind (R := fun v => AffBuf (fun s => (v s).1) ∧ AffBuf fun s => (v s).2) ?_ ?_
  · unfold polyColumn
    refine forRange_fam (v := fun s => ((v s).c, (v s).d)) ⟨h3, h4⟩ ?_
    rintro j v - - ⟨g1, g2⟩
    refine Fam.bind (g1.rd _) fun c1 hc => ?_
    refine Fam.bind (g2.rd _) fun d1 hd => ?_
    refine Fam.same fun xi _ => ?_
    refine Fam.same fun xj _ => ?_
    refine Fam.bind (g1.wr j (((hc.sub hd).div_const _).const_mul _)) fun c' hc' => ?_
    refine Fam.bind (g2.wr j (((hc.sub hd).div_const _).const_mul _)) fun d' hd' => ?_
    exact Fam.ok (v := fun s => (c' s, d' s)) ⟨hc', hd'⟩
  rintro w ⟨g1, g2⟩
  simp only [h1]
  split
  · refine Fam.bind (g1.rd _) fun dy hdy => ?_
    exact Fam.ok (v := fun s => (⟨(w s).1, (w s).2, (v s).y + dy s, ix⟩ : PolyState ℝ)) ⟨_, fun _ => rfl, h2.add hdy, g1, g2⟩
  · refine Fam.bind (g2.rd _) fun dy hdy => ?_
    exact Fam.ok (v := fun s => (⟨(w s).1, (w s).2, (v s).y + dy s, subSize ix 1⟩ : PolyState ℝ)) ⟨_, fun _ => rfl, h2.add hdy, g1, g2⟩

/-- The table with `s` times the list `d` added to the power. -/
noncomputable def Pk.line (t : Pk ℝ) (d : List ℝ) (s : ℝ) : Pk ℝ := { t with pk := List.zipWith (fun a b => a + s * b) t.pk d }

theorem Pk.line_zero (t : Pk ℝ) {d : List ℝ} (hd : d.length = t.pk.length) : t.line d 0 = t := by
  unfold Pk.line
  congr 1
  refine List.ext_getElem (by simp [hd]) fun i h1 h2 => ?_
  simp

theorem Pk.line_aff (t : Pk ℝ) (d : List ℝ) : AffList fun s => (t.line d s).pk := affList_zip t.pk d

theorem findPkOne_fam (t : Pk ℝ) (d : List ℝ) (i : Interpol) {ks ke : ℝ} (st : ℕ) {k : ℝ} (h1 : ks ≤ k) (h2 : k ≤ ke) :
    Fam (fun v => ∃ ind, (∀ s, (v s).1 = ind) ∧ Aff fun s => (v s).2) fun s => findPkOne (t.line d s) i ks ke st k := by
  unfold findPkOne
  simp only [show ∀ s, (t.line d s).nk = t.nk from fun _ => rfl, show ∀ s, (t.line d s).k = t.k from fun _ => rfl]
  generalize subSize t.nk 1 = m
  have n1 : ¬ Histo.lt ke k = true := by simpa using h2
  have n2 : ¬ Histo.lt k ks = true := by simpa using h1
  simp only [if_neg n1, if_neg n2]
  refine Fam.same fun ind _ => ?_
  cases i with
  | poly =>
    exact Fam.bind (interpolPoly_fam _ _ ((t.line_aff d).drop _) _) fun v hv => Fam.ok (v := fun s => (ind, v s)) ⟨ind, fun _ => rfl, hv⟩
  | lin =>
    refine Fam.same fun k0 _ => ?_
    refine Fam.same fun k1 _ => ?_
    refine Fam.bind ((t.line_aff d).rd _) fun p hp => ?_
    refine Fam.bind ((t.line_aff d).rd _) fun q hq => ?_
    refine Fam.ok (v := fun s => (ind, interpolLin k k0 k1 (p s) (q s))) ⟨ind, fun _ => rfl, ?_⟩
    unfold interpolLin
    exact ((hq.sub hp).const_mul _).add hp

/-- The wavenumber is among those of the table. -/
def Pk.Within (t : Pk ℝ) (k : ℝ) : Prop := t.k.getD 0 0 ≤ k ∧ k ≤ t.k.getD (subSize t.nk 1) 0

theorem findPkLoop_fam (t : Pk ℝ) (d : List ℝ) (i : Interpol) {ks ke : ℝ} : ∀ (l : List ℝ) (st : ℕ), (∀ k ∈ l, ks ≤ k ∧ k ≤ ke) →
    Fam AffList fun s => findPkLoop (t.line d s) i ks ke st l
  | [], _, _ => Fam.ok ⟨[], fun _ => rfl⟩
  | k :: l, st, h => by
      unfold findPkLoop
      refine Fam.bind (findPkOne_fam t d i st (h k (by simp)).1 (h k (by simp)).2) ?_
      rintro v ⟨ind, h1, h2⟩
      simp only [h1]
      refine Fam.bind (findPkLoop_fam t d i l ind fun k hk => h k (by simp [hk])) fun vs hvs => ?_
      exact Fam.ok (v := fun s => (v s).2 :: vs s) (AffList.cons h2 hvs)

theorem findPk_fam (t : Pk ℝ) (d : List ℝ) (l : List ℝ) (i : Interpol) (h : ∀ k ∈ l, t.Within k) :
    Fam AffList fun s => findPk (t.line d s) l i := by
  unfold findPk
  simp only [show ∀ s, (t.line d s).nk = t.nk from fun _ => rfl, show ∀ s, (t.line d s).k = t.k from fun _ => rfl]
  refine Fam.same fun k0 h0 => ?_
  refine Fam.same fun k1 h1 => ?_
  refine findPkLoop_fam t d i l 0 fun k hk => ?_
  obtain ⟨a, b⟩ := h k hk
  rw [(rd_eq_ok h0).1] at a
  rw [(rd_eq_ok h1).1] at b
  exact ⟨a, b⟩

theorem look_fam (t : Pk ℝ) (d : List ℝ) (i : Interpol) {k : ℝ} (h : t.Within k) : Fam Aff fun s => look (t.line d s) i k := by
  unfold look
  exact Fam.bind (findPk_fam t d [k] i (by simpa using h)) fun l hl => hl.rd 0

/-! ## Displacement dispersion -/

theorem sigmaInner_fam (t : Pk ℝ) (d : List ℝ) (kmax : ℝ) (n : ℕ) : ∀ ik {acc : ℝ → ℝ}, Aff acc →
    Fam (fun v => ∃ ind, (∀ s, (v s).1 = ind) ∧ Aff (fun s => (v s).2.1) ∧ ((∀ s, (v s).2.2 = none) ∨ ∃ w, Aff w ∧ ∀ s, (v s).2.2 = some (w s)))
      fun s => sigmaInner (t.line d s) kmax n ik (acc s) := by
  induction n with
  | zero => exact fun ik acc h => Fam.ok (v := fun s => (ik, acc s, none)) ⟨ik, fun _ => rfl, h, .inl fun _ => rfl⟩
  | succ n ih =>
    intro ik acc h
    simp only [sigmaInner, show ∀ s, (t.line d s).nk = t.nk from fun _ => rfl, show ∀ s, (t.line d s).k = t.k from fun _ => rfl]
    generalize subSize t.nk 1 = m
    split
    · refine Fam.same fun k1 _ => ?_
      refine Fam.same fun k0 _ => ?_
      refine Fam.bind ((t.line_aff d).rd _) fun p hp => ?_
      refine Fam.bind ((t.line_aff d).rd _) fun q hq => ?_
      split
      · refine Fam.ok (v := fun s => (ik, acc s, some ((acc s + (interpolLin kmax k0 k1 (q s) (p s) + q s) * (kmax - k0)) / (Histo.lit 12 * Histo.pi * Histo.pi))))
          ⟨ik, fun _ => rfl, h, .inr ⟨_, ?_, fun _ => rfl⟩⟩
        unfold interpolLin
        exact (h.add (((((hp.sub hq).const_mul _).add hq).add hq).mul_const _)).div_const _
      · exact ih (ik + 1) (acc := fun s => acc s + (p s + q s) * (k1 - k0)) (h.add ((hp.add hq).mul_const _))
    · exact Fam.ok (v := fun s => (ik, acc s, none)) ⟨ik, fun _ => rfl, h, .inl fun _ => rfl⟩

theorem sigmaLoop_fam (t : Pk ℝ) (d : List ℝ) (uv : ℝ) : ∀ (ks : List ℝ) (ik : ℕ) {acc : ℝ → ℝ}, Aff acc →
    Fam AffList fun s => sigmaLoop (t.line d s) uv ik (acc s) ks
  | [], _, _, _ => Fam.ok ⟨[], fun _ => rfl⟩
  | k :: ks, ik, acc, h => by
      simp only [sigmaLoop, show ∀ s, (t.line d s).nk = t.nk from fun _ => rfl, show ∀ s, (t.line d s).k = t.k from fun _ => rfl]
      refine Fam.same fun k0 _ => ?_
      split
      · refine Fam.bind (sigmaLoop_fam t d uv ks ik h) fun vs hvs => ?_
        exact Fam.ok (v := fun s => Histo.lit 0 :: vs s) (AffList.cons (Aff.const _) hvs)
      refine Fam.bind (sigmaInner_fam t d _ _ ik h) ?_
      rintro v ⟨ind, h1, h2, h3⟩
      simp only [h1]
      refine Fam.bind (R := Aff) ?_ fun w hw => ?_
      · unfold sigmaWritten
        simp only [show ∀ s, (t.line d s).nk = t.nk from fun _ => rfl]
        split
        · exact Fam.ok (h2.div_const _)
        · rcases h3 with h3 | ⟨w, hw, h3⟩
          · simp only [h3]
            exact .inl fun s => ⟨_, rfl⟩
          · simp only [h3]
            exact Fam.ok hw
      refine Fam.bind (sigmaLoop_fam t d uv ks ind h2) fun vs hvs => ?_
      exact Fam.ok (v := fun s => w s :: vs s) (AffList.cons hw hvs)

theorem runningSigmad2_fam (t : Pk ℝ) (d ks : List ℝ) (uv : ℝ) : Fam AffList fun s => runningSigmad2 (t.line d s) ks uv := by
  unfold runningSigmad2
  exact sigmaLoop_fam t d uv ks 0 (acc := fun _ => Histo.lit 0) (Aff.const _)

/-! ## Quadratures -/

/-- A radial table with power that is affine in the parameter. -/
def AffTab (g0 : GLQ ℝ) (g : ℝ → GLQ ℝ) : Prop :=
  (∀ s, (g s).nq = g0.nq ∧ (g s).k = g0.k ∧ (g s).x = g0.x ∧ (g s).q = g0.q ∧ (g s).w = g0.w) ∧ AffList fun s => (g s).pk

theorem AffTab.update {g0 : GLQ ℝ} {g : ℝ → GLQ ℝ} (h : AffTab g0 g) (k : ℝ) : AffTab (updateGLQ g0 k) fun s => updateGLQ (g s) k :=
  ⟨fun s => ⟨(h.1 s).1, rfl, by simp only [updateGLQ, (h.1 s).2.2.2.1], (h.1 s).2.2.2.1, (h.1 s).2.2.2.2⟩, h.2⟩

theorem initGLQ_fam (rt : ℕ → ℝ × ℝ) (t : Pk ℝ) (d : List ℝ) (p : Precision ℝ) {g : GLQ ℝ} (hg : initGLQ rt t p = .ok g)
    (hq : ∀ q ∈ g.q, t.Within q) : Fam (AffTab g) fun s => initGLQ rt (t.line d s) p := by
  unfold initGLQ at hg ⊢
  rw [Res.bind_eq_ok] at hg
  obtain ⟨⟨a, b⟩, g1, hg⟩ := hg
  dsimp only at hg
  rw [Res.bind_eq_ok] at hg
  obtain ⟨⟨x, w⟩, g2, hg⟩ := hg
  dsimp only at hg
  rw [Res.bind_eq_ok] at hg
  obtain ⟨x', g3, hg⟩ := hg
  rw [Res.bind_eq_ok] at hg
  obtain ⟨w', g4, hg⟩ := hg
  rw [Res.bind_eq_ok] at hg
  obtain ⟨pk, g5, hg⟩ := hg
  cases hg
  have e1 : ∀ s, glqRange (t.line d s) p = .ok (a, b) := fun _ => g1
  simp only [e1, Res.ok_bind, g2, g3, g4]
  exact Fam.bind (findPk_fam t d _ _ hq) fun pk hpk => Fam.ok (v := fun s => (⟨p.n, Histo.lit 1, x'.map Histo.exp, x'.map Histo.exp, w', pk s⟩ : GLQ ℝ))
    ⟨fun _ => ⟨rfl, rfl, rfl, rfl, rfl⟩, hpk⟩

theorem rd_mem {l : List ℝ} {i : ℕ} {v : ℝ} (h : rd l i = .ok v) : v ∈ l := by
  obtain ⟨h1, h2⟩ := rd_eq_ok h
  rw [← h1, getD_eq h2]
  exact List.getElem_mem _

/-- Every component is a polynomial of its degree. -/
def DegAll {ι : Type} (d : ι → ℕ) (f : ℝ → ι → ℝ) : Prop := ∀ i, PolyDeg (d i) fun s => f s i

theorem sumLoop_fam {m n : ℕ} {f : ℝ → ℕ → Res ℝ} (h : ∀ i, Fam (PolyDeg m) fun s => f s i) : Fam (PolyDeg m) fun s => sumLoop n (f s) := by
  unfold sumLoop
  refine forRange_fam (v := fun _ => (0 : ℝ)) (PolyDeg.const 0) fun j v _ _ hv => ?_
  exact Fam.bind (h j) fun w hw => Fam.ok (hv.add hw)

section

variable {g0 : GLQ ℝ} {g : ℝ → GLQ ℝ} (hg : AffTab g0 g)

include hg

theorem AffTab.rd (i : ℕ) : Fam (PolyDeg 1) fun s => rd (g s).pk i := (hg.2.rd i).mono fun _ h => h.deg

theorem gamma1OneLoop_fam (a : Field) (k : ℝ) : Fam (PolyDeg 1) fun s => gamma1OneLoop a (g s) k := by
  have hg := hg.update k
  unfold gamma1OneLoop
  generalize hG : (fun s => updateGLQ (g s) k) = G at hg
  simp only [show ∀ s, updateGLQ (g s) k = G s from fun s => congrFun hG s]
  unfold gamma1Loop1
  simp only [fun s => (hg.1 s).1, fun s => (hg.1 s).2.2.1, fun s => (hg.1 s).2.2.2.2]
  refine Fam.bind (R := PolyDeg 1) (sumLoop_fam fun i => ?_) fun v hv => Fam.ok ((((hv.mul_const _).mul_const _).mul_const _).div_const _)
  refine Fam.same fun x _ => ?_
  refine Fam.bind (hg.rd i) fun p hp => ?_
  refine Fam.same fun w _ => ?_
  cases a
  · exact Fam.ok ((hp.const_mul _).mul_const _)
  · exact Fam.ok ((hp.const_mul _).mul_const _)

theorem gamma1TwoLoop_fam (a : Field) (k : ℝ) : Fam (PolyDeg 2) fun s => gamma1TwoLoop a (g s) k := by
  have hg := hg.update k
  unfold gamma1TwoLoop
  generalize hG : (fun s => updateGLQ (g s) k) = G at hg
  simp only [show ∀ s, updateGLQ (g s) k = G s from fun s => congrFun hG s]
  simp only [fun s => (hg.1 s).1, fun s => (hg.1 s).2.1, fun s => (hg.1 s).2.2.2.1, fun s => (hg.1 s).2.2.2.2]
  refine Fam.bind (R := PolyDeg 2) (sumLoop_fam fun i => ?_) fun v hv => Fam.ok (hv.div_const _)
  refine Fam.same fun q1 _ => ?_
  refine Fam.bind (R := PolyDeg 1) (sumLoop_fam fun i => ?_) fun v hv => ?_
  · refine Fam.same fun q2 _ => ?_
    refine Fam.same fun w _ => ?_
    refine Fam.bind (hg.rd i) fun p hp => ?_
    exact Fam.ok (((((hp.const_mul _).mul_const _).mul_const _).mul_const _).mul_const _)
  refine Fam.same fun w _ => ?_
  refine Fam.bind (hg.rd i) fun p hp => ?_
  exact Fam.ok ((hv.const_mul _).mul hp)

theorem gamma2OneLoop_fam (a : Field) (k1 k2 k3 : ℝ) : Fam (PolyDeg 1) fun s => gamma2OneLoop a (g s) k1 k2 k3 := by
  unfold gamma2OneLoop
  simp only [fun s => (hg.1 s).1, fun s => (hg.1 s).2.2.2.1, fun s => (hg.1 s).2.2.2.2]
  refine Fam.bind (R := PolyDeg 1) (sumLoop_fam fun i => ?_) fun v hv => Fam.ok (hv.div_const _)
  refine Fam.same fun q _ => ?_
  refine Fam.same fun w _ => ?_
  refine Fam.bind (hg.rd i) fun p hp => ?_
  exact Fam.ok (hp.const_mul _)

/-- The double loop with components of the integrand that are polynomials at the visited points. -/
theorem quadLoop_fam {ι : Type} (d : ι → ℕ) (half : Bool) (gm : GLMu ℝ) {kern : ℝ → ℕ → ℝ → Res (ι → ℝ)} {extra : ℝ → ℕ → Res (ι → ℝ)}
    (wt : ℝ → ℝ → ℝ) (hk : ∀ iq < g0.nq, ∀ lo hi, quadRange half g0 iq = some (lo, hi) → ∀ mu ∈ (updateGLMu gm lo hi).mu,
      Fam (DegAll d) fun s => kern s iq mu)
    (hx : ∀ iq < g0.nq, Fam (DegAll d) fun s => extra s iq) :
    Fam (fun r => ∃ gm', SameMu gm' gm ∧ (∀ s, (r s).1 = gm') ∧ ∀ i, PolyDeg (d i) fun s => (r s).2 i)
      fun s => quadLoop half (g s) gm (kern s) (extra s) wt := by
  unfold quadLoop
  simp only [fun s => (hg.1 s).1, fun s => (hg.1 s).2.2.1, fun s => (hg.1 s).2.2.2.2]
  refine forRange_fam (v := fun _ => (gm, fun _ : ι => (0 : ℝ))) ⟨gm, SameMu.refl _, fun _ => rfl, fun _ => PolyDeg.const 0⟩ ?_
  rintro iq v - hiq ⟨gm', h1, h2, h3⟩
  refine Fam.same fun x ex => ?_
  refine Fam.same fun r er => ?_
  rcases r with _ | ⟨lo, hi⟩
  · exact Fam.ok ⟨gm', h1, h2, h3⟩
  have hr : quadRange half g0 iq = some (lo, hi) := by
    unfold quadRange
    rw [(rd_eq_ok ex).1, er]
  simp only [h2, h1.update_eq lo hi]
  refine Fam.bind (R := DegAll d) ?_ fun f hf => ?_
  · refine forRange_fam (v := fun _ => fun _ : ι => (0 : ℝ)) (fun _ => PolyDeg.const 0) fun imu acc _ _ hacc => ?_
    refine Fam.same fun mu emu => ?_
    refine Fam.bind (hk iq hiq lo hi hr mu (rd_mem emu)) fun f hf => ?_
    refine Fam.same fun w _ => ?_
    exact Fam.ok (v := fun s => fun i => acc s i + f s i * w) fun i => (hacc i).add ((hf i).mul_const w)
  refine Fam.bind (hx iq hiq) fun f' hf' => ?_
  refine Fam.same fun w _ => ?_
  exact Fam.ok (v := fun s => (updateGLMu gm lo hi, fun i => (v s).2 i + (f s i + f' s i) * wt x w))
    ⟨_, sameMu_update gm lo hi, fun _ => rfl, fun i => (h3 i).add (((hf i).add (hf' i)).mul_const _)⟩

end

theorem noExtra_fam {ι : Type} (d : ι → ℕ) (iq : ℕ) : Fam (DegAll d) fun _ => noExtra (ι := ι) iq :=
  Fam.ok (v := fun _ => fun _ => 0) fun _ => PolyDeg.const 0

/-! ## Points visited -/

/-- Tables whose points stay among the wavenumbers of the linear spectrum `t`. -/
structure InTab (t : Pk ℝ) (g : GLQ ℝ) (gm : GLMu ℝ) : Prop where
  rule : PosRule g gm
  mu : ∀ m ∈ gm.muref, -1 < m ∧ m < 1
  q : ∀ q ∈ g.q, t.Within q

theorem InTab.visited {t : Pk ℝ} {g : GLQ ℝ} {gm : GLMu ℝ} (h : InTab t g gm) {k : ℝ} (hk : 0 < k) {half : Bool} {iq : ℕ} (hiq : iq < g.nq)
    {lo hi : ℝ} (hr : quadRange half (updateGLQ g k) iq = some (lo, hi)) {mu x : ℝ} (hm : mu ∈ (updateGLMu gm lo hi).mu)
    (hx : rd (updateGLQ g k).x iq = .ok x) : t.Within (k * Real.sqrt (1 + x * x - 2 * mu * x)) := by
  have hl := h.rule.len
  have hx' : x = g.q.getD iq 0 / k := by
    rw [← (rd_eq_ok hx).1]
    simp only [updateGLQ]
    rw [getD_eq (by simpa using (by omega : iq < g.q.length)), getD_eq (by omega)]
    simp
  obtain ⟨h1, h2⟩ := visited_range h.rule h.mu hk hiq hr hm
  rw [← hx'] at h1 h2
  have m1 : t.Within (g.q.getD 0 0) := h.q _ (by rw [getD_eq (by omega)]; exact List.getElem_mem _)
  have m2 : t.Within (g.q.getD (g.nq - 1) 0) := h.q _ (by rw [getD_eq (by omega)]; exact List.getElem_mem _)
  exact ⟨m1.1.trans h1, h2.trans m2.2⟩

theorem InTab.same {t : Pk ℝ} {g : GLQ ℝ} {gm gm' : GLMu ℝ} (h : InTab t g gm) (hs : SameMu gm' gm) : InTab t g gm' := by
  obtain ⟨e1, e2, e3⟩ := hs
  exact ⟨⟨h.rule.len, h.rule.size, h.rule.pos, h.rule.asc, h.rule.w, by rw [e3]; exact h.rule.wref⟩, by rw [e2]; exact h.mu, h.q⟩

theorem InTab.update {t : Pk ℝ} {g : GLQ ℝ} {gm : GLMu ℝ} (h : InTab t g gm) (k : ℝ) : InTab t (updateGLQ g k) gm :=
  ⟨⟨h.rule.len, h.rule.size, h.rule.pos, h.rule.asc, h.rule.w, h.rule.wref⟩, h.mu, h.q⟩

theorem InTab.node {t : Pk ℝ} {g : GLQ ℝ} {gm : GLMu ℝ} (h : InTab t g gm) {iq : ℕ} {q : ℝ} (hq : rd g.q iq = .ok q) : t.Within q :=
  h.q _ (rd_mem hq)

/-! ## Terms -/

/-- The calls of a routine that hands its tables on: tables of an affine spectrum, one table of angles, polynomial values. -/
def CallsDeg {ι : Type} (g0 : GLQ ℝ) (gm : GLMu ℝ) (d : ι → ℕ) (r : ℝ → (GLQ ℝ × GLMu ℝ) × (ι → ℝ)) : Prop :=
  AffTab g0 (fun s => (r s).1.1) ∧ (∃ gm', SameMu gm' gm ∧ ∀ s, (r s).1.2 = gm') ∧ DegAll d fun s => (r s).2

/-- The same for a single value. -/
def CallDeg (g0 : GLQ ℝ) (gm : GLMu ℝ) (n : ℕ) (r : ℝ → (GLQ ℝ × GLMu ℝ) × ℝ) : Prop :=
  AffTab g0 (fun s => (r s).1.1) ∧ (∃ gm', SameMu gm' gm ∧ ∀ s, (r s).1.2 = gm') ∧ PolyDeg n fun s => (r s).2

section

variable {t : Pk ℝ} (d : List ℝ) {g0 : GLQ ℝ} {g : ℝ → GLQ ℝ} (hg : AffTab g0 g) {gm : GLMu ℝ} (ht : InTab t g0 gm) {k : ℝ} (hk : 0 < k)

include hg ht hk

theorem calcGamma2Tree_fam (i : Interpol) (a b : Field) :
    Fam (CallDeg (updateGLQ g0 k) gm 2) fun s => calcGamma2Tree (t.line d s) i a b (g s) gm k := by
  have hu := hg.update k
  unfold calcGamma2Tree
  dsimp only
  refine Fam.bind (quadLoop_fam hu (fun _ => 2) true gm _ (fun iq hiq lo hi hr mu hmu => ?_) fun iq _ => noExtra_fam _ iq) ?_
  · unfold kernelGamma2Tree
    simp only [fun s => (hu.1 s).2.1, fun s => (hu.1 s).2.2.1, fun s => (hu.1 s).2.2.2.1]
    refine Fam.same fun x hx => ?_
    refine Fam.same fun q _ => ?_
    refine Fam.bind (hu.rd iq) fun p hp => ?_
    refine Fam.bind (look_fam t d i (ht.visited hk hiq hr hmu hx)) fun r hr => ?_
    refine Fam.ok (v := fun s => fun _ : Unit => _) fun _ => ?_
    exact (((hp.const_mul 2).mul hr.deg).mul_const _).mul_const _
  rintro v ⟨gm', h1, h2, h3⟩
  exact Fam.ok (v := fun s => ((updateGLQ (g s) k, (v s).1), (v s).2 () * _)) ⟨hu, ⟨gm', h1, h2⟩, (h3 ()).mul_const _⟩

theorem calcBias_fam (i : Interpol) (a : Field) {kn : BiasKernel} {n : ℕ}
    (hkn : ∀ (a : Field) (q kq mu m : ℝ) (p r : ℝ → ℝ), PolyDeg 1 p → PolyDeg 1 r → PolyDeg n fun s => kn a q kq mu m (p s) (r s)) (half : Bool) :
    Fam (CallDeg (updateGLQ g0 k) gm n) fun s => calcBias (t.line d s) i a kn half (g s) gm k := by
  have hu := hg.update k
  unfold calcBias
  dsimp only
  refine Fam.bind (quadLoop_fam hu (fun _ => n) half gm _ (fun iq hiq lo hi hr mu hmu => ?_) fun iq _ => noExtra_fam _ iq) ?_
  · unfold kernelPkBias
    simp only [fun s => (hu.1 s).2.1, fun s => (hu.1 s).2.2.1, fun s => (hu.1 s).2.2.2.1]
    refine Fam.same fun x hx => ?_
    refine Fam.same fun q _ => ?_
    refine Fam.bind (hu.rd iq) fun p hp => ?_
    refine Fam.bind (look_fam t d i (ht.visited hk hiq hr hmu hx)) fun r hr => ?_
    exact Fam.ok (v := fun s => fun _ : Unit => _) fun _ => hkn _ _ _ _ _ p r hp hr.deg
  rintro v ⟨gm', h1, h2, h3⟩
  exact Fam.ok (v := fun s => ((updateGLQ (g s) k, (v s).1), _ * (v s).2 ())) ⟨hu, ⟨gm', h1, h2⟩, (h3 ()).const_mul _⟩

theorem calcA1_fam (i j : Interpol) (hk' : t.Within k) :
    Fam (CallsDeg (updateGLQ g0 k) gm fun _ => 2) fun s => calcA1 (t.line d s) i j (g s) gm k := by
  have hu := hg.update k
  unfold calcA1
  dsimp only
  refine Fam.bind (look_fam t d i hk') fun pk hpk => ?_
  refine Fam.bind (quadLoop_fam hu (fun _ => 2) false gm _ (fun iq hiq lo hi hr mu hmu => ?_) fun iq _ => ?_) ?_
  · unfold kernelA1
    simp only [fun s => (hu.1 s).2.1, fun s => (hu.1 s).2.2.1]
    refine Fam.same fun x hx => ?_
    refine Fam.bind (hu.rd iq) fun p hp => ?_
    have hv : t.Within (k * Real.sqrt (1 + pw x 2 - 2 * pw mu 1 * pw x 1)) := by
      simpa only [pw, pow_two, pow_one] using ht.visited hk hiq hr hmu hx
    refine Fam.bind (look_fam t d j hv) fun r hr => ?_
    refine Fam.ok (v := fun s => fun _ : Fin 5 => _) fun l => ?_
    exact ((hpk.deg.const_mul _).add (hp.const_mul _)).mul (hr.deg.div_const _)
  · unfold kernelA1a
    simp only [fun s => (hu.1 s).2.2.1]
    refine Fam.same fun x hx => ?_
    refine Fam.bind (hu.rd iq) fun p hp => ?_
    refine Fam.ok (v := fun s => fun _ : Fin 5 => _) fun l => ?_
    exact (hpk.deg.mul hp).const_mul _
  rintro v ⟨gm', h1, h2, h3⟩
  exact Fam.ok (v := fun s => ((updateGLQ (g s) k, (v s).1), fun i => (v s).2 i * _)) ⟨hu, ⟨gm', h1, h2⟩, fun i => (h3 i).mul_const _⟩

end

theorem gamma2StdPT_fam {gd0 gt0 : GLQ ℝ} {gd gt : ℝ → GLQ ℝ} (hd : AffTab gd0 gd) (ht : AffTab gt0 gt) (a : Field) (k1 k2 k3 : ℝ) :
    Fam (PolyDeg 1) fun s => gamma2StdPT (gd s) (gt s) a 1 k1 k2 k3 := by
  cases a
  · exact gamma2OneLoop_fam hd .delta k1 k2 k3
  · exact gamma2OneLoop_fam ht .theta k1 k2 k3

theorem other_fam {n : ℕ} {a b : Field} {va : ℝ → ℝ} {r : ℝ → Res ℝ} (ha : PolyDeg n va) (h : Fam (PolyDeg n) r) :
    Fam (PolyDeg n) fun s => other a b (va s) (r s) := by
  unfold other
  split
  · exact Fam.ok ha
  · exact h

theorem calcGamma2Loop_fam {t : Pk ℝ} (d : List ℝ) {g0 gd0 gt0 : GLQ ℝ} {g gd gt : ℝ → GLQ ℝ} (hg : AffTab g0 g) (hd : AffTab gd0 gd)
    (hth : AffTab gt0 gt) {gm : GLMu ℝ} (ht : InTab t g0 gm) {k : ℝ} (hk : 0 < k) (i : Interpol) (a b : Field) :
    Fam (CallsDeg (updateGLQ g0 k) gm ![2, 3, 4]) fun s => calcGamma2Loop (t.line d s) i (gd s) (gt s) a b (g s) gm k := by
  have hu := hg.update k
  unfold calcGamma2Loop
  dsimp only
  refine Fam.bind (quadLoop_fam hu ![2, 3, 4] true gm _ (fun iq hiq lo hi hr mu hmu => ?_) fun iq _ => noExtra_fam _ iq) ?_
  · unfold kernelGamma2Loop
    simp only [fun s => (hu.1 s).2.1, fun s => (hu.1 s).2.2.1, fun s => (hu.1 s).2.2.2.1]
    refine Fam.same fun x hx => ?_
    refine Fam.same fun q _ => ?_
    refine Fam.bind (hu.rd iq) fun p hp => ?_
    refine Fam.bind (look_fam t d i (ht.visited hk hiq hr hmu hx)) fun r hr => ?_
    refine Fam.same fun at' _ => ?_
    refine Fam.bind (gamma2StdPT_fam hd hth a _ _ _) fun a1 ha => ?_
    refine Fam.bind (R := PolyDeg 0) ?_ fun bt hbt => ?_
    · unfold other
      split
      · exact Fam.ok (PolyDeg.const at')
      · exact Fam.ok (PolyDeg.const _)
    refine Fam.bind (other_fam ha (gamma2StdPT_fam hd hth b _ _ _)) fun b1 hb => ?_
    refine Fam.ok (v := fun s => ![_, _, _]) fun l => ?_
    have h0 := (hp.const_mul 2).mul hr.deg
    fin_cases l
    · exact (h0.mul_const _).mul hbt
    · exact h0.mul ((hb.const_mul _).add (ha.mul hbt))
    · exact (h0.mul ha).mul hb
  rintro v ⟨gm', h1, h2, h3⟩
  exact Fam.ok (v := fun s => ((updateGLQ (g s) k, (v s).1), fun i => (v s).2 i * _)) ⟨hu, ⟨gm', h1, h2⟩, fun i => (h3 i).mul_const _⟩

theorem calcGamma1TwoLoop_fam {g10 g20 : GLQ ℝ} {g1 g2 : ℝ → GLQ ℝ} (h1 : AffTab g10 g1) (h2 : AffTab g20 g2) (a b : Field) (k : ℝ) :
    Fam (fun r => (PolyDeg 1 fun s => (r s).1) ∧ (PolyDeg 2 fun s => (r s).2.1) ∧ (PolyDeg 1 fun s => (r s).2.2.1) ∧ PolyDeg 2 fun s => (r s).2.2.2)
      fun s => calcGamma1TwoLoop a b (g1 s) (g2 s) k := by
  unfold calcGamma1TwoLoop
  split
  · refine Fam.bind (gamma1OneLoop_fam h1 a k) fun a1 ha1 => ?_
    refine Fam.bind (gamma1TwoLoop_fam h2 a k) fun a2 ha2 => ?_
    have := ha2.add ((ha1.mul ha1).div_const 2)
    exact Fam.ok (v := fun s => (_, _, _, _)) ⟨ha1, this, ha1, this⟩
  · refine Fam.bind (gamma1OneLoop_fam h1 a k) fun a1 ha1 => ?_
    refine Fam.bind (gamma1TwoLoop_fam h2 a k) fun a2 ha2 => ?_
    refine Fam.bind (gamma1OneLoop_fam h1 b k) fun b1 hb1 => ?_
    refine Fam.bind (gamma1TwoLoop_fam h2 b k) fun b2 hb2 => ?_
    exact Fam.ok (v := fun s => (_, _, _, _)) ⟨ha1, ha2.add ((ha1.mul ha1).div_const 2), hb1, hb2.add ((hb1.mul hb1).div_const 2)⟩

theorem g3_ge {qmin qmax x : ℝ} (h0 : 0 < qmin) (h : qmin ≤ qmax) (hx : 0 ≤ x ∧ x ≤ 1) :
    qmin ≤ Real.exp (Real.log qmin + (Real.log qmax - Real.log qmin) * x) := by
  rw [← Real.log_le_iff_le_exp h0]
  have := Real.log_le_log h0 h
  nlinarith [mul_nonneg (sub_nonneg.2 this) hx.1]

theorem kernelGamma3_fam {t : Pk ℝ} (d : List ℝ) (i : Interpol) (a b : Field) (k : ℝ) {qmin qmax : ℝ} (h0 : 0 < qmin) (hle : qmin ≤ qmax)
    (h1 : t.Within qmin) (h2 : t.Within qmax) {xx : Fin 5 → ℝ} (hx : ∀ j, 0 ≤ xx j ∧ xx j ≤ 1) :
    Fam (PolyDeg 3) fun s => kernelGamma3 (t.line d s) i a b k qmin qmax xx := by
  unfold kernelGamma3
  dsimp only
  have hw : ∀ {κ}, qmin ≤ κ → κ ≤ qmax → t.Within κ := fun a b => ⟨h1.1.trans a, b.trans h2.2⟩
  split
  · rename_i hc
    refine Fam.bind (look_fam t d i (hw (g3_ge h0 hle (hx 0)) (g3_le h0 hle (hx 0)))) fun p hp => ?_
    refine Fam.bind (look_fam t d i (hw (g3_ge h0 hle (hx 3)) (g3_le h0 hle (hx 3)))) fun q hq => ?_
    refine Fam.bind (look_fam t d i (hw hc.1 hc.2.1)) fun r hr => ?_
    exact Fam.ok ((((((hp.deg.const_mul _).mul hq.deg).mul hr.deg).mul_const _).const_mul _))
  · exact Fam.ok (PolyDeg.const 0)

theorem calcB_fam {dt tt : Pk ℝ} (d e : List ℝ) {g0 : GLQ ℝ} {g : ℝ → GLQ ℝ} (hg : AffTab g0 g) {gm : GLMu ℝ} (h1 : InTab dt g0 gm)
    (h2 : InTab tt g0 gm) {k : ℝ} (hk : 0 < k) (i : Interpol) :
    Fam (CallsDeg (updateGLQ g0 k) gm fun _ => 2) fun s => calcB (dt.line d s) (tt.line e s) i (g s) gm k := by
  have hu := hg.update k
  unfold calcB
  dsimp only
  refine Fam.bind (quadLoop_fam hu (fun _ => 2) true gm _ (fun iq hiq lo hi hr mu hmu => ?_) fun iq _ => noExtra_fam _ iq) ?_
  · unfold kernelB
    simp only [fun s => (hu.1 s).2.1, fun s => (hu.1 s).2.2.1, fun s => (hu.1 s).2.2.2.1]
    refine Fam.same fun x hx => ?_
    refine Fam.same fun q hq => ?_
    have hv : ∀ {t : Pk ℝ}, InTab t g0 gm → t.Within (k * Real.sqrt (1 + pw x 2 - 2 * pw mu 1 * pw x 1)) := fun h => by
      simpa only [pw, pow_two, pow_one] using h.visited hk hiq hr hmu hx
    refine Fam.bind (look_fam dt d i ((h1.update k).node hq)) fun p hp => ?_
    refine Fam.bind (look_fam dt d i (hv h1)) fun r hr => ?_
    refine Fam.bind (look_fam tt e i ((h2.update k).node hq)) fun u hu => ?_
    refine Fam.bind (look_fam tt e i (hv h2)) fun w hw => ?_
    refine Fam.ok (v := fun s => fun _ : Fin 12 => _) fun l => PolyDeg.const_mul _ ?_
    fin_cases l
    · exact hr.deg.mul hp.deg
    · exact hr.deg.mul hu.deg
    · exact hw.deg.mul hp.deg
    · exact hw.deg.mul hu.deg
    · exact hr.deg.mul hp.deg
    · exact hr.deg.mul hu.deg
    · exact hw.deg.mul hp.deg
    · exact hw.deg.mul hu.deg
    · exact hr.deg.mul hu.deg
    · exact hw.deg.mul hp.deg
    · exact hw.deg.mul hu.deg
    · exact hw.deg.mul hu.deg
  rintro v ⟨gm', h1, h2, h3⟩
  exact Fam.ok (v := fun s => ((updateGLQ (g s) k, (v s).1), fun i => (v s).2 i * _)) ⟨hu, ⟨gm', h1, h2⟩, fun i => (h3 i).mul_const _⟩

end Verif
