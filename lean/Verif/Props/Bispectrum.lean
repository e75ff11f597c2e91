import Verif.Model.Bispectrum
import Verif.Props.FindPk
import Verif.Props.Sigma
import Verif.Props.Kernels
import Verif.Props.Gamma2
import Verif.Props.Redshift

/-!
# C27, C28, C29 – one-loop bispectrum
-/

namespace Verif

/-! ## C27 -/

open Classical in
/-- One ordered pair of legs of the 222 contribution. -/
noncomputable def term222 (X Y Z : BiLeg) (qq : Vec) (q pk : ℝ) : ℝ :=
  if q < X.p ∧ q < Y.r then F2Full X.f X.pp qq * F2Full Y.f Y.rr (-qq) * F2Full Z.f Y.rr X.pp * X.pk_p * pk * Y.pk_r else 0

open Classical in
/-- One leg of the 321 contribution. -/
noncomputable def term321 (X Y Z : BiLeg) (qq : Vec) (q pk : ℝ) : ℝ :=
  (if q < X.p then F2Full X.f X.pp qq * X.pk_p * pk * (F3Sym Y.f Z.kk X.pp qq * Z.pk_k + F3Sym Z.f Y.kk X.pp qq * Y.pk_k) else 0) +
  (if q < X.r then F2Full X.f X.rr (-qq) * X.pk_r * pk * (F3Sym Y.f Z.kk X.rr (-qq) * Z.pk_k + F3Sym Z.f Y.kk X.rr (-qq) * Y.pk_k) else 0)

theorem term222_rev (X Y Z : BiLeg) (qq : Vec) (q pk : ℝ) : term222 X Y Z qq q pk =
    (if q < Y.r ∧ q < X.p then F2Full Y.f Y.rr (-qq) * F2Full X.f X.pp qq * F2Full Z.f X.pp Y.rr * Y.pk_r * pk * X.pk_p else 0) := by
  unfold term222
  rw [C17_F2_symm Z.f X.pp Y.rr]
  simp only [and_comm (a := q < Y.r)]
  congr 1
  ring

theorem bk222_sum (A B C : BiLeg) (qq : Vec) (q pk : ℝ) : bk222 A B C qq q pk =
    term222 A B C qq q pk + term222 B A C qq q pk + term222 C B A qq q pk + term222 B C A qq q pk + term222 A C B qq q pk
      + term222 C A B qq q pk := by
  rw [term222_rev B A C, term222_rev B C A, term222_rev C A B]
  unfold bk222 term222
  dsimp only
  rw [zero_add]

theorem term321_swap (X Y Z : BiLeg) (qq : Vec) (q pk : ℝ) : term321 X Y Z qq q pk = term321 X Z Y qq q pk := by
  unfold term321
  rw [_root_.add_comm (F3Sym Y.f Z.kk X.pp qq * Z.pk_k), _root_.add_comm (F3Sym Y.f Z.kk X.rr (-qq) * Z.pk_k)]

theorem bk321_sum (A B C : BiLeg) (qq : Vec) (q pk : ℝ) : bk321 A B C qq q pk =
    term321 B A C qq q pk + term321 C A B qq q pk + term321 A B C qq q pk := by
  unfold bk321 term321
  dsimp only
  simp only [← add_assoc, zero_add]
  congr 1
  · congr 1
    · congr 1
      · congr 1
        · congr 1
          · congr 1; ring
          · congr 1; ring
        · congr 1; ring
      · congr 1; ring
    · congr 1; ring
  · congr 1; ring

/-- A (wavevector, field) pair. -/
structure BiArg where
  kk : Vec
  f : Field

/-- `bispectrum_1loop_II_III` with its arguments grouped in three pairs. -/
noncomputable def bispectrumPairs (t : Pk ℝ) (interpol : Interpol) (l : Fin 3 → BiArg) (qq : Vec) : Res (ℝ × ℝ) :=
  bispectrumII t interpol (l 0).kk (l 1).kk (l 2).kk qq (l 0).f (l 1).f (l 2).f

/-- C27: permuting the three (wavevector, field) pairs leaves both contributions unchanged. -/
theorem C27_permutation (t : Pk ℝ) (interpol : Interpol) (l : Fin 3 → BiArg) (qq : Vec) (s : Equiv.Perm (Fin 3)) (r : ℝ × ℝ)
    (h : bispectrumPairs t interpol l qq = .ok r) : bispectrumPairs t interpol (l ∘ s) qq = .ok r := by
  unfold bispectrumPairs bispectrumII at h
  dsimp only at h
  simp only [Res.bind_eq_ok] at h
  obtain ⟨pq, hq, A, hA, B, hB, C, hC, hr⟩ := h
  have key : ∀ i : Fin 3, biLeg t interpol (l i).f (l i).kk qq = .ok ((![A, B, C] : Fin 3 → BiLeg) i) := by
    intro i
    fin_cases i
    · exact hA
    · exact hB
    · exact hC
  unfold bispectrumPairs bispectrumII
  dsimp only [Function.comp]
  rw [hq, key, key, key]
  simp only [Res.ok_bind]
  rw [← hr, bk222_sum, bk222_sum, bk321_sum, bk321_sum]
  have h01 : s 0 ≠ s 1 := fun e => by have := s.injective e; simp at this
  have h02 : s 0 ≠ s 2 := fun e => by have := s.injective e; simp at this
  have h12 : s 1 ≠ s 2 := fun e => by have := s.injective e; simp at this
  generalize s 0 = a at *
  generalize s 1 = b at *
  generalize s 2 = c at *
  fin_cases a <;> fin_cases b <;> fin_cases c <;> simp at h01 h02 h12 ⊢
  · rw [term321_swap A C B]; constructor <;> (left; ring)
  · rw [term321_swap C B A]; constructor <;> (left; ring)
  · rw [term321_swap C B A, term321_swap B C A]; constructor <;> (left; ring)
  · rw [term321_swap A C B, term321_swap B C A]; constructor <;> (left; ring)
  · rw [term321_swap A C B, term321_swap B C A, term321_swap C B A]; constructor <;> (left; ring)

/-- C27: reversing the loop momentum leaves both contributions unchanged. -/
theorem C27_reversal (t : Pk ℝ) (interpol : Interpol) (l : Fin 3 → BiArg) (qq : Vec) (r : ℝ × ℝ)
    (h : bispectrumPairs t interpol l qq = .ok r) : bispectrumPairs t interpol l (-qq) = .ok r := by
  have hn : (-qq).norm = qq.norm := by simp [Vec.norm]
  have hnn : - -qq = qq := by
    show Vec.mk _ _ _ = Vec.mk _ _ _
    congr 1 <;> simp
  have hs : ∀ v : Vec, v - -qq = v + qq := by
    intro v
    show Vec.mk _ _ _ = Vec.mk _ _ _
    congr 1 <;> simp
  have ha : ∀ v : Vec, v + -qq = v - qq := by
    intro v
    show Vec.mk _ _ _ = Vec.mk _ _ _
    congr 1
  have leg : ∀ (f : Field) (v : Vec) (X : BiLeg), biLeg t interpol f v qq = .ok X →
      biLeg t interpol f v (-qq) = .ok ⟨X.f, X.kk, X.rr, X.pp, X.r, X.p, X.pk_k, X.pk_r, X.pk_p⟩ := by
    intro f v X hX
    unfold biLeg at hX ⊢
    dsimp only at hX ⊢
    simp only [Res.bind_eq_ok] at hX
    obtain ⟨a, h1, b, h2, c, h3, h4⟩ := hX
    rw [hs, ha, h1, h2, h3]
    injection h4 with h4
    subst h4
    rfl
  unfold bispectrumPairs bispectrumII at h ⊢
  dsimp only at h ⊢
  simp only [Res.bind_eq_ok] at h
  obtain ⟨pq, hq, A, hA, B, hB, C, hC, hr⟩ := h
  rw [hn, hq, leg _ _ _ hA, leg _ _ _ hB, leg _ _ _ hC]
  simp only [Res.ok_bind]
  rw [← hr]
  have r222 : ∀ X Y Z : BiLeg, term222 ⟨X.f, X.kk, X.rr, X.pp, X.r, X.p, X.pk_k, X.pk_r, X.pk_p⟩
      ⟨Y.f, Y.kk, Y.rr, Y.pp, Y.r, Y.p, Y.pk_k, Y.pk_r, Y.pk_p⟩ ⟨Z.f, Z.kk, Z.rr, Z.pp, Z.r, Z.p, Z.pk_k, Z.pk_r, Z.pk_p⟩
      (-qq) qq.norm pq = term222 Y X Z qq qq.norm pq := by
    intro X Y Z
    rw [term222_rev Y X Z]
    unfold term222
    dsimp only
    rw [hnn, C17_F2_symm Z.f Y.pp X.rr, C17_F2_symm Z.f X.rr Y.pp]
  have r321 : ∀ X Y Z : BiLeg, term321 ⟨X.f, X.kk, X.rr, X.pp, X.r, X.p, X.pk_k, X.pk_r, X.pk_p⟩
      ⟨Y.f, Y.kk, Y.rr, Y.pp, Y.r, Y.p, Y.pk_k, Y.pk_r, Y.pk_p⟩ ⟨Z.f, Z.kk, Z.rr, Z.pp, Z.r, Z.p, Z.pk_k, Z.pk_r, Z.pk_p⟩
      (-qq) qq.norm pq = term321 X Y Z qq qq.norm pq := by
    intro X Y Z
    unfold term321
    dsimp only
    rw [hnn, _root_.add_comm]
  simp only [bk222_sum, bk321_sum, r222, r321]
  congr 3
  ring

/-- Parity: changing the sign of the three wavevectors leaves both contributions unchanged. -/
theorem C27_parity (t : Pk ℝ) (interpol : Interpol) (l : Fin 3 → BiArg) (qq : Vec) (r : ℝ × ℝ)
    (h : bispectrumPairs t interpol l qq = .ok r) :
    bispectrumPairs t interpol (fun i => ⟨-(l i).kk, (l i).f⟩) qq = .ok r := by
  have h := C27_reversal t interpol l qq r h
  have hnn : - -qq = qq := by
    show Vec.mk _ _ _ = Vec.mk _ _ _
    congr 1 <;> simp
  have hneg : ∀ v : Vec, (-v).norm = v.norm := by intro v; simp [Vec.norm]
  have hs : ∀ v : Vec, -v - qq = -(v - -qq) := by
    intro v
    show Vec.mk _ _ _ = Vec.mk _ _ _
    congr 1 <;> simp <;> ring
  have ha : ∀ v : Vec, -v + qq = -(v + -qq) := by
    intro v
    show Vec.mk _ _ _ = Vec.mk _ _ _
    congr 1 <;> simp <;> ring
  have leg : ∀ (f : Field) (v : Vec) (X : BiLeg), biLeg t interpol f v (-qq) = .ok X →
      biLeg t interpol f (-v) qq = .ok ⟨X.f, -X.kk, -X.pp, -X.rr, X.p, X.r, X.pk_k, X.pk_p, X.pk_r⟩ := by
    intro f v X hX
    unfold biLeg at hX ⊢
    dsimp only at hX ⊢
    simp only [Res.bind_eq_ok] at hX
    obtain ⟨a, h1, b, h2, c, h3, h4⟩ := hX
    rw [hs, ha, hneg, hneg, hneg, h1, h2, h3]
    injection h4 with h4
    subst h4
    rfl
  unfold bispectrumPairs bispectrumII at h ⊢
  dsimp only at h ⊢
  simp only [Res.bind_eq_ok] at h
  obtain ⟨pq, hq, A, hA, B, hB, C, hC, hr⟩ := h
  rw [hneg] at hq hr
  rw [hq, leg _ _ _ hA, leg _ _ _ hB, leg _ _ _ hC]
  simp only [Res.ok_bind]
  rw [← hr]
  have f2 : ∀ (a : Field) (v : Vec), F2Full a (-v) qq = F2Full a v (-qq) := by
    intro a v
    rw [← C17_F2_parity a v (-qq), hnn]
  have f3 : ∀ (a : Field) (u v : Vec), F3Sym a (-u) (-v) qq = F3Sym a u v (-qq) := by
    intro a u v
    rw [← C18_F3_parity a u v (-qq), hnn]
  simp only [bk222, bk321, hnn, f2, f3, C17_F2_parity, C18_F3_parity]

theorem look_lookup (t : Pk ℝ) (h : t.Increasing) (h1 : 1 ≤ t.nk) (interpol : Interpol) (k : ℝ) : look t interpol k = lookup t interpol k := by
  unfold look
  rw [findPk_single t h h1]
  cases lookup t interpol k <;> rfl

theorem look_defined (t : Pk ℝ) (h : t.Increasing) (h2 : 2 ≤ t.nk) (k : ℝ) : ∃ v, look t .poly k = .ok v := by
  obtain ⟨vs, e⟩ := C06_findPk_poly_safe t h.toWF h2 [k]
  rw [findPk_single t h (by omega), Res.bind_eq_ok] at e
  obtain ⟨v, e, -⟩ := e
  exact ⟨v, by rw [look_lookup t h (by omega), e]⟩

/-- Non-vacuity of the hypotheses of C27: with `poly` interpolation and a table of at least two modes the computation is always defined. -/
theorem bispectrumPairs_defined (t : Pk ℝ) (h : t.Increasing) (h2 : 2 ≤ t.nk) (l : Fin 3 → BiArg) (qq : Vec) :
    ∃ r, bispectrumPairs t .poly l qq = .ok r := by
  have lk := look_defined t h h2
  have leg : ∀ f v, ∃ X, biLeg t .poly f v qq = .ok X := by
    intro f v
    obtain ⟨a, h1⟩ := lk v.norm
    obtain ⟨b, h2⟩ := lk (v - qq).norm
    obtain ⟨c, h3⟩ := lk (v + qq).norm
    unfold biLeg
    dsimp only
    rw [h1, h2, h3]
    exact ⟨_, rfl⟩
  unfold bispectrumPairs bispectrumII
  dsimp only
  obtain ⟨a, h1⟩ := lk qq.norm
  obtain ⟨A, hA⟩ := leg (l 0).f (l 0).kk
  obtain ⟨B, hB⟩ := leg (l 1).f (l 1).kk
  obtain ⟨C, hC⟩ := leg (l 2).f (l 2).kk
  rw [h1, hA, hB, hC]
  exact ⟨_, rfl⟩

example : ∃ r, bispectrumPairs exTable .poly ![⟨⟨1, 0, 2⟩, .theta⟩, ⟨⟨-1, 1, 1⟩, .delta⟩, ⟨⟨0, -1, -3⟩, .delta⟩] ⟨1, 2, 3⟩ = .ok r ∧
    bispectrumPairs exTable .poly (![⟨⟨1, 0, 2⟩, .theta⟩, ⟨⟨-1, 1, 1⟩, .delta⟩, ⟨⟨0, -1, -3⟩, .delta⟩] ∘ Equiv.swap 0 2) ⟨1, 2, 3⟩ = .ok r := by
  obtain ⟨r, hr⟩ := bispectrumPairs_defined exTable exTable_physical.toIncreasing (by decide)
    ![⟨⟨1, 0, 2⟩, .theta⟩, ⟨⟨-1, 1, 1⟩, .delta⟩, ⟨⟨0, -1, -3⟩, .delta⟩] ⟨1, 2, 3⟩
  exact ⟨r, hr, C27_permutation _ _ _ _ _ _ hr⟩

/-! ## C28 -/

/-- A wavenumber at which the thresholds of the two loop legs (`1e-2` for `p`, `3e-2` for `|k-p|`) come out the same. -/
def LegThreshold (p : ℝ) : Prop := p < 1 / 100 ∨ 3 / 100 ≤ p

theorem LegThreshold.iff {p : ℝ} (h : LegThreshold p) : 1 / 100 ≤ p ↔ 3 / 100 ≤ p := by
  rcases h with h | h
  · constructor
    · intro h'; linarith
    · intro h'; linarith
  · constructor
    · intro _; exact h
    · intro _; linarith

theorem gamma1Reg_exchange (g1 : GLQ ℝ) (k p kp sk sp skp : ℝ) (h : k < 1 / 100 ∨ (LegThreshold p ∧ LegThreshold kp)) (r : G1Reg)
    (hr : gamma1Reg g1 k p kp sk sp skp = .ok r) :
    gamma1Reg g1 k kp p sk skp sp = .ok ⟨r.dk, r.tk, r.dkp, r.tkp, r.dp, r.tp⟩ := by
  have e1 : (1 / 100 ≤ p ∧ 1 / 100 ≤ k) = (3 / 100 ≤ p ∧ 1 / 100 ≤ k) := by
    rcases h with h | ⟨h, -⟩
    · exact propext ⟨fun h' => absurd h'.2 (not_le.mpr h), fun h' => absurd h'.2 (not_le.mpr h)⟩
    · rw [h.iff]
  have e2 : (1 / 100 ≤ kp ∧ 1 / 100 ≤ k) = (3 / 100 ≤ kp ∧ 1 / 100 ≤ k) := by
    rcases h with h | ⟨-, h⟩
    · exact propext ⟨fun h' => absurd h'.2 (not_le.mpr h), fun h' => absurd h'.2 (not_le.mpr h)⟩
    · rw [h.iff]
  unfold gamma1Reg at hr ⊢
  simp only [e1, e2, Res.bind_eq_ok] at hr ⊢
  obtain ⟨a, h1, b, h2, c, h3, h4⟩ := hr
  injection h4 with h4
  subst h4
  exact ⟨a, h1, c, h3, b, h2, rfl⟩

theorem rMax3_perm (k p kp : ℝ) : rMax3 p k kp = rMax3 kp k p := by
  rw [rMax3_eq, rMax3_eq, max_comm k kp, max_left_comm, max_comm p k]

theorem gamma2Reg_exchange (gd gt : GLQ ℝ) (hd : gd.Ok) (ht : gt.Ok) (k p kp sk sp skp : ℝ) (hp : p ≠ 0) (hkp : kp ≠ 0)
    (h : k < 1 / 100 ∨ ∀ n ∈ gd.nodes ++ gt.nodes, G2Agree p kp k n.1) (r : G2Reg)
    (hr : gamma2Reg gd gt k p kp sk sp skp = .ok r) :
    gamma2Reg gd gt k kp p sk skp sp = .ok ⟨r.dpk, r.tpk, r.dkpk, r.tkpk, r.dpkp, r.tpkp⟩ := by
  unfold gamma2Reg at hr ⊢
  rw [rMax3_perm k p kp]
  by_cases c : 1 / 100 ≤ rMax3 kp k p ∧ 1 / 100 ≤ k
  · rw [if_pos c] at hr ⊢
    have h := h.resolve_left (not_lt.mpr c.2)
    have ed : g2RegOne .delta gd kp p k sk = g2RegOne .delta gd p kp k sk := by
      unfold g2RegOne
      rw [C24_gamma2_partial .delta gd hd p kp k hp hkp (fun n hn => h n (List.mem_append_left _ hn)), C26_gamma2_tree .delta p kp k]
    have et : g2RegOne .theta gt kp p k sk = g2RegOne .theta gt p kp k sk := by
      unfold g2RegOne
      rw [C24_gamma2_partial .theta gt ht p kp k hp hkp (fun n hn => h n (List.mem_append_right _ hn)), C26_gamma2_tree .theta p kp k]
    rw [ed, et]
    simp only [Res.bind_eq_ok] at hr ⊢
    obtain ⟨a1, h1, a2, h2, a3, h3, a4, h4, a5, h5, a6, h6, h7⟩ := hr
    injection h7 with h7
    subst h7
    exact ⟨a3, h3, a4, h4, a1, h1, a2, h2, a5, h5, a6, h6, rfl⟩
  · rw [if_neg c] at hr ⊢
    injection hr with hr
    subst hr
    rw [C26_gamma2_tree .delta kp p k, C26_gamma2_tree .theta kp p k]

/-- C28 outside the regions where the code switches differently for the two legs: when `k < 1e-2`, or neither leg lies in `[1e-2, 3e-2)` and the
two tests of `gamma2_1loop` that single out one leg agree at all nodes, exchanging `p` and `|k-p|` exchanges the A and tA bispectra.
Missing: legs in `[1e-2, 3e-2)` (`C28_threshold_violation`) and the region of `C24_gamma2_violation`. -/
theorem C28_exchange_partial (t : Pk ℝ) (interpol : Interpol) (uvcutoff : ℝ) (g1 gd gt : GLQ ℝ) (hd : gd.Ok) (ht : gt.Ok) (k p kp : ℝ)
    (hp : p ≠ 0) (hkp : kp ≠ 0)
    (h : k < 1 / 100 ∨ (LegThreshold p ∧ LegThreshold kp ∧ ∀ n ∈ gd.nodes ++ gt.nodes, G2Agree p kp k n.1)) (out : BiOut)
    (ho : bispectrumI t interpol uvcutoff g1 gd gt k p kp = .ok out) :
    bispectrumI t interpol uvcutoff g1 gd gt k kp p = .ok ⟨out.t, out.a⟩ := by
  unfold bispectrumI at ho ⊢
  simp only [Res.bind_eq_ok] at ho ⊢
  obtain ⟨sk, h1, sp, h2, skp, h3, pk, h4, pp, h5, pkp, h6, r1, h7, r2, h8, h9⟩ := ho
  refine ⟨sk, h1, skp, h3, sp, h2, pk, h4, pkp, h6, pp, h5, _,
    gamma1Reg_exchange g1 k p kp sk sp skp (h.imp_right fun h => ⟨h.1, h.2.1⟩) r1 h7, _,
    gamma2Reg_exchange gd gt hd ht k p kp sk sp skp hp hkp (h.imp_right fun h => h.2.2) r2 h8, ?_⟩
  injection h9 with h9
  subst h9
  have he : (k * k * sk + kp * kp * skp + p * p * sp) / 2 = (k * k * sk + p * p * sp + kp * kp * skp) / 2 := by ring
  rw [he]
  generalize Real.exp _ = E
  unfold biAssemble
  dsimp only

example : LegThreshold 0.005 ∧ LegThreshold 0.2 ∧ G2Agree 0.1 0.2 0.15 0.3 :=
  ⟨Or.inl (by norm_num), Or.inr (by norm_num), ⟨by norm_num [abs_lt], by norm_num [abs_lt]⟩⟩

/-- Value of `sigma1` when the cutoff is below the table or in a given interval of it. -/
theorem sigma1_below (t : Pk ℝ) (h : t.Increasing) (h1 : 1 ≤ t.nk) (uv k : ℝ) (hk : k * uv < t.k.getD 0 0) : sigma1 t uv k = .ok 0 := by
  obtain ⟨vs, e1, e2⟩ := sigmaLoop_ascending t h.toWF h1 uv [k] 0 (by omega) (by simp) (fun _ _ => Or.inr rfl)
  have h0 : (Histo.lit 0 : ℝ) = trap t 0 := by simp [trap]
  unfold sigma1 runningSigmad2
  rw [h0, e1]
  cases e2 with
  | cons hd tl =>
    rcases hd with ⟨-, a⟩ | ⟨a, -⟩
    · subst a; rfl
    · exact absurd hk (not_lt.mpr a)

theorem sigma1_in (t : Pk ℝ) (h : t.Increasing) (h1 : 1 ≤ t.nk) (uv k : ℝ) (i : ℕ) (hi : i + 1 < t.nk) (hk : t.k.getD i 0 ≤ k * uv)
    (hk' : k * uv < t.k.getD (i + 1) 0) : sigma1 t uv k = .ok (sigmaVal t (k * uv) i) := by
  obtain ⟨vs, e1, e2⟩ := sigmaLoop_ascending t h.toWF h1 uv [k] 0 (by omega) (by simp) (fun _ _ => Or.inr rfl)
  have h0 : (Histo.lit 0 : ℝ) = trap t 0 := by simp [trap]
  unfold sigma1 runningSigmad2
  rw [h0, e1]
  cases e2 with
  | cons hd tl =>
    rcases hd with ⟨a, -⟩ | ⟨-, j, a2, a3, a4, a5⟩
    · exact absurd ((getD_le h (Nat.zero_le i) (by omega)).trans hk) (not_le.mpr a)
    · have : j = i := by
        rcases lt_trichotomy j i with hj | hj | hj
        · have := a4 (by omega)
          exact absurd (this.trans_le (getD_le h hj (by omega))) (not_lt.mpr hk)
        · exact hj
        · exact absurd ((getD_le h hj (by omega)).trans a3) (not_le.mpr hk')
      subst this
      subst a5
      rfl

/-- Witness for `C28_threshold_violation`: constant spectrum up to `k = 0.03`, zero at `k = 1`. -/
noncomputable def tab28 : Pk ℝ := ⟨5, [0.011, 0.02, 0.025, 0.03, 1], [1, 1, 1, 1, 0]⟩

/-- A one-node rule whose node lies at the last mode of `tab28`. -/
noncomputable def glq28 : GLQ ℝ := { nq := 1, q := [1], w := [1], pk := [0], x := [], k := 1 }

theorem tab28_inc : tab28.Increasing where
  hk := rfl
  hpk := rfl
  hsize := by norm_num [tab28]
  incr := by
    show [(0.011 : ℝ), 0.02, 0.025, 0.03, 1].Pairwise (· < ·)
    norm_num [List.pairwise_cons]

theorem glq28_ok : glq28.Ok := ⟨rfl, rfl, rfl⟩

theorem glq28_pk : ∀ n ∈ glq28.nodes, look tab28 .poly n.1 = .ok n.2.2 := by
  intro n hn
  simp only [GLQ.nodes, glq28, List.zip_cons_cons, List.zip_nil_right, List.mem_singleton] at hn
  subst hn
  have := C08_findPk_node_poly tab28 tab28_inc 4 (by decide)
  simp only [tab28, List.getD_cons_succ, List.getD_cons_zero] at this
  unfold look
  rw [show (tab28 : Pk ℝ) = ⟨5, [0.011, 0.02, 0.025, 0.03, 1], [1, 1, 1, 1, 0]⟩ from rfl, this]
  rfl

theorem g1_zero (a : Field) (k : ℝ) : gamma1OneLoop a glq28 k = .ok 0 := by
  rw [C23_one_loop_sum a glq28 glq28_ok]
  simp [GLQ.nodes, glq28]

theorem g2_zero (a : Field) (k1 k2 k3 : ℝ) : gamma2OneLoop a glq28 k1 k2 k3 = .ok 0 := by
  rw [gamma2OneLoop_sum a glq28 glq28_ok]
  simp [GLQ.nodes, glq28]

theorem g1RegIf_28 (c : Prop) (k s : ℝ) (h : c) : g1RegIf c glq28 k s = .ok (1 + k * k * s / 2, 1 + k * k * s / 2) := by
  unfold g1RegIf g1RegOne
  rw [if_pos h, g1_zero, g1_zero]
  simp

theorem g1RegIf_else (c : Prop) (g : GLQ ℝ) (k s : ℝ) (h : ¬ c) : g1RegIf c g k s = .ok (1, 1) := by
  unfold g1RegIf
  rw [if_neg h]

theorem gamma2Reg_28 (k p kp sk sp skp : ℝ) (h : 1 / 100 ≤ k) : gamma2Reg glq28 glq28 k p kp sk sp skp = .ok
    ⟨gamma2Tree .delta kp k p * (1 + p * p * sp / 2), gamma2Tree .theta kp k p * (1 + p * p * sp / 2),
     gamma2Tree .delta p k kp * (1 + kp * kp * skp / 2), gamma2Tree .theta p k kp * (1 + kp * kp * skp / 2),
     gamma2Tree .delta p kp k * (1 + k * k * sk / 2), gamma2Tree .theta p kp k * (1 + k * k * sk / 2)⟩ := by
  unfold gamma2Reg
  have : 1 / 100 ≤ rMax3 kp k p := by
    rw [rMax3_eq]
    exact h.trans ((le_max_left k p).trans (le_max_right _ _))
  rw [if_pos ⟨this, h⟩]
  simp only [g2RegOne, g2_zero, Res.ok_bind, add_zero]

theorem look_28 (i : ℕ) (hi : i < 4) : look tab28 .poly (tab28.k.getD i 0) = .ok 1 := by
  unfold look
  rw [C08_findPk_node_poly tab28 tab28_inc i (by show i < 5; omega)]
  have : tab28.pk.getD i 0 = 1 := by
    simp only [tab28]
    interval_cases i <;> simp
  rw [this]
  rfl

open Classical in
/-- The regularised bispectrum when the loop corrections vanish. -/
theorem bispectrumI_28 (t : Pk ℝ) (i : Interpol) (uv k p kp sk sp skp Pk Pp Pkp : ℝ) (h1 : sigma1 t uv k = .ok sk) (h2 : sigma1 t uv p = .ok sp)
    (h3 : sigma1 t uv kp = .ok skp) (h4 : look t i k = .ok Pk) (h5 : look t i p = .ok Pp) (h6 : look t i kp = .ok Pkp) (hk : 1 / 100 ≤ k)
    (hp : 1 / 100 ≤ p) :
    bispectrumI t i uv glq28 glq28 glq28 k p kp = .ok (biAssemble
      ⟨1 + k * k * sk / 2, 1 + k * k * sk / 2, 1 + p * p * sp / 2, 1 + p * p * sp / 2,
        if 3 / 100 ≤ kp then 1 + kp * kp * skp / 2 else 1, if 3 / 100 ≤ kp then 1 + kp * kp * skp / 2 else 1⟩
      ⟨gamma2Tree .delta kp k p * (1 + p * p * sp / 2), gamma2Tree .theta kp k p * (1 + p * p * sp / 2),
       gamma2Tree .delta p k kp * (1 + kp * kp * skp / 2), gamma2Tree .theta p k kp * (1 + kp * kp * skp / 2),
       gamma2Tree .delta p kp k * (1 + k * k * sk / 2), gamma2Tree .theta p kp k * (1 + k * k * sk / 2)⟩
      Pk Pp Pkp (Real.exp (-((k * k * sk + p * p * sp + kp * kp * skp) / 2)))) := by
  unfold bispectrumI
  rw [h1, h2, h3, h4, h5, h6]
  simp only [Res.ok_bind]
  unfold gamma1Reg
  rw [g1RegIf_28 _ _ _ hk, g1RegIf_28 _ _ _ ⟨hp, hk⟩, gamma2Reg_28 _ _ _ _ _ _ hk]
  by_cases c : 3 / 100 ≤ kp
  · rw [g1RegIf_28 _ _ _ ⟨c, hk⟩, if_pos c]
    rfl
  · rw [g1RegIf_else _ _ _ _ (fun h => c h.1), if_neg c]
    rfl

/-- C28 fails for legs in `[1e-2, 3e-2)`: with `k = 0.03`, `p = 0.02`, `|k-p| = 0.025` (a triangle) the propagator of the leg passed as `p` is
regularised and that of the leg passed as `|k-p|` is not, so that exchanging the legs changes the bispectrum.  The quadrature table is
consistent with the linear spectrum (`glq28_pk`). -/
theorem C28_threshold_violation : ∃ (t : Pk ℝ) (g : GLQ ℝ) (o o' : BiOut), t.Increasing ∧ g.Ok ∧
    (∀ n ∈ g.nodes, look t .poly n.1 = .ok n.2.2) ∧ Triangle 0.03 0.02 0.025 ∧
    bispectrumI t .poly 0.5 g g g 0.03 0.02 0.025 = .ok o ∧ bispectrumI t .poly 0.5 g g g 0.03 0.025 0.02 = .ok o' ∧ o.t 0 < o'.a 0 := by
  have s1 : sigma1 tab28 0.5 0.03 = .ok (sigmaVal tab28 (0.03 * 0.5) 0) :=
    sigma1_in tab28 tab28_inc (by decide) _ _ 0 (by decide) (by norm_num [tab28]) (by norm_num [tab28])
  have s2 : sigma1 tab28 0.5 0.025 = .ok (sigmaVal tab28 (0.025 * 0.5) 0) :=
    sigma1_in tab28 tab28_inc (by decide) _ _ 0 (by decide) (by norm_num [tab28]) (by norm_num [tab28])
  have s3 : sigma1 tab28 0.5 0.02 = .ok 0 := sigma1_below tab28 tab28_inc (by decide) _ _ (by norm_num [tab28])
  have l1 : look tab28 .poly 0.03 = .ok 1 := by simpa [tab28] using look_28 3 (by norm_num)
  have l2 : look tab28 .poly 0.025 = .ok 1 := by simpa [tab28] using look_28 2 (by norm_num)
  have l3 : look tab28 .poly 0.02 = .ok 1 := by simpa [tab28] using look_28 1 (by norm_num)
  have p1 : 0 < sigmaVal tab28 (0.03 * 0.5) 0 := by
    rw [sigmaVal, if_neg (by decide)]
    simp [tab28, trap, interpolLin]
    positivity
  have p2 : 0 < sigmaVal tab28 (0.025 * 0.5) 0 := by
    rw [sigmaVal, if_neg (by decide)]
    simp [tab28, trap, interpolLin]
    positivity
  generalize sigmaVal tab28 (0.03 * 0.5) 0 = sk at *
  generalize sigmaVal tab28 (0.025 * 0.5) 0 = sq at *
  have e1 := bispectrumI_28 tab28 .poly 0.5 0.03 0.02 0.025 sk 0 sq 1 1 1 s1 s3 s2 l1 l3 l2 (by norm_num) (by norm_num)
  have e2 := bispectrumI_28 tab28 .poly 0.5 0.03 0.025 0.02 sk sq 0 1 1 1 s1 s2 s3 l1 l2 l3 (by norm_num) (by norm_num)
  rw [if_neg (by norm_num)] at e1 e2
  refine ⟨tab28, glq28, _, _, tab28_inc, glq28_ok, glq28_pk, ⟨by norm_num, by norm_num, by norm_num, by norm_num, by norm_num, by norm_num⟩,
    e1, e2, ?_⟩
  have he : (0.03 * 0.03 * sk + 0.025 * 0.025 * sq + 0.02 * 0.02 * 0) / 2 = (0.03 * 0.03 * sk + 0.02 * 0.02 * 0 + 0.025 * 0.025 * sq) / 2 := by
    ring
  rw [he]
  have hE := Real.exp_pos (-((0.03 * 0.03 * sk + 0.02 * 0.02 * 0 + 0.025 * 0.025 * sq) / 2))
  generalize Real.exp _ = E at *
  simp only [biAssemble, gamma2Tree, F2Fast, Matrix.cons_val_zero]
  apply mul_lt_mul_of_pos_right _ hE
  apply mul_lt_mul_of_pos_left _ two_pos
  have := mul_pos p1 p2
  rw [← sub_pos]
  ring_nf
  positivity

/-! ## C29 -/

/-- C29 for the Monte-Carlo part: the kernel is zero in all components when the exponent is at least 100. -/
theorem C29_II_III_zero (t : Pk ℝ) (interpol : Interpol) (uvcutoff k qmin qmax : ℝ) (xx : Fin 5 → ℝ) (p mu sk sp skp : ℝ)
    (hp : p = Real.exp (Real.log qmin + (Real.log qmax - Real.log qmin) * xx 0)) (hmu : mu = -1 + 2 * xx 1)
    (h1 : sigma1 t uvcutoff k = .ok sk) (h2 : sigma1 t uvcutoff p = .ok sp)
    (h3 : sigma1 t uvcutoff (k * Real.sqrt (1 + p / k * (p / k) - 2 * (p / k) * mu)) = .ok skp)
    (he : 100 ≤ (k * k * sk + p * p * sp + k * Real.sqrt (1 + p / k * (p / k) - 2 * (p / k) * mu) *
      (k * Real.sqrt (1 + p / k * (p / k) - 2 * (p / k) * mu)) * skp) / 2) :
    kernelA2II t interpol uvcutoff k qmin qmax xx = .ok fun _ => 0 := by
  subst hp hmu
  unfold kernelA2II
  dsimp only
  split
  · rfl
  · rw [h1, h2, h3]
    simp only [Res.ok_bind]
    rw [if_pos he]

/-- C29 for the regularised part, as far as it holds: beyond an exponent of 100 every output is at most `exp(-100)` times the undamped value.
Missing: the outputs are not zero (`C29_I_violation`); the zeros written by the code are overwritten. -/
theorem C29_I_suppressed_partial (t : Pk ℝ) (interpol : Interpol) (uvcutoff : ℝ) (g1 gd gt : GLQ ℝ) (k p kp sk sp skp : ℝ) (out : BiOut)
    (h1 : sigma1 t uvcutoff k = .ok sk) (h2 : sigma1 t uvcutoff p = .ok sp) (h3 : sigma1 t uvcutoff kp = .ok skp)
    (he : 100 < (k * k * sk + p * p * sp + kp * kp * skp) / 2) (ho : bispectrumI t interpol uvcutoff g1 gd gt k p kp = .ok out) :
    ∃ (r1 : G1Reg) (r2 : G2Reg) (pk pp pkp : ℝ), gamma1Reg g1 k p kp sk sp skp = .ok r1 ∧ gamma2Reg gd gt k p kp sk sp skp = .ok r2 ∧
      look t interpol k = .ok pk ∧ look t interpol p = .ok pp ∧ look t interpol kp = .ok pkp ∧
      ∀ i, |out.a i| ≤ Real.exp (-100) * |(biAssemble r1 r2 pk pp pkp 1).a i| ∧
        |out.t i| ≤ Real.exp (-100) * |(biAssemble r1 r2 pk pp pkp 1).t i| := by
  unfold bispectrumI at ho
  rw [h1, h2, h3] at ho
  simp only [Res.ok_bind, Res.bind_eq_ok] at ho
  obtain ⟨pk, h4, pp, h5, pkp, h6, r1, h7, r2, h8, h9⟩ := ho
  refine ⟨r1, r2, pk, pp, pkp, h7, h8, h4, h5, h6, ?_⟩
  have hE : Real.exp (-((k * k * sk + p * p * sp + kp * kp * skp) / 2)) ≤ Real.exp (-100) := Real.exp_le_exp.mpr (by linarith)
  have hE0 := Real.exp_pos (-((k * k * sk + p * p * sp + kp * kp * skp) / 2))
  generalize Real.exp (-((k * k * sk + p * p * sp + kp * kp * skp) / 2)) = E at *
  injection h9 with h9
  subst h9
  have key : ∀ x : ℝ, |x * E| ≤ Real.exp (-100) * |x * 1| := by
    intro x
    rw [abs_mul, abs_of_pos hE0, mul_one, mul_comm]
    exact mul_le_mul_of_nonneg_right hE (abs_nonneg x)
  intro i
  fin_cases i <;> exact ⟨key _, key _⟩

/-- Witness for `C29_I_violation`. -/
noncomputable def tab29 : Pk ℝ := ⟨3, [0.1, 0.6, 1], [1000000, 1000000, 0]⟩

theorem tab29_inc : tab29.Increasing where
  hk := rfl
  hpk := rfl
  hsize := by norm_num [tab29]
  incr := by
    show [(0.1 : ℝ), 0.6, 1].Pairwise (· < ·)
    norm_num [List.pairwise_cons]

theorem sigma29 : ∃ s, sigma1 tab29 0.5 0.6 = .ok s ∧ 1000 < s := by
  refine ⟨_, sigma1_in tab29 tab29_inc (by decide) _ _ 0 (by decide) (by norm_num [tab29]) (by norm_num [tab29]), ?_⟩
  rw [sigmaVal, if_neg (by decide)]
  simp [tab29, trap, interpolLin]
  rw [lt_div_iff₀ (by positivity)]
  have := Real.pi_le_four
  nlinarith [Real.pi_pos]

/-- C29 fails for the regularised part: an equilateral configuration with exponent above 100 (in fact above 500) whose eight outputs are all
positive. -/
theorem C29_I_violation : ∃ (t : Pk ℝ) (g : GLQ ℝ) (s : ℝ) (o : BiOut), t.Increasing ∧ g.Ok ∧ (∀ n ∈ g.nodes, look t .poly n.1 = .ok n.2.2) ∧
    sigma1 t 0.5 0.6 = .ok s ∧ 500 < (0.6 * 0.6 * s + 0.6 * 0.6 * s + 0.6 * 0.6 * s) / 2 ∧
    bispectrumI t .poly 0.5 g g g 0.6 0.6 0.6 = .ok o ∧ ∀ i, 0 < o.a i ∧ 0 < o.t i := by
  obtain ⟨s, hs, hs'⟩ := sigma29
  have l : look tab29 .poly 0.6 = .ok 1000000 := by
    have := C08_findPk_node_poly tab29 tab29_inc 1 (by decide)
    unfold look
    rw [show (0.6 : ℝ) = tab29.k.getD 1 0 from by simp [tab29], this]
    simp [tab29, rd]
  have hn : ∀ n ∈ glq28.nodes, look tab29 .poly n.1 = .ok n.2.2 := by
    intro n hn
    simp only [GLQ.nodes, glq28, List.zip_cons_cons, List.zip_nil_right, List.mem_singleton] at hn
    subst hn
    have := C08_findPk_node_poly tab29 tab29_inc 2 (by decide)
    unfold look
    rw [show (1 : ℝ) = tab29.k.getD 2 0 from by simp [tab29], this]
    simp [tab29, rd]
  have e := bispectrumI_28 tab29 .poly 0.5 0.6 0.6 0.6 s s s _ _ _ hs hs hs l l l (by norm_num) (by norm_num)
  rw [if_pos (by norm_num)] at e
  refine ⟨tab29, glq28, s, _, tab29_inc, glq28_ok, hn, hs, by linarith, e, ?_⟩
  have hd : 0 < gamma2Tree .delta 0.6 0.6 0.6 := by norm_num [gamma2Tree, F2Fast]
  have ht : 0 < gamma2Tree .theta 0.6 0.6 0.6 := by norm_num [gamma2Tree, F2Fast]
  have hE := Real.exp_pos (-((0.6 * 0.6 * s + 0.6 * 0.6 * s + 0.6 * 0.6 * s) / 2))
  have hg : 0 < 1 + 0.6 * 0.6 * s / 2 := by linarith
  generalize Real.exp _ = E at *
  generalize 1 + 0.6 * 0.6 * s / 2 = G at *
  generalize gamma2Tree .delta 0.6 0.6 0.6 = D at *
  generalize gamma2Tree .theta 0.6 0.6 0.6 = T at *
  intro i
  fin_cases i <;> constructor <;> simp [biAssemble] <;> positivity

/-- Non-vacuity of `C29_II_III_zero`: the equilateral configuration of `C29_I_violation`, with `k = qmin = 0.6`. -/
example : kernelA2II tab29 .poly 0.5 0.6 0.6 0.7 ![0, 3 / 4, 1 / 2, 1 / 2, 1 / 2] = .ok fun _ => 0 := by
  obtain ⟨s, hs, hs'⟩ := sigma29
  have hp : (0.6 : ℝ) = Real.exp (Real.log 0.6 + (Real.log 0.7 - Real.log 0.6) * (![0, 3 / 4, 1 / 2, 1 / 2, 1 / 2] : Fin 5 → ℝ) 0) := by
    simp
    rw [Real.exp_log (by norm_num)]
  have hr : (0.6 : ℝ) * Real.sqrt (1 + 0.6 / 0.6 * (0.6 / 0.6) - 2 * (0.6 / 0.6) * (1 / 2)) = 0.6 := by norm_num
  refine C29_II_III_zero tab29 .poly 0.5 0.6 0.6 0.7 _ 0.6 (1 / 2) s s s hp (by simp; norm_num) hs hs ?_ ?_
  · rw [hr]; exact hs
  · rw [hr]; linarith

end Verif
