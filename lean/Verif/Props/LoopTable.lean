import Verif.Props.LoopA
import Verif.Proofs.TameLook

/-!
# C63 and C64 for every table

With polynomial interpolation the loop integrals converge for every table of positive ascending modes and every triangle with
non-zero sides, so that the comparisons of `C63` and `C64` need no integrability hypothesis.
-/

namespace Verif

open MeasureTheory

theorem Tame.loopConv {P : ℝ → ℝ} (hP : Tame P) (l : Fin 3 → Field) (k : Fin 3 → E3) (hk : ∀ i, k i ≠ 0) (qmin qmax : ℝ) (h0 : 0 < qmin) :
    LoopConv P l k qmin qmax :=
  ⟨spec222_conv P hP _ _ _ _ _ _ _ h0, fun _ _ m _ _ _ => spec321_conv P hP _ _ _ _ (hk m) _ _ h0⟩

/-- C63 for every table: the Monte-Carlo sums, integrated over the loop momenta of the range, are the standard one-loop integrals. -/
theorem C63_table (t : Pk ℝ) (ht : t.Physical) (h2 : 2 ≤ t.nk) (l : Fin 3 → Field) (k : Fin 3 → E3) (hs : k 0 + k 1 + k 2 = 0)
    (hk : ∀ i, k i ≠ 0) (qmin qmax : ℝ) (h0 : 0 < qmin) :
    ∃ (P : ℝ → ℝ) (r : E3 → ℝ × ℝ), (∀ x, look t .poly x = .ok (P x)) ∧
      (∀ q, bispectrumII t .poly (toVec (k 0)) (toVec (k 1)) (toVec (k 2)) (toVec q) (l 0) (l 1) (l 2) = .ok (r q)) ∧
      IntegrableOn (fun q => (r q).1) {q : E3 | ‖q‖ ∈ qRange qmin qmax} ∧ IntegrableOn (fun q => (r q).2) {q : E3 | ‖q‖ ∈ qRange qmin qmax} ∧
      ∫ q in {q : E3 | ‖q‖ ∈ qRange qmin qmax}, (r q).1
        = ∫ q in {q : E3 | min ‖q‖ (min ‖k 0 - q‖ ‖k 1 + q‖) ∈ qRange qmin qmax},
            spec222 P (l 0) (l 1) (l 2) (toVec (k 0)) (toVec (k 1)) (toVec q) ∧
      ∫ q in {q : E3 | ‖q‖ ∈ qRange qmin qmax}, (r q).2
        = loop321 P (l 0) (l 1) (k 1) (k 2) qmin qmax + loop321 P (l 2) (l 1) (k 1) (k 0) qmin qmax
          + loop321 P (l 0) (l 2) (k 2) (k 1) qmin qmax + loop321 P (l 1) (l 2) (k 2) (k 0) qmin qmax
          + loop321 P (l 1) (l 0) (k 0) (k 2) qmin qmax + loop321 P (l 2) (l 0) (k 0) (k 1) qmin qmax := by
  obtain ⟨P, hP, hT⟩ := tame_look t ht h2
  obtain ⟨c1, c2⟩ := hT.loopConv l k hk qmin qmax h0
  obtain ⟨r, hr, r1, r2⟩ := C63_loop_222 t P .poly hP (l 0) (l 1) (l 2) _ _ _ hs (hk 0) (hk 1) (hk 2) qmin qmax h0 c1
  obtain ⟨r', hr', r3, r4⟩ := C63_loop_321 t P .poly hP l k hk qmin qmax h0 c2
  have e : r' = r := funext fun q => by
    have := (hr' q).symm.trans (hr q)
    rwa [Res.ok.injEq] at this
  subst e
  exact ⟨P, r', hP, hr, r1, r3, r2, r4⟩

/-- A table that is neither flat nor a power law, the triangle of sides 6, 8, 10, and a range reaching beyond all its sides. -/
def exBump : Pk ℝ := ⟨4, [1, 2, 3, 5], [1, 4, 2, 1]⟩

theorem exBump_physical : exBump.Physical where
  hk := rfl
  hpk := rfl
  hsize := by norm_num [exBump]
  incr := by norm_num [exBump]
  kpos := by norm_num [exBump]

example (l : Fin 3 → Field) := C63_table exBump exBump_physical (by norm_num [exBump]) l exLegs exLegs_sum exLegs_ne (1 / 2) 20 (by norm_num)

theorem ofVec_ne {v : Vec} (h : 0 < v.modulus) : ofVec v ≠ 0 := by
  intro e
  have : v = ⟨0, 0, 0⟩ := by
    rw [← toVec_ofVec v, e]
    rfl
  rw [this] at h
  simp [Vec.modulus, Vec.dot] at h

/-- C64 for every table: integrated over the loop momentum, the Monte-Carlo integrand at a triangle of the half plane is the assembly
of the standard one-loop bispectra, times the damping and the measure of the outer integral. Missing: the outer integral over the
triangles, whose region differs (`C64_domain_violation`). -/
theorem C64_table_partial (t : Pk ℝ) (ht : t.Physical) (h2 : 2 ≤ t.nk) (uvcutoff k qmin qmax : ℝ) (hk : 0 < k) (h0 : 0 < qmin)
    (h1 : qmin < qmax) (u v : ℝ) (hu : 0 ≤ u ∧ u ≤ 1) (hv : 0 ≤ v ∧ v ≤ 1) :
    let s := a2Point qmin qmax ![u, v, 0, 0, 0]
    let legs : Fin 3 → E3 := ![ofVec s.pv, ofVec (s.rv k), ofVec ⟨0, 0, -k⟩]
    let legs' : Fin 3 → E3 := ![ofVec (s.rv k), ofVec s.pv, ofVec ⟨0, 0, -k⟩]
    let l : Fin 4 → Fin 3 → Field := fun i => ![.theta, (a2Fields i).1, (a2Fields i).2]
    s.pv.modulus ≤ (s.rv k).modulus →
    ∃ (P : ℝ → ℝ) (sk sp sr : ℝ), (∀ x, look t .poly x = .ok (P x)) ∧
      sigma1 t uvcutoff k = .ok sk ∧ sigma1 t uvcutoff s.pv.modulus = .ok sp ∧ sigma1 t uvcutoff (s.rv k).modulus = .ok sr ∧
      ((k ^ 2 * sk + s.pv.modulus ^ 2 * sp + (s.rv k).modulus ^ 2 * sr) / 2 < 100 →
        ∃ K : (Fin 3 → ℝ) → Fin 12 → ℝ,
          (∀ w ∈ cube3, kernelA2II t .poly uvcutoff k qmin qmax ![u, v, w 0, w 1, w 2] = .ok (K w)) ∧
          ∀ i, ∫ w in cube3, K w i =
            assembleA2 (s.p / k) s.mu ⟨fun i => loopB P (l i) legs qmin qmax, fun i => loopB P (l i) legs' qmin qmax⟩ i
              * Real.exp (-((k ^ 2 * sk + s.pv.modulus ^ 2 * sp + (s.rv k).modulus ^ 2 * sr) / 2)) * (Real.log (qmax / qmin) * 2)) := by
  intro s legs legs' l hhalf
  obtain ⟨P, hP, hT⟩ := tame_look t ht h2
  obtain ⟨sk, hsk⟩ := sigma1_defined ht.toWF (by omega) uvcutoff k
  obtain ⟨sp, hsp⟩ := sigma1_defined ht.toWF (by omega) uvcutoff s.pv.modulus
  obtain ⟨sr, hsr⟩ := sigma1_defined ht.toWF (by omega) uvcutoff (s.rv k).modulus
  have hp : 0 < s.pv.modulus := by
    have hp0 : 0 < s.p := mul_pos h0 (Real.rpow_pos_of_pos (div_pos (h0.trans h1) h0) _)
    have hmu : s.mu ^ 2 ≤ 1 := by
      show (2 * v - 1) ^ 2 ≤ 1
      nlinarith [hv.1, hv.2]
    refine Real.sqrt_pos.2 ?_
    simp only [A2Point.pv, Vec.dot]
    have := Real.mul_self_sqrt (sub_nonneg.2 hmu)
    nlinarith [mul_pos hp0 hp0]
  have hkk : 0 < Vec.modulus ⟨0, 0, -k⟩ := Real.sqrt_pos.2 (by simp only [Vec.dot]; nlinarith)
  have hl : ∀ i, legs i ≠ 0 := fun i => by
    fin_cases i
    · exact ofVec_ne hp
    · exact ofVec_ne (hp.trans_le hhalf)
    · exact ofVec_ne hkk
  have hl' : ∀ i, legs' i ≠ 0 := fun i => by
    fin_cases i
    · exact ofVec_ne (hp.trans_le hhalf)
    · exact ofVec_ne hp
    · exact ofVec_ne hkk
  exact ⟨P, sk, sp, sr, hP, hsk, hsp, hsr, fun hE => C64_loop_partial t P .poly hP uvcutoff k qmin qmax hk h0 h1 u v sk sp sr hu hv hsk hsp hsr
    (fun i => hT.loopConv _ _ hl _ _ h0) (fun i => hT.loopConv _ _ hl' _ _ h0) hhalf hE⟩

/-- The hypotheses of `C64_loop_partial` and `C64_table_partial` hold for the constant spectrum at `k = 3`, `p = 2`, `μ = -3/5`, with
the range `[1,4]`: the triangle is in the half plane and the damping exponent is below its threshold. -/
example : let s := a2Point 1 4 ![1 / 2, 1 / 5, 0, 0, 0]
    s.pv.modulus ≤ (s.rv 3).modulus ∧ ∃ sk sp sr, sigma1 exFlat 0.5 3 = .ok sk ∧ sigma1 exFlat 0.5 s.pv.modulus = .ok sp ∧
      sigma1 exFlat 0.5 (s.rv 3).modulus = .ok sr ∧ (3 ^ 2 * sk + s.pv.modulus ^ 2 * sp + (s.rv 3).modulus ^ 2 * sr) / 2 < 100 := by
  intro s
  have hs : s.pv = (a2Point 1 4 exCube).pv := by
    simp [s, a2Point, A2Point.pv, exCube]
  have hr : s.rv 3 = (a2Point 1 4 exCube).rv 3 := by
    rw [A2Point.rv, A2Point.rv, hs]
  rw [hs, hr]
  have e1 : (a2Point 1 4 exCube).pv.modulus = 2 := by
    rw [exCube_pv, Vec.modulus]
    rw [show Vec.dot ⟨8 / 5, 0, -6 / 5⟩ ⟨8 / 5, 0, -6 / 5⟩ = 2 ^ 2 by norm_num [Vec.dot], Real.sqrt_sq (by norm_num)]
  have e2 : ((a2Point 1 4 exCube).rv 3).modulus ^ 2 = 101 / 5 := by
    rw [exCube_rv, Vec.modulus, Real.sq_sqrt (by norm_num [Vec.dot])]
    norm_num [Vec.dot]
  have e3 : 0 ≤ ((a2Point 1 4 exCube).rv 3).modulus := Real.sqrt_nonneg _
  obtain ⟨sk, hsk, hk0, hk1⟩ := exFlat_sigma 3
  obtain ⟨sp, hsp, hp0, hp1⟩ := exFlat_sigma (a2Point 1 4 exCube).pv.modulus
  obtain ⟨sr, hsr, hr0, hr1⟩ := exFlat_sigma ((a2Point 1 4 exCube).rv 3).modulus
  refine ⟨by rw [e1]; nlinarith, sk, sp, sr, hsk, hsp, hsr, ?_⟩
  rw [e1, e2]
  linarith

end Verif
