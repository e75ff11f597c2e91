import Verif.Proofs.Sturm
import Verif.Proofs.Gauss

/-! The Newton iteration of `nodes_weights_gauss_legendre` for exact reals: it starts to the right of a root, on a stretch where the
polynomial is convex, and comes down to the root quadratically. -/

open Polynomial

namespace Verif

/-- The stretch between a root of the Legendre polynomial and the start of the search (up to the sign `s` of the polynomial). -/
structure Stretch (n : ℕ) (c x0 s : ℝ) : Prop where
  zero : (leg n).eval c = 0
  slope : 0 < s * (derivative (leg n)).eval c
  pos : 0 < c
  lt : x0 < 1
  short : (n : ℝ) * (n + 1) * (x0 - c) < 2 * c

namespace Stretch

variable {n : ℕ} {c x0 s : ℝ} (h : Stretch n c x0 s)
include h

theorem convex {x : ℝ} (hx : x ∈ Set.Icc c x0) : 0 < s * (derivative (derivative (leg n))).eval x := by
  by_contra hno
  set B := Set.Icc c x0 ∩ {x | s * (derivative (derivative (leg n))).eval x ≤ 0} with hB
  have hBc : IsCompact B := isCompact_Icc.inter_right (isClosed_le (continuous_const.mul (Polynomial.continuous _)) continuous_const)
  obtain ⟨y, ⟨hy, hy0⟩, hmin⟩ := hBc.exists_isLeast ⟨x, hx, not_lt.1 hno⟩
  simp only [Set.mem_ofPred_eq] at hy0
  have before : ∀ t ∈ Set.Ico c y, 0 < s * (derivative (derivative (leg n))).eval t := by
    intro t ht
    by_contra hc
    have := hmin (show t ∈ B from ⟨⟨ht.1, by linarith [ht.2, hy.2]⟩, not_lt.1 hc⟩)
    linarith [ht.2]
  have d1 : ∀ t, HasDerivAt (fun t => s * (derivative (leg n)).eval t) (s * (derivative (derivative (leg n))).eval t) t :=
    fun t => ((derivative (leg n)).hasDerivAt t).const_mul s
  have d0 : ∀ t, HasDerivAt (fun t => s * (leg n).eval t) (s * (derivative (leg n)).eval t) t :=
    fun t => ((leg n).hasDerivAt t).const_mul s
  have m1 : MonotoneOn (fun t => s * (derivative (leg n)).eval t) (Set.Icc c y) := by
    refine monotoneOn_of_deriv_nonneg (convex_Icc c y) (fun t _ => (d1 t).continuousAt.continuousWithinAt)
      (fun t _ => (d1 t).differentiableAt.differentiableWithinAt) fun t ht => ?_
    rw [interior_Icc] at ht
    rw [(d1 t).deriv]
    exact (before t ⟨ht.1.le, ht.2⟩).le
  have m0 : MonotoneOn (fun t => (t - c) * (s * (derivative (leg n)).eval y) - s * (leg n).eval t) (Set.Icc c y) := by
    have dd : ∀ t, HasDerivAt (fun t => (t - c) * (s * (derivative (leg n)).eval y) - s * (leg n).eval t)
        (1 * (s * (derivative (leg n)).eval y) - s * (derivative (leg n)).eval t) t :=
      fun t => (((hasDerivAt_id t).sub_const c).mul_const _).sub (d0 t)
    refine monotoneOn_of_deriv_nonneg (convex_Icc c y) (fun t _ => (dd t).continuousAt.continuousWithinAt)
      (fun t _ => (dd t).differentiableAt.differentiableWithinAt) fun t ht => ?_
    rw [interior_Icc] at ht
    rw [(dd t).deriv]
    have := m1 (Set.Ioo_subset_Icc_self ht) (Set.right_mem_Icc.2 hy.1) ht.2.le
    simp only at this
    linarith
  have e1 := m1 (Set.left_mem_Icc.2 hy.1) (Set.right_mem_Icc.2 hy.1) hy.1
  have e0 := m0 (Set.left_mem_Icc.2 hy.1) (Set.right_mem_Icc.2 hy.1) hy.1
  simp only [h.zero, mul_zero, sub_self, zero_mul] at e0 e1
  have ode := leg_ode_at n y
  have hs := h.slope
  have hl : (0 : ℝ) ≤ (n : ℝ) * (n + 1) := by positivity
  set p1 := s * (derivative (leg n)).eval y with hp1
  have p1pos : 0 < p1 := by linarith
  have g1 : (n : ℝ) * (n + 1) * (s * (leg n).eval y) ≤ (n : ℝ) * (n + 1) * ((y - c) * p1) := mul_le_mul_of_nonneg_left (by linarith) hl
  have g2 : (n : ℝ) * (n + 1) * (y - c) < 2 * y := by
    have := mul_le_mul_of_nonneg_left (show y - c ≤ x0 - c by linarith [hy.2]) hl
    linarith [h.short, hy.1]
  have g3 : 0 < (1 - y ^ 2) * (s * (derivative (derivative (leg n))).eval y) := by
    have e : (1 - y ^ 2) * (s * (derivative (derivative (leg n))).eval y) = 2 * y * p1 - (n : ℝ) * (n + 1) * (s * (leg n).eval y) := by
      rw [hp1]; linear_combination s * ode
    rw [e]
    nlinarith
  have g4 : 0 < 1 - y ^ 2 := by nlinarith [h.lt, hy.1, hy.2, h.pos]
  nlinarith

/-- What the convexity gives at a point of the stretch. -/
theorem facts {x : ℝ} (hx : x ∈ Set.Icc c x0) :
    0 ≤ s * (leg n).eval x ∧ 0 < s * (derivative (leg n)).eval x ∧
    s * (leg n).eval x ≤ (x - c) * (s * (derivative (leg n)).eval x) ∧
    (x - c) * (s * (derivative (leg n)).eval x) - s * (leg n).eval x ≤ x / (1 - x ^ 2) * (x - c) ^ 2 * (s * (derivative (leg n)).eval x) ∧
    s * (derivative (leg n)).eval c ≤ s * (derivative (leg n)).eval x ∧
    s * (derivative (leg n)).eval x - s * (derivative (leg n)).eval c ≤ 2 * (x / (1 - x ^ 2)) * (x - c) * (s * (derivative (leg n)).eval x) := by
  have hs := h.slope
  have hsub : ∀ t ∈ Set.Icc c x, t ∈ Set.Icc c x0 := fun t ht => ⟨ht.1, ht.2.trans hx.2⟩
  have d2 : ∀ t ∈ Set.Icc c x, 0 < s * (derivative (derivative (leg n))).eval t := fun t ht => h.convex (hsub t ht)
  have d1 : ∀ t, HasDerivAt (fun t => s * (derivative (leg n)).eval t) (s * (derivative (derivative (leg n))).eval t) t :=
    fun t => ((derivative (leg n)).hasDerivAt t).const_mul s
  have d0 : ∀ t, HasDerivAt (fun t => s * (leg n).eval t) (s * (derivative (leg n)).eval t) t :=
    fun t => ((leg n).hasDerivAt t).const_mul s
  have m1 : MonotoneOn (fun t => s * (derivative (leg n)).eval t) (Set.Icc c x) := by
    refine monotoneOn_of_deriv_nonneg (convex_Icc c x) (fun t _ => (d1 t).continuousAt.continuousWithinAt)
      (fun t _ => (d1 t).differentiableAt.differentiableWithinAt) fun t ht => ?_
    rw [interior_Icc] at ht
    rw [(d1 t).deriv]
    exact (d2 t (Set.Ioo_subset_Icc_self ht)).le
  have f1 : ∀ t ∈ Set.Icc c x, 0 < s * (derivative (leg n)).eval t := fun t ht => by
    have := m1 (Set.left_mem_Icc.2 hx.1) ht ht.1
    simp only at this
    linarith
  have m0 : MonotoneOn (fun t => s * (leg n).eval t) (Set.Icc c x) := by
    refine monotoneOn_of_deriv_nonneg (convex_Icc c x) (fun t _ => (d0 t).continuousAt.continuousWithinAt)
      (fun t _ => (d0 t).differentiableAt.differentiableWithinAt) fun t ht => ?_
    rw [interior_Icc] at ht
    rw [(d0 t).deriv]
    exact (f1 t (Set.Ioo_subset_Icc_self ht)).le
  have f0 : ∀ t ∈ Set.Icc c x, 0 ≤ s * (leg n).eval t := fun t ht => by
    have := m0 (Set.left_mem_Icc.2 hx.1) ht ht.1
    simpa [h.zero] using this
  have hxr : x ∈ Set.Icc c x := Set.right_mem_Icc.2 hx.1
  have hcl : c ∈ Set.Icc c x := Set.left_mem_Icc.2 hx.1
  have hx1 : 0 < 1 - x ^ 2 := by nlinarith [h.lt, hx.1, hx.2, h.pos]
  have hx0 : 0 < x := by linarith [h.pos, hx.1]
  -- the second derivative is bounded by the first at the end
  have b2 : ∀ t ∈ Set.Icc c x, s * (derivative (derivative (leg n))).eval t ≤ 2 * (x / (1 - x ^ 2)) * (s * (derivative (leg n)).eval x) := by
    intro t ht
    have ht0 : 0 < t := by linarith [h.pos, ht.1]
    have ht1 : 1 - x ^ 2 ≤ 1 - t ^ 2 := by nlinarith [ht.2]
    have e : (1 - t ^ 2) * (s * (derivative (derivative (leg n))).eval t) =
        2 * t * (s * (derivative (leg n)).eval t) - (n : ℝ) * (n + 1) * (s * (leg n).eval t) := by
      linear_combination s * leg_ode_at n t
    have i1 : (1 - x ^ 2) * (s * (derivative (derivative (leg n))).eval t) ≤ (1 - t ^ 2) * (s * (derivative (derivative (leg n))).eval t) :=
      mul_le_mul_of_nonneg_right ht1 (d2 t ht).le
    have i2 : 0 ≤ (n : ℝ) * (n + 1) * (s * (leg n).eval t) := mul_nonneg (by positivity) (f0 t ht)
    have i3 : 2 * t * (s * (derivative (leg n)).eval t) ≤ 2 * x * (s * (derivative (leg n)).eval x) :=
      mul_le_mul (by linarith [ht.2]) (m1 ht hxr ht.2) (f1 t ht).le (by linarith)
    have e2 : 2 * (x / (1 - x ^ 2)) * (s * (derivative (leg n)).eval x) = 2 * x * (s * (derivative (leg n)).eval x) / (1 - x ^ 2) := by ring
    rw [e2, le_div_iff₀ hx1]
    linarith
  set K := 2 * (x / (1 - x ^ 2)) * (s * (derivative (leg n)).eval x) with hK
  refine ⟨f0 x hxr, f1 x hxr, ?_, ?_, m1 hcl hxr hx.1, ?_⟩
  · have mm : MonotoneOn (fun t => (t - c) * (s * (derivative (leg n)).eval x) - s * (leg n).eval t) (Set.Icc c x) := by
      have dd : ∀ t, HasDerivAt (fun t => (t - c) * (s * (derivative (leg n)).eval x) - s * (leg n).eval t)
          (1 * (s * (derivative (leg n)).eval x) - s * (derivative (leg n)).eval t) t :=
        fun t => (((hasDerivAt_id t).sub_const c).mul_const _).sub (d0 t)
      refine monotoneOn_of_deriv_nonneg (convex_Icc c x) (fun t _ => (dd t).continuousAt.continuousWithinAt)
        (fun t _ => (dd t).differentiableAt.differentiableWithinAt) fun t ht => ?_
      rw [interior_Icc] at ht
      rw [(dd t).deriv]
      have := m1 (Set.Ioo_subset_Icc_self ht) hxr ht.2.le
      simp only at this
      linarith
    have := mm hcl hxr hx.1
    simp only [h.zero, mul_zero, sub_self, zero_mul] at this
    linarith
  · have mm : MonotoneOn (fun t => K * ((t - c) ^ 2 / 2) - ((t - c) * (s * (derivative (leg n)).eval t) - s * (leg n).eval t)) (Set.Icc c x) := by
      have dd : ∀ t, HasDerivAt (fun t => K * ((t - c) ^ 2 / 2) - ((t - c) * (s * (derivative (leg n)).eval t) - s * (leg n).eval t))
          ((t - c) * (K - s * (derivative (derivative (leg n))).eval t)) t := by
        intro t
        have i := (hasDerivAt_id t).sub_const c
        have := (((i.pow 2).div_const 2).const_mul K).sub ((i.mul (d1 t)).sub (d0 t))
        refine this.congr_deriv ?_
        simp
        ring
      refine monotoneOn_of_deriv_nonneg (convex_Icc c x) (fun t _ => (dd t).continuousAt.continuousWithinAt)
        (fun t _ => (dd t).differentiableAt.differentiableWithinAt) fun t ht => ?_
      rw [interior_Icc] at ht
      rw [(dd t).deriv]
      exact mul_nonneg (by linarith [ht.1]) (by linarith [b2 t (Set.Ioo_subset_Icc_self ht)])
    have := mm hcl hxr hx.1
    simp only [h.zero, mul_zero, sub_self, zero_mul] at this
    have e : K * ((x - c) ^ 2 / 2) = x / (1 - x ^ 2) * (x - c) ^ 2 * (s * (derivative (leg n)).eval x) := by rw [hK]; ring
    norm_num at this
    linarith
  · have mm : MonotoneOn (fun t => K * (t - c) - s * (derivative (leg n)).eval t) (Set.Icc c x) := by
      have dd : ∀ t, HasDerivAt (fun t => K * (t - c) - s * (derivative (leg n)).eval t)
          (K * 1 - s * (derivative (derivative (leg n))).eval t) t :=
        fun t => (((hasDerivAt_id t).sub_const c).const_mul K).sub (d1 t)
      refine monotoneOn_of_deriv_nonneg (convex_Icc c x) (fun t _ => (dd t).continuousAt.continuousWithinAt)
        (fun t _ => (dd t).differentiableAt.differentiableWithinAt) fun t ht => ?_
      rw [interior_Icc] at ht
      rw [(dd t).deriv]
      linarith [b2 t (Set.Ioo_subset_Icc_self ht)]
    have := mm hcl hxr hx.1
    simp only [sub_self, mul_zero] at this
    have e : K * (x - c) = 2 * (x / (1 - x ^ 2)) * (x - c) * (s * (derivative (leg n)).eval x) := by rw [hK]; ring
    linarith

/-- One Newton step from a point of the stretch: it stays on the stretch, and the distance to the root goes down quadratically. -/
theorem step {x : ℝ} (hx : x ∈ Set.Icc c x0) {k : ℝ} (hk : x0 / (1 - x0 ^ 2) ≤ k) :
    c ≤ x - (leg n).eval x / (derivative (leg n)).eval x ∧ x - (leg n).eval x / (derivative (leg n)).eval x ≤ x ∧
    x - (leg n).eval x / (derivative (leg n)).eval x - c ≤ k * (x - c) ^ 2 := by
  obtain ⟨f0, f1, g1, g2, -, -⟩ := h.facts hx
  have hs : s ≠ 0 := by rintro rfl; simp at f1
  have hd : (leg n).eval x / (derivative (leg n)).eval x = s * (leg n).eval x / (s * (derivative (leg n)).eval x) := by
    rw [mul_div_mul_left _ _ hs]
  rw [hd]
  have hx1 : 0 < 1 - x ^ 2 := by nlinarith [h.lt, hx.1, hx.2, h.pos]
  have hx01 : 0 < 1 - x0 ^ 2 := by nlinarith [h.lt, hx.1, hx.2, h.pos]
  have hx0 : 0 < x := by linarith [h.pos, hx.1]
  have hkk : x / (1 - x ^ 2) ≤ k := by
    refine le_trans ?_ hk
    exact div_le_div₀ (by linarith [hx.2]) hx.2 hx01 (by nlinarith [hx.2])
  set p := s * (leg n).eval x
  set p1 := s * (derivative (leg n)).eval x
  have a1 : p / p1 ≤ x - c := by rw [div_le_iff₀ f1]; exact g1
  have a0 : 0 ≤ p / p1 := div_nonneg f0 f1.le
  refine ⟨by linarith, by linarith, ?_⟩
  have e : x - p / p1 - c = ((x - c) * p1 - p) / p1 := by field_simp; ring
  rw [e, div_le_iff₀ f1]
  refine g2.trans ?_
  have := mul_le_mul_of_nonneg_right hkk (sq_nonneg (x - c))
  exact mul_le_mul_of_nonneg_right this f1.le

end Stretch

/-- Bound of the distance to the root after `m` Newton steps that multiply it by `a`, `a²`, `a⁴`, … -/
def shrink : ℕ → ℝ → ℝ → ℝ
  | 0, _, d => d
  | m + 1, a, d => shrink m (a ^ 2) (a * d)

theorem legendre_step (n : ℕ) {x : ℝ} (hx : x * x ≠ 1) :
    x - (legendrePair x n).1 / legendreDeriv x n = x - (leg n).eval x / (derivative (leg n)).eval x ∧
      legendreDeriv x n = (derivative (leg n)).eval x := by
  rw [legendrePair_eval n _ (leg_isLegendre n), legendreDeriv_eval n _ (leg_isLegendre n) x hx]
  exact ⟨rfl, rfl⟩

/-- More fuel and another derivative from the previous root do not matter. -/
theorem newton_fuel (n : ℕ) {x z1 : ℝ} (hz : eps < |x - z1|) {f f' : ℕ} {pp pp' : ℝ} (h : (newton n f x z1 pp).isSome) (h' : (newton n f' x z1 pp').isSome) :
    newton n f x z1 pp = newton n f' x z1 pp' := by
  have aux : ∀ (f f' : ℕ) (x z1 pp : ℝ), (newton n f x z1 pp).isSome → (newton n f' x z1 pp).isSome → newton n f x z1 pp = newton n f' x z1 pp := by
    intro f
    induction f with
    | zero => intro f' x z1 pp h; simp [newton] at h
    | succ f ih =>
      intro f' x z1 pp h h'
      cases f' with
      | zero => simp [newton] at h'
      | succ f' =>
        rw [newton, newton]
        rw [newton] at h h'
        split
        · rename_i c
          rw [if_pos c] at h h'
          exact ih _ _ _ _ h h'
        · rfl
  cases f with
  | zero => simp [newton] at h
  | succ f =>
    cases f' with
    | zero => simp [newton] at h'
    | succ f' =>
      have c : Histo.lt eps (Histo.abs (x - z1)) = true := by simpa using hz
      rw [newton, if_pos c] at h h' ⊢
      rw [newton, if_pos c]
      exact aux _ _ _ _ _ h h'

theorem Stretch.search {n : ℕ} {c x0 s k : ℝ} (h : Stretch n c x0 s) (hk : x0 / (1 - x0 ^ 2) ≤ k) (hk0 : 0 ≤ k) :
    ∀ (m : ℕ) (a d x z1 pp : ℝ) (fuel : ℕ), x ∈ Set.Icc c x0 → k * (x - c) ≤ a → x - c ≤ d → shrink m a d ≤ eps → eps < |x - z1| →
      m + 2 ≤ fuel → ∃ y ∈ Set.Icc c x0, y ≤ x ∧
        newton n fuel x z1 pp = some (y - (leg n).eval y / (derivative (leg n)).eval y, (derivative (leg n)).eval y) ∧
        (leg n).eval y / (derivative (leg n)).eval y ≤ eps := by
  intro m
  induction m with
  | zero =>
    intro a d x z1 pp fuel hx _ hd hsh hz hf
    obtain ⟨g1, g2, -⟩ := h.step hx hk
    have hxx : x * x ≠ 1 := by nlinarith [h.lt, h.pos, hx.1, hx.2]
    obtain ⟨l1, l2⟩ := legendre_step n hxx
    simp only [shrink] at hsh
    obtain ⟨fuel, rfl⟩ : ∃ f, fuel = f + 2 := ⟨fuel - 2, by omega⟩
    refine ⟨x, hx, le_rfl, ?_, by linarith⟩
    rw [newton, if_pos (by simpa using hz)]
    dsimp only
    rw [l1, l2, newton, if_neg]
    simp only [lt_real, abs_real, not_lt]
    rw [abs_le]
    have : (0 : ℝ) ≤ eps := by simp [eps]; norm_num
    constructor <;> linarith
  | succ m ih =>
    intro a d x z1 pp fuel hx ha hd hsh hz hf
    obtain ⟨g1, g2, g3⟩ := h.step hx hk
    have hxx : x * x ≠ 1 := by nlinarith [h.lt, h.pos, hx.1, hx.2]
    obtain ⟨l1, l2⟩ := legendre_step n hxx
    obtain ⟨fuel, rfl⟩ : ∃ f, fuel = f + 1 := ⟨fuel - 1, by omega⟩
    have unf : newton n (fuel + 1) x z1 pp = newton n fuel (x - (leg n).eval x / (derivative (leg n)).eval x) x
        ((derivative (leg n)).eval x) := by
      rw [newton, if_pos (by simpa using hz)]
      dsimp only
      rw [l1, l2]
    rw [unf]
    set x' := x - (leg n).eval x / (derivative (leg n)).eval x with hx'
    have he : 0 ≤ x - c := by linarith [hx.1]
    rcases lt_or_ge eps |x' - x| with hb | hb
    · have a1 : x' - c ≤ a * (x - c) := by
        have : k * (x - c) ^ 2 = k * (x - c) * (x - c) := by ring
        rw [this] at g3
        exact g3.trans (mul_le_mul_of_nonneg_right ha he)
      have a0 : 0 ≤ a := le_trans (mul_nonneg hk0 he) ha
      obtain ⟨y, hy, hyx, h1, h2⟩ := ih (a ^ 2) (a * d) x' x ((derivative (leg n)).eval x) fuel ⟨g1, by linarith [hx.2]⟩
        (by
          have := mul_le_mul_of_nonneg_left a1 hk0
          have h5 : k * (a * (x - c)) = a * (k * (x - c)) := by ring
          have h6 := mul_le_mul_of_nonneg_left ha a0
          rw [h5] at this
          rw [sq]
          linarith) (a1.trans (mul_le_mul_of_nonneg_left hd a0)) hsh hb (by omega)
      exact ⟨y, hy, by linarith, h1, h2⟩
    · obtain ⟨fuel, rfl⟩ : ∃ f, fuel = f + 1 := ⟨fuel - 1, by omega⟩
      refine ⟨x, hx, le_rfl, ?_, ?_⟩
      · rw [newton, if_neg (by simpa using hb)]
      · rw [abs_le] at hb
        linarith


/-- How far the cosine of a start is from `1`. -/
theorem start_sin {n i : ℕ} (hi : 2 * i + 1 ≤ n) :
    Real.cos (startAngle n i) < 1 ∧ 0 ≤ Real.cos (startAngle n i) ∧
    (4 * (i + 3 / 4) ^ 2 / (n + 1 / 2) ^ 2 : ℝ) ≤ 1 - Real.cos (startAngle n i) ^ 2 := by
  have hN : (0 : ℝ) < n + 1 / 2 := by positivity
  have hp := startAngle_pos n i
  have hpi := Real.pi_pos
  have hle : startAngle n i ≤ Real.pi / 2 := by
    unfold startAngle
    rw [div_le_div_iff₀ hN two_pos]
    have : (2 * i + 1 : ℝ) ≤ n := by exact_mod_cast hi
    nlinarith
  have h1 := Real.mul_le_sin hp.le hle
  have e : 2 / Real.pi * startAngle n i = 2 * (i + 3 / 4) / (n + 1 / 2) := by
    unfold startAngle
    field_simp
  rw [e] at h1
  have hs : 0 < 2 * ((i : ℝ) + 3 / 4) / (n + 1 / 2) := by positivity
  have tr := Real.sin_sq_add_cos_sq (startAngle n i)
  have sq : (2 * ((i : ℝ) + 3 / 4) / (n + 1 / 2)) ^ 2 ≤ Real.sin (startAngle n i) ^ 2 := pow_le_pow_left₀ hs.le h1 2
  have e2 : (2 * ((i : ℝ) + 3 / 4) / (n + 1 / 2)) ^ 2 = 4 * (i + 3 / 4) ^ 2 / (n + 1 / 2) ^ 2 := by rw [div_pow]; ring
  rw [e2] at sq
  have hc := Real.cos_nonneg_of_neg_pi_div_two_le_of_le (by linarith) hle
  refine ⟨?_, hc, by linarith⟩
  have : 0 < 4 * ((i : ℝ) + 3 / 4) ^ 2 / (n + 1 / 2) ^ 2 := by positivity
  nlinarith

theorem LegRoots.slope {n : ℕ} {z : ℕ → ℝ} (h : LegRoots n z) {i : ℕ} (hi : i < n) : (derivative (leg n)).eval (z i) ≠ 0 := by
  intro h0
  have := gauss_weight h.zero h.inj i hi
  rw [h0] at this
  simp only [mul_zero, div_zero] at this
  linarith [this.1, this.2]

/-- Relative size of the curvature at the start of search `i`. -/
noncomputable def bend (n i : ℕ) : ℝ := (n + 1 / 2) ^ 2 / (4 * (i + 3 / 4) ^ 2)

theorem bend_pos (n i : ℕ) : 0 < bend n i := by unfold bend; positivity

theorem bend_le (n i : ℕ) : bend n i ≤ 4 / 9 * (n + 1 / 2) ^ 2 := by
  unfold bend
  rw [div_le_iff₀ (by positivity)]
  have h1 : (9 / 4 : ℝ) ≤ 4 * (i + 3 / 4) ^ 2 := by
    have : (0 : ℝ) ≤ i := Nat.cast_nonneg i
    nlinarith
  have h2 : (0 : ℝ) ≤ (n + 1 / 2) ^ 2 := by positivity
  nlinarith

theorem bend_start (n i : ℕ) : 2 * bend n i * (1 / (8 * ((n : ℝ) + 1 / 2) ^ 2)) = 1 / (16 * (i + 3 / 4) ^ 2) := by
  have hN : (0 : ℝ) < n + 1 / 2 := by positivity
  have hi : (0 : ℝ) < i + 3 / 4 := by positivity
  unfold bend
  generalize (n : ℝ) + 1 / 2 = N at *
  generalize (i : ℝ) + 3 / 4 = I at *
  field_simp
  norm_num

theorem start_bend {n i : ℕ} (hi : 2 * i + 1 ≤ n) :
    Real.cos (startAngle n i) / (1 - Real.cos (startAngle n i) ^ 2) ≤ bend n i := by
  obtain ⟨h1, h0, h2⟩ := start_sin hi
  have hp : (0 : ℝ) < 4 * (i + 3 / 4) ^ 2 / (n + 1 / 2) ^ 2 := by positivity
  have e : bend n i = 1 / (4 * (i + 3 / 4) ^ 2 / (n + 1 / 2) ^ 2) := by unfold bend; rw [one_div_div]
  rw [e]
  exact div_le_div₀ zero_le_one h1.le hp h2

/-- What the search of index `i` returns is near root `i`. -/
structure Near (n i : ℕ) (c : ℝ) (r : ℝ × ℝ) : Prop where
  ge : c ≤ r.1
  le : r.1 - c ≤ eps / 17
  sq : r.1 - c ≤ bend n i * (18 / 17 * eps) ^ 2
  start : r.1 ≤ Real.cos (startAngle n i)
  nz : r.2 ≠ 0
  slope : 0 ≤ 1 - (derivative (leg n)).eval c / r.2
  slope' : 1 - (derivative (leg n)).eval c / r.2 ≤ 2 * bend n i * (18 / 17 * eps)
  le' : r.1 - c ≤ 1 / (144 * (n + 1 / 2) ^ 2)
  slope'' : 1 - (derivative (leg n)).eval c / r.2 ≤ 1 / (16 * (i + 3 / 4) ^ 2)

theorem eps_pos : (0 : ℝ) < eps := by simp [eps]

theorem LegRoots.search {n : ℕ} {z : ℕ → ℝ} (h : LegRoots n z) {i : ℕ} (hi : 2 * i + 1 ≤ n) :
    ∃ r : ℝ × ℝ, (∀ fuel pp, 6 ≤ fuel → root fuel n i pp = some r) ∧ Near n i (z i) r := by
  have hin : i < n := by omega
  have hep := eps_pos
  obtain ⟨hs1, hs2⟩ := h.start hi
  obtain ⟨hx1, hx0, -⟩ := start_sin hi
  have hb := start_bend hi
  have hbp := bend_pos n i
  obtain ⟨hz0, hz1⟩ := h.half hi
  have hne := h.slope hin
  have hroot : ∀ fuel (pp : ℝ), root fuel n i pp = newton n fuel (Real.cos (startAngle n i)) (Real.cos (startAngle n i) + eps + 1) pp := by
    intro fuel pp
    unfold root
    have : (Histo.cos (Histo.pi * (Histo.ofNat i + Histo.lit (3 / 4)) / (Histo.ofNat n + Histo.lit (1 / 2))) : ℝ) = Real.cos (startAngle n i) := by
      simp [startAngle]
    rw [this]
    simp
  have hfirst : eps < |Real.cos (startAngle n i) - (Real.cos (startAngle n i) + eps + 1)| := by
    rw [show Real.cos (startAngle n i) - (Real.cos (startAngle n i) + eps + 1) = -(eps + 1) by ring, abs_neg, abs_of_pos (by linarith)]
    linarith
  rcases eq_or_lt_of_le hz0 with hz | hz
  · -- the middle root is hit at once
    have hc0 : Real.cos (startAngle n i) = 0 := by
      rw [← hz] at hs1 hs2
      simp only [zero_div, sub_zero] at hs2
      exact le_antisymm hs2 hs1
    have hzero := h.zero i hin
    rw [← hz] at hzero hne ⊢
    refine ⟨(0, (derivative (leg n)).eval 0), fun fuel pp hf => ?_, ⟨le_rfl, ?_, ?_, hc0.ge, hne, ?_, ?_, ?_, ?_⟩⟩
    · rw [hroot, hc0]
      rw [hc0] at hfirst
      obtain ⟨fuel, rfl⟩ : ∃ f, fuel = f + 2 := ⟨fuel - 2, by omega⟩
      obtain ⟨l1, l2⟩ := legendre_step n (x := 0) (by norm_num)
      rw [newton, if_pos (by simpa using hfirst)]
      dsimp only
      rw [l1, l2, hzero, newton, if_neg]
      · simp
      · simp only [lt_real, abs_real, not_lt]
        simpa using hep.le
    · simp only [sub_zero]; positivity
    · simp only [sub_zero]; positivity
    · simp [div_self hne]
    · simp only [div_self hne, sub_self]; positivity
    · simp only [sub_zero]; positivity
    · simp only [div_self hne, sub_self]; positivity
  · set c := z i with hc
    set x0 := Real.cos (startAngle n i) with hx0'
    obtain ⟨s, hs, hsl⟩ : ∃ s : ℝ, s ≠ 0 ∧ 0 < s * (derivative (leg n)).eval c := by
      rcases lt_or_gt_of_ne hne with g | g
      · exact ⟨-1, by norm_num, by linarith⟩
      · exact ⟨1, by norm_num, by linarith⟩
    have hN : (0 : ℝ) < n + 1 / 2 := by positivity
    have hN1 : (3 / 2 : ℝ) ≤ n + 1 / 2 := by
      have : (1 : ℝ) ≤ n := by exact_mod_cast (by omega : 1 ≤ n)
      linarith
    have hlt1 : c < 1 := h.lt i hin
    have hd : x0 - c ≤ c / (8 * (n + 1 / 2) ^ 2) := hs2
    rw [le_div_iff₀ (by positivity)] at hd
    have st : Stretch n c x0 s := ⟨h.zero i hin, hsl, hz, hx1, by
      have : (n : ℝ) * (n + 1) ≤ (n + 1 / 2) ^ 2 := by nlinarith
      have := mul_le_mul_of_nonneg_right this (show 0 ≤ x0 - c by linarith)
      nlinarith⟩
    have ha : bend n i * (x0 - c) ≤ 1 / 18 := by
      have := mul_le_mul_of_nonneg_right (bend_le n i) (show 0 ≤ x0 - c by linarith)
      nlinarith
    have hdd : x0 - c ≤ 1 / 18 := by nlinarith
    have hsh : shrink 4 (1 / 18) (1 / 18) ≤ eps := by simp [shrink, eps]; norm_num
    have hx : x0 ∈ Set.Icc c x0 := ⟨hs1, le_rfl⟩
    obtain ⟨y, hy, -, h1, h2⟩ := st.search hb hbp.le 4 (1 / 18) (1 / 18) x0 (x0 + eps + 1) 0 6 hx ha hdd hsh hfirst (by norm_num)
    refine ⟨(y - (leg n).eval y / (derivative (leg n)).eval y, (derivative (leg n)).eval y), fun fuel pp hf => ?_, ?_⟩
    · obtain ⟨y', -, -, h1', -⟩ := st.search hb hbp.le 4 (1 / 18) (1 / 18) x0 (x0 + eps + 1) pp fuel hx ha hdd hsh hfirst (by omega)
      rw [hroot, ← h1]
      exact newton_fuel n hfirst (by rw [h1']; simp) (by rw [h1]; simp)
    · obtain ⟨g1, g2, g3⟩ := st.step hy hb
      obtain ⟨f0, f1, -, -, f5, f6⟩ := st.facts hy
      set x := y - (leg n).eval y / (derivative (leg n)).eval y with hxd
      have hyc : 0 ≤ y - c := by linarith [hy.1]
      have hya : bend n i * (y - c) ≤ 1 / 18 := (mul_le_mul_of_nonneg_left (by linarith [hy.2]) hbp.le).trans ha
      have e1 : x - c ≤ (y - c) / 18 := by
        have : bend n i * (y - c) ^ 2 = bend n i * (y - c) * (y - c) := by ring
        rw [this] at g3
        have := mul_le_mul_of_nonneg_right hya hyc
        linarith
      have e2 : y - c ≤ 18 / 17 * eps := by linarith
      have hyk : y / (1 - y ^ 2) ≤ bend n i := by
        refine le_trans ?_ hb
        exact div_le_div₀ hx0 hy.2 (by nlinarith) (by nlinarith [hy.2, hy.1])
      have e3 : y - c ≤ 1 / (8 * (n + 1 / 2) ^ 2) := by
        refine le_trans (show y - c ≤ x0 - c by linarith [hy.2]) (hs2.trans ?_)
        exact div_le_div_of_nonneg_right hlt1.le (by positivity)
      have e4 : 1 / (8 * ((n : ℝ) + 1 / 2) ^ 2) / 18 = 1 / (144 * (n + 1 / 2) ^ 2) := by field_simp; norm_num
      refine ⟨g1, by linarith, ?_, by linarith [hy.2], ?_, ?_, ?_, by linarith, ?_⟩
      · exact g3.trans (mul_le_mul_of_nonneg_left (pow_le_pow_left₀ hyc e2 2) hbp.le)
      · intro h0
        simp only at h0
        rw [h0] at f1
        simp at f1
      · have e : (derivative (leg n)).eval c / (derivative (leg n)).eval y =
            s * (derivative (leg n)).eval c / (s * (derivative (leg n)).eval y) := by rw [mul_div_mul_left _ _ hs]
        simp only
        rw [e, sub_nonneg, div_le_one f1]
        exact f5
      · have e : (derivative (leg n)).eval c / (derivative (leg n)).eval y =
            s * (derivative (leg n)).eval c / (s * (derivative (leg n)).eval y) := by rw [mul_div_mul_left _ _ hs]
        simp only
        rw [e, one_sub_div f1.ne', div_le_iff₀ f1]
        refine f6.trans (mul_le_mul_of_nonneg_right ?_ f1.le)
        exact mul_le_mul (by linarith) e2 hyc (by linarith)
      · have e : (derivative (leg n)).eval c / (derivative (leg n)).eval y =
            s * (derivative (leg n)).eval c / (s * (derivative (leg n)).eval y) := by rw [mul_div_mul_left _ _ hs]
        simp only
        rw [e, one_sub_div f1.ne', div_le_iff₀ f1]
        refine f6.trans (mul_le_mul_of_nonneg_right ?_ f1.le)
        refine (mul_le_mul (show 2 * (y / (1 - y ^ 2)) ≤ 2 * bend n i by linarith) e3 hyc (by linarith)).trans (bend_start n i).le

end Verif
