import Verif.Proofs.Found
import Mathlib.Analysis.SpecialFunctions.ExpDeriv

/-!
# C67: error and convergence of the Gauss–Legendre rule

C14 says that the rule is exact for polynomials.  Here it is applied to arbitrary integrands.
-/

open Polynomial

namespace Verif

/-- What a call of the routine gives when the two arrays are used as a rule for `f`. -/
def CallSum (rt : ℕ → ℝ × ℝ) (n : ℕ) (a b : ℝ) (x w : Buf ℝ) (f : ℝ → ℝ) (S : ℝ) : Prop :=
  ∃ ys vs : List ℝ, nodesWeights rt a b x w n = .ok (ys.map some, vs.map some) ∧ S = (List.zipWith (fun y v => v * f y) ys vs).sum

theorem callSum (rt : ℕ → ℝ × ℝ) (n : ℕ) (hn : n < 2 ^ 63) (a b : ℝ) (x w : Buf ℝ) (hx : x.length = n) (hw : w.length = n) (f : ℝ → ℝ) (S : ℝ) :
    CallSum rt n a b x w f S ↔ S = gsum rt n a b f := by
  have key := nodesWeights_eq rt a b x w n hn hx hw
  unfold CallSum
  rw [key]
  constructor
  · rintro ⟨ys, vs, h, rfl⟩
    have h1 := (Prod.mk.inj (Res.ok.inj h)).1
    have h2 := (Prod.mk.inj (Res.ok.inj h)).2
    rw [← List.map_injective_iff.mpr (Option.some_injective ℝ) h1, ← List.map_injective_iff.mpr (Option.some_injective ℝ) h2, sum_range_list]
    rfl
  · intro h
    exact ⟨_, _, rfl, by rw [sum_range_list, h]; rfl⟩

/-- C67: with exact roots the error for an integrable `f` is at most twice the length of the interval times the distance of `f` from any
polynomial of degree below `2n`. -/
theorem C67_error {n : ℕ} (h1 : 1 ≤ n) (hn : n < 2 ^ 63) {rt : ℕ → ℝ × ℝ} (hr : ExactRoots n rt) {a b : ℝ} (hab : a ≤ b) {x w : Buf ℝ}
    (hx : x.length = n) (hw : w.length = n) {f : ℝ → ℝ} (hf : IntervalIntegrable f MeasureTheory.volume a b) {p : ℝ[X]}
    (hp : p.degree < ((2 * n : ℕ) : WithBot ℕ)) {d : ℝ} (hd : ∀ t ∈ Set.Icc a b, |f t - p.eval t| ≤ d) :
    ∃ S, CallSum rt n a b x w f S ∧ |S - ∫ t in a..b, f t| ≤ 2 * (b - a) * d :=
  ⟨_, (callSum rt n hn a b x w hx hw f _).2 rfl, hr.error h1 hab f hf p hp d hd⟩

/-- C67: for `2n` times differentiable integrands the error is explicit. -/
theorem C67_smooth {n : ℕ} (h1 : 1 ≤ n) (hn : n < 2 ^ 63) {rt : ℕ → ℝ × ℝ} (hr : ExactRoots n rt) {a b : ℝ} (hab : a ≤ b) {x w : Buf ℝ}
    (hx : x.length = n) (hw : w.length = n) {f : ℝ → ℝ} (hf : ContDiffOn ℝ (2 * n : ℕ) f (Set.Icc a b)) {M : ℝ}
    (hM : ∀ t ∈ Set.Icc a b, |iteratedDerivWithin (2 * n) f (Set.Icc a b) t| ≤ M) :
    ∃ S, CallSum rt n a b x w f S ∧ |S - ∫ t in a..b, f t| ≤ 2 * (b - a) * (M * (b - a) ^ (2 * n) / (2 * n - 1).factorial) :=
  ⟨_, (callSum rt n hn a b x w hx hw f _).2 rfl, gsum_smooth hr h1 hab f hf M hM⟩

/-- C67: for continuous integrands the rules of `n` roots, exact or as found by the search (`Found.nearRoots`), tend to the integral as `n` grows.  `gsum` is the sum over the cells
written by the routine, without the bound on `n` that the machine integers impose. -/
theorem C67_limit {rt : ℕ → ℕ → ℝ × ℝ} (hr : ∀ n, NearRoots n (rt n)) {a b : ℝ} (hab : a ≤ b) {f : ℝ → ℝ} (hf : ContinuousOn f (Set.Icc a b)) :
    Filter.Tendsto (fun n => gsum (rt n) n a b f) Filter.atTop (nhds (∫ t in a..b, f t)) ∧
      ∀ n, n < 2 ^ 63 → ∀ x w : Buf ℝ, x.length = n → w.length = n → CallSum (rt n) n a b x w f (gsum (rt n) n a b f) := by
  refine ⟨Metric.tendsto_atTop.2 fun e he => ?_, fun n hn x w hx hw => (callSum (rt n) n hn a b x w hx hw f _).2 rfl⟩
  obtain ⟨N, hN⟩ := gsum_tendsto hab f hf (e / 2) (by linarith)
  refine ⟨N, fun n hn => ?_⟩
  rw [Real.dist_eq]
  linarith [hN n hn (rt n) (hr n)]

/-- C67: the first and the last abscissa tend to the ends of the interval. -/
theorem C67_ends {rt : ℕ → ℕ → ℝ × ℝ} (hr : ∀ n, NearRoots n (rt n)) (a b : ℝ) :
    Filter.Tendsto (fun n => nodeAt (rt n) a b n 0) Filter.atTop (nhds a) ∧
      Filter.Tendsto (fun n => nodeAt (rt n) a b n (n - 1)) Filter.atTop (nhds b) := by
  have h := fun e he => ends_near a b e he
  constructor <;> refine Metric.tendsto_atTop.2 fun e he => ?_
  · obtain ⟨N, hN⟩ := h (e / 2) (by linarith)
    refine ⟨N, fun n hn => ?_⟩
    rw [Real.dist_eq]
    linarith [(hN n hn _ (hr n)).1]
  · obtain ⟨N, hN⟩ := h (e / 2) (by linarith)
    refine ⟨N, fun n hn => ?_⟩
    rw [Real.dist_eq]
    linarith [(hN n hn _ (hr n)).2]

/-- Exact root searches exist for every number of nodes, and `exp` on `[0,1]` with 5 nodes is integrated to a relative precision that
the bound makes explicit: `2 e / 9!`. -/
example : ∃ rt S, ExactRoots 5 rt ∧ CallSum rt 5 0 1 (malloc ℝ 5) (malloc ℝ 5) Real.exp S ∧ |S - (Real.exp 1 - 1)| ≤ 2 * Real.exp 1 / 362880 := by
  obtain ⟨rt, hr⟩ := exactRoots_exist 5
  obtain ⟨S, h1, h2⟩ := C67_smooth (by norm_num) (by norm_num) hr (zero_le_one) (x := malloc ℝ 5) (w := malloc ℝ 5) (by simp [malloc])
    (by simp [malloc]) (f := Real.exp) (Real.contDiff_exp.contDiffOn) (M := Real.exp 1) (fun t ht => by
      rw [iteratedDerivWithin_eq_iteratedDeriv (uniqueDiffOn_Icc zero_lt_one) Real.contDiff_exp.contDiffAt ht,
        iteratedDeriv_eq_iterate, Real.iter_deriv_exp, abs_of_pos (Real.exp_pos t)]
      exact Real.exp_le_exp.2 ht.2)
  refine ⟨rt, S, hr, h1, ?_⟩
  rw [integral_exp, Real.exp_zero] at h2
  refine h2.trans (le_of_eq ?_)
  norm_num [Nat.factorial]
  ring

/-- The absolute value, continuous but not smooth, with the roots found by the search. -/
example : ∃ rt : ℕ → ℕ → ℝ × ℝ, (∀ n, Found n (rt n)) ∧
    Filter.Tendsto (fun n => gsum (rt n) n (-1) 2 fun t => |t|) Filter.atTop (nhds (∫ t in (-1 : ℝ)..2, |t|)) ∧
    Filter.Tendsto (fun n => nodeAt (rt n) (-1) 2 n 0) Filter.atTop (nhds (-1)) := by
  choose rt hr using found_exist
  have hr' := fun n => (hr n).nearRoots
  exact ⟨rt, hr, (C67_limit hr' (by norm_num) continuous_abs.continuousOn).1, (C67_ends hr' _ _).1⟩

end Verif
