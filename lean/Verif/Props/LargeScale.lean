import Verif.Props.Columns
import Verif.Props.Safety
import Verif.Proofs.PosRule
import Verif.Proofs.Found
import Verif.Props.Gamma1

/-!
# C75 – the corrections to the propagators on large scales
-/

namespace Verif

/-- Coefficient of `-k²/(2π²) ∫ P dq` in the one-loop correction to the propagator of a field at small `k`. -/
noncomputable def Spec.smallK : Field → ℝ
  | .delta => 61 / 630
  | .theta => 3 / 10

/-- C75: the one-loop kernels at loop wavenumbers above `10 k` are the leading term up to order `k²/q²`. -/
theorem C75_kernel_one (a : Field) (x : ℝ) (h : 10 < x) :
    |(match a with | .delta => kernelFF x | .theta => kernelGG x) + Spec.smallK a * x| ≤ 11 / 100 / x := by
  have hx : 0 < x := by linarith
  cases a
  · have e : kernelFF x + 61 / 630 * x = 2 / 105 / x - 10 / 1323 / x ^ 3 := by
      unfold kernelFF
      dsimp only
      rw [if_neg (by rw [not_lt, abs_of_pos (by linarith)]; norm_num; linarith), if_pos h]
      field_simp
      ring
    simp only [Spec.smallK, e]
    have h3 : 1 / x ^ 3 ≤ 1 / x := by
      gcongr; nlinarith [sq_nonneg x, mul_pos hx hx]
    have h0 : 0 ≤ 1 / x ^ 3 := by positivity
    rw [show 2 / 105 / x - 10 / 1323 / x ^ 3 = 2 / 105 * (1 / x) - 10 / 1323 * (1 / x ^ 3) by ring,
      show 11 / 100 / x = 11 / 100 * (1 / x) by ring, abs_le]
    constructor <;> linarith
  · have e : kernelGG x + 3 / 10 * x = 26 / 245 / x - 38 / 2205 / x ^ 3 := by
      unfold kernelGG
      dsimp only
      rw [if_neg (by rw [not_lt, abs_of_pos (by linarith)]; norm_num; linarith), if_pos h]
      field_simp
      ring
    simp only [Spec.smallK, e]
    have h3 : 1 / x ^ 3 ≤ 1 / x := by
      gcongr; nlinarith [sq_nonneg x, mul_pos hx hx]
    have h0 : 0 ≤ 1 / x ^ 3 := by positivity
    rw [show 26 / 245 / x - 38 / 2205 / x ^ 3 = 26 / 245 * (1 / x) - 38 / 2205 * (1 / x ^ 3) by ring,
      show 11 / 100 / x = 11 / 100 * (1 / x) by ring, abs_le]
    constructor <;> linarith

theorem frac_le {a b d u : ℝ} (hu : 0 < u) (hd : 0 < d) (ha : 0 ≤ a) (h : a * u ^ 2 ≤ b * d) : 0 ≤ a / d ∧ a / d ≤ b / u ^ 2 := by
  refine ⟨by positivity, ?_⟩
  rw [div_le_div_iff₀ hd (by positivity)]
  exact h

theorem cc2_small (a : Field) {u : ℝ} (hu : 1 ≤ u) : |cc2 a u| ≤ 7 / 1000 / u ^ 2 := by
  have h0 : 0 < u := by linarith
  have p2 : 1 ≤ u ^ 2 := one_le_pow₀ hu
  have m : ∀ i j : ℕ, i ≤ j → u ^ i ≤ u ^ j := fun i j h => pow_le_pow_right₀ hu h
  cases a <;> simp only [cc2]
  · obtain ⟨a1, a2⟩ := frac_le (a := 0.02088557981734545) (b := 6 / 1000) (d := 35.09866396385646 * (u * (u * (u * u))) + 4.133811416743832 * (u * u) + 1)
      h0 (by positivity) (by norm_num) (by ring_nf; nlinarith [m 2 4 (by norm_num), p2])
    obtain ⟨b1, b2⟩ := frac_le (a := 0.076100391588544 * (u * (u * u))) (b := 1 / 1000) (d := 77.79670692480381 * (u * u * (u * (u * (u * u)))) + 1)
      h0 (by positivity) (by positivity) (by ring_nf; nlinarith [m 5 6 (by norm_num), pow_pos h0 6])
    rw [abs_le, show 7 / 1000 / u ^ 2 = 6 / 1000 / u ^ 2 + 1 / 1000 / u ^ 2 by ring]
    constructor <;> linarith
  · obtain ⟨a1, a2⟩ := frac_le (a := 0.008217140060512867) (b := 6 / 1000) (d := 42.14072830553836 * (u * (u * (u * u))) + 1.367564560397748 * (u * u) + 1)
      h0 (by positivity) (by norm_num) (by ring_nf; nlinarith [m 2 4 (by norm_num), p2])
    obtain ⟨b1, b2⟩ := frac_le (a := 0.01099093588476197 * (u * (u * u))) (b := 1 / 1000) (d := 28.490424851390667 * (u * (u * (u * u)) * (u * (u * (u * u)))) + 1)
      h0 (by positivity) (by positivity) (by ring_nf; nlinarith [m 5 8 (by norm_num), pow_pos h0 8])
    rw [abs_le, show 7 / 1000 / u ^ 2 = 6 / 1000 / u ^ 2 + 1 / 1000 / u ^ 2 by ring]
    rw [neg_div]
    constructor <;> linarith

theorem dd2_small (a : Field) {u : ℝ} (hu : 1 ≤ u) : |dd2 a u| ≤ 17 / 1000 / u ^ 2 := by
  have h0 : 0 < u := by linarith
  have p2 : 1 ≤ u ^ 2 := one_le_pow₀ hu
  have m : ∀ i j : ℕ, i ≤ j → u ^ i ≤ u ^ j := fun i j h => pow_le_pow_right₀ hu h
  cases a <;> simp only [dd2]
  · obtain ⟨a1, a2⟩ := frac_le (a := 0.022168478217299517) (b := 10 / 1000) (d := 7.030631093970638 * (u * u * (u * u)) + 2.457866449142683 * (u * u) + 1)
      h0 (by positivity) (by norm_num) (by ring_nf; nlinarith [m 2 4 (by norm_num), p2])
    obtain ⟨b1, b2⟩ := frac_le (a := 0.009267495321465601 * (u * u)) (b := 3 / 1000) (d := 4.11633699497035 * (u * u * (u * u * (u * u)) * (u * u * (u * u))) + 1)
      h0 (by positivity) (by positivity) (by ring_nf; nlinarith [m 4 10 (by norm_num), pow_pos h0 10])
    rw [abs_le, show 17 / 1000 / u ^ 2 = 10 / 1000 / u ^ 2 + 3 / 1000 / u ^ 2 + 4 / 1000 / u ^ 2 by ring]
    have : 0 ≤ 4 / 1000 / u ^ 2 := by positivity
    rw [neg_div]
    constructor <;> linarith
  · obtain ⟨a1, a2⟩ := frac_le (a := 0.008023147297149955) (b := 3.6 / 1000) (d := 2.238261369090066 * (u * (u * u) * (u * u)) + 1)
      h0 (by positivity) (by norm_num) (by ring_nf; nlinarith [m 2 5 (by norm_num), p2])
    obtain ⟨b1, b2⟩ := frac_le (a := 0.006173880966928251 * (u * u)) (b := 13.2 / 1000) (d := 0.4711737436482179 * (u * (u * u) * (u * u)) + 1)
      h0 (by positivity) (by positivity) (by ring_nf; nlinarith [m 4 5 (by norm_num), pow_pos h0 5])
    rw [abs_le, show 17 / 1000 / u ^ 2 = 3.6 / 1000 / u ^ 2 + 13.2 / 1000 / u ^ 2 + 0.2 / 1000 / u ^ 2 by ring]
    have : 0 ≤ 0.2 / 1000 / u ^ 2 := by positivity
    constructor <;> linarith

theorem delta2_near (a : Field) {u : ℝ} (hu : 1 ≤ u) : |delta2 a u - 1| ≤ 2 / u ^ 2 + 1 / 10 ^ 16 := by
  have h0 : 0 < u := by linarith
  have m : ∀ i j : ℕ, i ≤ j → u ^ i ≤ u ^ j := fun i j h => pow_le_pow_right₀ hu h
  have p2 : 1 ≤ u ^ 2 := one_le_pow₀ hu
  have e : u * Real.sqrt 2 * (u * Real.sqrt 2) = 2 * u ^ 2 := by
    rw [show u * Real.sqrt 2 * (u * Real.sqrt 2) = u ^ 2 * (Real.sqrt 2 * Real.sqrt 2) by ring, Real.mul_self_sqrt (by norm_num)]
    ring
  cases a <;> simp only [delta2, e]
  · obtain ⟨a1, a2⟩ := frac_le (a := 0.3191221482038663 / 1.3549058352752525) (b := 1) (d := 1.3549058352752525 * (2 * u ^ 2 * (2 * u ^ 2)) + 1)
      h0 (by positivity) (by norm_num) (by ring_nf; nlinarith [m 2 4 (by norm_num)])
    obtain ⟨b1, b2⟩ := frac_le (a := 1.2805575495849764) (b := 1) (d := 18.192939946270577 * (2 * u ^ 2 * (2 * u ^ 2)) + 3.98817716852858 * (2 * u ^ 2) + 1)
      h0 (by positivity) (by norm_num) (by ring_nf; nlinarith [m 2 4 (by norm_num)])
    have e2 : 0.3191221482038663 * (2 * u ^ 2 * (2 * u ^ 2)) / (1.3549058352752525 * (2 * u ^ 2 * (2 * u ^ 2)) + 1) =
        0.3191221482038663 / 1.3549058352752525 - 0.3191221482038663 / 1.3549058352752525 / (1.3549058352752525 * (2 * u ^ 2 * (2 * u ^ 2)) + 1) := by
      field_simp
      ring
    rw [e2, abs_le, show 2 / u ^ 2 = 1 / u ^ 2 + 1 / u ^ 2 by ring]
    have n1 : |(0.3191221482038663 / 1.3549058352752525 + 0.764469131436698 - 1 : ℝ)| ≤ 1 / 10 ^ 16 := by rw [abs_le]; norm_num
    obtain ⟨n1, n2⟩ := abs_le.1 n1
    constructor <;> linarith
  · obtain ⟨a1, a2⟩ := frac_le (a := 1.528058751211026 * (1.8616263354608626 * (2 * u ^ 2))) (b := 0.6) (d := 2.4414566000839355 * (2 * u ^ 2 * (2 * u ^ 2)) + 1)
      h0 (by positivity) (by positivity) (by ring_nf; nlinarith [m 2 4 (by norm_num)])
    obtain ⟨c1, c2⟩ := frac_le (a := 1.528058751211026) (b := 0.6) (d := 2.4414566000839355 * (2 * u ^ 2 * (2 * u ^ 2)) + 1)
      h0 (by positivity) (by positivity) (by ring_nf; nlinarith [m 2 4 (by norm_num)])
    obtain ⟨b1, b2⟩ := frac_le (a := 2.5227965281961247) (b := 1.3) (d := 0.0028106312591877226 * (2 * u ^ 2 * (2 * u ^ 2)) + 1.0332351481570086 * (2 * u ^ 2) + 1)
      h0 (by positivity) (by norm_num) (by ring_nf; nlinarith [m 2 4 (by norm_num)])
    have e2 : 1.528058751211026 * (2.4414566000839355 * (2 * u ^ 2 * (2 * u ^ 2)) + 1.8616263354608626 * (2 * u ^ 2)) /
        (2.4414566000839355 * (2 * u ^ 2 * (2 * u ^ 2)) + 1) =
        1.528058751211026 + 1.528058751211026 * (1.8616263354608626 * (2 * u ^ 2)) / (2.4414566000839355 * (2 * u ^ 2 * (2 * u ^ 2)) + 1)
        - 1.528058751211026 / (2.4414566000839355 * (2 * u ^ 2 * (2 * u ^ 2)) + 1) := by
      field_simp
      ring
    rw [e2, abs_le, show 2 / u ^ 2 = 0.6 / u ^ 2 + 1.3 / u ^ 2 + 0.1 / u ^ 2 by ring]
    have : 0 ≤ 0.1 / u ^ 2 := by positivity
    have : 0 ≤ 1.3 / u ^ 2 := by positivity
    constructor <;> norm_num at * <;> linarith


/-- Harmonic combination of two loop wavenumbers. -/
noncomputable def harm (q1 q2 : ℝ) : ℝ := q1 * q2 / Real.sqrt (q1 * q1 + q2 * q2)

theorem harm_scale {q1 q2 k : ℝ} (hk : 0 < k) : harm (q1 / k) (q2 / k) = harm q1 q2 / k := by
  unfold harm
  rw [show q1 / k * (q1 / k) + q2 / k * (q2 / k) = (q1 * q1 + q2 * q2) / k ^ 2 by field_simp, Real.sqrt_div' _ (by positivity),
    Real.sqrt_sq hk.le]
  by_cases h : Real.sqrt (q1 * q1 + q2 * q2) = 0
  · simp [h]
  · field_simp

theorem harm_le {q1 q2 : ℝ} (h1 : 0 < q1) (h2 : 0 < q2) : harm q1 q2 ≤ Real.sqrt (q1 * q1 + q2 * q2) := by
  unfold harm
  have : 0 < Real.sqrt (q1 * q1 + q2 * q2) := Real.sqrt_pos.2 (by positivity)
  rw [div_le_iff₀ this, Real.mul_self_sqrt (by positivity)]
  nlinarith [sq_nonneg (q1 - q2), mul_pos h1 h2]

theorem beta2_scale (a : Field) {q1 q2 k : ℝ} (hk : 0 < k) : beta2 a (q1 / k) (q2 / k) = beta2 a q1 q2 := by
  have : |(q1 / k - q2 / k) / (q1 / k + q2 / k)| = |(q1 - q2) / (q1 + q2)| := by
    rw [← sub_div, ← add_div, div_div_div_cancel_right₀ hk.ne']
  unfold beta2
  rw [this]

theorem alpha2_near (a : Field) {q1 q2 : ℝ} (h1 : 0 < q1) (h2 : 0 < q2) (h : 1 ≤ harm q1 q2) :
    |alpha2 a q1 q2 - beta2 a q1 q2| ≤ |beta2 a q1 q2| * (2 / harm q1 q2 ^ 2 + 1 / 10 ^ 16) + 1 / 10 / harm q1 q2 ^ 2 := by
  have hle := harm_le h1 h2
  have hr : 1 ≤ Real.sqrt (q1 * q1 + q2 * q2) := h.trans hle
  have c := cc2_small a h
  have d := dd2_small a hr
  have e := delta2_near a h
  have al : alpha2 a q1 q2 = (beta2 a q1 q2 - cc2 a (harm q1 q2) - dd2 a (Real.sqrt (q1 * q1 + q2 * q2))) * delta2 a (harm q1 q2) := rfl
  rw [al]
  have d' : |dd2 a (Real.sqrt (q1 * q1 + q2 * q2))| ≤ 17 / 1000 / harm q1 q2 ^ 2 := by
    refine d.trans ?_
    gcongr
  generalize cc2 a (harm q1 q2) = C at *
  generalize dd2 a (Real.sqrt (q1 * q1 + q2 * q2)) = D at *
  generalize delta2 a (harm q1 q2) = E at *
  generalize beta2 a q1 q2 = B at *
  generalize harm q1 q2 = u at *
  have hu : 0 < 1 / u ^ 2 := by positivity
  have hu1 : 1 / u ^ 2 ≤ 1 := by rw [div_le_one (by positivity)]; exact one_le_pow₀ h
  rw [show (B - C - D) * E - B = B * (E - 1) - (C + D) * (E - 1) - (C + D) by ring]
  refine (abs_sub _ _).trans ((add_le_add_left (abs_sub _ _) _).trans ?_)
  rw [abs_mul, abs_mul]
  have cd : |C + D| ≤ 24 / 1000 * (1 / u ^ 2) := (abs_add_le _ _).trans (by
    rw [show 7 / 1000 / u ^ 2 = 7 / 1000 * (1 / u ^ 2) by ring] at c
    rw [show 17 / 1000 / u ^ 2 = 17 / 1000 * (1 / u ^ 2) by ring] at d'
    linarith)
  have e1 : |E - 1| ≤ 3 := by
    rw [show 2 / u ^ 2 = 2 * (1 / u ^ 2) by ring] at e
    norm_num at *
    linarith
  have t : |C + D| * |E - 1| ≤ 24 / 1000 * (1 / u ^ 2) * 3 := mul_le_mul cd e1 (abs_nonneg _) (by positivity)
  have t2 : |B| * |E - 1| ≤ |B| * (2 / u ^ 2 + 1 / 10 ^ 16) := mul_le_mul_of_nonneg_left e (abs_nonneg _)
  rw [show 1 / 10 / u ^ 2 = 1 / 10 * (1 / u ^ 2) by ring]
  linarith

/-- C75: when both loop wavenumbers are large against `k`, the integrand of the two-loop propagator is `k²` times a function of the loop
wavenumbers alone, up to a relative error of order `k²`. -/
theorem C75_kernel_two (a : Field) {k q1 q2 : ℝ} (hk : 0 < k) (h1 : 0 < q1) (h2 : 0 < q2) (h : k ≤ harm q1 q2) :
    |integGamma12 a k q1 q2 + k ^ 2 * beta2 a q1 q2 / (q1 ^ 2 + q2 ^ 2)| ≤
      k ^ 2 / (q1 ^ 2 + q2 ^ 2) * (|beta2 a q1 q2| * (2 * (k / harm q1 q2) ^ 2 + 1 / 10 ^ 16) + 1 / 10 * (k / harm q1 q2) ^ 2) := by
  have hh : 0 < harm q1 q2 := hk.trans_le h
  have n := alpha2_near a (div_pos h1 hk) (div_pos h2 hk) (by rw [harm_scale hk, le_div_iff₀ hk]; linarith)
  rw [harm_scale hk, beta2_scale a hk] at n
  have e : integGamma12 a k q1 q2 + k ^ 2 * beta2 a q1 q2 / (q1 ^ 2 + q2 ^ 2) =
      -(k ^ 2 / (q1 ^ 2 + q2 ^ 2) * (alpha2 a (q1 / k) (q2 / k) - beta2 a q1 q2)) := by
    unfold integGamma12
    dsimp only
    field_simp
    ring
  rw [e, abs_neg, abs_mul, abs_of_pos (by positivity : 0 < k ^ 2 / (q1 ^ 2 + q2 ^ 2))]
  refine mul_le_mul_of_nonneg_left (n.trans (le_of_eq ?_)) (by positivity)
  field_simp

/-- Sum over the nodes of a quadrature table that stands for `∫ P dq`. -/
noncomputable def GLQ.total (g : GLQ ℝ) : ℝ := (g.nodes.map fun t => t.1 * t.2.2 * t.2.1).sum

/-- Sum over the nodes that stands for `∫ |P| dq/q²`. -/
noncomputable def GLQ.inner (g : GLQ ℝ) : ℝ := (g.nodes.map fun t => |t.2.2 * t.2.1| / t.1).sum

theorem list_abs_sum {β : Type} (l : List β) (f g : β → ℝ) (h : ∀ t ∈ l, |f t| ≤ g t) : |(l.map f).sum| ≤ (l.map g).sum := by
  induction l with
  | nil => simp
  | cons t l ih =>
    simp only [List.map_cons, List.sum_cons]
    exact (abs_add_le _ _).trans (add_le_add (h t (by simp)) (ih fun u hu => h u (by simp [hu])))

/-- C75: a one-loop propagator below a tenth of all loop wavenumbers is `-k²` times a constant fixed by the spectrum, up to order `k⁴`. -/
theorem C75_one_loop (a : Field) (g : GLQ ℝ) (hg : g.Ok) {k v : ℝ} (hk : 0 < k) (hq : ∀ q ∈ g.q, 10 * k < q) (h : gamma1OneLoop a g k = .ok v) :
    |v + k ^ 2 * (Spec.smallK a * g.total / (2 * Real.pi ^ 2))| ≤ k ^ 4 * (11 / 100 * g.inner / (2 * Real.pi ^ 2)) := by
  rw [C23_one_loop_sum a g hg, Res.ok.injEq] at h
  subst h
  have hpi : 0 < 2 * Real.pi ^ 2 := by positivity
  have key : |(g.nodes.map fun t => (match a with | .delta => kernelFF (t.1 / k) | .theta => kernelGG (t.1 / k)) * t.2.2 * t.2.1
      + Spec.smallK a / k * (t.1 * t.2.2 * t.2.1)).sum| ≤ (g.nodes.map fun t => 11 / 100 * k * (|t.2.2 * t.2.1| / t.1)).sum := by
    refine list_abs_sum _ _ _ fun t ht => ?_
    have hq1 : 10 * k < t.1 := hq _ (List.of_mem_zip (by simpa [GLQ.nodes] using ht : (t.1, t.2) ∈ g.q.zip (g.w.zip g.pk))).1
    have h0 : 0 < t.1 := by linarith
    have n := C75_kernel_one a (t.1 / k) (by rw [lt_div_iff₀ hk]; exact hq1)
    rw [show ∀ K : ℝ, K * t.2.2 * t.2.1 + Spec.smallK a / k * (t.1 * t.2.2 * t.2.1) = (K + Spec.smallK a * (t.1 / k)) * (t.2.2 * t.2.1) from
      fun K => by ring, abs_mul]
    refine (mul_le_mul_of_nonneg_right n (abs_nonneg _)).trans (le_of_eq ?_)
    field_simp
  rw [List.sum_map_add, List.sum_map_mul_left, List.sum_map_mul_left] at key
  unfold GLQ.total GLQ.inner
  generalize (g.nodes.map fun t => (match a with | .delta => kernelFF (t.1 / k) | .theta => kernelGG (t.1 / k)) * t.2.2 * t.2.1).sum = S at *
  generalize (g.nodes.map fun t => t.1 * t.2.2 * t.2.1).sum = T at *
  generalize (g.nodes.map fun t => |t.2.2 * t.2.1| / t.1).sum = I at *
  rw [show S * k * k * k / (2 * Real.pi * Real.pi) + k ^ 2 * (Spec.smallK a * T / (2 * Real.pi ^ 2)) =
    k ^ 3 / (2 * Real.pi ^ 2) * (S + Spec.smallK a / k * T) by field_simp, abs_mul, abs_of_pos (by positivity)]
  refine (mul_le_mul_of_nonneg_left key (by positivity)).trans (le_of_eq ?_)
  field_simp

/-- Double sum over the nodes with a kernel. -/
noncomputable def GLQ.pairs (g : GLQ ℝ) (f : ℝ → ℝ → ℝ → ℝ) : ℝ :=
  (g.nodes.map fun s => (g.nodes.map fun t => f s.1 t.1 (s.2.1 * s.2.2 * s.1 ^ 3 * (t.2.1 * t.2.2 * t.1 ^ 3))).sum).sum

/-- C75: a two-loop propagator far below all loop wavenumbers is `-k²` times a constant fixed by the spectrum, up to order `k⁴` and a
relative rounding of the coded constants of `10⁻¹⁶`. -/
theorem C75_two_loop (a : Field) (g : GLQ ℝ) (hg : g.Ok) {k m v : ℝ} (hk : 0 < k) (hq : ∀ q ∈ g.q, m ≤ q) (hm : 2 * k ≤ m)
    (h : gamma1TwoLoop a g k = .ok v) :
    |v + k ^ 2 * (g.pairs (fun q1 q2 c => c * beta2 a q1 q2 / (q1 ^ 2 + q2 ^ 2)) / (4 * Real.pi ^ 4))| ≤
      k ^ 2 * (g.pairs (fun q1 q2 c => |c| * |beta2 a q1 q2| / (q1 ^ 2 + q2 ^ 2)) / (4 * Real.pi ^ 4) * (4 * (k / m) ^ 2 + 1 / 10 ^ 16)
        + g.pairs (fun q1 q2 c => |c| / (q1 ^ 2 + q2 ^ 2)) / (4 * Real.pi ^ 4) * (1 / 5 * (k / m) ^ 2)) := by
  rw [C23_two_loop_sum a g hg, Res.ok.injEq] at h
  subst h
  have hpi : 0 < 4 * Real.pi ^ 4 := by positivity
  have hm0 : 0 < m := by linarith
  have key := list_abs_sum g.nodes (fun s => (g.nodes.map fun t => s.2.1 * s.2.2 * s.1 ^ 3 * (t.2.1 * t.2.2 * t.1 ^ 3) *
      integGamma12 a k s.1 t.1 + k ^ 2 * (s.2.1 * s.2.2 * s.1 ^ 3 * (t.2.1 * t.2.2 * t.1 ^ 3) * beta2 a s.1 t.1 / (s.1 ^ 2 + t.1 ^ 2))).sum)
    (fun s => (g.nodes.map fun t =>
      k ^ 2 * (4 * (k / m) ^ 2 + 1 / 10 ^ 16) * (|s.2.1 * s.2.2 * s.1 ^ 3 * (t.2.1 * t.2.2 * t.1 ^ 3)| * |beta2 a s.1 t.1| / (s.1 ^ 2 + t.1 ^ 2))
      + k ^ 2 * (1 / 5 * (k / m) ^ 2) * (|s.2.1 * s.2.2 * s.1 ^ 3 * (t.2.1 * t.2.2 * t.1 ^ 3)| / (s.1 ^ 2 + t.1 ^ 2))).sum)
    (fun s hs => list_abs_sum _ _ _ fun t ht => by
      have q1 : m ≤ s.1 := hq _ (List.of_mem_zip (by simpa [GLQ.nodes] using hs : (s.1, s.2) ∈ g.q.zip (g.w.zip g.pk))).1
      have q2 : m ≤ t.1 := hq _ (List.of_mem_zip (by simpa [GLQ.nodes] using ht : (t.1, t.2) ∈ g.q.zip (g.w.zip g.pk))).1
      have p1 : 0 < s.1 := by linarith
      have p2 : 0 < t.1 := by linarith
      have hh : m ^ 2 / 2 ≤ harm s.1 t.1 ^ 2 := by
        unfold harm
        rw [div_pow, Real.sq_sqrt (by positivity), div_le_div_iff₀ (by norm_num) (by positivity)]
        have u1 : m ^ 2 ≤ s.1 ^ 2 := by gcongr
        have u2 : m ^ 2 ≤ t.1 ^ 2 := by gcongr
        nlinarith [mul_le_mul_of_nonneg_right u1 (sq_nonneg t.1), mul_le_mul_of_nonneg_right u2 (sq_nonneg s.1)]
      have hp : 0 < harm s.1 t.1 := by unfold harm; positivity
      have hk1 : k ≤ harm s.1 t.1 := by
        refine le_of_sq_le_sq (le_trans ?_ hh) hp.le
        nlinarith
      have n := C75_kernel_two a hk p1 p2 hk1
      have hr : (k / harm s.1 t.1) ^ 2 ≤ 2 * (k / m) ^ 2 := by
        rw [div_pow, div_pow, ← mul_div_assoc, div_le_div_iff₀ (by positivity) (by positivity)]
        nlinarith [sq_nonneg k, mul_le_mul_of_nonneg_left hh (sq_nonneg k)]
      rw [show ∀ c i b d : ℝ, c * i + k ^ 2 * (c * b / d) = c * (i + k ^ 2 * b / d) from fun c i b d => by ring, abs_mul]
      refine (mul_le_mul_of_nonneg_left n (abs_nonneg _)).trans ?_
      have n2 : |beta2 a s.1 t.1| * (2 * (k / harm s.1 t.1) ^ 2 + 1 / 10 ^ 16) + 1 / 10 * (k / harm s.1 t.1) ^ 2 ≤
          |beta2 a s.1 t.1| * (4 * (k / m) ^ 2 + 1 / 10 ^ 16) + 1 / 5 * (k / m) ^ 2 := by
        refine add_le_add (mul_le_mul_of_nonneg_left (by linarith) (abs_nonneg _)) (by linarith)
      refine (mul_le_mul_of_nonneg_left (mul_le_mul_of_nonneg_left n2 (by positivity)) (abs_nonneg _)).trans (le_of_eq ?_)
      ring)
  simp only [List.sum_map_add, List.sum_map_mul_left] at key
  unfold GLQ.pairs
  generalize (g.nodes.map fun s => (g.nodes.map fun t => s.2.1 * s.2.2 * s.1 ^ 3 * (t.2.1 * t.2.2 * t.1 ^ 3) *
      integGamma12 a k s.1 t.1).sum).sum = S at *
  generalize (g.nodes.map fun s => (g.nodes.map fun t => s.2.1 * s.2.2 * s.1 ^ 3 * (t.2.1 * t.2.2 * t.1 ^ 3) * beta2 a s.1 t.1 /
    (s.1 ^ 2 + t.1 ^ 2)).sum).sum = T at *
  generalize (g.nodes.map fun s => (g.nodes.map fun t => |s.2.1 * s.2.2 * s.1 ^ 3 * (t.2.1 * t.2.2 * t.1 ^ 3)| * |beta2 a s.1 t.1| /
    (s.1 ^ 2 + t.1 ^ 2)).sum).sum = U at *
  generalize (g.nodes.map fun s => (g.nodes.map fun t => |s.2.1 * s.2.2 * s.1 ^ 3 * (t.2.1 * t.2.2 * t.1 ^ 3)| /
    (s.1 ^ 2 + t.1 ^ 2)).sum).sum = W at *
  rw [show S / (4 * Real.pi ^ 4) + k ^ 2 * (T / (4 * Real.pi ^ 4)) = (S + k ^ 2 * T) / (4 * Real.pi ^ 4) by ring, abs_div, abs_of_pos hpi]
  refine (div_le_div_of_nonneg_right key hpi.le).trans (le_of_eq ?_)
  ring

/-- Nodes of a table set up with roots found by the search, or exact ones, are in the range, and its arrays have the same length. -/
theorem tab_nodes {rt : ℕ → ℝ × ℝ} {t : Pk ℝ} {p : Precision ℝ} {g : GLQ ℝ} (hn : p.n < 2 ^ 63) (hr : NearRoots p.n rt) {q0 q1 : ℝ}
    (hrange : glqRange t p = .ok (q0, q1)) (h0 : 0 < q0) (h01 : q0 ≤ q1) (h : initGLQ rt t p = .ok g) : g.Ok ∧ ∀ q ∈ g.q, q0 ≤ q := by
  obtain ⟨a', b', pk, h1, h2, hgv⟩ := initGLQ_ok hn h
  rw [hrange, Res.ok.injEq, Prod.mk.injEq] at h1
  obtain ⟨rfl, rfl⟩ := h1
  refine ⟨⟨by rw [hgv]; simp, by rw [hgv]; simp, ?_⟩, ?_⟩
  · have := findPk_length h2
    rw [hgv]
    simpa using this
  · intro q hq
    rw [hgv] at hq
    simp only [List.mem_map, List.mem_range] at hq
    obtain ⟨i, hi, rfl⟩ := hq
    have := (hr.node_mem (Real.log_le_log h0 h01) i hi).1
    calc q0 = Real.exp (Real.log q0) := (Real.exp_log h0).symm
      _ ≤ _ := Real.exp_le_exp.2 this

/-- C75: on scales larger than ten times the largest loop scale, the columns `gamma1a_1loop` and `gamma1b_1loop` of a two-loop run, and the
columns `gamma1a_2loop` and `gamma1b_2loop` after subtraction of half the square of the former, are `-k²` times constants fixed by the
spectrum up to order `k⁴`. -/
theorem C75_columns {cuba : Cuba ℝ} {e : Env} {a b : Field} {es : List Event} {μ ν : Mem} {cfg : Cfg ℝ} (hμ : Room 11 e.ks.length μ)
    (hes : Schedule 7 e.ks.length es) (h : runTerms2 cuba e a b es μ = .ok (cfg, ν)) {ik : ℕ} {k : ℝ} (hk : 0 < k) (hik : e.ks[ik]? = some k)
    (hr : ∀ n, NearRoots n (e.rt n)) (hn1 : (e.cfg.prec .gamma1_1loop_q).n < 2 ^ 63) (hn2 : (e.cfg.prec .gamma1_2loop_q).n < 2 ^ 63)
    {p0 p1 q0 q1 : ℝ} (hp : glqRange e.t (e.cfg.prec .gamma1_1loop_q) = .ok (p0, p1)) (hp1 : p0 ≤ p1) (hkp : 10 * k < p0)
    (hq : glqRange e.t (e.cfg.prec .gamma1_2loop_q) = .ok (q0, q1)) (hq1 : q0 ≤ q1) (hkq : 2 * k ≤ q0) :
    ∃ g1 g12 : GLQ ℝ, e.tabQ .gamma1_1loop_q = .ok g1 ∧ e.tabQ .gamma1_2loop_q = .ok g12 ∧
      ∀ f col1 col2, (f, col1, col2) = (a, "gamma1a_1loop", "gamma1a_2loop") ∨ (f, col1, col2) = (b, "gamma1b_1loop", "gamma1b_2loop") →
        ∃ v w, ν.at (cellOf cls2 col1 ik) = some (some v) ∧ ν.at (cellOf cls2 col2 ik) = some (some w) ∧
          |v + k ^ 2 * (Spec.smallK f * g1.total / (2 * Real.pi ^ 2))| ≤ k ^ 4 * (11 / 100 * g1.inner / (2 * Real.pi ^ 2)) ∧
          |w - v ^ 2 / 2 + k ^ 2 * (g12.pairs (fun q1 q2 c => c * beta2 f q1 q2 / (q1 ^ 2 + q2 ^ 2)) / (4 * Real.pi ^ 4))| ≤
            k ^ 2 * (g12.pairs (fun q1 q2 c => |c| * |beta2 f q1 q2| / (q1 ^ 2 + q2 ^ 2)) / (4 * Real.pi ^ 4) * (4 * (k / q0) ^ 2 + 1 / 10 ^ 16)
              + g12.pairs (fun q1 q2 c => |c| / (q1 ^ 2 + q2 ^ 2)) / (4 * Real.pi ^ 4) * (1 / 5 * (k / q0) ^ 2)) := by
  obtain ⟨hlt, hv⟩ := List.getElem?_eq_some_iff.1 hik
  obtain ⟨-, -, g1, g12, -, -, -, -, a1, a2, b1, b2, -, -, -, -, -, -, t1, t2, -, -, -, -, ha1, hb1, ha2, hb2, -, -, -, -, -, -, c1, c2, c3, c4,
    -, -, -, -, -⟩ := C45_two_loop hμ hes h hlt
  rw [hv] at ha1 hb1 ha2 hb2
  obtain ⟨o1, n1⟩ := tab_nodes hn1 (hr _) hp (by linarith) hp1 t1
  obtain ⟨o2, n2⟩ := tab_nodes hn2 (hr _) hq (by linarith) hq1 t2
  refine ⟨g1, g12, t1, t2, ?_⟩
  rintro f col1 col2 (h | h) <;> simp only [Prod.mk.injEq] at h <;> obtain ⟨rfl, rfl, rfl⟩ := h
  · refine ⟨a1, _, c1, c2, C75_one_loop f g1 o1 hk (fun q hq => hkp.trans_le (n1 q hq)) ha1, ?_⟩
    rw [add_sub_cancel_right]
    exact C75_two_loop f g12 o2 hk n2 hkq ha2
  · refine ⟨b1, _, c3, c4, C75_one_loop f g1 o1 hk (fun q hq => hkp.trans_le (n1 q hq)) hb1, ?_⟩
    rw [add_sub_cancel_right]
    exact C75_two_loop f g12 o2 hk n2 hkq hb2

/-! ## Non-vacuity -/

/-- Density kernel at `x=100`: within `0.0011` of the leading term. -/
example : |kernelFF 100 + 61 / 630 * 100| ≤ 11 / 100 / 100 := C75_kernel_one .delta 100 (by norm_num)

example : 1 ≤ harm 3 4 := by
  unfold harm
  rw [show (3 : ℝ) * 3 + 4 * 4 = 5 ^ 2 by norm_num, Real.sqrt_sq (by norm_num)]
  norm_num

/-- A run over three modes with default settings, the first of which is beyond the largest loop scale. -/
example {rt : ℕ → ℕ → ℝ × ℝ} (hr : ∀ n, Found n (rt n)) : ∃ (cfg : Cfg ℝ) (ν : Mem) (g1 : GLQ ℝ) (v : ℝ),
    runTerms2 exCuba (exEnv rt [1 / 100000, 1 / 2, 2]) .delta .theta (blocks 7 0 0 [1, 2]) exMem = .ok (cfg, ν) ∧
    ν.at (cellOf cls2 "gamma1b_1loop" 0) = some (some v) ∧
    |v + (1 / 100000) ^ 2 * (3 / 10 * g1.total / (2 * Real.pi ^ 2))| ≤ (1 / 100000) ^ 4 * (11 / 100 * g1.inner / (2 * Real.pi ^ 2)) := by
  have hs : Schedule 7 (exEnv rt [1 / 100000, 1 / 2, 2]).ks.length (blocks 7 0 0 [1, 2]) := C43_static_schedule 7 [1, 2] (by simp)
  have hm : Room 11 (exEnv rt [1 / 100000, 1 / 2, 2]).ks.length exMem := fun i _ => by simp [exEnv, exMem]
  obtain ⟨⟨cfg, ν⟩, h⟩ := C59_two_loop (exEnv_ok rt [1 / 100000, 1 / 2, 2]) exCuba_safe .delta .theta hs hm
  obtain ⟨g1, g12, -, -, hc⟩ := C75_columns hm hs h (ik := 0) (k := 1 / 100000) (by norm_num) (by simp [exEnv]) (fun n => (hr n).nearRoots)
    (by norm_num [exEnv, Cfg.default, defaultPrec]) (by norm_num [exEnv, Cfg.default, defaultPrec])
    (p0 := 1 / 2000) (p1 := 10) (by norm_num [exEnv, glqRange, Cfg.default, defaultPrec, lit_real, le_real]) (by norm_num) (by norm_num)
    (q0 := 1 / 2000) (q1 := 10) (by norm_num [exEnv, glqRange, Cfg.default, defaultPrec, lit_real, le_real]) (by norm_num) (by norm_num)
  obtain ⟨v, -, h1, -, h3, -⟩ := hc .theta _ _ (Or.inr rfl)
  exact ⟨cfg, ν, g1, v, h, h1, h3⟩

end Verif
