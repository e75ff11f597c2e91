import Verif.Props.LargeScale
import Verif.Props.Gamma2Limits
import Verif.Props.LoopPropagator
import Verif.Model.Bispectrum

/-!
# C76 – long-wavelength modes cancel in the regularised propagators
-/

namespace Verif

/-- C76: at loop wavenumbers below a tenth of the mode the one-loop kernels are `-x/6` up to order `x³`, for both fields. -/
theorem C76_kernel_one (a : Field) (x : ℝ) (h0 : 0 < x) (h1 : x < 1 / 10) : |propKernel a x + x / 6| ≤ x ^ 3 / 5 := by
  rw [propKernel_closed a x (by rw [abs_of_neg (by linarith)]; norm_num; linarith) (by linarith)]
  obtain ⟨r, r0, r1, hr⟩ := artanh_six x h0 (by linarith)
  have hlog : Real.log (|(1 - x) / (1 + x)| ^ 2) = -(4 * x * (1 + x ^ 2 / 3 + x ^ 4 / 5 + x ^ 6 / 7 + x ^ 8 / 9 + x ^ 10 / 11 + r)) := by
    rw [Real.log_pow, Real.log_abs, Real.log_div (by linarith) (by linarith)]
    push_cast
    linarith
  have y0 : 0 < x ^ 2 := by positivity
  have y1 : x ^ 2 < 1 / 100 := by nlinarith
  have r2 : r ≤ (x ^ 2) ^ 6 / 12 := r1.trans (by gcongr; linarith)
  obtain ⟨s, hs⟩ : ∃ s, r = x ^ 2 * s := ⟨r / x ^ 2, by field_simp⟩
  have s0 : 0 ≤ s := by rw [hs] at r0; exact nonneg_of_mul_nonneg_right r0 y0
  have s1 : s ≤ (x ^ 2) ^ 5 / 12 := by
    rw [hs, show (x ^ 2) ^ 6 / 12 = x ^ 2 * ((x ^ 2) ^ 5 / 12) by ring] at r2
    exact le_of_mul_le_mul_left r2 y0
  have s2 : (x ^ 2) ^ 5 ≤ x ^ 2 / 10 ^ 8 := by
    rw [show (x ^ 2) ^ 5 = x ^ 2 * (x ^ 2) ^ 4 by ring, show x ^ 2 / 10 ^ 8 = x ^ 2 * (1 / 100) ^ 4 by ring]
    gcongr
  have hx3 : x ^ 3 / 5 = x * (x ^ 2 / 5) := by ring
  have yn : ∀ n : ℕ, (x ^ 2) ^ (n + 2) ≤ x ^ 2 / 100 := fun n => by
    rw [show (x ^ 2) ^ (n + 2) = x ^ 2 * (x ^ 2) ^ n * x ^ 2 by ring]
    have : (x ^ 2) ^ n ≤ 1 := pow_le_one₀ y0.le (by linarith)
    nlinarith [mul_le_mul_of_nonneg_left this y0.le, pow_nonneg y0.le n]
  have yp : ∀ n : ℕ, 0 ≤ (x ^ 2) ^ (n + 2) := fun n => by positivity
  have v0 : 0 ≤ (1 - x ^ 2) ^ 3 * s := mul_nonneg (pow_nonneg (by linarith) 3) s0
  have v1 : (1 - x ^ 2) ^ 3 * s ≤ x ^ 2 / 10 ^ 8 := by
    have : (1 - x ^ 2) ^ 3 ≤ 1 := pow_le_one₀ (by linarith) (by linarith)
    nlinarith
  have y2 := yn 0; have y3 := yn 1; have y4 := yn 2; have y5 := yn 3; have y6 := yn 4; have y7 := yn 5; have y8 := yn 6
  have p2 := yp 0; have p3 := yp 1; have p4 := yp 2; have p5 := yp 3; have p6 := yp 4; have p7 := yp 5; have p8 := yp 6
  norm_num at y2 y3 y4 y5 y6 y7 y8 p2 p3 p4 p5 p6 p7 p8
  cases a
  · have e : x * propClosed .delta x + x / 6 = x * (58 / 315 * x ^ 2 - 94 / 735 * (x ^ 2) ^ 2 + 26 / 1323 * (x ^ 2) ^ 3 + 166 / 72765 * (x ^ 2) ^ 4
        + 151 / 97020 * (x ^ 2) ^ 5 + 25 / 16632 * (x ^ 2) ^ 6 - 47 / 8316 * (x ^ 2) ^ 7 + 1 / 264 * (x ^ 2) ^ 8
        - (2 + 7 * x ^ 2) / 168 * ((1 - x ^ 2) ^ 3 * s)) := by
      unfold propClosed Spec.ffClosed
      rw [hlog, hs]
      field_simp
      ring
    rw [e, abs_mul, abs_of_pos h0, hx3]
    refine mul_le_mul_of_nonneg_left ?_ h0.le
    have w0 : 0 ≤ (2 + 7 * x ^ 2) / 168 * ((1 - x ^ 2) ^ 3 * s) := by positivity
    have w1 : (2 + 7 * x ^ 2) / 168 * ((1 - x ^ 2) ^ 3 * s) ≤ x ^ 2 / 10 ^ 8 := by nlinarith
    rw [abs_le]
    constructor <;> linarith
  · have e : x * propClosed .theta x + x / 6 = x * (-(2 / 105) * x ^ 2 - 2 / 49 * (x ^ 2) ^ 2 + 22 / 2205 * (x ^ 2) ^ 3 + 34 / 24255 * (x ^ 2) ^ 4
        + 103 / 32340 * (x ^ 2) ^ 5 - 167 / 38808 * (x ^ 2) ^ 6 + 1 / 2772 * (x ^ 2) ^ 7 + 1 / 616 * (x ^ 2) ^ 8
        - (2 + x ^ 2) / 56 * ((1 - x ^ 2) ^ 3 * s)) := by
      unfold propClosed Spec.ggClosed
      rw [hlog, hs]
      field_simp
      ring
    rw [e, abs_mul, abs_of_pos h0, hx3]
    refine mul_le_mul_of_nonneg_left ?_ h0.le
    have w0 : 0 ≤ (2 + x ^ 2) / 56 * ((1 - x ^ 2) ^ 3 * s) := by positivity
    have w1 : (2 + x ^ 2) / 56 * ((1 - x ^ 2) ^ 3 * s) ≤ x ^ 2 / 10 ^ 8 := by nlinarith
    rw [abs_le]
    constructor <;> linarith

example : |propKernel .delta (1 / 20) + 1 / 20 / 6| ≤ (1 / 20) ^ 3 / 5 := C76_kernel_one .delta (1 / 20) (by norm_num) (by norm_num)

/-- C76: at loop wavenumbers below a tenth of the three sides the kernels of the one-loop corrections at second order are
`-(2π/3) k3²/q²` times the tree kernel, up to terms that stay finite at small `q`. -/
theorem C76_kernel_two (a : Field) (k1 k2 k3 : ℝ) (h : Triangle k1 k2 k3) : ∃ A B : ℝ, ∀ q, 0 < q → q < 0.1 * rMin3 k1 k2 k3 →
    kernelGamma2 a k1 k2 k3 q = -(2 * Real.pi / 3 * k3 ^ 2 * gamma2Tree a k1 k2 k3) / q ^ 2 + A + B * q ^ 2 := by
  have h1 := h.pos1.ne'
  have h2 := h.pos2.ne'
  have h3 := h.pos3.ne'
  cases a
  · refine ⟨Real.pi * (7*k1^2*k2^2*k3^2*(28*((k1^2 - k2^2)^4)*(k1^2 + k2^2) + 3*(k1^2 - k2^2)*(k1^2 - k2^2)*(1094*k1^4 - 6321*k1^2*k2^2 + 1094*k2^4)*k3^2
      - 6*(k1^2 + k2^2)*(988*k1^4 - 3189*k1^2*k2^2 + 988*k2^4)*k3^4 + (1970*k1^4 + 741*k1^2*k2^2 + 1970*k2^4)*k3^6 + 576*(k1^2 +
      k2^2)*k3^8 + 72*k3^10)) / (339570*k1^6*k2^6*k3^4), Real.pi * (((-14)*(((k1 - k2)*(k1 + k2))^4)*(k1^2 + k2^2)*(12*k1^4 - 55*k1^2*k2^2 + 12*k2^4) + 7*(28*k1^12 + 4005*k1^8*k2^4 - 8066*k1^6*k2^6
      + 4005*k1^4*k2^8 + 28*k2^12)*k3^2 - 6*(k1^2 + k2^2)*(2999*k1^8 - 16730*k1^6*k2^2 + 31403*k1^4*k2^4 - 16730*k1^2*k2^6 +
      2999*k2^8)*k3^4 + (34488*k1^8 - 51644*k1^6*k2^2 - 33313*k1^4*k2^4 - 51644*k1^2*k2^6 + 34488*k2^8)*k3^6 - 2*(k1^2 +
      k2^2)*(7649*k1^4 - 8021*k1^2*k2^2 + 7649*k2^4)*k3^8 - 1296*(k1^4 + k2^4)*k3^10 + 504*(k1^2 + k2^2)*k3^12 - 432*k3^14)) / (339570*k1^6*k2^6*k3^4), fun q q0 q1 => ?_⟩
    rw [kernelGamma2, g2Branch_small h q0 q1]
    simp only [g2Eval, g2dHighk, g2dHighkE, pw, C01_power, gamma2Tree, F2Fast]
    field_simp
    ring
  · refine ⟨Real.pi * (7*k1^2*k2^2*k3^2*(112*((k1^2 - k2^2)^4)*(k1^2 + k2^2) + (k1^2 - k2^2)*(k1^2 - k2^2)*(1094*k1^4 - 2779*k1^2*k2^2 + 1094*k2^4)*k3^2
      - 2*(k1^2 + k2^2)*(42*k1^4 + 661*k1^2*k2^2 + 42*k2^4)*k3^4 - (3274*k1^4 + 6243*k1^2*k2^2 + 3274*k2^4)*k3^6 + 1864*(k1^2 +
      k2^2)*k3^8 + 288*k3^10)) / (339570*k1^6*k2^6*k3^4), Real.pi * (((-14)*(((k1 - k2)*(k1 + k2))^4)*(k1^2 + k2^2)*(48*k1^4 + 11*k1^2*k2^2 + 48*k2^4) + 7*(112*k1^12 + 81*k1^8*k2^4 - 386*k1^6*k2^6 +
      81*k1^4*k2^8 + 112*k2^12)*k3^2 - 2*(k1^2 + k2^2)*(2999*k1^8 - 16730*k1^6*k2^2 + 27861*k1^4*k2^4 - 16730*k1^2*k2^6 +
      2999*k2^8)*k3^4 + (2388*k1^8 - 5012*k1^6*k2^2 - 9865*k1^4*k2^4 - 5012*k1^2*k2^6 + 2388*k2^8)*k3^6 + 34*(k1^2 + k2^2)*(353*k1^4 -
      149*k1^2*k2^2 + 353*k2^4)*k3^8 - 8792*(k1^4 + k2^4)*k3^10 + 2016*(k1^2 + k2^2)*k3^12 - 1728*k3^14)) / (339570*k1^6*k2^6*k3^4), fun q q0 q1 => ?_⟩
    rw [kernelGamma2, g2Branch_small h q0 q1]
    have hr : ∀ z : ℝ, z ^ (4 : ℝ) = z ^ 4 := fun z => by rw [← Real.rpow_natCast]; norm_num
    simp only [g2Eval, g2tHighk, g2tHighkE, pw, C01_power, gamma2Tree, F2Fast, hr]
    field_simp
    ring

/-- The nodes of two tables are the same and the spectra differ only at nodes below `κ`. -/
structure LongOnly (κ : ℝ) (g g' : GLQ ℝ) : Prop where
  nq : g'.nq = g.nq
  q : g'.q = g.q
  w : g'.w = g.w
  pk : ∀ i < g.nq, κ ≤ g.q.getD i 0 → g'.pk.getD i 0 = g.pk.getD i 0

/-- Sum over the nodes that stands for `∫ qⁿ f(ΔP) dq/q` of the change `ΔP` of the spectrum. -/
noncomputable def GLQ.change (g g' : GLQ ℝ) (n : ℕ) (f : ℝ → ℝ) : ℝ :=
  ∑ i ∈ Finset.range g.nq, g.q.getD i 0 ^ n * f ((g'.pk.getD i 0 - g.pk.getD i 0) * g.w.getD i 0)

/-- The change `∫ ΔP dq/(6π²)` of the dispersion of the displacements. -/
noncomputable def GLQ.shift (g g' : GLQ ℝ) : ℝ := g.change g' 1 id / (6 * Real.pi ^ 2)

theorem node_mem {g : GLQ ℝ} (hg : g.Ok) {i : ℕ} (hi : i < g.nq) : g.q.getD i 0 ∈ g.q := by
  rw [List.getD_eq_getElem?_getD, List.getElem?_eq_getElem (by rw [hg.q]; exact hi)]
  exact List.getElem_mem _

theorem gamma1_range (a : Field) (g : GLQ ℝ) (hg : g.Ok) (k : ℝ) : gamma1OneLoop a g k =
    .ok ((∑ i ∈ Finset.range g.nq, propKernel a (g.q.getD i 0 / k) * g.pk.getD i 0 * g.w.getD i 0) * k * k * k / (2 * Real.pi * Real.pi)) := by
  rw [C23_one_loop_sum a g hg, nodes_sum g hg (fun q w p => propKernel a (q / k) * p * w)]
  cases a <;> rfl

theorem gamma2_range (a : Field) (g : GLQ ℝ) (hg : g.Ok) (k1 k2 k3 : ℝ) : gamma2OneLoop a g k1 k2 k3 =
    .ok ((∑ i ∈ Finset.range g.nq, g.w.getD i 0 * kernelGamma2 a k1 k2 k3 (g.q.getD i 0) * g.q.getD i 0 ^ 3 * g.pk.getD i 0) / (8 * Real.pi ^ 3)) := by
  rw [gamma2OneLoop_sum a g hg, nodes_sum g hg (fun q w p => w * kernelGamma2 a k1 k2 k3 q * q ^ 3 * p)]

/-- C76: a change of the spectrum at wavenumbers below `k/10` changes the one-loop correction to a propagator by `-k²/2` times the
change of the dispersion, up to terms suppressed by the square of the wavenumber over the mode. -/
theorem C76_one_loop (a : Field) {g g' : GLQ ℝ} (hg : g.Ok) (hg' : g'.Ok) {k v v' : ℝ} (hk : 0 < k) (h0 : ∀ q ∈ g.q, 0 < q)
    (hl : LongOnly (k / 10) g g') (h : gamma1OneLoop a g k = .ok v) (h' : gamma1OneLoop a g' k = .ok v') :
    |v' - v + k ^ 2 / 2 * g.shift g'| ≤ g.change g' 3 (|·|) / (10 * Real.pi ^ 2) := by
  rw [gamma1_range a g hg, Res.ok.injEq] at h
  rw [gamma1_range a g' hg', Res.ok.injEq, hl.nq, hl.q, hl.w] at h'
  subst h h'
  have hpi : 0 < 2 * Real.pi ^ 2 := by positivity
  have e : (∑ i ∈ Finset.range g.nq, propKernel a (g.q.getD i 0 / k) * g'.pk.getD i 0 * g.w.getD i 0) * k * k * k / (2 * Real.pi * Real.pi)
      - (∑ i ∈ Finset.range g.nq, propKernel a (g.q.getD i 0 / k) * g.pk.getD i 0 * g.w.getD i 0) * k * k * k / (2 * Real.pi * Real.pi)
      + k ^ 2 / 2 * g.shift g' = (∑ i ∈ Finset.range g.nq, k ^ 3 * ((propKernel a (g.q.getD i 0 / k) + g.q.getD i 0 / k / 6)
        * ((g'.pk.getD i 0 - g.pk.getD i 0) * g.w.getD i 0))) / (2 * Real.pi ^ 2) := by
    unfold GLQ.shift GLQ.change
    have : ∀ X Y Z T : ℝ, X * k ^ 3 - Y * k ^ 3 + k ^ 2 / 6 * Z = T →
        X * k * k * k / (2 * Real.pi * Real.pi) - Y * k * k * k / (2 * Real.pi * Real.pi) + k ^ 2 / 2 * (Z / (6 * Real.pi ^ 2)) = T / (2 * Real.pi ^ 2) := by
      rintro X Y Z T rfl
      field_simp
    refine this _ _ _ _ ?_
    rw [Finset.sum_mul, Finset.sum_mul, Finset.mul_sum, ← Finset.sum_sub_distrib, ← Finset.sum_add_distrib]
    refine Finset.sum_congr rfl fun i _ => ?_
    simp only [id]
    field_simp
  rw [e, abs_div, abs_of_pos hpi, show g.change g' 3 (|·|) / (10 * Real.pi ^ 2) = (g.change g' 3 (|·|) / 5) / (2 * Real.pi ^ 2) by
    ring]
  refine div_le_div_of_nonneg_right ?_ hpi.le
  unfold GLQ.change
  rw [Finset.sum_div]
  refine (Finset.abs_sum_le_sum_abs _ _).trans (Finset.sum_le_sum fun i hi => ?_)
  have hi := Finset.mem_range.1 hi
  have q0 := h0 _ (node_mem hg hi)
  by_cases hc : k / 10 ≤ g.q.getD i 0
  · simp only [hl.pk i hi hc, sub_self, zero_mul, mul_zero, abs_zero, zero_div, le_refl]
  · rw [abs_mul, abs_mul, abs_of_pos (by positivity : 0 < k ^ 3)]
    have n := C76_kernel_one a (g.q.getD i 0 / k) (by positivity) (by rw [div_lt_iff₀ hk]; linarith)
    calc k ^ 3 * (|propKernel a (g.q.getD i 0 / k) + g.q.getD i 0 / k / 6| * |(g'.pk.getD i 0 - g.pk.getD i 0) * g.w.getD i 0|)
        ≤ k ^ 3 * ((g.q.getD i 0 / k) ^ 3 / 5 * |(g'.pk.getD i 0 - g.pk.getD i 0) * g.w.getD i 0|) := by gcongr
      _ = _ := by field_simp

/-- C76: the factors `1 + k²σ²/2 + γ` of the propagators in the bispectrum do not change at leading order when the long modes of the
spectrum change in the loop and in the dispersion. -/
theorem C76_reg_one {g g' : GLQ ℝ} (hg : g.Ok) (hg' : g'.Ok) {k s s' : ℝ} {v v' : ℝ × ℝ} (hk : 0 < k) (h0 : ∀ q ∈ g.q, 0 < q)
    (hl : LongOnly (k / 10) g g') (hs : s' - s = g.shift g') (h : g1RegOne g k s = .ok v) (h' : g1RegOne g' k s' = .ok v') :
    |v'.1 - v.1| ≤ g.change g' 3 (|·|) / (10 * Real.pi ^ 2) ∧ |v'.2 - v.2| ≤ g.change g' 3 (|·|) / (10 * Real.pi ^ 2) := by
  unfold g1RegOne at h h'
  rw [gamma1_range .delta g hg, gamma1_range .theta g hg] at h
  rw [gamma1_range .delta g' hg', gamma1_range .theta g' hg'] at h'
  simp only [Res.ok_bind, Res.ok.injEq] at h h'
  have b := fun a => C76_one_loop a hg hg' hk h0 hl (gamma1_range a g hg k) (gamma1_range a g' hg' k)
  subst h h'
  have bd := b .delta
  have bt := b .theta
  rw [← hs] at bd bt
  constructor
  · refine le_trans (le_of_eq ?_) bd
    congr 1; ring
  · refine le_trans (le_of_eq ?_) bt
    congr 1; ring

/-- C76: a change of the spectrum at wavenumbers below a tenth of the three sides changes the one-loop correction at second order by
`-k3²/2` times the change of the dispersion times the tree kernel, up to terms suppressed by the square of the wavenumber. -/
theorem C76_second (a : Field) (k1 k2 k3 : ℝ) (ht : Triangle k1 k2 k3) : ∃ A B : ℝ, ∀ {g g' : GLQ ℝ} {v v' : ℝ}, g.Ok → g'.Ok →
    (∀ q ∈ g.q, 0 < q) → LongOnly (0.1 * rMin3 k1 k2 k3) g g' → gamma2OneLoop a g k1 k2 k3 = .ok v → gamma2OneLoop a g' k1 k2 k3 = .ok v' →
    v' - v + k3 ^ 2 / 2 * g.shift g' * gamma2Tree a k1 k2 k3 = A * g.change g' 3 id + B * g.change g' 5 id := by
  obtain ⟨A, B, hK⟩ := C76_kernel_two a k1 k2 k3 ht
  refine ⟨A / (8 * Real.pi ^ 3), B / (8 * Real.pi ^ 3), fun {g g' v v'} hg hg' h0 hl h h' => ?_⟩
  rw [gamma2_range a g hg, Res.ok.injEq] at h
  rw [gamma2_range a g' hg', Res.ok.injEq, hl.nq, hl.q, hl.w] at h'
  subst h h'
  have hpi := Real.pi_pos
  have : ∀ X Y Z U W : ℝ, X - Y + 2 * Real.pi / 3 * k3 ^ 2 * gamma2Tree a k1 k2 k3 * Z = A * U + B * W →
      X / (8 * Real.pi ^ 3) - Y / (8 * Real.pi ^ 3) + k3 ^ 2 / 2 * (Z / (6 * Real.pi ^ 2)) * gamma2Tree a k1 k2 k3 =
      A / (8 * Real.pi ^ 3) * U + B / (8 * Real.pi ^ 3) * W := by
    intro X Y Z U W e
    rw [show A / (8 * Real.pi ^ 3) * U + B / (8 * Real.pi ^ 3) * W = (A * U + B * W) / (8 * Real.pi ^ 3) by ring, ← e]
    field_simp
    ring
  unfold GLQ.shift GLQ.change
  refine this _ _ _ _ _ ?_
  rw [Finset.mul_sum, Finset.mul_sum, Finset.mul_sum, ← Finset.sum_sub_distrib, ← Finset.sum_add_distrib, ← Finset.sum_add_distrib]
  refine Finset.sum_congr rfl fun i hi => ?_
  have hi := Finset.mem_range.1 hi
  have q0 := h0 _ (node_mem hg hi)
  by_cases hc : 0.1 * rMin3 k1 k2 k3 ≤ g.q.getD i 0
  · simp only [hl.pk i hi hc, sub_self, zero_mul, mul_zero, id, add_zero]
  · rw [hK _ q0 (not_le.1 hc)]
    simp only [id]
    field_simp
    ring

/-- C76: the regularised second-order kernels of the bispectrum. -/
theorem C76_reg_two (a : Field) (k1 k2 k3 : ℝ) (ht : Triangle k1 k2 k3) : ∃ A B : ℝ, ∀ {g g' : GLQ ℝ} {s s' v v' : ℝ}, g.Ok → g'.Ok →
    (∀ q ∈ g.q, 0 < q) → LongOnly (0.1 * rMin3 k1 k2 k3) g g' → s' - s = g.shift g' → g2RegOne a g k1 k2 k3 s = .ok v →
    g2RegOne a g' k1 k2 k3 s' = .ok v' → v' - v = A * g.change g' 3 id + B * g.change g' 5 id := by
  obtain ⟨A, B, hK⟩ := C76_second a k1 k2 k3 ht
  refine ⟨A, B, fun {g g' s s' v v'} hg hg' h0 hl hs h h' => ?_⟩
  have e := hK hg hg' h0 hl (gamma2_range a g hg k1 k2 k3) (gamma2_range a g' hg' k1 k2 k3)
  unfold g2RegOne at h h'
  rw [gamma2_range a g hg] at h
  rw [gamma2_range a g' hg'] at h'
  simp only [Res.ok_bind, Res.ok.injEq] at h h'
  subst h h'
  rw [← e, ← hs]
  ring

/-- C76: in the two-loop spectrum the propagator of a field is the exponential of `S = D²(k²σ²/2 + γ)` to second order and the remaining
two-loop correction, so that only the combination `k²σ²/2 + γ` enters beside the damping. -/
theorem C76_two_loop_assembly (t : Terms) (D : ℝ) (i : ℕ) (a2 b2 : ℝ) (ha : t.val "gamma1a_2loop" i = a2 + t.val "gamma1a_1loop" i ^ 2 / 2)
    (hb : t.val "gamma1b_2loop" i = b2 + t.val "gamma1b_1loop" i ^ 2 / 2) :
    ∃ Sa Sb F, F = (t.val "k" i * D) ^ 2 * t.val "sigmad2" i / 2 ∧ Sa = D ^ 2 * (t.val "k" i ^ 2 * t.val "sigmad2" i / 2 + t.val "gamma1a_1loop" i) ∧
      Sb = D ^ 2 * (t.val "k" i ^ 2 * t.val "sigmad2" i / 2 + t.val "gamma1b_1loop" i) ∧
      t.pk2 D none i = Real.exp (-(2 * F)) * (D ^ 2 * (1 + Sa + Sa ^ 2 / 2 + D ^ 4 * a2) * (1 + Sb + Sb ^ 2 / 2 + D ^ 4 * b2) * t.val "pk_lin" i
        + D ^ 4 * (t.val "pk_gamma2_tree_tree" i * (1 + F) ^ 2 + t.val "pk_gamma2_tree_1loop" i * D ^ 2 * (1 + F)
          + t.val "pk_gamma2_1loop_1loop" i * D ^ 4) + D ^ 6 * t.val "pk_gamma3_tree" i) := by
  refine ⟨_, _, _, rfl, rfl, rfl, ?_⟩
  unfold Terms.pk2
  dsimp only
  rw [ha, hb]
  have e : ∀ x : ℝ, Real.exp (-(2 * x)) = Real.exp (-x) * Real.exp (-x) := fun x => by rw [← Real.exp_add]; congr 1; ring
  rw [show (0.5 : ℝ) * (t.val "k" i * D) ^ 2 * t.val "sigmad2" i = (t.val "k" i * D) ^ 2 * t.val "sigmad2" i / 2 by ring,
    show (-2 : ℝ) * ((t.val "k" i * D) ^ 2 * t.val "sigmad2" i / 2) = -(2 * ((t.val "k" i * D) ^ 2 * t.val "sigmad2" i / 2)) by ring, e]
  ring

example (t : Terms) (D : ℝ) (i : ℕ) (h0 : t.val "gamma1a_1loop" i = 2) (h1 : t.val "gamma1a_2loop" i = 5) (h2 : t.val "gamma1b_1loop" i = 4)
    (h3 : t.val "gamma1b_2loop" i = 9) (hs : t.val "sigmad2" i = 0) (hg : t.val "pk_gamma3_tree" i = 0) :
    t.pk2 D none i = D ^ 2 * (1 + D ^ 2 * 2 + (D ^ 2 * 2) ^ 2 / 2 + D ^ 4 * 3) * (1 + D ^ 2 * 4 + (D ^ 2 * 4) ^ 2 / 2 + D ^ 4 * 1) * t.val "pk_lin" i
      + D ^ 4 * (t.val "pk_gamma2_tree_tree" i + t.val "pk_gamma2_tree_1loop" i * D ^ 2 + t.val "pk_gamma2_1loop_1loop" i * D ^ 4) := by
  obtain ⟨Sa, Sb, F, hF, hA, hB, h⟩ := C76_two_loop_assembly t D i 3 1 (by rw [h0, h1]; norm_num) (by rw [h2, h3]; norm_num)
  rw [hs] at hF hA hB
  rw [h, hF, hA, hB, h0, h2, hg]
  simp

/-! Two tables that differ at the lowest of two nodes. -/

/-- A table with nodes `1/20` and `1`. -/
noncomputable def long0 : GLQ ℝ := { nq := 2, q := [1 / 20, 1], w := [1, 1], pk := [2, 3], x := [], k := 1 }

/-- The same with another spectrum at the lowest node. -/
noncomputable def long1 : GLQ ℝ := { nq := 2, q := [1 / 20, 1], w := [1, 1], pk := [7, 3], x := [], k := 1 }

theorem long_only : LongOnly (1 / 10) long0 long1 := by
  refine ⟨rfl, rfl, rfl, fun i hi hc => ?_⟩
  have hi : i < 2 := hi
  interval_cases i
  · exfalso
    norm_num [long0] at hc
  · rfl

example : ∃ v v', g1RegOne long0 1 0 = .ok v ∧ g1RegOne long1 1 (long0.shift long1) = .ok v' ∧
    |v'.1 - v.1| ≤ long0.change long1 3 (|·|) / (10 * Real.pi ^ 2) ∧ long0.change long1 3 (|·|) = 5 / 8000 ∧ long0.change long1 1 id = 1 / 4 := by
  have o0 : long0.Ok := ⟨rfl, rfl, rfl⟩
  have o1 : long1.Ok := ⟨rfl, rfl, rfl⟩
  have e : ∀ (g : GLQ ℝ) (hg : g.Ok) (s : ℝ), ∃ v, g1RegOne g 1 s = .ok v := fun g hg s => by
    unfold g1RegOne
    rw [gamma1_range .delta g hg, gamma1_range .theta g hg]
    exact ⟨_, rfl⟩
  obtain ⟨v, hv⟩ := e long0 o0 0
  obtain ⟨v', hv'⟩ := e long1 o1 (long0.shift long1)
  refine ⟨v, v', hv, hv', (C76_reg_one o0 o1 one_pos (by simp [long0]) (by simpa using long_only) (by simp) hv hv').1, ?_, ?_⟩ <;>
    norm_num [GLQ.change, long0, long1, Finset.sum_range_succ]

example : ∃ A B v v' : ℝ, g2RegOne .theta long0 3 4 5 0 = .ok v ∧ g2RegOne .theta long1 3 4 5 (long0.shift long1) = .ok v' ∧
    v' - v = A * long0.change long1 3 id + B * long0.change long1 5 id := by
  have o0 : long0.Ok := ⟨rfl, rfl, rfl⟩
  have o1 : long1.Ok := ⟨rfl, rfl, rfl⟩
  obtain ⟨A, B, h⟩ := C76_reg_two .theta 3 4 5 tri345
  have e : ∀ (g : GLQ ℝ) (hg : g.Ok) (s : ℝ), ∃ v, g2RegOne .theta g 3 4 5 s = .ok v := fun g hg s => by
    unfold g2RegOne
    rw [gamma2_range .theta g hg]
    exact ⟨_, rfl⟩
  obtain ⟨v, hv⟩ := e long0 o0 0
  obtain ⟨v', hv'⟩ := e long1 o1 (long0.shift long1)
  refine ⟨A, B, v, v', hv, hv', h o0 o1 (by simp [long0]) ⟨rfl, rfl, rfl, fun i hi hc => ?_⟩ (by simp) hv hv'⟩
  have hi : i < 2 := hi
  interval_cases i
  · exfalso
    rw [rMin3_eq] at hc
    norm_num [long0] at hc
  · rfl

end Verif
