import Verif.Model.Rounded
import Verif.Props.Sigma
import Mathlib.Data.Int.Log

/-!
# C78 – rounding errors
-/

namespace Verif

/-- A rounding with relative error at most `u` (no underflow or overflow), for precisions better than two digits. -/
structure Rounds (u : ℝ) (r : ℝ → ℝ) : Prop where
  nonneg : 0 ≤ u
  small : u ≤ 1 / 100
  err : ∀ x, |r x - x| ≤ u * |x|

/-- Two numbers that differ by `n` roundings at most. -/
def Close (u : ℝ) (n : ℕ) (a b : ℝ) : Prop := (1 - u) ^ n * b ≤ a ∧ (1 - u) ^ n * a ≤ b

namespace Rounds

variable {u : ℝ} {r : ℝ → ℝ} (h : Rounds u r)
include h

theorem pos : 0 < 1 - u := by have := h.small; linarith

theorem ppos (n : ℕ) : 0 < (1 - u) ^ n := pow_pos h.pos n

theorem zero : r 0 = 0 := by
  have := h.err 0
  simp only [sub_zero, abs_zero, mul_zero] at this
  exact abs_nonpos_iff.1 this

theorem bounds {x : ℝ} (hx : 0 ≤ x) : (1 - u) * x ≤ r x ∧ r x ≤ (1 + u) * x := by
  have := abs_le.1 (h.err x)
  rw [abs_of_nonneg hx] at this
  constructor <;> linarith

theorem refl (a : ℝ) (ha : 0 ≤ a) (n : ℕ) : Close u n a a := by
  have : (1 - u) ^ n ≤ 1 := pow_le_one₀ h.pos.le (by have := h.nonneg; linarith)
  constructor <;> nlinarith

theorem left {n : ℕ} {a b : ℝ} (hc : Close u n a b) (hb : 0 ≤ b) : 0 ≤ a := (mul_nonneg (h.ppos n).le hb).trans hc.1

theorem left_pos {n : ℕ} {a b : ℝ} (hc : Close u n a b) (hb : 0 < b) : 0 < a := (mul_pos (h.ppos n) hb).trans_le hc.1

theorem mono {n m : ℕ} {a b : ℝ} (hc : Close u n a b) (hb : 0 ≤ b) (hnm : n ≤ m) : Close u m a b := by
  have hp : (1 - u) ^ m ≤ (1 - u) ^ n := pow_le_pow_of_le_one h.pos.le (by have := h.nonneg; linarith) hnm
  have ha := h.left hc hb
  exact ⟨(mul_le_mul_of_nonneg_right hp hb).trans hc.1, (mul_le_mul_of_nonneg_right hp ha).trans hc.2⟩

theorem trans {n m : ℕ} {a b c : ℝ} (h1 : Close u n a b) (h2 : Close u m b c) : Close u (n + m) a c := by
  have p1 := (h.ppos n).le
  have p2 := (h.ppos m).le
  constructor
  · calc (1 - u) ^ (n + m) * c = (1 - u) ^ n * ((1 - u) ^ m * c) := by rw [pow_add]; ring
      _ ≤ (1 - u) ^ n * b := mul_le_mul_of_nonneg_left h2.1 p1
      _ ≤ a := h1.1
  · calc (1 - u) ^ (n + m) * a = (1 - u) ^ m * ((1 - u) ^ n * a) := by rw [pow_add]; ring
      _ ≤ (1 - u) ^ m * b := mul_le_mul_of_nonneg_left h1.2 p2
      _ ≤ c := h2.2

/-- One rounding. -/
theorem once {x : ℝ} (hx : 0 ≤ x) : Close u 1 (r x) x := by
  have hb := h.bounds hx
  have hu := h.nonneg
  have hp := h.pos
  refine ⟨by simpa using hb.1, ?_⟩
  rw [pow_one]
  calc (1 - u) * r x ≤ (1 - u) * ((1 + u) * x) := mul_le_mul_of_nonneg_left hb.2 hp.le
    _ ≤ x := by nlinarith [mul_nonneg (mul_nonneg hu hu) hx]

theorem round {n : ℕ} {x y : ℝ} (hc : Close u n x y) (hy : 0 ≤ y) : Close u (n + 1) (r x) y := by
  have := h.trans (h.once (h.left hc hy)) hc
  rwa [add_comm] at this

/-- Rounding of a negative number. -/
theorem round_neg {n : ℕ} {x y : ℝ} (hc : Close u n x y) (hy : 0 ≤ y) : Close u (n + 1) (-r (-x)) y :=
  Rounds.round (r := fun z => -r (-z)) ⟨h.nonneg, h.small, fun z => by
    have := h.err (-z)
    rw [abs_neg] at this
    rwa [show -r (-z) - z = -(r (-z) - -z) by ring, abs_neg]⟩ hc hy

theorem add {n : ℕ} {a b a' b' : ℝ} (h1 : Close u n a b) (h2 : Close u n a' b') (hb : 0 ≤ b) (hb' : 0 ≤ b') :
    Close u (n + 1) (r (a + a')) (b + b') :=
  h.round ⟨by rw [mul_add]; exact add_le_add h1.1 h2.1, by rw [mul_add]; exact add_le_add h1.2 h2.2⟩ (by linarith)

theorem mul {n m : ℕ} {a b a' b' : ℝ} (h1 : Close u n a b) (h2 : Close u m a' b') (hb : 0 ≤ b) (hb' : 0 ≤ b') :
    Close u (n + m + 1) (r (a * a')) (b * b') := by
  have ha := h.left h1 hb
  have ha' := h.left h2 hb'
  refine h.round ⟨?_, ?_⟩ (mul_nonneg hb hb')
  · calc (1 - u) ^ (n + m) * (b * b') = ((1 - u) ^ n * b) * ((1 - u) ^ m * b') := by rw [pow_add]; ring
      _ ≤ a * a' := mul_le_mul h1.1 h2.1 (mul_nonneg (h.ppos m).le hb') ha
  · calc (1 - u) ^ (n + m) * (a * a') = ((1 - u) ^ n * a) * ((1 - u) ^ m * a') := by rw [pow_add]; ring
      _ ≤ b * b' := mul_le_mul h1.2 h2.2 (mul_nonneg (h.ppos m).le ha') hb

theorem div {n m : ℕ} {a b a' b' : ℝ} (h1 : Close u n a b) (h2 : Close u m a' b') (hb : 0 ≤ b) (hb' : 0 < b') :
    Close u (n + m + 1) (r (a / a')) (b / b') := by
  have ha := h.left h1 hb
  have ha' := h.left_pos h2 hb'
  refine h.round ⟨?_, ?_⟩ (div_nonneg hb hb'.le)
  · rw [mul_div_assoc', div_le_div_iff₀ hb' ha']
    calc (1 - u) ^ (n + m) * b * a' = ((1 - u) ^ n * b) * ((1 - u) ^ m * a') := by rw [pow_add]; ring
      _ ≤ a * b' := mul_le_mul h1.1 h2.2 (mul_nonneg (h.ppos m).le ha'.le) ha
  · rw [mul_div_assoc', div_le_div_iff₀ ha' hb']
    calc (1 - u) ^ (n + m) * a * b' = ((1 - u) ^ n * a) * ((1 - u) ^ m * b') := by rw [pow_add]; ring
      _ ≤ b * a' := mul_le_mul h1.2 h2.1 (mul_nonneg (h.ppos m).le hb'.le) hb

end Rounds

/-- Relative error of numbers that differ by `n` roundings. -/
theorem Close.rel {u : ℝ} {r : ℝ → ℝ} (h : Rounds u r) {n : ℕ} {a b : ℝ} (hc : Close u n a b) (hb : 0 ≤ b) (hn : n * u ≤ 1 / 2) :
    |a - b| ≤ 2 * n * u * b := by
  have hu := h.nonneg
  have hber : 1 - n * u ≤ (1 - u) ^ n := by
    have := one_add_mul_le_pow (a := -u) (by have := h.small; linarith) n
    simpa [sub_eq_add_neg] using this
  have ha := h.left hc hb
  have hnu : 0 ≤ n * u := by positivity
  have h1 : (1 - n * u) * b ≤ a := (mul_le_mul_of_nonneg_right hber hb).trans hc.1
  have h2 : (1 - n * u) * a ≤ b := (mul_le_mul_of_nonneg_right hber ha).trans hc.2
  rw [abs_le]
  constructor
  · nlinarith [mul_nonneg hnu hb]
  · have : a ≤ 2 * b := by nlinarith [mul_nonneg hnu ha]
    nlinarith [mul_le_mul_of_nonneg_left this hnu]

/-! ## Interpolation -/

variable {u : ℝ} {r : ℝ → ℝ}

/-- The linear interpolation plus the value at the left end. -/
theorem interp_close (h : Rounds u r) (x k0 k1 p0 p1 : Fl r) (hk : k0.val < k1.val) (hx0 : k0.val ≤ x.val) (hx1 : x.val ≤ k1.val) (h0 : 0 ≤ p0.val)
    (h1 : 0 ≤ p1.val) :
    Close u 8 (interpolLin x k0 k1 p0 p1 + p0).val (interpolLin x.val k0.val k1.val p0.val p1.val + p0.val) := by
  obtain ⟨x⟩ := x; obtain ⟨k0⟩ := k0; obtain ⟨k1⟩ := k1; obtain ⟨p0⟩ := p0; obtain ⟨p1⟩ := p1
  simp only [interpolLin, Fl.add_val, Fl.sub_val, Fl.mul_val, Fl.div_val] at *
  have hd : 0 < k1 - k0 := by linarith
  have t0 : 0 ≤ (x - k0) / (k1 - k0) := div_nonneg (by linarith) hd.le
  have t1 : (x - k0) / (k1 - k0) ≤ 1 := by rw [div_le_one hd]; linarith
  have ht : Close u 3 (r (r (x - k0) / r (k1 - k0))) ((x - k0) / (k1 - k0)) :=
    h.div (h.once (by linarith)) (h.once hd.le) (by linarith) hd
  generalize r (r (x - k0) / r (k1 - k0)) = t' at ht ⊢
  generalize (x - k0) / (k1 - k0) = t at t0 t1 ht ⊢
  rcases le_total p0 p1 with c | c
  · have hT := h.mul ht (h.once (x := p1 - p0) (by linarith)) t0 (by linarith)
    have nT : 0 ≤ t * (p1 - p0) := mul_nonneg t0 (by linarith)
    have := h.add (h.add hT (h.refl p0 h0 _) nT h0) (h.refl p0 h0 _) (by linarith) h0
    exact h.mono this (by linarith) (by norm_num)
  · have hE : Close u 1 (-r (-(p0 - p1))) (p0 - p1) := h.round_neg (h.refl _ (by linarith) 0) (by linarith)
    rw [neg_sub] at hE
    set D := r (p1 - p0) with hD
    have hW0 : 0 ≤ t * (p0 - p1) := mul_nonneg t0 (by linarith)
    have hW1 : t * (p0 - p1) ≤ p0 := by nlinarith
    have ha := h.left ht t0
    have ha' := h.left hE (by linarith)
    have hW : Close u 5 (-r (-(t' * -D))) (t * (p0 - p1)) := by
      refine h.round_neg (n := 4) ⟨?_, ?_⟩ hW0
      · calc (1 - u) ^ 4 * (t * (p0 - p1)) = ((1 - u) ^ 3 * t) * ((1 - u) ^ 1 * (p0 - p1)) := by ring
          _ ≤ t' * -D := mul_le_mul ht.1 hE.1 (mul_nonneg (h.ppos 1).le (by linarith)) ha
      · calc (1 - u) ^ 4 * (t' * -D) = ((1 - u) ^ 3 * t') * ((1 - u) ^ 1 * -D) := by ring
          _ ≤ t * (p0 - p1) := mul_le_mul ht.2 hE.2 (mul_nonneg (h.ppos 1).le ha') t0
    rw [show -(t' * -D) = t' * D by ring] at hW
    rw [show t * (p1 - p0) = -(t * (p0 - p1)) by ring]
    generalize t * (p0 - p1) = W at hW hW0 hW1 ⊢
    generalize hT' : r (t' * D) = T at hW ⊢
    have hu := h.nonneg
    have hus := h.small
    -- bounds of the product
    have b5 : 1 - 5 * u ≤ (1 - u) ^ 5 := by
      have := one_add_mul_le_pow (a := -u) (by linarith) 5
      norm_num at this
      linarith
    have w0 : 0 ≤ -T := h.left hW hW0
    have w1 : (1 - 5 * u) * W ≤ -T := (mul_le_mul_of_nonneg_right b5 hW0).trans hW.1
    have w2 : (1 - 5 * u) * -T ≤ W := (mul_le_mul_of_nonneg_right b5 w0).trans hW.2
    have w3 : -T ≤ W + 53 / 10 * u * p0 := by
      have : -T ≤ 106 / 100 * p0 := by nlinarith
      nlinarith [mul_nonneg hu h0, mul_le_mul_of_nonneg_left this hu]
    have e1 : |T + p0| ≤ p0 := by
      rw [abs_le]
      constructor <;> nlinarith
    have e2 := abs_le.1 ((h.err (T + p0)).trans (mul_le_mul_of_nonneg_left e1 hu))
    have up : 0 ≤ u * p0 := mul_nonneg hu h0
    have key : Close u 7 (r (T + p0) + p0) (-W + p0 + p0) := by
      have b7 : (1 - u) ^ 7 ≤ 1 - 63 / 10 * u := by
        have : 0 ≤ u ^ 3 * (35 - 35 * u) + u ^ 5 * (21 - 7 * u) + u ^ 7 :=
          add_nonneg (add_nonneg (mul_nonneg (by positivity) (by linarith)) (mul_nonneg (by positivity) (by linarith))) (by positivity)
        have e : (1 - u) ^ 7 = 1 - 7 * u + 21 * u ^ 2 - (u ^ 3 * (35 - 35 * u) + u ^ 5 * (21 - 7 * u) + u ^ 7) := by ring
        nlinarith
      have Z : p0 ≤ -W + p0 + p0 := by linarith
      have uZ : u * p0 ≤ u * (-W + p0 + p0) := mul_le_mul_of_nonneg_left Z hu
      have z0 : 0 ≤ -W + p0 + p0 := by linarith
      have lo : (1 - 63 / 10 * u) * (-W + p0 + p0) ≤ r (T + p0) + p0 := by linarith [e2.1]
      have hi : r (T + p0) + p0 ≤ (1 + 6 * u) * (-W + p0 + p0) := by
        have : u * W ≤ u * p0 := mul_le_mul_of_nonneg_left hW1 hu
        linarith [e2.2]
      refine ⟨(mul_le_mul_of_nonneg_right b7 z0).trans lo, ?_⟩
      calc (1 - u) ^ 7 * (r (T + p0) + p0) ≤ (1 - u) ^ 7 * ((1 + 6 * u) * (-W + p0 + p0)) := mul_le_mul_of_nonneg_left hi (h.ppos 7).le
        _ ≤ (1 - 63 / 10 * u) * ((1 + 6 * u) * (-W + p0 + p0)) := mul_le_mul_of_nonneg_right b7 (mul_nonneg (by linarith) z0)
        _ ≤ -W + p0 + p0 := by nlinarith [mul_nonneg hu z0, mul_nonneg (mul_nonneg hu hu) z0]
    exact h.round key (by linarith)

/-- A rounding is a factor. -/
theorem Rounds.factor (h : Rounds u r) (x : ℝ) : ∃ ρ, r x = ρ * x ∧ Close u 1 ρ 1 := by
  by_cases c : x = 0
  · exact ⟨1, by rw [c, h.zero, mul_zero], h.refl 1 zero_le_one 1⟩
  · refine ⟨r x / x, by field_simp, ?_⟩
    have hu := h.nonneg
    have hs := h.small
    have e : |r x / x - 1| ≤ u := by
      rw [show r x / x - 1 = (r x - x) / x by field_simp, abs_div, div_le_iff₀ (abs_pos.2 c)]
      exact h.err x
    have := abs_le.1 e
    constructor
    · rw [pow_one]; linarith
    · rw [pow_one]; nlinarith

theorem Rounds.factors (h : Rounds u r) {n m : ℕ} {a b : ℝ} (h1 : Close u n a 1) (h2 : Close u m b 1) : Close u (n + m) (a * b) 1 := by
  have ha := h.left h1 zero_le_one
  have hb := h.left h2 zero_le_one
  have p1 := h.ppos n
  have p2 := h.ppos m
  constructor
  · calc (1 - u) ^ (n + m) * 1 = ((1 - u) ^ n * 1) * ((1 - u) ^ m * 1) := by rw [pow_add]; ring
      _ ≤ a * b := mul_le_mul h1.1 h2.1 (by linarith) ha
  · calc (1 - u) ^ (n + m) * (a * b) = ((1 - u) ^ n * a) * ((1 - u) ^ m * b) := by rw [pow_add]; ring
      _ ≤ 1 * 1 := mul_le_mul h1.2 h2.2 (mul_nonneg p2.le hb) zero_le_one
      _ = 1 := one_mul 1

/-- C78: the linear interpolation inside its interval, for values of any sign, is wrong by at most 14 roundings of the larger one. -/
theorem C78_interpol_lin (h : Rounds u r) (x k0 k1 p0 p1 : Fl r) (hk : k0.val < k1.val) (hx0 : k0.val ≤ x.val) (hx1 : x.val ≤ k1.val) (Y : ℝ)
    (h0 : |p0.val| ≤ Y) (h1 : |p1.val| ≤ Y) :
    |(interpolLin x k0 k1 p0 p1).val - interpolLin x.val k0.val k1.val p0.val p1.val| ≤ 14 * u * Y := by
  obtain ⟨x⟩ := x; obtain ⟨k0⟩ := k0; obtain ⟨k1⟩ := k1; obtain ⟨p0⟩ := p0; obtain ⟨p1⟩ := p1
  simp only [interpolLin, Fl.add_val, Fl.sub_val, Fl.mul_val, Fl.div_val] at *
  have hd : 0 < k1 - k0 := by linarith
  have t0 : 0 ≤ (x - k0) / (k1 - k0) := div_nonneg (by linarith) hd.le
  have t1 : (x - k0) / (k1 - k0) ≤ 1 := by rw [div_le_one hd]; linarith
  have ht : Close u 3 (r (r (x - k0) / r (k1 - k0))) ((x - k0) / (k1 - k0)) :=
    h.div (h.once (by linarith)) (h.once hd.le) (by linarith) hd
  generalize r (r (x - k0) / r (k1 - k0)) = t' at ht ⊢
  generalize (x - k0) / (k1 - k0) = t at t0 t1 ht ⊢
  have hu := h.nonneg
  have hus := h.small
  have Y0 : 0 ≤ Y := (abs_nonneg _).trans h0
  obtain ⟨ρ1, e1, c1⟩ := h.factor (p1 - p0)
  obtain ⟨ρ2, e2, c2⟩ := h.factor (t' * r (p1 - p0))
  have ρ0 : Close u 2 (ρ2 * ρ1) 1 := h.factors c2 c1
  have ρn := h.left ρ0 zero_le_one
  -- the scaled abscissa with both factors
  have hs : Close u 5 (t' * (ρ2 * ρ1)) t := by
    have ha := h.left ht t0
    constructor
    · calc (1 - u) ^ 5 * t = ((1 - u) ^ 3 * t) * ((1 - u) ^ 2 * 1) := by ring
        _ ≤ t' * (ρ2 * ρ1) := mul_le_mul ht.1 ρ0.1 (by rw [mul_one]; exact (h.ppos 2).le) ha
    · calc (1 - u) ^ 5 * (t' * (ρ2 * ρ1)) = ((1 - u) ^ 3 * t') * ((1 - u) ^ 2 * (ρ2 * ρ1)) := by ring
        _ ≤ t * 1 := mul_le_mul ht.2 ρ0.2 (mul_nonneg (h.ppos 2).le ρn) t0
        _ = t := mul_one t
  have b5 : 1 - 5 * u ≤ (1 - u) ^ 5 := by
    have := one_add_mul_le_pow (a := -u) (by linarith) 5
    norm_num at this
    linarith
  have hT : r (t' * r (p1 - p0)) = t' * (ρ2 * ρ1) * (p1 - p0) := by rw [e2, e1]; ring
  rw [hT]
  have s0 := h.left hs t0
  generalize t' * (ρ2 * ρ1) = s at hs s0 ⊢
  have w1 : (1 - 5 * u) * t ≤ s := (mul_le_mul_of_nonneg_right b5 t0).trans hs.1
  have w2 : (1 - 5 * u) * s ≤ t := (mul_le_mul_of_nonneg_right b5 s0).trans hs.2
  have s1 : s ≤ 106 / 100 := by nlinarith
  have ds : |s - t| ≤ 53 / 10 * u := by
    rw [abs_le]
    constructor <;> nlinarith
  have dp : |p1 - p0| ≤ 2 * Y := (abs_sub _ _).trans (by linarith)
  have d1 : |(s - t) * (p1 - p0)| ≤ 53 / 10 * u * (2 * Y) := by
    rw [abs_mul]
    gcongr
  have d2 : |s * (p1 - p0) + p0| ≤ 112 / 100 * Y := by
    have : t * (p1 - p0) + p0 = t * p1 + (1 - t) * p0 := by ring
    have i1 : |t * (p1 - p0) + p0| ≤ Y := by
      rw [this]
      refine (abs_add_le _ _).trans ?_
      rw [abs_mul, abs_mul, abs_of_nonneg t0, abs_of_nonneg (sub_nonneg.2 t1)]
      nlinarith [mul_le_mul_of_nonneg_left h1 t0, mul_le_mul_of_nonneg_left h0 (sub_nonneg.2 t1)]
    have i2 : s * (p1 - p0) + p0 = (s - t) * (p1 - p0) + (t * (p1 - p0) + p0) := by ring
    rw [i2]
    refine (abs_add_le _ _).trans ?_
    nlinarith
  have d3 := (h.err (s * (p1 - p0) + p0)).trans (mul_le_mul_of_nonneg_left d2 hu)
  rw [show r (s * (p1 - p0) + p0) - (t * (p1 - p0) + p0) = (r (s * (p1 - p0) + p0) - (s * (p1 - p0) + p0)) + (s - t) * (p1 - p0) by ring]
  refine (abs_add_le _ _).trans ?_
  nlinarith [mul_nonneg hu Y0]

/-! ## The displacement dispersion -/

theorem vals_k (t : Pk (Fl r)) (i : ℕ) : t.vals.k.getD i 0 = (t.k.getD i ⟨0⟩).val := by
  simp only [Pk.vals, List.getD_eq_getElem?_getD, List.getElem?_map]
  cases t.k[i]? <;> rfl

theorem vals_pk (t : Pk (Fl r)) (i : ℕ) : t.vals.pk.getD i 0 = (t.pk.getD i ⟨0⟩).val := by
  simp only [Pk.vals, List.getD_eq_getElem?_getD, List.getElem?_map]
  cases t.pk[i]? <;> rfl

theorem trap_nonneg (t : Pk ℝ) (h : t.Increasing) (hp : ∀ i < t.nk, 0 ≤ t.pk.getD i 0) (i : ℕ) (hi : i < t.nk) : 0 ≤ trap t i :=
  Finset.sum_nonneg fun j hj => by
    have hj := Finset.mem_range.1 hj
    exact mul_nonneg (add_nonneg (hp _ (by omega)) (hp _ (by omega))) (sub_nonneg.2 (getD_lt h (Nat.lt_succ_self j) (by omega)).le)

/-- The denominator. -/
theorem denom_close (h : Rounds u r) :
    Close u 5 (Histo.lit 12 * Histo.pi * Histo.pi : Fl r).val (12 * Real.pi * Real.pi) := by
  have p := Real.pi_pos.le
  have l : Close u 1 (r ((12 : ℚ) : ℝ)) 12 := by
    have := h.once (x := ((12 : ℚ) : ℝ)) (by norm_num)
    norm_num at this ⊢
    exact this
  exact h.mul (h.mul l (h.once p) (by norm_num) p) (h.once p) (by positivity) p

theorem sigmaInner_close (h : Rounds u r) (t : Pk (Fl r)) (ht : t.vals.Increasing) (hp : ∀ i < t.nk, 0 ≤ t.vals.pk.getD i 0) (h1 : 1 ≤ t.nk) (kmax : Fl r) :
    ∀ (fuel i : ℕ) (acc : Fl r), i ≤ t.nk - 1 → t.nk - 1 - i ≤ fuel → t.vals.k.getD i 0 ≤ kmax.val → Close u (i + 3) acc.val (trap t.vals i) →
    ∃ i' acc' w, sigmaInner t kmax fuel i acc = .ok (i', acc', w) ∧ Close u (i' + 3) acc'.val (trap t.vals i') ∧ i' ≤ t.nk - 1 ∧
      t.vals.k.getD i' 0 ≤ kmax.val ∧ (i' ≠ t.nk - 1 → kmax.val < t.vals.k.getD (i' + 1) 0 ∧
        ∃ v, w = some v ∧ Close u (i' + 17) v.val (sigmaVal t.vals kmax.val i')) := by
  have hs : t.nk < sizeMod := by have := ht.hsize; unfold sizeMod; simp only [Pk.vals] at this; omega
  have hkl : t.k.length = t.nk := by have := ht.hk; simpa [Pk.vals] using this
  have hpl : t.pk.length = t.nk := by have := ht.hpk; simpa [Pk.vals] using this
  intro fuel
  induction fuel with
  | zero => intro i acc h2 h3 h4 hc; exact ⟨i, acc, none, rfl, hc, h2, h4, by omega⟩
  | succ n ih =>
    intro i acc h2 h3 h4 hc
    unfold sigmaInner
    rw [subSize_eq h1 hs]
    by_cases hi : i < t.nk - 1
    · rw [if_pos hi, rd_ok (a := t.k) (i := i + 1) (by omega), rd_ok (a := t.k) (i := i) (by omega),
        rd_ok (a := t.pk) (i := i + 1) (by omega), rd_ok (a := t.pk) (i := i) (by omega)]
      simp only [Res.ok_bind]
      have g : ∀ (l : List (Fl r)) (j : ℕ) (hj : j < l.length), l[j] = l.getD j ⟨0⟩ := fun l j hj => by simp [List.getD_eq_getElem?_getD, hj]
      rw [g t.k (i + 1), g t.k i, g t.pk (i + 1), g t.pk i]
      have q0 := hp i (by omega)
      have q1 := hp (i + 1) (by omega)
      have kk := getD_lt ht (Nat.lt_succ_self i) (show i + 1 < t.vals.nk by simp only [Pk.vals]; omega)
      have tr := trap_nonneg t.vals ht hp i (show i < t.vals.nk by simp only [Pk.vals]; omega)
      have hstep : trap t.vals i + (t.vals.pk.getD (i + 1) 0 + t.vals.pk.getD i 0) * (t.vals.k.getD (i + 1) 0 - t.vals.k.getD i 0) = trap t.vals (i + 1) := by
        rw [trap, trap, Finset.sum_range_succ]
      by_cases c : Histo.lt kmax (t.k.getD (i + 1) ⟨0⟩) = true
      · rw [if_pos c]
        rw [Fl.lt_iff, ← vals_k] at c
        refine ⟨i, acc, _, rfl, hc, h2, h4, fun hne => ⟨c, _, rfl, ?_⟩⟩
        rw [sigmaVal, if_neg (by simpa only [Pk.vals] using hne)]
        simp only [vals_k, vals_pk] at h4 c q0 q1 kk ⊢
        have hI := interp_close h kmax (t.k.getD i ⟨0⟩) (t.k.getD (i + 1) ⟨0⟩) (t.pk.getD i ⟨0⟩) (t.pk.getD (i + 1) ⟨0⟩) kk h4 c.le q0 q1
        have nI : 0 ≤ interpolLin kmax.val (t.k.getD i ⟨0⟩).val (t.k.getD (i + 1) ⟨0⟩).val (t.pk.getD i ⟨0⟩).val (t.pk.getD (i + 1) ⟨0⟩).val +
            (t.pk.getD i ⟨0⟩).val := by
          unfold interpolLin
          have t0 : 0 ≤ (kmax.val - (t.k.getD i ⟨0⟩).val) / ((t.k.getD (i + 1) ⟨0⟩).val - (t.k.getD i ⟨0⟩).val) := div_nonneg (by linarith) (by linarith)
          have t1 : (kmax.val - (t.k.getD i ⟨0⟩).val) / ((t.k.getD (i + 1) ⟨0⟩).val - (t.k.getD i ⟨0⟩).val) ≤ 1 := by
            rw [div_le_one (by linarith)]; linarith
          nlinarith [mul_nonneg t0 q1, mul_nonneg (sub_nonneg.2 t1) q0]
        have hM := h.mul hI (h.once (x := kmax.val - (t.k.getD i ⟨0⟩).val) (by linarith)) nI (by linarith)
        have nM := mul_nonneg nI (show 0 ≤ kmax.val - (t.k.getD i ⟨0⟩).val by linarith)
        have hA := h.add (h.mono hc tr (show i + 3 ≤ i + 10 by omega)) (h.mono hM nM (show 8 + 1 + 1 ≤ i + 10 by omega)) tr nM
        have hD := h.div hA (denom_close h) (add_nonneg tr nM) (by have := Real.pi_pos; positivity)
        rwa [show i + 10 + 1 + 5 + 1 = i + 17 by omega] at hD
      · rw [if_neg c]
        simp only [Fl.lt_iff, not_lt] at c
        rw [← vals_k] at c
        refine ih (i + 1) _ (by omega) (by omega) c ?_
        rw [← hstep]
        simp only [vals_k, vals_pk] at q0 q1 kk ⊢
        have hM := h.mul (h.add (h.refl _ q1 0) (h.refl _ q0 0) q1 q0) (h.once (x := (t.k.getD (i + 1) ⟨0⟩).val - (t.k.getD i ⟨0⟩).val) (by linarith))
          (add_nonneg q1 q0) (by linarith)
        have nM := mul_nonneg (add_nonneg q1 q0) (show 0 ≤ (t.k.getD (i + 1) ⟨0⟩).val - (t.k.getD i ⟨0⟩).val by linarith)
        exact h.add hc (h.mono hM nM (show 0 + 1 + 1 + 1 ≤ i + 3 by omega)) tr nM
    · rw [if_neg hi]
      exact ⟨i, acc, none, rfl, hc, h2, h4, by omega⟩

theorem sigmaVal_nonneg (t : Pk ℝ) (h : t.Increasing) (hp : ∀ i < t.nk, 0 ≤ t.pk.getD i 0) (x : ℝ) (j : ℕ) (hnk : 1 ≤ t.nk)
    (hj : j ≤ t.nk - 1) (h1 : t.k.getD j 0 ≤ x) (h2 : j ≠ t.nk - 1 → x < t.k.getD (j + 1) 0) : 0 ≤ sigmaVal t x j := by
  have tr := trap_nonneg t h hp j (by omega)
  have hpi := Real.pi_pos
  unfold sigmaVal
  split
  · positivity
  · rename_i c
    have q0 := hp j (by omega)
    have q1 := hp (j + 1) (by omega)
    have h3 := h2 c
    refine div_nonneg (add_nonneg tr (mul_nonneg ?_ (by linarith))) (by positivity)
    unfold interpolLin
    have t0 : 0 ≤ (x - t.k.getD j 0) / (t.k.getD (j + 1) 0 - t.k.getD j 0) := div_nonneg (by linarith) (by linarith)
    have t1 : (x - t.k.getD j 0) / (t.k.getD (j + 1) 0 - t.k.getD j 0) ≤ 1 := by rw [div_le_one (by linarith)]; linarith
    nlinarith [mul_nonneg t0 q1, mul_nonneg (sub_nonneg.2 t1) q0]

theorem sigmaLoop_close (h : Rounds u r) (t : Pk (Fl r)) (ht : t.vals.Increasing) (hp : ∀ i < t.nk, 0 ≤ t.vals.pk.getD i 0) (h1 : 1 ≤ t.nk) (uv : Fl r) :
    ∀ (ks : List (Fl r)) (i : ℕ) (acc : Fl r), i ≤ t.nk - 1 → ks.Pairwise (fun a b => r (a.val * uv.val) ≤ r (b.val * uv.val)) →
    (∀ k ∈ ks, t.vals.k.getD i 0 ≤ r (k.val * uv.val) ∨ i = 0) → Close u (i + 3) acc.val (trap t.vals i) →
    ∃ vs, sigmaLoop t uv i acc ks = .ok vs ∧ List.Forall₂ (fun k v =>
      (r (k.val * uv.val) < t.vals.k.getD 0 0 ∧ v.val = 0) ∨ (t.vals.k.getD 0 0 ≤ r (k.val * uv.val) ∧ ∃ j, j ≤ t.nk - 1 ∧
        t.vals.k.getD j 0 ≤ r (k.val * uv.val) ∧ (j ≠ t.nk - 1 → r (k.val * uv.val) < t.vals.k.getD (j + 1) 0) ∧
        Close u (t.nk + 17) v.val (sigmaVal t.vals (r (k.val * uv.val)) j))) ks vs := by
  have hs : t.nk < sizeMod := by have := ht.hsize; unfold sizeMod; simp only [Pk.vals] at this; omega
  have hkl : t.k.length = t.nk := by have := ht.hk; simpa [Pk.vals] using this
  intro ks
  induction ks with
  | nil => intro i acc _ _ _ _; exact ⟨[], rfl, List.Forall₂.nil⟩
  | cons k ks ih =>
    intro i acc hi hsort hge hc
    rw [List.pairwise_cons] at hsort
    unfold sigmaLoop
    dsimp only
    rw [rd_ok (a := t.k) (i := 0) (by omega), subSize_eq h1 hs]
    simp only [Res.ok_bind]
    have g : t.k[0] = t.k.getD 0 ⟨0⟩ := by simp [List.getD_eq_getElem?_getD, (by omega : 0 < t.k.length)]
    rw [g]
    by_cases c : Histo.lt (k * uv) (t.k.getD 0 ⟨0⟩) = true
    · rw [if_pos c]
      rw [Fl.lt_iff, ← vals_k] at c
      obtain ⟨vs, e1, e2⟩ := ih i acc hi hsort.2 (fun k' hk' => hge k' (by simp [hk'])) hc
      rw [e1]
      refine ⟨_, rfl, List.Forall₂.cons (Or.inl ⟨c, ?_⟩) e2⟩
      rw [Fl.lit_val]
      exact_mod_cast h.zero
    · rw [if_neg c]
      simp only [Fl.lt_iff, not_lt] at c
      rw [← vals_k] at c
      have hk : t.vals.k.getD i 0 ≤ (k * uv).val := by
        rcases hge k (by simp) with h2 | h2
        · exact h2
        · subst h2; exact c
      obtain ⟨i', acc', w, e1, e2, e3, e4, e5⟩ := sigmaInner_close h t ht hp h1 (k * uv) (t.nk - 1 - i) i acc hi le_rfl hk hc
      rw [e1]
      simp only [Res.ok_bind]
      obtain ⟨vs, f1, f2⟩ := ih i' acc' e3 hsort.2 (fun k' hk' => Or.inl (e4.trans (hsort.1 k' hk'))) e2
      have nv := sigmaVal_nonneg t.vals ht hp (k * uv).val i' h1 e3 e4 fun hne => (e5 hne).1
      unfold sigmaWritten
      rw [subSize_eq h1 hs]
      by_cases c' : i' = t.nk - 1
      · rw [if_pos c']
        simp only [Res.ok_bind]
        rw [f1]
        refine ⟨_, rfl, List.Forall₂.cons (Or.inr ⟨c, i', e3, e4, fun hne => absurd c' hne, ?_⟩) f2⟩
        have tr := trap_nonneg t.vals ht hp i' (show i' < t.vals.nk by simp only [Pk.vals]; omega)
        have hD := h.div e2 (denom_close h) tr (by have := Real.pi_pos; positivity)
        have : sigmaVal t.vals (r (k.val * uv.val)) i' = trap t.vals i' / (12 * Real.pi * Real.pi) := by
          rw [sigmaVal, if_pos (by simpa only [Pk.vals] using c')]
        rw [this]
        exact h.mono hD (div_nonneg tr (by have := Real.pi_pos; positivity)) (by omega)
      · rw [if_neg c']
        obtain ⟨g1, v, rfl, g2⟩ := e5 c'
        simp only [Res.ok_bind]
        rw [f1]
        exact ⟨_, rfl, List.Forall₂.cons (Or.inr ⟨c, i', e3, e4, fun _ => g1, h.mono g2 nv (by omega)⟩) f2⟩

/-- C78: with every operation rounded, each value of `calc_running_sigmad2` differs by at most the number of table modes plus 17
roundings from the integral up to the rounded cutoff. -/
theorem C78_sigmad2 (h : Rounds u r) (t : Pk (Fl r)) (ht : t.vals.Increasing) (hp : ∀ i < t.nk, 0 ≤ t.vals.pk.getD i 0) (h1 : 1 ≤ t.nk) (P : ℝ → ℝ)
    (hP : PiecewiseLinear t.vals P) (uv : Fl r) (ks : List (Fl r)) (hks : ks.Pairwise fun a b => r (a.val * uv.val) ≤ r (b.val * uv.val)) :
    ∃ vs, runningSigmad2 t ks uv = .ok vs ∧
      List.Forall₂ (fun k v => 0 ≤ sigmaSpec t.vals P 1 (r (k.val * uv.val)) ∧
        Close u (t.nk + 17) v.val (sigmaSpec t.vals P 1 (r (k.val * uv.val)))) ks vs := by
  obtain ⟨vs, e1, e2⟩ := sigmaLoop_close h t ht hp h1 uv ks 0 (Histo.lit 0) (by omega) hks (fun _ _ => Or.inr rfl) (by
    rw [Fl.lit_val]
    norm_num [h.zero, trap, Close])
  refine ⟨vs, e1, e2.imp fun k v hd => ?_⟩
  unfold sigmaSpec
  rw [one_mul]
  rcases hd with ⟨a1, a2⟩ | ⟨a1, j, a2, a3, a4, a5⟩
  · rw [if_pos a1, a2]
    simp [Close]
  · rw [if_neg (not_lt.mpr a1), one_div, inv_mul_eq_div, ← sigmaVal_eq t.vals ht P hP _ j h1 a2 a3 a4]
    exact ⟨sigmaVal_nonneg t.vals ht hp _ j h1 a2 a3 a4, a5⟩

/-- C78: the relative error. -/
theorem C78_sigmad2_error (h : Rounds u r) (t : Pk (Fl r)) (ht : t.vals.Increasing) (hp : ∀ i < t.nk, 0 ≤ t.vals.pk.getD i 0) (h1 : 1 ≤ t.nk) (P : ℝ → ℝ)
    (hP : PiecewiseLinear t.vals P) (uv : Fl r) (ks : List (Fl r)) (hks : ks.Pairwise fun a b => r (a.val * uv.val) ≤ r (b.val * uv.val))
    (hu : (t.nk + 17) * u ≤ 1 / 2) (vs : List (Fl r)) (hv : runningSigmad2 t ks uv = .ok vs) :
    List.Forall₂ (fun k v => |v.val - sigmaSpec t.vals P 1 (r (k.val * uv.val))| ≤ 2 * (t.nk + 17) * u * sigmaSpec t.vals P 1 (r (k.val * uv.val)))
      ks vs := by
  obtain ⟨vs', e1, e2⟩ := C78_sigmad2 h t ht hp h1 P hP uv ks hks
  rw [hv, Res.ok.injEq] at e1
  subst e1
  refine e2.imp fun k v hc => ?_
  have := hc.2.rel h hc.1 (by push_cast; exact hu)
  push_cast at this
  exact this

/-! ## Powers -/

theorem powerLoop_close (h : Rounds u r) : ∀ (fuel a b e : ℕ) (x y : Fl r) (X Y : ℝ), e < fuel → 0 ≤ X → 0 ≤ Y → Close u a x.val X → Close u b y.val Y →
    Close u (a + e * (b + 1)) (powerLoop fuel x y e).val (X * Y ^ e) := by
  intro fuel
  induction fuel with
  | zero => intro a b e x y X Y he; omega
  | succ n ih =>
    intro a b e x y X Y he hX hY hx hy
    unfold powerLoop
    by_cases c : e = 0
    · subst c
      simpa using hx
    · rw [if_neg c]
      have hyy : Close u (2 * b + 1) (y * y).val (Y * Y) := by
        have := h.mul hy hy hY hY
        rwa [← two_mul] at this
      by_cases o : e % 2 = 1
      · rw [if_pos o]
        have := ih _ _ (e / 2) (x * y) (y * y) (X * Y) (Y * Y) (by omega) (mul_nonneg hX hY) (mul_nonneg hY hY) (h.mul hx hy hX hY) hyy
        obtain ⟨m, rfl⟩ : ∃ m, e = 2 * m + 1 := ⟨e / 2, by omega⟩
        rw [show (2 * m + 1) / 2 = m by omega] at this
        rw [show (2 * m + 1) / 2 = m by omega, show a + (2 * m + 1) * (b + 1) = a + b + 1 + m * (2 * b + 1 + 1) by ring,
          show X * Y ^ (2 * m + 1) = X * Y * (Y * Y) ^ m by rw [pow_succ, pow_mul]; ring]
        exact this
      · rw [if_neg o]
        have := ih _ _ (e / 2) x (y * y) X (Y * Y) (by omega) hX (mul_nonneg hY hY) hx hyy
        obtain ⟨m, rfl⟩ : ∃ m, e = 2 * m := ⟨e / 2, by omega⟩
        rw [show 2 * m / 2 = m by omega] at this
        rw [show 2 * m / 2 = m by omega, show a + 2 * m * (b + 1) = a + m * (2 * b + 1 + 1) by ring,
          show X * Y ^ (2 * m) = X * (Y * Y) ^ m by rw [pow_mul]; ring]
        exact this

/-- C78: `power` differs from the power by at most one rounding more than the exponent. -/
theorem C78_power (h : Rounds u r) (x : Fl r) (hx : 0 ≤ x.val) (n : ℕ) : Close u (n + 1) (power x n).val (x.val ^ n) := by
  have h1 : Close u 1 (Histo.lit 1 : Fl r).val 1 := by
    have := h.once (x := 1) zero_le_one
    rw [Fl.lit_val]
    exact_mod_cast this
  have := powerLoop_close h (n + 1) 1 0 n (Histo.lit 1) x 1 x.val (by omega) zero_le_one hx h1 (h.refl _ hx 0)
  rw [one_mul] at this
  unfold power
  rwa [show 1 + n * (0 + 1) = n + 1 by ring] at this

/-! ## Double precision -/

/-- Rounding to the nearest number with a mantissa of 53 bits. -/
noncomputable def dbl (x : ℝ) : ℝ := if x = 0 then 0 else 2 ^ (Int.log 2 |x| - 52) * round (x / 2 ^ (Int.log 2 |x| - 52))

theorem dbl_rounds : Rounds (1 / 2 ^ 53) dbl where
  nonneg := by positivity
  small := by norm_num
  err x := by
    unfold dbl
    split
    · rename_i c
      simp [c]
    · rename_i c
      have hx := abs_pos.2 c
      set e : ℝ := 2 ^ (Int.log 2 |x| - 52) with he
      have e0 : 0 < e := by positivity
      have h1 : e * 2 ^ 52 ≤ |x| := by
        have := Int.zpow_log_le_self (R := ℝ) (b := 2) (by norm_num) hx
        rw [he, ← zpow_natCast, ← zpow_add₀ (by norm_num)]
        simpa using this
      have h2 := abs_sub_round (x / e)
      rw [show e * (round (x / e) : ℝ) - x = -(e * (x / e - round (x / e))) by field_simp; ring, abs_neg, abs_mul, abs_of_pos e0]
      calc e * |x / e - round (x / e)| ≤ e * (1 / 2) := by gcongr
        _ = 1 / 2 ^ 53 * (e * 2 ^ 52) := by norm_num; ring
        _ ≤ _ := by gcongr

theorem round_le_round {x y : ℝ} (h : x ≤ y) : round x ≤ round y := by
  rw [round_eq, round_eq]
  exact Int.floor_mono (by linarith)

/-- The rounding preserves the order of positive numbers. -/
theorem dbl_mono {x y : ℝ} (hx : 0 < x) (hxy : x ≤ y) : dbl x ≤ dbl y := by
  have hy : 0 < y := by linarith
  unfold dbl
  rw [if_neg hx.ne', if_neg hy.ne', abs_of_pos hx, abs_of_pos hy]
  have hl : Int.log 2 x ≤ Int.log 2 y := Int.log_mono_right hx hxy
  have l0 := Int.lt_zpow_succ_log_self (R := ℝ) (b := 2) (by norm_num) x
  have l1 := Int.zpow_log_le_self (R := ℝ) (b := 2) (by norm_num) hy
  rcases hl.eq_or_lt with c | c
  · rw [c]
    refine mul_le_mul_of_nonneg_left ?_ (by positivity)
    exact_mod_cast round_le_round (by gcongr)
  · generalize Int.log 2 x = a at c l0 ⊢
    generalize Int.log 2 y = b at c l1 ⊢
    have two : ∀ n : ℤ, (0 : ℝ) < 2 ^ n := fun n => by positivity
    push_cast at l0 l1
    have u1 : (round (x / 2 ^ (a - 52)) : ℝ) ≤ 2 ^ 53 := by
      have : x / 2 ^ (a - 52) ≤ ((2 ^ 53 : ℤ) : ℝ) := by
        rw [div_le_iff₀ (two _)]
        rw [show ((2 ^ 53 : ℤ) : ℝ) = (2 : ℝ) ^ 53 by norm_num, ← zpow_natCast, ← zpow_add₀ (by norm_num), show ((53 : ℕ) : ℤ) + (a - 52) = a + 1 by push_cast; ring]
        exact l0.le
      have := round_le_round this
      rw [round_intCast] at this
      exact_mod_cast this
    have u2 : (2 : ℝ) ^ 52 ≤ round (y / 2 ^ (b - 52)) := by
      have : ((2 ^ 52 : ℤ) : ℝ) ≤ y / 2 ^ (b - 52) := by
        rw [le_div_iff₀ (two _)]
        rw [show ((2 ^ 52 : ℤ) : ℝ) = (2 : ℝ) ^ 52 by norm_num, ← zpow_natCast, ← zpow_add₀ (by norm_num), show ((52 : ℕ) : ℤ) + (b - 52) = b by push_cast; ring]
        exact l1
      have := round_le_round this
      rw [round_intCast] at this
      exact_mod_cast this
    calc (2 : ℝ) ^ (a - 52) * round (x / 2 ^ (a - 52)) ≤ 2 ^ (a - 52) * 2 ^ 53 := by gcongr
      _ = 2 ^ (a + 1) := by rw [← zpow_natCast, ← zpow_add₀ (by norm_num)]; congr 1; push_cast; ring
      _ ≤ 2 ^ b := zpow_le_zpow_right₀ (by norm_num) (by omega)
      _ = 2 ^ (b - 52) * 2 ^ 52 := by rw [← zpow_natCast, ← zpow_add₀ (by norm_num)]; congr 1; push_cast; ring
      _ ≤ _ := by gcongr

/-- C78, double precision, tables of at most a million modes: for ascending positive requests the relative error is below `10⁻⁹`. -/
theorem C78_double (t : Pk (Fl dbl)) (ht : t.vals.Increasing) (hp : ∀ i < t.nk, 0 ≤ t.vals.pk.getD i 0) (h1 : 1 ≤ t.nk) (hn : t.nk ≤ 1000000) (P : ℝ → ℝ)
    (hP : PiecewiseLinear t.vals P) (uv : Fl dbl) (huv : 0 < uv.val) (ks : List (Fl dbl)) (hpos : ∀ k ∈ ks, 0 < k.val)
    (hks : ks.Pairwise fun a b => a.val ≤ b.val) (vs : List (Fl dbl)) (hv : runningSigmad2 t ks uv = .ok vs) :
    List.Forall₂ (fun k v => |v.val - sigmaSpec t.vals P 1 (dbl (k.val * uv.val))| ≤ 1 / 10 ^ 9 * sigmaSpec t.vals P 1 (dbl (k.val * uv.val)) ∧
      |dbl (k.val * uv.val) - k.val * uv.val| ≤ 1 / 2 ^ 53 * (k.val * uv.val)) ks vs := by
  have hn' : ((t.nk : ℕ) : ℝ) ≤ 1000000 := by exact_mod_cast hn
  have hasc : ks.Pairwise fun a b => dbl (a.val * uv.val) ≤ dbl (b.val * uv.val) :=
    hks.imp_of_mem fun ha _ hab => dbl_mono (mul_pos (hpos _ ha) huv) (mul_le_mul_of_nonneg_right hab huv.le)
  obtain ⟨vs', e1, e2⟩ := C78_sigmad2 dbl_rounds t ht hp h1 P hP uv ks hasc
  rw [hv, Res.ok.injEq] at e1
  subst e1
  clear hv hasc hks
  induction e2 with
  | nil => exact List.Forall₂.nil
  | cons hd _ ih =>
    refine List.Forall₂.cons ⟨?_, ?_⟩ (ih fun k hk => hpos k (by simp [hk]))
    · have := hd.2.rel dbl_rounds hd.1 (by push_cast; norm_num; linarith)
      refine this.trans (mul_le_mul_of_nonneg_right ?_ hd.1)
      push_cast
      norm_num
      linarith
    · rename_i k v ks vs _
      have := dbl_rounds.err (k.val * uv.val)
      rwa [abs_of_pos (mul_pos (hpos k (by simp)) huv)] at this

/-! ## Concrete cases -/

/-- A table of doubles. -/
noncomputable def flTable : Pk (Fl dbl) := ⟨3, [⟨1⟩, ⟨2⟩, ⟨4⟩], [⟨1⟩, ⟨2⟩, ⟨4⟩]⟩

theorem flTable_incr : flTable.vals.Increasing where
  hk := rfl
  hpk := rfl
  hsize := by norm_num [flTable, Pk.vals]
  incr := by norm_num [flTable, Pk.vals]

theorem flTable_linear : PiecewiseLinear flTable.vals id := by
  intro i hi x _
  simp only [flTable, Pk.vals] at hi
  rcases (by omega : i = 0 ∨ i = 1) with rfl | rfl <;> norm_num [flTable, Pk.vals]

/-- Modes below, inside and above the table. -/
example : ∃ vs, runningSigmad2 flTable [⟨1⟩, ⟨5⟩, ⟨20⟩] ⟨1 / 2⟩ = .ok vs ∧
    List.Forall₂ (fun (k v : Fl dbl) => |v.val - sigmaSpec flTable.vals id 1 (dbl (k.val * (1 / 2)))| ≤
      1 / 10 ^ 9 * sigmaSpec flTable.vals id 1 (dbl (k.val * (1 / 2)))) [⟨1⟩, ⟨5⟩, ⟨20⟩] vs := by
  obtain ⟨vs, h, _⟩ := C11_sigmad2_safe flTable ⟨rfl, rfl, by norm_num [flTable]⟩ (by norm_num [flTable]) [⟨1⟩, ⟨5⟩, ⟨20⟩] ⟨1 / 2⟩
  refine ⟨vs, h, (C78_double flTable flTable_incr (fun i hi => ?_) (by norm_num [flTable]) (by norm_num [flTable]) id flTable_linear _ (by norm_num) _
    (by simp) (by norm_num) vs h).imp fun k v hv => hv.1⟩
  simp only [flTable] at hi
  rcases (by omega : i = 0 ∨ i = 1 ∨ i = 2) with rfl | rfl | rfl <;> norm_num [flTable, Pk.vals]

example : Close (1 / 2 ^ 53) 8 (power (⟨3⟩ : Fl dbl) 7).val (3 ^ 7) := C78_power dbl_rounds ⟨3⟩ (by norm_num) 7

example : |(interpolLin (⟨2⟩ : Fl dbl) ⟨1⟩ ⟨4⟩ ⟨-5⟩ ⟨7⟩).val - interpolLin 2 1 4 (-5) 7| ≤ 14 * (1 / 2 ^ 53) * 7 :=
  C78_interpol_lin dbl_rounds _ _ _ _ _ (by norm_num) (by norm_num) (by norm_num) 7 (by norm_num) (by norm_num)

end Verif
