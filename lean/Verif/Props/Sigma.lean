import Verif.Proofs.Sigma

/-!
# C11, C12 – running displacement variance
-/

namespace Verif

/-- Specification: `1/(6 pi^2)` times the integral of `P` from the first mode to `min(uvcutoff*k, last mode)`, and 0 if
`uvcutoff*k` is below the first mode. -/
noncomputable def sigmaSpec (t : Pk ℝ) (P : ℝ → ℝ) (uvcutoff k : ℝ) : ℝ :=
  if uvcutoff * k < t.k.getD 0 0 then 0
  else 1 / (6 * Real.pi ^ 2) * ∫ q in t.k.getD 0 0..min (uvcutoff * k) (t.k.getD (t.nk - 1) 0), P q

/-- C11: for every arithmetic, table of at least one mode and request, `calc_running_sigmad2` is free of undefined behaviour and
writes every output cell. -/
theorem C11_sigmad2_safe {α : Type} [Add α] [Sub α] [Mul α] [Div α] [Neg α] [Histo α]
    (t : Pk α) (h : t.WF) (h1 : 1 ≤ t.nk) (ks : List α) (uvcutoff : α) :
    ∃ vs, runningSigmad2 t ks uvcutoff = .ok vs ∧ vs.length = ks.length :=
  sigmaLoop_defined t h h1 uvcutoff ks 0 _ (by omega)

/-- C11, partial: for an ascending request and non-negative cutoff every value is the integral.  Missing: unordered requests
(`C11_sigmad2_order_violation`). -/
theorem C11_sigmad2_integral_partial (t : Pk ℝ) (h : t.Increasing) (h1 : 1 ≤ t.nk) (P : ℝ → ℝ) (hP : PiecewiseLinear t P)
    (uvcutoff : ℝ) (huv : 0 ≤ uvcutoff) (ks : List ℝ) (hks : ks.Pairwise (· ≤ ·)) :
    runningSigmad2 t ks uvcutoff = .ok (ks.map (sigmaSpec t P uvcutoff)) := by
  have h0 : (Histo.lit 0 : ℝ) = trap t 0 := by simp [trap]
  obtain ⟨vs, e1, e2⟩ := sigmaLoop_ascending t h.toWF h1 uvcutoff ks 0 (by omega)
    (hks.imp (fun hab => mul_le_mul_of_nonneg_right hab huv)) (fun _ _ => Or.inr rfl)
  unfold runningSigmad2
  rw [h0, e1]
  congr 1
  clear e1 hks
  induction e2 with
  | nil => rfl
  | cons hd _ ih =>
    rename_i k v ks vs _
    rw [List.map_cons, ih]
    congr 1
    unfold sigmaSpec
    rw [mul_comm uvcutoff k]
    rcases hd with ⟨a1, a2⟩ | ⟨a1, j, a2, a3, a4, a5⟩
    · rw [if_pos a1, a2]
    · rw [if_neg (not_lt.mpr a1), a5, sigmaVal_eq t h P hP _ j h1 a2 a3 a4]
      ring

/-- C11 is violated for unordered requests: the second mode, requested after a larger one, gets the value of the larger one
(four times too large). -/
theorem C11_sigmad2_order_violation :
    runningSigmad2 (⟨3, [1, 2, 3], [1, 1, 1]⟩ : Pk ℝ) [3, 3 / 2] 1 = .ok [4 / (12 * Real.pi * Real.pi), 4 / (12 * Real.pi * Real.pi)] ∧
    runningSigmad2 (⟨3, [1, 2, 3], [1, 1, 1]⟩ : Pk ℝ) [3 / 2] 1 = .ok [1 / (12 * Real.pi * Real.pi)] ∧
    (4 / (12 * Real.pi * Real.pi) ≠ 1 / (12 * Real.pi * Real.pi)) := by
  refine ⟨?_, ?_, ?_⟩
  · norm_num [runningSigmad2, sigmaLoop, sigmaInner, sigmaWritten, rd, subSize, sizeMod, Histo.lt]
  · norm_num [runningSigmad2, sigmaLoop, sigmaInner, sigmaWritten, rd, subSize, sizeMod, Histo.lt, interpolLin]
  · have := Real.pi_pos.ne'
    have h12 : (0 : ℝ) < 12 * Real.pi * Real.pi := by positivity
    rw [Ne, div_left_inj' h12.ne']
    norm_num

/-- Non-vacuity: a table with its piecewise linear function and an ascending request. -/
example : runningSigmad2 (⟨3, [1, 2, 4], [1, 2, 4]⟩ : Pk ℝ) [1, 5, 20] (1 / 2) =
    .ok ([1, 5, 20].map (sigmaSpec ⟨3, [1, 2, 4], [1, 2, 4]⟩ id (1 / 2))) := by
  refine C11_sigmad2_integral_partial _ ⟨⟨rfl, rfl, by norm_num⟩, by norm_num⟩ (by norm_num) _ ?_ _ (by norm_num) _ (by norm_num)
  intro i hi x hx
  have : i = 0 ∨ i = 1 := by
    have : i + 1 < 3 := hi
    omega
  rcases this with rfl | rfl <;> norm_num

/-! ## C12 -/

theorem piecewiseLinear_nonneg (t : Pk ℝ) (h : t.Increasing) (P : ℝ → ℝ) (hP : PiecewiseLinear t P)
    (hpos : ∀ i < t.nk, 0 ≤ t.pk.getD i 0) (h2 : 2 ≤ t.nk) (x : ℝ) (hx : t.k.getD 0 0 ≤ x) (hx' : x ≤ t.k.getD (t.nk - 1) 0) :
    0 ≤ P x := by
  have hkl := h.hk
  -- bracketing interval
  have : ∃ i, i + 1 < t.nk ∧ x ∈ Set.Icc (t.k.getD i 0) (t.k.getD (i + 1) 0) := by
    by_contra hno
    push Not at hno
    have : ∀ i, i + 1 ≤ t.nk → t.k.getD i 0 ≤ x ∧ (0 < i → t.k.getD i 0 < x) := by
      intro i
      induction i with
      | zero => intro _; exact ⟨hx, by omega⟩
      | succ i ih =>
        intro hi
        have h3 := ih (by omega)
        have h4 := hno i (by omega)
        rw [Set.mem_Icc, not_and, not_le] at h4
        have := h4 h3.1
        exact ⟨this.le, fun _ => this⟩
    have := (this (t.nk - 1) (by omega)).2 (by omega)
    linarith
  obtain ⟨i, hi, hxi⟩ := this
  rw [hP i hi x hxi]
  have hlt := getD_lt h (Nat.lt_succ_self i) hi
  have p0 := hpos i (by omega)
  have p1 := hpos (i + 1) hi
  set s := (x - t.k.getD i 0) / (t.k.getD (i + 1) 0 - t.k.getD i 0) with hs
  have s0 : 0 ≤ s := div_nonneg (by linarith [hxi.1]) (by linarith)
  have s1 : s ≤ 1 := by rw [hs, div_le_one (by linarith)]; linarith [hxi.2]
  nlinarith

theorem piecewiseLinear_integrable (t : Pk ℝ) (h : t.Increasing) (P : ℝ → ℝ) (hP : PiecewiseLinear t P) (h1 : 1 ≤ t.nk)
    (a b : ℝ) (ha : a ∈ Set.Icc (t.k.getD 0 0) (t.k.getD (t.nk - 1) 0)) (hb : b ∈ Set.Icc (t.k.getD 0 0) (t.k.getD (t.nk - 1) 0)) :
    IntervalIntegrable P MeasureTheory.volume a b := by
  refine (integral_nodes t h P hP (t.nk - 1) (by omega)).1.mono_set ?_
  rw [Set.uIcc_of_le (getD_le h (by omega) (by omega))]
  exact Set.uIcc_subset_Icc ha hb

/-- C12: the specified variance of a non-negative spectrum is non-negative and non-decreasing in `k`. -/
theorem C12_sigmaSpec_monotone (t : Pk ℝ) (h : t.Increasing) (h2 : 2 ≤ t.nk) (P : ℝ → ℝ) (hP : PiecewiseLinear t P)
    (hpos : ∀ i < t.nk, 0 ≤ t.pk.getD i 0) (uvcutoff : ℝ) (huv : 0 ≤ uvcutoff) :
    (∀ k, 0 ≤ sigmaSpec t P uvcutoff k) ∧ Monotone (sigmaSpec t P uvcutoff) := by
  have hc : (0 : ℝ) ≤ 1 / (6 * Real.pi ^ 2) := by positivity
  have h0e : t.k.getD 0 0 ≤ t.k.getD (t.nk - 1) 0 := getD_le h (by omega) (by omega)
  have key : ∀ a b, t.k.getD 0 0 ≤ a → a ≤ b → b ≤ t.k.getD (t.nk - 1) 0 → 0 ≤ ∫ q in a..b, P q := by
    intro a b ha hab hb
    apply intervalIntegral.integral_nonneg hab
    intro q hq
    exact piecewiseLinear_nonneg t h P hP hpos h2 q (ha.trans hq.1) (hq.2.trans hb)
  have hnn : ∀ k, 0 ≤ sigmaSpec t P uvcutoff k := by
    intro k
    unfold sigmaSpec
    split
    · exact le_rfl
    · rename_i c
      exact mul_nonneg hc (key _ _ le_rfl (le_min (not_lt.mp c) h0e) (min_le_right _ _))
  refine ⟨hnn, ?_⟩
  intro k k' hkk
  by_cases c : uvcutoff * k < t.k.getD 0 0
  · have : sigmaSpec t P uvcutoff k = 0 := by rw [sigmaSpec, if_pos c]
    rw [this]; exact hnn k'
  · have hle : uvcutoff * k ≤ uvcutoff * k' := mul_le_mul_of_nonneg_left hkk huv
    have c' : ¬ uvcutoff * k' < t.k.getD 0 0 := by
      intro h'; exact c (lt_of_le_of_lt hle h')
    rw [sigmaSpec, if_neg c, sigmaSpec, if_neg c']
    refine mul_le_mul_of_nonneg_left ?_ hc
    have m1 : t.k.getD 0 0 ≤ min (uvcutoff * k) (t.k.getD (t.nk - 1) 0) := le_min (not_lt.mp c) h0e
    have m2 : min (uvcutoff * k) (t.k.getD (t.nk - 1) 0) ≤ min (uvcutoff * k') (t.k.getD (t.nk - 1) 0) := min_le_min_right _ hle
    rw [← intervalIntegral.integral_add_adjacent_intervals
      (piecewiseLinear_integrable t h P hP (by omega) _ _ ⟨le_rfl, h0e⟩ ⟨m1, min_le_right _ _⟩)
      (piecewiseLinear_integrable t h P hP (by omega) _ _ ⟨m1, min_le_right _ _⟩ ⟨m1.trans m2, min_le_right _ _⟩)]
    have := key _ _ m1 m2 (min_le_right _ _)
    linarith

/-- `sigmav()^2` of the linear spectrum as computed by the Python container: trapezoid rule over the table
(`pyregpt/pyregpt.py:135-136`). -/
noncomputable def sigmav2 (t : Pk ℝ) : ℝ :=
  1 / 6 / Real.pi ^ 2 * ∑ j ∈ Finset.range (t.nk - 1), (t.k.getD (j + 1) 0 - t.k.getD j 0) * (t.pk.getD j 0 + t.pk.getD (j + 1) 0) / 2

/-- C12: once the cutoff is beyond the last mode the specified variance is `sigmav()^2`. -/
theorem C12_sigmaSpec_saturates (t : Pk ℝ) (h : t.Increasing) (h1 : 1 ≤ t.nk) (P : ℝ → ℝ) (hP : PiecewiseLinear t P)
    (uvcutoff k : ℝ) (hk : t.k.getD (t.nk - 1) 0 ≤ uvcutoff * k) : sigmaSpec t P uvcutoff k = sigmav2 t := by
  have h0e : t.k.getD 0 0 ≤ t.k.getD (t.nk - 1) 0 := getD_le h (by omega) (by omega)
  rw [sigmaSpec, if_neg (not_lt.mpr (h0e.trans hk)), min_eq_right hk, (integral_nodes t h P hP (t.nk - 1) (by omega)).2, trap, sigmav2,
    ← Finset.sum_div]
  have : ∀ j, (t.pk.getD (j + 1) 0 + t.pk.getD j 0) * (t.k.getD (j + 1) 0 - t.k.getD j 0) =
    (t.k.getD (j + 1) 0 - t.k.getD j 0) * (t.pk.getD j 0 + t.pk.getD (j + 1) 0) := fun j => by ring
  simp_rw [this]
  ring

/-- C12: `calc_running_sigmad2` of a non-negative spectrum on an ascending request is non-negative, non-decreasing, bounded by
`sigmav()^2` and equal to it beyond the last mode. -/
theorem C12_sigmad2_shape (t : Pk ℝ) (h : t.Increasing) (h2 : 2 ≤ t.nk) (hpos : ∀ i < t.nk, 0 ≤ t.pk.getD i 0)
    (uvcutoff : ℝ) (huv : 0 ≤ uvcutoff) (ks : List ℝ) (hks : ks.Pairwise (· ≤ ·)) :
    ∃ vs, runningSigmad2 t ks uvcutoff = .ok vs ∧ vs.Pairwise (· ≤ ·) ∧ (∀ v ∈ vs, 0 ≤ v ∧ v ≤ sigmav2 t) ∧
      ∀ (i : ℕ), i < ks.length → t.k.getD (t.nk - 1) 0 ≤ uvcutoff * ks.getD i 0 → vs.getD i 0 = sigmav2 t := by
  obtain ⟨P, hP⟩ := exists_piecewiseLinear t h
  obtain ⟨m1, m2⟩ := C12_sigmaSpec_monotone t h h2 P hP hpos uvcutoff huv
  refine ⟨_, C11_sigmad2_integral_partial t h (by omega) P hP uvcutoff huv ks hks, ?_, ?_, ?_⟩
  · rw [List.pairwise_map]
    exact hks.imp (fun hab => m2 hab)
  · intro v hv
    obtain ⟨k, -, rfl⟩ := List.mem_map.mp hv
    refine ⟨m1 k, ?_⟩
    have h0e : t.k.getD 0 0 ≤ t.k.getD (t.nk - 1) 0 := getD_le h (by omega) (by omega)
    by_cases c : t.k.getD (t.nk - 1) 0 ≤ uvcutoff * k
    · exact (C12_sigmaSpec_saturates t h (by omega) P hP uvcutoff k c).le
    · rw [not_le] at c
      have hs : sigmav2 t = sigmaSpec t P 1 (t.k.getD (t.nk - 1) 0) :=
        (C12_sigmaSpec_saturates t h (by omega) P hP 1 _ (by simp)).symm
      have hk : sigmaSpec t P uvcutoff k = sigmaSpec t P 1 (uvcutoff * k) := by simp [sigmaSpec]
      rw [hs, hk]
      exact (C12_sigmaSpec_monotone t h h2 P hP hpos 1 zero_le_one).2 c.le
  · intro i hi hk
    rw [getD_eq (by simpa using hi), List.getElem_map]
    rw [getD_eq hi] at hk
    exact C12_sigmaSpec_saturates t h (by omega) P hP uvcutoff _ hk

/-- C12: the variance is linear in the spectrum. -/
theorem C12_sigmad2_linear (nk : ℕ) (k p q : List ℝ) (s r : ℝ) (h : (⟨nk, k, p⟩ : Pk ℝ).Increasing) (h' : (⟨nk, k, q⟩ : Pk ℝ).Increasing)
    (h1 : 1 ≤ nk) (uvcutoff : ℝ) (huv : 0 ≤ uvcutoff) (ks : List ℝ) (hks : ks.Pairwise (· ≤ ·)) :
    ∃ vs ws, runningSigmad2 ⟨nk, k, p⟩ ks uvcutoff = .ok vs ∧ runningSigmad2 ⟨nk, k, q⟩ ks uvcutoff = .ok ws ∧
      runningSigmad2 ⟨nk, k, List.zipWith (fun a b => s * a + r * b) p q⟩ ks uvcutoff =
        .ok (List.zipWith (fun a b => s * a + r * b) vs ws) := by
  obtain ⟨P, hP⟩ := exists_piecewiseLinear _ h
  obtain ⟨Q, hQ⟩ := exists_piecewiseLinear _ h'
  have hp := h.hpk; have hq := h'.hpk; have hk := h.hk
  simp only at hp hq hk
  have hcomb : (⟨nk, k, List.zipWith (fun a b => s * a + r * b) p q⟩ : Pk ℝ).Increasing :=
    ⟨⟨hk, by simp [hp, hq], h.hsize⟩, h.incr⟩
  have hg : ∀ i < nk, (List.zipWith (fun a b => s * a + r * b) p q).getD i 0 = s * p.getD i 0 + r * q.getD i 0 := by
    intro i hi
    rw [getD_eq (by simp; omega), getD_eq (by omega), getD_eq (by omega), List.getElem_zipWith]
  have hPQ : PiecewiseLinear ⟨nk, k, List.zipWith (fun a b => s * a + r * b) p q⟩ (fun x => s * P x + r * Q x) := by
    intro i hi x hx
    have e1 := hP i hi x hx
    have e2 := hQ i hi x hx
    simp only at e1 e2 hi ⊢
    rw [e1, e2, hg i (by omega), hg (i + 1) hi]
    ring
  refine ⟨_, _, C11_sigmad2_integral_partial _ h h1 P hP uvcutoff huv ks hks, C11_sigmad2_integral_partial _ h' h1 Q hQ uvcutoff huv ks hks, ?_⟩
  rw [C11_sigmad2_integral_partial _ hcomb h1 _ hPQ uvcutoff huv ks hks]
  congr 1
  have : sigmaSpec ⟨nk, k, List.zipWith (fun a b => s * a + r * b) p q⟩ (fun x => s * P x + r * Q x) uvcutoff =
      fun κ => s * sigmaSpec ⟨nk, k, p⟩ P uvcutoff κ + r * sigmaSpec ⟨nk, k, q⟩ Q uvcutoff κ := by
    funext κ
    unfold sigmaSpec
    dsimp only
    by_cases c : uvcutoff * κ < k.getD 0 0
    · simp only [if_pos c]; ring
    · have h0e : k.getD 0 0 ≤ k.getD (nk - 1) 0 := getD_le h (by simp) (by simp only; omega)
      have m1 : k.getD 0 0 ≤ min (uvcutoff * κ) (k.getD (nk - 1) 0) := le_min (not_lt.mp c) h0e
      simp only [if_neg c]
      rw [intervalIntegral.integral_add
        ((piecewiseLinear_integrable _ h P hP h1 _ _ ⟨le_rfl, h0e⟩ ⟨m1, min_le_right _ _⟩).const_mul s)
        ((piecewiseLinear_integrable _ h' Q hQ h1 _ _ ⟨le_rfl, h0e⟩ ⟨m1, min_le_right _ _⟩).const_mul r),
        intervalIntegral.integral_const_mul, intervalIntegral.integral_const_mul]
      ring
  rw [this, List.zipWith_map]
  simp

example : ∃ vs, runningSigmad2 (⟨3, [1, 2, 4], [1, 2, 4]⟩ : Pk ℝ) [1, 5, 20] (1 / 2) = .ok vs ∧
    vs.getD 2 0 = sigmav2 ⟨3, [1, 2, 4], [1, 2, 4]⟩ := by
  obtain ⟨vs, h1, _, _, h4⟩ := C12_sigmad2_shape (⟨3, [1, 2, 4], [1, 2, 4]⟩ : Pk ℝ) ⟨⟨rfl, rfl, by norm_num⟩, by norm_num⟩ (by norm_num)
    (by
      intro i hi
      have : i < 3 := hi
      interval_cases i <;> norm_num) (1 / 2) (by norm_num) [1, 5, 20] (by norm_num)
  exact ⟨vs, h1, h4 2 (by simp) (by norm_num)⟩

end Verif
