import Verif.Model.Container
import Verif.Props.PkInterp
import Verif.Props.Variance

/-!
# C85: the displacement dispersion of an object and its interpolated spectrum
-/

namespace Verif

open MeasureTheory Terms

noncomputable section

/-! ## What it should be -/

/-- The dispersion of one component of the displacement for a spectrum `P` between two modes: the integral of `P` over
`6 pi^2`. -/
def dispersionSpec (P : ℝ → ℝ) (a b : ℝ) : ℝ := 1 / (6 * Real.pi ^ 2) * ∫ q in a..b, P q

/-! ## Classes with one value per mode -/

theorem integral_line (x0 y0 x1 y1 : ℝ) (h : x0 < x1) :
    (∫ q in x0..x1, lineThrough x0 y0 x1 y1 q) = (x1 - x0) * (y1 + y0) / 2 := by
  have e : ∀ q, lineThrough x0 y0 x1 y1 q = (y1 - y0) / (x1 - x0) * q + (y0 - (y1 - y0) / (x1 - x0) * x0) := by
    intro q
    have : x1 - x0 ≠ 0 := (sub_pos.2 h).ne'
    unfold lineThrough
    field_simp
    ring
  simp only [e]
  rw [intervalIntegral.integral_add (by apply Continuous.intervalIntegrable; fun_prop) (by apply Continuous.intervalIntegrable; fun_prop),
    intervalIntegral.integral_const_mul, integral_id, intervalIntegral.integral_const]
  have : x1 - x0 ≠ 0 := (sub_pos.2 h).ne'
  rw [smul_eq_mul]
  field_simp
  ring

/-- C85: for a class with one value per mode the square of `sigmav` is the dispersion of the spectrum that `pk_interp` returns, over
the modes of the object, whatever values `pk_interp` is told to return outside. -/
theorem C85_sigmav_partial (t : Terms) (pk : ℕ → ℝ) (hs : (t.get "k").Pairwise (· < ·)) (h0 : 0 < (t.get "k").length)
    (hp : ∀ j < (t.get "k").length, 0 ≤ pk j) (left right : ℝ) :
    t.sigmav pk ^ 2 = dispersionSpec (fun q => t.pkInterp pk q left right) (t.val "k" 0) (t.val "k" ((t.get "k").length - 1)) := by
  set n := (t.get "k").length with hn
  have hv : ∀ j (hj : j < n), t.val "k" j = (t.get "k")[j] := fun j hj => by
    rw [Terms.val, List.getD_eq_getElem?_getD, List.getElem?_eq_getElem hj, Option.getD_some]
  have hlt : ∀ j, j + 1 < n → t.val "k" j < t.val "k" (j + 1) := fun j hj => by
    rw [hv j (by omega), hv (j + 1) hj]
    exact List.pairwise_iff_getElem.1 hs j (j + 1) _ _ (by omega)
  have hseg : ∀ j, j + 1 < n → ∀ q ∈ Set.uIcc (t.val "k" j) (t.val "k" (j + 1)),
      t.pkInterp pk q left right = lineThrough (t.val "k" j) (pk j) (t.val "k" (j + 1)) (pk (j + 1)) q := by
    intro j hj q hq
    rw [Set.uIcc_of_le (hlt j hj).le, hv j (by omega), hv (j + 1) hj] at hq
    have := npInterp_inside left right q (t.get "k") ((List.range n).map pk) hs (by simp [hn]) j hj hq.1 hq.2
    rw [Terms.pkInterp, this, hv j (by omega), hv (j + 1) hj]
    simp
  have hint : ∀ j < n - 1, IntervalIntegrable (fun q => t.pkInterp pk q left right) volume (t.val "k" j) (t.val "k" (j + 1)) := by
    intro j hj
    have hc : Continuous fun q => lineThrough (t.val "k" j) (pk j) (t.val "k" (j + 1)) (pk (j + 1)) q := by
      unfold lineThrough; fun_prop
    refine (hc.intervalIntegrable _ _).congr fun q hq => ?_
    exact (hseg j (by omega) q (Set.uIoc_subset_uIcc hq)).symm
  have hsum : (∫ q in (t.val "k" 0)..(t.val "k" (n - 1)), t.pkInterp pk q left right) = trapz n pk (t.val "k") := by
    rw [← intervalIntegral.sum_integral_adjacent_intervals hint, trapz]
    refine Finset.sum_congr rfl fun j hj => ?_
    have hj' : j + 1 < n := by have := Finset.mem_range.1 hj; omega
    rw [intervalIntegral.integral_congr fun q hq => hseg j hj' q hq, integral_line _ _ _ _ (hlt j hj')]
  have hnn : 0 ≤ trapz n pk (t.val "k") := by
    refine Finset.sum_nonneg fun j hj => ?_
    have hj' : j + 1 < n := by have := Finset.mem_range.1 hj; omega
    have h1 := hlt j hj'
    have h2 := hp j (by omega)
    have h3 := hp (j + 1) hj'
    have : 0 ≤ (t.val "k" (j + 1) - t.val "k" j) * (pk (j + 1) + pk j) := mul_nonneg (by linarith) (by linarith)
    linarith
  rw [Terms.sigmav, Real.sq_sqrt (mul_nonneg (by positivity) hnn), dispersionSpec, hsum]
  ring

/-- A container of three modes. -/
def dpBox : Terms := ⟨[("k", [1, 2, 4]), ("pk", [3, 5, 1])]⟩

example : dpBox.sigmav (Terms.pkOfLin dpBox 1) ^ 2 =
    dispersionSpec (fun q => dpBox.pkInterp (Terms.pkOfLin dpBox 1) q 0 0) 1 4 := by
  have hk : dpBox.get "k" = [1, 2, 4] := rfl
  have h := C85_sigmav_partial dpBox (Terms.pkOfLin dpBox 1) (by rw [hk]; norm_num) (by rw [hk]; norm_num) (by
    rw [hk]
    intro j hj
    have hj : j < 3 := hj
    have hp : dpBox.get "pk" = [3, 5, 1] := rfl
    interval_cases j <;> norm_num [Terms.pkOfLin, Terms.scaleFactor, Terms.val, hp]) 0 0
  rw [h]
  norm_num [Terms.val, hk]

/-! ## Classes with several values per mode -/

/-- C85 fails for `A1Loop`, `A2Loop`, `B1Loop` and `B2Loop`: with five or nine numbers per mode `sigmav` raises for every number of
modes but two and that of the components, and otherwise gives one number per mode. -/
theorem C85_shape_violation {w : ℕ} (hw : w = 5 ∨ w = 9) (rows : List (List ℝ)) (k : List ℝ) :
    (k.length ≠ 2 → k.length ≠ w → sigmavRows w rows k = .error "ValueError") ∧
    ∀ l, sigmavRows w rows k = .ok l → l.length = rows.length := by
  have hw1 : w - 1 ≠ 1 := by omega
  refine ⟨fun h2 h3 => ?_, fun l h => ?_⟩
  · unfold sigmavRows trapzRows
    rw [if_neg (by omega)]
    rfl
  · unfold sigmavRows trapzRows at h
    dsimp only at h
    by_cases hc : k.length - 1 = w - 1 ∨ k.length - 1 = 1 ∨ w - 1 = 1
    · rw [if_pos hc] at h; cases h; simp
    · rw [if_neg hc] at h; cases h

example : sigmavRows 5 [[1, 2, 3, 4, 5], [1, 2, 3, 4, 5], [1, 2, 3, 4, 5]] [1, 2, 3] = .error "ValueError" :=
  (C85_shape_violation (.inl rfl) _ _).1 (by norm_num) (by norm_num)

/-- C85 fails for two modes as well: the one width of the modes is used for every step, and the sum is again over the components of
one mode. -/
theorem C85_two_modes_violation {w : ℕ} (hw : w = 5 ∨ w = 9) (rows : List (List ℝ)) (a b : ℝ) :
    sigmavRows w rows [a, b] = .ok (rows.map fun r =>
      Real.sqrt ((b - a) / (6 * Real.pi ^ 2) * (∑ j ∈ Finset.range w, r.getD j 0 - (r.getD 0 0 + r.getD (w - 1) 0) / 2))) := by
  unfold sigmavRows trapzRows
  have hw1 : w - 1 ≠ 1 := by omega
  rw [if_pos (.inr (.inl rfl))]
  simp only [Except.map, List.map_map, if_neg hw1]
  congr 1
  refine List.map_congr_left fun r _ => ?_
  simp only [Function.comp]
  congr 1
  rcases hw with rfl | rfl <;> simp [Finset.sum_range_succ] <;> ring

example : sigmavRows 5 [[2, 0, 0, 0, 0], [0, 3, 0, 0, 0]] [1, 3] =
    .ok [Real.sqrt (2 / (6 * Real.pi ^ 2)), Real.sqrt (6 / (6 * Real.pi ^ 2))] := by
  have e1 : ((3 : ℝ) - 1) / (6 * Real.pi ^ 2) * (2 - 2 / 2) = 2 / (6 * Real.pi ^ 2) := by ring
  have e2 : ((3 : ℝ) - 1) / (6 * Real.pi ^ 2) * 3 = 6 / (6 * Real.pi ^ 2) := by ring
  rw [C85_two_modes_violation (.inl rfl), ← e1, ← e2]
  simp [Finset.sum_range_succ]

/-- C85 fails for `A1Loop`: with five modes `sigmav` returns five numbers, which are not those of the components: the sum goes over
the components of one mode. -/
theorem C85_components_violation :
    ¬∀ (k : List ℝ) (rows : List (List ℝ)), k.Pairwise (· < ·) → rows.length = k.length → (∀ r ∈ rows, r.length = 5) →
      (∀ r ∈ rows, ∀ x ∈ r, 0 ≤ x) →
      ∃ l, sigmavRows 5 rows k = .ok l ∧ l.length = 5 ∧ ∀ c < 5, (l.getD c 0) ^ 2 = dispersionSpec
        (fun q => npInterp 0 0 q k (rows.map fun r => r.getD c 0)) (k.getD 0 0) (k.getD (k.length - 1) 0) := by
  intro h
  obtain ⟨l, h1, h2, h3⟩ := h [1, 2, 3, 4, 5] (List.replicate 5 [1, 1, 0, 0, 0]) (by norm_num) rfl (by simp)
    (by
      intro r hr x hx
      rw [List.mem_replicate] at hr
      rw [hr.2] at hx
      simp only [List.mem_cons, List.not_mem_nil, or_false] at hx
      rcases hx with rfl | rfl | rfl | rfl | rfl <;> norm_num)
  have h3 := h3 0 (by norm_num)
  -- the dispersion of the first component, by the theorem for one value per mode
  have hs := C85_sigmav_partial ⟨[("k", [1, 2, 3, 4, 5])]⟩ (fun _ => 1)
    (by simp only [Terms.get, List.lookup_cons, beq_self_eq_true, Option.getD_some]; norm_num)
    (by simp [Terms.get]) (fun _ _ => zero_le_one) 0 0
  have hk : (⟨[("k", [1, 2, 3, 4, 5])]⟩ : Terms).get "k" = [1, 2, 3, 4, 5] := rfl
  have e1 : (fun q => npInterp 0 0 q [1, 2, 3, 4, 5] ((List.replicate 5 [1, 1, 0, 0, 0]).map fun r : List ℝ => r.getD 0 0)) =
      fun q => (⟨[("k", [1, 2, 3, 4, 5])]⟩ : Terms).pkInterp (fun _ => 1) q 0 0 := by
    funext q
    rw [Terms.pkInterp, hk]
    rfl
  rw [e1] at h3
  have e2 : (⟨[("k", [1, 2, 3, 4, 5])]⟩ : Terms).val "k" 0 = 1 := rfl
  have e3 : (⟨[("k", [1, 2, 3, 4, 5])]⟩ : Terms).val "k" (((⟨[("k", [1, 2, 3, 4, 5])]⟩ : Terms).get "k").length - 1) = 5 := rfl
  have h3 : l.getD 0 0 ^ 2 = dispersionSpec (fun q => (⟨[("k", [1, 2, 3, 4, 5])]⟩ : Terms).pkInterp (fun _ => 1) q 0 0) 1 5 := h3
  rw [e2, e3, ← h3] at hs
  have hl : l.getD 0 0 = Real.sqrt (1 / 6 / Real.pi ^ 2 * (3 / 2)) := by
    unfold sigmavRows trapzRows at h1
    rw [if_pos (.inl rfl)] at h1
    cases h1
    simp only [List.replicate_succ, List.map_cons, List.getD_cons_zero]
    congr 2
    norm_num [Finset.sum_range_succ]
  have hr : (⟨[("k", [1, 2, 3, 4, 5])]⟩ : Terms).sigmav (fun _ => 1) = Real.sqrt (1 / 6 / Real.pi ^ 2 * 4) := by
    unfold Terms.sigmav
    rw [hk]
    congr 2
    simp only [trapz, Terms.val, hk]
    norm_num [Finset.sum_range_succ]
  rw [hl, hr, Real.sq_sqrt (by positivity), Real.sq_sqrt (by positivity)] at hs
  have hpi : 0 < 1 / 6 / Real.pi ^ 2 := by positivity
  nlinarith

/-! ## The variance in spheres of these classes -/

/-- C85 fails for the variance in spheres as well: with five or nine numbers per mode `sigmar` (and `sigma8`, its value at radius eight)
raises for every number of modes but that of the components. -/
theorem C85_sphere_shape_violation {w : ℕ} (hw : w = 5 ∨ w = 9) (rows : List (List ℝ)) (k : List ℝ) (r : ℝ) (h : k.length ≠ w) :
    sigmarRows w rows k r = .error "ValueError" := by
  unfold sigmarRows mulRows
  rw [List.length_map, if_neg h]
  by_cases h1 : k.length = 1
  · rw [if_pos h1]
    show (trapzRows w _ k).bind _ = _
    unfold trapzRows
    rw [if_neg (by omega)]
    rfl
  · rw [if_neg h1, if_neg (by omega)]
    rfl

example : sigmarRows 9 [List.replicate 9 1, List.replicate 9 2] [0.1, 0.2] 8 = .error "ValueError" :=
  C85_sphere_shape_violation (.inr rfl) _ _ _ (by norm_num)

/-- What `sigmar` returns when the numbers of modes and components agree: one number per mode, in which component `j` of this mode is
taken with the window and the width of mode `j`. -/
theorem sigmarRows_value {w : ℕ} (hw : w = 5 ∨ w = 9) (rows : List (List ℝ)) (k : List ℝ) (r : ℝ) (h : k.length = w) :
    sigmarRows w rows k r = .ok (rows.map fun row => Real.sqrt (sigmar2 w (fun j => k.getD j 0) (fun j => row.getD j 0) r)) := by
  unfold sigmarRows mulRows
  rw [List.length_map, if_pos h]
  show (trapzRows w _ k).bind _ = _
  unfold trapzRows
  rw [if_pos (.inl (by rw [h]))]
  show Except.ok _ = _
  rw [List.map_map, List.map_map]
  congr 1
  refine List.map_congr_left fun row _ => ?_
  have hw1 : w - 1 ≠ 1 := by omega
  simp only [Function.comp, sigmar2, trapz, h, if_neg hw1]
  congr 2
  refine Finset.sum_congr rfl fun j hj => ?_
  have hj : j < w - 1 := Finset.mem_range.1 hj
  have hz : ∀ i < w, ((List.range w).map fun j => row.getD j 0 * (k.map fun k => (topHat (k * r) * k) ^ 2).getD j 0).getD i 0 =
      row.getD i 0 * (topHat (k.getD i 0 * r) * k.getD i 0) ^ 2 := by
    intro i hi
    have hi' : i < k.length := h ▸ hi
    simp [List.getD_eq_getElem?_getD, hi, hi']
  rw [hz j (by omega), hz (j + 1) (by omega)]

/-- C85 fails for the variance in spheres: even with five modes the five numbers of `A1Loop` are not those of the components. -/
theorem C85_sphere_components_violation :
    ¬∀ (k : List ℝ) (rows : List (List ℝ)) (r : ℝ), 0 < r → k.Pairwise (· < ·) → (∀ x ∈ k, 0 < x) → rows.length = k.length →
      (∀ row ∈ rows, row.length = 5) → (∀ row ∈ rows, ∀ x ∈ row, 0 ≤ x) →
      ∃ l, sigmarRows 5 rows k r = .ok l ∧ l.length = 5 ∧ ∀ c < 5, (l.getD c 0) ^ 2 =
        sigmar2 k.length (fun j => k.getD j 0) (fun j => (rows.getD j []).getD c 0) r := by
  intro h
  have hpi := Real.pi_pos
  have hp4 := Real.pi_le_four
  obtain ⟨l, h1, h2, h3⟩ := h [Real.pi, 5, 6, 7, 8] (List.replicate 5 [1, 0, 0, 0, 0]) 1 one_pos (by
      simp only [List.pairwise_cons, List.mem_cons, List.not_mem_nil, or_false, forall_eq_or_imp, forall_eq]
      refine ⟨⟨by linarith, by linarith, by linarith, by linarith⟩, ?_⟩
      norm_num) (by
      simp only [List.mem_cons, List.not_mem_nil, or_false, forall_eq_or_imp, forall_eq]
      exact ⟨hpi, by norm_num, by norm_num, by norm_num, by norm_num⟩) rfl (by simp)
    (by
      intro r hr x hx
      rw [List.mem_replicate] at hr
      rw [hr.2] at hx
      simp only [List.mem_cons, List.not_mem_nil, or_false] at hx
      rcases hx with rfl | rfl | rfl | rfl | rfl <;> norm_num)
  have h3 := h3 1 (by norm_num)
  rw [sigmarRows_value (.inl rfl) _ _ _ rfl] at h1
  cases h1
  have hr : sigmar2 5 (fun j => [Real.pi, 5, 6, 7, 8].getD j 0) (fun j => ((List.replicate 5 [1, 0, 0, 0, 0]).getD j ([] : List ℝ)).getD 1 0) 1 = 0 := by
    simp [sigmar2, trapz, Finset.sum_range_succ]
  have ht : topHat Real.pi = 3 / Real.pi ^ 2 := by
    rw [topHat, Real.sin_pi, Real.cos_pi]
    field_simp
    ring
  have hl : sigmar2 5 (fun j => [Real.pi, 5, 6, 7, 8].getD j 0) (fun j => ([1, 0, 0, 0, 0] : List ℝ).getD j 0) 1 =
      1 / 2 / Real.pi ^ 2 * ((5 - Real.pi) * (3 / Real.pi) ^ 2 / 2) := by
    have e : (topHat Real.pi * Real.pi) ^ 2 = (3 / Real.pi) ^ 2 := by rw [ht]; field_simp
    simp [sigmar2, trapz, Finset.sum_range_succ, e]
  have hpos : 0 < 1 / 2 / Real.pi ^ 2 * ((5 - Real.pi) * (3 / Real.pi) ^ 2 / 2) := by
    have : 0 < 5 - Real.pi := by linarith
    positivity
  have h4 : ((List.replicate 5 ([1, 0, 0, 0, 0] : List ℝ)).map fun row => Real.sqrt (sigmar2 5 (fun j => [Real.pi, 5, 6, 7, 8].getD j 0)
      (fun j => row.getD j 0) 1)).getD 1 0 = Real.sqrt (1 / 2 / Real.pi ^ 2 * ((5 - Real.pi) * (3 / Real.pi) ^ 2 / 2)) := by
    rw [← hl]
    rfl
  rw [h4, Real.sq_sqrt hpos.le] at h3
  exact absurd (h3.trans hr) hpos.ne'

/-- For classes with one value per mode the variance in spheres is the one of C70. -/
example : dpBox.sigma8 (Terms.pkOfLin dpBox 1) = Real.sqrt (sigmar2 3 (dpBox.val "k") (Terms.pkOfLin dpBox 1) 8) := rfl

end

end Verif
