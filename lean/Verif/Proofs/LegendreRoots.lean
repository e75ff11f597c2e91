import Verif.Proofs.Legendre
import Mathlib.Topology.Order.IntermediateValue

/-! The Legendre polynomial of degree `n` has `n` distinct roots in `(-1,1)`. -/

open Polynomial

namespace Verif

theorem sign_prod (m i : ℕ) (hi : i ≤ m) (z : ℕ → ℝ) (y : ℝ) (h1 : ∀ j < i, y < z j) (h2 : ∀ j, i ≤ j → j < m → z j < y) :
    0 < (-1 : ℝ) ^ i * ∏ j ∈ Finset.range m, (y - z j) := by
  have e : (-1 : ℝ) ^ i = ∏ j ∈ Finset.range m, (if j < i then -1 else 1 : ℝ) := by
    rw [Finset.prod_ite, Finset.prod_const_one, mul_one, Finset.prod_const]
    congr 1
    have : Finset.filter (fun j => j < i) (Finset.range m) = Finset.range i := by
      ext j; simp; omega
    rw [this, Finset.card_range]
  rw [e, ← Finset.prod_mul_distrib]
  apply Finset.prod_pos
  intro j hj
  have hjm := Finset.mem_range.mp hj
  by_cases c : j < i
  · rw [if_pos c]; linarith [h1 j c]
  · rw [if_neg c]; linarith [h2 j (by omega) hjm]

theorem leg_factor (m : ℕ) (z : ℕ → ℝ) (hinj : Set.InjOn z (Finset.range m)) (hroot : ∀ i < m, (leg m).eval (z i) = 0) (y : ℝ) :
    (leg m).eval y = (leg m).coeff m * ∏ j ∈ Finset.range m, (y - z j) := by
  have hz : leg m - C ((leg m).coeff m) * Lagrange.nodal (Finset.range m) z = 0 := by
    refine Polynomial.eq_zero_of_degree_lt_of_eval_index_eq_zero (s := Finset.range m) (v := z) hinj ?_ ?_
    · rw [Finset.card_range, degree_lt_iff_coeff_zero]
      intro j hj
      rcases hj.eq_or_lt with rfl | hj
      · have hm : (Lagrange.nodal (Finset.range m) z).coeff m = 1 := by
          have h1 := Lagrange.nodal_monic (s := Finset.range m) (v := z)
          have h2 := Lagrange.natDegree_nodal (R := ℝ) (s := Finset.range m) (v := z)
          rw [Finset.card_range] at h2
          rw [Monic, leadingCoeff, h2] at h1
          exact h1
        rw [coeff_sub, coeff_C_mul, hm, mul_one, sub_self]
      · have e1 := coeff_eq_zero_of_natDegree_lt (lt_of_le_of_lt (leg_degree m).1 hj)
        have e2 : (Lagrange.nodal (Finset.range m) z).coeff j = 0 := by
          apply coeff_eq_zero_of_natDegree_lt
          rw [Lagrange.natDegree_nodal, Finset.card_range]; exact hj
        rw [coeff_sub, coeff_C_mul, e1, e2]; simp
    · intro i hi
      rw [eval_sub, eval_mul, eval_C, Lagrange.eval_nodal_at_node hi, hroot i (Finset.mem_range.mp hi)]; simp
  have := congrArg (eval y) (sub_eq_zero.mp hz)
  rw [this, eval_mul, eval_C, Lagrange.eval_nodal]

theorem leg_roots_aux (n : ℕ) : ∃ z : ℕ → ℝ, (∀ i j, i < j → j < n + 1 → z j < z i) ∧
    (∀ i < n + 1, -1 < z i ∧ z i < 1 ∧ (leg (n + 1)).eval (z i) = 0 ∧ 0 < (-1 : ℝ) ^ i * (leg n).eval (z i)) := by
  induction n with
  | zero =>
    refine ⟨fun _ => 0, by omega, ?_⟩
    intro i hi
    have : i = 0 := by omega
    subst this
    simp [leg]
  | succ n ih =>
    obtain ⟨z, hz, hr⟩ := ih
    set e : ℕ → ℝ := fun i => if i = 0 then 1 else if i = n + 2 then -1 else z (i - 1) with he
    have he0 : e 0 = 1 := by simp [he]
    have hee : e (n + 2) = -1 := by simp [he]
    have hes : ∀ i < n + 1, e (i + 1) = z i := by
      intro i hi
      simp only [he]
      rw [if_neg (by omega), if_neg (by omega), Nat.add_sub_cancel]
    have hanti : ∀ i < n + 2, e (i + 1) < e i := by
      intro i hi
      rcases Nat.eq_zero_or_pos i with rfl | hpos
      · rw [he0, hes 0 (by omega)]; exact (hr 0 (by omega)).2.1
      · obtain ⟨i, rfl⟩ : ∃ j, i = j + 1 := ⟨i - 1, by omega⟩
        rw [hes i (by omega)]
        by_cases c : i + 1 = n + 1
        · rw [c, hee]; exact (hr i (by omega)).1
        · rw [hes (i + 1) (by omega)]; exact hz _ _ (by omega) (by omega)
    have hantile : ∀ j i, i ≤ j → j ≤ n + 2 → e j ≤ e i := by
      intro j
      induction j with
      | zero => intro i h1 _; have : i = 0 := by omega
                subst this; exact le_rfl
      | succ j ihj =>
        intro i h1 h2
        rcases h1.eq_or_lt with rfl | h1
        · exact le_rfl
        · exact (hanti j (by omega)).le.trans (ihj i (by omega) (by omega))
    have hsign : ∀ i ≤ n + 2, 0 < (-1 : ℝ) ^ i * (leg (n + 2)).eval (e i) := by
      intro i hi
      rcases Nat.eq_zero_or_pos i with rfl | hpos
      · rw [he0, (leg_one _).1]; norm_num
      · obtain ⟨i, rfl⟩ : ∃ j, i = j + 1 := ⟨i - 1, by omega⟩
        by_cases c : i + 1 = n + 2
        · rw [c, hee, (leg_one _).2, ← mul_pow]; norm_num
        · rw [hes i (by omega)]
          obtain ⟨_, _, h3, h4⟩ := hr i (by omega)
          have h5 := congrArg (eval (z i)) (leg_rec n)
          simp only [eval_mul, eval_sub, eval_C, h3, mul_zero, zero_sub] at h5
          have h6 : (leg (n + 2)).eval (z i) = - (((n : ℝ) + 1) / (n + 2)) * (leg n).eval (z i) := by
            field_simp
            linarith
          rw [h6, pow_succ]
          have : (-1 : ℝ) ^ i * -1 * (-(((n : ℝ) + 1) / (n + 2)) * (leg n).eval (z i)) =
            (((n : ℝ) + 1) / (n + 2)) * ((-1) ^ i * (leg n).eval (z i)) := by ring
          rw [this]; positivity
    have hex : ∀ i, ∃ y, i < n + 2 → e (i + 1) < y ∧ y < e i ∧ (leg (n + 2)).eval y = 0 := by
      intro i
      by_cases hi : i < n + 2
      · have s1 := hsign i (by omega)
        have s2 := hsign (i + 1) (by omega)
        have hlt := hanti i hi
        have hcont : ContinuousOn (fun x => (-1 : ℝ) ^ i * (leg (n + 2)).eval x) (Set.Icc (e (i + 1)) (e i)) :=
          (continuous_const.mul (leg (n + 2)).continuous).continuousOn
        have hmem : (0 : ℝ) ∈ Set.Ioo ((-1 : ℝ) ^ i * (leg (n + 2)).eval (e (i + 1))) ((-1 : ℝ) ^ i * (leg (n + 2)).eval (e i)) := by
          refine ⟨?_, s1⟩
          rw [pow_succ] at s2; linarith
        obtain ⟨y, hy, hy0⟩ := intermediate_value_Ioo hlt.le hcont hmem
        refine ⟨y, fun _ => ⟨hy.1, hy.2, ?_⟩⟩
        have : (-1 : ℝ) ^ i ≠ 0 := pow_ne_zero _ (by norm_num)
        exact (mul_eq_zero.mp hy0).resolve_left this
      · exact ⟨0, fun h => absurd h hi⟩
    choose y hy using hex
    refine ⟨y, ?_, ?_⟩
    · intro i j hij hj
      have h1 := (hy i (by omega)).1
      have h2 := (hy j (by omega)).2.1
      have h3 := hantile j (i + 1) (by omega) (by omega)
      linarith
    · intro i hi
      obtain ⟨h1, h2, h3⟩ := hy i hi
      have g1 := hantile (n + 2) (i + 1) (by omega) (by omega)
      have g2 := hantile i 0 (by omega) (by omega)
      rw [hee] at g1; rw [he0] at g2
      refine ⟨by linarith, by linarith, h3, ?_⟩
      have hinj : Set.InjOn z (Finset.range (n + 1)) := by
        intro a ha b hb hab
        simp only [Finset.coe_range, Set.mem_Iio] at ha hb
        by_contra hne
        rcases Nat.lt_or_gt_of_ne hne with h | h
        · exact absurd hab (hz _ _ h hb).ne'
        · exact absurd hab (hz _ _ h ha).ne
      rw [leg_factor (n + 1) z hinj (fun j hj => (hr j hj).2.2.1)]
      have hs := sign_prod (n + 1) i (by omega) z (y i) ?_ ?_
      · have hc := (leg_degree (n + 1)).2
        have : (-1 : ℝ) ^ i * ((leg (n + 1)).coeff (n + 1) * ∏ j ∈ Finset.range (n + 1), (y i - z j)) =
          (leg (n + 1)).coeff (n + 1) * ((-1) ^ i * ∏ j ∈ Finset.range (n + 1), (y i - z j)) := by ring
        rw [this]; positivity
      · intro j hj
        rw [← hes j (by omega)]
        exact h2.trans_le (hantile i (j + 1) (by omega) (by omega))
      · intro j hj hj'
        rw [← hes j hj']
        exact (hantile (j + 1) (i + 1) (by omega) (by omega)).trans_lt h1

/-- `n` distinct decreasing roots in `(-1,1)`. -/
theorem leg_roots (n : ℕ) : ∃ z : ℕ → ℝ, (∀ i j, i < j → j < n → z j < z i) ∧
    (∀ i < n, -1 < z i ∧ z i < 1 ∧ (leg n).eval (z i) = 0) := by
  cases n with
  | zero => exact ⟨fun _ => 0, by omega, by omega⟩
  | succ n =>
    obtain ⟨z, h1, h2⟩ := leg_roots_aux n
    exact ⟨z, h1, fun i hi => ⟨(h2 i hi).1, (h2 i hi).2.1, (h2 i hi).2.2.1⟩⟩

theorem leg_neg (n : ℕ) (x : ℝ) : (leg n).eval (-x) = (-1) ^ n * (leg n).eval x := by
  induction n using Nat.strong_induction_on with
  | _ n ih =>
    match n with
    | 0 => simp [leg]
    | 1 => simp [leg]
    | n + 2 =>
      have a := ih n (by omega)
      have b := ih (n + 1) (by omega)
      simp only [leg, eval_mul, eval_sub, eval_C, eval_X, a, b]
      ring

theorem leg_roots_mirror (n : ℕ) (z : ℕ → ℝ) (hz : ∀ i j, i < j → j < n → z j < z i) (hr : ∀ i < n, (leg n).eval (z i) = 0)
    (i : ℕ) (hi : i < n) : z (n - 1 - i) = - z i := by
  have hinj : Set.InjOn z (Finset.range n) := by
    intro a ha b hb hab
    simp only [Finset.coe_range, Set.mem_Iio] at ha hb
    by_contra hne
    rcases Nat.lt_or_gt_of_ne hne with h | h
    · exact absurd hab (hz _ _ h hb).ne'
    · exact absurd hab (hz _ _ h ha).ne
  have hall : ∀ y, (leg n).eval y = 0 → ∃ j < n, y = z j := by
    intro y hy
    rw [leg_factor n z hinj hr] at hy
    rcases mul_eq_zero.mp hy with h | h
    · exact absurd h (leg_degree n).2.ne'
    · obtain ⟨j, hj, hj0⟩ := Finset.prod_eq_zero_iff.mp h
      exact ⟨j, Finset.mem_range.mp hj, sub_eq_zero.mp hj0⟩
  have hneg : ∀ j < n, ∃ l < n, - z j = z l := by
    intro j hj
    exact hall _ (by rw [leg_neg, hr j hj, mul_zero])
  set f : Fin n → ℝ := fun i => - z i
  set g : Fin n → ℝ := fun i => z (n - 1 - i)
  have hf : StrictMono f := by
    intro a b hab
    have := hz a b hab b.2
    simp only [f]; linarith
  have hg : StrictMono g := by
    intro a b hab
    have hab' : (a : ℕ) < b := hab
    have := b.2
    exact hz _ _ (by omega) (by omega)
  have hfg : f = g := by
    rw [← hf.range_inj hg]
    ext y
    constructor
    · rintro ⟨a, rfl⟩
      obtain ⟨l, hl, e⟩ := hneg a a.2
      refine ⟨⟨n - 1 - l, by omega⟩, ?_⟩
      have : n - 1 - (n - 1 - l) = l := by omega
      simp only [g, f, this, e]
    · rintro ⟨a, rfl⟩
      obtain ⟨l, hl, e⟩ := hneg (n - 1 - a) (by omega)
      refine ⟨⟨l, hl⟩, ?_⟩
      simp only [g, f]; linarith
  exact (congrFun hfg ⟨i, hi⟩).symm

end Verif
