import Verif.Proofs.Search
import Verif.Proofs.GaussConv
import Verif.Proofs.PosRule

/-! The rule built from what the root search finds, compared with the exact rule. -/

open Polynomial

namespace Verif

/-- `rt` holds what the root searches for `n` nodes return (with whatever derivative is left from the search before, and any fuel that
lets the loop finish). -/
def Found (n : ℕ) (rt : ℕ → ℝ × ℝ) : Prop := ∀ i < (n + 1) / 2, ∃ fuel pp, root fuel n i pp = some (rt i)

theorem root_unique {n i f f' : ℕ} {pp pp' : ℝ} (h : (root f n i pp).isSome) (h' : (root f' n i pp').isSome) :
    root f n i pp = root f' n i pp' := by
  unfold root at *
  refine newton_fuel n ?_ h h'
  have := eps_pos
  set c : ℝ := Histo.cos (Histo.pi * (Histo.ofNat i + Histo.lit (3 / 4)) / (Histo.ofNat n + Histo.lit (1 / 2)))
  simp only [lit_real]
  push_cast
  rw [show c - (c + eps + 1) = -(eps + 1) by ring, abs_neg, abs_of_pos (by linarith)]
  linarith

theorem Found.near {n : ℕ} {rt : ℕ → ℝ × ℝ} (hf : Found n rt) {z : ℕ → ℝ} (h : LegRoots n z) {i : ℕ} (hi : 2 * i + 1 ≤ n) :
    Near n i (z i) (rt i) := by
  obtain ⟨r, h1, h2⟩ := h.search hi
  obtain ⟨fuel, pp, h3⟩ := hf i (by omega)
  have := root_unique (f := fuel) (f' := 6) (pp := pp) (pp' := 0) (by rw [h3]; rfl) (by rw [h1 6 0 le_rfl]; rfl)
  rw [h3, h1 6 0 le_rfl, Option.some.injEq] at this
  rw [this]
  exact h2

theorem LegRoots.exact {n : ℕ} {z : ℕ → ℝ} (h : LegRoots n z) : ExactRoots n fun i => (z i, (derivative (leg n)).eval (z i)) := by
  have hnode : ∀ i < n, nodeAt (fun i => (z i, (derivative (leg n)).eval (z i))) (-1) 1 n i = z (n - 1 - i) := by
    intro i hi
    unfold nodeAt
    simp only [lit_real]
    by_cases c : 2 * i + 1 < n
    · rw [if_pos c, h.mirror hi]; push_cast; ring
    · rw [if_neg c]; push_cast; ring
  refine ⟨fun i _ => rfl, fun i j hij hj => ?_, fun i hi => ?_, fun i hi => ?_⟩
  · rw [hnode i (by omega), hnode j hj]
    exact h.anti _ _ (by omega) (by omega)
  · rw [hnode i hi]
    exact ⟨h.gt _ (by omega), h.lt _ (by omega)⟩
  · rw [hnode i hi]
    exact h.zero _ (by omega)

/-- A weight from a root and a derivative that are slightly off. -/
theorem weight_near {c x p d δ : ℝ} (h0 : 0 ≤ c) (hx : c ≤ x) (h1 : x < 1) (hp : p ≠ 0) (hd : d ≠ 0) (qp : 0 ≤ p / d) (q0 : 0 ≤ 1 - p / d) (q1 : 1 - p / d ≤ δ)
    (ha : x / (1 - x ^ 2) * (x - c) ≤ δ) :
    |2 / ((1 - x * x) * d * d) - 2 / ((1 - c * c) * p * p)| ≤ 2 / ((1 - c * c) * p * p) * (2 * δ) := by
  have hx2 : 0 < 1 - x ^ 2 := by nlinarith
  have hc2 : 0 < 1 - c ^ 2 := by nlinarith
  have e : 2 / ((1 - x * x) * d * d) = 2 / ((1 - c * c) * p * p) * ((1 - c ^ 2) / (1 - x ^ 2) * (p / d) ^ 2) := by
    rw [show x * x = x ^ 2 by ring, show c * c = c ^ 2 by ring]
    field_simp
  have hw : 0 < 2 / ((1 - c * c) * p * p) := by
    have : 0 < p * p := mul_self_pos.2 hp
    rw [mul_assoc]
    exact div_pos two_pos (mul_pos (by linarith [sq c]) this)
  set W := 2 / ((1 - c * c) * p * p)
  set q := p / d
  set A := (1 - c ^ 2) / (1 - x ^ 2) with hA
  have hA1 : 1 ≤ A := by rw [hA, le_div_iff₀ hx2]; nlinarith
  have hA2 : A - 1 ≤ 2 * δ := by
    have e2 : A - 1 = (x + c) / (1 - x ^ 2) * (x - c) := by rw [hA]; field_simp; ring
    have e3 : (x + c) / (1 - x ^ 2) ≤ 2 * (x / (1 - x ^ 2)) := by
      rw [mul_div_assoc']
      exact div_le_div_of_nonneg_right (by linarith) hx2.le
    have := mul_le_mul_of_nonneg_right e3 (show 0 ≤ x - c by linarith)
    rw [e2]
    linarith
  have hδ : 0 ≤ δ := le_trans q0 q1
  have q2 : 1 - 2 * δ ≤ q ^ 2 := by nlinarith [sq_nonneg (q - 1)]
  have hk : |A * q ^ 2 - 1| ≤ 2 * δ := by
    rw [abs_le]
    have hq2 : 0 ≤ q ^ 2 := sq_nonneg q
    constructor
    · nlinarith
    · have : q ^ 2 ≤ 1 := by nlinarith
      nlinarith
  rw [e, show W * (A * q ^ 2) - W = W * (A * q ^ 2 - 1) by ring, abs_mul, abs_of_pos hw]
  exact mul_le_mul_of_nonneg_left hk hw.le

/-- The node and the weight of cell `i` of the rule from the index of its root. -/
theorem node_fold (rt : ℕ → ℝ × ℝ) (n i : ℕ) : nodeAt rt (-1) 1 n i =
    (if 2 * i + 1 < n then -1 else 1) * (rt (if 2 * i + 1 < n then i else n - 1 - i)).1 := by
  unfold nodeAt
  simp only [lit_real]
  split_ifs <;> push_cast <;> ring

theorem weight_fold (rt : ℕ → ℝ × ℝ) (n i : ℕ) : weightAt rt (-1) 1 n i =
    2 / ((1 - (rt (if 2 * i + 1 < n then i else n - 1 - i)).1 * (rt (if 2 * i + 1 < n then i else n - 1 - i)).1) *
      (rt (if 2 * i + 1 < n then i else n - 1 - i)).2 * (rt (if 2 * i + 1 < n then i else n - 1 - i)).2) := by
  unfold weightAt
  simp only [lit_real]
  push_cast
  norm_num

theorem fold_le {n i : ℕ} (hi : i < n) : 2 * (if 2 * i + 1 < n then i else n - 1 - i) + 1 ≤ n := by split_ifs <;> omega

theorem fold_min {n i : ℕ} : (if 2 * i + 1 < n then i else n - 1 - i) = min i (n - 1 - i) := by split_ifs <;> omega

theorem Near.lt_one {n i : ℕ} (hi : 2 * i + 1 ≤ n) {c : ℝ} {r : ℝ × ℝ} (h : Near n i c r) : r.1 < 1 := h.start.trans_lt (start_sin hi).1

theorem Near.bend {n i : ℕ} (hi : 2 * i + 1 ≤ n) {c : ℝ} (hc : 0 ≤ c) {r : ℝ × ℝ} (h : Near n i c r) : r.1 / (1 - r.1 ^ 2) ≤ bend n i := by
  refine le_trans ?_ (start_bend hi)
  have h1 := (start_sin hi).1
  have h2 := h.start
  have h3 := hc.trans h.ge
  exact div_le_div₀ (h3.trans h2) h2 (by nlinarith) (by nlinarith)

/-- Relative errors of the weight. -/
theorem Near.weight {n i : ℕ} (hi : 2 * i + 1 ≤ n) {c : ℝ} (hc : 0 ≤ c) (hne : (derivative (leg n)).eval c ≠ 0) {r : ℝ × ℝ} (h : Near n i c r) :
    |2 / ((1 - r.1 * r.1) * r.2 * r.2) - 2 / ((1 - c * c) * (derivative (leg n)).eval c * (derivative (leg n)).eval c)| ≤
      2 / ((1 - c * c) * (derivative (leg n)).eval c * (derivative (leg n)).eval c) * (1 / (8 * (i + 3 / 4) ^ 2)) ∧
    |2 / ((1 - r.1 * r.1) * r.2 * r.2) - 2 / ((1 - c * c) * (derivative (leg n)).eval c * (derivative (leg n)).eval c)| ≤
      2 / ((1 - c * c) * (derivative (leg n)).eval c * (derivative (leg n)).eval c) * (2 * (n + 1 / 2) ^ 2 * eps) := by
  have hb := h.bend hi hc
  have hp := bend_pos n i
  have he := eps_pos
  have h1 := h.lt_one hi
  have hx : 0 ≤ r.1 - c := by linarith [h.ge]
  have hN : (0 : ℝ) < (n + 1 / 2) ^ 2 := by positivity
  have hI : (9 / 16 : ℝ) ≤ (i + 3 / 4) ^ 2 := by nlinarith [(Nat.cast_nonneg i : (0 : ℝ) ≤ i)]
  have s2 : 1 / (16 * ((i : ℝ) + 3 / 4) ^ 2) ≤ 1 / 9 := by
    rw [div_le_div_iff₀ (by positivity) (by norm_num)]; linarith
  have qp : 0 ≤ (derivative (leg n)).eval c / r.2 := by linarith [h.slope'']
  have key : ∀ δ : ℝ, 1 - (derivative (leg n)).eval c / r.2 ≤ δ → Verif.bend n i * (r.1 - c) ≤ δ → _ := fun δ h2 h3 =>
    weight_near hc h.ge h1 hne h.nz qp h.slope h2 ((mul_le_mul_of_nonneg_right hb hx).trans h3)
  constructor
  · refine (key (1 / (16 * (i + 3 / 4) ^ 2)) h.slope'' ?_).trans (le_of_eq ?_)
    · refine (mul_le_mul_of_nonneg_left h.le' hp.le).trans ?_
      unfold Verif.bend
      rw [div_mul_div_comm, div_le_div_iff₀ (by positivity) (by positivity)]
      nlinarith [mul_pos hN (show (0 : ℝ) < (i + 3 / 4) ^ 2 by positivity)]
    · congr 1
      field_simp
      norm_num
  · have hbl := bend_le n i
    refine (key ((n + 1 / 2) ^ 2 * eps) (h.slope'.trans ?_) ?_).trans (le_of_eq (by ring))
    · have := mul_le_mul_of_nonneg_right hbl he.le
      nlinarith [mul_pos hN he]
    · refine (mul_le_mul_of_nonneg_left h.le hp.le).trans ?_
      have := mul_le_mul_of_nonneg_right hbl he.le
      nlinarith [mul_pos hN he]

/-- The errors of the rule found, cell by cell. -/
theorem Found.cell {n : ℕ} {rt : ℕ → ℝ × ℝ} (hf : Found n rt) {z : ℕ → ℝ} (h : LegRoots n z) {i : ℕ} (hi : i < n) :
    let ex := fun i => (z i, (derivative (leg n)).eval (z i))
    |nodeAt rt (-1) 1 n i - nodeAt ex (-1) 1 n i| ≤ eps / 17 ∧
    |nodeAt rt (-1) 1 n i - nodeAt ex (-1) 1 n i| ≤ 1 / (144 * (n + 1 / 2) ^ 2) ∧
    |weightAt rt (-1) 1 n i - weightAt ex (-1) 1 n i| ≤ weightAt ex (-1) 1 n i * (1 / (8 * ((min i (n - 1 - i) : ℕ) + 3 / 4) ^ 2)) ∧
    |weightAt rt (-1) 1 n i - weightAt ex (-1) 1 n i| ≤ weightAt ex (-1) 1 n i * (2 * (n + 1 / 2) ^ 2 * eps) := by
  intro ex
  have hj := fold_le hi
  simp only [node_fold, weight_fold]
  rw [← fold_min]
  set j := if 2 * i + 1 < n then i else n - 1 - i
  have near := hf.near h hj
  have hge := near.ge
  obtain ⟨w1, w2⟩ := near.weight hj (h.half hj).1 (h.slope (by omega))
  have : |(if 2 * i + 1 < n then (-1 : ℝ) else 1) * (rt j).1 - (if 2 * i + 1 < n then -1 else 1) * (ex j).1| = (rt j).1 - z j := by
    rw [← mul_sub, abs_mul, abs_of_nonneg (show 0 ≤ (rt j).1 - (ex j).1 by simp only [ex]; linarith)]
    split_ifs <;> simp [ex]
  rw [this]
  exact ⟨near.le, near.le', w1, w2⟩

/-- What the search finds is near enough. -/
theorem Found.nearRoots {n : ℕ} {rt : ℕ → ℝ × ℝ} (hf : Found n rt) : NearRoots n rt := by
  obtain ⟨z, h⟩ := legRoots_exist n
  have pos : ∀ i, 2 * i + 1 ≤ n → 0 ≤ (rt i).1 ∧ (2 * i + 1 < n → 0 < (rt i).1) := fun i hi => by
    obtain ⟨h0, h1⟩ := h.half hi
    have := (hf.near h hi).ge
    refine ⟨h0.trans this, fun c => lt_of_lt_of_le (lt_of_le_of_ne h0 fun e => ?_) this⟩
    have := h1 e.symm
    omega
  have lt : ∀ i j, i < j → 2 * j + 1 ≤ n → (rt j).1 < (rt i).1 := fun i j hij hj => by
    obtain ⟨m, rfl⟩ : ∃ m, j = m + 1 := ⟨j - 1, by omega⟩
    have h1 := (hf.near h hj).start
    have h2 := h.start_lt hj
    have h3 := (hf.near h (i := i) (by omega)).ge
    have h4 : z m ≤ z i := by
      rcases (by omega : i = m ∨ i < m) with c | c
      · rw [c]
      · exact (h.anti i m c (by omega)).le
    linarith
  refine ⟨fun i j hij hj => ?_, fun i hi => ?_, ⟨_, h.exact, fun i hi => ?_⟩⟩
  · rw [node_fold, node_fold]
    by_cases ci : 2 * i + 1 < n <;> by_cases cj : 2 * j + 1 < n
    · simp only [if_pos ci, if_pos cj]
      linarith [lt i j hij (by omega)]
    · simp only [if_pos ci, if_neg cj]
      linarith [(pos i (by omega)).2 ci, (pos (n - 1 - j) (by omega)).1]
    · omega
    · simp only [if_neg ci, if_neg cj]
      linarith [lt (n - 1 - j) (n - 1 - i) (by omega) (by omega)]
  · rw [node_fold]
    have hj := fold_le hi
    set j := if 2 * i + 1 < n then i else n - 1 - i
    have h1 := (hf.near h hj).lt_one hj
    have h2 := (pos j hj).1
    split_ifs <;> constructor <;> linarith
  · obtain ⟨-, c2, c3, -⟩ := hf.cell h hi
    exact ⟨c2, c3⟩

theorem found_exist (n : ℕ) : ∃ rt, Found n rt := by
  obtain ⟨z, h⟩ := legRoots_exist n
  have : ∀ i, ∃ r : ℝ × ℝ, i < (n + 1) / 2 → ∃ fuel pp, root fuel n i pp = some r := fun i => by
    by_cases c : 2 * i + 1 ≤ n
    · obtain ⟨r, hr, -⟩ := h.search c
      exact ⟨r, fun _ => ⟨6, 0, hr 6 0 le_rfl⟩⟩
    · exact ⟨0, fun _ => by omega⟩
  choose rt hrt using this
  exact ⟨rt, hrt⟩

end Verif
