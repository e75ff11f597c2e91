import Verif.Model.Common

/-!
# C01 – integer powers
-/

namespace Verif

theorem powerLoop_real (fuel : ℕ) : ∀ (result base : ℝ) (e : ℕ), e < fuel →
    powerLoop fuel result base e = result * base ^ e := by
  induction fuel with
  | zero => intro _ _ e h; omega
  | succ n ih =>
    intro result base e h
    unfold powerLoop
    by_cases he : e = 0
    · simp [he]
    · rw [if_neg he, ih _ _ _ (by omega)]
      have hd := Nat.div_add_mod e 2
      have hb : base ^ e = base ^ (e % 2) * (base * base) ^ (e / 2) := by
        conv_lhs => rw [← hd]
        rw [pow_add, pow_mul, pow_two, mul_comm]
      rw [hb]
      rcases Nat.mod_two_eq_zero_or_one e with h0 | h1
      · simp [h0]
      · simp [h1, mul_assoc]

/-- C01: `power(x,n)` is the n-th power. -/
theorem C01_power (x : ℝ) (n : ℕ) : power x n = x ^ n := by
  unfold power
  rw [powerLoop_real _ _ _ _ (Nat.lt_succ_self n)]
  simp

/-- C01: `powers` on a buffer of at least `n>=2` cells writes the powers into cells `0..n-1` and leaves the other cells
alone, whatever the buffer held before. -/
theorem C01_powers (x : ℝ) (tab : Buf ℝ) (n : ℕ) (hn : 2 ≤ n) (hlen : n ≤ tab.length) :
    ∃ tab', powers x tab n = .ok tab' ∧ tab'.length = tab.length ∧
      (∀ i < n, tab'[i]? = some (some (x ^ i))) ∧ (∀ i, n ≤ i → tab'[i]? = tab[i]?) := by
  have h1 : tab.wr 0 (Histo.lit 1) = .ok (tab.set 0 (some 1)) := by
    rw [Buf.wr_ok (by omega)]; simp
  have h2 : Buf.wr (tab.set 0 (some 1)) 1 x = .ok ((tab.set 0 (some 1)).set 1 (some x)) :=
    Buf.wr_ok (by simp; omega)
  obtain ⟨t', h3, h4, h5, h6⟩ := forRange_inv (lo := 2) (hi := n) (s := ((tab.set 0 (some 1)).set 1 (some x)))
    (body := fun i tab => do
      let t ← Buf.rd tab (i - 1)
      Buf.wr tab i (t * x))
    (fun j t => t.length = tab.length ∧ (∀ i < j, t[i]? = some (some (x ^ i))) ∧ (∀ i, j ≤ i → t[i]? = tab[i]?))
    hn
    (by
      refine ⟨by simp, ?_, ?_⟩
      · intro i hi
        have : i = 0 ∨ i = 1 := by omega
        rcases this with rfl | rfl
        · rw [List.getElem?_set_ne (by omega), List.getElem?_set_self (by omega)]; simp
        · rw [List.getElem?_set_self (by simp; omega)]; simp
      · intro i hi
        rw [List.getElem?_set_ne (by omega), List.getElem?_set_ne (by omega)])
    (by
      intro j t hj hjn ⟨hl, hlo, hhi⟩
      refine ⟨t.set j (some (x ^ (j - 1) * x)), ?_, ?_, ?_, ?_⟩
      · rw [Buf.rd_ok (hlo (j - 1) (by omega))]
        simp only [Res.ok_bind]
        exact Buf.wr_ok (by omega)
      · simpa using hl
      · intro i hi
        by_cases hij : i = j
        · subst hij
          rw [List.getElem?_set_self (by omega), ← pow_succ]
          congr 3; omega
        · rw [List.getElem?_set_ne (by omega)]; exact hlo i (by omega)
      · intro i hi
        rw [List.getElem?_set_ne (by omega)]; exact hhi i (by omega))
  refine ⟨t', ?_, h4, h5, h6⟩
  unfold powers
  rw [h1]; simp only [Res.ok_bind]
  rw [h2]; simp only [Res.ok_bind]
  exact h3

/-- C01: with fewer than two cells requested and allocated, `powers` writes out of bounds (any arithmetic). -/
theorem C01_powers_overflow {α : Type} [Add α] [Sub α] [Mul α] [Div α] [Neg α] [Histo α]
    (x : α) (tab : Buf α) (n : ℕ) (hlen : tab.length < 2) : (powers x tab n).isUB := by
  unfold powers
  rcases Nat.lt_or_ge 0 tab.length with h | h
  · rw [Buf.wr_ok h]
    simp only [Res.ok_bind]
    refine ⟨"out of bounds write", ?_⟩
    have : Buf.wr (tab.set 0 (some (Histo.lit 1 : α))) 1 x = .ub "out of bounds write" := by
      simp [Buf.wr]; omega
    rw [this]; rfl
  · refine ⟨"out of bounds write", ?_⟩
    have : Buf.wr tab 0 (Histo.lit 1 : α) = .ub "out of bounds write" := by
      simp [Buf.wr]; exact List.length_eq_zero_iff.mp (by omega)
    rw [this]; rfl

/-- Non-vacuity: the table of length 20 used by the propagator kernels. -/
example : ∃ tab', powers (3 : ℝ) (malloc ℝ 20) 20 = .ok tab' ∧ tab'[7]? = some (some (2187 : ℝ)) := by
  obtain ⟨t, h, _, h2, _⟩ := C01_powers (3 : ℝ) (malloc ℝ 20) 20 (by norm_num) (by simp [malloc])
  exact ⟨t, h, by rw [h2 7 (by norm_num)]; norm_num⟩

end Verif
