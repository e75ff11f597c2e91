import Verif.Props.Rounding
import Verif.Props.FindPk

/-!
# C97 – the linear lookup keeps signs and tabulated values under rounding
-/

namespace Verif

/-- A rounding that preserves the order, leaves representable numbers unchanged and whose representable numbers are symmetric. -/
structure OrderRounds (r : ℝ → ℝ) : Prop where
  mono : Monotone r
  idem : ∀ x, r (r x) = r x
  neg : ∀ x, r x = x → r (-x) = -x
  zero : r 0 = 0
  one : r 1 = 1

variable {r : ℝ → ℝ}

/-- C97, `interpol_lin` under rounding, for a representable lower value and an argument within the interval: the result is
non-negative if both values are, is exactly the lower value at the lower end and never crosses the lower value. -/
theorem C97_interpol_lin (h : OrderRounds r) (x k0 k1 p0 p1 : Fl r) (hx0 : k0.val ≤ x.val) (hx1 : x.val ≤ k1.val) (hd : 0 < (k1 - k0).val)
    (h0 : r p0.val = p0.val) :
    (0 ≤ p0.val → 0 ≤ p1.val → 0 ≤ (interpolLin x k0 k1 p0 p1).val) ∧ (x.val = k0.val → (interpolLin x k0 k1 p0 p1).val = p0.val) ∧
      (p0.val ≤ p1.val → p0.val ≤ (interpolLin x k0 k1 p0 p1).val) ∧ (p1.val ≤ p0.val → (interpolLin x k0 k1 p0 p1).val ≤ p0.val) := by
  simp only [interpolLin, Fl.add_val, Fl.sub_val, Fl.mul_val, Fl.div_val] at hd ⊢
  have a0 : 0 ≤ r (x.val - k0.val) := by rw [← h.zero]; exact h.mono (by linarith)
  have a1 : r (x.val - k0.val) ≤ r (k1.val - k0.val) := h.mono (by linarith)
  set T := r (r (x.val - k0.val) / r (k1.val - k0.val)) with hT
  have t0 : 0 ≤ T := by rw [hT, ← h.zero]; exact h.mono (by positivity)
  have t1 : T ≤ 1 := by
    have := h.mono ((div_le_one hd).2 a1)
    rwa [h.one] at this
  set d := r (p1.val - p0.val) with hdd
  have up : p0.val ≤ p1.val → p0.val ≤ r (r (T * d) + p0.val) := fun c => by
    have d0 : 0 ≤ d := by rw [hdd, ← h.zero]; exact h.mono (by linarith)
    have m0 : 0 ≤ r (T * d) := by rw [← h.zero]; exact h.mono (by positivity)
    calc p0.val = r p0.val := h0.symm
      _ ≤ _ := h.mono (by linarith)
  refine ⟨fun c0 c1 => ?_, fun c => ?_, up, fun c => ?_⟩
  · rcases le_total p0.val p1.val with c | c
    · exact c0.trans (up c)
    · have d0 : d ≤ 0 := by rw [hdd, ← h.zero]; exact h.mono (by linarith)
      have d1 : -p0.val ≤ d := by rw [hdd, ← h.neg _ h0]; exact h.mono (by linarith)
      have m1 : d ≤ r (T * d) := by
        have : r d ≤ r (T * d) := h.mono (by nlinarith)
        rwa [hdd, h.idem] at this
      rw [← h.zero]
      exact h.mono (by linarith)
  · rw [hT, c, sub_self, h.zero, zero_div, h.zero, zero_mul, h.zero, zero_add, h0]
  · have d0 : d ≤ 0 := by rw [hdd, ← h.zero]; exact h.mono (by linarith)
    have m0 : r (T * d) ≤ 0 := by rw [← h.zero]; exact h.mono (mul_nonpos_of_nonneg_of_nonpos t0 d0)
    calc _ ≤ r p0.val := h.mono (by linarith)
      _ = _ := h0

/-! ## Lookup -/

/-- Comparisons are exact, so that the bisection does not see the rounding. -/
theorem dichAux_vals (x : Fl r) (tab : List (Fl r)) : ∀ fuel mn mx : ℕ, dichAux x tab fuel mn mx = dichAux x.val (tab.map Fl.val) fuel mn mx
  | 0, _, _ => rfl
  | fuel + 1, mn, mx => by
      unfold dichAux
      split
      · rfl
      · dsimp only
        by_cases hi : (mn + mx) / 2 < tab.length
        · rw [rd_ok hi, rd_ok (by simpa using hi)]
          simp only [Res.ok_bind, List.getElem_map]
          rw [dichAux_vals x tab fuel mn, dichAux_vals x tab fuel _ mx]
          rfl
        · rw [rd_ub (by omega), rd_ub (by simpa using hi)]
          rfl

/-- What the lookup returns for a mode inside the table. -/
def LookOK (t : Pk (Fl r)) (k v : Fl r) : Prop :=
  ∃ i, i + 1 < t.nk ∧ (t.k.getD i ⟨0⟩).val ≤ k.val ∧ k.val < (t.k.getD (i + 1) ⟨0⟩).val ∧
    ((∀ p ∈ t.pk, 0 ≤ p.val) → 0 ≤ v.val) ∧ (k.val = (t.k.getD i ⟨0⟩).val → v.val = (t.pk.getD i ⟨0⟩).val) ∧
    ((t.pk.getD i ⟨0⟩).val ≤ (t.pk.getD (i + 1) ⟨0⟩).val → (t.pk.getD i ⟨0⟩).val ≤ v.val) ∧
    ((t.pk.getD (i + 1) ⟨0⟩).val ≤ (t.pk.getD i ⟨0⟩).val → v.val ≤ (t.pk.getD i ⟨0⟩).val)

/-- C97, `find_pk` with linear interpolation under rounding: for ascending requests inside the table every value is defined,
non-negative for a non-negative table, exactly the tabulated value at a tabulated mode, and on the right side of the value
tabulated below. -/
theorem C97_find_pk (h : OrderRounds r) (t : Pk (Fl r)) (ht : t.vals.Increasing) (hr : ∀ p ∈ t.pk, r p.val = p.val)
    (hd : ∀ i, i + 1 < t.nk → 0 < (t.k.getD (i + 1) ⟨0⟩ - t.k.getD i ⟨0⟩).val) (ks : List (Fl r))
    (h0 : ∀ k ∈ ks, (t.k.getD 0 ⟨0⟩).val ≤ k.val) (h1 : ∀ k ∈ ks, k.val < (t.k.getD (t.nk - 1) ⟨0⟩).val)
    (hs : ks.Pairwise fun a b => a.val ≤ b.val) (h2 : 1 ≤ t.nk) :
    ∃ vs, findPk t ks .lin = .ok vs ∧ List.Forall₂ (LookOK t) ks vs := by
  have hk : t.k.length = t.nk := by simpa [Pk.vals] using ht.hk
  have hp : t.pk.length = t.nk := by simpa [Pk.vals] using ht.hpk
  have hz : t.nk < 2 ^ 64 := by
    have : t.nk < _ := ht.hsize
    omega
  have hz' : sizeMod = 2 ^ 64 := rfl
  have cell : ∀ i (hi : i < t.nk), t.k.getD i ⟨0⟩ = t.k[i]'(by omega) := fun i hi => by simp [hk, hi]
  have pcell : ∀ i (hi : i < t.nk), t.pk.getD i ⟨0⟩ = t.pk[i]'(by omega) := fun i hi => by simp [hp, hi]
  have main : ∀ (l : List (Fl r)) (start : ℕ), start < t.nk → (∀ k ∈ l, (t.k.getD start ⟨0⟩).val ≤ k.val) →
      (∀ k ∈ l, (t.k.getD 0 ⟨0⟩).val ≤ k.val) → (∀ k ∈ l, k.val < (t.k.getD (t.nk - 1) ⟨0⟩).val) → l.Pairwise (fun a b => a.val ≤ b.val) →
      ∃ vs, findPkLoop t .lin (t.k.getD 0 ⟨0⟩) (t.k.getD (t.nk - 1) ⟨0⟩) start l = .ok vs ∧ List.Forall₂ (LookOK t) l vs := by
    intro l
    induction l with
    | nil => intro start _ _ _ _ _; exact ⟨[], rfl, List.Forall₂.nil⟩
    | cons k l ih =>
      intro start hst hlow hl0 hl1 hasc
      obtain ⟨i, e1, e2, hi, e3, e4⟩ := C02_dichotomy_brackets k.val (t.k.map Fl.val) ht.incr start (t.nk - 1 + 1) (by omega)
        (by simp [hk]; omega) (by omega) (by
          have := hlow k (by simp)
          rw [cell start hst] at this
          simpa using this)
      have hi' : i < t.nk := by omega
      have hkl := hl1 k (by simp)
      have hi1 : i + 1 < t.nk := by
        by_contra hc
        obtain rfl : i = t.nk - 1 := by omega
        rw [cell _ hi'] at hkl
        simp only [List.getElem_map] at e3
        linarith
      have b0 : (t.k.getD i ⟨0⟩).val ≤ k.val := by rw [cell i hi']; simpa using e3
      have b1 : k.val < (t.k.getD (i + 1) ⟨0⟩).val := by rw [cell _ hi1]; simpa using e4 (by omega)
      have e1' : dichotomy k t.k start (t.nk - 1 + 1) = .ok i := by rw [dichotomy, dichAux_vals]; exact e1
      obtain ⟨vs, f1, f2⟩ := ih i hi' (fun k' hk' => b0.trans (List.rel_of_pairwise_cons hasc hk')) (fun k' hk' => hl0 k' (by simp [hk']))
        (fun k' hk' => hl1 k' (by simp [hk'])) hasc.of_cons
      have one : findPkOne t .lin (t.k.getD 0 ⟨0⟩) (t.k.getD (t.nk - 1) ⟨0⟩) start k =
          .ok (i, interpolLin k (t.k.getD i ⟨0⟩) (t.k.getD (i + 1) ⟨0⟩) (t.pk.getD i ⟨0⟩) (t.pk.getD (i + 1) ⟨0⟩)) := by
        unfold findPkOne
        dsimp only
        rw [subSize_eq h2 (by omega), if_neg (by rw [Fl.lt_iff]; linarith), if_neg (by rw [Fl.lt_iff]; linarith [hl0 k (by simp)]), e1']
        simp only [Res.ok_bind]
        rw [rd_ok (a := t.k) (i := i) (by omega), rd_ok (a := t.k) (i := i + 1) (by omega), rd_ok (a := t.pk) (i := i) (by omega),
          rd_ok (a := t.pk) (i := i + 1) (by omega), cell i hi', cell _ hi1, pcell i hi', pcell _ hi1]
        rfl
      refine ⟨interpolLin k (t.k.getD i ⟨0⟩) (t.k.getD (i + 1) ⟨0⟩) (t.pk.getD i ⟨0⟩) (t.pk.getD (i + 1) ⟨0⟩) :: vs, ?_, List.Forall₂.cons ?_ f2⟩
      · unfold findPkLoop
        rw [one]
        simp only [Res.ok_bind]
        rw [f1]
        rfl
      · obtain ⟨g1, g2, g3, g4⟩ := C97_interpol_lin h k (t.k.getD i ⟨0⟩) (t.k.getD (i + 1) ⟨0⟩) (t.pk.getD i ⟨0⟩) (t.pk.getD (i + 1) ⟨0⟩) b0 b1.le
          (hd i hi1) (hr _ (by rw [pcell i hi']; exact List.getElem_mem _))
        exact ⟨i, hi1, b0, b1, fun hn => g1 (hn _ (by rw [pcell i hi']; exact List.getElem_mem _))
          (hn _ (by rw [pcell _ hi1]; exact List.getElem_mem _)), g2, g3, g4⟩
  unfold findPk
  rw [subSize_eq h2 (by omega), rd_ok (a := t.k) (i := 0) (by omega), rd_ok (a := t.k) (i := t.nk - 1) (by omega)]
  simp only [Res.ok_bind]
  rw [← cell 0 (by omega), ← cell (t.nk - 1) (by omega)]
  exact main ks 0 (by omega) h0 h0 h1 hs

/-! ## Double precision -/

/-- Numbers with a mantissa of 53 bits are not rounded. -/
theorem dbl_exact (m e : ℤ) (hm : |m| ≤ 2 ^ 53) : dbl (m * 2 ^ e) = m * 2 ^ e := by
  unfold dbl
  split
  · rename_i c; exact c.symm
  · rename_i c
    set L := Int.log 2 |(m : ℝ) * 2 ^ e| with hL
    have two : ∀ n : ℤ, (0 : ℝ) < 2 ^ n := fun n => by positivity
    have lo := Int.zpow_log_le_self (R := ℝ) (b := 2) (by norm_num) (abs_pos.2 c)
    rw [← hL, abs_mul, abs_of_pos (two e)] at lo
    push_cast at lo
    have hm' : |(m : ℝ)| ≤ 2 ^ 53 := by exact_mod_cast hm
    have le1 : L ≤ e + 53 := by
      have : (2 : ℝ) ^ L ≤ 2 ^ (e + 53) := by
        calc (2 : ℝ) ^ L ≤ |(m : ℝ)| * 2 ^ e := lo
          _ ≤ 2 ^ 53 * 2 ^ e := by gcongr
          _ = _ := by rw [← zpow_natCast, ← zpow_add₀ (by norm_num)]; congr 1; push_cast; ring
      exact (zpow_le_zpow_iff_right₀ (by norm_num)).1 this
    have key : ∃ n : ℤ, (m : ℝ) * 2 ^ e = n * 2 ^ (L - 52) := by
      rcases le1.lt_or_eq with c1 | c1
      · obtain ⟨j, hj⟩ := Int.eq_ofNat_of_zero_le (show 0 ≤ e - (L - 52) by omega)
        refine ⟨m * 2 ^ j, ?_⟩
        push_cast
        rw [mul_assoc, ← zpow_natCast, ← zpow_add₀ (by norm_num)]
        congr 2
        omega
      · have hm2 : |(m : ℝ)| = 2 ^ 53 := by
          refine le_antisymm hm' ?_
          rw [c1, zpow_add₀ (by norm_num), mul_comm] at lo
          have := le_of_mul_le_mul_right lo (two e)
          exact_mod_cast this
        have hm3 : |m| = 2 ^ 53 := by exact_mod_cast hm2
        rcases abs_choice m with c2 | c2
        · refine ⟨2 ^ 52, ?_⟩
          rw [← c2, hm3]
          rw [show L - 52 = e + 1 by omega, zpow_add₀ (by norm_num)]
          norm_num
          ring
        · refine ⟨-2 ^ 52, ?_⟩
          rw [show m = -2 ^ 53 by omega]
          rw [show L - 52 = e + 1 by omega, zpow_add₀ (by norm_num)]
          norm_num
          ring
    obtain ⟨n, hn⟩ := key
    rw [hn, mul_div_assoc, div_self (two _).ne', mul_one, round_intCast, mul_comm]

/-- A rounded number has a mantissa of 53 bits. -/
theorem dbl_form (x : ℝ) : ∃ m e : ℤ, |m| ≤ 2 ^ 53 ∧ dbl x = m * 2 ^ e := by
  unfold dbl
  split
  · exact ⟨0, 0, by norm_num, by simp⟩
  · rename_i c
    have hx := abs_pos.2 c
    set L := Int.log 2 |x| with hL
    have two : ∀ n : ℤ, (0 : ℝ) < 2 ^ n := fun n => by positivity
    have hi := Int.lt_zpow_succ_log_self (R := ℝ) (b := 2) (by norm_num) |x|
    rw [← hL] at hi
    push_cast at hi
    refine ⟨round (x / 2 ^ (L - 52)), L - 52, ?_, mul_comm _ _⟩
    have hb : |x / 2 ^ (L - 52)| ≤ ((2 ^ 53 : ℤ) : ℝ) := by
      rw [abs_div, abs_of_pos (two _), div_le_iff₀ (two _), show ((2 ^ 53 : ℤ) : ℝ) = (2 : ℝ) ^ 53 by norm_num, ← zpow_natCast,
        ← zpow_add₀ (by norm_num), show ((53 : ℕ) : ℤ) + (L - 52) = L + 1 by push_cast; ring]
      exact hi.le
    obtain ⟨b1, b2⟩ := abs_le.1 hb
    have c1 := round_le_round b1
    have c2 := round_le_round b2
    rw [round_intCast] at c2
    rw [← Int.cast_neg, round_intCast] at c1
    exact abs_le.2 ⟨c1, c2⟩

theorem dbl_sign {x : ℝ} : (0 ≤ x → 0 ≤ dbl x) ∧ (x ≤ 0 → dbl x ≤ 0) := by
  have := abs_le.1 (dbl_rounds.err x)
  constructor <;> intro c
  · rw [abs_of_nonneg c] at this; norm_num at this; linarith [this.1]
  · rw [abs_of_nonpos c] at this; norm_num at this; linarith [this.2]

theorem dbl_mono_neg {x y : ℝ} (hy : y < 0) (hxy : x ≤ y) : dbl x ≤ dbl y := by
  have hx : x < 0 := by linarith
  unfold dbl
  rw [if_neg hx.ne, if_neg hy.ne, abs_of_neg hx, abs_of_neg hy]
  have hl : Int.log 2 (-y) ≤ Int.log 2 (-x) := Int.log_mono_right (by linarith) (by linarith)
  have l0 := Int.lt_zpow_succ_log_self (R := ℝ) (b := 2) (by norm_num) (-y)
  have l1 := Int.zpow_log_le_self (R := ℝ) (b := 2) (by norm_num) (by linarith : 0 < -x)
  rcases hl.eq_or_lt with c | c
  · rw [c]
    refine mul_le_mul_of_nonneg_left ?_ (by positivity)
    exact_mod_cast round_le_round (by gcongr)
  · generalize Int.log 2 (-y) = a at c l0 ⊢
    generalize Int.log 2 (-x) = b at c l1 ⊢
    have two : ∀ n : ℤ, (0 : ℝ) < 2 ^ n := fun n => by positivity
    push_cast at l0 l1
    have u1 : -(2 : ℝ) ^ 53 ≤ round (y / 2 ^ (a - 52)) := by
      have : ((-2 ^ 53 : ℤ) : ℝ) ≤ y / 2 ^ (a - 52) := by
        rw [le_div_iff₀ (two _), show ((-2 ^ 53 : ℤ) : ℝ) = -(2 : ℝ) ^ 53 by norm_num, neg_mul, ← zpow_natCast, ← zpow_add₀ (by norm_num),
          show ((53 : ℕ) : ℤ) + (a - 52) = a + 1 by push_cast; ring]
        linarith
      have := round_le_round this
      rw [round_intCast] at this
      exact_mod_cast this
    have u2 : (round (x / 2 ^ (b - 52)) : ℝ) ≤ -2 ^ 52 := by
      have : x / 2 ^ (b - 52) ≤ ((-2 ^ 52 : ℤ) : ℝ) := by
        rw [div_le_iff₀ (two _), show ((-2 ^ 52 : ℤ) : ℝ) = -(2 : ℝ) ^ 52 by norm_num, neg_mul, ← zpow_natCast, ← zpow_add₀ (by norm_num),
          show ((52 : ℕ) : ℤ) + (b - 52) = b by push_cast; ring]
        linarith
      have := round_le_round this
      rw [round_intCast] at this
      exact_mod_cast this
    calc (2 : ℝ) ^ (b - 52) * round (x / 2 ^ (b - 52)) ≤ 2 ^ (b - 52) * -2 ^ 52 := by gcongr
      _ = -2 ^ b := by rw [mul_neg, ← zpow_natCast, ← zpow_add₀ (by norm_num)]; congr 2; push_cast; ring
      _ ≤ -2 ^ (a + 1) := neg_le_neg (zpow_le_zpow_right₀ (by norm_num) (by omega))
      _ = 2 ^ (a - 52) * -2 ^ 53 := by rw [mul_neg, ← zpow_natCast, ← zpow_add₀ (by norm_num)]; congr 2; push_cast; ring
      _ ≤ _ := by gcongr

/-- C97: double precision is such a rounding. -/
theorem C97_double : OrderRounds dbl where
  mono x y h := by
    rcases lt_or_ge 0 x with c | c
    · exact dbl_mono c h
    · rcases lt_or_ge y 0 with c' | c'
      · exact dbl_mono_neg c' h
      · exact (dbl_sign.2 c).trans (dbl_sign.1 c')
  idem x := by
    obtain ⟨m, e, hm, hx⟩ := dbl_form x
    rw [hx, dbl_exact m e hm]
  neg x hx := by
    obtain ⟨m, e, hm, he⟩ := dbl_form x
    have : -x = ((-m : ℤ) : ℝ) * 2 ^ e := by rw [← hx, he]; push_cast; ring
    rw [this]
    exact dbl_exact _ _ (by rwa [abs_neg])
  zero := by simp [dbl]
  one := by simpa using dbl_exact 1 0 (by norm_num)

/-- C97 in double precision: neighbouring modes differ after rounding as well, no further condition on the modes is needed. -/
theorem C97_find_pk_double (t : Pk (Fl dbl)) (ht : t.vals.Increasing) (hr : ∀ p ∈ t.pk, dbl p.val = p.val) (ks : List (Fl dbl))
    (h0 : ∀ k ∈ ks, (t.k.getD 0 ⟨0⟩).val ≤ k.val) (h1 : ∀ k ∈ ks, k.val < (t.k.getD (t.nk - 1) ⟨0⟩).val)
    (hs : ks.Pairwise fun a b => a.val ≤ b.val) (h2 : 1 ≤ t.nk) :
    ∃ vs, findPk t ks .lin = .ok vs ∧ List.Forall₂ (LookOK t) ks vs := by
  refine C97_find_pk C97_double t ht hr (fun i hi => ?_) ks h0 h1 hs h2
  have hk : t.k.length = t.nk := by simpa [Pk.vals] using ht.hk
  have lt : (t.k.getD i ⟨0⟩).val < (t.k.getD (i + 1) ⟨0⟩).val := by
    have := List.pairwise_iff_getElem.1 ht.incr i (i + 1) (by simp [Pk.vals]; omega) (by simp [Pk.vals]; omega) (by omega)
    simp only [Pk.vals, List.getElem_map] at this
    simpa [List.getD_eq_getElem?_getD, hk, hi, (by omega : i < t.nk)] using this
  rw [Fl.sub_val]
  have pos : 0 < (t.k.getD (i + 1) ⟨0⟩).val - (t.k.getD i ⟨0⟩).val := by linarith
  generalize (t.k.getD (i + 1) ⟨0⟩).val - (t.k.getD i ⟨0⟩).val = d at pos ⊢
  have := abs_le.1 (dbl_rounds.err d)
  rw [abs_of_pos pos] at this
  norm_num at this
  linarith [this.1]

/-! ## Concrete cases -/

theorem dbl_int (m : ℤ) (hm : |m| ≤ 2 ^ 53) : dbl m = m := by simpa using dbl_exact m 0 hm

/-- Requests at a tabulated mode and between modes. -/
example : ∃ vs, findPk flTable [⟨1⟩, ⟨3 / 2⟩, ⟨2⟩, ⟨3⟩] .lin = .ok vs ∧ List.Forall₂ (LookOK flTable) [⟨1⟩, ⟨3 / 2⟩, ⟨2⟩, ⟨3⟩] vs := by
  have i1 := dbl_int 1 (by norm_num)
  have i2 := dbl_int 2 (by norm_num)
  have i4 := dbl_int 4 (by norm_num)
  push_cast at i1 i2 i4
  exact C97_find_pk_double flTable flTable_incr (by simp [flTable, i1, i2, i4]) _ (by norm_num [flTable]) (by norm_num [flTable])
    (by norm_num) (by norm_num [flTable])

example : 0 ≤ (interpolLin (⟨3⟩ : Fl dbl) ⟨2⟩ ⟨4⟩ ⟨4⟩ ⟨1⟩).val := by
  have i2 := dbl_int 2 (by norm_num)
  have i4 := dbl_int 4 (by norm_num)
  push_cast at i2 i4
  exact (C97_interpol_lin C97_double _ _ _ _ _ (by norm_num) (by norm_num) (by rw [Fl.sub_val]; norm_num [i2]) i4).1 (by norm_num) (by norm_num)

/-- C97, why the upper end is left out: at the upper end of its interval `interpol_lin` may lose the tabulated value altogether, here
between `2⁶⁰` and `1`, where it returns zero. -/
theorem C97_upper_end : (interpolLin (⟨2⟩ : Fl dbl) ⟨1⟩ ⟨2⟩ ⟨2 ^ 60⟩ ⟨1⟩).val = 0 := by
  have i1 := dbl_int 1 (by norm_num)
  push_cast at i1
  have a1 : dbl (1 - 2 ^ 60) = -2 ^ 60 := by
    have lg : Int.log 2 |(1 : ℝ) - 2 ^ 60| = 59 := by
      rw [show |(1 : ℝ) - 2 ^ 60| = ((2 ^ 60 - 1 : ℕ) : ℝ) by norm_num, Int.log_natCast]
      have : Nat.log 2 (2 ^ 60 - 1) = 59 := by
        rw [Nat.log_eq_iff (by norm_num)]
        norm_num
      rw [this]
      norm_num
    unfold dbl
    rw [if_neg (by norm_num), lg, show ((1 : ℝ) - 2 ^ 60) / 2 ^ ((59 : ℤ) - 52) = 1 / 128 - 2 ^ 53 by norm_num,
      show round ((1 : ℝ) / 128 - 2 ^ 53) = -2 ^ 53 by rw [round_eq, Int.floor_eq_iff]; norm_num]
    norm_num
  have a2 : dbl (-2 ^ 60) = -2 ^ 60 := by
    have := dbl_exact (-1) 60 (by norm_num)
    norm_num at this ⊢
    exact this
  simp only [interpolLin, Fl.add_val, Fl.sub_val, Fl.mul_val, Fl.div_val]
  rw [show (2 : ℝ) - 1 = 1 by norm_num, i1, div_one, i1, a1, one_mul, a2, neg_add_cancel, C97_double.zero]

example : interpolLin (2 : ℝ) 1 2 (2 ^ 60) 1 = 1 := by norm_num [interpolLin]

end Verif
