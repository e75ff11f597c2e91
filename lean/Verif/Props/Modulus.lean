import Verif.Model.Modulus
import Verif.Model.MuRange
import Verif.Props.RoundedLookup
import Verif.Props.Positivity

/-!
# C98 – the modulus of `k-q` is the root of a non-negative number under rounding
-/

namespace Verif

/-- The argument of the square root in the kernels of the model. -/
theorem kqArg_real (x mu : ℝ) : kqArg x mu = 1 + x * x - 2 * mu * x := by
  simp [kqArg, Histo.lit]

/-- The modulus in the second-order terms. -/
theorem kqAt_arg (g : GLQ ℝ) (iq : ℕ) (mu : ℝ) : kqAt g iq mu = g.k * Real.sqrt (kqArg (g.x.getD iq 0) mu) := by
  rw [kqArg_real, kqAt]

/-! ## Angles up to one -/

theorem dbl_two : dbl 2 = 2 := by simpa using dbl_exact 2 0 (by norm_num)

theorem dbl_up {y : ℝ} (hy : 0 ≤ y) : dbl y ≤ (1 + 1 / 2 ^ 53) * y := (dbl_rounds.bounds hy).2
theorem dbl_low {y : ℝ} (hy : 0 ≤ y) : (1 - 1 / 2 ^ 53) * y ≤ dbl y := (dbl_rounds.bounds hy).1

/-- A double between one half and two, in units of its last place. -/
theorem dbl_unit {x : ℝ} (hx : dbl x = x) (n : ℕ) (h0 : (2 : ℝ) ^ (-(n : ℤ)) ≤ x) (h1 : x < 2 ^ (1 - (n : ℤ))) :
    ∃ m : ℤ, x = m * 2 ^ (-(n : ℤ) - 52) ∧ 2 ^ 52 ≤ m ∧ m ≤ 2 ^ 53 := by
  have hp : 0 < x := lt_of_lt_of_le (by positivity) h0
  have lg : Int.log 2 |x| = -(n : ℤ) := by
    rw [abs_of_pos hp]
    refine le_antisymm ?_ ((Int.zpow_le_iff_le_log (by norm_num) hp).1 (by exact_mod_cast h0))
    have := (Int.lt_zpow_iff_log_lt (b := 2) (by norm_num) hp).1 (by exact_mod_cast h1 : x < ((2 : ℕ) : ℝ) ^ (1 - (n : ℤ)))
    omega
  unfold dbl at hx
  rw [if_neg hp.ne', lg] at hx
  have two : (0 : ℝ) < 2 ^ (-(n : ℤ) - 52) := by positivity
  refine ⟨round (x / 2 ^ (-(n : ℤ) - 52)), by rw [mul_comm]; exact hx.symm, ?_, ?_⟩
  · have : ((2 ^ 52 : ℤ) : ℝ) ≤ x / 2 ^ (-(n : ℤ) - 52) := by
      rw [le_div_iff₀ two, show ((2 ^ 52 : ℤ) : ℝ) = (2 : ℝ) ^ (52 : ℤ) by norm_num, ← zpow_add₀ (by norm_num), show (52 : ℤ) + (-(n : ℤ) - 52) = -n by ring]
      exact h0
    have := round_le_round this
    rwa [round_intCast] at this
  · have : x / 2 ^ (-(n : ℤ) - 52) ≤ ((2 ^ 53 : ℤ) : ℝ) := by
      rw [div_le_iff₀ two, show ((2 ^ 53 : ℤ) : ℝ) = (2 : ℝ) ^ (53 : ℤ) by norm_num, ← zpow_add₀ (by norm_num), show (53 : ℤ) + (-(n : ℤ) - 52) = 1 - n by ring]
      exact h1.le
    have := round_le_round this
    rwa [round_intCast] at this

/-- `2x-1` is not rounded for `x` between one half and two. -/
theorem dbl_near_one {x : ℝ} (hx : dbl x = x) (h0 : 1 / 2 ≤ x) (h1 : x < 2) : dbl (2 * x - 1) = 2 * x - 1 := by
  rcases lt_or_ge x 1 with c | c
  · obtain ⟨m, e, m0, m1⟩ := dbl_unit hx 1 (by norm_num; linarith) (by norm_num; linarith)
    have : 2 * x - 1 = ((2 * m - 2 ^ 53 : ℤ) : ℝ) * 2 ^ (-53 : ℤ) := by
      rw [e]; push_cast; norm_num; ring
    rw [this]
    exact dbl_exact _ _ (abs_le.2 ⟨by omega, by omega⟩)
  · obtain ⟨m, e, m0, m1⟩ := dbl_unit hx 0 (by norm_num; linarith) (by norm_num; linarith)
    have : 2 * x - 1 = ((m - 2 ^ 51 : ℤ) : ℝ) * 2 ^ (-51 : ℤ) := by
      rw [e]; push_cast; norm_num; ring
    rw [this]
    exact dbl_exact _ _ (abs_le.2 ⟨by omega, by omega⟩)

theorem dbl_double {x : ℝ} (hx : dbl x = x) : dbl (2 * x) = 2 * x := by
  obtain ⟨m, e, hm, he⟩ := dbl_form x
  have : 2 * x = (m : ℝ) * 2 ^ (e + 1) := by rw [← hx, he, zpow_add₀ (by norm_num)]; ring
  rw [this]
  exact dbl_exact _ _ hm

/-- C98: for every double `x` and every angle up to one the argument of the square root is non-negative in double precision,
however close `q` comes to `k`. -/
theorem C98_any_angle (x mu : Fl dbl) (hx : dbl x.val = x.val) (h0 : 0 ≤ x.val) (hmu : mu.val ≤ 1) : 0 ≤ (kqArg x mu).val := by
  have M := C97_double.mono
  simp only [kqArg, Fl.add_val, Fl.sub_val, Fl.mul_val, Fl.lit_val]
  push_cast
  rw [C97_double.one, dbl_two]
  refine dbl_sign.1 (sub_nonneg.2 ?_)
  have t1 : dbl (2 * mu.val) ≤ 2 := by simpa [dbl_two] using M (show 2 * mu.val ≤ 2 by linarith)
  have t2 : dbl (dbl (2 * mu.val) * x.val) ≤ 2 * x.val := by
    rw [← dbl_double hx]
    exact M (mul_le_mul_of_nonneg_right t1 h0)
  refine t2.trans ?_
  rw [← dbl_double hx]
  refine M ?_
  suffices 2 * x.val - 1 ≤ dbl (x.val * x.val) by linarith
  rcases lt_or_ge x.val (1 / 2) with c | c
  · have := dbl_sign.1 (mul_nonneg h0 h0)
    linarith
  · rcases lt_or_ge x.val 2 with d | d
    · rw [← dbl_near_one hx c d]
      exact M (by nlinarith [sq_nonneg (x.val - 1)])
    · have := dbl_low (mul_nonneg h0 h0)
      norm_num at this
      nlinarith

/-! ## Half plane -/

/-- A node moved to a range exceeds the upper end by a few roundings at most. -/
theorem node_bound (m lo hi : ℝ) (m0 : -1 ≤ m) (m1 : m ≤ 1) (l0 : -1 ≤ lo) (l1 : lo ≤ 1) (h1 : hi ≤ 1) :
    dbl (dbl (dbl (m + 1) * dbl (dbl (hi - lo) / 2)) + lo) ≤ max lo hi + 12 / 2 ^ 53 := by
  have M := C97_double.mono
  have a0 : 0 ≤ dbl (m + 1) := dbl_sign.1 (by linarith)
  have a1 : dbl (m + 1) ≤ 2 := by simpa [dbl_two] using M (show m + 1 ≤ 2 by linarith)
  rcases le_total hi lo with c | c
  · have b0 : dbl (hi - lo) ≤ 0 := dbl_sign.2 (by linarith)
    have j0 : dbl (dbl (hi - lo) / 2) ≤ 0 := dbl_sign.2 (by linarith)
    have p0 : dbl (dbl (m + 1) * dbl (dbl (hi - lo) / 2)) ≤ 0 := dbl_sign.2 (mul_nonpos_of_nonneg_of_nonpos a0 j0)
    have e := (abs_le.1 (dbl_rounds.err lo)).2
    have e' : |lo| ≤ 1 := abs_le.2 ⟨l0, l1⟩
    have : dbl (dbl (dbl (m + 1) * dbl (dbl (hi - lo) / 2)) + lo) ≤ dbl lo := M (by linarith)
    rw [max_eq_left c]
    norm_num at e ⊢
    linarith
  · have b0 : 0 ≤ dbl (hi - lo) := dbl_sign.1 (by linarith)
    have b1 := dbl_up (show 0 ≤ hi - lo by linarith)
    have j0 : 0 ≤ dbl (dbl (hi - lo) / 2) := dbl_sign.1 (by linarith)
    have j1 := dbl_up (show 0 ≤ dbl (hi - lo) / 2 by linarith)
    generalize dbl (hi - lo) = b at *
    generalize dbl (b / 2) = j at *
    have p0 : 0 ≤ dbl (dbl (m + 1) * j) := dbl_sign.1 (mul_nonneg a0 j0)
    have p1 := dbl_up (mul_nonneg a0 j0)
    have p2 : dbl (m + 1) * j ≤ 2 * j := mul_le_mul_of_nonneg_right a1 j0
    generalize dbl (m + 1) * j = q at *
    generalize dbl q = P at *
    have e := (abs_le.1 (dbl_rounds.err (P + lo))).2
    rw [max_eq_right c]
    norm_num at e b1 j1 p1 ⊢
    have e' : |P + lo| ≤ 4 := abs_le.2 ⟨by linarith, by linarith⟩
    linarith

/-- Away from `q = k` a few roundings of the angle do no harm. -/
theorem kqArg_far (x mu : Fl dbl) (x0 : 0 ≤ x.val) (h : 2 * x.val * mu.val ≤ 1 + x.val * x.val - 1 / 20 * (1 + x.val * x.val)) :
    0 ≤ (kqArg x mu).val := by
  simp only [kqArg, Fl.add_val, Fl.sub_val, Fl.mul_val, Fl.lit_val]
  push_cast
  rw [C97_double.one, dbl_two]
  refine dbl_sign.1 (sub_nonneg.2 ?_)
  have s0 := dbl_low (mul_nonneg x0 x0)
  have s1 := dbl_sign.1 (mul_nonneg x0 x0)
  have s2 := dbl_low (show 0 ≤ 1 + dbl (x.val * x.val) by linarith)
  rcases le_total mu.val 0 with c | c
  · have t0 : dbl (2 * mu.val) ≤ 0 := dbl_sign.2 (by linarith)
    have t1 : dbl (dbl (2 * mu.val) * x.val) ≤ 0 := dbl_sign.2 (mul_nonpos_of_nonpos_of_nonneg t0 x0)
    exact t1.trans (dbl_sign.1 (by linarith))
  · have t0 := dbl_up (show 0 ≤ 2 * mu.val by linarith)
    have t1 := dbl_sign.1 (show 0 ≤ 2 * mu.val by linarith)
    have t2 := dbl_up (mul_nonneg t1 x0)
    have t3 := mul_le_mul_of_nonneg_right t0 x0
    have xx := mul_nonneg x0 x0
    norm_num at s0 s2 t2 t3
    nlinarith

/-- C98, half-plane integrations (`gamma2`, `A` two-loop, `B`, and the bias terms with `run_half`): whatever the range of the rule and the
mode `k`, the argument of the square root is non-negative in double precision at all angles of the rule. -/
theorem C98_half_plane (xs : List (Fl dbl)) (nq : ℕ) (h1 : 1 ≤ nq) (h2 : nq < 2 ^ 64) (x : Fl dbl) (x0 : 0 < x.val)
    (hmax : ∀ y, xs[nq - 1]? = some y → x.val ≤ y.val) (lo hi : Fl dbl) (h : muRange true xs nq x = .ok (some (lo, hi))) (gm : GLMu (Fl dbl))
    (hg : ∀ m ∈ gm.muref, -1 ≤ m.val ∧ m.val ≤ 1) : ∀ mu ∈ (updateGLMu gm lo hi).mu, 0 ≤ (kqArg x mu).val := by
  have M := C97_double.mono
  have neg1 : dbl (-1) = -1 := C97_double.neg 1 C97_double.one
  have half : dbl (1 / 2) = 1 / 2 := by
    have := dbl_exact 1 (-1) (by norm_num)
    norm_num at this ⊢
    exact this
  unfold muRange at h
  simp only [Res.bind_eq_ok] at h
  obtain ⟨xmin, -, xmax, r2, h⟩ := h
  have hm : xs[nq - 1]? = some xmax := by
    rw [subSize_eq h1 (by simpa [sizeMod] using h2)] at r2
    by_cases c : nq - 1 < xs.length
    · rw [rd_ok c] at r2
      cases r2
      exact List.getElem?_eq_getElem c
    · rw [rd_ub (by omega)] at r2
      cases r2
  have hx := hmax xmax hm
  generalize hL : (Histo.lit 1 + x * x - xmax * xmax) / Histo.lit 2 / x = L at h
  generalize (Histo.lit 1 + x * x - xmin * xmin) / Histo.lit 2 / x = H at h
  split at h
  · simp at h
  · rename_i guard
    simp only [Bool.or_eq_true, not_or, Bool.not_eq_true] at guard
    obtain ⟨⟨g1, g2⟩, -⟩ := guard
    have le_false : ∀ a b : Fl dbl, Histo.le a b = false → b.val < a.val := fun a b hab => by
      have : ¬ Histo.le a b = true := by simp [hab]
      by_contra hc
      exact this ((le_real a.val b.val).2 (not_lt.1 hc))
    have g1' := le_false _ _ g1
    have g2' := le_false _ _ g2
    simp only [Fl.lit_val] at g1' g2'
    push_cast at g1' g2'
    rw [C97_double.one] at g1'
    rw [neg1] at g2'
    have hcmax : (cMax (Histo.lit (-1)) L).val = max (-1) L.val := by
      unfold cMax
      split
      · rename_i c
        rw [Fl.lt_iff] at c
        simp only [Fl.lit_val] at c ⊢
        push_cast at c ⊢
        rw [neg1] at c ⊢
        rw [max_eq_left c.le]
      · rename_i c
        rw [Fl.lt_iff] at c
        simp only [Fl.lit_val] at c
        push_cast at c
        rw [neg1] at c
        rw [max_eq_right (not_lt.1 c)]
    have hcmin : (cMin (Histo.lit 1) H).val ≤ 1 := by
      unfold cMin
      split
      · simp only [Fl.lit_val]
        push_cast
        rw [C97_double.one]
      · rename_i c
        rw [Fl.lt_iff] at c
        simp only [Fl.lit_val] at c
        push_cast at c
        rw [C97_double.one] at c
        exact not_lt.1 c
    simp only [Res.ok.injEq, Option.some.injEq, Prod.mk.injEq, Bool.true_and] at h
    obtain ⟨hlo, hhi⟩ := h
    have lo0 : -1 ≤ lo.val := by rw [← hlo, hcmax]; exact le_max_left _ _
    have lo1 : lo.val ≤ 1 := by rw [← hlo]; exact g1'.le
    intro mu hmu
    simp only [updateGLMu, List.mem_map] at hmu
    obtain ⟨m, mm, rfl⟩ := hmu
    obtain ⟨m0, m1⟩ := hg m mm
    have nb := node_bound m.val lo.val hi.val m0 m1 lo0 lo1
    refine kqArg_far x _ x0.le ?_
    simp only [Fl.add_val, Fl.sub_val, Fl.mul_val, Fl.div_val, Fl.lit_val]
    push_cast
    rw [C97_double.one, dbl_two]
    by_cases c : 1 / 2 ≤ x.val
    · have hle : Histo.le (Histo.lit (1 / 2) : Fl dbl) x = true := by
        refine (le_real _ _).2 ?_
        simp only [Fl.lit_val]
        push_cast
        rw [half]
        exact c
      rw [if_pos hle] at hhi
      have hhv : hi.val = dbl (1 / 2 / x.val) := by
        rw [← hhi]
        simp only [Fl.div_val, Fl.lit_val]
        push_cast
        rw [half]
      have hq1 : 1 / 2 / x.val ≤ 1 := by rw [div_le_one x0]; exact c
      have hq0 : 0 ≤ 1 / 2 / x.val := by positivity
      have hq : 1 / 2 / x.val * x.val = 1 / 2 := by field_simp
      have hu := dbl_up hq0
      have h1' : hi.val ≤ 1 := by rw [hhv]; simpa [C97_double.one] using M hq1
      have nb := nb h1'
      have x2 := mul_nonneg x0.le x0.le
      have hib : hi.val * x.val ≤ 1 / 2 + 1 / 1000 := by
        rw [hhv]
        have := mul_le_mul_of_nonneg_right hu x0.le
        norm_num at this ⊢
        nlinarith
      have lob : lo.val * x.val ≤ 1 / 2 + 1 / 1000 * (1 + x.val * x.val) := by
        rw [← hlo, hcmax]
        rcases le_total L.val 0 with cl | cl
        · have : max (-1) L.val ≤ 0 := max_le (by norm_num) cl
          nlinarith
        · rw [max_eq_right (by linarith)]
          have eL : L.val = dbl (dbl (dbl (dbl (1 + dbl (x.val * x.val)) - dbl (xmax.val * xmax.val)) / 2) / x.val) := by
            rw [← hL]
            simp only [Fl.add_val, Fl.sub_val, Fl.mul_val, Fl.div_val, Fl.lit_val]
            push_cast
            rw [C97_double.one, dbl_two]
          have m1 : dbl (x.val * x.val) ≤ dbl (xmax.val * xmax.val) := M (mul_le_mul hx hx x0.le (x0.le.trans hx))
          have X0 := dbl_sign.1 x2
          have X1 := dbl_up x2
          have S1 := dbl_up (show 0 ≤ 1 + dbl (x.val * x.val) by linarith)
          generalize dbl (1 + dbl (x.val * x.val)) = S at *
          generalize dbl (xmax.val * xmax.val) = N at *
          generalize dbl (x.val * x.val) = X at *
          rcases le_total (S - N) 0 with d | d
          · have : L.val ≤ 0 := by
              rw [eL]
              have d1 : dbl (S - N) ≤ 0 := dbl_sign.2 d
              have d2 : dbl (dbl (S - N) / 2) ≤ 0 := dbl_sign.2 (by linarith)
              exact dbl_sign.2 (div_nonpos_of_nonpos_of_nonneg d2 x0.le)
            nlinarith
          · have D1 := dbl_up d
            have D0 := dbl_sign.1 d
            generalize dbl (S - N) = D at *
            have E1 := dbl_up (show 0 ≤ D / 2 by linarith)
            have E0 := dbl_sign.1 (show 0 ≤ D / 2 by linarith)
            generalize dbl (D / 2) = E at *
            have F1 := mul_le_mul_of_nonneg_right (dbl_up (div_nonneg E0 x0.le)) x0.le
            rw [← eL, mul_assoc, div_mul_cancel₀ _ x0.ne'] at F1
            norm_num at X1 S1 D1 E1 F1
            linarith
      have mx : max lo.val hi.val * x.val ≤ 1 / 2 + 1 / 1000 * (1 + x.val * x.val) := by
        rcases max_choice lo.val hi.val with e | e <;> rw [e] <;> linarith
      have := mul_le_mul_of_nonneg_right nb x0.le
      norm_num at this
      nlinarith
    · have hle : ¬ Histo.le (Histo.lit (1 / 2) : Fl dbl) x = true := by
        intro hc
        have := (le_real _ _).1 hc
        simp only [Fl.lit_val] at this
        push_cast at this
        rw [half] at this
        exact c this
      rw [if_neg hle] at hhi
      have h1' : hi.val ≤ 1 := by rw [← hhi]; exact hcmin
      have nb := nb h1'
      have mx : max lo.val hi.val ≤ 1 := max_le lo1 h1'
      have nb2 := nb.trans (add_le_add_left mx (12 / 2 ^ 53))
      have := mul_le_mul_of_nonneg_right nb2 x0.le
      norm_num at this
      nlinarith

/-! ## Full range -/

/-- A node not too close to the end of the reference interval stays below one. -/
theorem node_le_one (m lo hi : ℝ) (m0 : -1 ≤ m) (m1 : m ≤ 1 - 1 / 2 ^ 20) (l1 : lo ≤ 1) (h1 : hi ≤ 1) :
    dbl (dbl (dbl (m + 1) * dbl (dbl (hi - lo) / 2)) + lo) ≤ 1 := by
  have M := C97_double.mono
  have a0 : 0 ≤ dbl (m + 1) := dbl_sign.1 (by linarith)
  have a1 := dbl_up (show 0 ≤ m + 1 by linarith)
  have one : ∀ y, y ≤ 1 → dbl y ≤ 1 := fun y hy => by simpa [C97_double.one] using M hy
  refine one _ ?_
  rcases le_total hi lo with c | c
  · have b0 : dbl (hi - lo) ≤ 0 := dbl_sign.2 (by linarith)
    have j0 : dbl (dbl (hi - lo) / 2) ≤ 0 := dbl_sign.2 (by linarith)
    have p0 : dbl (dbl (m + 1) * dbl (dbl (hi - lo) / 2)) ≤ 0 := dbl_sign.2 (mul_nonpos_of_nonneg_of_nonpos a0 j0)
    linarith
  · have b0 : 0 ≤ dbl (hi - lo) := dbl_sign.1 (by linarith)
    have b1 := dbl_up (show 0 ≤ hi - lo by linarith)
    have j0 : 0 ≤ dbl (dbl (hi - lo) / 2) := dbl_sign.1 (by linarith)
    have j1 := dbl_up (show 0 ≤ dbl (hi - lo) / 2 by linarith)
    generalize dbl (hi - lo) = b at *
    generalize dbl (b / 2) = j at *
    have p1 := dbl_up (mul_nonneg a0 j0)
    norm_num at a1 m1 b1 j1 p1
    have p2 : dbl (m + 1) * j ≤ (2 - 1 / 2 ^ 21) * j := mul_le_mul_of_nonneg_right (by norm_num; linarith) j0
    norm_num at p2
    linarith

/-- C98, integrations over the full range of angles (`A` one-loop and the bias terms without `run_half`): the argument of the square root is
non-negative in double precision at all angles of the rule, if the nodes of the reference rule keep a distance of `2⁻²⁰` from one (up to
about 1700 nodes do). -/
theorem C98_full_range (xs : List (Fl dbl)) (nq : ℕ) (x : Fl dbl) (x0 : 0 ≤ x.val) (xr : dbl x.val = x.val) (lo hi : Fl dbl)
    (h : muRange false xs nq x = .ok (some (lo, hi))) (gm : GLMu (Fl dbl)) (hg : ∀ m ∈ gm.muref, -1 ≤ m.val ∧ m.val ≤ 1 - 1 / 2 ^ 20) :
    ∀ mu ∈ (updateGLMu gm lo hi).mu, mu.val ≤ 1 ∧ 0 ≤ (kqArg x mu).val := by
  unfold muRange at h
  simp only [Res.bind_eq_ok] at h
  obtain ⟨xmin, -, xmax, -, h⟩ := h
  split at h
  · simp at h
  · rename_i guard
    simp only [Bool.or_eq_true, not_or, Bool.not_eq_true] at guard
    obtain ⟨⟨g1, -⟩, -⟩ := guard
    simp only [Res.ok.injEq, Option.some.injEq, Prod.mk.injEq, Bool.false_and, Bool.false_eq_true, if_false] at h
    obtain ⟨hlo, hhi⟩ := h
    rw [hlo] at g1
    have lo1 : lo.val ≤ 1 := by
      by_contra hc
      have : Histo.le (Histo.lit 1) lo = true := (le_real _ _).2 (by
        simp only [Fl.lit_val]
        push_cast
        rw [C97_double.one]
        exact (not_le.1 hc).le)
      rw [this] at g1
      exact absurd g1 (by simp)
    have hi1 : hi.val ≤ 1 := by
      rw [← hhi, cMin]
      split
      · simp only [Fl.lit_val]
        push_cast
        rw [C97_double.one]
      · rename_i c
        rw [Fl.lt_iff] at c
        simp only [Fl.lit_val] at c
        push_cast at c
        rw [C97_double.one] at c
        exact not_lt.1 c
    intro mu hmu
    simp only [updateGLMu, List.mem_map] at hmu
    obtain ⟨m, mm, rfl⟩ := hmu
    obtain ⟨m0, m1⟩ := hg m mm
    have key : ((m + Histo.lit 1) * ((hi - lo) / Histo.lit 2) + lo).val ≤ 1 := by
      simp only [Fl.add_val, Fl.sub_val, Fl.mul_val, Fl.div_val, Fl.lit_val]
      push_cast
      rw [C97_double.one, dbl_two]
      exact node_le_one _ _ _ m0 m1 lo1 hi1
    exact ⟨key, C98_any_angle x _ xr x0 key⟩

/-! ## Concrete cases -/

/-- `q` next to `k`, along `k`. -/
example : 0 ≤ (kqArg (⟨1 + 1 / 2 ^ 52⟩ : Fl dbl) ⟨1⟩).val := by
  refine C98_any_angle _ _ ?_ (by norm_num) (by norm_num)
  have := dbl_exact (2 ^ 52 + 1) (-52) (by norm_num)
  norm_num at this ⊢
  exact this

/-- The ranges of the middle node of a rule from `k/4` to `2k`. -/
theorem mid_range : muRange true [(⟨1 / 4⟩ : Fl dbl), ⟨1⟩, ⟨2⟩] 3 ⟨1⟩ = .ok (some (⟨-1⟩, ⟨1 / 2⟩)) ∧
    muRange false [(⟨1 / 4⟩ : Fl dbl), ⟨1⟩, ⟨2⟩] 3 ⟨1⟩ = .ok (some (⟨-1⟩, ⟨31 / 32⟩)) := by
  have f : ∀ (m e : ℤ) (y : ℝ), |m| ≤ 2 ^ 53 → (m : ℝ) * 2 ^ e = y → dbl y = y := fun m e y hm hy => by rw [← hy]; exact dbl_exact m e hm
  have n1 : dbl (-1) = -1 := f (-1) 0 _ (by norm_num) (by norm_num)
  have n2 : dbl (-2) = -2 := f (-2) 0 _ (by norm_num) (by norm_num)
  have d1 : dbl 1 = 1 := C97_double.one
  have d4 : dbl 4 = 4 := f 4 0 _ (by norm_num) (by norm_num)
  have hf : dbl (1 / 2) = 1 / 2 := f 1 (-1) _ (by norm_num) (by norm_num)
  have q16 : dbl (1 / 16) = 1 / 16 := f 1 (-4) _ (by norm_num) (by norm_num)
  have q31 : dbl (31 / 16) = 31 / 16 := f 31 (-4) _ (by norm_num) (by norm_num)
  have q32 : dbl (31 / 32) = 31 / 32 := f 31 (-5) _ (by norm_num) (by norm_num)
  have lo : cMax (Histo.lit (-1)) ((Histo.lit 1 + (⟨1⟩ : Fl dbl) * ⟨1⟩ - ⟨2⟩ * ⟨2⟩) / Histo.lit 2 / ⟨1⟩) = ⟨-1⟩ := by
    have e1 : (Histo.lit 1 + (⟨1⟩ : Fl dbl) * ⟨1⟩ - ⟨2⟩ * ⟨2⟩) / Histo.lit 2 / ⟨1⟩ = ⟨-1⟩ := by
      refine congrArg Fl.mk ?_
      simp only [Fl.add_val, Fl.sub_val, Fl.mul_val, Fl.div_val, Fl.lit_val]
      norm_num [d1, dbl_two, d4, n1, n2]
    have e2 : (Histo.lit (-1) : Fl dbl) = ⟨-1⟩ := congrArg Fl.mk (by push_cast; exact n1)
    rw [e1, e2, cMax]
    split <;> rfl
  have hi : cMin (Histo.lit 1) ((Histo.lit 1 + (⟨1⟩ : Fl dbl) * ⟨1⟩ - ⟨1 / 4⟩ * ⟨1 / 4⟩) / Histo.lit 2 / ⟨1⟩) = ⟨31 / 32⟩ := by
    have e1 : (Histo.lit 1 + (⟨1⟩ : Fl dbl) * ⟨1⟩ - ⟨1 / 4⟩ * ⟨1 / 4⟩) / Histo.lit 2 / ⟨1⟩ = ⟨31 / 32⟩ := by
      refine congrArg Fl.mk ?_
      simp only [Fl.add_val, Fl.sub_val, Fl.mul_val, Fl.div_val, Fl.lit_val]
      norm_num [d1, dbl_two, q16, q31, q32]
    have e2 : (Histo.lit 1 : Fl dbl) = ⟨1⟩ := congrArg Fl.mk (by push_cast; exact d1)
    rw [e1, e2, cMin, if_neg]
    rw [Fl.lt_iff]
    norm_num
  have le_iff : ∀ a b : Fl dbl, Histo.le a b = true ↔ a.val ≤ b.val := fun a b => le_real _ _
  have guard : ¬ (Histo.le (Histo.lit 1 : Fl dbl) ⟨-1⟩ || Histo.le (⟨31 / 32⟩ : Fl dbl) (Histo.lit (-1)) || Histo.le (⟨31 / 32⟩ : Fl dbl) ⟨-1⟩) = true := by
    simp only [Bool.or_eq_true, le_iff, Fl.lit_val]
    push_cast
    rw [d1, n1]
    norm_num
  unfold muRange
  rw [subSize_eq (by norm_num) (by norm_num [sizeMod]), rd_ok (by simp), rd_ok (by simp)]
  simp only [Res.ok_bind, List.getElem_cons_zero, List.getElem_cons_succ]
  rw [lo, hi, if_neg guard, if_neg guard]
  have h1 : Histo.le (Histo.lit (1 / 2) : Fl dbl) ⟨1⟩ = true := by
    rw [le_iff]; simp only [Fl.lit_val]; push_cast; rw [hf]; norm_num
  have h2 : (Histo.lit (1 / 2) : Fl dbl) / ⟨1⟩ = ⟨1 / 2⟩ := congrArg Fl.mk (by simp only [Fl.lit_val]; push_cast; rw [hf, div_one, hf])
  rw [h1, Bool.true_and, if_pos rfl, h2]
  exact ⟨rfl, rfl⟩

example : ∀ mu ∈ (updateGLMu (⟨3, [⟨-1⟩, ⟨0⟩, ⟨1⟩], [⟨1⟩, ⟨1⟩, ⟨1⟩], [], []⟩ : GLMu (Fl dbl)) ⟨-1⟩ ⟨1 / 2⟩).mu, 0 ≤ (kqArg (⟨1⟩ : Fl dbl) mu).val :=
  C98_half_plane _ 3 (by norm_num) (by norm_num) ⟨1⟩ (by norm_num) (by simp) _ _ mid_range.1 _ (by simp)

example : ∀ mu ∈ (updateGLMu (⟨2, [⟨-1 / 2⟩, ⟨1 / 2⟩], [⟨1⟩, ⟨1⟩], [], []⟩ : GLMu (Fl dbl)) ⟨-1⟩ ⟨31 / 32⟩).mu, mu.val ≤ 1 ∧ 0 ≤ (kqArg (⟨1⟩ : Fl dbl) mu).val :=
  C98_full_range _ 3 ⟨1⟩ (by norm_num) C97_double.one _ _ mid_range.2 _ (by norm_num)

end Verif
