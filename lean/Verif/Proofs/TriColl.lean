import Verif.Proofs.TriTaylor

/-!
# Expansion of the logarithms of the second-order loop kernels for a short third side


-/

set_option linter.unusedSimpArgs false
set_option linter.unusedVariables false

namespace Verif

noncomputable section

open Real Asymptotics Filter Topology

/-- Coefficient of `k3²` in the expansion of `triLog`. -/
def collA (d a m q t : ℝ) : ℝ := -(d * t / (2 * m)) + 2 * a / (m * q ^ 2)

/-- Coefficient of `k3⁴` in the expansion of `triLog`. -/
def collB (d a m q t : ℝ) : ℝ := 3 * d ^ 2 * t / (8 * m ^ 2) - 3 * a * d / (2 * m ^ 2 * q ^ 2) + a / (m * q ^ 4)

/-- The expansion of `triLog` to order `k3⁴`. -/
def collW (d a m q x : ℝ) : ℝ := triLog a m + x ^ 2 * collA d a m q (triLog a m) + x ^ 4 * collB d a m q (triLog a m)

theorem coll_tri1 (d a m q e : ℝ) (hm : m ≠ 0) (hq : q ≠ 0) (hd : d ≠ 0) (h : m - a ^ 2 = -(q ^ 2 * d)) :
    e * d * tri1 a m = e * collA d a m q (triLog a m) := by
  rw [tri1, collA, h]
  generalize triLog a m = t
  field_simp
  ring

theorem coll_tri2 (d a m q e : ℝ) (hm : m ≠ 0) (hq : q ≠ 0) (hd : d ≠ 0) (h : m - a ^ 2 = -(q ^ 2 * d)) :
    (e * d) ^ 2 / 2 * tri2 a m = e ^ 2 * collB d a m q (triLog a m) := by
  have h2 : 2 * m - a ^ 2 = m - q ^ 2 * d := by linear_combination h
  rw [tri2, tri1, collB, h2, h]
  generalize triLog a m = t
  field_simp
  ring

theorem rpow_three_half (x : ℝ) (hx : 0 < x) : x ^ (1.5 : ℝ) = x * Real.sqrt x := by
  rw [show (1.5 : ℝ) = 1 + 1 / 2 from by norm_num, Real.rpow_add hx, Real.rpow_one, Real.sqrt_eq_rpow]

theorem collLog (k1 k2 q : ℝ) (h1 : 0 < k1) (h2 : 0 < k2) (hq : 0 < q) (hmu : 0 < k1 ^ 2 - k2 ^ 2 + q ^ 2) (hy : q ≠ k2) :
    Real.log ((2*k1 ^ 2*q - k2 ^ 2*q + q ^ 3 + 2*k1*(Real.sqrt (q ^ 2*(k1 ^ 2 - k2 ^ 2 + q ^ 2)))) /
      (2*k1 ^ 2*q - k2 ^ 2*q + q ^ 3 - 2*k1*(Real.sqrt (q ^ 2*(k1 ^ 2 - k2 ^ 2 + q ^ 2))))) =
    Real.sqrt (q ^ 2*(k1 ^ 2 - k2 ^ 2 + q ^ 2)) * triLog (k1 * q) (q ^ 2*(k1 ^ 2 - k2 ^ 2 + q ^ 2)) := by
  have hs0 : 0 < Real.sqrt (q ^ 2*(k1 ^ 2 - k2 ^ 2 + q ^ 2)) := Real.sqrt_pos.mpr (by positivity)
  have hss : Real.sqrt (q ^ 2*(k1 ^ 2 - k2 ^ 2 + q ^ 2)) ^ 2 = q ^ 2*(k1 ^ 2 - k2 ^ 2 + q ^ 2) := Real.sq_sqrt (by positivity)
  rw [triLog]
  generalize Real.sqrt (q ^ 2*(k1 ^ 2 - k2 ^ 2 + q ^ 2)) = s at *
  have hsa : s - k1 * q ≠ 0 := by
    intro h0
    have : s = k1 * q := by linarith
    rw [this] at hss
    have h3 : q ^ 2 * ((q - k2) * (q + k2)) = 0 := by linear_combination -hss
    rcases mul_eq_zero.mp h3 with h4 | h4
    · exact hq.ne' (pow_eq_zero_iff (by norm_num) |>.mp h4)
    · rcases mul_eq_zero.mp h4 with h5 | h5
      · exact hy (by linarith)
      · linarith
  have e1 : 2*k1 ^ 2*q - k2 ^ 2*q + q ^ 3 + 2*k1*s = (s + k1 * q) ^ 2 / q := by
    rw [eq_div_iff hq.ne']; linear_combination -hss
  have e2 : 2*k1 ^ 2*q - k2 ^ 2*q + q ^ 3 - 2*k1*s = (s - k1 * q) ^ 2 / q := by
    rw [eq_div_iff hq.ne']; linear_combination -hss
  rw [e1, e2, div_div_div_cancel_right₀ hq.ne', ← div_pow, ← Real.log_abs, abs_pow, Real.log_pow]
  push_cast
  field_simp

theorem collLog' (k1 k2 q : ℝ) (h1 : 0 < k1) (h2 : 0 < k2) (hq : 0 < q) (hmu : 0 < -k1 ^ 2 + k2 ^ 2 + q ^ 2) (hy : q ≠ k1) :
    Real.log (-((-(k1 ^ 2*q) + 2*k2 ^ 2*q + q ^ 3 + 2*k2*(Real.sqrt (q ^ 2*(-k1 ^ 2 + k2 ^ 2 + q ^ 2)))) /
      (k1 ^ 2*q - 2*k2 ^ 2*q - q ^ 3 + 2*k2*(Real.sqrt (q ^ 2*(-k1 ^ 2 + k2 ^ 2 + q ^ 2)))))) =
    Real.sqrt (q ^ 2*(-k1 ^ 2 + k2 ^ 2 + q ^ 2)) * triLog (k2 * q) (q ^ 2*(-k1 ^ 2 + k2 ^ 2 + q ^ 2)) := by
  have e : -k1 ^ 2 + k2 ^ 2 + q ^ 2 = k2 ^ 2 - k1 ^ 2 + q ^ 2 := by ring
  rw [e] at hmu ⊢
  rw [← collLog k2 k1 q h2 h1 hq hmu hy, ← div_neg]
  congr 2 <;> ring

/-- Triangles whose third side shrinks while the two others approach `a`. -/
def collF (a : ℝ) : Filter (ℝ × ℝ × ℝ) := 𝓝[{p | Triangle p.1 p.2.1 p.2.2}] (a, a, 0)

theorem collF_one {a : ℝ} {f : ℝ × ℝ × ℝ → ℝ} (h : ContinuousAt f (a, a, 0)) : f =O[collF a] fun _ => (1 : ℝ) :=
  (h.tendsto.mono_left nhdsWithin_le_nhds).isBigO_one ℝ

theorem collF_tri (a : ℝ) : ∀ᶠ p in collF a, Triangle p.1 p.2.1 p.2.2 := self_mem_nhdsWithin

theorem collF_ev {a : ℝ} {P : ℝ × ℝ × ℝ → Prop} (h : ∀ᶠ p in 𝓝 (a, a, (0 : ℝ)), P p) : ∀ᶠ p in collF a, P p := h.filter_mono nhdsWithin_le_nhds

theorem coll_L3 (a q : ℝ) (hq : 0 < q) :
    (fun p : ℝ × ℝ × ℝ => LFunc p.2.2 q - 4 * artSum 5 (p.2.2 / q)) =O[collF a] fun p => p.2.2 ^ 11 := by
  refine IsBigO.of_bound (6 / q ^ 11) ?_
  have e1 : ∀ᶠ p : ℝ × ℝ × ℝ in collF a, 2 * p.2.2 < q :=
    collF_ev ((show ContinuousAt (fun p : ℝ × ℝ × ℝ => 2 * p.2.2) (a, a, 0) by fun_prop).eventually (gt_mem_nhds (by simpa using hq)))
  filter_upwards [e1, collF_tri a] with p hp ht
  have h3 := ht.pos3
  rw [Real.norm_eq_abs, Real.norm_eq_abs, abs_of_pos (by positivity : 0 < p.2.2 ^ 11)]
  refine (LFunc_large 5 p.2.2 q h3 hp.le).trans (le_of_eq ?_)
  rw [div_pow]; ring

theorem sq_sub_ne {a q : ℝ} (ha : 0 < a) (hq : 0 < q) (n : q ≠ a) : a ^ 2 - q ^ 2 ≠ 0 := by
  rw [show a ^ 2 - q ^ 2 = (a - q) * (a + q) from by ring]
  exact mul_ne_zero (sub_ne_zero.mpr n.symm) (by positivity)

theorem coll_W1 (a q : ℝ) (ha : 0 < a) (hq : 0 < q) (n : q ≠ a) :
    (fun p : ℝ × ℝ × ℝ => triLog (p.2.2 * q) (triM p.1 p.2.1 p.2.2 q) - 4 * (p.2.2 * q) / ((p.1 ^ 2 - q ^ 2) * (p.2.1 ^ 2 - q ^ 2)))
      =O[collF a] fun p => p.2.2 ^ 3 := by
  have hn := sq_sub_ne ha hq n
  have hD : (a ^ 2 - q ^ 2) * (a ^ 2 - q ^ 2) ≠ 0 := mul_ne_zero hn hn
  have hDp : 0 < (a ^ 2 - q ^ 2) * (a ^ 2 - q ^ 2) := mul_self_pos.mpr hn
  have cM : ContinuousAt (fun p : ℝ × ℝ × ℝ => triM p.1 p.2.1 p.2.2 q) (a, a, 0) := by unfold triM; fun_prop
  have cD : ContinuousAt (fun p : ℝ × ℝ × ℝ => (p.1 ^ 2 - q ^ 2) * (p.2.1 ^ 2 - q ^ 2)) (a, a, 0) := by fun_prop
  have vM : triM a a 0 q = (a ^ 2 - q ^ 2) * (a ^ 2 - q ^ 2) := by unfold triM; ring
  have hM0 : 0 < triM a a 0 q := by rw [vM]; exact hDp
  have c1 : ContinuousAt (fun p : ℝ × ℝ × ℝ => 6 * q ^ 3 / (triM p.1 p.2.1 p.2.2 q * triM p.1 p.2.1 p.2.2 q)) (a, a, 0) :=
    continuousAt_const.div (cM.mul cM) (mul_ne_zero hM0.ne' hM0.ne')
  have c2 : ContinuousAt (fun p : ℝ × ℝ × ℝ => -(4 * q ^ 3) / (triM p.1 p.2.1 p.2.2 q * ((p.1 ^ 2 - q ^ 2) * (p.2.1 ^ 2 - q ^ 2)))) (a, a, 0) :=
    continuousAt_const.div (cM.mul cD) (mul_ne_zero hM0.ne' hD)
  have o1 := (collF_one c1).mul (isBigO_refl (fun p : ℝ × ℝ × ℝ => p.2.2 ^ 3) (collF a))
  have o2 := (collF_one c2).mul (isBigO_refl (fun p : ℝ × ℝ × ℝ => p.2.2 ^ 3) (collF a))
  simp only [one_mul] at o1 o2
  have ev1 : ∀ᶠ p : ℝ × ℝ × ℝ in collF a, 4 * (p.2.2 * q) ^ 2 < triM p.1 p.2.1 p.2.2 q := by
    have : ContinuousAt (fun p : ℝ × ℝ × ℝ => triM p.1 p.2.1 p.2.2 q - 4 * (p.2.2 * q) ^ 2) (a, a, 0) := by unfold triM; fun_prop
    refine (collF_ev (this.eventually (lt_mem_nhds (show (0 : ℝ) < _ from ?_)))).mono fun p hp => by linarith
    simpa using hM0
  have ev2 : ∀ᶠ p : ℝ × ℝ × ℝ in collF a, (p.1 ^ 2 - q ^ 2) * (p.2.1 ^ 2 - q ^ 2) ≠ 0 := collF_ev (cD.eventually_ne hD)
  have r1 : (fun p : ℝ × ℝ × ℝ => triLog (p.2.2 * q) (triM p.1 p.2.1 p.2.2 q) - 4 * (p.2.2 * q) / triM p.1 p.2.1 p.2.2 q)
      =O[collF a] fun p => p.2.2 ^ 3 := by
    refine IsBigO.trans (IsBigO.of_bound 1 ?_) o1
    filter_upwards [ev1, collF_tri a] with p hp ht
    have h3 := ht.pos3
    have hm : 0 < triM p.1 p.2.1 p.2.2 q := lt_of_le_of_lt (by positivity) hp
    have := triLog_near 1 (p.2.2 * q) (triM p.1 p.2.1 p.2.2 q) (by positivity) hp.le
    have e : triSum 1 (p.2.2 * q) (triM p.1 p.2.1 p.2.2 q) = 4 * (p.2.2 * q) / triM p.1 p.2.1 p.2.2 q := by
      simp [triSum]
    rw [e] at this
    rw [Real.norm_eq_abs, Real.norm_eq_abs, one_mul, abs_of_pos (show 0 < 6 * q ^ 3 / (triM p.1 p.2.1 p.2.2 q * triM p.1 p.2.1 p.2.2 q) * p.2.2 ^ 3 by positivity)]
    refine this.trans (le_of_eq ?_)
    field_simp
  refine (r1.add o2).congr' ?_ EventuallyEq.rfl
  filter_upwards [ev1, ev2, collF_tri a] with p hp hd ht
  have hm : triM p.1 p.2.1 p.2.2 q ≠ 0 := (lt_of_le_of_lt (by positivity) hp).ne'
  have e : triM p.1 p.2.1 p.2.2 q = (p.1 ^ 2 - q ^ 2) * (p.2.1 ^ 2 - q ^ 2) + (p.2.2 * q) ^ 2 := rfl
  generalize (p.1 ^ 2 - q ^ 2) * (p.2.1 ^ 2 - q ^ 2) = D at *
  have : -(4 * q ^ 3) / (triM p.1 p.2.1 p.2.2 q * D) * p.2.2 ^ 3 = 4 * (p.2.2 * q) / triM p.1 p.2.1 p.2.2 q - 4 * (p.2.2 * q) / D := by
    field_simp
    rw [e]; ring
  rw [this]; ring

/-- The expansion of the two other logarithms; `x`, `y` are the two long sides. -/
theorem coll_W (a q : ℝ) (x y : ℝ × ℝ × ℝ → ℝ) (ha : 0 < a) (hq : 0 < q) (n : q ≠ a) (hx : ContinuousAt x (a, a, 0)) (hy : ContinuousAt y (a, a, 0))
    (vx : x (a, a, 0) = a) (vy : y (a, a, 0) = a) (m : ℝ × ℝ × ℝ → ℝ) (hm : ∀ p, m p = q ^ 2 * (x p ^ 2 - y p ^ 2 + q ^ 2)) :
    (fun p : ℝ × ℝ × ℝ => triLog (x p * q) (triM (y p) p.2.2 (x p) q) - collW ((y p - q) * (y p + q)) (x p * q) (m p) q p.2.2)
      =O[collF a] fun p => p.2.2 ^ 6 := by
  have hn := sq_sub_ne ha hq n
  have hdom : TriDom (a * q) (q ^ 4) := by
    refine ⟨by positivity, by positivity, fun h0 => hn ?_⟩
    have : q ^ 2 * (a ^ 2 - q ^ 2) = 0 := by linear_combination -h0
    rcases mul_eq_zero.mp this with h | h
    · exact absurd h (by positivity)
    · exact h
  have hmf : m = fun p => q ^ 2 * (x p ^ 2 - y p ^ 2 + q ^ 2) := funext hm
  have cm : ContinuousAt m (a, a, 0) := by rw [hmf]; fun_prop
  have vm : m (a, a, 0) = q ^ 4 := by rw [hm, vx, vy]; ring
  have c3 : ContinuousAt (fun p : ℝ × ℝ × ℝ => p.2.2) (a, a, 0) := by fun_prop
  have cH : ContinuousAt (fun p => p.2.2 ^ 2 * ((y p - q) * (y p + q))) (a, a, 0) := by fun_prop
  have tA : Tendsto (fun p => x p * q) (collF a) (𝓝 (a * q)) := by
    have := (hx.mul_const q).tendsto.mono_left (nhdsWithin_le_nhds (s := {p | Triangle p.1 p.2.1 p.2.2}))
    rwa [vx] at this
  have tM : Tendsto m (collF a) (𝓝 (q ^ 4)) := by
    have := cm.tendsto.mono_left (nhdsWithin_le_nhds (s := {p | Triangle p.1 p.2.1 p.2.2}))
    rwa [vm] at this
  have tH : Tendsto (fun p => p.2.2 ^ 2 * ((y p - q) * (y p + q))) (collF a) (𝓝 0) := by
    have := cH.tendsto.mono_left (nhdsWithin_le_nhds (s := {p | Triangle p.1 p.2.1 p.2.2}))
    simp only [ne_eq, OfNat.ofNat_ne_zero, not_false_eq_true, zero_pow, zero_mul] at this
    exact this
  have key := (tri_taylor (collF a) _ _ _ _ _ hdom tA tM tH).2
  have cd : ContinuousAt (fun p => ((y p - q) * (y p + q)) ^ 3) (a, a, 0) := by fun_prop
  have o := (collF_one cd).mul (isBigO_refl (fun p : ℝ × ℝ × ℝ => p.2.2 ^ 6) (collF a))
  simp only [one_mul] at o
  have key2 := key.trans (o.congr_left (f₂ := fun p => (p.2.2 ^ 2 * ((y p - q) * (y p + q))) ^ 3) fun p => by ring)
  refine key2.congr' ?_ EventuallyEq.rfl
  have ey : ∀ᶠ p in collF a, (y p - q) * (y p + q) ≠ 0 :=
    collF_ev ((show ContinuousAt (fun p => (y p - q) * (y p + q)) (a, a, 0) by fun_prop).eventually_ne
      (by rw [vy]; intro h; exact hn (by linear_combination h)))
  have em : ∀ᶠ p in collF a, m p ≠ 0 := tM.eventually_ne (by positivity)
  filter_upwards [ey, em] with p hd hm0
  have hrel : m p - (x p * q) ^ 2 = -(q ^ 2 * ((y p - q) * (y p + q))) := by rw [hm]; ring
  have e1 := coll_tri1 _ _ _ q (p.2.2 ^ 2) hm0 hq.ne' hd hrel
  have e2 := coll_tri2 _ _ _ q (p.2.2 ^ 2) hm0 hq.ne' hd hrel
  have e3 : triM (y p) p.2.2 (x p) q = m p + p.2.2 ^ 2 * ((y p - q) * (y p + q)) := by rw [hm]; unfold triM; ring
  rw [e3, collW, e1, e2]
  ring

theorem coll_cont (a q : ℝ) (x y : ℝ × ℝ × ℝ → ℝ) (ha : 0 < a) (hq : 0 < q) (n : q ≠ a) (hx : ContinuousAt x (a, a, 0)) (hy : ContinuousAt y (a, a, 0))
    (vx : x (a, a, 0) = a) (vy : y (a, a, 0) = a) (m : ℝ × ℝ × ℝ → ℝ) (hm : ∀ p, m p = q ^ 2 * (x p ^ 2 - y p ^ 2 + q ^ 2)) :
    ContinuousAt (fun p => collA ((y p - q) * (y p + q)) (x p * q) (m p) q (triLog (x p * q) (m p))) (a, a, 0) ∧
    ContinuousAt (fun p => collB ((y p - q) * (y p + q)) (x p * q) (m p) q (triLog (x p * q) (m p))) (a, a, 0) := by
  have hn := sq_sub_ne ha hq n
  have hdom : TriDom (a * q) (q ^ 4) := by
    refine ⟨by positivity, by positivity, fun h0 => hn ?_⟩
    have : q ^ 2 * (a ^ 2 - q ^ 2) = 0 := by linear_combination -h0
    rcases mul_eq_zero.mp this with h | h
    · exact absurd h (by positivity)
    · exact h
  have hmf : m = fun p => q ^ 2 * (x p ^ 2 - y p ^ 2 + q ^ 2) := funext hm
  have cm : ContinuousAt m (a, a, 0) := by rw [hmf]; fun_prop
  have vm : m (a, a, 0) = q ^ 4 := by rw [hm, vx, vy]; ring
  have ct : ContinuousAt (fun p => triLog (x p * q) (m p)) (a, a, 0) := by
    have h0 := cont_tri0 _ _ hdom
    have h1 : ContinuousAt (fun p => (x p * q, m p)) (a, a, 0) := (hx.mul_const q).prodMk cm
    exact ContinuousAt.comp (g := fun p : ℝ × ℝ => triLog p.1 p.2) (f := fun p => (x p * q, m p)) (by simpa only [vx, vm] using h0) h1
  have hm0 : m (a, a, 0) ≠ 0 := by rw [vm]; positivity
  have hq0 := hq.ne'
  unfold collA collB
  constructor
  · exact ((((hy.sub continuousAt_const).mul (hy.add continuousAt_const)).mul ct).div (cm.const_mul 2) (mul_ne_zero two_ne_zero hm0)).neg.add
      (((hx.mul_const q).const_mul 2).div (cm.mul_const _) (mul_ne_zero hm0 (by positivity)))
  · have cy : ContinuousAt (fun p => (y p - q) * (y p + q)) (a, a, 0) := by fun_prop
    have cx : ContinuousAt (fun p => x p * q) (a, a, 0) := by fun_prop
    exact ((((cy.pow 2).const_mul 3).mul ct).div ((cm.pow 2).const_mul 8) (mul_ne_zero (by norm_num) (pow_ne_zero 2 hm0))).sub
      (((cx.const_mul 3).mul cy).div (((cm.pow 2).const_mul 2).mul_const _) (mul_ne_zero (mul_ne_zero two_ne_zero (pow_ne_zero 2 hm0)) (by positivity))) |>.add
      (cx.div (cm.mul_const _) (mul_ne_zero hm0 (by positivity)))

theorem cont_LFunc (q : ℝ) (x : ℝ × ℝ × ℝ → ℝ) (P : ℝ × ℝ × ℝ) (hx : ContinuousAt x P) (h0 : 0 < x P) (hq : 0 < q) (n : q ≠ x P) :
    ContinuousAt (fun p => LFunc (x p) q) P := by
  unfold LFunc
  have hd : x P - q ≠ 0 := sub_ne_zero.mpr n.symm
  refine ContinuousAt.mul continuousAt_const (ContinuousAt.log (((hx.add continuousAt_const).div (hx.sub continuousAt_const) hd).abs) ?_)
  exact abs_ne_zero.mpr (div_ne_zero (by positivity) hd)


end

end Verif
