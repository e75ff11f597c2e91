import Verif.Proofs.TriColl

/-!
# Expansion of the logarithms of the second-order loop kernels for a short second side
-/

set_option linter.unusedVariables false

namespace Verif

noncomputable section

open Real Asymptotics Filter Topology

/-- The expansion of `triLog` to first order in the square of the short side. -/
def elongW (d a m q x : ℝ) : ℝ := triLog a m + x ^ 2 * collA d a m q (triLog a m)

/-- Triangles whose second side shrinks while the two others approach `a`. -/
def elongF (a : ℝ) : Filter (ℝ × ℝ × ℝ) := 𝓝[{p | Triangle p.1 p.2.1 p.2.2}] (a, 0, a)

theorem elongF_one {a : ℝ} {f : ℝ × ℝ × ℝ → ℝ} (h : ContinuousAt f (a, 0, a)) : f =O[elongF a] fun _ => (1 : ℝ) :=
  (h.tendsto.mono_left nhdsWithin_le_nhds).isBigO_one ℝ

theorem elongF_tri (a : ℝ) : ∀ᶠ p in elongF a, Triangle p.1 p.2.1 p.2.2 := self_mem_nhdsWithin

theorem elongF_ev {a : ℝ} {P : ℝ × ℝ × ℝ → Prop} (h : ∀ᶠ p in 𝓝 (a, (0 : ℝ), a), P p) : ∀ᶠ p in elongF a, P p := h.filter_mono nhdsWithin_le_nhds

theorem elong_L2 (a q : ℝ) (hq : 0 < q) :
    (fun p : ℝ × ℝ × ℝ => LFunc p.2.1 q - 4 * artSum 5 (p.2.1 / q)) =O[elongF a] fun p => p.2.1 ^ 11 := by
  refine IsBigO.of_bound (6 / q ^ 11) ?_
  have e1 : ∀ᶠ p : ℝ × ℝ × ℝ in elongF a, 2 * p.2.1 < q :=
    elongF_ev ((show ContinuousAt (fun p : ℝ × ℝ × ℝ => 2 * p.2.1) (a, 0, a) by fun_prop).eventually (gt_mem_nhds (by simpa using hq)))
  filter_upwards [e1, elongF_tri a] with p hp ht
  have h2 := ht.pos2
  rw [Real.norm_eq_abs, Real.norm_eq_abs, abs_of_pos (by positivity : 0 < p.2.1 ^ 11)]
  refine (LFunc_large 5 p.2.1 q h2 hp.le).trans (le_of_eq ?_)
  rw [div_pow]; ring

theorem elong_W2 (a q : ℝ) (ha : 0 < a) (hq : 0 < q) (n : q ≠ a) :
    (fun p : ℝ × ℝ × ℝ => triLog (p.2.1 * q) (triM p.1 p.2.2 p.2.1 q)) =O[elongF a] fun p => p.2.1 := by
  have hn := sq_sub_ne ha hq n
  have cM : ContinuousAt (fun p : ℝ × ℝ × ℝ => triM p.1 p.2.2 p.2.1 q) (a, 0, a) := by unfold triM; fun_prop
  have vM : triM a a 0 q = (a ^ 2 - q ^ 2) * (a ^ 2 - q ^ 2) := by unfold triM; ring
  have hM0 : 0 < triM a a 0 q := by rw [vM]; exact mul_self_pos.mpr hn
  have c1 : ContinuousAt (fun p : ℝ × ℝ × ℝ => 6 * q / triM p.1 p.2.2 p.2.1 q) (a, 0, a) := continuousAt_const.div cM hM0.ne'
  have o1 := (elongF_one c1).mul (isBigO_refl (fun p : ℝ × ℝ × ℝ => p.2.1) (elongF a))
  simp only [one_mul] at o1
  have ev1 : ∀ᶠ p : ℝ × ℝ × ℝ in elongF a, 4 * (p.2.1 * q) ^ 2 < triM p.1 p.2.2 p.2.1 q := by
    have : ContinuousAt (fun p : ℝ × ℝ × ℝ => triM p.1 p.2.2 p.2.1 q - 4 * (p.2.1 * q) ^ 2) (a, 0, a) := by unfold triM; fun_prop
    refine (elongF_ev (this.eventually (lt_mem_nhds (show (0 : ℝ) < _ from ?_)))).mono fun p hp => by linarith
    simpa using hM0
  refine IsBigO.trans (IsBigO.of_bound 1 ?_) o1
  filter_upwards [ev1, elongF_tri a] with p hp ht
  have h2 := ht.pos2
  have hm : 0 < triM p.1 p.2.2 p.2.1 q := lt_of_le_of_lt (by positivity) hp
  have := triLog_near 0 (p.2.1 * q) (triM p.1 p.2.2 p.2.1 q) (by positivity) hp.le
  have e : triSum 0 (p.2.1 * q) (triM p.1 p.2.2 p.2.1 q) = 0 := by simp [triSum]
  rw [e, sub_zero] at this
  rw [Real.norm_eq_abs, Real.norm_eq_abs, one_mul, abs_of_pos (show 0 < 6 * q / triM p.1 p.2.2 p.2.1 q * p.2.1 by positivity)]
  refine this.trans (le_of_eq ?_)
  field_simp

/-- The expansion of the two other logarithms; `x`, `y` are the two long sides. -/
theorem elong_W (a q : ℝ) (x y : ℝ × ℝ × ℝ → ℝ) (ha : 0 < a) (hq : 0 < q) (n : q ≠ a) (hx : ContinuousAt x (a, 0, a)) (hy : ContinuousAt y (a, 0, a))
    (vx : x (a, 0, a) = a) (vy : y (a, 0, a) = a) (m : ℝ × ℝ × ℝ → ℝ) (hm : ∀ p, m p = q ^ 2 * (x p ^ 2 - y p ^ 2 + q ^ 2)) :
    (fun p : ℝ × ℝ × ℝ => triLog (x p * q) (triM (y p) p.2.1 (x p) q) - elongW ((y p - q) * (y p + q)) (x p * q) (m p) q p.2.1)
      =O[elongF a] fun p => p.2.1 ^ 4 := by
  have hn := sq_sub_ne ha hq n
  have hdom : TriDom (a * q) (q ^ 4) := by
    refine ⟨by positivity, by positivity, fun h0 => hn ?_⟩
    have : q ^ 2 * (a ^ 2 - q ^ 2) = 0 := by linear_combination -h0
    rcases mul_eq_zero.mp this with h | h
    · exact absurd h (by positivity)
    · exact h
  have hmf : m = fun p => q ^ 2 * (x p ^ 2 - y p ^ 2 + q ^ 2) := funext hm
  have cm : ContinuousAt m (a, 0, a) := by rw [hmf]; fun_prop
  have vm : m (a, 0, a) = q ^ 4 := by rw [hm, vx, vy]; ring
  have c3 : ContinuousAt (fun p : ℝ × ℝ × ℝ => p.2.1) (a, 0, a) := by fun_prop
  have cH : ContinuousAt (fun p => p.2.1 ^ 2 * ((y p - q) * (y p + q))) (a, 0, a) := by fun_prop
  have tA : Tendsto (fun p => x p * q) (elongF a) (𝓝 (a * q)) := by
    have := (hx.mul_const q).tendsto.mono_left (nhdsWithin_le_nhds (s := {p | Triangle p.1 p.2.1 p.2.2}))
    rwa [vx] at this
  have tM : Tendsto m (elongF a) (𝓝 (q ^ 4)) := by
    have := cm.tendsto.mono_left (nhdsWithin_le_nhds (s := {p | Triangle p.1 p.2.1 p.2.2}))
    rwa [vm] at this
  have tH : Tendsto (fun p => p.2.1 ^ 2 * ((y p - q) * (y p + q))) (elongF a) (𝓝 0) := by
    have := cH.tendsto.mono_left (nhdsWithin_le_nhds (s := {p | Triangle p.1 p.2.1 p.2.2}))
    simp only [ne_eq, OfNat.ofNat_ne_zero, not_false_eq_true, zero_pow, zero_mul] at this
    exact this
  have key := (tri_taylor (elongF a) _ _ _ _ _ hdom tA tM tH).1
  have cd : ContinuousAt (fun p => ((y p - q) * (y p + q)) ^ 2) (a, 0, a) := by fun_prop
  have o := (elongF_one cd).mul (isBigO_refl (fun p : ℝ × ℝ × ℝ => p.2.1 ^ 4) (elongF a))
  simp only [one_mul] at o
  have key2 := key.trans (o.congr_left (f₂ := fun p => (p.2.1 ^ 2 * ((y p - q) * (y p + q))) ^ 2) fun p => by ring)
  refine key2.congr' ?_ EventuallyEq.rfl
  have ey : ∀ᶠ p in elongF a, (y p - q) * (y p + q) ≠ 0 :=
    elongF_ev ((show ContinuousAt (fun p => (y p - q) * (y p + q)) (a, 0, a) by fun_prop).eventually_ne
      (by rw [vy]; intro h; exact hn (by linear_combination h)))
  have em : ∀ᶠ p in elongF a, m p ≠ 0 := tM.eventually_ne (by positivity)
  filter_upwards [ey, em] with p hd hm0
  have hrel : m p - (x p * q) ^ 2 = -(q ^ 2 * ((y p - q) * (y p + q))) := by rw [hm]; ring
  have e1 := coll_tri1 _ _ _ q (p.2.1 ^ 2) hm0 hq.ne' hd hrel
  have e3 : triM (y p) p.2.1 (x p) q = m p + p.2.1 ^ 2 * ((y p - q) * (y p + q)) := by rw [hm]; unfold triM; ring
  rw [e3, elongW, e1]
  ring

theorem elong_cont (a q : ℝ) (x y : ℝ × ℝ × ℝ → ℝ) (ha : 0 < a) (hq : 0 < q) (n : q ≠ a) (hx : ContinuousAt x (a, 0, a)) (hy : ContinuousAt y (a, 0, a))
    (vx : x (a, 0, a) = a) (vy : y (a, 0, a) = a) (m : ℝ × ℝ × ℝ → ℝ) (hm : ∀ p, m p = q ^ 2 * (x p ^ 2 - y p ^ 2 + q ^ 2)) :
    ContinuousAt (fun p => collA ((y p - q) * (y p + q)) (x p * q) (m p) q (triLog (x p * q) (m p))) (a, 0, a) ∧
    ContinuousAt (fun p => triLog (x p * q) (m p)) (a, 0, a) := by
  have hn := sq_sub_ne ha hq n
  have hdom : TriDom (a * q) (q ^ 4) := by
    refine ⟨by positivity, by positivity, fun h0 => hn ?_⟩
    have : q ^ 2 * (a ^ 2 - q ^ 2) = 0 := by linear_combination -h0
    rcases mul_eq_zero.mp this with h | h
    · exact absurd h (by positivity)
    · exact h
  have hmf : m = fun p => q ^ 2 * (x p ^ 2 - y p ^ 2 + q ^ 2) := funext hm
  have cm : ContinuousAt m (a, 0, a) := by rw [hmf]; fun_prop
  have vm : m (a, 0, a) = q ^ 4 := by rw [hm, vx, vy]; ring
  have ct : ContinuousAt (fun p => triLog (x p * q) (m p)) (a, 0, a) := by
    have h0 := cont_tri0 _ _ hdom
    have h1 : ContinuousAt (fun p => (x p * q, m p)) (a, 0, a) := (hx.mul_const q).prodMk cm
    exact ContinuousAt.comp (g := fun p : ℝ × ℝ => triLog p.1 p.2) (f := fun p => (x p * q, m p)) (by simpa only [vx, vm] using h0) h1
  have hm0 : m (a, 0, a) ≠ 0 := by rw [vm]; positivity
  have hq0 := hq.ne'
  refine ⟨?_, ct⟩
  unfold collA
  exact ((((hy.sub continuousAt_const).mul (hy.add continuousAt_const)).mul ct).div (cm.const_mul 2) (mul_ne_zero two_ne_zero hm0)).neg.add
    (((hx.mul_const q).const_mul 2).div (cm.mul_const _) (mul_ne_zero hm0 (by positivity)))

end

end Verif
