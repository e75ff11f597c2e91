import Verif.Proofs.Expand
import Verif.Props.Bispectrum
import Verif.Props.GrowthA

/-!
# C91: the small-amplitude expansion

Regularised perturbation theory resums the damping.  At small amplitude its results must expand to those of standard perturbation theory to
the order kept, in which the damping no longer appears.
-/

namespace Verif

open Asymptotics Filter Topology
open Res (Rel)

/-! ## The spectra -/

/-- The squared displacement used: the one supplied, else the column. -/
noncomputable def usedSigma (t : Terms) (sig : Option (ℕ → ℝ)) (i : ℕ) : ℝ := sig.elim (t.val "sigmad2" i) fun f => f i

theorem damp_exponent (k D x : ℝ) : 0.5 * (k * D) ^ 2 * x = D ^ 2 * (k ^ 2 * x / 2) := by ring

theorem Terms.pk1_used (t : Terms) (D : ℝ) (sig : Option (ℕ → ℝ)) (i : ℕ) : t.pk1 D sig i = t.pk1 D (some (usedSigma t sig)) i := by
  cases sig <;> rfl

theorem Terms.pk2_used (t : Terms) (D : ℝ) (sig : Option (ℕ → ℝ)) (i : ℕ) : t.pk2 D sig i = t.pk2 D (some (usedSigma t sig)) i := by
  cases sig <;> rfl

theorem Terms.pkBiasDamp_used (t : Terms) (key : String) (D : ℝ) (sig : Option (ℕ → ℝ)) (i : ℕ) :
    t.pkBiasDamp key D sig i = t.pkBiasDamp key D (some (usedSigma t sig)) i := by
  cases sig <;> rfl

/-- C91 for `Spectrum1Loop.pk`: up to the sixth power of the growth factor, the linear spectrum and the undamped one-loop terms. -/
theorem C91_pk1 (t : Terms) (sig : Option (ℕ → ℝ)) (i : ℕ) :
    (fun D : ℝ => t.pk1 D sig i - (D ^ 2 * t.val "pk_lin" i +
      D ^ 4 * ((t.val "gamma1a_1loop" i + t.val "gamma1b_1loop" i) * t.val "pk_lin" i + t.val "pk_gamma2_tree_tree" i)))
      =O[𝓝 0] fun D => D ^ 6 := by
  set s := (t.val "k" i) ^ 2 * usedSigma t sig i / 2 with hs
  set a := t.val "gamma1a_1loop" i with ha
  set b := t.val "gamma1b_1loop" i with hb
  set P := t.val "pk_lin" i with hP
  set G := t.val "pk_gamma2_tree_tree" i with hG
  have h := expand_growth 2 (expand_two P (P * ((s + a) + (s + b)) + G) (2 * s) (fun _ => P * ((s + a) * (s + b))) continuousAt_const)
  refine h.congr_left fun D => ?_
  have hf : t.pk1 D sig i = D * Real.exp (-(D ^ 2 * s)) * (1 + D ^ 2 * s + D ^ 2 * a) * (D * Real.exp (-(D ^ 2 * s)) * (1 + D ^ 2 * s + D ^ 2 * b)) * P +
      D ^ 4 * Real.exp (-2 * (D ^ 2 * s)) * G := by
    rw [Terms.pk1_used]
    simp only [Terms.pk1, damp_exponent, hs, ha, hb, hP, hG]
  rw [hf]
  have e1 : Real.exp (-2 * (D ^ 2 * s)) = Real.exp (-(D ^ 2 * s)) * Real.exp (-(D ^ 2 * s)) := by
    rw [← Real.exp_add]; congr 1; ring
  have e2 : Real.exp (-(D ^ 2 * (2 * s))) = Real.exp (-(D ^ 2 * s)) * Real.exp (-(D ^ 2 * s)) := by
    rw [← Real.exp_add]; congr 1; ring
  rw [e1, e2]
  ring

/-- C91 for `Spectrum2Loop.pk`: up to the eighth power of the growth factor, the linear spectrum with the undamped one- and two-loop terms. -/
theorem C91_pk2 (t : Terms) (sig : Option (ℕ → ℝ)) (i : ℕ) :
    (fun D : ℝ => t.pk2 D sig i - (D ^ 2 * t.val "pk_lin" i +
      D ^ 4 * ((t.val "gamma1a_1loop" i + t.val "gamma1b_1loop" i) * t.val "pk_lin" i + t.val "pk_gamma2_tree_tree" i) +
      D ^ 6 * ((t.val "gamma1a_2loop" i + t.val "gamma1b_2loop" i + t.val "gamma1a_1loop" i * t.val "gamma1b_1loop" i) * t.val "pk_lin" i +
        t.val "pk_gamma2_tree_1loop" i + t.val "pk_gamma3_tree" i)))
      =O[𝓝 0] fun D => D ^ 8 := by
  set s := (t.val "k" i) ^ 2 * usedSigma t sig i / 2 with hs
  set a := t.val "gamma1a_1loop" i with ha
  set b := t.val "gamma1b_1loop" i with hb
  set a2 := t.val "gamma1a_2loop" i with ha2
  set b2 := t.val "gamma1b_2loop" i with hb2
  set P := t.val "pk_lin" i with hP
  set G := t.val "pk_gamma2_tree_tree" i with hG
  set G1 := t.val "pk_gamma2_tree_1loop" i with hG1
  set G2 := t.val "pk_gamma2_1loop_1loop" i with hG2
  set G3 := t.val "pk_gamma3_tree" i with hG3
  have h := expand_growth 2 (expand_three P (P * ((s + a) + (s + b)) + G)
    (P * ((s ^ 2 / 2 + a * s + a2) + (s ^ 2 / 2 + b * s + b2) + (s + a) * (s + b)) + 2 * s * G + G1 + G3) (2 * s)
    (fun c => P * ((s + a) * (s ^ 2 / 2 + b * s + b2) + (s ^ 2 / 2 + a * s + a2) * (s + b) +
      c * ((s ^ 2 / 2 + a * s + a2) * (s ^ 2 / 2 + b * s + b2))) + s ^ 2 * G + s * G1 + G2) (by fun_prop))
  refine h.congr_left fun D => ?_
  have hf : t.pk2 D sig i =
      D * Real.exp (-(D ^ 2 * s)) * (1 + D ^ 2 * s + 0.5 * (D ^ 2 * s) ^ 2 + D ^ 2 * a * (1 + D ^ 2 * s) + D ^ 4 * a2) *
        (D * Real.exp (-(D ^ 2 * s)) * (1 + D ^ 2 * s + 0.5 * (D ^ 2 * s) ^ 2 + D ^ 2 * b * (1 + D ^ 2 * s) + D ^ 4 * b2)) * P +
      D ^ 4 * Real.exp (-2 * (D ^ 2 * s)) * (G * (1 + D ^ 2 * s) ^ 2 + G1 * D ^ 2 * (1 + D ^ 2 * s) + G2 * D ^ 4) +
      D ^ 6 * Real.exp (-2 * (D ^ 2 * s)) * G3 := by
    rw [Terms.pk2_used]
    simp only [Terms.pk2, damp_exponent, hs, ha, hb, hP, hG, ha2, hb2, hG1, hG2, hG3]
  rw [hf]
  have e1 : Real.exp (-2 * (D ^ 2 * s)) = Real.exp (-(D ^ 2 * s)) * Real.exp (-(D ^ 2 * s)) := by
    rw [← Real.exp_add]; congr 1; ring
  have e2 : Real.exp (-(D ^ 2 * (2 * s))) = Real.exp (-(D ^ 2 * s)) * Real.exp (-(D ^ 2 * s)) := by
    rw [← Real.exp_add]; congr 1; ring
  rw [e1, e2]
  ring

/-- C91 for the bias terms with damping: up to the eighth power of the growth factor, the terms without it. -/
theorem C91_damped (t : Terms) (key : String) (sig : Option (ℕ → ℝ)) (i : ℕ) :
    (fun D : ℝ => t.pkBiasDamp key D sig i - D ^ 4 * t.val key i) =O[𝓝 0] fun D => D ^ 8 := by
  set s := (t.val "k" i) ^ 2 * usedSigma t sig i / 2 with hs
  set P := t.val key i with hP
  have h := expand_growth 4 (expand_two P (P * (2 * s)) (2 * s) (fun _ => P * s ^ 2) continuousAt_const)
  refine h.congr_left fun D => ?_
  have hf : t.pkBiasDamp key D sig i = D ^ (2 * 2) * (Real.exp (-((2 : ℕ) : ℝ) * (D ^ 2 * s)) * (1 + D ^ 2 * s) ^ 2) * P := by
    rw [Terms.pkBiasDamp_used]
    simp only [Terms.pkBiasDamp, Terms.dampingFactor, damp_exponent, hs, hP]
  rw [hf, show -((2 : ℕ) : ℝ) * (D ^ 2 * s) = -(D ^ 2 * (2 * s)) by push_cast; ring]
  ring

/-! ## The bispectrum -/

/-- A triangle: the length, spectrum, tree and loop two-point propagators towards the leg, and loop one-point propagator of each leg. -/
structure Legs where
  P : Fin 3 → ℝ
  tree : Field → Fin 3 → ℝ
  loop : Field → Fin 3 → ℝ
  gam : Field → Fin 3 → ℝ

/-- Tree bispectrum of the fields `f` at the three legs. -/
def Legs.tree3 (l : Legs) (f : Fin 3 → Field) : ℝ := 2 * ∑ j, l.tree (f j) j * l.P (j + 1) * l.P (j + 2)

/-- One-loop bispectrum, as far as made of propagators with one loop. -/
def Legs.loop3 (l : Legs) (f : Fin 3 → Field) : ℝ :=
  2 * ∑ j, (l.loop (f j) j + l.tree (f j) j * (l.gam (f (j + 1)) (j + 1) + l.gam (f (j + 2)) (j + 2))) * l.P (j + 1) * l.P (j + 2)

/-- Fields of the four outputs of each half, at the legs `p`, `|k-p|`, `k`. -/
def fieldsA : Fin 4 → Fin 3 → Field :=
  ![![.theta, .delta, .delta], ![.theta, .theta, .delta], ![.theta, .delta, .theta], ![.theta, .theta, .theta]]
def fieldsT : Fin 4 → Fin 3 → Field :=
  ![![.delta, .theta, .delta], ![.theta, .theta, .delta], ![.delta, .theta, .theta], ![.theta, .theta, .theta]]

/-- The values that the library computes for the legs `p`, `kp`, `k`. -/
structure LegsOf (t : Pk ℝ) (i : Interpol) (uv : ℝ) (g1 gd gt : GLQ ℝ) (k p kp : ℝ) (s : Fin 3 → ℝ) (l : Legs) : Prop where
  sigma : ∀ j, sigma1 t uv (![p, kp, k] j) = .ok (s j)
  pk : ∀ j, look t i (![p, kp, k] j) = .ok (l.P j)
  gam : ∀ a j, gamma1OneLoop a g1 (![p, kp, k] j) = .ok (l.gam a j)
  tree : ∀ a j, l.tree a j = gamma2Tree a (![kp, p, p] j) (![k, k, kp] j) (![p, kp, k] j)
  loopd : ∀ j, gamma2OneLoop .delta gd (![kp, p, p] j) (![k, k, kp] j) (![p, kp, k] j) = .ok (l.loop .delta j)
  loopt : ∀ j, gamma2OneLoop .theta gt (![kp, p, p] j) (![k, k, kp] j) (![p, kp, k] j) = .ok (l.loop .theta j)

/-- The exponent of each leg. -/
noncomputable def legDamp (k p kp : ℝ) (s : Fin 3 → ℝ) (j : Fin 3) : ℝ := (![p, kp, k] j) * (![p, kp, k] j) * s j / 2

/-- The regularised bispectrum on the spectrum multiplied by `c`. -/
noncomputable def Legs.reg (l : Legs) (f : Fin 3 → ℝ) (h : Fin 3 → Field) (c : ℝ) : ℝ :=
  2 * (∑ j, (l.tree (h j) j * (1 + c * f j) + c * l.loop (h j) j) * (1 + c * (f (j + 1) + l.gam (h (j + 1)) (j + 1))) *
    (1 + c * (f (j + 2) + l.gam (h (j + 2)) (j + 2))) * l.P (j + 1) * l.P (j + 2)) * Real.exp (-(c * ∑ j, f j))

theorem Legs.reg_expand (l : Legs) (f : Fin 3 → ℝ) (h : Fin 3 → Field) :
    (fun c : ℝ => l.reg f h c - (l.tree3 h + l.loop3 h * c)) =O[𝓝 0] fun c => c ^ 2 := by
  have e := expand_two (l.tree3 h) (l.loop3 h + l.tree3 h * ∑ j, f j) (∑ j, f j)
    (fun c => 2 * ∑ j, ((l.tree (h j) j * f j + l.loop (h j) j) *
        ((f (j + 1) + l.gam (h (j + 1)) (j + 1)) + (f (j + 2) + l.gam (h (j + 2)) (j + 2))) +
      (l.tree (h j) j + c * (l.tree (h j) j * f j + l.loop (h j) j)) *
        ((f (j + 1) + l.gam (h (j + 1)) (j + 1)) * (f (j + 2) + l.gam (h (j + 2)) (j + 2)))) * l.P (j + 1) * l.P (j + 2)) (by fun_prop)
  refine e.congr_left fun c => ?_
  simp only [Legs.reg, Legs.tree3, Legs.loop3, Fin.sum_univ_three, show (0 : Fin 3) + 1 = 1 from rfl, show (0 : Fin 3) + 2 = 2 from rfl,
    show (1 : Fin 3) + 1 = 2 from rfl, show (1 : Fin 3) + 2 = 0 from rfl, show (2 : Fin 3) + 1 = 0 from rfl, show (2 : Fin 3) + 2 = 1 from rfl]
  ring

theorem bi_reg {t : Pk ℝ} {i : Interpol} {uv : ℝ} {g1 gd gt : GLQ ℝ} {k p kp : ℝ} (hk : 1 / 100 ≤ k) (hp : 1 / 100 ≤ p)
    (hkp : 3 / 100 ≤ kp) {s : Fin 3 → ℝ} {l : Legs} (h : LegsOf t i uv g1 gd gt k p kp s l) {c : ℝ} (hc : 0 < c) :
    ∃ b, bispectrumI (t.scale c) i uv (g1.scale c) (gd.scale c) (gt.scale c) k p kp = .ok b ∧
      (∀ m, b.a m = c ^ 2 * l.reg (legDamp k p kp s) (fieldsA m) c) ∧ ∀ m, b.t m = c ^ 2 * l.reg (legDamp k p kp s) (fieldsT m) c := by
  have hm : 1 / 100 ≤ rMax3 kp k p ∧ 1 / 100 ≤ k := by
    refine ⟨?_, hk⟩
    unfold rMax3 rMax
    split_ifs <;> linarith
  have s0 : sigma1 t uv p = .ok (s 0) := h.sigma 0
  have s1 : sigma1 t uv kp = .ok (s 1) := h.sigma 1
  have s2 : sigma1 t uv k = .ok (s 2) := h.sigma 2
  have p0 : look t i p = .ok (l.P 0) := h.pk 0
  have p1 : look t i kp = .ok (l.P 1) := h.pk 1
  have p2 : look t i k = .ok (l.P 2) := h.pk 2
  have c0 : ∀ a, gamma1OneLoop a g1 p = .ok (l.gam a 0) := fun a => h.gam a 0
  have c1 : ∀ a, gamma1OneLoop a g1 kp = .ok (l.gam a 1) := fun a => h.gam a 1
  have c2 : ∀ a, gamma1OneLoop a g1 k = .ok (l.gam a 2) := fun a => h.gam a 2
  have t0 : ∀ a, gamma2Tree a kp k p = l.tree a 0 := fun a => (h.tree a 0).symm
  have t1 : ∀ a, gamma2Tree a p k kp = l.tree a 1 := fun a => (h.tree a 1).symm
  have t2 : ∀ a, gamma2Tree a p kp k = l.tree a 2 := fun a => (h.tree a 2).symm
  have d0 : gamma2OneLoop .delta gd kp k p = .ok (l.loop .delta 0) := h.loopd 0
  have d1 : gamma2OneLoop .delta gd p k kp = .ok (l.loop .delta 1) := h.loopd 1
  have d2 : gamma2OneLoop .delta gd p kp k = .ok (l.loop .delta 2) := h.loopd 2
  have v0 : gamma2OneLoop .theta gt kp k p = .ok (l.loop .theta 0) := h.loopt 0
  have v1 : gamma2OneLoop .theta gt p k kp = .ok (l.loop .theta 1) := h.loopt 1
  have v2 : gamma2OneLoop .theta gt p kp k = .ok (l.loop .theta 2) := h.loopt 2
  simp only [bispectrumI, gamma1Reg, g1RegIf, g1RegOne, gamma2Reg, g2RegOne, if_pos hk, if_pos (And.intro hp hk),
    if_pos (And.intro hkp hk), if_pos hm, Rel.times (sigma1_scale c t uv k) s2, Rel.times (sigma1_scale c t uv p) s0,
    Rel.times (sigma1_scale c t uv kp) s1, Rel.times (look_scale hc t i k) p2, Rel.times (look_scale hc t i p) p0,
    Rel.times (look_scale hc t i kp) p1, Rel.times (gamma1OneLoop_scale c _ g1 k) (c2 _),
    Rel.times (gamma1OneLoop_scale c _ g1 p) (c0 _), Rel.times (gamma1OneLoop_scale c _ g1 kp) (c1 _),
    Rel.times (gamma2OneLoop_scale c _ gd _ _ _) d0, Rel.times (gamma2OneLoop_scale c _ gt _ _ _) v0,
    Rel.times (gamma2OneLoop_scale c _ gd _ _ _) d1, Rel.times (gamma2OneLoop_scale c _ gt _ _ _) v1,
    Rel.times (gamma2OneLoop_scale c _ gd _ _ _) d2, Rel.times (gamma2OneLoop_scale c _ gt _ _ _) v2, Res.ok_bind, t0, t1, t2]
  have he : -((k * k * (c * s 2) + p * p * (c * s 0) + kp * kp * (c * s 1)) / 2) = -(c * ∑ j, legDamp k p kp s j) := by
    simp [legDamp, Fin.sum_univ_three]; ring
  rw [he]
  have e0 : legDamp k p kp s 0 = p * p * s 0 / 2 := rfl
  have e1 : legDamp k p kp s 1 = kp * kp * s 1 / 2 := rfl
  have e2 : legDamp k p kp s 2 = k * k * s 2 / 2 := rfl
  refine ⟨_, rfl, fun m => ?_, fun m => ?_⟩ <;> fin_cases m <;>
  · simp [biAssemble, Legs.reg, fieldsA, fieldsT, Fin.sum_univ_three, show (0 : Fin 3) + 1 = 1 from rfl, show (0 : Fin 3) + 2 = 2 from rfl,
      show (1 : Fin 3) + 1 = 2 from rfl, show (1 : Fin 3) + 2 = 0 from rfl, show (2 : Fin 3) + 1 = 0 from rfl,
      show (2 : Fin 3) + 2 = 1 from rfl, e0, e1, e2]
    ring

/-- The library computes the values of the legs wherever it finds the spectrum and the displacement there. -/
theorem LegsOf.exists {t : Pk ℝ} {i : Interpol} {uv : ℝ} {g1 gd gt : GLQ ℝ} (h1 : g1.Ok) (hd : gd.Ok) (ht : gt.Ok) {k p kp : ℝ}
    {s P : Fin 3 → ℝ} (hs : ∀ j, sigma1 t uv (![p, kp, k] j) = .ok (s j)) (hP : ∀ j, look t i (![p, kp, k] j) = .ok (P j)) :
    ∃ l, LegsOf t i uv g1 gd gt k p kp s l ∧ l.P = P := by
  have e1 : ∀ a j, ∃ v, gamma1OneLoop a g1 (![p, kp, k] j) = .ok v := fun a j => ⟨_, C23_one_loop_sum a g1 h1 _⟩
  have e2 : ∀ j, ∃ v, gamma2OneLoop .delta gd (![kp, p, p] j) (![k, k, kp] j) (![p, kp, k] j) = .ok v :=
    fun j => ⟨_, gamma2OneLoop_sum .delta gd hd _ _ _⟩
  have e3 : ∀ j, ∃ v, gamma2OneLoop .theta gt (![kp, p, p] j) (![k, k, kp] j) (![p, kp, k] j) = .ok v :=
    fun j => ⟨_, gamma2OneLoop_sum .theta gt ht _ _ _⟩
  choose v1 e1 using e1
  choose v2 e2 using e2
  choose v3 e3 using e3
  exact ⟨⟨P, fun a j => gamma2Tree a (![kp, p, p] j) (![k, k, kp] j) (![p, kp, k] j),
    fun a j => match a with | .delta => v2 j | .theta => v3 j, v1⟩, ⟨hs, hP, e1, fun _ _ => rfl, e2, e3⟩, rfl⟩

/-- C91 for the bispectrum of `A2Loop`, as far as it holds: on the spectrum multiplied by `c` all eight outputs are the tree bispectrum times
`c²` plus the one-loop propagators times `c³`, up to `c⁴`.
Missing: triangles with a leg below the thresholds `k, p ≥ 0.01`, `|k-p| ≥ 0.03` (`C91_bispectrum_violation`). -/
theorem C91_bispectrum_partial {t : Pk ℝ} {i : Interpol} {uv : ℝ} {g1 gd gt : GLQ ℝ} {k p kp : ℝ} (hk : 1 / 100 ≤ k) (hp : 1 / 100 ≤ p)
    (hkp : 3 / 100 ≤ kp) {s : Fin 3 → ℝ} {l : Legs} (h : LegsOf t i uv g1 gd gt k p kp s l) {b : ℝ → BiOut}
    (hb : ∀ c, 0 < c → bispectrumI (t.scale c) i uv (g1.scale c) (gd.scale c) (gt.scale c) k p kp = .ok (b c)) (m : Fin 4) :
    ((fun c => (b c).a m - (c ^ 2 * l.tree3 (fieldsA m) + c ^ 3 * l.loop3 (fieldsA m))) =O[𝓝[>] 0] fun c => c ^ 4) ∧
      (fun c => (b c).t m - (c ^ 2 * l.tree3 (fieldsT m) + c ^ 3 * l.loop3 (fieldsT m))) =O[𝓝[>] 0] fun c => c ^ 4 := by
  have key : ∀ f, (fun c : ℝ => c ^ 2 * l.reg (legDamp k p kp s) f c - (c ^ 2 * l.tree3 f + c ^ 3 * l.loop3 f)) =O[𝓝[>] 0]
      fun c => c ^ 4 := by
    intro f
    have e := ((isBigO_refl (fun c : ℝ => c ^ 2) (𝓝 0)).mul (l.reg_expand (legDamp k p kp s) f)).mono (nhdsWithin_le_nhds (s := Set.Ioi 0))
    refine (e.congr_left fun c => ?_).congr_right fun c => ?_ <;> ring
  have hv : ∀ᶠ c : ℝ in 𝓝[>] 0, (b c).a m = c ^ 2 * l.reg (legDamp k p kp s) (fieldsA m) c ∧
      (b c).t m = c ^ 2 * l.reg (legDamp k p kp s) (fieldsT m) c := by
    filter_upwards [self_mem_nhdsWithin] with c hc
    obtain ⟨b', e, e1, e2⟩ := bi_reg hk hp hkp h (c := c) hc
    rw [hb c hc] at e
    cases e
    exact ⟨e1 m, e2 m⟩
  refine ⟨(key (fieldsA m)).congr' ?_ .rfl, (key (fieldsT m)).congr' ?_ .rfl⟩
  · filter_upwards [hv] with c hc
    rw [hc.1]
  · filter_upwards [hv] with c hc
    rw [hc.2]

/-- C91: it is computed there for every multiple of the spectrum. -/
theorem C91_bispectrum_computed {t : Pk ℝ} {i : Interpol} {uv : ℝ} {g1 gd gt : GLQ ℝ} {k p kp : ℝ} (hk : 1 / 100 ≤ k) (hp : 1 / 100 ≤ p)
    (hkp : 3 / 100 ≤ kp) {s : Fin 3 → ℝ} {l : Legs} (h : LegsOf t i uv g1 gd gt k p kp s l) :
    ∃ b : ℝ → BiOut, ∀ c, 0 < c → bispectrumI (t.scale c) i uv (g1.scale c) (gd.scale c) (gt.scale c) k p kp = .ok (b c) := by
  choose b hb _ using fun (c : ℝ) (hc : 0 < c) => bi_reg hk hp hkp h hc
  classical
  refine ⟨fun c => if hc : 0 < c then b c hc else ⟨fun _ => 0, fun _ => 0⟩, fun c hc => ?_⟩
  dsimp only
  rw [dif_pos hc]
  exact hb c hc

/-- A one-node rule with power at the node. -/
noncomputable def glq91 : GLQ ℝ := { nq := 1, q := [0.02], w := [1], pk := [1], x := [], k := 1 }

/-- An equilateral triangle at `k = 0.03`, with a non-zero displacement and non-zero power at the node. -/
example : ∃ s l, LegsOf tab28 .poly 0.5 glq91 glq91 glq91 0.03 0.03 0.03 s l ∧ 0 < s 0 ∧ l.P 0 = 1 := by
  have s1 : sigma1 tab28 0.5 0.03 = .ok (sigmaVal tab28 (0.03 * 0.5) 0) :=
    sigma1_in tab28 tab28_inc (by decide) _ _ 0 (by decide) (by norm_num [tab28]) (by norm_num [tab28])
  have l1 : look tab28 .poly 0.03 = .ok 1 := by simpa [tab28] using look_28 3 (by norm_num)
  have p1 : 0 < sigmaVal tab28 (0.03 * 0.5) 0 := by
    rw [sigmaVal, if_neg (by decide)]
    simp [tab28, trap, interpolLin]
    positivity
  have hg : glq91.Ok := ⟨rfl, rfl, rfl⟩
  obtain ⟨l, h, hP⟩ := LegsOf.exists (t := tab28) (i := .poly) (uv := 0.5) hg hg hg (k := 0.03) (p := 0.03) (kp := 0.03)
    (s := fun _ => sigmaVal tab28 (0.03 * 0.5) 0) (P := fun _ => 1) (fun j => by fin_cases j <;> exact s1) (fun j => by fin_cases j <;> exact l1)
  exact ⟨_, l, h, p1, by rw [hP]⟩

/-- Witness: constant spectrum up to `k = 0.005`, zero at `k = 1`. -/
noncomputable def tab91 : Pk ℝ := ⟨3, [0.001, 0.005, 1], [1, 1, 0]⟩

theorem tab91_inc : tab91.Increasing where
  hk := rfl
  hpk := rfl
  hsize := by norm_num [tab91]
  incr := by
    show [(0.001 : ℝ), 0.005, 1].Pairwise (· < ·)
    norm_num [List.pairwise_cons]

/-- C91 fails below the thresholds: the propagators are replaced by their tree values, the damping is kept. For the equilateral triangle
at `k = 0.005` the third order of the small-amplitude expansion is minus the exponent times the tree bispectrum, where the one-loop
propagators vanish. -/
theorem C91_bispectrum_violation : ∃ (t : Pk ℝ) (g : GLQ ℝ) (s : Fin 3 → ℝ) (l : Legs) (b : ℝ → BiOut), t.Increasing ∧ g.Ok ∧
    (∀ n ∈ g.nodes, look t .poly n.1 = .ok n.2.2) ∧ LegsOf t .poly 0.5 g g g 0.005 0.005 0.005 s l ∧
    (∀ c, 0 < c → bispectrumI (t.scale c) .poly 0.5 (g.scale c) (g.scale c) (g.scale c) 0.005 0.005 0.005 = .ok (b c)) ∧
    l.loop3 (fieldsA 0) = 0 ∧
    ¬ (fun c => (b c).a 0 - (c ^ 2 * l.tree3 (fieldsA 0) + c ^ 3 * l.loop3 (fieldsA 0))) =O[𝓝[>] 0] fun c => c ^ 4 := by
  have s1 : sigma1 tab91 0.5 0.005 = .ok (sigmaVal tab91 (0.005 * 0.5) 0) :=
    sigma1_in tab91 tab91_inc (by decide) _ _ 0 (by decide) (by norm_num [tab91]) (by norm_num [tab91])
  have l1 : look tab91 .poly 0.005 = .ok 1 := by
    have := C08_findPk_node_poly tab91 tab91_inc 1 (by decide)
    simp only [tab91, List.getD_cons_succ, List.getD_cons_zero] at this
    rw [look, tab91, this]
    rfl
  have l2 : look tab91 .poly 1 = .ok 0 := by
    have := C08_findPk_node_poly tab91 tab91_inc 2 (by decide)
    simp only [tab91, List.getD_cons_succ, List.getD_cons_zero] at this
    rw [look, tab91, this]
    rfl
  have p1 : 0 < sigmaVal tab91 (0.005 * 0.5) 0 := by
    rw [sigmaVal, if_neg (by decide)]
    simp [tab91, trap, interpolLin]
    positivity
  generalize sigmaVal tab91 (0.005 * 0.5) 0 = σ at *
  set T : ℝ := 2 * (gamma2Tree .theta 0.005 0.005 0.005 + gamma2Tree .delta 0.005 0.005 0.005 + gamma2Tree .delta 0.005 0.005 0.005) with hT
  have hTpos : 0 < T := by
    rw [hT]
    norm_num [gamma2Tree, F2Fast]
  set F : ℝ := (0.005 * 0.005 * σ + 0.005 * 0.005 * σ + 0.005 * 0.005 * σ) / 2 with hF
  have hFpos : 0 < F := by
    rw [hF]
    positivity
  set l : Legs := ⟨fun _ => 1, fun a _ => gamma2Tree a 0.005 0.005 0.005, fun _ _ => 0, fun _ _ => 0⟩ with hl
  have hb : ∀ c : ℝ, 0 < c → ∃ b, bispectrumI (tab91.scale c) .poly 0.5 (glq28.scale c) (glq28.scale c) (glq28.scale c) 0.005 0.005 0.005
      = .ok b ∧ b.a 0 = c ^ 2 * T * Real.exp (-(c * F)) := by
    intro c hc
    have n1 : ¬ (1 / 100 : ℝ) ≤ 0.005 := by norm_num
    have n2 : ¬ (3 / 100 : ℝ) ≤ 0.005 := by norm_num
    simp only [bispectrumI, Rel.times (sigma1_scale c tab91 0.5 0.005) s1, Rel.times (look_scale hc tab91 .poly 0.005) l1, gamma1Reg, g1RegIf,
      gamma2Reg, n1, n2, and_false, if_false, Res.ok_bind]
    refine ⟨_, rfl, ?_⟩
    simp only [biAssemble, Matrix.cons_val_zero]
    rw [show -((0.005 * 0.005 * (c * σ) + 0.005 * 0.005 * (c * σ) + 0.005 * 0.005 * (c * σ)) / 2) = -(c * F) by rw [hF]; ring, hT]
    ring
  have hlegs : LegsOf tab91 .poly 0.5 glq28 glq28 glq28 0.005 0.005 0.005 (fun _ => σ) l := by
    refine ⟨fun j => ?_, fun j => ?_, fun a j => ?_, fun a j => ?_, fun j => g2_zero _ _ _ _, fun j => g2_zero _ _ _ _⟩
    · fin_cases j <;> exact s1
    · fin_cases j <;> exact l1
    · exact g1_zero _ _
    · fin_cases j <;> rfl
  choose b hb1 hb2 using hb
  classical
  refine ⟨tab91, glq28, _, l, fun c => if hc : 0 < c then b c hc else ⟨fun _ => 0, fun _ => 0⟩, tab91_inc, glq28_ok, ?_, hlegs,
    fun c hc => ?_, ?_, fun H => ?_⟩
  · intro n hn
    simp only [GLQ.nodes, glq28, List.zip_cons_cons, List.zip_nil_right, List.mem_singleton] at hn
    subst hn
    exact l2
  · dsimp only
    rw [dif_pos hc]
    exact hb1 c hc
  · simp [Legs.loop3, hl]
  have t3 : l.tree3 (fieldsA 0) = T := by
    simp [Legs.tree3, hl, fieldsA, Fin.sum_univ_three, hT]
  have l3 : l.loop3 (fieldsA 0) = 0 := by simp [Legs.loop3, hl]
  have e1 : (fun c : ℝ => c ^ 2 * (T * Real.exp (-(c * F)) - T)) =O[𝓝[>] 0] fun c => c ^ 4 := by
    refine H.congr' ?_ .rfl
    filter_upwards [self_mem_nhdsWithin] with c hc
    have hc : 0 < c := hc
    rw [dif_pos hc, hb2 c hc, t3, l3]
    ring
  have e2 : (fun c : ℝ => c ^ 2 * ((T * Real.exp (-(c * F))) - (T - T * F * c))) =O[𝓝[>] 0] fun c => c ^ 4 := by
    have e := ((isBigO_refl (fun c : ℝ => c ^ 2) (𝓝 0)).mul (expand_two T 0 F (fun _ => 0) continuousAt_const)).mono
      (nhdsWithin_le_nhds (s := Set.Ioi 0))
    refine (e.congr_left fun c => ?_).congr_right fun c => ?_ <;> ring
  have e3 : (fun c : ℝ => T * F * c ^ 3) =O[𝓝[>] 0] fun c => c ^ 4 := (e2.sub e1).congr_left fun c => by ring
  obtain ⟨C, hC⟩ := e3.bound
  have hsm : ∀ᶠ c : ℝ in 𝓝[>] 0, c < T * F / (|C| + 1) := by
    have : (0 : ℝ) < T * F / (|C| + 1) := by positivity
    exact (eventually_lt_nhds this).filter_mono nhdsWithin_le_nhds
  obtain ⟨c, ⟨h1, h2⟩, h3⟩ := ((hC.and hsm).and self_mem_nhdsWithin).exists
  have h3 : 0 < c := h3
  rw [lt_div_iff₀ (by positivity)] at h2
  rw [Real.norm_of_nonneg (by positivity), Real.norm_of_nonneg (by positivity)] at h1
  have h4 : T * F ≤ C * c := by
    have : T * F * c ^ 3 ≤ (C * c) * c ^ 3 := by linarith [h1, show C * c ^ 4 = (C * c) * c ^ 3 by ring]
    exact le_of_mul_le_mul_right this (by positivity)
  have h5 : C * c ≤ |C| * c := mul_le_mul_of_nonneg_right (le_abs_self C) h3.le
  linarith

end Verif
