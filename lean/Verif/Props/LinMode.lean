import Verif.Proofs.LinMode
import Verif.Props.Safety

/-!
# C62: whole runs in `lin` mode
-/

namespace Verif

open Res

/-- What the callers have to guarantee when every interpolation is linear: a table of increasing positive modes, node searches that found
their nodes in order, ranges that end within the table, and positive requested modes other than the last tabulated one.  Nothing is
assumed about the values of the spectrum. -/
structure Env.LinOk (e : Env) : Prop where
  phys : e.t.Physical
  two : 2 ≤ e.t.nk
  size : ∀ p, (e.cfg.prec p).n < 2 ^ 63
  lin : ∀ p, (e.cfg.prec p).interpol = .lin
  interp : ∀ o, e.cfg.interp o = .lin
  roots : ∀ p, RootsOrdered (e.rt (e.cfg.prec p).n) (e.cfg.prec p).n
  range : ∀ p, RangeProper (e.cfg.prec p) ∧ RangeInside e.t (e.cfg.prec p)
  kpos : ∀ k ∈ e.ks, 0 < k
  klast : ∀ k ∈ e.ks, k ≠ e.t.k.getD (e.t.nk - 1) 0

/-- A cubature routine that is defined on integrands that are defined on the unit cube. -/
def CubaSafeIn {β : Type} (cuba : Cuba β) : Prop := ∀ f, (∀ x, (∀ j, 0 ≤ x j ∧ x j ≤ 1) → (f x).defined) → (cuba f).defined

section

variable {e : Env} (he : e.LinOk)
include he

theorem Env.LinOk.tabQ (p : PName) : ∃ g, e.tabQ p = .ok g ∧ g.Fit ∧ ∀ q ∈ g.q, q < e.t.k.getD (e.t.nk - 1) 0 := by
  obtain ⟨g, h1, h2, _, h3⟩ := initGLQ_lin he.phys he.two (he.range p).1 (he.range p).2 (he.lin p) (he.size p) (he.roots p)
  exact ⟨g, h1, h2, fun q hq => (h3 q hq).2⟩

theorem Env.LinOk.tabs (p m : PName) : ∃ g gm, e.tabQ p = .ok g ∧ e.tabMu m = .ok gm ∧ LinTab e.t g gm := by
  obtain ⟨g, h1, h2, h3⟩ := he.tabQ p
  obtain ⟨gm, h4, h5, _⟩ := initGLMu_fit (e.rt (e.cfg.prec m).n) (he.size m)
  refine ⟨g, gm, h1, h4, h2, h5, ?_, initGLMu_in (he.size m) (he.roots m) h4, h3⟩
  exact posRule_init he.phys he.two (he.range p).1 (he.size p) (he.roots p) h1 (he.size m) (he.roots m) h4

/-- A run without serial tail is defined when its tables and iterations are. -/
theorem Env.LinOk.head {σ : Type} {m : ℕ} {o : IName} {params : List String} {W : Work σ m} {lay : ℕ → Fin m → Cell} {S : σ → σ → Prop}
    (hW : W.Det S) (hinj : LayInj lay e.ks.length) {s0 : σ} (h0 : W.init = .ok s0)
    (hb : ∀ ik < e.ks.length, (W.body s0 ik).defined) :
    ∃ pl sg row, findPk e.t e.ks (e.cfg.interp o) = .ok pl ∧ runningSigmad2 e.t e.ks (e.cfg.uv o) = .ok sg ∧
      (∀ ik < e.ks.length, ∃ s', W.body s0 ik = .ok (s', row ik)) ∧ ∀ es, Schedule m e.ks.length es →
        Assigns (runHead e o params W lay es) (mapRun params lay e.ks.length pl sg row) := by
  have hpl := C06_findPk_lin_safe_partial e.t he.phys.toIncreasing he.two e.ks he.klast
  rw [← he.interp o] at hpl
  obtain ⟨pl, hpl⟩ := hpl
  obtain ⟨sg, hsg, _⟩ := C11_sigmad2_safe e.t he.phys.toWF (by have := he.two; omega) e.ks (e.cfg.uv o)
  have : ∀ ik, ∃ r : Fin m → ℝ, ik < e.ks.length → ∃ s', W.body s0 ik = .ok (s', r) := by
    intro ik
    by_cases hik : ik < e.ks.length
    · obtain ⟨⟨s', r⟩, h⟩ := hb ik hik
      exact ⟨r, fun _ => ⟨s', h⟩⟩
    · exact ⟨fun _ => 0, fun h => absurd h hik⟩
  choose row hrow using this
  exact ⟨pl, sg, row, hpl, hsg, hrow, fun es hes => runHead_of hW hinj hpl hsg h0 hrow hes⟩

theorem Env.LinOk.mode {ik : ℕ} (hik : ik < e.ks.length) {k : ℝ} (h : rd e.ks ik = .ok k) : 0 < k ∧ k ≠ e.t.k.getD (e.t.nk - 1) 0 := by
  rw [rd_ok hik] at h
  cases h
  exact ⟨he.kpos _ (List.getElem_mem hik), he.klast _ (List.getElem_mem hik)⟩

/-- C62: the one-loop run is defined, for every pair of fields and every schedule. -/
theorem C62_one_loop (a b : Field) {es : List Event} (hes : Schedule 3 e.ks.length es) {μ : Mem} (hμ : Room 6 e.ks.length μ) :
    (runTerms1 e a b es μ).defined := by
  obtain ⟨g1, h1, f1, _⟩ := he.tabQ .gamma1_1loop_q
  obtain ⟨g, gm, h2, h3, f2⟩ := he.tabs .gamma2_tree_q .gamma2_tree_mu
  have h0 : (work1 e a b).init = .ok ⟨g1, g, gm⟩ := by simp [work1, h1, h2, h3]
  obtain ⟨pl, sg, row, _, _, _, h⟩ := he.head (o := .spectrum_1loop) (params := params1) (work1_det e a b) (lay1_inj _) h0
    fun ik hik => by
      refine (rd_defined hik).bind fun k hk => (gamma1OneLoop_defined f1 a k).bind fun va _ => ?_
      refine (other_defined (gamma1OneLoop_defined f1 b k)).bind fun _ _ => ?_
      rw [he.lin]
      exact (calcGamma2Tree_lin_defined he.phys he.two f2 (he.mode hik hk).1 a b).bind fun _ _ => .ok _
  exact ⟨_, h es hes μ (fits_mapRun (lay1_inj _) (lay1_in hμ) (room12 hμ (by decide) (by decide)))⟩

/-- C62: the bias run. -/
theorem C62_bias {es : List Event} (hes : Schedule 8 e.ks.length es) {μ : Mem} (hμ : Room 11 e.ks.length μ) :
    (runTermsBias e es μ).defined := by
  obtain ⟨g, gm, h2, h3, f2⟩ := he.tabs .bias_1loop_q .bias_1loop_mu
  have h0 : (workBias e).init = .ok (g, gm) := by simp [workBias, h2, h3]
  have hc : ∀ a kn half (s : GLQ ℝ × GLMu ℝ) k, 0 < k → LinTab e.t s.1 s.2 →
      ∃ r, biasCall e a kn half s k = .ok r ∧ LinTab e.t r.1.1 r.1.2 := fun a kn half s k hk hs => by
    unfold biasCall
    rw [he.lin]
    exact calcBias_lin he.phys he.two hs hk a kn half
  obtain ⟨pl, sg, row, _, _, _, h⟩ := he.head (o := .bias_1loop) (params := paramsBias) (workBias_det e) (layBias_inj _) h0
    fun ik hik => by
      refine (rd_defined hik).bind fun k hk => ?_
      have hk := (he.mode hik hk).1
      obtain ⟨r0, e0, c0⟩ := hc .delta kernelB2 true (g, gm) k hk f2
      obtain ⟨r1, e1, c1⟩ := hc .delta kernelBs2 true r0.1 k hk c0
      obtain ⟨r2, e2, c2⟩ := hc .theta kernelB2 true r1.1 k hk c1
      obtain ⟨r3, e3, c3⟩ := hc .theta kernelBs2 true r2.1 k hk c2
      obtain ⟨r4, e4, c4⟩ := hc .delta kernelB22 false r3.1 k hk c3
      obtain ⟨r5, e5, c5⟩ := hc .delta kernelB2s2 false r4.1 k hk c4
      obtain ⟨r6, e6, c6⟩ := hc .delta kernelBs22 false r5.1 k hk c5
      obtain ⟨r7, e7, c7⟩ := hc .delta kernelSigma3sq false r6.1 k hk c6
      rw [e0, ok_bind, e1, ok_bind, e2, ok_bind, e3, ok_bind, e4, ok_bind, e5, ok_bind, e6, ok_bind, e7, ok_bind]
      exact .ok _
  exact ⟨_, h es hes μ (fits_mapRun (layBias_inj _) (layBias_in hμ) (room12 hμ (by decide) (by decide)))⟩

/-- C62: the one-loop A run. -/
theorem C62_A_one_loop {es : List Event} (hes : Schedule 5 e.ks.length es) {μ : Mem} (hμ : RoomFlat 5 e.ks.length μ) :
    (runTermsA1 e es μ).defined := by
  obtain ⟨g, gm, h2, h3, f2⟩ := he.tabs .A_1loop_q .A_1loop_mu
  have h0 : (workA1 e).init = .ok (g, gm) := by simp [workA1, h2, h3]
  obtain ⟨pl, sg, row, _, _, _, h⟩ := he.head (o := .A_1loop) (params := paramsA) (workA1_det e) (layFlat_inj 5 paramsA "A" _) h0
    fun ik hik => by
      refine (rd_defined hik).bind fun k hk => ?_
      rw [he.lin, he.lin]
      exact (calcA1_lin_defined he.phys he.two f2 (he.mode hik hk).1 (he.mode hik hk).2).bind fun _ _ => .ok _
  exact ⟨_, h es hes μ (fits_mapRun (layFlat_inj _ _ _ _) (layFlat_in hμ.2) (room12 hμ.1 (by decide) (by decide)))⟩

/-- C62: the two-loop run, for every cubature routine that keeps to the unit cube, when the range of the third-order integral
is given and ends strictly below the last tabulated mode. -/
theorem C62_two_loop {cuba : Cuba ℝ} (hc : CubaSafeIn cuba) (h3 : 0 < (e.cfg.prec .gamma3_tree_q).min)
    (h3' : (e.cfg.prec .gamma3_tree_q).min < (e.cfg.prec .gamma3_tree_q).max)
    (h3'' : (e.cfg.prec .gamma3_tree_q).max < e.t.k.getD (e.t.nk - 1) 0) (a b : Field) {es : List Event}
    (hes : Schedule 7 e.ks.length es) {μ : Mem} (hμ : Room 11 e.ks.length μ) : (runTerms2 cuba e a b es μ).defined := by
  obtain ⟨g1, h1, f1, _⟩ := he.tabQ .gamma1_1loop_q
  obtain ⟨g12, h12, f12, _⟩ := he.tabQ .gamma1_2loop_q
  obtain ⟨g, gm, h2, h3m, f2⟩ := he.tabs .gamma2_tree_q .gamma2_tree_mu
  obtain ⟨gd, h4, f4, _⟩ := he.tabQ .gamma2d_1loop_q
  obtain ⟨gt, h5, f5, _⟩ := he.tabQ .gamma2t_1loop_q
  have h0 : (work2 e a b).init = .ok ⟨g1, g12, g, gm, gd, gt⟩ := by simp [work2, h1, h12, h2, h3m, h4, h5]
  obtain ⟨pl, sg, row, hpl, hsg, hrow, _⟩ := he.head (o := .spectrum_2loop) (params := params2) (work2_det e a b) (lay2_inj _) h0
    fun ik hik => by
      refine (rd_defined hik).bind fun k hk => ?_
      have : (calcGamma1TwoLoop a b g1 g12 k).defined := by
        unfold calcGamma1TwoLoop
        refine defined.ite (fun _ => ?_) fun _ => ?_
        · exact (gamma1OneLoop_defined f1 a k).bind fun _ _ => (gamma1TwoLoop_defined f12 a k).bind fun _ _ => .ok _
        · exact (gamma1OneLoop_defined f1 a k).bind fun _ _ => (gamma1TwoLoop_defined f12 a k).bind fun _ _ =>
            (gamma1OneLoop_defined f1 b k).bind fun _ _ => (gamma1TwoLoop_defined f12 b k).bind fun _ _ => .ok _
      refine this.bind fun _ _ => ?_
      rw [he.lin]
      exact (calcGamma2Loop_lin_defined he.phys he.two f2 (he.mode hik hk).1 f4 f5 a b).bind fun _ _ => .ok _
  have hr : glqRange e.t (e.cfg.prec .gamma3_tree_q) = .ok ((e.cfg.prec .gamma3_tree_q).min, (e.cfg.prec .gamma3_tree_q).max) := by
    unfold glqRange
    rw [if_neg]
    simp only [lit_real, Bool.or_eq_true, not_or, le_real, not_le]
    push_cast
    exact ⟨h3, h3.trans h3'⟩
  have hcfg : autoRange e.t e.cfg .gamma3_tree_q = .ok { e.cfg with
      prec := (Function.update e.cfg.prec .gamma3_tree_q (e.cfg.prec .gamma3_tree_q)) } := by
    unfold autoRange
    rw [hr]
    rfl
  have hg3 : ∀ ik, ∃ v, ik < e.ks.length → gamma3At cuba e a b (e.cfg.prec .gamma3_tree_q) ik = .ok v := by
    intro ik
    by_cases hik : ik < e.ks.length
    · obtain ⟨v, hv⟩ : (gamma3At cuba e a b (e.cfg.prec .gamma3_tree_q) ik).defined := by
        refine (rd_defined hik).bind fun k _ => defined.bind (hc _ fun x hx => ?_) fun _ _ => .ok _
        rw [he.lin]
        exact kernelGamma3_lin_defined he.phys he.two a b k h3 h3'.le h3'' hx
      exact ⟨v, fun _ => hv⟩
    · exact ⟨0, fun h => absurd h hik⟩
  choose g3 hg3 using hg3
  exact ⟨_, run2_of hμ hes hpl hsg h0 hrow hcfg (g3 := g3) fun ik hik => by simpa using hg3 ik hik⟩

end

/-! ## Non-vacuity -/

/-- Settings for `exTable`: ten nodes everywhere, `lin` interpolation everywhere, ranges from 2 to 7 for the radial integrals. -/
noncomputable def linCfg : Cfg ℝ := ⟨fun _ => ⟨10, 2, 7, .lin⟩, fun _ => .lin, fun _ => 1 / 2⟩

/-- Outcomes of the root search for every number of nodes, in order. -/
theorem roots_ordered : ∃ rt : ℕ → ℕ → ℝ × ℝ, ∀ n, n < 2 ^ 63 → RootsOrdered (rt n) n := by
  have : ∀ n, ∃ rt : ℕ → ℝ × ℝ, n < 2 ^ 63 → RootsOrdered rt n := by
    intro n
    by_cases hn : n < 2 ^ 63
    · obtain ⟨P, rt, xs, ws, -, -, h3, -, -, h6, h7⟩ := C14_roots_exist n hn
      refine ⟨rt, fun _ x w h => ?_⟩
      rw [h3] at h
      injection h with h
      injection h with h _
      have : xs = x := List.map_injective_iff.mpr (Option.some_injective _) h
      subst this
      exact ⟨h7, h6⟩
    · exact ⟨fun _ => (0, 0), fun h => absurd h hn⟩
  choose rt h using this
  exact ⟨rt, h⟩

/-- An environment with `lin` settings; modes below, between, on and above the tabulated ones. -/
noncomputable def linEnv (rt : ℕ → ℕ → ℝ × ℝ) : Env := ⟨linCfg, rt, exTable, [1 / 2, 1, 2, 7 / 2, 9]⟩

theorem linEnv_ok {rt : ℕ → ℕ → ℝ × ℝ} (hrt : ∀ n, n < 2 ^ 63 → RootsOrdered (rt n) n) : (linEnv rt).LinOk where
  phys := exTable_physical
  two := by norm_num [linEnv, exTable]
  size _ := by norm_num [linEnv, linCfg]
  lin _ := rfl
  interp _ := rfl
  roots _ := hrt _ (by norm_num [linEnv, linCfg])
  range _ := ⟨.inr (.inr (by norm_num [linEnv, linCfg])), .inr (.inr (by norm_num [linEnv, linCfg, exTable]))⟩
  kpos := by norm_num [linEnv]
  klast := by norm_num [linEnv, exTable]

theorem exCuba_safeIn {β : Type} : CubaSafeIn (exCuba : Cuba β) := fun _ h => h _ fun _ => ⟨by norm_num, by norm_num⟩

theorem linRoom (rt : ℕ → ℕ → ℝ × ℝ) (N : ℕ) : Room N (linEnv rt).ks.length exMem := fun i _ => by simp [linEnv, exMem]

example : ∃ rt, (∃ ν, runTerms1 (linEnv rt) .delta .theta (blocks 3 0 0 [2, 0, 3]) exMem = .ok ν) ∧
    (∃ ν, runTermsBias (linEnv rt) (blocks 8 0 0 [2, 0, 3]) exMem = .ok ν) ∧
    (∃ ν, runTermsA1 (linEnv rt) (blocks 5 0 0 [2, 0, 3]) exMem = .ok ν) ∧
    ∃ r, runTerms2 exCuba (linEnv rt) .delta .theta (blocks 7 0 0 [2, 0, 3]) exMem = .ok r := by
  obtain ⟨rt, hrt⟩ := roots_ordered
  have he := linEnv_ok hrt
  have hs : ∀ m, Schedule m (linEnv rt).ks.length (blocks m 0 0 [2, 0, 3]) := fun m => C43_static_schedule m [2, 0, 3] (by simp)
  refine ⟨rt, C62_one_loop he _ _ (hs 3) (linRoom rt 6), C62_bias he (hs 8) (linRoom rt 11),
    C62_A_one_loop he (hs 5) ⟨fun i _ => by simp [linEnv, exMem], by simp [linEnv, exMem]⟩,
    C62_two_loop he exCuba_safeIn ?_ ?_ ?_ _ _ (hs 7) (linRoom rt 11)⟩ <;> norm_num [linEnv, linCfg, exTable]

end Verif
