import Verif.Proofs.Safe
import Verif.Props.Columns

/-!
# C59: whole runs are free of undefined behaviour
-/

namespace Verif

open Res

/-- What the callers have to guarantee: a table of at least two modes, table sizes that fit in memory, and the (default)
interpolation mode `poly` everywhere.  Nothing is assumed about the values. -/
structure Env.Ok (e : Env) : Prop where
  wf : e.t.WF
  two : 2 ≤ e.t.nk
  size : ∀ p, (e.cfg.prec p).n < 2 ^ 63
  poly : ∀ p, (e.cfg.prec p).interpol = .poly
  interp : ∀ o, e.cfg.interp o = .poly

/-- A cubature routine that is defined on integrands that are. -/
def CubaSafe {β : Type} (cuba : Cuba β) : Prop := ∀ f, (∀ x, (f x).defined) → (cuba f).defined

/-- An environment with default settings, five tabulated modes and arbitrary nodes. -/
noncomputable def exEnv (rt : ℕ → ℕ → ℝ × ℝ) (ks : List ℝ) : Env := ⟨Cfg.default, rt, exTable, ks⟩

theorem exEnv_ok (rt : ℕ → ℕ → ℝ × ℝ) (ks : List ℝ) : (exEnv rt ks).Ok where
  wf := exTable_physical.toWF
  two := by norm_num [exEnv, exTable]
  size := by intro p; cases p <;> norm_num [exEnv, Cfg.default, defaultPrec]
  poly := by intro p; cases p <;> rfl
  interp := by intro o; rfl

section

variable {e : Env} (he : e.Ok)
include he

theorem Env.Ok.tabQ (p : PName) : ∃ g, e.tabQ p = .ok g ∧ g.Fit := by
  obtain ⟨g, h1, h2, _⟩ := initGLQ_fit he.wf he.two (e.rt (e.cfg.prec p).n) (he.poly p) (he.size p)
  exact ⟨g, h1, h2⟩

theorem Env.Ok.tabMu (p : PName) : ∃ g, e.tabMu p = .ok g ∧ g.Fit := by
  obtain ⟨g, h1, h2, _⟩ := initGLMu_fit (e.rt (e.cfg.prec p).n) (he.size p)
  exact ⟨g, h1, h2⟩

theorem Env.Ok.range (p : Precision ℝ) : (glqRange e.t p).defined := by
  unfold glqRange
  refine defined.ite (fun _ => ?_) fun _ => .ok _
  have := he.wf.hk; have := he.wf.hsize; have := he.two
  have hm : sizeMod = 2 ^ 64 := rfl
  refine (rd_defined (by omega)).bind fun _ _ => (rd_defined ?_).bind fun _ _ => .ok _
  rw [subSize_eq (by omega) (by omega)]
  omega

/-- A run without serial tail is defined when its tables and iterations are. -/
theorem Env.Ok.head {σ : Type} {m : ℕ} {o : IName} {params : List String} {W : Work σ m} {lay : ℕ → Fin m → Cell} {S : σ → σ → Prop}
    (hW : W.Det S) (hinj : LayInj lay e.ks.length) {s0 : σ} (h0 : W.init = .ok s0)
    (hb : ∀ ik < e.ks.length, (W.body s0 ik).defined) :
    ∃ pl sg row, findPk e.t e.ks (e.cfg.interp o) = .ok pl ∧ runningSigmad2 e.t e.ks (e.cfg.uv o) = .ok sg ∧
      (∀ ik < e.ks.length, ∃ s', W.body s0 ik = .ok (s', row ik)) ∧ ∀ es, Schedule m e.ks.length es →
        Assigns (runHead e o params W lay es) (mapRun params lay e.ks.length pl sg row) := by
  have hpl := C06_findPk_poly_safe e.t he.wf he.two e.ks
  rw [← he.interp o] at hpl
  obtain ⟨pl, hpl⟩ := hpl
  obtain ⟨sg, hsg, _⟩ := C11_sigmad2_safe e.t he.wf (by have := he.two; omega) e.ks (e.cfg.uv o)
  have : ∀ ik, ∃ r : Fin m → ℝ, ik < e.ks.length → ∃ s', W.body s0 ik = .ok (s', r) := by
    intro ik
    by_cases hik : ik < e.ks.length
    · obtain ⟨⟨s', r⟩, h⟩ := hb ik hik
      exact ⟨r, fun _ => ⟨s', h⟩⟩
    · exact ⟨fun _ => 0, fun h => absurd h hik⟩
  choose row hrow using this
  exact ⟨pl, sg, row, hpl, hsg, hrow, fun es hes => runHead_of hW hinj hpl hsg h0 hrow hes⟩

/-- C59: the one-loop run is defined, for every pair of fields, every schedule and every table contents. -/
theorem C59_one_loop (a b : Field) {es : List Event} (hes : Schedule 3 e.ks.length es) {μ : Mem} (hμ : Room 6 e.ks.length μ) :
    (runTerms1 e a b es μ).defined := by
  obtain ⟨g1, h1, f1⟩ := he.tabQ .gamma1_1loop_q
  obtain ⟨g, h2, f2⟩ := he.tabQ .gamma2_tree_q
  obtain ⟨gm, h3, f3⟩ := he.tabMu .gamma2_tree_mu
  have h0 : (work1 e a b).init = .ok ⟨g1, g, gm⟩ := by simp [work1, h1, h2, h3]
  obtain ⟨pl, sg, row, _, _, _, h⟩ := he.head (o := .spectrum_1loop) (params := params1) (work1_det e a b) (lay1_inj _) h0
    fun ik hik => by
      refine (rd_defined hik).bind fun k _ => (gamma1OneLoop_defined f1 a k).bind fun va _ => ?_
      refine (other_defined (gamma1OneLoop_defined f1 b k)).bind fun _ _ => ?_
      rw [he.poly]
      exact (calcGamma2Tree_defined he.wf he.two a b f2 f3 k).bind fun _ _ => .ok _
  exact ⟨_, h es hes μ (fits_mapRun (lay1_inj _) (lay1_in hμ) (room12 hμ (by decide) (by decide)))⟩

/-- C59: the bias run. -/
theorem C59_bias {es : List Event} (hes : Schedule 8 e.ks.length es) {μ : Mem} (hμ : Room 11 e.ks.length μ) :
    (runTermsBias e es μ).defined := by
  obtain ⟨g, h2, f2⟩ := he.tabQ .bias_1loop_q
  obtain ⟨gm, h3, f3⟩ := he.tabMu .bias_1loop_mu
  have h0 : (workBias e).init = .ok (g, gm) := by simp [workBias, h2, h3]
  have hc : ∀ a kn half (s : GLQ ℝ × GLMu ℝ) k, s.1.Fit ∧ s.2.Fit →
      ∃ r, biasCall e a kn half s k = .ok r ∧ r.1.1.Fit ∧ r.1.2.Fit := fun a kn half s k hs => by
    unfold biasCall
    rw [he.poly]
    exact calcBias_fit he.wf he.two a kn half hs.1 hs.2 k
  obtain ⟨pl, sg, row, _, _, _, h⟩ := he.head (o := .bias_1loop) (params := paramsBias) (workBias_det e) (layBias_inj _) h0
    fun ik hik => by
      refine (rd_defined hik).bind fun k _ => ?_
      obtain ⟨r0, e0, c0⟩ := hc .delta kernelB2 true (g, gm) k ⟨f2, f3⟩
      obtain ⟨r1, e1, c1⟩ := hc .delta kernelBs2 true r0.1 k c0
      obtain ⟨r2, e2, c2⟩ := hc .theta kernelB2 true r1.1 k c1
      obtain ⟨r3, e3, c3⟩ := hc .theta kernelBs2 true r2.1 k c2
      obtain ⟨r4, e4, c4⟩ := hc .delta kernelB22 false r3.1 k c3
      obtain ⟨r5, e5, c5⟩ := hc .delta kernelB2s2 false r4.1 k c4
      obtain ⟨r6, e6, c6⟩ := hc .delta kernelBs22 false r5.1 k c5
      obtain ⟨r7, e7, c7⟩ := hc .delta kernelSigma3sq false r6.1 k c6
      rw [e0, ok_bind, e1, ok_bind, e2, ok_bind, e3, ok_bind, e4, ok_bind, e5, ok_bind, e6, ok_bind, e7, ok_bind]
      exact .ok _
  exact ⟨_, h es hes μ (fits_mapRun (layBias_inj _) (layBias_in hμ) (room12 hμ (by decide) (by decide)))⟩

/-- C59: the one-loop A run. -/
theorem C59_A_one_loop {es : List Event} (hes : Schedule 5 e.ks.length es) {μ : Mem} (hμ : RoomFlat 5 e.ks.length μ) :
    (runTermsA1 e es μ).defined := by
  obtain ⟨g, h2, f2⟩ := he.tabQ .A_1loop_q
  obtain ⟨gm, h3, f3⟩ := he.tabMu .A_1loop_mu
  have h0 : (workA1 e).init = .ok (g, gm) := by simp [workA1, h2, h3]
  obtain ⟨pl, sg, row, _, _, _, h⟩ := he.head (o := .A_1loop) (params := paramsA) (workA1_det e) (layFlat_inj 5 paramsA "A" _) h0
    fun ik hik => by
      refine (rd_defined hik).bind fun k _ => ?_
      rw [he.poly, he.poly]
      exact (calcA1_defined he.wf he.two f2 f3 k).bind fun _ _ => .ok _
  exact ⟨_, h es hes μ (fits_mapRun (layFlat_inj _ _ _ _) (layFlat_in hμ.2) (room12 hμ.1 (by decide) (by decide)))⟩

/-- C59: the B run, for spectra of at least two modes each. -/
theorem C59_B {dt tt : Pk ℝ} (hd : dt.WF) (hd2 : 2 ≤ dt.nk) (ht : tt.WF) (ht2 : 2 ≤ tt.nk) {es : List Event}
    (hes : Schedule 9 e.ks.length es) {μ : Mem} (hμ : RoomFlat 9 e.ks.length μ) : (runTermsB e dt tt es μ).defined := by
  obtain ⟨g, h2, f2⟩ := he.tabQ .B_q
  obtain ⟨gm, h3, f3⟩ := he.tabMu .B_mu
  have h0 : (workB e dt tt).init = .ok (g, gm) := by simp [workB, h2, h3]
  obtain ⟨pl, sg, row, _, _, _, h⟩ := he.head (o := .B) (params := paramsB) (workB_det e dt tt) (layFlat_inj 9 paramsB "B" _) h0
    fun ik hik => by
      refine (rd_defined hik).bind fun k _ => ?_
      rw [he.poly]
      exact (calcB_defined hd hd2 ht ht2 f2 f3 k).bind fun _ _ => .ok _
  exact ⟨_, h es hes μ (fits_mapRun (layFlat_inj _ _ _ _) (layFlat_in hμ.2) (room12 hμ.1 (by decide) (by decide)))⟩

/-- C59: the two-loop run, for every cubature routine that is defined on integrands that are. -/
theorem C59_two_loop {cuba : Cuba ℝ} (hc : CubaSafe cuba) (a b : Field) {es : List Event} (hes : Schedule 7 e.ks.length es)
    {μ : Mem} (hμ : Room 11 e.ks.length μ) : (runTerms2 cuba e a b es μ).defined := by
  obtain ⟨g1, h1, f1⟩ := he.tabQ .gamma1_1loop_q
  obtain ⟨g12, h12, f12⟩ := he.tabQ .gamma1_2loop_q
  obtain ⟨g, h2, f2⟩ := he.tabQ .gamma2_tree_q
  obtain ⟨gm, h3, f3⟩ := he.tabMu .gamma2_tree_mu
  obtain ⟨gd, h4, f4⟩ := he.tabQ .gamma2d_1loop_q
  obtain ⟨gt, h5, f5⟩ := he.tabQ .gamma2t_1loop_q
  have h0 : (work2 e a b).init = .ok ⟨g1, g12, g, gm, gd, gt⟩ := by simp [work2, h1, h12, h2, h3, h4, h5]
  obtain ⟨pl, sg, row, hpl, hsg, hrow, _⟩ := he.head (o := .spectrum_2loop) (params := params2) (work2_det e a b) (lay2_inj _) h0
    fun ik hik => by
      refine (rd_defined hik).bind fun k _ => ?_
      have : (calcGamma1TwoLoop a b g1 g12 k).defined := by
        unfold calcGamma1TwoLoop
        refine defined.ite (fun _ => ?_) fun _ => ?_
        · exact (gamma1OneLoop_defined f1 a k).bind fun _ _ => (gamma1TwoLoop_defined f12 a k).bind fun _ _ => .ok _
        · exact (gamma1OneLoop_defined f1 a k).bind fun _ _ => (gamma1TwoLoop_defined f12 a k).bind fun _ _ =>
            (gamma1OneLoop_defined f1 b k).bind fun _ _ => (gamma1TwoLoop_defined f12 b k).bind fun _ _ => .ok _
      refine this.bind fun _ _ => ?_
      rw [he.poly]
      exact (calcGamma2Loop_defined he.wf he.two f4 f5 a b f2 f3 k).bind fun _ _ => .ok _
  obtain ⟨r, hr⟩ := he.range (e.cfg.prec .gamma3_tree_q)
  have hcfg : autoRange e.t e.cfg .gamma3_tree_q = .ok { e.cfg with
      prec := (Function.update e.cfg.prec .gamma3_tree_q { e.cfg.prec .gamma3_tree_q with min := r.1, max := r.2 }) } := by
    unfold autoRange
    rw [hr]
    rfl
  have hg3 : ∀ ik, ∃ v, ik < e.ks.length → gamma3At cuba e a b { e.cfg.prec .gamma3_tree_q with min := r.1, max := r.2 } ik = .ok v := by
    intro ik
    by_cases hik : ik < e.ks.length
    · obtain ⟨v, hv⟩ : (gamma3At cuba e a b { e.cfg.prec .gamma3_tree_q with min := r.1, max := r.2 } ik).defined := by
        refine (rd_defined hik).bind fun k _ => defined.bind (hc _ fun x => ?_) fun _ _ => .ok _
        dsimp only
        rw [he.poly]
        exact kernelGamma3_defined he.wf he.two a b k _ _ x
      exact ⟨v, fun _ => hv⟩
    · exact ⟨0, fun h => absurd h hik⟩
  choose g3 hg3 using hg3
  exact ⟨_, run2_of hμ hes hpl hsg h0 hrow hcfg (g3 := g3) fun ik hik => by simpa using hg3 ik hik⟩

/-- C59: the two-loop A run, for every cubature routine that is defined on integrands that are. -/
theorem C59_A_two_loop {cuba : Cuba (Fin 12 → ℝ)} (hc : CubaSafe cuba) {es : List Event} (hes : Schedule 5 e.ks.length es)
    {μ : Mem} (hμ : RoomFlat 5 e.ks.length μ) : (runTermsA2 cuba e es μ).defined := by
  obtain ⟨g, h2, f2⟩ := he.tabQ .A_2loop_I_q
  obtain ⟨gm, h3, f3⟩ := he.tabMu .A_2loop_I_mu
  obtain ⟨g1, h1, f1⟩ := he.tabQ .gamma1_1loop_q
  obtain ⟨gd, h4, f4⟩ := he.tabQ .gamma2d_1loop_q
  obtain ⟨gt, h5, f5⟩ := he.tabQ .gamma2t_1loop_q
  have h0 : (workA2 e).init = .ok ⟨g, gm, g1, gd, gt⟩ := by simp [workA2, h1, h2, h3, h4, h5]
  obtain ⟨pl, sg, row, _, _, _, h⟩ := he.head (o := .A_2loop) (params := paramsA) (workA2_det e) (layFlat_inj 5 paramsA "A" _) h0
    fun ik hik => by
      refine (rd_defined hik).bind fun k _ => defined.bind (calcA2I_defined (fun k p kp => ?_) f2 f3 k) fun _ _ => .ok _
      unfold Env.biI
      rw [he.interp]
      exact bispectrumI_defined he.wf he.two _ f1 f4 f5 k p kp
  obtain ⟨r, hr⟩ := he.range (e.cfg.prec .A_2loop_II_III_q)
  have f := fits_mapRun (pl := pl) (sg := sg) (row := row) (layFlat_inj 5 paramsA "A" e.ks.length) (layFlat_in hμ.2)
    (room12 (params := paramsA) hμ.1 (by decide) (by decide))
  have a1 := h es hes μ f
  have eq : runTermsA2 cuba e es μ = (runHead e .A_2loop paramsA (workA2 e) (layFlat 5 paramsA "A") es μ >>= fun μ => do
      let cfg ← autoRange e.t e.cfg .A_2loop_II_III_q
      let μ ← addRows e.ks.length (layFlat 5 paramsA "A") (a2At cuba e (cfg.prec .A_2loop_II_III_q)) μ
      .ok (cfg, μ)) := by
    simp only [runHead, runTermsA2, bind_assoc]
    rfl
  rw [eq, a1, ok_bind]
  refine defined.bind ((he.range _).bind fun _ _ => .ok _) fun cfg _ => defined.bind ?_ fun _ _ => .ok _
  have hadd : ∀ ik, ∃ v, ik < e.ks.length → a2At cuba e (cfg.prec .A_2loop_II_III_q) ik = .ok v := by
    intro ik
    by_cases hik : ik < e.ks.length
    · obtain ⟨v, hv⟩ : (a2At cuba e (cfg.prec .A_2loop_II_III_q) ik).defined := by
        refine (rd_defined hik).bind fun k _ => defined.bind (defined.bind (hc _ fun x => ?_) fun _ _ => .ok _) fun _ _ => .ok _
        rw [he.interp]
        exact kernelA2II_defined he.wf he.two _ _ _ _ x
      exact ⟨v, fun _ => hv⟩
    · exact ⟨fun _ => 0, fun h => absurd h hik⟩
  choose add hadd using hadd
  refine ⟨_, addRows_overlay (layFlat_inj 5 paramsA "A" e.ks.length) hadd (r := row) fun ik hik c => overlay_some f ?_⟩
  exact mapRun_lay (layFlat_inj _ _ _ _) pl sg row hik c

end

theorem contents_defined {α : Type} : ∀ {b : Buf α}, (∀ x ∈ b, ∃ v, x = some v) → ∃ vs, b.contents = .ok vs ∧ vs.length = b.length
  | [], _ => ⟨[], rfl, rfl⟩
  | none :: b, h => by obtain ⟨v, hv⟩ := h none (by simp); cases hv
  | some v :: b, h => by
      obtain ⟨vs, h1, h2⟩ := contents_defined (b := b) fun x hx => h x (by simp [hx])
      exact ⟨v :: vs, by simp [Buf.contents, h1], by simp [h2]⟩

/-- C59: `run_spectrum_1loop` with its temporary arrays. -/
theorem C59_spectrum_one_loop {e : Env} (he : e.Ok) (a b : Field) {es : List Event} (hes : Schedule 3 e.ks.length es)
    {out : Buf ℝ} (hout : e.ks.length ≤ out.length) : (runSpectrum1 e a b es out).defined := by
  have hμ : Room 6 e.ks.length (callocTerms1 e.ks) := by
    intro i _
    cases i <;> simp [callocTerms1]
  obtain ⟨ν, hν⟩ := C59_one_loop he a b hes hμ
  obtain ⟨pl, sg, s0, row, _, _, _, _, h5, _⟩ := run1_assigns hμ hes hν
  have hcol : ∀ i, ∃ vs, (ν (i + 1)).contents = .ok vs ∧ vs.length = e.ks.length := by
    intro i
    have hlen : (ν (i + 1)).length = e.ks.length := by rw [h5, overlay_length]; simp [callocTerms1]
    obtain ⟨vs, h1, h2⟩ := contents_defined (b := ν (i + 1)) (by
      intro x hx
      rw [h5] at hx
      simp only [overlay, List.mem_mapIdx] at hx
      obtain ⟨j, hj, rfl⟩ := hx
      split
      · exact ⟨_, rfl⟩
      · exact ⟨0, by simp [callocTerms1]⟩)
    exact ⟨vs, h1, by rw [h2, hlen]⟩
  obtain ⟨p, p1, p2⟩ := hcol 0
  obtain ⟨s, s1, s2⟩ := hcol 1
  obtain ⟨x, x1, x2⟩ := hcol 2
  obtain ⟨y, y1, y2⟩ := hcol 3
  obtain ⟨z, z1, z2⟩ := hcol 4
  have ht : cterms1 e.ks ν = .ok ⟨e.ks.length, e.ks, p, s, x, y, z⟩ := by
    unfold cterms1
    rw [show pos params1 "pk_lin" = 0 + 1 from rfl, show pos params1 "sigmad2" = 1 + 1 from rfl,
      show pos params1 "gamma1a_1loop" = 2 + 1 from rfl, show pos params1 "gamma1b_1loop" = 3 + 1 from rfl,
      show pos params1 "pk_gamma2_tree_tree" = 4 + 1 from rfl, p1, s1, x1, y1, z1]
    rfl
  refine defined.bind ⟨ν, hν⟩ fun ν' hν' => ?_
  rw [hν] at hν'
  injection hν' with hν'
  subst hν'
  rw [ht, ok_bind]
  unfold spectrum1C fillLoop
  obtain ⟨b', hb', _⟩ := forRange_inv (P := fun _ (o : Buf ℝ) => o.length = out.length) (Nat.zero_le e.ks.length) (s := out) rfl
    (body := fun i out => do
      let v ← (do
        let k ← rd e.ks i
        let sigmad2 ← rd s i
        let g1a ← rd x i
        let g1b ← rd y i
        let pl ← rd p i
        let g2 ← rd z i
        let factor := 0.5 * k * k * sigmad2
        let exp_factor := Real.exp (-factor)
        let gamma1a_reg := exp_factor * (1 + factor + g1a)
        let gamma1b_reg := exp_factor * (1 + factor + g1b)
        let pk_gamma1 := gamma1a_reg * gamma1b_reg * pl
        let pk_gamma2 := exp_factor * exp_factor * g2
        Res.ok (pk_gamma1 + pk_gamma2))
      out.wr i v) fun j o _ hj ho => by
        dsimp only
        rw [rd_ok hj, ok_bind, rd_ok (by omega), ok_bind, rd_ok (by omega), ok_bind, rd_ok (by omega), ok_bind, rd_ok (by omega),
          ok_bind, rd_ok (by omega), ok_bind, ok_bind]
        exact ⟨_, by unfold Buf.wr; rw [if_pos (by omega)], by simpa using ho⟩
  exact ⟨b', hb'⟩

/-- C06 is violated by a whole run: when the interpolation mode of the opening columns is `lin` and the last tabulated mode is
requested, the run reads one cell past the table before the parallel region is entered. -/
theorem C06_run_lin_violation (e : Env) (ht : e.t.Increasing) (h1 : 1 ≤ e.t.nk) (hi : e.cfg.interp .spectrum_1loop = .lin)
    (hk : e.ks = [e.t.k.getD (e.t.nk - 1) 0]) (a b : Field) (es : List Event) (μ : Mem) : (runTerms1 e a b es μ).isUB := by
  obtain ⟨why, h⟩ := C06_findPk_lin_violation e.t ht h1
  refine ⟨why, ?_⟩
  unfold runTerms1 columns12
  rw [hi, hk, h]
  rfl

/-! ## Non-vacuity

Five modes (one of them a duplicate, one outside the table) on three threads of which one is idle, in uninitialised memory. -/

/-- Requested modes. -/
noncomputable def exKs : List ℝ := [1 / 2, 2, 2, 8, 9]

/-- Uninitialised arrays. -/
def exMem : Mem := fun _ => List.replicate 45 none

/-- A cubature routine: the midpoint rule with one point. -/
noncomputable def exCuba {β : Type} : Cuba β := fun f => f fun _ => 1 / 2

theorem exCuba_safe {β : Type} : CubaSafe (exCuba : Cuba β) := fun _ h => h _

theorem exSchedule (m : ℕ) : Schedule m exKs.length (blocks m 0 0 [2, 0, 3]) := C43_static_schedule m [2, 0, 3] (by simp)

theorem exSchedule' (m : ℕ) : Schedule m exKs.length (blocks m 0 0 [5]) := C43_static_schedule m [5] (by simp)

theorem exRoom (N : ℕ) : Room N exKs.length exMem := fun i _ => by simp [exKs, exMem]

theorem exRoomFlat (m : ℕ) (h : m ≤ 9) : RoomFlat m exKs.length exMem := ⟨fun i _ => by simp [exKs, exMem], by simp [exKs, exMem]; omega⟩

variable (rt : ℕ → ℕ → ℝ × ℝ)

/-- C59, C43, C44, C45 and C25 apply to the one-loop run. -/
example : ∃ ν, runTerms1 (exEnv rt exKs) .delta .theta (blocks 3 0 0 [2, 0, 3]) exMem = .ok ν ∧
    runTerms1 (exEnv rt exKs) .delta .theta (blocks 3 0 0 [5]) exMem = .ok ν ∧
    runTerms1 (exEnv rt exKs) .delta .theta (blocks 3 0 0 [5]) ν = .ok ν ∧
    (∃ v, ν.at (cellOf cls1 "pk_gamma2_tree_tree" 4) = some (some v)) ∧
    ∃ ν', runTerms1 (exEnv rt exKs) .theta .delta (blocks 3 0 0 [5]) exMem = .ok ν' := by
  obtain ⟨ν, h⟩ := C59_one_loop (exEnv_ok rt exKs) .delta .theta (exSchedule 3) (exRoom 6)
  refine ⟨ν, h, (C43_one_loop (exRoom 6) (exSchedule 3) (exSchedule' 3)).1 h,
    (C44_one_loop (exRoom 6) (exRoom 6) (exSchedule 3) (exSchedule' 3) h).1, ?_, ?_⟩
  · obtain ⟨_, _, _, _, _, _, _, _, v2, _, _, _, _, _, _, _, _, _, _, _, _, c, _⟩ :=
      C45_one_loop (exRoom 6) (exSchedule 3) h (ik := 4) (by simp [exEnv, exKs])
    exact ⟨v2, c⟩
  · obtain ⟨ν', h', _⟩ := C25_one_loop (exRoom 6) (exSchedule 3) (exSchedule' 3) h
    exact ⟨ν', h'⟩

/-- The two-loop run. -/
example : ∃ r, runTerms2 exCuba (exEnv rt exKs) .delta .theta (blocks 7 0 0 [2, 0, 3]) exMem = .ok r ∧
    runTerms2 exCuba (exEnv rt exKs) .delta .theta (blocks 7 0 0 [5]) exMem = .ok r := by
  obtain ⟨⟨c, ν⟩, h⟩ := C59_two_loop (exEnv_ok rt exKs) exCuba_safe .delta .theta (exSchedule 7) (exRoom 11)
  exact ⟨_, h, (C43_two_loop (exRoom 11) (exSchedule 7) (exSchedule' 7)).1 h⟩

/-- The bias run. -/
example : ∃ ν, runTermsBias (exEnv rt exKs) (blocks 8 0 0 [2, 0, 3]) exMem = .ok ν ∧
    runTermsBias (exEnv rt exKs) (blocks 8 0 0 [5]) exMem = .ok ν := by
  obtain ⟨ν, h⟩ := C59_bias (exEnv_ok rt exKs) (exSchedule 8) (exRoom 11)
  exact ⟨_, h, (C43_bias (exRoom 11) (exSchedule 8) (exSchedule' 8)).1 h⟩

/-- The A runs. -/
example : (∃ ν, runTermsA1 (exEnv rt exKs) (blocks 5 0 0 [2, 0, 3]) exMem = .ok ν) ∧
    ∃ r, runTermsA2 exCuba (exEnv rt exKs) (blocks 5 0 0 [2, 0, 3]) exMem = .ok r :=
  ⟨C59_A_one_loop (exEnv_ok rt exKs) (exSchedule 5) (exRoomFlat 5 (by norm_num)),
    C59_A_two_loop (exEnv_ok rt exKs) exCuba_safe (exSchedule 5) (exRoomFlat 5 (by norm_num))⟩

/-- The B run. -/
example : ∃ ν, runTermsB (exEnv rt exKs) exTable exTable (blocks 9 0 0 [2, 0, 3]) exMem = .ok ν :=
  C59_B (exEnv_ok rt exKs) exTable_physical.toWF (by norm_num [exTable]) exTable_physical.toWF (by norm_num [exTable])
    (exSchedule 9) (exRoomFlat 9 le_rfl)

/-- The complete one-loop spectrum. -/
example : ∃ o, runSpectrum1 (exEnv rt exKs) .delta .theta (blocks 3 0 0 [2, 0, 3]) (List.replicate 5 none) = .ok o :=
  C59_spectrum_one_loop (exEnv_ok rt exKs) .delta .theta (exSchedule 3) (by simp [exEnv, exKs])

end Verif
