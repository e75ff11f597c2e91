import Verif.Proofs.Local
import Verif.Props.LinMode
import Verif.Props.LoopA
import Verif.Props.Columns

/-!
# C93: the spectrum only enters within the range of integration

Two runs with the same settings and requests, with different linear spectra that are looked up to the same values over the ranges of
the radial integrals, store the same terms; only the columns of the linear spectrum and of the displacement variance, which are not
integrals over that range, may differ.
-/

namespace Verif

open Res

/-- A cubature routine that only sees its integrand on the unit cube. -/
def CubaLocal {β : Type} (cuba : Cuba β) : Prop := ∀ f f', (∀ x, (∀ j, 0 ≤ x j ∧ x j ≤ 1) → f x = f' x) → cuba f = cuba f'

/-- Two linear spectra under the same settings: tables of increasing positive modes, node searches that found their nodes in order, positive
requests, and for the radial settings `Q` a given range on which both are looked up to the same values.  Nothing is assumed about their values,
nor about their entries elsewhere. -/
structure Env.SameWithin (e : Env) (t' : Pk ℝ) (Q : List PName) : Prop where
  phys : e.t.Physical
  two : 2 ≤ e.t.nk
  phys' : t'.Physical
  two' : 2 ≤ t'.nk
  size : ∀ p, (e.cfg.prec p).n < 2 ^ 63
  roots : ∀ p, RootsOrdered (e.rt (e.cfg.prec p).n) (e.cfg.prec p).n
  kpos : ∀ k ∈ e.ks, 0 < k
  given : ∀ p ∈ Q, (e.cfg.prec p).Given
  agree : ∀ p ∈ Q, AgreeOn e.t t' (e.cfg.prec p).min (e.cfg.prec p).max

/-- The same run with another linear spectrum. -/
def Env.withLin (e : Env) (t' : Pk ℝ) : Env := { e with t := t' }

/-- All arrays agree, except perhaps those of the linear spectrum and of the displacement variance. -/
def AgreeExcept (params : List String) (ν ν' : Mem) : Prop :=
  ∀ c : Cell, c.1 ≠ pos params "pk_lin" → c.1 ≠ pos params "sigmad2" → ν.at c = ν'.at c

/-- The two columns that are not integrals over the range are the same as well. -/
def Env.SameLinear (e : Env) (t' : Pk ℝ) (o : IName) : Prop :=
  findPk e.t e.ks (e.cfg.interp o) = findPk t' e.ks (e.cfg.interp o) ∧
    runningSigmad2 e.t e.ks (e.cfg.uv o) = runningSigmad2 t' e.ks (e.cfg.uv o)

section

variable {e : Env} {t' : Pk ℝ} {Q : List PName} (he : e.SameWithin t' Q)

include he

theorem Env.SameWithin.tabQ {p : PName} (hp : p ∈ Q) : e.tabQ p = (e.withLin t').tabQ p :=
  initGLQ_local he.phys.toIncreasing (by have := he.two; omega) he.phys'.toIncreasing (by have := he.two'; omega) (he.given p hp) (he.size p)
    (he.roots p) (he.agree p hp)

theorem Env.SameWithin.tab {p m : PName} (hp : p ∈ Q) {g : GLQ ℝ} {gm : GLMu ℝ} (hg : e.tabQ p = .ok g) (hm : e.tabMu m = .ok gm) :
    LocTab (e.cfg.prec p).min (e.cfg.prec p).max g gm :=
  LocTab.init he.phys he.two (he.given p hp) (he.size p) (he.roots p) hg (he.size m) (he.roots m) hm

theorem Env.SameWithin.mode {ik : ℕ} {k : ℝ} (h : rd e.ks ik = .ok k) : 0 < k := he.kpos k (rd_mem h)

end

/-- Same tables and same iterations. -/
def Work.SameAs {σ : Type} {m : ℕ} (W W' : Work σ m) (n : ℕ) : Prop :=
  W.init = W'.init ∧ ∀ s0, W.init = .ok s0 → ∀ ik < n, W.body s0 ik = W'.body s0 ik

theorem mapRun_except {m : ℕ} {params : List String} {lay : ℕ → Fin m → Cell} {n : ℕ} (hinj : LayInj lay n) {pl sg pl' sg' : List ℝ}
    {row row' : ℕ → Fin m → ℝ} (h : ∀ ik < n, row ik = row' ik) {c : Cell} (h1 : c.1 ≠ pos params "pk_lin") (h2 : c.1 ≠ pos params "sigmad2") :
    mapRun params lay n pl sg row c = mapRun params lay n pl' sg' row' c := by
  have h12 : ∀ pl sg, map12 params n pl sg c = none := fun pl sg => by
    cases hc : map12 params n pl sg c with
    | none => rfl
    | some v => rcases (map12_cases hc).2 with h | h
                · exact absurd h h1
                · exact absurd h h2
  unfold mapRun
  rw [h12, h12]
  by_cases hc : ∃ ik < n, ∃ j, lay ik j = c
  · obtain ⟨ik, hik, j, rfl⟩ := hc
    rw [rowMap_lay hinj _ hik, rowMap_lay hinj _ hik, h ik hik]
  · have : ∀ ik < n, ∀ j, lay ik j ≠ c := fun ik hik j h => hc ⟨ik, hik, j, h⟩
    rw [rowMap_none this, rowMap_none this]

/-- Rows of two runs with the same iterations. -/
theorem rows_same {σ : Type} {m n : ℕ} {W W' : Work σ m} (hs : W.SameAs W' n) {s0 s0' : σ} {row row' : ℕ → Fin m → ℝ} (h0 : W.init = .ok s0)
    (h0' : W'.init = .ok s0') (h : ∀ ik < n, ∃ s', W.body s0 ik = .ok (s', row ik)) (h' : ∀ ik < n, ∃ s', W'.body s0' ik = .ok (s', row' ik)) :
    ∀ ik < n, row ik = row' ik := by
  intro ik hik
  have e0 : s0 = s0' := by
    have := h0.symm.trans (hs.1.trans h0')
    injection this
  subst e0
  obtain ⟨s1, h1⟩ := h ik hik
  obtain ⟨s2, h2⟩ := h' ik hik
  rw [hs.2 s0 h0 ik hik, h2] at h1
  injection h1 with h1
  injection h1 with _ h1
  exact h1.symm

/-- Runs without serial tail. -/
theorem runHead_local {σ : Type} {m : ℕ} {e : Env} {t' : Pk ℝ} {o : IName} {params : List String} {W W' : Work σ m} {lay : ℕ → Fin m → Cell}
    {S S' : σ → σ → Prop} (hW : W.Det S) (hW' : W'.Det S') (hinj : LayInj lay e.ks.length) {μ ν : Mem} (hin : LayIn lay e.ks.length μ)
    (hroom : Room12 params e.ks.length μ) {es es' : List Event} (hes : Schedule m e.ks.length es) (hes' : Schedule m e.ks.length es')
    (hs : W.SameAs W' e.ks.length) (h : runHead e o params W lay es μ = .ok ν) :
    (∀ ν', runHead (e.withLin t') o params W' lay es' μ = .ok ν' → AgreeExcept params ν ν') ∧
      (e.SameLinear t' o → runHead (e.withLin t') o params W' lay es' μ = .ok ν) := by
  obtain ⟨pl, sg, s0, row, h1, h2, h3, h4, rfl, -⟩ := runHead_assigns hW hinj hin hroom hes h
  constructor
  · intro ν' h'
    obtain ⟨pl', sg', s0', row', h1', h2', h3', h4', rfl, -⟩ := runHead_assigns (e := e.withLin t') hW' hinj hin hroom hes' h'
    have hr := rows_same hs h3 h3' h4 h4'
    intro c c1 c2
    rw [overlay_at, overlay_at]
    have := mapRun_except (params := params) (pl := pl) (sg := sg) (pl' := pl') (sg' := sg') hinj hr c1 c2
    rw [this]
    rfl
  · rintro ⟨l1, l2⟩
    exact runHead_of (e := e.withLin t') hW' hinj (l1.symm.trans h1) (l2.symm.trans h2) (hs.1.symm.trans h3)
      (fun ik hik => by rw [← hs.2 s0 h3 ik hik]; exact h4 ik hik) hes' μ (fits_mapRun hinj hin hroom)

theorem work1_local {e : Env} {t' : Pk ℝ} (he : e.SameWithin t' [.gamma1_1loop_q, .gamma2_tree_q]) (a b : Field) :
    (work1 e a b).SameAs (work1 (e.withLin t') a b) e.ks.length := by
  constructor
  · simp only [work1]
    rw [he.tabQ (p := .gamma1_1loop_q) (by simp), he.tabQ (p := .gamma2_tree_q) (by simp)]
    rfl
  · intro s0 h0 ik hik
    simp only [work1, bind_eq_ok] at h0
    obtain ⟨g1, -, g, hg, gm, hm, h0⟩ := h0
    cases h0
    have hT := he.tab (p := .gamma2_tree_q) (by simp) hg hm
    simp only [work1]
    refine bind_congr rfl fun k hk => ?_
    refine bind_congr rfl fun _ _ => ?_
    refine bind_congr rfl fun _ _ => ?_
    exact bind_congr (calcGamma2Tree_local (he.agree _ (by simp)) hT (he.mode hk) _ a b) fun _ _ => rfl

theorem work2_local {e : Env} {t' : Pk ℝ}
    (he : e.SameWithin t' [.gamma1_1loop_q, .gamma1_2loop_q, .gamma2_tree_q, .gamma2d_1loop_q, .gamma2t_1loop_q, .gamma3_tree_q]) (a b : Field) :
    (work2 e a b).SameAs (work2 (e.withLin t') a b) e.ks.length := by
  constructor
  · simp only [work2]
    rw [he.tabQ (p := .gamma1_1loop_q) (by simp), he.tabQ (p := .gamma1_2loop_q) (by simp), he.tabQ (p := .gamma2_tree_q) (by simp),
      he.tabQ (p := .gamma2d_1loop_q) (by simp), he.tabQ (p := .gamma2t_1loop_q) (by simp)]
    rfl
  · intro s0 h0 ik hik
    simp only [work2, bind_eq_ok] at h0
    obtain ⟨g1, -, g12, -, g, hg, gm, hm, gd, -, gt, -, h0⟩ := h0
    cases h0
    have hT := he.tab (p := .gamma2_tree_q) (by simp) hg hm
    simp only [work2]
    refine bind_congr rfl fun k hk => ?_
    refine bind_congr rfl fun _ _ => ?_
    exact bind_congr (calcGamma2Loop_local (he.agree .gamma2_tree_q (by simp)) hT (he.mode hk) _ gd gt a b) fun _ _ => rfl

theorem workBias_local {e : Env} {t' : Pk ℝ} (he : e.SameWithin t' [.bias_1loop_q]) :
    (workBias e).SameAs (workBias (e.withLin t')) e.ks.length := by
  constructor
  · simp only [workBias]
    rw [he.tabQ (p := .bias_1loop_q) (by simp)]
    rfl
  · intro s0 h0 ik hik
    simp only [workBias, bind_eq_ok] at h0
    obtain ⟨g, hg, gm, hm, h0⟩ := h0
    cases h0
    have hT := he.tab (p := .bias_1loop_q) (by simp) hg hm
    have ha := he.agree .bias_1loop_q (by simp)
    have hc : ∀ a kn half (s : GLQ ℝ × GLMu ℝ) k, 0 < k → LocTab (e.cfg.prec .bias_1loop_q).min (e.cfg.prec .bias_1loop_q).max s.1 s.2 →
        biasCall e a kn half s k = biasCall (e.withLin t') a kn half s k ∧ ∀ r, biasCall e a kn half s k = .ok r →
          LocTab (e.cfg.prec .bias_1loop_q).min (e.cfg.prec .bias_1loop_q).max r.1.1 r.1.2 := fun a kn half s k hk hs =>
      ⟨calcBias_local ha hs hk _ a kn half, fun r hr => calcBias_tabs hs hr⟩
    simp only [workBias]
    refine bind_congr rfl fun k hk => ?_
    have hk := he.mode hk
    obtain ⟨e0, f0⟩ := hc .delta kernelB2 true (g, gm) k hk hT
    refine bind_congr e0 fun r0 h0 => ?_
    obtain ⟨e1, f1⟩ := hc .delta kernelBs2 true r0.1 k hk (f0 _ h0)
    refine bind_congr e1 fun r1 h1 => ?_
    obtain ⟨e2, f2⟩ := hc .theta kernelB2 true r1.1 k hk (f1 _ h1)
    refine bind_congr e2 fun r2 h2 => ?_
    obtain ⟨e3, f3⟩ := hc .theta kernelBs2 true r2.1 k hk (f2 _ h2)
    refine bind_congr e3 fun r3 h3 => ?_
    obtain ⟨e4, f4⟩ := hc .delta kernelB22 false r3.1 k hk (f3 _ h3)
    refine bind_congr e4 fun r4 h4 => ?_
    obtain ⟨e5, f5⟩ := hc .delta kernelB2s2 false r4.1 k hk (f4 _ h4)
    refine bind_congr e5 fun r5 h5 => ?_
    obtain ⟨e6, f6⟩ := hc .delta kernelBs22 false r5.1 k hk (f5 _ h5)
    refine bind_congr e6 fun r6 h6 => ?_
    obtain ⟨e7, f7⟩ := hc .delta kernelSigma3sq false r6.1 k hk (f6 _ h6)
    exact bind_congr e7 fun r7 h7 => rfl

theorem workA1_local {e : Env} {t' : Pk ℝ} (he : e.SameWithin t' [.A_1loop_q]) (hk' : ∀ i, ∀ k ∈ e.ks, look e.t i k = look t' i k) :
    (workA1 e).SameAs (workA1 (e.withLin t')) e.ks.length := by
  constructor
  · simp only [workA1]
    rw [he.tabQ (p := .A_1loop_q) (by simp)]
    rfl
  · intro s0 h0 ik hik
    simp only [workA1, bind_eq_ok] at h0
    obtain ⟨g, hg, gm, hm, h0⟩ := h0
    cases h0
    have hT := he.tab (p := .A_1loop_q) (by simp) hg hm
    simp only [workA1]
    refine bind_congr rfl fun k hk => ?_
    exact bind_congr (calcA1_local (he.agree _ (by simp)) hT (he.mode hk) _ _ (hk' _ k (rd_mem hk))) fun _ _ => rfl

theorem workB_local {e : Env} {t' dt dt' tt tt' : Pk ℝ} (he : e.SameWithin t' [.B_q])
    (hd : AgreeOn dt dt' (e.cfg.prec .B_q).min (e.cfg.prec .B_q).max) (ht : AgreeOn tt tt' (e.cfg.prec .B_q).min (e.cfg.prec .B_q).max) :
    (workB e dt tt).SameAs (workB (e.withLin t') dt' tt') e.ks.length := by
  constructor
  · simp only [workB]
    rw [he.tabQ (p := .B_q) (by simp)]
    rfl
  · intro s0 h0 ik hik
    simp only [workB, bind_eq_ok] at h0
    obtain ⟨g, hg, gm, hm, h0⟩ := h0
    cases h0
    have hT := he.tab (p := .B_q) (by simp) hg hm
    simp only [workB]
    refine bind_congr rfl fun k hk => ?_
    exact bind_congr (calcB_local hd hT (he.mode hk) ht _) fun _ _ => rfl

/-! ## Runs -/

/-- C93: the one-loop run, for any two schedules. -/
theorem C93_one_loop {e : Env} {t' : Pk ℝ} (he : e.SameWithin t' [.gamma1_1loop_q, .gamma2_tree_q]) {a b : Field} {es es' : List Event}
    {μ ν : Mem} (hμ : Room 6 e.ks.length μ) (hes : Schedule 3 e.ks.length es) (hes' : Schedule 3 e.ks.length es')
    (h : runTerms1 e a b es μ = .ok ν) :
    (∀ ν', runTerms1 (e.withLin t') a b es' μ = .ok ν' → AgreeExcept params1 ν ν') ∧
      (e.SameLinear t' .spectrum_1loop → runTerms1 (e.withLin t') a b es' μ = .ok ν) :=
  runHead_local (work1_det e a b) (work1_det _ a b) (lay1_inj _) (lay1_in hμ) (room12 hμ (by decide) (by decide)) hes hes'
    (work1_local he a b) h

/-- C93: the bias run. -/
theorem C93_bias {e : Env} {t' : Pk ℝ} (he : e.SameWithin t' [.bias_1loop_q]) {es es' : List Event}
    {μ ν : Mem} (hμ : Room 11 e.ks.length μ) (hes : Schedule 8 e.ks.length es) (hes' : Schedule 8 e.ks.length es')
    (h : runTermsBias e es μ = .ok ν) :
    (∀ ν', runTermsBias (e.withLin t') es' μ = .ok ν' → AgreeExcept paramsBias ν ν') ∧
      (e.SameLinear t' .bias_1loop → runTermsBias (e.withLin t') es' μ = .ok ν) :=
  runHead_local (workBias_det e) (workBias_det _) (layBias_inj _) (layBias_in hμ) (room12 hμ (by decide) (by decide)) hes hes'
    (workBias_local he) h

/-- C93: the one-loop A run; its integrand contains the linear spectrum at the requested mode. -/
theorem C93_A_one_loop {e : Env} {t' : Pk ℝ} (he : e.SameWithin t' [.A_1loop_q]) (hk' : ∀ i, ∀ k ∈ e.ks, look e.t i k = look t' i k)
    {es es' : List Event} {μ ν : Mem} (hμ : RoomFlat 5 e.ks.length μ) (hes : Schedule 5 e.ks.length es) (hes' : Schedule 5 e.ks.length es')
    (h : runTermsA1 e es μ = .ok ν) :
    (∀ ν', runTermsA1 (e.withLin t') es' μ = .ok ν' → AgreeExcept paramsA ν ν') ∧
      (e.SameLinear t' .A_1loop → runTermsA1 (e.withLin t') es' μ = .ok ν) :=
  runHead_local (workA1_det e) (workA1_det _) (layFlat_inj _ _ _ _) (layFlat_in hμ.2) (room12 hμ.1 (by decide) (by decide)) hes hes'
    (workA1_local he hk') h

/-- C93: the B run, also in the two spectra it is computed from. -/
theorem C93_B {e : Env} {t' dt dt' tt tt' : Pk ℝ} (he : e.SameWithin t' [.B_q])
    (hd : AgreeOn dt dt' (e.cfg.prec .B_q).min (e.cfg.prec .B_q).max) (ht : AgreeOn tt tt' (e.cfg.prec .B_q).min (e.cfg.prec .B_q).max)
    {es es' : List Event} {μ ν : Mem} (hμ : RoomFlat 9 e.ks.length μ) (hes : Schedule 9 e.ks.length es) (hes' : Schedule 9 e.ks.length es')
    (h : runTermsB e dt tt es μ = .ok ν) :
    (∀ ν', runTermsB (e.withLin t') dt' tt' es' μ = .ok ν' → AgreeExcept paramsB ν ν') ∧
      (e.SameLinear t' .B → runTermsB (e.withLin t') dt' tt' es' μ = .ok ν) :=
  runHead_local (workB_det e dt tt) (workB_det _ _ _) (layFlat_inj _ _ _ _) (layFlat_in hμ.2) (room12 hμ.1 (by decide) (by decide)) hes hes'
    (workB_local he hd ht) h

/-- The range of the third-order integral. -/
theorem autoRange_given (t : Pk ℝ) {cfg : Cfg ℝ} {p : PName} (h : (cfg.prec p).Given) : autoRange t cfg p = .ok cfg := by
  unfold autoRange
  rw [glqRange_given t h, ok_bind]
  obtain ⟨prec, interp, uv⟩ := cfg
  simp only
  congr 2
  exact Function.update_eq_self p prec

/-- C93: the two-loop run, for every cubature routine that keeps to the unit cube. -/
theorem C93_two_loop {cuba : Cuba ℝ} (hc : CubaLocal cuba) {e : Env} {t' : Pk ℝ}
    (he : e.SameWithin t' [.gamma1_1loop_q, .gamma1_2loop_q, .gamma2_tree_q, .gamma2d_1loop_q, .gamma2t_1loop_q, .gamma3_tree_q])
    {a b : Field} {es es' : List Event} {μ ν : Mem} {cfg : Cfg ℝ} (hμ : Room 11 e.ks.length μ) (hes : Schedule 7 e.ks.length es)
    (hes' : Schedule 7 e.ks.length es') (h : runTerms2 cuba e a b es μ = .ok (cfg, ν)) :
    (∀ cfg' ν', runTerms2 cuba (e.withLin t') a b es' μ = .ok (cfg', ν') → cfg' = cfg ∧ AgreeExcept params2 ν ν') ∧
      (e.SameLinear t' .spectrum_2loop → runTerms2 cuba (e.withLin t') a b es' μ = .ok (cfg, ν)) := by
  have hs := work2_local he a b
  have hg := he.given .gamma3_tree_q (by simp)
  have hG : ∀ ik, gamma3At cuba e a b (e.cfg.prec .gamma3_tree_q) ik = gamma3At cuba (e.withLin t') a b (e.cfg.prec .gamma3_tree_q) ik := by
    intro ik
    refine bind_congr rfl fun k _ => bind_congr (hc _ _ fun x hx => ?_) fun _ _ => rfl
    exact kernelGamma3_local _ a b k hg.1 hg.2.le (he.agree _ (by simp)) hx
  obtain ⟨pl, sg, s0, row, g3, h1, h2, h3, h4, h5, h6, rfl, -⟩ := run2_assigns hμ hes h
  rw [autoRange_given e.t hg] at h5
  cases h5
  constructor
  · intro cfg' ν' h'
    obtain ⟨pl', sg', s0', row', g3', h1', h2', h3', h4', h5', h6', rfl, -⟩ := run2_assigns (e := e.withLin t') hμ hes' h'
    rw [autoRange_given (e.withLin t').t (cfg := (e.withLin t').cfg) hg] at h5'
    cases h5'
    refine ⟨rfl, ?_⟩
    have hr := rows_same hs h3 h3' h4 h4'
    have hg3 : ∀ ik < e.ks.length, g3 ik = g3' ik := fun ik hik => by
      have := h6 ik hik
      rw [hG ik] at this
      have := this.symm.trans (h6' ik hik)
      injection this
    intro c c1 c2
    rw [overlay_at, overlay_at]
    have k1 := mapRun_except (params := params2) (pl := pl) (sg := sg) (pl' := pl') (sg' := sg') (lay2_inj e.ks.length) hr c1 c2
    have k2 : rowMap (layOne (pos params2 "pk_gamma3_tree")) e.ks.length (fun ik _ => g3 ik) c =
        rowMap (layOne (pos params2 "pk_gamma3_tree")) e.ks.length (fun ik _ => g3' ik) c := by
      by_cases hc : ∃ ik < e.ks.length, ∃ j, layOne (pos params2 "pk_gamma3_tree") ik j = c
      · obtain ⟨ik, hik, j, rfl⟩ := hc
        rw [rowMap_lay (layOne_inj _ _) _ hik, rowMap_lay (layOne_inj _ _) _ hik, hg3 ik hik]
      · have : ∀ ik < e.ks.length, ∀ j, layOne (pos params2 "pk_gamma3_tree") ik j ≠ c := fun ik hik j h => hc ⟨ik, hik, j, h⟩
        rw [rowMap_none this, rowMap_none this]
    unfold mapRun2
    rw [k1, k2]
    rfl
  · rintro ⟨l1, l2⟩
    exact run2_of (e := e.withLin t') hμ hes' (l1.symm.trans h1) (l2.symm.trans h2) (hs.1.symm.trans h3)
      (fun ik hik => by rw [← hs.2 s0 h3 ik hik]; exact h4 ik hik) (autoRange_given t' hg) fun ik hik => by rw [← hG ik]; exact h6 ik hik

/-! ## The two-loop A run -/

theorem norm_of {v : Vec} {n : ℝ} (hn : 0 ≤ n) (h : v.x * v.x + v.y * v.y + v.z * v.z = n ^ 2) : v.norm = n := by
  rw [Vec.norm, h, Real.sqrt_sq hn]

theorem vec_norm_nonneg (v : Vec) : 0 ≤ v.norm := Real.sqrt_nonneg _

theorem vec_norm_sq (v : Vec) : v.norm ^ 2 = v.x * v.x + v.y * v.y + v.z * v.z :=
  Real.sq_sqrt (by nlinarith [mul_self_nonneg v.x, mul_self_nonneg v.y, mul_self_nonneg v.z])

theorem vec_norm_add_le (v w : Vec) : (v + w).norm ≤ v.norm + w.norm := by
  have h1 := vec_norm_sq v; have h2 := vec_norm_sq w
  have p1 := vec_norm_nonneg v; have p2 := vec_norm_nonneg w
  have hd : v.x * w.x + v.y * w.y + v.z * w.z ≤ v.norm * w.norm := by
    refine le_of_abs_le (abs_le_of_sq_le_sq ?_ (mul_nonneg p1 p2))
    rw [mul_pow, h1, h2]
    nlinarith [sq_nonneg (v.x * w.y - v.y * w.x), sq_nonneg (v.x * w.z - v.z * w.x), sq_nonneg (v.y * w.z - v.z * w.y)]
  refine Real.sqrt_le_iff.2 ⟨add_nonneg p1 p2, ?_⟩
  show (v.x + w.x) * (v.x + w.x) + (v.y + w.y) * (v.y + w.y) + (v.z + w.z) * (v.z + w.z) ≤ _
  nlinarith

theorem vec_norm_sub_le (v w : Vec) : (v - w).norm ≤ v.norm + w.norm := by
  have : v - w = v + -w := by
    show Vec.mk _ _ _ = Vec.mk _ _ _
    simp [sub_eq_add_neg]
  rw [this]
  exact (vec_norm_add_le v (-w)).trans_eq (by simp [Vec.norm])

theorem biLeg_local {t t' : Pk ℝ} {B Q : ℝ} (ha : AgreeOn t t' 0 (B + Q)) (i : Interpol) (f : Field) {kk qq : Vec} (h : kk.norm ≤ B)
    (hq : qq.norm ≤ Q) : biLeg t i f kk qq = biLeg t' i f kk qq := by
  unfold biLeg
  have := vec_norm_nonneg qq
  refine Res.bind_congr (ha i _ (vec_norm_nonneg _) (by linarith)) fun _ _ => ?_
  refine Res.bind_congr (ha i _ (vec_norm_nonneg _) ((vec_norm_sub_le _ _).trans (by linarith))) fun _ _ => ?_
  exact Res.bind_congr (ha i _ (vec_norm_nonneg _) ((vec_norm_add_le _ _).trans (by linarith))) fun _ _ => rfl

theorem biSum_local {t t' : Pk ℝ} {B Q : ℝ} (ha : AgreeOn t t' 0 (B + Q)) (i : Interpol) (a b c : Field) {k1 k2 k3 qq : Vec} (h1 : k1.norm ≤ B)
    (h2 : k2.norm ≤ B) (h3 : k3.norm ≤ B) (hq : qq.norm ≤ Q) : biSum t i k1 k2 k3 qq a b c = biSum t' i k1 k2 k3 qq a b c := by
  have := vec_norm_nonneg k1
  unfold biSum bispectrumII
  rw [biLeg_local ha i a h1 hq, biLeg_local ha i b h2 hq, biLeg_local ha i c h3 hq]
  dsimp only
  rw [ha i qq.norm (vec_norm_nonneg _) (by linarith)]

/-- The Monte-Carlo part sees the spectrum up to `k + 2 qmax` and the displacement variance up to `k + qmax`. -/
theorem kernelA2II_local {t t' : Pk ℝ} (i : Interpol) {uv k qmin qmax B : ℝ} (hk : 0 < k) (h0 : 0 < qmin) (hle : qmin ≤ qmax) (hB : k + qmax ≤ B)
    (ha : AgreeOn t t' 0 (B + qmax)) (hs : ∀ q, q ≤ B → sigma1 t uv q = sigma1 t' uv q) {xx : Fin 5 → ℝ} (hx : ∀ j, 0 ≤ xx j ∧ xx j ≤ 1) :
    kernelA2II t i uv k qmin qmax xx = kernelA2II t' i uv k qmin qmax xx := by
  have hp := g3_le h0 hle (hx 0)
  have hq := g3_le h0 hle (hx 2)
  have hmu := hx 1
  unfold kernelA2II
  dsimp only
  have hp0 := Real.exp_pos (Real.log qmin + (Real.log qmax - Real.log qmin) * xx 0)
  have hq0 := Real.exp_pos (Real.log qmin + (Real.log qmax - Real.log qmin) * xx 2)
  generalize Real.exp (Real.log qmin + (Real.log qmax - Real.log qmin) * xx 0) = p at *
  generalize Real.exp (Real.log qmin + (Real.log qmax - Real.log qmin) * xx 2) = q at *
  have hm : 0 ≤ 1 - (-1 + 2 * xx 1) * (-1 + 2 * xx 1) := by nlinarith
  have hm' : -1 ≤ -1 + 2 * xx 1 := by linarith
  generalize -1 + 2 * xx 1 = mu at *
  split
  · rfl
  have n1 : Vec.norm ⟨p * Real.sqrt (1 - mu * mu), 0, p * mu⟩ = p := by
    refine norm_of hp0.le ?_
    have := Real.mul_self_sqrt hm
    show p * Real.sqrt (1 - mu * mu) * (p * Real.sqrt (1 - mu * mu)) + 0 * 0 + p * mu * (p * mu) = p ^ 2
    linear_combination p ^ 2 * this
  have n2 : Vec.norm ⟨0, 0, -k⟩ = k := norm_of hk.le (by ring)
  have n3 : Vec.norm ⟨q * Real.sin (xx 3 * Real.pi) * Real.cos (xx 4 * 2 * Real.pi), q * Real.sin (xx 3 * Real.pi) * Real.sin (xx 4 * 2 * Real.pi),
      q * Real.cos (xx 3 * Real.pi)⟩ = q := by
    refine norm_of hq0.le ?_
    have h2 := Real.sin_sq_add_cos_sq (xx 3 * Real.pi)
    have h3 := Real.sin_sq_add_cos_sq (xx 4 * 2 * Real.pi)
    dsimp only
    linear_combination q ^ 2 * (h2 + Real.sin (xx 3 * Real.pi) ^ 2 * h3)
  have n4 := vec_norm_sub_le (-⟨0, 0, -k⟩) ⟨p * Real.sqrt (1 - mu * mu), 0, p * mu⟩
  rw [n1, show (-(⟨0, 0, -k⟩ : Vec)).norm = k from norm_of hk.le (by show -0 * -0 + -0 * -0 + - -k * - -k = _; ring)] at n4
  have hkp : k * Real.sqrt (1 + p / k * (p / k) - 2 * (p / k) * mu) ≤ B := by
    have hx0 : 0 ≤ p / k := by positivity
    have : Real.sqrt (1 + p / k * (p / k) - 2 * (p / k) * mu) ≤ 1 + p / k := Real.sqrt_le_iff.2 ⟨by positivity, by nlinarith⟩
    have h4 := mul_le_mul_of_nonneg_left this hk.le
    have : k * (1 + p / k) = k + p := by field_simp
    linarith
  refine Res.bind_congr (hs k (by linarith)) fun _ _ => ?_
  refine Res.bind_congr (hs p (by linarith)) fun _ _ => ?_
  refine Res.bind_congr (hs _ hkp) fun _ _ => ?_
  simp only [biSum_local ha i _ _ _ (n1.le.trans (by linarith)) (n4.trans (by linarith)) (n2.le.trans (by linarith)) (n3.le.trans hq),
    biSum_local ha i _ _ _ (n4.trans (by linarith)) (n1.le.trans (by linarith)) (n2.le.trans (by linarith)) (n3.le.trans hq)]

theorem workA2_local {e : Env} {t' : Pk ℝ} (he : e.SameWithin t' [.A_2loop_I_q, .gamma1_1loop_q, .gamma2d_1loop_q, .gamma2t_1loop_q])
    (hk' : ∀ i, ∀ k ∈ e.ks, look e.t i k = look t' i k) {B : ℝ} (hB : (e.cfg.prec .A_2loop_I_q).max ≤ B) (hB' : ∀ k ∈ e.ks, k ≤ B)
    (hs : ∀ q, q ≤ B → sigma1 e.t (e.cfg.uv .bispectrum_1loop) q = sigma1 t' (e.cfg.uv .bispectrum_1loop) q) :
    (workA2 e).SameAs (workA2 (e.withLin t')) e.ks.length := by
  constructor
  · simp only [workA2]
    rw [he.tabQ (p := .A_2loop_I_q) (by simp), he.tabQ (p := .gamma1_1loop_q) (by simp), he.tabQ (p := .gamma2d_1loop_q) (by simp),
      he.tabQ (p := .gamma2t_1loop_q) (by simp)]
    rfl
  · intro s0 h0 ik hik
    simp only [workA2, bind_eq_ok] at h0
    obtain ⟨g, hg, gm, hm, g1, -, gd, -, gt, -, h0⟩ := h0
    cases h0
    have hT := he.tab (p := .A_2loop_I_q) (by simp) hg hm
    have ha := he.agree .A_2loop_I_q (by simp)
    simp only [workA2]
    refine bind_congr rfl fun k hk => ?_
    refine bind_congr ?_ fun _ _ => rfl
    unfold calcA2I
    dsimp only
    refine bind_congr (quadLoop_local fun iq hiq a b hr mu hmu => ?_) fun _ _ => rfl
    unfold kernelA2I
    refine bind_congr rfl fun x hx => ?_
    refine bind_congr rfl fun q hq => ?_
    obtain ⟨h1, h2⟩ := hT.visited (he.mode hk) hiq hr hmu hx
    obtain ⟨n1, n2⟩ := hT.q q (rd_mem hq)
    have hkm := rd_mem hk
    refine bind_congr ?_ fun _ _ => rfl
    unfold Env.biI bispectrumI
    refine bind_congr (hs k (hB' k hkm)) fun _ _ => ?_
    refine bind_congr (hs q (n2.trans hB)) fun _ _ => ?_
    refine bind_congr (hs _ (h2.trans hB)) fun _ _ => ?_
    refine bind_congr (hk' _ k hkm) fun _ _ => ?_
    refine bind_congr (ha _ q n1 n2) fun _ _ => ?_
    exact bind_congr (ha _ _ h1 h2) fun _ _ => rfl

/-- C93: the two-loop A run, for spectra that agree from zero up to a bound `B` on the requests and ranges plus the range of the Monte-Carlo
part, the displacement variance up to `B`.  Missing for C93: spectra that agree over the ranges only, see `C93_bispectrum_violation`; the
displacement variance enters the integrands here. -/
theorem C93_A_two_loop_partial {cuba : Cuba (Fin 12 → ℝ)} (hc : CubaLocal cuba) {e : Env} {t' : Pk ℝ}
    (he : e.SameWithin t' [.A_2loop_I_q, .gamma1_1loop_q, .gamma2d_1loop_q, .gamma2t_1loop_q, .A_2loop_II_III_q]) {B : ℝ}
    (hB : (e.cfg.prec .A_2loop_I_q).max ≤ B) (hB' : ∀ k ∈ e.ks, k + (e.cfg.prec .A_2loop_II_III_q).max ≤ B)
    (ha : AgreeOn e.t t' 0 (B + (e.cfg.prec .A_2loop_II_III_q).max))
    (hσ : ∀ q, q ≤ B → sigma1 e.t (e.cfg.uv .bispectrum_1loop) q = sigma1 t' (e.cfg.uv .bispectrum_1loop) q)
    {es es' : List Event} {μ ν : Mem} {cfg : Cfg ℝ} (hμ : RoomFlat 5 e.ks.length μ) (hes : Schedule 5 e.ks.length es)
    (hes' : Schedule 5 e.ks.length es') (h : runTermsA2 cuba e es μ = .ok (cfg, ν)) :
    (∀ cfg' ν', runTermsA2 cuba (e.withLin t') es' μ = .ok (cfg', ν') → cfg' = cfg ∧ AgreeExcept paramsA ν ν') ∧
      (e.SameLinear t' .A_2loop → runTermsA2 cuba (e.withLin t') es' μ = .ok (cfg, ν)) := by
  have hg := he.given .A_2loop_II_III_q (by simp)
  have hm := hg.1.trans hg.2
  have he' : e.SameWithin t' [.A_2loop_I_q, .gamma1_1loop_q, .gamma2d_1loop_q, .gamma2t_1loop_q] :=
    ⟨he.phys, he.two, he.phys', he.two', he.size, he.roots, he.kpos, fun p hp => he.given p (by simp at hp ⊢; tauto),
      fun p hp => he.agree p (by simp at hp ⊢; tauto)⟩
  have hs := workA2_local he' (fun i k hk => ha i k (he.kpos k hk).le (by linarith [hB' k hk])) hB (fun k hk => by linarith [hB' k hk]) hσ
  have hG : ∀ ik, a2At cuba e (e.cfg.prec .A_2loop_II_III_q) ik = a2At cuba (e.withLin t') (e.cfg.prec .A_2loop_II_III_q) ik := by
    intro ik
    refine bind_congr rfl fun k hk => bind_congr ?_ fun _ _ => rfl
    refine bind_congr (hc _ _ fun x hx => ?_) fun _ _ => rfl
    exact kernelA2II_local _ (he.mode hk) hg.1 hg.2.le (hB' k (rd_mem hk)) ha hσ hx
  constructor
  · obtain ⟨pl, sg, s0, row, add, h1, h2, h3, h4, h5, h6, rfl, -⟩ := runA2_assigns hμ hes h
    rw [autoRange_given e.t hg] at h5
    cases h5
    intro cfg' ν' h'
    obtain ⟨pl', sg', s0', row', add', h1', h2', h3', h4', h5', h6', rfl, -⟩ := runA2_assigns (e := e.withLin t') hμ hes' h'
    rw [autoRange_given (e.withLin t').t (cfg := (e.withLin t').cfg) hg] at h5'
    cases h5'
    refine ⟨rfl, ?_⟩
    have hr := rows_same hs h3 h3' h4 h4'
    have hadd : ∀ ik < e.ks.length, add ik = add' ik := fun ik hik => by
      have := h6 ik hik
      rw [hG ik] at this
      have := this.symm.trans (h6' ik hik)
      injection this
    intro c c1 c2
    rw [overlay_at, overlay_at]
    have k1 := mapRun_except (params := paramsA) (pl := pl) (sg := sg) (pl' := pl') (sg' := sg') (layFlat_inj 5 paramsA "A" e.ks.length)
      (row := fun ik c => row ik c + add ik c) (row' := fun ik c => row' ik c + add' ik c)
      (fun ik hik => by rw [hr ik hik, hadd ik hik]) c1 c2
    rw [k1]
    rfl
  · intro hl
    have eq : ∀ (e : Env) es μ, runTermsA2 cuba e es μ = (runHead e .A_2loop paramsA (workA2 e) (layFlat 5 paramsA "A") es μ >>= fun μ => do
        let cfg ← autoRange e.t e.cfg .A_2loop_II_III_q
        let μ ← addRows e.ks.length (layFlat 5 paramsA "A") (a2At cuba e (cfg.prec .A_2loop_II_III_q)) μ
        .ok (cfg, μ)) := by
      intro e es μ
      simp only [runHead, runTermsA2, bind_assoc]
      rfl
    rw [eq] at h ⊢
    obtain ⟨μ1, h1, h2⟩ := bind_eq_ok.mp h
    rw [(runHead_local (workA2_det e) (workA2_det (e.withLin t')) (layFlat_inj _ _ _ _) (layFlat_in hμ.2) (room12 hμ.1 (by decide) (by decide)) hes hes'
      hs h1).2 hl, ok_bind, ← h2, autoRange_given (e.withLin t').t (cfg := (e.withLin t').cfg) hg, autoRange_given e.t hg, ok_bind, ok_bind]
    refine bind_congr ?_ fun _ _ => rfl
    show addRows _ _ (a2At cuba (e.withLin t') (e.cfg.prec .A_2loop_II_III_q)) μ1 = _
    rw [← funext hG]
    rfl

/-! ## Which spectra agree -/

/-- C93: tables that share a stretch of entries agree from the third to the third last entry of the stretch, and from its first entry on
where the stretch starts both tables. -/
theorem C93_window {t t' : Pk ℝ} (h : t.Increasing) (h' : t'.Increasing) {a a' n : ℕ} (hs : Shares t t' a a' n) (h3 : 3 ≤ n) {lo hi : ℝ}
    (hlo : (a = 0 ∧ a' = 0 ∧ t.k.getD 0 0 ≤ lo) ∨ t.k.getD (a + 2) 0 ≤ lo) (hhi : hi < t.k.getD (a + n - 2) 0) : AgreeOn t t' lo hi :=
  fun i _ h1 h2 => look_shares h h' hs h3 (hlo.imp (fun c => ⟨c.1, c.2.1, c.2.2.trans h1⟩) fun c => c.trans h1) (h2.trans_lt hhi) i

/-- C93: entries above the requested modes and above the cut-off of the displacement variance enter neither of the two other columns. -/
theorem C93_linear_columns {e : Env} {t' : Pk ℝ} (h : e.t.Increasing) (h' : t'.Increasing) {n : ℕ} (hs : Shares e.t t' 0 0 n) (h3 : 3 ≤ n)
    (hk : e.ks.Pairwise (· ≤ ·)) (hlo : ∀ k ∈ e.ks, e.t.k.getD 0 0 ≤ k) (hhi : ∀ k ∈ e.ks, k < e.t.k.getD (n - 2) 0) {o : IName}
    (huv : ∀ k ∈ e.ks, k * e.cfg.uv o < e.t.k.getD (n - 1) 0) : e.SameLinear t' o := by
  have l1 := hs.len; have l2 := hs.len'
  refine ⟨findPk_local h (by omega) h' (by omega) _ hk fun q hq => ?_, runningSigmad2_local h h' (by omega) hs huv⟩
  exact look_shares h h' hs h3 (.inl ⟨rfl, rfl, hlo q hq⟩) (by simpa using hhi q hq) _

/-- C93: a linear spectrum that goes on above the range, the requests and the cut-off, in whatever way, gives the same one-loop terms in
every cell as one that ends there. -/
theorem C93_cut {e : Env} {t' : Pk ℝ} (hp : e.t.Physical) (hp' : t'.Physical) {n : ℕ} (hs : Shares e.t t' 0 0 n) (h3 : 3 ≤ n)
    (hk : e.ks.Pairwise (· ≤ ·)) (hlo : ∀ k ∈ e.ks, e.t.k.getD 0 0 ≤ k) (hhi : ∀ k ∈ e.ks, k < e.t.k.getD (n - 2) 0)
    (huv : ∀ k ∈ e.ks, k * e.cfg.uv .spectrum_1loop < e.t.k.getD (n - 1) 0) (size : ∀ p, (e.cfg.prec p).n < 2 ^ 63)
    (roots : ∀ p, RootsOrdered (e.rt (e.cfg.prec p).n) (e.cfg.prec p).n)
    (hr : ∀ p ∈ [PName.gamma1_1loop_q, .gamma2_tree_q], e.t.k.getD 0 0 ≤ (e.cfg.prec p).min ∧ (e.cfg.prec p).min < (e.cfg.prec p).max ∧
      (e.cfg.prec p).max < e.t.k.getD (n - 2) 0) {a b : Field} {es es' : List Event}
    {μ ν : Mem} (hμ : Room 6 e.ks.length μ) (hes : Schedule 3 e.ks.length es) (hes' : Schedule 3 e.ks.length es')
    (h : runTerms1 e a b es μ = .ok ν) : runTerms1 (e.withLin t') a b es' μ = .ok ν := by
  have l1 := hs.len; have l2 := hs.len'; have l3 := hp.hk
  have h0 : 0 < e.t.k.getD 0 0 := by
    rw [getD_eq (by omega)]
    exact hp.kpos _ (List.getElem_mem _)
  refine (C93_one_loop ⟨hp, by omega, hp', by omega, size, roots, fun k hk => h0.trans_le (hlo k hk), fun p hq => ?_, fun p hq => ?_⟩ hμ hes hes' h).2
    (C93_linear_columns hp.toIncreasing hp'.toIncreasing hs h3 hk hlo hhi huv)
  · exact ⟨h0.trans_le (hr p hq).1, (hr p hq).2.1⟩
  · exact C93_window hp.toIncreasing hp'.toIncreasing hs h3 (.inl ⟨rfl, rfl, (hr p hq).1⟩) (by simpa using (hr p hq).2.2)

/-! ## Non-vacuity -/

/-- A table that depends on `c` at a wavenumber, 109, well above the range from 11 to 91. -/
noncomputable def locTable (c : ℝ) : Pk ℝ := ⟨10, [10, 11, 60, 61, 80, 91, 92, 100, 109, 200], [0, 1, 1, 0, 0, 0, 0, 0, c, 0]⟩

theorem locTable_physical (c : ℝ) : (locTable c).Physical where
  hk := rfl
  hpk := rfl
  hsize := by norm_num [locTable]
  incr := by norm_num [locTable]
  kpos := by norm_num [locTable]

theorem locTable_shares (c d : ℝ) : Shares (locTable c) (locTable d) 0 0 8 where
  len := by norm_num [locTable]
  len' := by norm_num [locTable]
  k i hi := by simp [locTable]
  pk i hi := by
    have : i = 0 ∨ i = 1 ∨ i = 2 ∨ i = 3 ∨ i = 4 ∨ i = 5 ∨ i = 6 ∨ i = 7 := by omega
    rcases this with rfl | rfl | rfl | rfl | rfl | rfl | rfl | rfl <;> simp [locTable]

theorem locTable_agree (c d : ℝ) : AgreeOn (locTable c) (locTable d) 11 91 :=
  C93_window (locTable_physical c).toIncreasing (locTable_physical d).toIncreasing (locTable_shares c d) (by norm_num)
    (.inl ⟨rfl, rfl, by norm_num [locTable]⟩) (by norm_num [locTable])

/-- Ten nodes everywhere, linear interpolation, ranges from 11 to 91, a tenth of the mode as cut-off. -/
noncomputable def locCfg : Cfg ℝ := ⟨fun _ => ⟨10, 11, 91, .lin⟩, fun _ => .lin, fun _ => 1 / 10⟩

noncomputable def locEnv (rt : ℕ → ℕ → ℝ × ℝ) (c : ℝ) : Env := ⟨locCfg, rt, locTable c, [12, 20, 91]⟩

theorem locEnv_lin {rt : ℕ → ℕ → ℝ × ℝ} (hrt : ∀ n, n < 2 ^ 63 → RootsOrdered (rt n) n) (c : ℝ) : (locEnv rt c).LinOk where
  phys := locTable_physical c
  two := by norm_num [locEnv, locTable]
  size _ := by norm_num [locEnv, locCfg]
  lin _ := rfl
  interp _ := rfl
  roots _ := hrt _ (by norm_num [locEnv, locCfg])
  range _ := ⟨.inr (.inr (by norm_num [locEnv, locCfg])), .inr (.inr (by norm_num [locEnv, locCfg, locTable]))⟩
  kpos := by norm_num [locEnv]
  klast := by norm_num [locEnv, locTable]

theorem locEnv_same {rt : ℕ → ℕ → ℝ × ℝ} (hrt : ∀ n, n < 2 ^ 63 → RootsOrdered (rt n) n) (c d : ℝ) (Q : List PName) :
    (locEnv rt c).SameWithin (locTable d) Q where
  phys := locTable_physical c
  two := by norm_num [locEnv, locTable]
  phys' := locTable_physical d
  two' := by norm_num [locTable]
  size _ := by norm_num [locEnv, locCfg]
  roots _ := hrt _ (by norm_num [locEnv, locCfg])
  kpos := by norm_num [locEnv]
  given _ _ := ⟨by norm_num [locEnv, locCfg], by norm_num [locEnv, locCfg]⟩
  agree _ _ := locTable_agree c d

theorem locEnv_linear (rt : ℕ → ℕ → ℝ × ℝ) (c d : ℝ) (o : IName) : (locEnv rt c).SameLinear (locTable d) o :=
  C93_linear_columns (e := locEnv rt c) (locTable_physical c).toIncreasing (locTable_physical d).toIncreasing (locTable_shares c d) (by norm_num)
    (by norm_num [locEnv]) (by norm_num [locEnv, locTable]) (by norm_num [locEnv, locTable]) (by norm_num [locEnv, locTable, locCfg])

theorem exCuba_local {β : Type} : CubaLocal (exCuba : Cuba β) := fun _ _ h => h _ fun _ => ⟨by norm_num, by norm_num⟩

/-- The runs are defined and the same for all values of the table at the wavenumber 109. -/
example : ∃ rt, ∀ c d : ℝ, (∃ ν, runTerms1 (locEnv rt c) .delta .theta (blocks 3 0 0 [2, 0, 1]) exMem = .ok ν ∧
      runTerms1 (locEnv rt d) .delta .theta (blocks 3 0 0 [3]) exMem = .ok ν) ∧
    (∃ ν, runTermsBias (locEnv rt c) (blocks 8 0 0 [2, 0, 1]) exMem = .ok ν ∧ runTermsBias (locEnv rt d) (blocks 8 0 0 [3]) exMem = .ok ν) ∧
    (∃ ν, runTermsA1 (locEnv rt c) (blocks 5 0 0 [2, 0, 1]) exMem = .ok ν ∧ runTermsA1 (locEnv rt d) (blocks 5 0 0 [3]) exMem = .ok ν) ∧
    ∃ r, runTerms2 exCuba (locEnv rt c) .delta .theta (blocks 7 0 0 [2, 0, 1]) exMem = .ok r ∧
      runTerms2 exCuba (locEnv rt d) .delta .theta (blocks 7 0 0 [3]) exMem = .ok r := by
  obtain ⟨rt, hrt⟩ := roots_ordered
  refine ⟨rt, fun c d => ?_⟩
  have he := locEnv_lin hrt c
  have hR : ∀ N, Room N (locEnv rt c).ks.length exMem := fun N i _ => by simp [locEnv, exMem]
  have hF : RoomFlat 5 (locEnv rt c).ks.length exMem := ⟨fun i _ => by simp [locEnv, exMem], by simp [locEnv, exMem]⟩
  have hs : ∀ m, Schedule m (locEnv rt c).ks.length (blocks m 0 0 [2, 0, 1]) := fun m => C43_static_schedule m [2, 0, 1] (by simp)
  have hs' : ∀ m, Schedule m (locEnv rt c).ks.length (blocks m 0 0 [3]) := fun m => C43_static_schedule m [3] (by simp)
  obtain ⟨ν1, h1⟩ := C62_one_loop he .delta .theta (hs 3) (hR 6)
  obtain ⟨νb, hb⟩ := C62_bias he (hs 8) (hR 11)
  obtain ⟨νa, ha⟩ := C62_A_one_loop he (hs 5) hF
  obtain ⟨⟨cf, ν2⟩, h2⟩ := C62_two_loop he exCuba_safeIn (by norm_num [locEnv, locCfg]) (by norm_num [locEnv, locCfg])
    (by norm_num [locEnv, locCfg, locTable]) .delta .theta (hs 7) (hR 11)
  exact ⟨⟨ν1, h1, (C93_one_loop (locEnv_same hrt c d _) (hR 6) (hs 3) (hs' 3) h1).2 (locEnv_linear rt c d _)⟩,
    ⟨νb, hb, (C93_bias (locEnv_same hrt c d _) (hR 11) (hs 8) (hs' 8) hb).2 (locEnv_linear rt c d _)⟩,
    ⟨νa, ha, (C93_A_one_loop (locEnv_same hrt c d _) (fun i k hk => locTable_agree c d i k
      ((by norm_num [locEnv] : ∀ k ∈ (locEnv rt c).ks, (11 : ℝ) ≤ k) k hk) ((by norm_num [locEnv] : ∀ k ∈ (locEnv rt c).ks, k ≤ (91 : ℝ)) k hk))
      hF (hs 5) (hs' 5) ha).2 (locEnv_linear rt c d _)⟩,
    ⟨(cf, ν2), h2, (C93_two_loop exCuba_local (locEnv_same hrt c d _) (hR 11) (hs 7) (hs' 7) h2).2 (locEnv_linear rt c d _)⟩⟩

/-- The B run, in the two other spectra. -/
example : ∃ rt, ∀ c d : ℝ, ∀ ν, runTermsB (locEnv rt c) (locTable c) (locTable c) (blocks 9 0 0 [2, 0, 1]) exMem = .ok ν →
    runTermsB (locEnv rt d) (locTable d) (locTable d) (blocks 9 0 0 [3]) exMem = .ok ν := by
  obtain ⟨rt, hrt⟩ := roots_ordered
  exact ⟨rt, fun c d ν h => (C93_B (locEnv_same hrt c d _) (locTable_agree c d) (locTable_agree c d)
    ⟨fun i _ => by simp [locEnv, exMem], by simp [locEnv, exMem]⟩ (C43_static_schedule 9 [2, 0, 1] (by simp))
    (C43_static_schedule 9 [3] (by simp)) h).2 (locEnv_linear rt c d _)⟩

/-- The hypotheses of `C93_cut`. -/
example : ∃ rt, ∀ c d : ℝ, ∀ ν, runTerms1 (locEnv rt c) .theta .theta (blocks 3 0 0 [2, 0, 1]) exMem = .ok ν →
    runTerms1 (locEnv rt d) .theta .theta (blocks 3 0 0 [3]) exMem = .ok ν := by
  obtain ⟨rt, hrt⟩ := roots_ordered
  refine ⟨rt, fun c d ν h => C93_cut (e := locEnv rt c) (t' := locTable d) (locTable_physical c) (locTable_physical d) (locTable_shares c d)
    (by norm_num) (by norm_num [locEnv]) (by norm_num [locEnv, locTable]) (by norm_num [locEnv, locTable]) (by norm_num [locEnv, locTable, locCfg])
    (fun _ => by norm_num [locEnv, locCfg]) (fun _ => hrt _ (by norm_num [locEnv, locCfg]))
    (fun _ _ => by norm_num [locEnv, locTable, locCfg]) (fun i _ => by simp [locEnv, exMem]) (C43_static_schedule 3 [2, 0, 1] (by simp))
    (C43_static_schedule 3 [3] (by simp)) h⟩

/-- Below the table the extrapolation returns zero, the first entry being zero. -/
theorem locTable_low (c d : ℝ) : AgreeOn (locTable c) (locTable d) 0 91 := by
  have key : ∀ (c q : ℝ) (i : Interpol), q < 10 → look (locTable c) i q = .ok 0 := fun c q i hq => by
    rw [look_eq_lookup (locTable_physical c).toIncreasing (by norm_num [locTable]),
      lookup_low _ i q (by simp only [locTable]; norm_num; linarith) (by simpa [locTable] using hq)]
    norm_num [extrapolLowk, locTable, ofLong, sizeMod]
    rw [show Int.toNat 9 - 1 = 7 + 1 from rfl]
    norm_num [slopeLoop, rd]
  intro i q h1 h2
  rcases lt_or_ge q 10 with h | h
  · rw [key c q i h, key d q i h]
  · exact look_shares (locTable_physical c).toIncreasing (locTable_physical d).toIncreasing (locTable_shares c d) (by norm_num)
      (.inl ⟨rfl, rfl, by simpa [locTable] using h⟩) (by norm_num [locTable]; linarith) i

/-- Narrower ranges and polynomial interpolation. -/
noncomputable def locCfg2 : Cfg ℝ := ⟨fun _ => ⟨10, 11, 20, .poly⟩, fun _ => .poly, fun _ => 1 / 10⟩

noncomputable def locEnv2 (rt : ℕ → ℕ → ℝ × ℝ) (c : ℝ) : Env := ⟨locCfg2, rt, locTable c, [12, 20, 40]⟩

/-- The hypotheses of `C93_A_two_loop_partial`, with the bound 60. -/
example : ∃ rt, ∀ c d : ℝ, ∃ r, runTermsA2 exCuba (locEnv2 rt c) (blocks 5 0 0 [2, 0, 1]) exMem = .ok r ∧
    runTermsA2 exCuba (locEnv2 rt d) (blocks 5 0 0 [3]) exMem = .ok r := by
  obtain ⟨rt, hrt⟩ := roots_ordered
  refine ⟨rt, fun c d => ?_⟩
  have hok : (locEnv2 rt c).Ok := ⟨(locTable_physical c).toWF, by norm_num [locEnv2, locTable], fun _ => by norm_num [locEnv2, locCfg2],
    fun _ => rfl, fun _ => rfl⟩
  have hF : RoomFlat 5 (locEnv2 rt c).ks.length exMem := ⟨fun i _ => by simp [locEnv2, exMem], by simp [locEnv2, exMem]⟩
  have hs : Schedule 5 (locEnv2 rt c).ks.length (blocks 5 0 0 [2, 0, 1]) := C43_static_schedule 5 [2, 0, 1] (by simp)
  have hs' : Schedule 5 (locEnv2 rt c).ks.length (blocks 5 0 0 [3]) := C43_static_schedule 5 [3] (by simp)
  have hσ : ∀ c k : ℝ, k ≤ 60 → sigma1 (locTable c) (1 / 10) k = .ok 0 := fun c k hk =>
    sigma1_below _ (locTable_physical c).toIncreasing (by norm_num [locTable]) _ _ (by simp only [locTable, List.getD_cons_zero]; linarith)
  have hm : ((locEnv2 rt c).cfg.prec .A_2loop_II_III_q).max = 20 := rfl
  have hl : AgreeOn (locEnv2 rt c).t (locTable d) 0 (60 + ((locEnv2 rt c).cfg.prec .A_2loop_II_III_q).max) := fun i q h1 h2 =>
    locTable_low c d i q h1 (by rw [hm] at h2; linarith)
  obtain ⟨⟨cf, ν⟩, h⟩ := C59_A_two_loop hok exCuba_safe hs hF
  refine ⟨_, h, (C93_A_two_loop_partial (B := 60) (t' := locTable d) exCuba_local ?_ (by norm_num [locEnv2, locCfg2])
    (by norm_num [locEnv2, locCfg2]) hl
    (fun q hq => (hσ c q hq).trans (hσ d q hq).symm) hF hs hs' h).2 ?_⟩
  · exact ⟨locTable_physical c, by norm_num [locEnv2, locTable], locTable_physical d, by norm_num [locTable],
      fun _ => by norm_num [locEnv2, locCfg2], fun _ => hrt _ (by norm_num [locEnv2, locCfg2]), by norm_num [locEnv2],
      fun _ _ => ⟨by norm_num [locEnv2, locCfg2], by norm_num [locEnv2, locCfg2]⟩,
      fun _ _ i q h1 h2 => locTable_agree c d i q h1 (h2.trans (by norm_num [locEnv2, locCfg2]))⟩
  · exact C93_linear_columns (e := locEnv2 rt c) (locTable_physical c).toIncreasing (locTable_physical d).toIncreasing (locTable_shares c d)
      (by norm_num) (by norm_num [locEnv2]) (by norm_num [locEnv2, locTable]) (by norm_num [locEnv2, locTable])
      (by norm_num [locEnv2, locTable, locCfg2])

/-! ## The Monte-Carlo part of the two-loop A term -/

theorem look_lin_node {t : Pk ℝ} (h : t.Increasing) {i : ℕ} (hi : i + 1 < t.nk) {q : ℝ} (hq : q = t.k.getD i 0) :
    look t .lin q = .ok (t.pk.getD i 0) := by
  subst hq
  have e1 : 1 ≤ t.nk := by omega
  obtain ⟨r, d1, d2, d3, d4⟩ := exists_bracket t h e1 (t.k.getD i 0) (h.getD_le (by omega) (by omega))
  have : r = i := interval_unique h d2 d3 d4 hi le_rfl (h.getD_lt (by omega) (by omega))
  subst this
  rw [look_eq_lookup h e1, lookup_in_lin t h e1 _ (h.getD_le (by omega) (by omega)) (h.getD_le (by omega) (by omega)) r d1 hi]
  simp [interpolLin]

/-- Values at the tabulated wavenumbers. -/
theorem locTable_look (c : ℝ) : look (locTable c) .lin 11 = .ok 1 ∧ look (locTable c) .lin 60 = .ok 1 ∧ look (locTable c) .lin 61 = .ok 0 ∧
    look (locTable c) .lin 80 = .ok 0 ∧ look (locTable c) .lin 91 = .ok 0 ∧ look (locTable c) .lin 100 = .ok 0 ∧
    look (locTable c) .lin 109 = .ok c := by
  have h := (locTable_physical c).toIncreasing
  refine ⟨?_, ?_, ?_, ?_, ?_, ?_, ?_⟩
  · simpa [locTable] using look_lin_node h (i := 1) (q := 11) (by norm_num [locTable]) (by simp [locTable])
  · simpa [locTable] using look_lin_node h (i := 2) (q := 60) (by norm_num [locTable]) (by simp [locTable])
  · simpa [locTable] using look_lin_node h (i := 3) (q := 61) (by norm_num [locTable]) (by simp [locTable])
  · simpa [locTable] using look_lin_node h (i := 4) (q := 80) (by norm_num [locTable]) (by simp [locTable])
  · simpa [locTable] using look_lin_node h (i := 5) (q := 91) (by norm_num [locTable]) (by simp [locTable])
  · simpa [locTable] using look_lin_node h (i := 7) (q := 100) (by norm_num [locTable]) (by simp [locTable])
  · simpa [locTable] using look_lin_node h (i := 8) (q := 109) (by norm_num [locTable]) (by simp [locTable])

/-- The three legs at the point. -/
theorem locLegs (c : ℝ) (f : Field) :
    biLeg (locTable c) .lin f ⟨0, 0, 11⟩ ⟨60, 0, 0⟩ = .ok ⟨f, ⟨0, 0, 11⟩, ⟨-60, 0, 11⟩, ⟨60, 0, 11⟩, 61, 61, 1, 0, 0⟩ ∧
    biLeg (locTable c) .lin f ⟨0, 0, 80⟩ ⟨60, 0, 0⟩ = .ok ⟨f, ⟨0, 0, 80⟩, ⟨-60, 0, 80⟩, ⟨60, 0, 80⟩, 100, 100, 0, 0, 0⟩ ∧
    biLeg (locTable c) .lin f ⟨0, 0, -91⟩ ⟨60, 0, 0⟩ = .ok ⟨f, ⟨0, 0, -91⟩, ⟨-60, 0, -91⟩, ⟨60, 0, -91⟩, 109, 109, 0, c, c⟩ := by
  obtain ⟨l1, l2, l3, l4, l5, l6, l7⟩ := locTable_look c
  unfold biLeg
  simp only [vec_add_mk, vec_sub_mk]
  refine ⟨?_, ?_, ?_⟩
  · rw [norm_of (v := ⟨0, 0, 11⟩) (n := 11) (by norm_num) (by norm_num), norm_of (v := ⟨0 - 60, 0 - 0, 11 - 0⟩) (n := 61) (by norm_num) (by norm_num),
      norm_of (v := ⟨0 + 60, 0 + 0, 11 + 0⟩) (n := 61) (by norm_num) (by norm_num), l1, l3]
    norm_num
  · rw [norm_of (v := ⟨0, 0, 80⟩) (n := 80) (by norm_num) (by norm_num), norm_of (v := ⟨0 - 60, 0 - 0, 80 - 0⟩) (n := 100) (by norm_num) (by norm_num),
      norm_of (v := ⟨0 + 60, 0 + 0, 80 + 0⟩) (n := 100) (by norm_num) (by norm_num), l4, l6]
    norm_num
  · rw [norm_of (v := ⟨0, 0, -91⟩) (n := 91) (by norm_num) (by norm_num),
      norm_of (v := ⟨0 - 60, 0 - 0, -91 - 0⟩) (n := 109) (by norm_num) (by norm_num),
      norm_of (v := ⟨0 + 60, 0 + 0, -91 + 0⟩) (n := 109) (by norm_num) (by norm_num), l5, l7]
    norm_num

theorem locSum_defined (c : ℝ) (f g h : Field) :
    (∃ v, biSum (locTable c) .lin ⟨0, 0, 11⟩ ⟨0, 0, 80⟩ ⟨0, 0, -91⟩ ⟨60, 0, 0⟩ f g h = .ok v) ∧
      ∃ v, biSum (locTable c) .lin ⟨0, 0, 80⟩ ⟨0, 0, 11⟩ ⟨0, 0, -91⟩ ⟨60, 0, 0⟩ f g h = .ok v := by
  unfold biSum bispectrumII
  dsimp only
  rw [norm_of (v := ⟨60, 0, 0⟩) (n := 60) (by norm_num) (by norm_num), (locTable_look c).2.1, (locLegs c f).1, (locLegs c g).2.1, (locLegs c h).2.2,
    (locLegs c f).2.1, (locLegs c g).1]
  exact ⟨⟨_, rfl⟩, _, rfl⟩

/-- The first bispectrum is proportional to the value at the wavenumber 109, the length of `k ± q`. -/
theorem locSum_value : ∃ w : ℝ, w ≠ 0 ∧ ∀ c : ℝ,
    biSum (locTable c) .lin ⟨0, 0, 11⟩ ⟨0, 0, 80⟩ ⟨0, 0, -91⟩ ⟨60, 0, 0⟩ .theta .delta .delta = .ok (c * w) := by
  have hp : power (2 * Real.pi) 3 ≠ 0 := by
    rw [C01_power]
    positivity
  refine ⟨(F3Sym .delta ⟨0, 0, 11⟩ ⟨-60, 0, -91⟩ ⟨60, 0, 0⟩ * F2Full .delta ⟨-60, 0, -91⟩ ⟨60, 0, 0⟩ +
    F3Sym .delta ⟨0, 0, 11⟩ ⟨60, 0, -91⟩ ⟨-60, 0, 0⟩ * F2Full .delta ⟨60, 0, -91⟩ ⟨-60, 0, 0⟩) * (6 / power (2 * Real.pi) 3), ?_, fun c => ?_⟩
  · refine mul_ne_zero ?_ (div_ne_zero (by norm_num) hp)
    norm_num [F3Sym, F3, vec_add_mk, tiny, eps, abs_lt, F2Fast, F2Full, Vec.dot, sigmaab]
  · unfold biSum bispectrumII
    dsimp only
    rw [norm_of (v := ⟨60, 0, 0⟩) (n := 60) (by norm_num) (by norm_num), (locTable_look c).2.1, (locLegs c .theta).1, (locLegs c .delta).2.1,
      (locLegs c .delta).2.2]
    simp only [Res.ok_bind, bk222, bk321, vec_neg_mk, neg_zero]
    norm_num
    ring

/-- The point of the unit cube: `p = 11` along `k`, `q = 60` across. -/
noncomputable def locPoint : Fin 5 → ℝ := ![0, 1, Real.log (60 / 11) / Real.log (91 / 11), 1 / 2, 0]

theorem locPoint_unit (i : Fin 5) : 0 ≤ locPoint i ∧ locPoint i ≤ 1 := by
  have h : 0 < Real.log (60 / 11) := Real.log_pos (by norm_num)
  have h' : Real.log (60 / 11) ≤ Real.log (91 / 11) := Real.log_le_log (by norm_num) (by norm_num)
  fin_cases i
  · norm_num [locPoint]
  · norm_num [locPoint]
  · exact ⟨div_nonneg h.le (h.le.trans h'), (div_le_one (h.trans_le h')).2 h'⟩
  · norm_num [locPoint]
  · norm_num [locPoint]

theorem locPoint_eq : a2Point 11 91 locPoint = ⟨11, 1, 60, Real.pi / 2, 0⟩ := by
  have h : 0 < Real.log (91 / 11) := Real.log_pos (by norm_num)
  have e : (11 : ℝ) * (91 / 11) ^ (Real.log (60 / 11) / Real.log (91 / 11)) = 60 := by
    rw [Real.rpow_def_of_pos (by norm_num), mul_div_cancel₀ _ h.ne', Real.exp_log (by norm_num)]
    norm_num
  show A2Point.mk _ _ _ _ _ = _
  simp only [A2Point.mk.injEq, locPoint, Matrix.cons_val, e]
  norm_num
  ring

/-- The integrand at the point. -/
theorem locKernel : ∃ w : ℝ, w ≠ 0 ∧ ∀ c : ℝ, ∃ v, kernelA2II (locTable c) .lin (1 / 10) 91 11 91 locPoint = .ok v ∧ v 0 = c * w := by
  obtain ⟨w, hw, h⟩ := locSum_value
  have e1 : (a2Point 11 91 locPoint).pv = ⟨0, 0, 11⟩ := by
    rw [locPoint_eq]
    show Vec.mk _ _ _ = Vec.mk _ _ _
    norm_num
  have e2 : (a2Point 11 91 locPoint).rv 91 = ⟨0, 0, 80⟩ := by
    rw [A2Point.rv, e1, vec_sub_mk]
    norm_num
  have e3 : (a2Point 11 91 locPoint).qv = ⟨60, 0, 0⟩ := by
    rw [locPoint_eq]
    show Vec.mk _ _ _ = Vec.mk _ _ _
    simp
  have m1 : Vec.modulus ⟨0, 0, 11⟩ = 11 := by
    rw [Vec.modulus, show Vec.dot ⟨0, 0, 11⟩ ⟨0, 0, 11⟩ = (11 : ℝ) ^ 2 by norm_num [Vec.dot], Real.sqrt_sq (by norm_num)]
  have m2 : Vec.modulus ⟨0, 0, 80⟩ = 80 := by
    rw [Vec.modulus, show Vec.dot ⟨0, 0, 80⟩ ⟨0, 0, 80⟩ = (80 : ℝ) ^ 2 by norm_num [Vec.dot], Real.sqrt_sq (by norm_num)]
  have hj : (a2Point 11 91 locPoint).jac 11 91 ≠ 0 := by
    rw [locPoint_eq]
    have := (Real.log_pos (by norm_num : (1 : ℝ) < 91 / 11)).ne'
    simp only [A2Point.jac, Real.sin_pi_div_two]
    have := Real.pi_pos.ne'
    positivity
  refine ⟨w * (11 / 91) * (11 / 91) * (a2Point 11 91 locPoint).jac 11 91, by simp [hw, hj], fun c => ?_⟩
  have hs : ∀ k : ℝ, k ≤ 91 → sigma1 (locTable c) (1 / 10) k = .ok 0 := fun k hk =>
    sigma1_below _ (locTable_physical c).toIncreasing (by norm_num [locTable]) _ _ (by simp only [locTable, List.getD_cons_zero]; linarith)
  choose A hA using fun i => (locSum_defined c .theta (a2Fields i).1 (a2Fields i).2).1
  choose T hT using fun i => (locSum_defined c .theta (a2Fields i).1 (a2Fields i).2).2
  have hA0 : A 0 = c * w := by
    have := hA 0
    simp only [a2Fields, Matrix.cons_val] at this
    rw [h c, Res.ok.injEq] at this
    exact this.symm
  have key := C64_integrand_partial (locTable c) .lin (1 / 10) 91 11 91 (by norm_num) (by norm_num) (by norm_num) locPoint locPoint_unit 0 0 0 A T
  simp only [e1, e2, e3, m1, m2] at key
  have key := key (hs _ (by norm_num)) (hs _ (by norm_num)) (hs _ (by norm_num)) hA hT
  rw [if_pos (by norm_num)] at key
  refine ⟨_, key, ?_⟩
  rw [show (a2Point 11 91 locPoint).p = 11 by rw [locPoint_eq], show (a2Point 11 91 locPoint).mu = 1 by rw [locPoint_eq]]
  simp only [assembleA2, projA, Matrix.cons_val_zero, hA0]
  norm_num
  ring

/-- C93 fails for the Monte-Carlo part of the two-loop A term: it looks the spectrum up at `|k ± q|`, `|p ± q|` and `|k-p ± q|`, which it
does not test against the range, so that two spectra agreeing throughout the range, with the same displacement variance, give different values. -/
theorem C93_bispectrum_violation : ∃ (t t' : Pk ℝ) (cuba : ((Fin 5 → ℝ) → Res (Fin 12 → ℝ)) → Res (Fin 12 → ℝ)) (uv qmin qmax k : ℝ)
    (v v' : Fin 12 → ℝ), t.Physical ∧ t'.Physical ∧ 0 < qmin ∧ qmin < qmax ∧ 0 < k ∧ AgreeOn t t' qmin qmax ∧
    (∀ f f', (∀ x, (∀ j, 0 ≤ x j ∧ x j ≤ 1) → f x = f' x) → cuba f = cuba f') ∧
    (∀ q, q ≤ qmax → sigma1 t uv q = .ok 0 ∧ sigma1 t' uv q = .ok 0) ∧
    calcA2II cuba t .lin uv qmin qmax k = .ok v ∧ calcA2II cuba t' .lin uv qmin qmax k = .ok v' ∧ v 0 ≠ v' 0 := by
  obtain ⟨w, hw, h⟩ := locKernel
  obtain ⟨v, hv, hv0⟩ := h 0
  obtain ⟨v', hv', hv0'⟩ := h 1
  have hs : ∀ c k : ℝ, k ≤ 91 → sigma1 (locTable c) (1 / 10) k = .ok 0 := fun c k hk =>
    sigma1_below _ (locTable_physical c).toIncreasing (by norm_num [locTable]) _ _ (by simp only [locTable, List.getD_cons_zero]; linarith)
  refine ⟨locTable 0, locTable 1, fun f => f locPoint, 1 / 10, 11, 91, 91, fun i => v i * (91 * 91 * 91 / (2 * Real.pi * Real.pi)),
    fun i => v' i * (91 * 91 * 91 / (2 * Real.pi * Real.pi)), locTable_physical _, locTable_physical _, by norm_num, by norm_num, by norm_num, locTable_agree 0 1, fun f f' hf => hf _ locPoint_unit, fun q hq => ⟨hs 0 q hq, hs 1 q hq⟩, ?_, ?_, ?_⟩
  · unfold calcA2II
    dsimp only
    rw [hv]
    rfl
  · unfold calcA2II
    dsimp only
    rw [hv']
    rfl
  · have := Real.pi_pos.ne'
    simp only [hv0, hv0']
    rw [zero_mul, zero_mul, one_mul]
    exact (mul_ne_zero hw (by positivity)).symm

end Verif
