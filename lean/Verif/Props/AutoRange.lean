import Verif.Model.History
import Verif.Props.Settings
import Verif.Props.Safety

/-!
# C38: the automatic integration range follows the current spectrum
-/

namespace Verif

open Res

/-! ## One run -/

/-- The range a setting stands for: the modes of the table when a limit is not positive. -/
noncomputable def specRange (t : Pk ℝ) (v : Precision ℝ) : ℝ × ℝ :=
  open Classical in if v.min ≤ 0 ∨ v.max ≤ 0 then (t.k.getD 0 0, t.k.getD (t.nk - 1) 0) else (v.min, v.max)

/-- The settings with every automatic range written out for the table `t`. -/
noncomputable def explicitCfg (t : Pk ℝ) (c : Cfg ℝ) : Cfg ℝ :=
  { c with prec := fun p => { c.prec p with min := (specRange t (c.prec p)).1, max := (specRange t (c.prec p)).2 } }

theorem glqRange_spec {t : Pk ℝ} (ht : t.WF) (h1 : 1 ≤ t.nk) (v : Precision ℝ) : glqRange t v = .ok (specRange t v) := by
  have := ht.hk; have := ht.hsize
  have hm : sizeMod = 2 ^ 64 := rfl
  unfold glqRange specRange
  simp only [Histo.lit, Rat.cast_zero, Bool.or_eq_true, le_real]
  split
  · rw [subSize_eq (by omega) (by omega), rd_ok (by omega : 0 < t.k.length), rd_ok (by omega : t.nk - 1 < t.k.length)]
    simp only [Res.ok_bind]
    rw [List.getD_eq_getElem _ _ (by omega), List.getD_eq_getElem _ _ (by omega)]
  · rfl

theorem specRange_idem (t : Pk ℝ) (v : Precision ℝ) (r : ℝ × ℝ) (h : specRange t v = r) :
    specRange t { v with min := r.1, max := r.2 } = r := by
  unfold specRange at h
  split at h
  · rw [← h]
    unfold specRange
    split <;> rfl
  · next hn =>
    rw [← h]
    exact if_neg hn

theorem specRange_explicit (t : Pk ℝ) (c : Cfg ℝ) (p : PName) : specRange t ((explicitCfg t c).prec p) = specRange t (c.prec p) :=
  specRange_idem t (c.prec p) _ rfl

section run

variable {cfg : Cfg ℝ} {rt : ℕ → ℕ → ℝ × ℝ} {t : Pk ℝ} {ks : List ℝ} (ht : t.WF) (h1 : 1 ≤ t.nk)
include ht h1

theorem tabQ_explicit (p : PName) : Env.tabQ ⟨cfg, rt, t, ks⟩ p = Env.tabQ ⟨explicitCfg t cfg, rt, t, ks⟩ p := by
  unfold Env.tabQ initGLQ
  dsimp only
  rw [glqRange_spec ht h1, glqRange_spec ht h1, specRange_explicit]
  rfl

omit ht h1 in
theorem tabMu_explicit (p : PName) : Env.tabMu ⟨cfg, rt, t, ks⟩ p = Env.tabMu ⟨explicitCfg t cfg, rt, t, ks⟩ p := rfl

omit ht h1 in
theorem columns12_explicit (o : IName) (params : List String) (μ : Mem) :
    columns12 ⟨cfg, rt, t, ks⟩ o params μ = columns12 ⟨explicitCfg t cfg, rt, t, ks⟩ o params μ := rfl

theorem autoRange_explicit (p : PName) : ∃ c c', autoRange t cfg p = .ok c ∧ autoRange t (explicitCfg t cfg) p = .ok c' ∧
    c.prec p = c'.prec p ∧ (c.prec p).min = (specRange t (cfg.prec p)).1 ∧ (c.prec p).max = (specRange t (cfg.prec p)).2 := by
  unfold autoRange
  rw [glqRange_spec ht h1, glqRange_spec ht h1, specRange_explicit]
  refine ⟨_, _, rfl, rfl, ?_, ?_, ?_⟩ <;> simp [Function.update_self, explicitCfg]

/-- C38, one-loop run: it integrates over the modes of the spectrum in force wherever the range is automatic. -/
theorem C38_run_one_loop (a b : Field) (es : List Event) (μ : Mem) :
    runTerms1 ⟨cfg, rt, t, ks⟩ a b es μ = runTerms1 ⟨explicitCfg t cfg, rt, t, ks⟩ a b es μ := by
  unfold runTerms1 work1
  simp only [← tabQ_explicit ht h1]
  rfl

/-- C38, bias run. -/
theorem C38_run_bias (es : List Event) (μ : Mem) :
    runTermsBias ⟨cfg, rt, t, ks⟩ es μ = runTermsBias ⟨explicitCfg t cfg, rt, t, ks⟩ es μ := by
  unfold runTermsBias workBias
  simp only [← tabQ_explicit ht h1]
  rfl

/-- C38, one-loop A run. -/
theorem C38_run_A_one_loop (es : List Event) (μ : Mem) :
    runTermsA1 ⟨cfg, rt, t, ks⟩ es μ = runTermsA1 ⟨explicitCfg t cfg, rt, t, ks⟩ es μ := by
  unfold runTermsA1 workA1
  simp only [← tabQ_explicit ht h1]
  rfl

/-- C38, B run. -/
theorem C38_run_B (dt tt : Pk ℝ) (es : List Event) (μ : Mem) :
    runTermsB ⟨cfg, rt, t, ks⟩ dt tt es μ = runTermsB ⟨explicitCfg t cfg, rt, t, ks⟩ dt tt es μ := by
  unfold runTermsB workB
  simp only [← tabQ_explicit ht h1]
  rfl

/-- C38, two-loop run: the columns are those of the run with the range of the spectrum in force written out; the third-order
setting keeps that range afterwards. -/
theorem C38_run_two_loop (cuba : Cuba ℝ) (a b : Field) (es : List Event) (μ ν : Mem) :
    ((∃ c, runTerms2 cuba ⟨cfg, rt, t, ks⟩ a b es μ = .ok (c, ν)) ↔
      ∃ c, runTerms2 cuba ⟨explicitCfg t cfg, rt, t, ks⟩ a b es μ = .ok (c, ν)) ∧
    ∀ c, runTerms2 cuba ⟨cfg, rt, t, ks⟩ a b es μ = .ok (c, ν) →
      ((c.prec .gamma3_tree_q).min, (c.prec .gamma3_tree_q).max) = specRange t (cfg.prec .gamma3_tree_q) ∧
      (c.prec .gamma3_tree_q).n = (cfg.prec .gamma3_tree_q).n ∧ (c.prec .gamma3_tree_q).interpol = (cfg.prec .gamma3_tree_q).interpol ∧
      (∀ p, p ≠ .gamma3_tree_q → c.prec p = cfg.prec p) ∧ c.interp = cfg.interp ∧ c.uv = cfg.uv := by
  have hw : work2 ⟨cfg, rt, t, ks⟩ a b = work2 ⟨explicitCfg t cfg, rt, t, ks⟩ a b := by
    unfold work2
    simp only [← tabQ_explicit ht h1]
    rfl
  obtain ⟨c1, c2, e1, e2, hp, -, -⟩ := autoRange_explicit (cfg := cfg) ht h1 .gamma3_tree_q
  constructor
  · unfold runTerms2
    rw [columns12_explicit, hw]
    simp only [e1, e2, Res.ok_bind]
    rw [hp]
    constructor
    · rintro ⟨c, h⟩
      obtain ⟨μ1, h1, h⟩ := Res.bind_eq_ok.1 h
      obtain ⟨μ2, h2, h⟩ := Res.bind_eq_ok.1 h
      obtain ⟨μ3, h3, h⟩ := Res.bind_eq_ok.1 h
      refine ⟨c2, ?_⟩
      rw [h1, Res.ok_bind, h2, Res.ok_bind, h3, Res.ok_bind]
      simp only [Res.ok.injEq, Prod.mk.injEq] at h
      rw [h.2]
    · rintro ⟨c, h⟩
      obtain ⟨μ1, h1, h⟩ := Res.bind_eq_ok.1 h
      obtain ⟨μ2, h2, h⟩ := Res.bind_eq_ok.1 h
      obtain ⟨μ3, h3, h⟩ := Res.bind_eq_ok.1 h
      refine ⟨c1, ?_⟩
      rw [h1, Res.ok_bind, h2, Res.ok_bind, h3, Res.ok_bind]
      simp only [Res.ok.injEq, Prod.mk.injEq] at h
      rw [h.2]
  · intro c h
    unfold runTerms2 at h
    obtain ⟨μ1, -, h⟩ := Res.bind_eq_ok.1 h
    obtain ⟨μ2, -, h⟩ := Res.bind_eq_ok.1 h
    obtain ⟨c', hc, h⟩ := Res.bind_eq_ok.1 h
    obtain ⟨μ3, -, h⟩ := Res.bind_eq_ok.1 h
    simp only [Res.ok.injEq, Prod.mk.injEq] at h
    rw [← h.1]
    unfold autoRange at hc
    dsimp only at hc
    rw [glqRange_spec ht h1, Res.ok_bind, Res.ok.injEq] at hc
    rw [← hc]
    refine ⟨?_, ?_, ?_, fun p hp => ?_, rfl, rfl⟩ <;> simp_all [Function.update_self]

/-- C38, two-loop A run. -/
theorem C38_run_A_two_loop (cuba : Cuba (Fin 12 → ℝ)) (es : List Event) (μ ν : Mem) :
    ((∃ c, runTermsA2 cuba ⟨cfg, rt, t, ks⟩ es μ = .ok (c, ν)) ↔
      ∃ c, runTermsA2 cuba ⟨explicitCfg t cfg, rt, t, ks⟩ es μ = .ok (c, ν)) ∧
    ∀ c, runTermsA2 cuba ⟨cfg, rt, t, ks⟩ es μ = .ok (c, ν) →
      ((c.prec .A_2loop_II_III_q).min, (c.prec .A_2loop_II_III_q).max) = specRange t (cfg.prec .A_2loop_II_III_q) ∧
      (c.prec .A_2loop_II_III_q).n = (cfg.prec .A_2loop_II_III_q).n ∧
      (c.prec .A_2loop_II_III_q).interpol = (cfg.prec .A_2loop_II_III_q).interpol ∧
      (∀ p, p ≠ .A_2loop_II_III_q → c.prec p = cfg.prec p) ∧ c.interp = cfg.interp ∧ c.uv = cfg.uv := by
  have hw : workA2 ⟨cfg, rt, t, ks⟩ = workA2 ⟨explicitCfg t cfg, rt, t, ks⟩ := by
    unfold workA2
    simp only [← tabQ_explicit ht h1]
    rfl
  obtain ⟨c1, c2, e1, e2, hp, -, -⟩ := autoRange_explicit (cfg := cfg) ht h1 .A_2loop_II_III_q
  have hi : (explicitCfg t cfg).interp = cfg.interp := rfl
  have hu : (explicitCfg t cfg).uv = cfg.uv := rfl
  constructor
  · unfold runTermsA2
    rw [columns12_explicit, hw]
    simp only [e1, e2, Res.ok_bind, hi, hu]
    rw [hp]
    constructor
    · rintro ⟨c, h⟩
      obtain ⟨μ1, h1, h⟩ := Res.bind_eq_ok.1 h
      obtain ⟨μ2, h2, h⟩ := Res.bind_eq_ok.1 h
      obtain ⟨μ3, h3, h⟩ := Res.bind_eq_ok.1 h
      refine ⟨c2, ?_⟩
      rw [h1, Res.ok_bind, h2, Res.ok_bind, h3, Res.ok_bind]
      simp only [Res.ok.injEq, Prod.mk.injEq] at h
      rw [h.2]
    · rintro ⟨c, h⟩
      obtain ⟨μ1, h1, h⟩ := Res.bind_eq_ok.1 h
      obtain ⟨μ2, h2, h⟩ := Res.bind_eq_ok.1 h
      obtain ⟨μ3, h3, h⟩ := Res.bind_eq_ok.1 h
      refine ⟨c1, ?_⟩
      rw [h1, Res.ok_bind, h2, Res.ok_bind, h3, Res.ok_bind]
      simp only [Res.ok.injEq, Prod.mk.injEq] at h
      rw [h.2]
  · intro c h
    unfold runTermsA2 at h
    obtain ⟨μ1, -, h⟩ := Res.bind_eq_ok.1 h
    obtain ⟨μ2, -, h⟩ := Res.bind_eq_ok.1 h
    obtain ⟨c', hc, h⟩ := Res.bind_eq_ok.1 h
    obtain ⟨μ3, -, h⟩ := Res.bind_eq_ok.1 h
    simp only [Res.ok.injEq, Prod.mk.injEq] at h
    rw [← h.1]
    unfold autoRange at hc
    dsimp only at hc
    rw [glqRange_spec ht h1, Res.ok_bind, Res.ok.injEq] at hc
    rw [← hc]
    refine ⟨?_, ?_, ?_, fun p hp => ?_, rfl, rfl⟩ <;> simp_all [Function.update_self]

end run

/-! ## Histories -/

/-- The spectrum set last. -/
def lastTable : Pk ℝ → List LibCall → Pk ℝ
  | t, [] => t
  | _, .setPkLin t :: h => lastTable t h
  | t, _ :: h => lastTable t h

/-- The settings made by the user: the setting calls of the history without the runs. -/
noncomputable def userCfg : Cfg ℝ → List LibCall → Cfg ℝ
  | c, [] => c
  | c, .setPrec name a :: h => userCfg (match pySetPrec name a c with
      | .done c => c
      | .raised _ c => c
      | .ub _ => c) h
  | c, _ :: h => userCfg c h

/-- Is the call a run that integrates with the setting of the cubature term `p`? -/
def LibCall.uses (p : PName) : LibCall → Prop
  | .run2 .. => p = .gamma3_tree_q
  | .runA2 .. => p = .A_2loop_II_III_q
  | _ => False

/-- Two outcomes of the same call from settings that agree in the sense of `R`. -/
def PyRes.agree {σ : Type} (R : σ → σ → Prop) : PyRes σ → PyRes σ → Prop
  | .done s, .done t => R s t
  | .raised w s, .raised w' t => w = w' ∧ R s t
  | .ub w, .ub w' => w = w'
  | _, _ => False

theorem PyRes.agree.andThen {σ : Type} {R : σ → σ → Prop} {r r' : PyRes σ} {f : σ → PyRes σ} (h : r.agree R r')
    (hf : ∀ s t, R s t → (f s).agree R (f t)) : (r.andThen f).agree R (r'.andThen f) := by
  cases r <;> cases r' <;> first | exact h.elim | exact hf _ _ h | exact h

theorem pyEach_agree {σ : Type} {R : σ → σ → Prop} (f : String → σ → PyRes σ) (h : ∀ x s t, R s t → (f x s).agree R (f x t)) :
    ∀ (l : List String) (s t : σ), R s t → (pyEach f l s).agree R (pyEach f l t)
  | [], _, _, hs => hs
  | x :: l, s, t, hs => (h x s t hs).andThen fun s t hs => pyEach_agree f h l s t hs

/-- A setting call acts on each setting by itself. -/
theorem pySetPrecision_agree (p : PName) : ∀ (d : ℕ) (name : String) (a : Args ℝ) (c c' : Cfg ℝ), c.prec p = c'.prec p →
    (pySetPrecision d name a c).agree (fun c c' => c.prec p = c'.prec p) (pySetPrecision d name a c')
  | 0, _, _, _, _, hc => ⟨rfl, hc⟩
  | d + 1, name, a, c, c', hc => by
    have he : ∀ l, (pyEach (fun name => pySetPrecision d name a) l c).agree (fun c c' => c.prec p = c'.prec p)
        (pyEach (fun name => pySetPrecision d name a) l c') := fun l =>
      pyEach_agree _ (fun x s t hs => pySetPrecision_agree p d x a s t hs) l c c' hc
    have hl : ∀ n (c c' : Cfg ℝ), c.prec p = c'.prec p → (pyLeaf n a c).agree (fun c c' => c.prec p = c'.prec p) (pyLeaf n a c') :=
      fun n c c' hc => by
        unfold pyLeaf
        split
        · exact ⟨rfl, hc⟩
        · next s e =>
          obtain ⟨s1, s2⟩ := s
          cases argSig n <;> cases s1 <;> cases s2 <;> first | exact rfl | skip
          · next q =>
            show (setNodesRange q a c).prec p = (setNodesRange q a c').prec p
            rw [(C35_only q a c).1, (C35_only q a c').1]
            split
            · next hp => rw [← hp, hc]
            · exact hc
          · next q =>
            show (setRange q a c).prec p = (setRange q a c').prec p
            rw [(C35_only q a c).2.1, (C35_only q a c').2.1]
            split
            · next hp => rw [← hp, hc]
            · exact hc
          · next q =>
            show (setNodes q a c).prec p = (setNodes q a c').prec p
            rw [(C35_only q a c).2.2.1, (C35_only q a c').2.2.1]
            split
            · next hp => rw [← hp, hc]
            · exact hc
          · exact hc
    unfold pySetPrecision
    dsimp only
    split <;> [exact he _; skip]
    split <;> [exact he _; skip]
    split <;> [exact he _; skip]
    split <;> [exact (he _).andThen (hl _); skip]
    split <;> [exact he _; skip]
    split <;> [exact he _; skip]
    split <;> [exact he _; skip]
    split <;> [exact he _; skip]
    exact hl _ c c' hc

/-- Every table of the history has at least one mode and the stated lengths. -/
def TablesOk : Pk ℝ → List LibCall → Prop
  | t, [] => t.WF ∧ 1 ≤ t.nk
  | t, .setPkLin t' :: h => (t.WF ∧ 1 ≤ t.nk) ∧ TablesOk t' h
  | t, _ :: h => TablesOk t h

theorem TablesOk.head : ∀ {t : Pk ℝ} {h : List LibCall}, TablesOk t h → t.WF ∧ 1 ≤ t.nk
  | _, [], h => h
  | _, .setPkLin _ :: _, h => h.1
  | _, .setPrec .. :: l, h => TablesOk.head (h := l) h
  | _, .run1 .. :: l, h => TablesOk.head (h := l) h
  | _, .run2 .. :: l, h => TablesOk.head (h := l) h
  | _, .runBias .. :: l, h => TablesOk.head (h := l) h
  | _, .runA1 .. :: l, h => TablesOk.head (h := l) h
  | _, .runA2 .. :: l, h => TablesOk.head (h := l) h
  | _, .runB .. :: l, h => TablesOk.head (h := l) h

/-- C38: after any history the spectrum in force is the one set last, and the setting of every term is the one made by the user
as long as no run of a cubature term has used it.  Missing for the full C38: the settings of the two cubature terms after they have
been used (`C38_stale_violation`). -/
theorem C38_history_partial (p : PName) : ∀ (h : List LibCall) (s s' : LibState) (c : Cfg ℝ), TablesOk s.t h →
    (∀ x ∈ h, ¬ x.uses p) → c.prec p = s.cfg.prec p → s.exec h = .ok s' →
    s'.t = lastTable s.t h ∧ s'.cfg.prec p = (userCfg c h).prec p
  | [], s, s', c, _, _, hc, he => by
    cases he
    exact ⟨rfl, hc.symm⟩
  | x :: h, s, s', c, ht, hu, hc, he => by
    obtain ⟨s1, e1, e2⟩ := Res.bind_eq_ok.1 he
    have hu' : ∀ x ∈ h, ¬ x.uses p := fun x hx => hu x (by simp [hx])
    have hx := hu x (by simp)
    have hk := ht.head
    cases x with
    | setPkLin t =>
      cases e1
      exact C38_history_partial p h ⟨s.cfg, t⟩ s' c ht.2 hu' hc e2
    | setPrec name a =>
      have hag := pySetPrecision_agree p 1000 name a c s.cfg hc
      simp only [LibState.step] at e1
      unfold userCfg
      unfold pySetPrec at e1 ⊢
      generalize pySetPrecision 1000 name a c = r1 at *
      generalize pySetPrecision 1000 name a s.cfg = r2 at *
      cases r1 <;> cases r2 <;> first | exact hag.elim | skip
      · next c1 c2 =>
        cases e1
        exact C38_history_partial p h ⟨c2, s.t⟩ s' c1 ht hu' hag e2
      · next c1 _ c2 =>
        cases e1
        exact C38_history_partial p h ⟨c2, s.t⟩ s' c1 ht hu' hag.2 e2
      · cases e1
    | run1 rt ks a b es μ =>
      obtain ⟨_, -, e⟩ := Res.bind_eq_ok.1 e1
      cases e
      exact C38_history_partial p h _ s' c ht hu' hc e2
    | runBias rt ks es μ =>
      obtain ⟨_, -, e⟩ := Res.bind_eq_ok.1 e1
      cases e
      exact C38_history_partial p h _ s' c ht hu' hc e2
    | runA1 rt ks es μ =>
      obtain ⟨_, -, e⟩ := Res.bind_eq_ok.1 e1
      cases e
      exact C38_history_partial p h _ s' c ht hu' hc e2
    | runB dt tt rt ks es μ =>
      obtain ⟨_, -, e⟩ := Res.bind_eq_ok.1 e1
      cases e
      exact C38_history_partial p h _ s' c ht hu' hc e2
    | run2 cuba rt ks a b es μ =>
      obtain ⟨⟨c1, ν⟩, er, e⟩ := Res.bind_eq_ok.1 e1
      cases e
      have := ((C38_run_two_loop hk.1 hk.2 cuba a b es μ ν).2 c1 er).2.2.2.1 p hx
      exact C38_history_partial p h ⟨c1, s.t⟩ s' c ht hu' (hc.trans this.symm) e2
    | runA2 cuba rt ks es μ =>
      obtain ⟨⟨c1, ν⟩, er, e⟩ := Res.bind_eq_ok.1 e1
      cases e
      have := ((C38_run_A_two_loop hk.1 hk.2 cuba es μ ν).2 c1 er).2.2.2.1 p hx
      exact C38_history_partial p h ⟨c1, s.t⟩ s' c ht hu' (hc.trans this.symm) e2

/-- C38 for the terms integrated by quadrature: after every history a run uses the user's setting, with an automatic range read
off the spectrum set last. -/
theorem C38_quadrature (p : PName) (hp : ¬ cubatureTerm p) (h : List LibCall) (s s' : LibState) (ht : TablesOk s.t h)
    (he : s.exec h = .ok s') (rt : ℕ → ℕ → ℝ × ℝ) (ks : List ℝ) :
    Env.tabQ ⟨s'.cfg, rt, s'.t, ks⟩ p = Env.tabQ ⟨explicitCfg (lastTable s.t h) (userCfg s.cfg h), rt, lastTable s.t h, ks⟩ p := by
  have hu : ∀ x ∈ h, ¬ x.uses p := fun x _ hx => by
    cases x <;> first | exact hx.elim | exact hp (Or.inl hx) | exact hp (Or.inr hx)
  obtain ⟨e1, e2⟩ := C38_history_partial p h s s' s.cfg ht hu rfl he
  have hk : (lastTable s.t h).WF ∧ 1 ≤ (lastTable s.t h).nk := by
    clear he e1 e2 hu
    obtain ⟨c, t⟩ := s
    dsimp only at *
    induction h generalizing t with
    | nil => exact ht
    | cons x h ih =>
      cases x with
      | setPkLin t' => exact ih t' ht.2
      | _ => exact ih t ht
  rw [← tabQ_explicit hk.1 hk.2]
  unfold Env.tabQ
  dsimp only
  rw [e1, e2]

/-- A second spectrum with another range of modes. -/
noncomputable def exTable2 : Pk ℝ := ⟨2, [1 / 2, 10], [1, 1]⟩

/-- C38 fails for the third-order term: the range is set to automatic, a two-loop run is made with a spectrum on `[1,8]`, the spectrum
is replaced by one on `[1/2,10]`; the next run still integrates over `[1,8]`. -/
theorem C38_stale_violation (rt : ℕ → ℕ → ℝ × ℝ) :
    ∃ (h : List LibCall) (s s' : LibState), s = ⟨Cfg.default, exTable⟩ ∧ TablesOk s.t h ∧ s.exec h = .ok s' ∧ s'.t = exTable2 ∧
      ((userCfg s.cfg h).prec .gamma3_tree_q).min = -2 ∧ ((userCfg s.cfg h).prec .gamma3_tree_q).max = -1 ∧
      ∃ c ν, runTerms2 exCuba ⟨s'.cfg, rt, s'.t, exKs⟩ .delta .delta (blocks 7 0 0 [5]) exMem = .ok (c, ν) ∧
        (c.prec .gamma3_tree_q).min = 1 ∧ (c.prec .gamma3_tree_q).max = 8 ∧
        specRange s'.t ((userCfg s.cfg h).prec .gamma3_tree_q) = (1 / 2, 10) := by
  obtain ⟨c1, hc1, hi1, hu1, hp1⟩ := C36_members ("spectrum_2loop_q", [.gamma1_1loop_q, .gamma1_2loop_q, .gamma2_tree_q,
    .gamma2d_1loop_q, .gamma2t_1loop_q, .gamma3_tree_q]) (by decide) ⟨0, (-2 : ℝ), -1, "test"⟩ Cfg.default
  have hg : c1.prec .gamma3_tree_q = ⟨0, -2, -1, .poly⟩ := by
    rw [hp1, if_pos (by decide)]
    simp [specOne, specPrec, cubatureTerm, angular, Cfg.default, defaultPrec]
  have ok1 : Env.Ok ⟨c1, rt, exTable, exKs⟩ := by
    refine ⟨exTable_physical.toWF, by norm_num [exTable], fun p => ?_, fun p => ?_, fun o => ?_⟩
    · dsimp only
      rw [hp1]
      cases p <;> simp [specOne, specPrec, cubatureTerm, angular, Cfg.default, defaultPrec]
    · dsimp only
      rw [hp1]
      cases p <;> simp [specOne, specPrec, cubatureTerm, angular, Cfg.default, defaultPrec]
    · dsimp only
      rw [hi1]
      rfl
  obtain ⟨⟨c2, ν⟩, hr1⟩ := C59_two_loop ok1 exCuba_safe .delta .delta (exSchedule' 7) (exRoom 11)
  have wf1 := exTable_physical.toWF
  obtain ⟨g1, g2, g3, g4, g5, g6⟩ := (C38_run_two_loop wf1 (by norm_num [exTable]) exCuba .delta .delta _ _ ν).2 c2 hr1
  have wf2 : exTable2.WF := ⟨rfl, rfl, by norm_num [exTable2]⟩
  have hrange : ((c2.prec .gamma3_tree_q).min, (c2.prec .gamma3_tree_q).max) = ((1 : ℝ), (8 : ℝ)) := by
    rw [g1, hg]
    unfold specRange
    rw [if_pos (by norm_num)]
    simp [exTable]
  have ok2 : Env.Ok ⟨c2, rt, exTable2, exKs⟩ := by
    refine ⟨wf2, by norm_num [exTable2], fun p => ?_, fun p => ?_, fun o => ?_⟩
    · by_cases h : p = .gamma3_tree_q
      · rw [h]
        dsimp only
        rw [g2]
        exact ok1.size _
      · dsimp only
        rw [g4 p h]
        exact ok1.size _
    · by_cases h : p = .gamma3_tree_q
      · rw [h]
        dsimp only
        rw [g3]
        exact ok1.poly _
      · dsimp only
        rw [g4 p h]
        exact ok1.poly _
    · dsimp only
      rw [g5]
      exact ok1.interp o
  obtain ⟨⟨c3, ν'⟩, hr2⟩ := C59_two_loop ok2 exCuba_safe .delta .delta (exSchedule' 7) (exRoom 11)
  obtain ⟨k1, -⟩ := (C38_run_two_loop wf2 (by norm_num [exTable2]) exCuba .delta .delta _ _ ν').2 c3 hr2
  have hlast : ((c3.prec .gamma3_tree_q).min, (c3.prec .gamma3_tree_q).max) = ((1 : ℝ), (8 : ℝ)) := by
    rw [k1]
    simp only [Prod.mk.injEq] at hrange
    unfold specRange
    rw [hrange.1, hrange.2, if_neg (by norm_num)]
  simp only [Prod.mk.injEq] at hlast
  have hucfg : (userCfg Cfg.default [.setPrec "spectrum_2loop_q" ⟨0, -2, -1, "test"⟩, .run2 exCuba rt exKs .delta .delta (blocks 7 0 0 [5]) exMem,
      .setPkLin exTable2]).prec .gamma3_tree_q = ⟨0, -2, -1, .poly⟩ := by
    simp only [userCfg]
    rw [hc1]
    exact hg
  refine ⟨[.setPrec "spectrum_2loop_q" ⟨0, -2, -1, "test"⟩, .run2 exCuba rt exKs .delta .delta (blocks 7 0 0 [5]) exMem,
      .setPkLin exTable2], _, ⟨c2, exTable2⟩, rfl, ?_, ?_, rfl, ?_, ?_, c3, ν', hr2, hlast.1, hlast.2, ?_⟩
  · exact ⟨⟨wf1, by norm_num [exTable]⟩, wf2, by norm_num [exTable2]⟩
  · simp only [LibState.exec, LibState.step]
    rw [hc1]
    simp only [Res.ok_bind]
    rw [hr1]
    rfl
  · rw [hucfg]
  · rw [hucfg]
  · rw [hucfg]
    unfold specRange
    rw [if_pos (by norm_num)]
    simp [exTable2]

example (rt : ℕ → ℕ → ℝ × ℝ) : ∃ (h : List LibCall) (s s' : LibState), h ≠ [] ∧ s'.t = exTable2 ∧
    Env.tabQ ⟨s'.cfg, rt, s'.t, exKs⟩ .gamma2_tree_q
      = Env.tabQ ⟨explicitCfg (lastTable s.t h) (userCfg s.cfg h), rt, lastTable s.t h, exKs⟩ .gamma2_tree_q := by
  obtain ⟨h, s, s', hs, ht, he, h2, -⟩ := C38_stale_violation rt
  refine ⟨h, s, s', ?_, h2, C38_quadrature _ (by simp [cubatureTerm]) h s s' ht he rt exKs⟩
  rintro rfl
  cases he
  rw [hs] at h2
  exact absurd (congrArg Pk.nk h2) (by decide)

end Verif
