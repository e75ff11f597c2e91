import Verif.Props.Requests
import Verif.Props.Settings

/-!
# C95: a run obeys the settings of its own terms and no others
-/

namespace Verif

open Res

/-- The same spectrum and requests with other settings. -/
def Env.withCfg (e : Env) (c : Cfg ℝ) : Env := ⟨c, e.rt, e.t, e.ks⟩

/-- Two settings agree in the precisions `ps` and in the interpolation and cut-off of the file `o`. -/
structure SameFor (ps : List PName) (os : List IName) (c c' : Cfg ℝ) : Prop where
  prec : ∀ p ∈ ps, c'.prec p = c.prec p
  interp : ∀ o ∈ os, c'.interp o = c.interp o
  uv : ∀ o ∈ os, c'.uv o = c.uv o

/-- The precisions for the one-loop spectrum. -/
def own1 : List PName := [.gamma1_1loop_q, .gamma2_tree_q, .gamma2_tree_mu]

/-- The precisions for the two-loop spectrum. -/
def own2 : List PName :=
  [.gamma1_1loop_q, .gamma1_2loop_q, .gamma2_tree_q, .gamma2_tree_mu, .gamma2d_1loop_q, .gamma2t_1loop_q, .gamma3_tree_q]

/-- The precisions for the bias terms. -/
def ownBias : List PName := [.bias_1loop_q, .bias_1loop_mu]

/-- The precisions for the one-loop A term. -/
def ownA1 : List PName := [.A_1loop_q, .A_1loop_mu]

/-- The precisions for the two-loop A term: its own, and those of the propagators in the bispectrum. -/
def ownA2 : List PName := [.A_2loop_I_q, .A_2loop_I_mu, .A_2loop_II_III_q, .gamma1_1loop_q, .gamma2d_1loop_q, .gamma2t_1loop_q]

/-- The precisions for the B term. -/
def ownB : List PName := [.B_q, .B_mu]

section

variable {e : Env} {c' : Cfg ℝ}

theorem tabQ_with {p : PName} (h : c'.prec p = e.cfg.prec p) : (e.withCfg c').tabQ p = e.tabQ p := by
  unfold Env.tabQ Env.withCfg; rw [h]

theorem tabMu_with {p : PName} (h : c'.prec p = e.cfg.prec p) : (e.withCfg c').tabMu p = e.tabMu p := by
  unfold Env.tabMu Env.withCfg; rw [h]

theorem columns12_with {o : IName} (h : c'.interp o = e.cfg.interp o) (h' : c'.uv o = e.cfg.uv o) (params : List String) (μ : Mem) :
    columns12 (e.withCfg c') o params μ = columns12 e o params μ := by
  unfold columns12 Env.withCfg; rw [h, h']

/-- C95: the one-loop run is the same, undefined cases included, if the settings agree in its own precisions, interpolation and cut-off. -/
theorem C95_one_loop (h : SameFor own1 [.spectrum_1loop] e.cfg c') (a b : Field) (es : List Event) (μ : Mem) :
    runTerms1 (e.withCfg c') a b es μ = runTerms1 e a b es μ := by
  have hw : work1 (e.withCfg c') a b = work1 e a b := by
    unfold work1
    rw [tabQ_with (h.prec _ (by decide)), tabQ_with (h.prec _ (by decide)), tabMu_with (h.prec _ (by decide))]
    simp only [Env.withCfg, h.prec .gamma2_tree_mu (by decide)]
  unfold runTerms1
  rw [columns12_with (h.interp _ (by decide)) (h.uv _ (by decide)), hw]

/-- C95: the bias run. -/
theorem C95_bias (h : SameFor ownBias [.bias_1loop] e.cfg c') (es : List Event) (μ : Mem) :
    runTermsBias (e.withCfg c') es μ = runTermsBias e es μ := by
  have hw : workBias (e.withCfg c') = workBias e := by
    unfold workBias biasCall
    rw [tabQ_with (h.prec _ (by decide)), tabMu_with (h.prec _ (by decide))]
    simp only [Env.withCfg, h.prec .bias_1loop_mu (by decide)]
  unfold runTermsBias
  rw [columns12_with (h.interp _ (by decide)) (h.uv _ (by decide)), hw]

/-- C95: the one-loop A run. -/
theorem C95_A_one_loop (h : SameFor ownA1 [.A_1loop] e.cfg c') (es : List Event) (μ : Mem) :
    runTermsA1 (e.withCfg c') es μ = runTermsA1 e es μ := by
  have hw : workA1 (e.withCfg c') = workA1 e := by
    unfold workA1
    rw [tabQ_with (h.prec _ (by decide)), tabMu_with (h.prec _ (by decide))]
    simp only [Env.withCfg, h.prec .A_1loop_mu (by decide), h.prec .A_1loop_q (by decide)]
  unfold runTermsA1
  rw [columns12_with (h.interp _ (by decide)) (h.uv _ (by decide)), hw]

/-- C95: the B run. -/
theorem C95_B (h : SameFor ownB [.B] e.cfg c') (dt tt : Pk ℝ) (es : List Event) (μ : Mem) :
    runTermsB (e.withCfg c') dt tt es μ = runTermsB e dt tt es μ := by
  have hw : workB (e.withCfg c') dt tt = workB e dt tt := by
    unfold workB
    rw [tabQ_with (h.prec _ (by decide)), tabMu_with (h.prec _ (by decide))]
    simp only [Env.withCfg, h.prec .B_mu (by decide)]
  unfold runTermsB
  rw [columns12_with (h.interp _ (by decide)) (h.uv _ (by decide)), hw]

/-- What a run that stores an automatic range leaves as settings: the setting `p` of the other run in its own. -/
def putPrec (c' : Cfg ℝ) (p : PName) (r : Cfg ℝ × Mem) : Cfg ℝ × Mem := (c'.setPrec p (r.1.prec p), r.2)

theorem autoRange_with {p : PName} (h : c'.prec p = e.cfg.prec p) :
    autoRange e.t c' p = (do let c ← autoRange e.t e.cfg p; .ok (c'.setPrec p (c.prec p))) := by
  unfold autoRange
  rw [h]
  rcases glqRange e.t (e.cfg.prec p) with r | w
  · simp only [Res.ok_bind, Cfg.setPrec, Function.update_self]
    congr 2
    funext q
    simp [Function.update_apply]
  · rfl

/-- C95: the two-loop run, for every cubature routine: the same memory, and of the settings only the automatic range of `gamma3_tree_q` is
stored. -/
theorem C95_two_loop (h : SameFor own2 [.spectrum_2loop] e.cfg c') (cuba : Cuba ℝ) (a b : Field) (es : List Event) (μ : Mem) :
    runTerms2 cuba (e.withCfg c') a b es μ = (do let r ← runTerms2 cuba e a b es μ; .ok (putPrec c' .gamma3_tree_q r)) := by
  have hw : work2 (e.withCfg c') a b = work2 e a b := by
    unfold work2
    rw [tabQ_with (h.prec .gamma1_1loop_q (by decide)), tabQ_with (h.prec .gamma1_2loop_q (by decide)), tabQ_with (h.prec .gamma2_tree_q (by decide)),
      tabMu_with (h.prec _ (by decide)), tabQ_with (h.prec .gamma2d_1loop_q (by decide)), tabQ_with (h.prec .gamma2t_1loop_q (by decide))]
    simp only [Env.withCfg, h.prec .gamma2_tree_mu (by decide)]
  unfold runTerms2
  rw [columns12_with (h.interp _ (by decide)) (h.uv _ (by decide)), hw]
  have ha := autoRange_with (h.prec .gamma3_tree_q (by decide))
  simp only [Env.withCfg, ha, bind_assoc, Res.ok_bind, Cfg.setPrec, if_true, putPrec]

/-- C95: the two-loop A run, for every cubature routine. -/
theorem C95_A_two_loop (h : SameFor ownA2 [.A_2loop, .bispectrum_1loop] e.cfg c') (cuba : Cuba (Fin 12 → ℝ)) (es : List Event) (μ : Mem) :
    runTermsA2 cuba (e.withCfg c') es μ = (do let r ← runTermsA2 cuba e es μ; .ok (putPrec c' .A_2loop_II_III_q r)) := by
  have hw : workA2 (e.withCfg c') = workA2 e := by
    unfold workA2 Env.biI
    rw [tabQ_with (h.prec .A_2loop_I_q (by decide)), tabMu_with (h.prec _ (by decide)), tabQ_with (h.prec .gamma1_1loop_q (by decide)),
      tabQ_with (h.prec .gamma2d_1loop_q (by decide)), tabQ_with (h.prec .gamma2t_1loop_q (by decide))]
    simp only [Env.withCfg, h.interp .bispectrum_1loop (by decide), h.uv .bispectrum_1loop (by decide)]
  unfold runTermsA2
  rw [columns12_with (h.interp _ (by decide)) (h.uv _ (by decide)), hw]
  have ha := autoRange_with (h.prec .A_2loop_II_III_q (by decide))
  simp only [Env.withCfg, ha, bind_assoc, Res.ok_bind, Cfg.setPrec, if_true, putPrec, h.interp .bispectrum_1loop (by decide),
    h.uv .bispectrum_1loop (by decide)]

/-- C95: the loop columns of the two-loop A run do not depend on the interpolation and the cut-off of its own file, but on those of the
bispectrum. -/
theorem C95_A_two_loop_rows (h : SameFor ownA2 [.bispectrum_1loop] e.cfg c') {cuba : Cuba (Fin 12 → ℝ)} {cfg cfg' : Cfg ℝ} {es es' : List Event}
    {μ ν μ' ν' : Mem} (hμ : RoomFlat 5 e.ks.length μ) (hμ' : RoomFlat 5 e.ks.length μ') (hes : Schedule 5 e.ks.length es)
    (hes' : Schedule 5 e.ks.length es') (h1 : runTermsA2 cuba e es μ = .ok (cfg, ν)) (h2 : runTermsA2 cuba (e.withCfg c') es' μ' = .ok (cfg', ν'))
    {i : ℕ} (hi : i < e.ks.length) : SameRow2 clsA 5 ν ν' i i := by
  obtain ⟨_, _, g, gm, g1, gd, gt, s, v, w, range, -, -, a1, a2, a3, a4, a5, a6, a7, a8, -, -, c⟩ := C45_A_two_loop hμ hes h1 hi
  obtain ⟨_, _, g', gm', g1', gd', gt', s', v', w', range', -, -, b1, b2, b3, b4, b5, b6, b7, b8, -, -, d⟩ :=
    C45_A_two_loop (e := e.withCfg c') hμ' hes' h2 hi
  rw [tabQ_with (h.prec _ (by decide))] at b1 b3 b4 b5
  rw [tabMu_with (h.prec _ (by decide))] at b2
  simp only [Env.withCfg, h.interp .bispectrum_1loop (by decide), h.uv .bispectrum_1loop (by decide), h.prec .A_2loop_II_III_q (by decide)]
    at b6 b7 b8
  cases ok.inj (a1.symm.trans b1)
  cases ok.inj (a2.symm.trans b2)
  cases ok.inj (a3.symm.trans b3)
  cases ok.inj (a4.symm.trans b4)
  cases ok.inj (a5.symm.trans b5)
  cases ok.inj (a7.symm.trans b7)
  cases ok.inj (a6.symm.trans b6)
  cases ok.inj (a8.symm.trans b8)
  exact fun n => (c 5 (by decide) n).trans (d 5 (by decide) n).symm

end

/-! ## Calls of the setters -/

theorem SameFor.refl (ps : List PName) (os : List IName) (c : Cfg ℝ) : SameFor ps os c c := ⟨fun _ _ => rfl, fun _ _ => rfl, fun _ _ => rfl⟩

theorem SameFor.trans {ps : List PName} {os : List IName} {c c' c'' : Cfg ℝ} (h : SameFor ps os c c') (h' : SameFor ps os c' c'') :
    SameFor ps os c c'' :=
  ⟨fun p hp => (h'.prec p hp).trans (h.prec p hp), fun o ho => (h'.interp o ho).trans (h.interp o ho), fun o ho => (h'.uv o ho).trans (h.uv o ho)⟩

/-- A call of a setter from Python. -/
inductive SetCall
  | prec (name : String) (a : Args ℝ)
  | cutoff (name : String) (v : ℝ)

/-- Its effect (`pyregpt/pyregpt.py:266-321`). -/
noncomputable def SetCall.run : SetCall → Cfg ℝ → PyRes (Cfg ℝ)
  | .prec name a, c => pySetPrec name a c
  | .cutoff name v, c => pySetUv name v c

/-- The call is for precisions outside `ps`, or for a cut-off outside `os`. -/
def SetCall.Foreign (ps : List PName) (os : List IName) : SetCall → Prop
  | .prec name _ => (∃ p, (name, p) ∈ singleNames ∧ p ∉ ps) ∨ ∃ l, (name, l) ∈ composite ∧ ∀ p ∈ l, p ∉ ps
  | .cutoff name _ => ∃ o, (name, o) ∈ cCutoffs ∧ o ∉ os

/-- A foreign call succeeds and leaves the settings of the run as they are. -/
theorem SetCall.foreign {ps : List PName} {os : List IName} {x : SetCall} (h : x.Foreign ps os) (c : Cfg ℝ) :
    ∃ c', x.run c = .done c' ∧ SameFor ps os c c' := by
  match x, h with
  | .prec name a, .inl ⟨p, hs, hp⟩ =>
      refine ⟨_, C36_single 999 (name, p) hs a c, fun q hq => ?_, fun _ _ => rfl, fun _ _ => rfl⟩
      have : q ≠ p := fun e => hp (e ▸ hq)
      simp [setOne, Cfg.setPrec, this]
  | .prec name a, .inr ⟨l, hs, hl⟩ =>
      obtain ⟨c', h1, h2, h3, h4⟩ := C36_members (name, l) hs a c
      refine ⟨c', h1, fun q hq => ?_, fun _ _ => by rw [h2], fun _ _ => by rw [h3]⟩
      rw [h4, if_neg fun hq' => hl q hq' hq]
  | .cutoff name v, ⟨o, hs, ho⟩ =>
      have hn : ∀ s ∈ cCutoffs, s.1 ≠ "all" ∧ cCutoffs.lookup s.1 = some s.2 := by decide
      obtain ⟨n1, n2⟩ := hn _ hs
      refine ⟨c.setUv o v, ?_, fun _ _ => rfl, fun _ _ => rfl, fun q hq => ?_⟩
      · show pySetUv name v c = _
        unfold pySetUv pyCutLeaf
        rw [if_neg n1]
        simp only [n2]
      · have : q ≠ o := fun e => ho (e ▸ hq)
        simp [Cfg.setUv, this]

/-- Settings after a sequence of calls, all of which succeed. -/
inductive AfterCalls : List SetCall → Cfg ℝ → Cfg ℝ → Prop
  | nil (c : Cfg ℝ) : AfterCalls [] c c
  | cons {x : SetCall} {xs : List SetCall} {c c' c'' : Cfg ℝ} (h : x.run c = .done c') (h' : AfterCalls xs c' c'') : AfterCalls (x :: xs) c c''

/-- C95: any sequence of calls of the setters for other calculations succeeds, and leaves the settings of the run as they are, to which
`C95_one_loop` and the like apply. -/
theorem C95_calls {ps : List PName} {os : List IName} {xs : List SetCall} (h : ∀ x ∈ xs, x.Foreign ps os) (c : Cfg ℝ) :
    (∃ c', AfterCalls xs c c') ∧ ∀ c', AfterCalls xs c c' → SameFor ps os c c' := by
  induction xs generalizing c with
  | nil => exact ⟨⟨c, .nil c⟩, fun c' h => by cases h; exact .refl _ _ _⟩
  | cons x xs ih =>
      obtain ⟨c1, e1, s1⟩ := SetCall.foreign (h x (by simp)) c
      obtain ⟨⟨c2, e2⟩, ih2⟩ := ih (fun y hy => h y (by simp [hy])) c1
      refine ⟨⟨c2, .cons e1 e2⟩, fun c' hc => ?_⟩
      cases hc with
      | cons g g' =>
          rw [e1] at g
          cases g
          exact s1.trans (ih2 _ g')

/-! ## Non-vacuity -/

/-- Calls for the bias terms, the A and B terms and the bispectrum, with arguments of every kind. -/
noncomputable def otherCalls : List SetCall :=
  [.prec "bias_1loop_q" ⟨7, 1, 2, "lin"⟩, .prec "A_2loop_q" ⟨0, 1, -1, "test"⟩, .prec "B_mu" ⟨3, 0, 0, "poly"⟩, .cutoff "bispectrum_1loop" 3]

theorem otherCalls_foreign : ∀ x ∈ otherCalls, x.Foreign own1 [.spectrum_1loop] := by
  intro x hx
  simp only [otherCalls, List.mem_cons, List.not_mem_nil, or_false] at hx
  rcases hx with rfl | rfl | rfl | rfl
  · exact .inl ⟨.bias_1loop_q, by decide, by decide⟩
  · exact .inr ⟨_, List.mem_of_getElem? (i := 3) rfl, by decide⟩
  · exact .inl ⟨.B_mu, by decide, by decide⟩
  · exact ⟨.bispectrum_1loop, by decide, by decide⟩

variable (rt : ℕ → ℕ → ℝ × ℝ)

/-- C95: a one-loop run before and after these calls. -/
example : ∃ c' ν, AfterCalls otherCalls (exEnv rt exKs).cfg c' ∧
    runTerms1 (exEnv rt exKs) .delta .theta (blocks 3 0 0 [2, 0, 3]) exMem = .ok ν ∧
    runTerms1 ((exEnv rt exKs).withCfg c') .delta .theta (blocks 3 0 0 [2, 0, 3]) exMem = .ok ν := by
  obtain ⟨⟨c', h⟩, hs⟩ := C95_calls otherCalls_foreign (exEnv rt exKs).cfg
  obtain ⟨ν, hν⟩ := C59_one_loop (exEnv_ok rt exKs) .delta .theta (exSchedule 3) (exRoom 6)
  exact ⟨c', ν, h, hν, by rw [C95_one_loop (hs c' h), hν]⟩

/-- The first of them does change a setting. -/
example : ∃ c', SetCall.run (.prec "bias_1loop_q" ⟨7, 1, 2, "lin"⟩) Cfg.default = .done c' ∧ (c'.prec .bias_1loop_q).n = 7 ∧
    ((Cfg.default : Cfg ℝ).prec .bias_1loop_q).n = 2000 := by
  refine ⟨_, C36_single 999 ("bias_1loop_q", .bias_1loop_q) (by decide) _ _, ?_, rfl⟩
  simp [setOne, Cfg.setPrec, specOne, specPrec, cubatureTerm]

/-- Default settings with another number of nodes for `p`. -/
noncomputable def other95 (p : PName) : Cfg ℝ := Cfg.default.setPrec p ⟨5, 1, 2, .lin⟩

theorem other95_same {p : PName} {ps : List PName} (h : p ∉ ps) (os : List IName) : SameFor ps os Cfg.default (other95 p) :=
  ⟨fun q hq => by have : q ≠ p := fun e => h (e ▸ hq)
                  simp [other95, Cfg.setPrec, this], fun _ _ => rfl, fun _ _ => rfl⟩

/-- C95 for the other runs: settings of another calculation changed. -/
example : (∃ ν, runTermsBias (exEnv rt exKs) (blocks 8 0 0 [5]) exMem = .ok ν ∧
      runTermsBias ((exEnv rt exKs).withCfg (other95 .B_q)) (blocks 8 0 0 [5]) exMem = .ok ν) ∧
    (∃ ν, runTermsA1 (exEnv rt exKs) (blocks 5 0 0 [5]) exMem = .ok ν ∧
      runTermsA1 ((exEnv rt exKs).withCfg (other95 .A_2loop_I_q)) (blocks 5 0 0 [5]) exMem = .ok ν) ∧
    (∃ ν, runTermsB (exEnv rt exKs) exTable exTable (blocks 9 0 0 [5]) exMem = .ok ν ∧
      runTermsB ((exEnv rt exKs).withCfg (other95 .bias_1loop_q)) exTable exTable (blocks 9 0 0 [5]) exMem = .ok ν) ∧
    (∃ r, runTerms2 exCuba (exEnv rt exKs) .delta .theta (blocks 7 0 0 [5]) exMem = .ok r ∧
      runTerms2 exCuba ((exEnv rt exKs).withCfg (other95 .B_q)) .delta .theta (blocks 7 0 0 [5]) exMem =
        .ok (putPrec (other95 .B_q) .gamma3_tree_q r)) ∧
    ∃ r, runTermsA2 exCuba (exEnv rt exKs) (blocks 5 0 0 [5]) exMem = .ok r ∧
      runTermsA2 exCuba ((exEnv rt exKs).withCfg (other95 .gamma2_tree_q)) (blocks 5 0 0 [5]) exMem =
        .ok (putPrec (other95 .gamma2_tree_q) .A_2loop_II_III_q r) := by
  have w := exTable_physical.toWF
  have two : 2 ≤ exTable.nk := by norm_num [exTable]
  have f5 := exRoomFlat 5 (by norm_num)
  obtain ⟨_, a⟩ := C59_bias (exEnv_ok rt exKs) (exSchedule' 8) (exRoom 11)
  obtain ⟨_, b⟩ := C59_A_one_loop (exEnv_ok rt exKs) (exSchedule' 5) f5
  obtain ⟨_, c⟩ := C59_B (exEnv_ok rt exKs) w two w two (exSchedule' 9) (exRoomFlat 9 le_rfl)
  obtain ⟨_, d⟩ := C59_two_loop (exEnv_ok rt exKs) exCuba_safe .delta .theta (exSchedule' 7) (exRoom 11)
  obtain ⟨_, q⟩ := C59_A_two_loop (exEnv_ok rt exKs) exCuba_safe (exSchedule' 5) f5
  refine ⟨⟨_, a, ?_⟩, ⟨_, b, ?_⟩, ⟨_, c, ?_⟩, ⟨_, d, ?_⟩, ⟨_, q, ?_⟩⟩
  · rw [C95_bias (other95_same (by decide) _), a]
  · rw [C95_A_one_loop (other95_same (by decide) _), b]
  · rw [C95_B (other95_same (by decide) _), c]
  · rw [C95_two_loop (other95_same (by decide) _), d]; rfl
  · rw [C95_A_two_loop (other95_same (by decide) _), q]; rfl

/-- The rows of the two-loop A run with another cut-off of its own file. -/
example : ∃ r r', runTermsA2 exCuba (exEnv rt exKs) (blocks 5 0 0 [5]) exMem = .ok r ∧
    runTermsA2 exCuba ((exEnv rt exKs).withCfg (Cfg.default.setUv .A_2loop 3)) (blocks 5 0 0 [2, 0, 3]) exMem = .ok r' ∧
    SameRow2 clsA 5 r.2 r'.2 3 3 := by
  have f5 := exRoomFlat 5 (by norm_num)
  have ok' : ((exEnv rt exKs).withCfg (Cfg.default.setUv .A_2loop 3)).Ok :=
    ⟨(exEnv_ok rt exKs).wf, (exEnv_ok rt exKs).two, (exEnv_ok rt exKs).size, (exEnv_ok rt exKs).poly, (exEnv_ok rt exKs).interp⟩
  obtain ⟨⟨_, _⟩, q⟩ := C59_A_two_loop (exEnv_ok rt exKs) exCuba_safe (exSchedule' 5) f5
  obtain ⟨⟨_, _⟩, q'⟩ := C59_A_two_loop ok' exCuba_safe (exSchedule 5) f5
  have hi : 3 < (exEnv rt exKs).ks.length := by simp [exEnv, exKs]
  have hs : SameFor ownA2 [.bispectrum_1loop] (exEnv rt exKs).cfg (Cfg.default.setUv .A_2loop 3) := by
    refine ⟨fun _ _ => rfl, fun _ _ => rfl, fun o ho => ?_⟩
    have : o ≠ .A_2loop := by rintro rfl; simp at ho
    simp [Cfg.setUv, this, exEnv]
  exact ⟨_, _, q, q', C95_A_two_loop_rows hs f5 f5 (exSchedule' 5) (exSchedule 5) q q' hi⟩

/-- C95 says no more than it should: another cut-off of the one-loop spectrum changes its displacement variance. -/
theorem C95_own_cutoff (a b : Field) : ∃ ν ν', runTerms1 (reqEnv rt [3]) a b (blocks 3 0 0 [1]) exMem = .ok ν ∧
    runTerms1 ((reqEnv rt [3]).withCfg (Cfg.default.setUv .spectrum_1loop 1)) a b (blocks 3 0 0 [1]) exMem = .ok ν' ∧
    ν.at (cellOf cls1 "sigmad2" 0) = some (some (1 / (12 * Real.pi * Real.pi))) ∧
    ν'.at (cellOf cls1 "sigmad2" 0) = some (some (4 / (12 * Real.pi * Real.pi))) := by
  have okr := reqEnv_ok rt [3]
  have ok' : ((reqEnv rt [3]).withCfg (Cfg.default.setUv .spectrum_1loop 1)).Ok := ⟨okr.wf, okr.two, okr.size, okr.poly, okr.interp⟩
  obtain ⟨ν, h⟩ := C59_one_loop okr a b (req_sched 1) (req_room 1 (by decide))
  obtain ⟨ν', h'⟩ := C59_one_loop ok' a b (req_sched 1) (req_room 1 (by decide))
  obtain ⟨pl, sg, _, _, _, _, _, _, _, -, a2, -, -, -, -, -, -, -, c2, -⟩ :=
    C45_one_loop (e := reqEnv rt [3]) (req_room 1 (by decide)) (req_sched 1) h (ik := 0) (show 0 < 1 by decide)
  obtain ⟨pl', sg', _, _, _, _, _, _, _, -, b2, -, -, -, -, -, -, -, d2, -⟩ :=
    C45_one_loop (e := (reqEnv rt [3]).withCfg (Cfg.default.setUv .spectrum_1loop 1)) (req_room 1 (by decide)) (req_sched 1) h' (ik := 0)
      (show 0 < 1 by decide)
  have e1 : runningSigmad2 (⟨3, [1, 2, 3], [1, 1, 1]⟩ : Pk ℝ) [3] (1 / 2) = .ok [1 / (12 * Real.pi * Real.pi)] := by
    norm_num [runningSigmad2, sigmaLoop, sigmaInner, sigmaWritten, rd, subSize, sizeMod, Histo.lt, interpolLin]
  have e2 : runningSigmad2 (⟨3, [1, 2, 3], [1, 1, 1]⟩ : Pk ℝ) [3] 1 = .ok [4 / (12 * Real.pi * Real.pi)] := by
    norm_num [runningSigmad2, sigmaLoop, sigmaInner, sigmaWritten, rd, subSize, sizeMod, Histo.lt]
  have hu : (Cfg.default : Cfg ℝ).uv .spectrum_1loop = 1 / 2 := by norm_num [Cfg.default, Histo.lit]
  simp only [reqEnv, hu] at a2
  simp only [reqEnv, Env.withCfg, Cfg.setUv, if_true] at b2
  cases ok.inj (a2.symm.trans e1)
  cases ok.inj (b2.symm.trans e2)
  exact ⟨ν, ν', h, h', c2, d2⟩

end Verif
