import Verif.Model.Debug
import Verif.Proofs.VerbosityWorld
import Verif.Props.Shared

/-!
# C90: results do not depend on the verbosity
-/

namespace Verif

open World

variable {α : Type}

/-- Nothing but the verbosity and the printed text differs: heap, registered spectra and arrays, dictionaries, objects, names. -/
def SameResults (w w' : World α) : Prop :=
  w'.c.mem = w.c.mem ∧ w'.c.lin = w.c.lin ∧ w'.c.dt = w.c.dt ∧ w'.c.tt = w.c.tt ∧ w'.c.terms = w.c.terms ∧ w'.c.next = w.c.next ∧
    w'.dicts = w.dicts ∧ w'.objs = w.objs ∧ w'.vars = w.vars

/-- The second history is the first one with calls of `set_verbosity` removed and inserted anywhere. -/
inductive Revoiced : List (PyEvent α) → List (PyEvent α) → Prop
  | nil : Revoiced [] []
  | same (e : PyEvent α) {h h' : List (PyEvent α)} : Revoiced h h' → Revoiced (e :: h) (e :: h')
  | removed (m : String) {h h' : List (PyEvent α)} : Revoiced h h' → Revoiced (.setVerbosity m :: h) h'
  | inserted (m : String) {h h' : List (PyEvent α)} : Revoiced h h' → Revoiced h (.setVerbosity m :: h')

theorem WLike.same {c : Prop} {w w' : World α} (h : WLike c w w') : SameResults w w' := by
  obtain ⟨⟨⟨v, o, e⟩, -⟩, h1, h2, h3⟩ := h
  simp only [SameResults, e]
  exact ⟨rfl, rfl, rfl, rfl, rfl, rfl, h1, h2, h3⟩

theorem SameResults.like {w w' : World α} (h : SameResults w w') : WLike True w w' := by
  obtain ⟨h1, h2, h3, h4, h5, h6, h7, h8, h9⟩ := h
  refine ⟨⟨⟨w'.c.verb, w'.c.out, ?_⟩, .inl trivial⟩, h7, h8, h9⟩
  rw [CState.speak, ← h1, ← h2, ← h3, ← h4, ← h5, ← h6]

theorem SameResults.refl (w : World α) : SameResults w w := ⟨rfl, rfl, rfl, rfl, rfl, rfl, rfl, rfl, rfl⟩

theorem SameResults.symm {w w' : World α} (h : SameResults w w') : SameResults w' w := by
  obtain ⟨h1, h2, h3, h4, h5, h6, h7, h8, h9⟩ := h
  exact ⟨h1.symm, h2.symm, h3.symm, h4.symm, h5.symm, h6.symm, h7.symm, h8.symm, h9.symm⟩

theorem SameResults.trans {u v w : World α} (h : SameResults u v) (k : SameResults v w) : SameResults u w := by
  obtain ⟨h1, h2, h3, h4, h5, h6, h7, h8, h9⟩ := h
  obtain ⟨k1, k2, k3, k4, k5, k6, k7, k8, k9⟩ := k
  exact ⟨k1.trans h1, k2.trans h2, k3.trans h3, k4.trans h4, k5.trans h5, k6.trans h6, k7.trans h7, k8.trans h8, k9.trans h9⟩

/-- The silent world. -/
def silent (w : World α) : World α := { w with c := w.c.speak .quiet [] }

theorem silent_like {w w' : World α} (h : SameResults w w') : WLike False w' (silent w) := by
  obtain ⟨h1, h2, h3, h4, h5, h6, h7, h8, h9⟩ := h
  refine ⟨⟨⟨.quiet, [], ?_⟩, .inr fun h => nomatch h⟩, h7.symm, h8.symm, h9.symm⟩
  simp only [silent, CState.speak, h1, h2, h3, h4, h5, h6]

theorem step_same {N : Num α} {w w' v v' : World α} {e : PyEvent α} (h : SameResults w w') (hv : w.step N e = .ok v) (hv' : w'.step N e = .ok v') :
    SameResults v v' := by
  obtain ⟨u, e1, h1⟩ := (silent_like (SameResults.refl w)).step False.elim hv
  obtain ⟨u', e2, h2⟩ := (silent_like h).step False.elim hv'
  rw [e1] at e2
  cases e2
  exact (WLike.same h1).trans (WLike.same h2).symm

theorem setVerbosity_same (w : World α) (m : String) : SameResults w { w with c := w.c.setVerbosity m } := by
  unfold CState.setVerbosity
  dsimp only
  split <;> split <;> split <;> exact ⟨rfl, rfl, rfl, rfl, rfl, rfl, rfl, rfl, rfl⟩

/-- C90: two histories that differ in calls of `set_verbosity` only and both complete leave the same results. -/
theorem C90_same {N : Num α} {h h' : List (PyEvent α)} (hr : Revoiced h h') : ∀ {w w' v v' : World α}, SameResults w w' → w.exec N h = .ok v →
    w'.exec N h' = .ok v' → SameResults v v' := by
  induction hr with
  | nil =>
    intro w w' v v' hs e e'
    cases e
    cases e'
    exact hs
  | same x _ ih =>
    intro w w' v v' hs e e'
    obtain ⟨u, e1, e⟩ := Res.bind_eq_ok.1 e
    obtain ⟨u', e1', e'⟩ := Res.bind_eq_ok.1 e'
    exact ih (step_same hs e1 e1') e e'
  | removed m _ ih =>
    intro w w' v v' hs e e'
    obtain ⟨u, e1, e⟩ := Res.bind_eq_ok.1 e
    cases e1
    exact ih ((setVerbosity_same w m).symm.trans hs) e e'
  | inserted m _ ih =>
    intro w w' v v' hs e e'
    obtain ⟨u, e1, e'⟩ := Res.bind_eq_ok.1 e'
    cases e1
    exact ih (hs.trans (setVerbosity_same w' m)) e e'

/-- C90: in particular the columns of every object are the same. -/
theorem C90_columns {N : Num α} {h h' : List (PyEvent α)} (hr : Revoiced h h') {w v v' : World α} (e : w.exec N h = .ok v)
    (e' : w.exec N h' = .ok v') (i : ℕ) : v'.columns i = v.columns i := by
  obtain ⟨h1, -, -, -, -, -, h7, h8, -⟩ := C90_same hr (SameResults.refl w) e e'
  simp only [World.columns, World.obj, World.dict, h1, h7, h8]

/-- Arrays and spectra passed are not empty, and neither is the spectrum of a run. -/
def NotEmpty (w : World α) : PyEvent α → Prop
  | .setPkLin _ kv _ => w.c.mem kv ≠ some []
  | .setSpectrumLin _ kv _ => w.c.mem kv ≠ some []
  | .setTerms _ kv => w.c.mem kv ≠ some []
  | .run _ _ _ => w.c.lin.nk ≠ 0
  | _ => True

theorem NotEmpty.full {w : World α} {e : PyEvent α} (h : NotEmpty w e) : w.Full e := by
  cases e <;> exact h

/-- C90, for histories without empty arrays: if a history completes, so does every history that differs in calls of `set_verbosity`
only, and the results are the same. -/
theorem C90_completes_partial {N : Num α} {h h' : List (PyEvent α)} (hr : Revoiced h h') : ∀ {w w' v : World α}, SameResults w w' →
    Along N NotEmpty w h v → ∃ v', w'.exec N h' = .ok v' ∧ SameResults v v' := by
  induction hr with
  | nil =>
    intro w w' v hs e
    cases e
    exact ⟨_, rfl, hs⟩
  | same x _ ih =>
    intro w w' v hs e
    obtain ⟨hn, u, e1, e⟩ := e
    obtain ⟨u', e1', h1⟩ := hs.like.step (fun _ => hn.full) e1
    obtain ⟨v', e', h2⟩ := ih (WLike.same h1) e
    exact ⟨v', Res.bind_eq_ok.2 ⟨u', e1', e'⟩, h2⟩
  | removed m _ ih =>
    intro w w' v hs e
    obtain ⟨-, u, e1, e⟩ := e
    cases e1
    exact ih ((setVerbosity_same w m).symm.trans hs) e
  | inserted m _ ih =>
    intro w w' v hs e
    exact (ih (hs.trans (setVerbosity_same w' m)) e).imp fun v' hv => ⟨Res.bind_eq_ok.2 ⟨_, rfl, hv.1⟩, hv.2⟩

/-- C90 fails for empty arrays: a history that completes silently has undefined behaviour when it reports. -/
theorem C90_empty_violation (N : Num ℝ) (κ : Kind) : ∃ h h' : List (PyEvent ℝ), Revoiced h h' ∧ (∃ w, (World.start ℝ).exec N h = .ok w) ∧
    ((World.start ℝ).exec N h').isUB := by
  refine ⟨[.newArr [], .new κ, .setVerbosity "quiet", .setTerms 0 0], [.newArr [], .new κ, .setTerms 0 0],
    .same _ (.same _ (.removed _ (.same _ .nil))), ?_, "out of bounds read", ?_⟩
  · cases κ <;> exact ⟨_, rfl⟩
  · cases κ <;> rfl

/-- A computation with reports, and the same one silently, then with debugging output. -/
noncomputable example (rt : ℕ → ℕ → ℝ × ℝ) (a b : Field) : ∃ h h' : List (PyEvent ℝ), Revoiced h h' ∧ ∃ v v' : World ℝ,
    Along (exNum rt) NotEmpty (World.start ℝ) h v ∧ (World.start ℝ).exec (exNum rt) h' = .ok v' ∧ v'.columns 0 = v.columns 0 ∧
    ∃ r, v.columns 0 = some ([2] :: r) := by
  obtain ⟨r, hr⟩ := exNum_run rt exTable_physical.toWF (by norm_num [exTable]) [2] .s1 (by decide) a b
  obtain ⟨w', h1, h2, -⟩ := C39_history_partial (exNum_sized rt) (i := 0) (kv := 0) (pv := 1) (kt := 2) (lk := exTable.k) (lp := exTable.pk) (ks := [2])
    (a := a) (b := b) (r := r) (h1 := [.newArr exTable.k, .newArr exTable.pk, .newArr [2], .new .s1]) (h2 := []) (h3 := [])
    rfl rfl rfl rfl rfl rfl rfl rfl rfl rfl (by rintro (h | h) <;> cases h) hr
  have ha : Along (exNum rt) NotEmpty (World.start ℝ) [.newArr exTable.k, .newArr exTable.pk, .newArr [2], .new .s1, .setPkLin 0 0 1, .setTerms 0 2,
      .run 0 a b] w' := by
    refine ⟨trivial, _, rfl, trivial, _, rfl, trivial, _, rfl, trivial, _, rfl, ?_, _, rfl, ?_, _, rfl, ?_, _, h1, rfl⟩
    · show some exTable.k ≠ some []
      simp [exTable]
    · show some [(2 : ℝ)] ≠ some []
      simp
    · show exTable.k.length ≠ 0
      simp [exTable]
  have hv : Revoiced [.newArr exTable.k, .newArr exTable.pk, .newArr [2], .new .s1, .setPkLin 0 0 1, .setTerms 0 2, .run 0 a b]
      [.newArr exTable.k, .newArr exTable.pk, .newArr [2], .new .s1, .setVerbosity "quiet", .setPkLin 0 0 1, .setTerms 0 2, .setVerbosity "debug",
        .run 0 a b] :=
    .same _ (.same _ (.same _ (.same _ (.inserted _ (.same _ (.same _ (.inserted _ (.same _ .nil))))))))
  obtain ⟨v', e', hs⟩ := C90_completes_partial hv (SameResults.refl _) ha
  exact ⟨_, _, hv, w', v', ha, e', C90_columns hv ha.exec e' 0, r, h2⟩

/-! ## Files -/

namespace Proc

variable {β γ : Type}

theorem bind_done {r : Proc α β} {f : β → Proc α γ} {t : γ} {fs : List (String × List (List α))} (h : r.bind f = .done t fs) :
    ∃ b gs hs, r = .done b gs ∧ f b = .done t hs ∧ fs = gs ++ hs := by
  cases r with
  | done b gs =>
    simp only [bind] at h
    cases hf : f b with
    | done c hs =>
      rw [hf] at h
      cases h
      exact ⟨b, gs, hs, rfl, hf, rfl⟩
    | exit n => rw [hf] at h; nomatch h
    | ub w => rw [hf] at h; nomatch h
  | exit n => nomatch h
  | ub w => nomatch h

theorem ofRes_done {r : Res β} {t : β} {fs : List (String × List (List α))} (h : ofRes r = .done t fs) : r = .ok t ∧ fs = [] := by
  cases r with
  | ok b =>
    cases h
    exact ⟨rfl, rfl⟩
  | ub w => nomatch h

theorem bind_nil {b : β} {f : β → Proc α γ} : (Proc.done b []).bind f = f b := by
  simp only [bind]
  cases f b <;> rfl

end Proc

namespace CState

theorem writeFile_done {w : Bool} {s t : CState α} {fn : String} {n : ℕ} {ps : List (Option ℕ)} {fs : List (String × List (List α))}
    (h : s.writeFile w fn n ps = .done t fs) : t = s := by
  unfold writeFile at h
  split at h
  · split at h
    · cases h
      rfl
    · nomatch h
  · nomatch h

theorem debugTerms_done {w : Bool} {sl : Slot} {s t : CState α} {fs : List (String × List (List α))} (h : s.debugTerms w sl = .done t fs) : t = s := by
  unfold debugTerms at h
  dsimp only at h
  split at h
  · split at h
    · exact writeFile_done h
    · exact writeFile_done h
    · cases h
      rfl
  · cases h
    rfl

theorem debugB_done {w : Bool} {s t : CState α} {fs : List (String × List (List α))} (h : s.debugB w = .done t fs) : t = s := by
  unfold debugB at h
  split at h
  · exact writeFile_done h
  · cases h
    rfl

theorem runSpectrum1D_done {w : Bool} {N : Num α} {a b : Field} {p : CPk} {s t : CState α} {fs : List (String × List (List α))}
    (h : s.runSpectrum1D w N a b p = .done t fs) : s.runSpectrum1 N a b p = .ok t := by
  obtain ⟨s1, g1, f1, e1, h, -⟩ := Proc.bind_done h
  obtain ⟨s2, g2, f2, e2, h, -⟩ := Proc.bind_done h
  obtain ⟨s3, g3, f3, e3, h, -⟩ := Proc.bind_done h
  cases debugTerms_done e3
  exact Res.bind_eq_ok.2 ⟨s1, (Proc.ofRes_done e1).1, Res.bind_eq_ok.2 ⟨s2, (Proc.ofRes_done e2).1, (Proc.ofRes_done h).1⟩⟩

theorem runBD_done {w : Bool} {N : Num α} {s t : CState α} {fs : List (String × List (List α))} (h : s.runBD w N = .done t fs) : s.runB N = .ok t := by
  simp only [runBD] at h
  simp only [runB]
  split
  · next hz =>
    rw [if_pos hz] at h
    obtain ⟨s1, g1, f1, e1, h, -⟩ := Proc.bind_done h
    obtain ⟨s2, g2, f2, e2, h, -⟩ := Proc.bind_done h
    obtain ⟨s3, g3, f3, e3, h, -⟩ := Proc.bind_done h
    cases debugB_done e3
    exact Res.bind_eq_ok.2 ⟨s1, runSpectrum1D_done e1, Res.bind_eq_ok.2 ⟨s2, runSpectrum1D_done e2, (Proc.ofRes_done h).1⟩⟩
  · next hz =>
    rw [if_neg hz] at h
    obtain ⟨s3, g3, f3, e3, h, -⟩ := Proc.bind_done h
    cases debugB_done e3
    exact (Proc.ofRes_done h).1

end CState

/-- C90: a run that returns has the result it has without files, in every verbosity. -/
theorem C90_files_same {w : Bool} {N : Num α} {sl : Slot} {a b : Field} {s t : CState α} {fs : List (String × List (List α))}
    (h : s.runD w N sl a b = .done t fs) : s.run N sl a b = .ok t := by
  simp only [CState.runD] at h
  simp only [CState.run]
  split
  · next hb =>
    rw [if_pos hb] at h
    exact CState.runBD_done h
  · next hb =>
    rw [if_neg hb] at h
    obtain ⟨s1, g1, f1, e1, h, -⟩ := Proc.bind_done h
    cases CState.debugTerms_done h
    exact (Proc.ofRes_done e1).1

/-- C90: outside debugging the one- and two-loop, bias and A runs write no file and never end the process. -/
theorem C90_no_files {w : Bool} {N : Num α} {sl : Slot} {a b : Field} {s : CState α} (hv : s.verb ≠ .debug) (hb : sl ≠ .b) :
    s.runD w N sl a b = .ofRes (s.run N sl a b) := by
  simp only [CState.runD, CState.run, if_neg hb]
  cases e : (s.say "*** Calculation").runCore N sl a b with
  | ub m => rfl
  | ok t =>
    have ht : t.verb = s.verb := ((CState.runCore_frame (n := 0) (W := fun _ => True) (fun _ _ _ => trivial) e).verb).trans
      (CState.say_frame (n := 0) (W := fun _ => True) s _).verb
    simp only [Proc.ofRes, Proc.bind_nil, CState.debugTerms, ht, if_neg hv]

/-- C90: the files of the debugging mode contain the modes and the terms as the run left them. -/
theorem C90_files {N : Num α} {a b : Field} {s t : CState α} (hv : s.verb = .debug) {sl : Slot} {fn : String}
    (hsl : (sl = .s1 ∧ fn = "debug_terms_spectrum_1loop.dat") ∨ (sl = .s2 ∧ fn = "debug_terms_spectrum_2loop.dat")) (h : s.run N sl a b = .ok t)
    {ks : List α} {cs : List (List α)} (hk : t.arr (t.terms sl).k (t.terms sl).nk = .ok ks)
    (hc : ((t.terms sl).cols.drop 2).mapM (fun p => t.arr (some p) (t.terms sl).nk) = .ok cs) :
    s.runD true N sl a b = .done t [(fn, ks :: cs)] := by
  have hb : sl ≠ .b := by rcases hsl with ⟨rfl, -⟩ | ⟨rfl, -⟩ <;> decide
  simp only [CState.run, if_neg hb] at h
  have ht : t.verb = .debug := (((CState.runCore_frame (n := 0) (W := fun _ => True) (fun _ _ _ => trivial) h).verb).trans
    (CState.say_frame (n := 0) (W := fun _ => True) s _).verb).trans hv
  simp only [CState.runD, if_neg hb, h, Proc.ofRes, Proc.bind_nil]
  have hm : ((t.terms sl).k :: ((t.terms sl).cols.drop 2).map some).mapM (fun p => t.arr p (t.terms sl).nk) = .ok (ks :: cs) := by
    rw [List.mapM_cons, hk, Res.ok_bind, List.mapM_map]
    show (((t.terms sl).cols.drop 2).mapM (fun p => t.arr (some p) (t.terms sl).nk) >>= _) = _
    rw [hc]
    rfl
  rcases hsl with ⟨rfl, rfl⟩ | ⟨rfl, rfl⟩ <;>
    simp only [CState.debugTerms, ht, if_true, CState.writeFile, hm]

/-- C90 fails: with debugging output in a directory where the file cannot be created, a computation that completes otherwise ends the
process (and with it the Python interpreter). -/
theorem C90_exit_violation {N : Num α} {a b : Field} {s t : CState α} (hv : s.verb = .debug) {sl : Slot} (hsl : sl = .s1 ∨ sl = .s2)
    (h : s.run N sl a b = .ok t) : s.runD false N sl a b = .exit 1 := by
  have hb : sl ≠ .b := by rcases hsl with rfl | rfl <;> decide
  simp only [CState.run, if_neg hb] at h
  have ht : t.verb = .debug := (((CState.runCore_frame (n := 0) (W := fun _ => True) (fun _ _ _ => trivial) h).verb).trans
    (CState.say_frame (n := 0) (W := fun _ => True) s _).verb).trans hv
  simp only [CState.runD, if_neg hb, h, Proc.ofRes, Proc.bind_nil]
  rcases hsl with rfl | rfl <;> simp [CState.debugTerms, ht, CState.writeFile]

/-- C90 fails: likewise the B term, before anything is computed. -/
theorem C90_exit_B_violation {N : Num α} {a b : Field} {s : CState α} (hv : s.verb = .debug) (hd : s.dt.nk ≠ 0) (ht : s.tt.nk ≠ 0) :
    s.runD false N .b a b = .exit 1 := by
  have hs : s.say "*** Calculation of B term" = s := by simp [CState.say, hv]
  simp [CState.runD, CState.runBD, hs, hd, ht, CState.debugB, hv, CState.writeFile, Proc.bind]

/-- A run that copies the modes into every column. -/
def exCopyNum : Num ℝ := ⟨0, fun _ _ _ _ _ _ ks => .ok (List.replicate 5 ks), fun ks _ => ks, fun _ ks => .ok ks⟩

/-- A run with debugging output, in a directory that can be written and in one that cannot. -/
noncomputable example (a b : Field) : ∃ w t, (World.start ℝ).exec exCopyNum [.newArr [1, 2], .new .s1, .setPkLin 0 0 0, .setTerms 0 0, .setVerbosity "debug"] = .ok w ∧
    w.c.runD true exCopyNum .s1 a b = .done t [("debug_terms_spectrum_1loop.dat", [[1, 2], [1, 2], [1, 2], [1, 2]])] ∧
    w.c.runD false exCopyNum .s1 a b = .exit 1 ∧ w.c.run exCopyNum .s1 a b = .ok t :=
  ⟨_, _, rfl, C90_files rfl (.inl ⟨rfl, rfl⟩) rfl rfl rfl, C90_exit_violation rfl (.inl rfl) rfl, rfl⟩

noncomputable example (a b : Field) : ∃ w, (World.start ℝ).exec exCopyNum [.newArr [1, 2], .new .s1, .setPkLin 0 0 0, .setTerms 0 0] = .ok w ∧
    w.c.runD false exCopyNum .s1 a b = .ofRes (w.c.run exCopyNum .s1 a b) :=
  ⟨_, rfl, C90_no_files (fun h => nomatch h) (by decide)⟩

noncomputable example (a b : Field) (s : CState ℝ) : ({ s with verb := .debug, dt := ⟨1, some 0, some 0⟩, tt := ⟨1, some 0, some 0⟩ } : CState ℝ).runD false exCopyNum .b a b = .exit 1 :=
  C90_exit_B_violation rfl one_ne_zero one_ne_zero

/-! ## Times -/

/-- C90: the elapsed time reported is the one measured, in hours, minutes and seconds. -/
theorem C90_time {d : ℤ} (hd : 0 ≤ d) : 3600 * (timerHMS d).1 + 60 * (timerHMS d).2.1 + (timerHMS d).2.2 = d ∧ 0 ≤ (timerHMS d).1 ∧
    0 ≤ (timerHMS d).2.1 ∧ (timerHMS d).2.1 < 60 ∧ 0 ≤ (timerHMS d).2.2 ∧ (timerHMS d).2.2 < 60 := by
  have h60 : 0 ≤ d.tdiv 60 := Int.tdiv_nonneg hd (by norm_num)
  simp only [timerHMS]
  rw [Int.tmod_eq_emod_of_nonneg h60, Int.tmod_eq_emod_of_nonneg hd, Int.tdiv_eq_ediv_of_nonneg hd, Int.tdiv_eq_ediv_of_nonneg hd]
  omega

/-- One hour, two minutes and five seconds. -/
example : timerHMS 3725 = (1, 2, 5) := by decide

end Verif
