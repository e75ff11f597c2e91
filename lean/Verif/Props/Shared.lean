import Verif.Props.Objects

/-!
# C40, C41, C47, C48, C56: verbosity, B spectra, copies, caller arrays, missing input
-/

namespace Verif

open World

variable {α : Type}

/-! ## C40 -/

/-- Events that set the verbosity: `set_verbosity` itself, and the constructions and runs that call it. -/
def ResetsVerbosity (w : World α) : PyEvent α → Prop
  | .setVerbosity _ => True
  | .new _ => True
  | .copy _ => True
  | .deepcopy _ => True
  | .clear => True
  | .run i _ _ => ∃ o, w.obj i = some o ∧ o.kind = .b2
  | _ => False

theorem quiet_step {N : Num α} {w w' : World α} {e : PyEvent α} (h : w.step N e = .ok w') (hr : ¬ ResetsVerbosity w e) :
    w'.c.verb = w.c.verb ∧ (w.c.verb ≠ .info → w'.c.out = w.c.out) := by
  have same : ∀ {u : World α}, (.ok w : Res (World α)) = .ok u → u.c.verb = w.c.verb ∧ (w.c.verb ≠ .info → u.c.out = w.c.out) := by
    intro u hu
    cases hu
    exact ⟨rfl, fun _ => rfl⟩
  cases e with
  | new κ => exact absurd trivial hr
  | setPkLin i kv pv =>
    simp only [step] at h
    split at h
    · next o lk lp _ _ _ =>
      have s := setPkLin_spec h
      have f := CState.allocs_frame (n := 0) (W := fun _ => False) w.c [lk, lp] (Nat.zero_le _)
      have s1 : w'.c.verb = w.c.verb := s.verb.trans f.verb
      exact ⟨s1, fun hv => (s.quiet (by rw [← f.verb] at hv; exact hv)).trans (f.quiet hv)⟩
    · exact same h
  | setSpectrumLin i kv pv =>
    simp only [step] at h
    split at h
    · split at h
      · have s := setSpectrumLin_spec h
        exact ⟨s.verb, s.quiet⟩
      · exact same h
    · exact same h
  | setTerms i kv =>
    simp only [step] at h
    split at h
    · have s := setTerms_spec h
      exact ⟨s.verb, s.quiet⟩
    · exact same h
  | run i a b =>
    simp only [step] at h
    split at h
    · next o ho => exact (runTerms_wframe h).2.1 fun hk => hr ⟨o, ho, hk⟩
    · exact same h
  | lookup kv =>
    simp only [step] at h
    split at h
    · obtain ⟨r, -, h⟩ := Res.bind_eq_ok.1 h
      cases h
      exact ⟨rfl, fun _ => rfl⟩
    · exact same h
  | copy i => exact absurd trivial hr
  | deepcopy i => exact absurd trivial hr
  | setVerbosity m => exact absurd trivial hr
  | clear => exact absurd trivial hr
  | newArr l =>
    cases h
    exact ⟨rfl, fun _ => rfl⟩
  | write a l =>
    simp only [step] at h
    split at h
    · split at h
      · cases h
        exact ⟨rfl, fun _ => rfl⟩
      · exact same h
    · exact same h
  | assign i j a =>
    simp only [step] at h
    split at h
    · split at h
      · cases h
        exact ⟨rfl, fun _ => rfl⟩
      · exact same h
    · exact same h
  | hold a =>
    simp only [step] at h
    split at h
    · cases h
      exact ⟨rfl, fun _ => rfl⟩
    · exact same h
  | drop a =>
    cases h
    exact ⟨rfl, fun _ => rfl⟩
  | del i =>
    cases h
    exact ⟨rfl, fun _ => rfl⟩
  | collect a =>
    simp only [step] at h
    split at h
    · exact same h
    · cases h
      exact ⟨rfl, fun _ => rfl⟩

/-- C40: from a state that is not in mode `info` nothing is printed by any history without construction, copy, `clear` and run of a
`B2Loop` (and without `set_verbosity`). -/
theorem C40_quiet_partial {N : Num α} {h : List (PyEvent α)} {w w' : World α} (hv : w.c.verb ≠ .info)
    (e : Along N (fun w e => ¬ ResetsVerbosity w e) w h w') : w'.c.verb = w.c.verb ∧ w'.c.out = w.c.out := by
  refine e.keep (Q := fun u => u.c.verb = w.c.verb ∧ u.c.out = w.c.out) ⟨rfl, rfl⟩ fun u e u' hp hs hq => ?_
  obtain ⟨h1, h2⟩ := quiet_step hs hp
  exact ⟨h1.trans hq.1, (h2 (by rw [hq.1]; exact hv)).trans hq.2⟩

/-- The documented modes of `set_verbosity`; any other name keeps the mode. -/
def wantedVerb (old : Verb) : String → Verb
  | "quiet" => .quiet
  | "info" => .info
  | "debug" => .debug
  | _ => old

/-- C40: `set_verbosity` does what it says, whatever was set before, and prints nothing. -/
theorem C40_set_verbosity (N : Num α) (w : World α) (mode : String) : ∃ w', w.step N (.setVerbosity mode) = .ok w' ∧
    w'.c.verb = wantedVerb w.c.verb mode ∧ w'.c.out = w.c.out := by
  refine ⟨_, rfl, ?_⟩
  unfold wantedVerb
  split
  · exact ⟨rfl, rfl⟩
  · exact ⟨rfl, rfl⟩
  · exact ⟨rfl, rfl⟩
  · rename_i h1 h2 h3
    simp only [CState.setVerbosity, if_neg h1, if_neg h2, if_neg h3, and_self]

/-- C40: `set_verbosity('quiet')` silences the library. -/
theorem C40_set_quiet (N : Num α) (w : World α) : ∃ w', w.step N (.setVerbosity "quiet") = .ok w' ∧ w'.c.verb = .quiet ∧ w'.c.out = w.c.out :=
  C40_set_verbosity N w "quiet"

/-- C40: in mode `info` a call that names its modes prints. -/
theorem setTerms_prints {N : Num α} {w w' : World α} {i kv : ℕ} {o : PObj} {l : List α} (hv : w.c.verb = .info) (ho : w.obj i = some o)
    (hk : w.c.mem kv = some l) (h : w.step N (.setTerms i kv) = .ok w') : w'.c.out = w.c.out ++ ["range"] := by
  simp only [step, ho, hk] at h
  unfold World.setTerms at h
  dsimp only at h
  obtain ⟨c, hc, h⟩ := Res.bind_eq_ok.1 h
  cases h
  unfold CState.setTerms at hc
  rw [CState.printK_say hc]
  obtain ⟨-, -, -, t4⟩ := CState.allocs_terms (w.c.alloc l).1 (o.kind.widths.map fun m => List.replicate (l.length * m) N.zero)
  have f := CState.allocs_frame (n := 0) (W := fun _ => True) (w.c.alloc l).1 (o.kind.widths.map fun m => List.replicate (l.length * m) N.zero)
    (Nat.zero_le _)
  unfold CState.say
  have hv' : ((w.c.alloc l).1.allocs (o.kind.widths.map fun m => List.replicate (l.length * m) N.zero)).1.verb = .info := f.verb.trans hv
  rw [if_pos hv']
  dsimp only
  rw [t4]
  rfl

/-- C40 fails: construction, `copy`, `deepcopy` and `clear` after `set_verbosity('quiet')` make the next call print. -/
theorem C40_construction_violation (N : Num ℝ) (e : PyEvent ℝ) (he : e ∈ [.new .s1, .copy 0, .deepcopy 0, .clear]) :
    ∃ (h : List (PyEvent ℝ)) (w w' : World ℝ), (World.start ℝ).exec N (h ++ [.setVerbosity "quiet"]) = .ok w ∧
      w.exec N [e, .setTerms 0 0] = .ok w' ∧ w'.c.out ≠ w.c.out := by
  simp only [List.mem_cons, List.not_mem_nil, or_false] at he
  rcases he with rfl | rfl | rfl | rfl
  all_goals
    refine ⟨[.newArr [1], .new .s1, .setPkLin 0 0 0], _, _, rfl, rfl, ?_⟩
    show ["range", "range"] ≠ ["range"]
    decide

theorem runSub_verb {N : Num α} {w w' : World α} {a : Field} {l : List α} {d : ℕ} (h : w.runSub N a l = .ok (w', d)) :
    w'.c.verb = .info := by
  unfold runSub at h
  dsimp only at h
  obtain ⟨w1, h1, h⟩ := Res.bind_eq_ok.1 h
  obtain ⟨c, h2, h⟩ := Res.bind_eq_ok.1 h
  obtain ⟨cs, h3, h⟩ := Res.bind_eq_ok.1 h
  cases h
  show c.verb = _
  rw [(CState.run_frame (n := 0) (Nat.zero_le _) h2).verb, (setTerms_spec h1).verb]
  rfl

/-- C40 fails: every run of a `B2Loop` with a spectrum leaves the library in mode `info`. -/
theorem C40_B2_violation {N : Num α} {w w' : World α} {i k p : ℕ} {o : PObj} {a b : Field} {lk : List α} (ho : w.obj i = some o)
    (hk : o.kind = .b2) (hl : o.lin = some (k, p)) (hm : w.c.mem k = some lk) (h : w.step N (.run i a b) = .ok w') :
    w'.c.verb = .info := by
  simp only [step, ho, runTerms, hk, hl, hm] at h
  obtain ⟨⟨w1, d1⟩, h1, h⟩ := Res.bind_eq_ok.1 h
  obtain ⟨⟨w2, d2⟩, h2, h⟩ := Res.bind_eq_ok.1 h
  rw [(runB_wframe h).2.1]
  exact runSub_verb h2

/-- A quiet history with two objects, spectra, terms and a modification. -/
noncomputable example (N : Num ℝ) : ∃ w w', (World.start ℝ).exec N [.newArr [1], .new .s1, .new .a1, .setVerbosity "quiet"] = .ok w ∧
    Along N (fun w e => ¬ ResetsVerbosity w e) w [.setPkLin 0 0 0, .setTerms 1 0, .newArr [], .setTerms 0 11, .write 0 [2], .del 0] w' ∧
    w'.c.out = [] :=
  ⟨_, _, rfl, ⟨id, _, rfl, id, _, rfl, id, _, rfl, id, _, rfl, id, _, rfl, id, _, rfl, rfl⟩, rfl⟩

theorem exNum_asm_wf (rt : ℕ → ℕ → ℝ × ℝ) (r : List (List ℝ)) : Pk.WF ⟨exTable.k.length, exTable.k, (exNum rt).asm exTable.k r⟩ :=
  ⟨rfl, (exNum_sized rt).asm _ _, by norm_num [exTable]⟩

theorem exNum_run_B (rt : ℕ → ℕ → ℝ × ℝ) {t d e : Pk ℝ} (h : t.WF) (h2 : 2 ≤ t.nk) (hd : d.WF) (hd2 : 2 ≤ d.nk) (he : e.WF) (he2 : 2 ≤ e.nk)
    (ks : List ℝ) (a b : Field) : ∃ r, (exNum rt).run .b a b t d e ks = .ok r :=
  driverNum_defined ⟨h, h2, (exEnv_ok rt ks).size, (exEnv_ok rt ks).poly, (exEnv_ok rt ks).interp⟩ exCuba_safe exCuba_safe serial_schedules .b a b
    _ _ fun _ => ⟨hd, hd2, he, he2⟩

/-- A run of a `B2Loop` after `set_verbosity('quiet')`. -/
noncomputable example (rt : ℕ → ℕ → ℝ × ℝ) : ∃ w w', (World.start ℝ).exec (exNum rt) [.newArr exTable.k, .newArr exTable.pk, .newArr [2], .new .b2,
    .setPkLin 0 0 1, .setTerms 0 2, .setVerbosity "quiet"] = .ok w ∧ w.c.verb = .quiet ∧ w.step (exNum rt) (.run 0 .delta .delta) = .ok w' ∧
    w'.c.verb = .info := by
  obtain ⟨r1, hr1⟩ := exNum_run rt exTable_physical.toWF (by norm_num [exTable]) exTable.k .s1 (by decide) .delta .theta
  obtain ⟨r2, hr2⟩ := exNum_run rt exTable_physical.toWF (by norm_num [exTable]) exTable.k .s1 (by decide) .theta .theta
  obtain ⟨r, hr⟩ := exNum_run_B rt exTable_physical.toWF (by norm_num [exTable]) (exNum_asm_wf rt r1) (by norm_num [exTable]) (exNum_asm_wf rt r2)
    (by norm_num [exTable]) [2] .delta .delta
  obtain ⟨w', h1, -, -⟩ := C39_history_partial (exNum_sized rt) (i := 0) (kv := 0) (pv := 1) (kt := 2) (lk := exTable.k) (lp := exTable.pk) (ks := [2])
    (a := .delta) (b := .delta) (r := r) (h1 := [.newArr exTable.k, .newArr exTable.pk, .newArr [2], .new .b2]) (h2 := [])
    (h3 := [.setVerbosity "quiet"]) rfl rfl rfl rfl rfl rfl rfl rfl rfl ⟨⟨id, id⟩, _, rfl, rfl⟩ (fun _ => by simp [exTable]) ⟨r1, r2, hr1, hr2, hr⟩
  exact ⟨_, w', rfl, rfl, h1, C40_B2_violation (k := 3) (p := 4) (lk := exTable.k) rfl rfl rfl rfl h1⟩

/-! ## C41 -/

/-- Which of the two spectra a pair of fields stands for. -/
inductive BTarget
  | dt | tt | neither
deriving DecidableEq

/-- What the property asks for, by name. -/
def wantedTarget (a b : String) : BTarget :=
  if (a = "delta" ∧ b = "theta") ∨ (a = "theta" ∧ b = "delta") then .dt else if a = "theta" ∧ b = "theta" then .tt else .neither

/-- A name of a field. -/
def FieldName (a : String) : Prop := a = "delta" ∨ a = "theta"

/-- C41: density-velocity in both orders and velocity-velocity set exactly their own spectrum, other arrays and pointers staying as
they are. -/
theorem C41_set_spectra_partial (s : CState α) (a b : String) (nk : ℕ) (k p : Option ℕ) (ha : FieldName a) (hb : FieldName b)
    (h : ¬ (a = "delta" ∧ b = "delta")) :
    (s.setSpectraB a b nk k p).dt = (if wantedTarget a b = .dt then ⟨nk, k, p⟩ else s.dt) ∧
    (s.setSpectraB a b nk k p).tt = (if wantedTarget a b = .tt then ⟨nk, k, p⟩ else s.tt) ∧
    (s.setSpectraB a b nk k p).lin = s.lin ∧ (s.setSpectraB a b nk k p).terms = s.terms ∧ (s.setSpectraB a b nk k p).mem = s.mem := by
  rw [CState.setSpectraB_eq]
  rcases ha with rfl | rfl <;> rcases hb with rfl | rfl <;> simp_all [wantedTarget, setFlag]

/-- C41 fails: the pair density-density, and every pair of names neither of which is the velocity, replaces the density-velocity spectrum. -/
theorem C41_density_violation (s : CState α) (a b : String) (ha : a ≠ "theta") (hb : b ≠ "theta") (nk : ℕ) (k p : Option ℕ)
    (hne : s.dt ≠ ⟨nk, k, p⟩) : wantedTarget a b = .neither ∧ (s.setSpectraB a b nk k p).dt = ⟨nk, k, p⟩ ∧
      (s.setSpectraB a b nk k p).dt ≠ s.dt := by
  have fa : setFlag a = .delta := by simp [setFlag, ha]
  have fb : setFlag b = .delta := by simp [setFlag, hb]
  rw [CState.setSpectraB_eq, fa, fb]
  exact ⟨by simp [wantedTarget, ha, hb], rfl, fun e => hne e.symm⟩

/-- C41 fails: a velocity paired with an unknown name replaces the density-velocity spectrum. -/
theorem C41_unknown_violation (s : CState α) (a : String) (ha : ¬ FieldName a) (nk : ℕ) (k p : Option ℕ) (hne : s.dt ≠ ⟨nk, k, p⟩) :
    wantedTarget a "theta" = .neither ∧ (s.setSpectraB a "theta" nk k p).dt = ⟨nk, k, p⟩ ∧ (s.setSpectraB a "theta" nk k p).dt ≠ s.dt := by
  obtain ⟨h1, h2⟩ := not_or.1 ha
  have fa : setFlag a = .delta := by simp [setFlag, h2]
  have fb : setFlag "theta" = .theta := by simp [setFlag]
  rw [CState.setSpectraB_eq, fa, fb]
  exact ⟨by simp [wantedTarget, h1, h2], rfl, fun e => hne e.symm⟩

example (s : CState ℝ) (h : s.dt.nk = 0) : (s.setSpectraB "delta" "delta" 3 (some 0) (some 1)).dt ≠ s.dt :=
  (C41_density_violation s "delta" "delta" (by decide) (by decide) 3 (some 0) (some 1) fun e => by rw [e] at h; cases h).2.2

example (s : CState ℝ) (h : s.dt.nk = 0) : (s.setSpectraB "phi" "theta" 3 (some 0) (some 1)).dt ≠ s.dt :=
  (C41_unknown_violation s "phi" (by unfold FieldName; decide) 3 (some 0) (some 1) fun e => by rw [e] at h; cases h).2.2

example (s : CState ℝ) : (s.setSpectraB "theta" "theta" 3 (some 0) (some 1)).dt = s.dt ∧
    (s.setSpectraB "theta" "theta" 3 (some 0) (some 1)).tt = ⟨3, some 0, some 1⟩ :=
  let h := C41_set_spectra_partial s "theta" "theta" 3 (some 0) (some 1) (Or.inr rfl) (Or.inr rfl) (by decide)
  ⟨h.1, h.2.1⟩

/-! ## C47 -/

/-- Two objects with different dictionaries and no common column. -/
def Separate (w : World α) (i n : ℕ) : Prop :=
  ∃ o x, w.obj i = some o ∧ w.obj n = some x ∧ o.dict ≠ x.dict ∧ ∀ a ∈ w.dict o.dict, a ∉ w.dict x.dict

theorem Separate.symm {w : World α} {i n : ℕ} (h : Separate w i n) : Separate w n i := by
  obtain ⟨o, x, h1, h2, h3, h4⟩ := h
  exact ⟨x, o, h2, h1, h3.symm, fun a ha hb => h4 a hb ha⟩

/-- C47: a deep copy has the same columns and the same linear spectrum, in arrays that nothing else leads to. -/
theorem C47_deepcopy_equal {N : Num α} {h : List (PyEvent α)} {w : World α} (hw : (World.start α).exec N h = .ok w) {i k p : ℕ} {o : PObj}
    (ho : w.obj i = some o) (hl : o.lin = some (k, p)) :
    ∃ w' x k' p', w.step N (.deepcopy i) = .ok w' ∧ w'.obj w.objs.length = some x ∧ x.kind = o.kind ∧ x.lin = some (k', p') ∧
      w'.columns w.objs.length = w.columns i ∧ w.columns i ≠ none ∧ w'.columns i = w.columns i ∧ w'.c.mem k' = w.c.mem k ∧
      w'.c.mem p' = w.c.mem p ∧ (∀ a ∈ w'.dict x.dict, w.c.next ≤ a) ∧ w.c.next ≤ k' ∧ w.c.next ≤ p' ∧ Separate w' i w.objs.length := by
  have hi := inv_exec inv_start hw
  obtain ⟨v1, v2, v3, v4, v5, v6, v7⟩ := w.c.setVerbosity_fields "info"
  obtain ⟨lk, hk⟩ := Option.isSome_iff_exists.1 (hi.alive k (reach_lin ho hl).1)
  obtain ⟨lp, hp⟩ := Option.isSome_iff_exists.1 (hi.alive p (reach_lin ho hl).2)
  set c0 := w.c.setVerbosity "info" with hc0
  set ls := (w.dict o.dict).map fun a => (c0.mem a).getD [] with hls
  obtain ⟨a1, a2⟩ := CState.allocs_addr c0 ls
  have m1 := CState.allocs_mem c0 ls
  have f1 := CState.allocs_frame (n := c0.next) (W := fun _ => False) c0 ls le_rfl
  set r := c0.allocs ls with hr
  have hlk : (c0.mem k).getD [] = lk := by rw [v6, hk]; rfl
  have hlp : (c0.mem p).getD [] = lp := by rw [v6, hp]; rfl
  obtain ⟨q1, q2, q3, q4⟩ := alloc2_mem r.1 lk lp
  have hst : w.step N (.deepcopy i) = .ok ⟨(r.1.allocs [lk, lp]).1, w.dicts ++ [r.2], w.objs ++ [some ⟨o.kind, w.dicts.length,
      some (r.1.next, r.1.next + 1)⟩], w.vars⟩ := by
    simp only [step, ho]
    unfold World.deepcopy
    rw [hl]
    dsimp only
    rw [← hc0, ← hlk, ← hlp]
    rfl
  have hnext : r.1.next = w.c.next + ls.length := by rw [a2, v5]
  have hr2 : r.2 = List.range' w.c.next ls.length := by rw [a1, v5]
  have hobj : (⟨(r.1.allocs [lk, lp]).1, w.dicts ++ [r.2], w.objs ++ [some ⟨o.kind, w.dicts.length, some (r.1.next, r.1.next + 1)⟩], w.vars⟩ :
      World α).obj w.objs.length = some ⟨o.kind, w.dicts.length, some (r.1.next, r.1.next + 1)⟩ := by
    rw [obj_eq]
    simp
  have hobji : (⟨(r.1.allocs [lk, lp]).1, w.dicts ++ [r.2], w.objs ++ [some ⟨o.kind, w.dicts.length, some (r.1.next, r.1.next + 1)⟩], w.vars⟩ :
      World α).obj i = some o := by
    rw [obj_eq] at ho ⊢
    dsimp only
    rw [List.getElem?_append_left (List.getElem?_eq_some_iff.1 ho).1]
    exact ho
  have hdn : (w.dicts ++ [r.2]).getD w.dicts.length [] = r.2 := by simp
  have hdi : (w.dicts ++ [r.2]).getD o.dict [] = w.dict o.dict := List.getD_append _ _ _ _ (hi.dicts i o ho)
  have hold : ∀ a < w.c.next, (r.1.allocs [lk, lp]).1.mem a = w.c.mem a := by
    intro a ha
    rw [q4 a (by omega), f1.mem a (by omega) fun h => h, v6]
  have hcols : w.columns i = some ls := by
    unfold columns
    rw [ho]
    refine mapM_mem ?_
    rw [hls, List.forall₂_map_right_iff, List.forall₂_same]
    intro a ha
    obtain ⟨l, h⟩ := Option.isSome_iff_exists.1 (hi.alive a (reach_dict ho ha))
    rw [v6, h]
    rfl
  refine ⟨_, _, r.1.next, r.1.next + 1, hst, hobj, rfl, rfl, ?_, by rw [hcols]; simp, ?_, ?_, ?_, ?_, by omega, by omega, ?_⟩
  · rw [hcols]
    unfold columns
    rw [hobj]
    refine mapM_mem ?_
    unfold World.dict
    dsimp only
    rw [hdn, hr2]
    refine List.forall₂_of_length_eq_of_get (by simp) fun j h1 h2 => ?_
    simp only [List.get_eq_getElem, List.getElem_range', one_mul]
    rw [q4 _ (by omega), ← v5]
    exact m1 j h2
  · unfold columns
    rw [hobji, ho]
    dsimp only
    refine (mapM_congr' ?_).trans (congrArg (fun d => List.mapM w.c.mem d) ?_)
    · intro a ha
      have : a ∈ w.dict o.dict := by
        unfold World.dict at ha
        dsimp only at ha
        rwa [hdi] at ha
      exact hold a (hi.lt (reach_dict ho this))
    · exact hdi
  · rw [hk]; exact q1
  · rw [hp]; exact q2
  · intro a ha
    unfold World.dict at ha
    dsimp only at ha
    rw [hdn, hr2] at ha
    exact (lt_of_range' ha).1
  · refine ⟨o, _, hobji, hobj, (hi.dicts i o ho).ne, fun a ha hb => ?_⟩
    unfold World.dict at ha hb
    dsimp only at ha hb
    rw [hdi] at ha
    rw [hdn, hr2] at hb
    have := hi.lt (reach_dict ho ha)
    have := (lt_of_range' hb).1
    omega

/-- Modifications that do not concern object `i`: whatever is done to the columns of object `n`, or elsewhere, except runs (see the
violation below), the modification of arrays of `i`, and the exchange of arrays between the two objects. -/
def ElsewhereThan (i n : ℕ) (w : World α) : PyEvent α → Prop
  | .run _ _ _ => False
  | .write a _ => ∀ o x, w.obj i = some o → w.obj n = some x → a ∈ w.dict x.dict ∨ a ∉ w.dict o.dict
  | .setTerms j _ => ∀ o x, w.obj i = some o → w.obj j = some x → x.dict ≠ o.dict
  | .assign j _ a => ∀ o x, w.obj i = some o → w.obj j = some x → x.dict ≠ o.dict ∧ a ∉ w.dict o.dict
  | .del j => j ≠ i ∧ j ≠ n
  | _ => True

theorem separate_step {N : Num α} {w w' : World α} {e : PyEvent α} {i n : ℕ} (hi : Inv w) (hs : w.step N e = .ok w') (h : Separate w i n)
    (he : ElsewhereThan i n w e) : Separate w' i n := by
  obtain ⟨o, x, ho, hx, hne, hd⟩ := h
  have f := stepFrame hs
  obtain ⟨o', ho', hod, -⟩ := obj_kept hs ho (by rintro rfl; exact he.1 rfl)
  obtain ⟨x', hx', hxd, -⟩ := obj_kept hs hx (by rintro rfl; exact he.2 rfl)
  refine ⟨o', x', ho', hx', by rw [hod, hxd]; exact hne, ?_⟩
  have hdo : w'.dict o.dict = w.dict o.dict := by
    refine f.dict _ (hi.dicts i o ho) fun hsd => ?_
    cases e <;> try exact hsd.elim
    · obtain ⟨z, hz, hzd⟩ := hsd
      exact he o z ho hz hzd
    · obtain ⟨z, hz, hzd⟩ := hsd
      exact (he o z ho hz).1 hzd
  rw [hod, hxd, hdo]
  by_cases hsd : SetsDict w x.dict e
  · cases e <;> try exact hsd.elim
    · next j kv =>
      obtain ⟨z, hz, hzd⟩ := hsd
      simp only [step, hz] at hs
      split at hs
      · next o2 l e1 e2 =>
        cases e1
        have s := setTerms_spec hs
        intro a ha hb
        unfold World.dict at hb
        rw [s.dicts, hzd, List.getD_eq_getElem?_getD, List.getElem?_set_self (hi.dicts n x hx)] at hb
        have : w.c.next ≤ a := by
          rcases List.mem_cons.1 hb with rfl | hb
          · exact le_rfl
          · have := (lt_of_range' hb).1
            omega
        have := hi.lt (reach_dict ho ha)
        omega
      · cases hs
        exact hd
    · next j m a =>
      obtain ⟨z, hz, hzd⟩ := hsd
      simp only [step, hz] at hs
      split at hs
      · cases hs
        intro b hb hc
        unfold World.dict at hc
        dsimp only at hc
        rw [hzd, List.getD_eq_getElem?_getD, List.getElem?_set_self (hi.dicts n x hx)] at hc
        rcases List.mem_or_eq_of_mem_set hc with hc | rfl
        · exact hd b hb hc
        · exact (he o z ho hz).2 hb
      · cases hs
        exact hd
  · rw [f.dict _ (hi.dicts n x hx) hsd]
    exact hd

/-- C47: two objects without common columns (a deep copy and its original) stay independent: modifying the columns of one, replacing
them, giving it new modes or another spectrum leaves the columns of the other unchanged. -/
theorem C47_independent_partial {N : Num α} {h1 h : List (PyEvent α)} {w w' : World α} {i n : ℕ} {r : List (List α)}
    (e1 : (World.start α).exec N h1 = .ok w) (hs : Separate w i n) (hc : w.columns i = some r)
    (e : Along N (ElsewhereThan i n) w h w') : w'.columns i = some r ∧ Separate w' i n := by
  have main : Inv w' ∧ Separate w' i n ∧ w'.columns i = some r := by
    refine e.keep (Q := fun w => Inv w ∧ Separate w i n ∧ w.columns i = some r) ⟨inv_exec inv_start e1, hs, hc⟩ fun w e w' hp hst hq => ?_
    obtain ⟨hi, hsep, hcol⟩ := hq
    refine ⟨inv_step hi hst, separate_step hi hst hsep hp, ?_⟩
    obtain ⟨o, x, ho, hx, hne, hd⟩ := hsep
    refine columns_step hi hst hcol fun hdis => ?_
    cases e <;> try exact hdis.elim
    · obtain ⟨o', z, hz1, hz2, hz3⟩ := hdis
      exact hp o' z hz1 hz2 hz3
    · exact hp.elim
    · next a l =>
      obtain ⟨o', ho', ha⟩ := hdis
      rcases hp o' x ho' hx with hp | hp
      · rw [ho] at ho'
        cases ho'
        exact hd a ha hp
      · exact hp ha
    · obtain ⟨o', z, hz1, hz2, hz3⟩ := hdis
      exact (hp o' z hz1 hz2).1 hz3
    · exact hp.1 hdis
  exact ⟨main.2.2, main.2.1⟩

/-- C47: `copy` shares the columns: whatever happens later, the two objects show the same columns as long as both exist. -/
theorem C47_copy_shares {N : Num α} {w w' w'' : World α} {i : ℕ} {o : PObj} (ho : w.obj i = some o)
    (hs : w.step N (.copy i) = .ok w') {h : List (PyEvent α)}
    (e : Along N (fun _ e => e ≠ .del i ∧ e ≠ .del w.objs.length) w' h w'') : w''.columns w.objs.length = w''.columns i := by
  simp only [step, ho] at hs
  cases hs
  have h0 : (w.copy o).obj i = some o := by
    rw [obj_eq] at ho ⊢
    unfold World.copy
    dsimp only
    rw [List.getElem?_append_left (List.getElem?_eq_some_iff.1 ho).1]
    exact ho
  have hn0 : (w.copy o).obj w.objs.length = some o := by
    rw [obj_eq]
    unfold World.copy
    simp
  obtain ⟨x, y, hx, hy, hd⟩ : ∃ x y, w''.obj i = some x ∧ w''.obj w.objs.length = some y ∧ y.dict = x.dict := by
    refine e.keep (Q := fun v => ∃ x y, v.obj i = some x ∧ v.obj w.objs.length = some y ∧ y.dict = x.dict) ⟨o, o, h0, hn0, rfl⟩
      fun v e v' hp hst hq => ?_
    obtain ⟨x, y, hx, hy, hd⟩ := hq
    obtain ⟨x', hx', hxd, -⟩ := obj_kept hst hx hp.1
    obtain ⟨y', hy', hyd, -⟩ := obj_kept hst hy hp.2
    exact ⟨x', y', hx', hy', by rw [hyd, hd, hxd]⟩
  unfold columns
  rw [hx, hy]
  dsimp only
  rw [hd]

/-- An object with spectrum and modes, and its deep copy. -/
noncomputable def exDeep : List (PyEvent ℝ) :=
  [.newArr exTable.k, .newArr exTable.pk, .newArr [2], .new .s1, .setPkLin 0 0 1, .setTerms 0 2, .deepcopy 0]

/-- C47 fails: running the deep copy fills the columns of the original and leaves its own at zero. -/
theorem C47_run_violation (rt : ℕ → ℕ → ℝ × ℝ) (a b : Field) : ∃ (h : List (PyEvent ℝ)) (w w' : World ℝ) (r : List (List ℝ)),
    (World.start ℝ).exec (exNum rt) (h ++ [.deepcopy 0]) = .ok w ∧ Separate w 0 1 ∧ w.columns 0 = some [[2], [0], [0], [0], [0], [0]] ∧
      w.columns 1 = some [[2], [0], [0], [0], [0], [0]] ∧ w.step (exNum rt) (.run 1 a b) = .ok w' ∧
      w'.columns 1 = some [[2], [0], [0], [0], [0], [0]] ∧ w'.columns 0 = some ([2] :: r) ∧ (r.getD 0 []).getD 0 0 = 4 := by
  obtain ⟨w, hw, ho0, ho, hcol0, hcol, hl, ht, hcols, hd0, hd⟩ : ∃ w, (World.start ℝ).exec (exNum rt) exDeep = .ok w ∧
      w.obj 0 = some ⟨.s1, 0, some (3, 4)⟩ ∧ w.obj 1 = some ⟨.s1, 1, some (17, 18)⟩ ∧ w.columns 0 = some [[2], [0], [0], [0], [0], [0]] ∧
      w.columns 1 = some [[2], [0], [0], [0], [0], [0]] ∧
      LinReady w 0 .s1 exTable.k exTable.pk ∧ TermsReady w 0 .s1 [2] ∧ (w.c.terms .s1).cols = [6, 7, 8, 9, 10] ∧
      w.dict 0 = [5, 6, 7, 8, 9, 10] ∧ w.dict 1 = [11, 12, 13, 14, 15, 16] := by
    refine ⟨_, rfl, rfl, rfl, rfl, rfl, ⟨0, 3, 4, rfl, rfl, rfl, rfl, rfl, fun sl => ?_⟩,
      ⟨0, some (3, 4), 5, [6, 7, 8, 9, 10], rfl, rfl, rfl, rfl, by decide, ?_, fun sl => ?_⟩, rfl, rfl, rfl⟩
    · cases sl
      · show 3 ∉ [6, 7, 8, 9, 10] ∧ 4 ∉ [6, 7, 8, 9, 10]
        decide
      all_goals exact ⟨List.not_mem_nil, List.not_mem_nil⟩
    · exact .cons rfl (.cons rfl (.cons rfl (.cons rfl (.cons rfl .nil))))
    · cases sl
      · show 5 ∉ [6, 7, 8, 9, 10]
        decide
      all_goals exact List.not_mem_nil
  obtain ⟨r, hr⟩ := exNum_run rt exTable_physical.toWF (by norm_num [exTable]) [2] .s1 (by decide) a b
  obtain ⟨w', hs, hc⟩ := C39_last_set (exNum_sized rt) hw ho (by decide) (by decide) hl ht hr
  have hkept : w'.columns 1 = some [[2], [0], [0], [0], [0], [0]] := by
    refine C39_results_kept (h := [.run 1 a b]) hw hcol ⟨?_, w', hs, rfl⟩
    rintro ⟨o, x, c, h1, h2, h3, h4⟩
    rw [ho] at h1 h2
    cases h1
    cases h2
    rw [hd] at h3
    change c ∈ (w.c.terms .s1).cols at h4
    rw [hcols] at h4
    revert h3 h4 c
    decide
  refine ⟨[.newArr exTable.k, .newArr exTable.pk, .newArr [2], .new .s1, .setPkLin 0 0 1, .setTerms 0 2], w, w', r, hw,
    ⟨_, _, ho0, ho, by decide, ?_⟩, hcol0, hcol, hs, hkept, hc, exNum_pk_lin rt hr exTable_at_two⟩
  rw [hd0, hd]
  decide

/-- The columns of a deep copy are modified, replaced and set again: the original keeps its own. -/
noncomputable example (N : Num ℝ) : ∃ w w', (World.start ℝ).exec N exDeep = .ok w ∧ Separate w 0 1 ∧ w.columns 0 ≠ none ∧
    Along N (ElsewhereThan 0 1) w [.write 12 [7], .setTerms 1 2, .newArr [5], .assign 1 1 25] w' ∧ w'.columns 0 = w.columns 0 ∧
    w'.columns 1 = some [[2], [5], [N.zero], [N.zero], [N.zero], [N.zero]] := by
  refine ⟨_, _, rfl, ⟨_, _, rfl, rfl, (show (0 : ℕ) ≠ 1 by decide), ?_⟩, ?_, ⟨fun o x h1 h2 => ?_, _, rfl, fun o x h1 h2 => ?_, _, rfl, trivial, _, rfl, fun o x h1 h2 => ?_, _, rfl, rfl⟩, rfl, rfl⟩
  · show ∀ a ∈ [5, 6, 7, 8, 9, 10], a ∉ [11, 12, 13, 14, 15, 16]
    decide
  · exact Option.some_ne_none _
  · cases h1
    cases h2
    exact Or.inl (by show 12 ∈ [11, 12, 13, 14, 15, 16]; decide)
  · cases h1
    cases h2
    show (1 : ℕ) ≠ 0
    decide
  · cases h1
    cases h2
    show (1 : ℕ) ≠ 0 ∧ 25 ∉ [5, 6, 7, 8, 9, 10]
    decide

end Verif
