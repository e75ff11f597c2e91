import Verif.Proofs.Library
import Mathlib.Data.List.GetD

/-!
# Invariant of the state machine
-/

namespace Verif

variable {α : Type}

/-- `CState.Frame` without the part about printing. -/
structure MFrame (n : ℕ) (W : ℕ → Prop) (s s' : CState α) : Prop where
  next : s.next ≤ s'.next
  lin : s'.lin = s.lin
  mem : ∀ a < n, ¬ W a → s'.mem a = s.mem a
  shape : ∀ a < n, (s'.mem a).map List.length = (s.mem a).map List.length
  fresh : (∀ a, s.next ≤ a → s.mem a = none) → ∀ a, s'.next ≤ a → s'.mem a = none
  terms : ∀ sl, sl ≠ .s1 → s'.terms sl = s.terms sl
  terms1 : s'.terms .s1 = s.terms .s1 ∨ ∀ a ∈ (s'.terms .s1).cols, n ≤ a
  bound : (∀ sl, ∀ a ∈ (s.terms sl).cols, a < s.next) → ∀ sl, ∀ a ∈ (s'.terms sl).cols, a < s'.next

theorem CState.Frame.m {n : ℕ} {W : ℕ → Prop} {s s' : CState α} (h : CState.Frame n W s s') : MFrame n W s s' :=
  ⟨h.next, h.lin, h.mem, h.shape, h.fresh, h.terms, h.terms1, h.bound⟩

theorem MFrame.refl (n : ℕ) (W : ℕ → Prop) (s : CState α) : MFrame n W s s := (CState.Frame.refl n W s).m

theorem MFrame.trans {n : ℕ} {W : ℕ → Prop} {s t u : CState α} (h : MFrame n W s t) (k : MFrame n W t u) : MFrame n W s u where
  next := h.next.trans k.next
  lin := k.lin.trans h.lin
  mem a ha hw := (k.mem a ha hw).trans (h.mem a ha hw)
  shape a ha := (k.shape a ha).trans (h.shape a ha)
  fresh hf := k.fresh (h.fresh hf)
  terms sl hs := (k.terms sl hs).trans (h.terms sl hs)
  terms1 := by
    rcases k.terms1 with e | e
    · rw [e]; exact h.terms1
    · exact Or.inr e
  bound hb := k.bound (h.bound hb)

theorem MFrame.mono {n m : ℕ} {V W : ℕ → Prop} {s t : CState α} (h : MFrame n W s t) (hm : m ≤ n) (hV : ∀ a < m, W a → V a) :
    MFrame m V s t where
  next := h.next
  lin := h.lin
  mem a ha hw := h.mem a (by omega) fun hx => hw (hV a ha hx)
  shape a ha := h.shape a (by omega)
  fresh := h.fresh
  terms := h.terms
  terms1 := h.terms1.imp id fun h a ha => hm.trans (h a ha)
  bound := h.bound

theorem setVerbosity_mframe {n : ℕ} {W : ℕ → Prop} (s : CState α) (m : String) : MFrame n W s (s.setVerbosity m) := by
  obtain ⟨h1, h2, -, -, h5, h6, -⟩ := s.setVerbosity_fields m
  refine ⟨h5.ge, h1, fun a _ _ => by rw [h6], fun a _ => by rw [h6], fun h => ?_, fun _ _ => by rw [h2], Or.inl (by rw [h2]), ?_⟩
  · rw [h5, h6]; exact h
  · rw [h2, h5]; exact fun h => h

theorem MFrame.alive {n : ℕ} {W : ℕ → Prop} {s s' : CState α} (h : MFrame n W s s') {a : ℕ} (ha : a < n) :
    (s'.mem a).isSome = (s.mem a).isSome := by
  have := congrArg Option.isSome (h.shape a ha)
  simpa using this

namespace World

theorem obj_eq {w : World α} {i : ℕ} {o : PObj} : w.obj i = some o ↔ w.objs[i]? = some (some o) := by
  unfold obj
  constructor
  · intro h
    cases hx : w.objs[i]? with
    | none => rw [hx] at h; cases h
    | some x => rw [hx] at h; exact congrArg some h
  · intro h
    rw [h]
    rfl

theorem reach_iff {w : World α} {a : ℕ} : w.reach a = true ↔ a ∈ w.vars ∨ ∃ i o, w.obj i = some o ∧
    (a ∈ w.dict o.dict ∨ ∃ k p, o.lin = some (k, p) ∧ (a = k ∨ a = p)) := by
  unfold reach
  rw [Bool.or_eq_true, List.contains_iff_mem, List.any_eq_true]
  refine or_congr Iff.rfl ⟨?_, ?_⟩
  · rintro ⟨o, ho, h⟩
    cases o with
    | none => cases h
    | some o =>
      obtain ⟨i, hi⟩ := List.mem_iff_getElem?.1 ho
      refine ⟨i, o, obj_eq.2 hi, ?_⟩
      dsimp only at h
      rw [Bool.or_eq_true, List.contains_iff_mem] at h
      refine h.imp id fun h => ?_
      cases hl : o.lin with
      | none => rw [hl] at h; cases h
      | some kp =>
        rw [hl] at h
        obtain ⟨k, p⟩ := kp
        exact ⟨k, p, rfl, by simpa using h⟩
  · rintro ⟨i, o, hi, h⟩
    refine ⟨some o, List.mem_iff_getElem?.2 ⟨i, obj_eq.1 hi⟩, ?_⟩
    dsimp only
    rw [Bool.or_eq_true, List.contains_iff_mem]
    refine h.imp id fun h => ?_
    obtain ⟨k, p, hl, h⟩ := h
    rw [hl]
    simpa using h

/-- Invariant of the state machine: fresh addresses are unused, arrays that a Python name leads to are alive, the columns known to C
have been allocated, dictionaries exist. -/
structure Inv (w : World α) : Prop where
  fresh : ∀ a, w.c.next ≤ a → w.c.mem a = none
  alive : ∀ a, w.reach a = true → (w.c.mem a).isSome = true
  cols : ∀ sl, ∀ a ∈ (w.c.terms sl).cols, a < w.c.next
  dicts : ∀ i o, w.obj i = some o → o.dict < w.dicts.length

theorem Inv.lt {w : World α} (h : Inv w) {a : ℕ} (ha : w.reach a = true) : a < w.c.next := by
  by_contra hlt
  have := h.alive a ha
  rw [h.fresh a (by omega)] at this
  cases this

theorem Inv.lt_mem {w : World α} (h : Inv w) {a : ℕ} {l : List α} (ha : w.c.mem a = some l) : a < w.c.next := by
  by_contra hlt
  rw [h.fresh a (by omega)] at ha
  cases ha

theorem inv_start : Inv (World.start α) :=
  ⟨fun _ _ => rfl, (fun a h => by cases h), (fun _ a h => by cases h), (fun i o h => by simp [obj, World.start] at h)⟩

/-- The effect of a call that builds at most new objects with fresh columns and stores below the old `next` only into `W`. -/
structure WFrame (W : ℕ → Prop) (w w' : World α) : Prop where
  m : MFrame w.c.next W w.c w'.c
  objs : ∃ l, w'.objs = w.objs ++ l ∧ ∀ o, some o ∈ l → o.lin = none ∧ w.dicts.length ≤ o.dict ∧ o.dict < w'.dicts.length
  dicts : ∃ l, w'.dicts = w.dicts ++ l ∧ ∀ d ∈ l, ∀ a ∈ d, w.c.next ≤ a ∧ a < w'.c.next ∧ (w'.c.mem a).isSome = true
  vars : w'.vars = w.vars

theorem WFrame.obj {W : ℕ → Prop} {w w' : World α} (h : WFrame W w w') {i : ℕ} {o : PObj} (ho : w.obj i = some o) :
    w'.obj i = some o := by
  obtain ⟨l, e, -⟩ := h.objs
  rw [obj_eq] at ho ⊢
  rw [e, List.getElem?_append_left (List.getElem?_eq_some_iff.1 ho).1]
  exact ho

theorem WFrame.dict {W : ℕ → Prop} {w w' : World α} (h : WFrame W w w') {d : ℕ} (hd : d < w.dicts.length) : w'.dict d = w.dict d := by
  obtain ⟨l, e, -⟩ := h.dicts
  unfold World.dict
  rw [e, List.getD_append _ _ _ _ hd]

theorem WFrame.reach {W : ℕ → Prop} {w w' : World α} (h : WFrame W w w') (hi : Inv w) {a : ℕ} (ha : w'.reach a = true) :
    w.reach a = true ∨ w.c.next ≤ a ∧ a < w'.c.next ∧ (w'.c.mem a).isSome = true := by
  rw [reach_iff] at ha
  rcases ha with ha | ⟨i, o, hio, ha⟩
  · rw [h.vars] at ha
    exact Or.inl (reach_iff.2 (Or.inl ha))
  · obtain ⟨l, e, hl⟩ := h.objs
    obtain ⟨m, e', hm⟩ := h.dicts
    have hx := obj_eq.1 hio
    rw [e] at hx
    by_cases hlt : i < w.objs.length
    · rw [List.getElem?_append_left hlt] at hx
      have ho : w.obj i = some o := obj_eq.2 hx
      rw [h.dict (hi.dicts i o ho)] at ha
      exact Or.inl (reach_iff.2 (Or.inr ⟨i, o, ho, ha⟩))
    · rw [List.getElem?_append_right (by omega)] at hx
      have hmem := List.mem_of_getElem? hx
      obtain ⟨h1, h2, h3⟩ := hl o hmem
      rcases ha with ha | ⟨k, p, hk, -⟩
      · right
        unfold World.dict at ha
        rw [e'] at ha h3
        rw [List.length_append] at h3
        rw [List.getD_append_right _ _ _ _ h2, List.getD_eq_getElem _ _ (by omega)] at ha
        exact hm _ (List.getElem_mem _) a ha
      · rw [h1] at hk
        cases hk

theorem WFrame.inv {W : ℕ → Prop} {w w' : World α} (h : WFrame W w w') (hi : Inv w) : Inv w' where
  fresh := h.m.fresh hi.fresh
  cols := h.m.bound hi.cols
  alive a ha := by
    rcases h.reach hi ha with hr | hr
    · rw [h.m.alive (hi.lt hr)]
      exact hi.alive a hr
    · exact hr.2.2
  dicts i o ho := by
    obtain ⟨l, e, hl⟩ := h.objs
    obtain ⟨m, e', -⟩ := h.dicts
    have hx := obj_eq.1 ho
    rw [e] at hx
    by_cases hlt : i < w.objs.length
    · rw [List.getElem?_append_left hlt] at hx
      have := hi.dicts i o (obj_eq.2 hx)
      rw [e', List.length_append]
      omega
    · rw [List.getElem?_append_right (by omega)] at hx
      exact (hl o (List.mem_of_getElem? hx)).2.2

theorem WFrame.refl (W : ℕ → Prop) (w : World α) : WFrame W w w :=
  ⟨MFrame.refl _ _ _, ⟨[], by simp, by simp⟩, ⟨[], by simp, by simp⟩, rfl⟩

theorem WFrame.trans {W : ℕ → Prop} {u v w : World α} (h : WFrame W u v) (k : WFrame W v w) : WFrame W u w where
  m := h.m.trans (k.m.mono h.m.next fun _ _ h => h)
  objs := by
    obtain ⟨l, e, hl⟩ := h.objs
    obtain ⟨m, e', hm⟩ := k.objs
    obtain ⟨d, f, -⟩ := h.dicts
    obtain ⟨d', f', -⟩ := k.dicts
    refine ⟨l ++ m, by rw [e', e, List.append_assoc], fun o ho => ?_⟩
    have hlen : v.dicts.length = u.dicts.length + d.length := by rw [f, List.length_append]
    have hlen' : w.dicts.length = v.dicts.length + d'.length := by rw [f', List.length_append]
    rcases List.mem_append.1 ho with ho | ho
    · have := hl o ho
      exact ⟨this.1, this.2.1, by omega⟩
    · have := hm o ho
      exact ⟨this.1, by omega, this.2.2⟩
  dicts := by
    obtain ⟨d, f, hd⟩ := h.dicts
    obtain ⟨d', f', hd'⟩ := k.dicts
    refine ⟨d ++ d', by rw [f', f, List.append_assoc], fun x hx a ha => ?_⟩
    rcases List.mem_append.1 hx with hx | hx
    · have := hd x hx a ha
      exact ⟨this.1, this.2.1.trans_le k.m.next, by rw [k.m.alive this.2.1]; exact this.2.2⟩
    · have := hd' x hx a ha
      exact ⟨h.m.next.trans this.1, this.2⟩
  vars := k.vars.trans h.vars

theorem newObj_wframe (W : ℕ → Prop) (κ : Kind) (w : World α) : WFrame W w (w.newObj κ) where
  m := setVerbosity_mframe w.c "info"
  objs := ⟨[some ⟨κ, w.dicts.length, none⟩], rfl, fun o ho => by
    simp only [List.mem_singleton, Option.some.injEq] at ho
    subst ho
    refine ⟨rfl, le_rfl, ?_⟩
    simp [newObj]⟩
  dicts := ⟨[[]], rfl, fun d hd a ha => by
    simp only [List.mem_singleton] at hd
    subst hd
    cases ha⟩
  vars := rfl

/-- The state after `set_terms` of an object. -/
structure AfterTerms (N : Num α) (w : World α) (o : PObj) (l : List α) (w' : World α) : Prop where
  objs : w'.objs = w.objs
  vars : w'.vars = w.vars
  dicts : w'.dicts = w.dicts.set o.dict (w.c.next :: List.range' (w.c.next + 1) o.kind.widths.length)
  terms : w'.c.terms = Function.update w.c.terms o.kind.slot
    ⟨l.length, some w.c.next, List.range' (w.c.next + 1) o.kind.widths.length⟩
  lin : w'.c.lin = w.c.lin
  dt : w'.c.dt = w.c.dt
  tt : w'.c.tt = w.c.tt
  verb : w'.c.verb = w.c.verb
  quiet : w.c.verb ≠ .info → w'.c.out = w.c.out
  next : w'.c.next = w.c.next + 1 + o.kind.widths.length
  memk : w'.c.mem w.c.next = some l
  memc : ∀ j (hj : j < o.kind.widths.length), w'.c.mem (w.c.next + 1 + j) = some (List.replicate (l.length * o.kind.widths[j]) N.zero)
  mem : ∀ a < w.c.next, w'.c.mem a = w.c.mem a
  fresh : (∀ a, w.c.next ≤ a → w.c.mem a = none) → ∀ a, w'.c.next ≤ a → w'.c.mem a = none

theorem setTerms_spec {N : Num α} {w w' : World α} {o : PObj} {l : List α} (h : w.setTerms N o l = .ok w') :
    AfterTerms N w o l w' := by
  unfold setTerms at h
  dsimp only at h
  obtain ⟨c, hc, h⟩ := Res.bind_eq_ok.1 h
  cases h
  obtain ⟨h1, h2, h3, h4, h5, h6, h7⟩ := CState.setTerms_fields hc
  have hout := (CState.printK_frame (n := 0) (W := fun _ => True) hc).quiet
  generalize hls : (o.kind.widths.map fun m => List.replicate (l.length * m) N.zero) = ls at *
  have hlen : ls.length = o.kind.widths.length := by rw [← hls, List.length_map]
  obtain ⟨e1, e2⟩ := CState.allocs_addr (w.c.alloc l).1 ls
  obtain ⟨t1, t2, t3, t4⟩ := CState.allocs_terms (w.c.alloc l).1 ls
  have hm := CState.allocs_mem (w.c.alloc l).1 ls
  have hf := CState.allocs_frame (n := w.c.next + 1) (W := fun _ => False) (w.c.alloc l).1 ls le_rfl
  have hn : (w.c.alloc l).1.next = w.c.next + 1 := rfl
  rw [hn, hlen] at e1 e2
  exact {
    objs := rfl
    vars := rfl
    dicts := by
      dsimp only
      rw [e1]
      rfl
    terms := by
      dsimp only
      rw [h1, e1]
      rw [t1]
      rfl
    lin := by
      dsimp only
      rw [h6]
      exact hf.lin
    dt := by
      dsimp only
      rw [h2]
      exact t2
    tt := by
      dsimp only
      rw [h3]
      exact t3
    verb := by
      dsimp only
      rw [h7]
      exact hf.verb
    quiet := fun hv => by
      dsimp only
      rw [hout (by dsimp only; rw [hf.verb]; exact hv)]
      exact t4
    next := by
      dsimp only
      rw [h4]
      exact e2
    memk := by
      dsimp only
      rw [h5]
      rw [hf.mem _ (by omega) (fun h => h)]
      exact Function.update_self _ _ _
    memc := fun j hj => by
      dsimp only
      rw [h5]
      have := hm j (by omega)
      rw [hn] at this
      rw [this]
      subst hls
      simp
    mem := fun a ha => by
      dsimp only
      rw [h5]
      rw [hf.mem _ (by omega) (fun h => h)]
      exact Function.update_of_ne (by omega) _ _
    fresh := fun hfr a ha => by
      dsimp only at ha ⊢
      rw [h5]
      rw [h4] at ha
      refine hf.fresh ?_ a ha
      intro b hb
      rw [hn] at hb
      rw [show (w.c.alloc l).1.mem b = w.c.mem b from Function.update_of_ne (by omega) _ _]
      exact hfr b (by omega) }

/-- The state after `set_spectrum_lin`. -/
structure AfterLin (w : World α) (i : ℕ) (o : PObj) (k p : ℕ) (w' : World α) : Prop where
  objs : w'.objs = w.objs.set i (some { o with lin := some (k, p) })
  vars : w'.vars = w.vars
  dicts : w'.dicts = w.dicts
  terms : w'.c.terms = w.c.terms
  lin : (∀ lk lp, w.c.mem k = some lk → w.c.mem p = some lp → lk.length = lp.length → w'.c.lin = ⟨lk.length, some k, some p⟩) ∧
    (w'.c.lin = w.c.lin ∨ ∃ n, w'.c.lin = ⟨n, some k, some p⟩)
  dt : w'.c.dt = w.c.dt
  tt : w'.c.tt = w.c.tt
  verb : w'.c.verb = w.c.verb
  quiet : w.c.verb ≠ .info → w'.c.out = w.c.out
  next : w'.c.next = w.c.next
  mem : w'.c.mem = w.c.mem

theorem setSpectrumLin_spec {w w' : World α} {i : ℕ} {o : PObj} {k p : ℕ} (h : w.setSpectrumLin i o k p = .ok w') :
    AfterLin w i o k p w' := by
  unfold setSpectrumLin at h
  dsimp only at h
  split at h
  · next lk lp e1 e2 =>
    split at h
    · next hl =>
      obtain ⟨c, hc, h⟩ := Res.bind_eq_ok.1 h
      cases h
      obtain ⟨h1, h2, h3, h4, h5, h6, h7⟩ := CState.setPkLin_fields hc
      have hout := (CState.printK_frame (n := 0) (W := fun _ => True) hc).quiet
      refine ⟨rfl, rfl, rfl, h2, ⟨fun lk' lp' e1' e2' hl' => ?_, Or.inr ⟨_, h1⟩⟩, h3, h4, h7, hout, h5, h6⟩
      rw [e1] at e1'
      cases e1'
      exact h1
    · next hl =>
      cases h
      refine ⟨rfl, rfl, rfl, rfl, ⟨fun lk' lp' e1' e2' hl' => ?_, Or.inl rfl⟩, rfl, rfl, rfl, fun _ => rfl, rfl, rfl⟩
      rw [e1] at e1'
      rw [e2] at e2'
      cases e1'
      cases e2'
      exact absurd hl' hl
  · next hne =>
    cases h
    refine ⟨rfl, rfl, rfl, rfl, ⟨fun lk' lp' e1' e2' hl' => ?_, Or.inl rfl⟩, rfl, rfl, rfl, fun _ => rfl, rfl, rfl⟩
    exact absurd e2' (hne _ _ e1')

/-- `set_pk_lin` is `set_spectrum_lin` after two allocations. -/
theorem setPkLin_spec {w w' : World α} {i : ℕ} {o : PObj} {lk lp : List α} (h : w.setPkLin i o lk lp = .ok w') :
    AfterLin { w with c := (w.c.allocs [lk, lp]).1 } i o w.c.next (w.c.next + 1) w' :=
  setSpectrumLin_spec h

theorem alloc2_mem (c : CState α) (lk lp : List α) : (c.allocs [lk, lp]).1.mem c.next = some lk ∧
    (c.allocs [lk, lp]).1.mem (c.next + 1) = some lp ∧ (c.allocs [lk, lp]).1.next = c.next + 2 ∧
    ∀ a < c.next, (c.allocs [lk, lp]).1.mem a = c.mem a :=
  ⟨CState.allocs_mem c [lk, lp] 0 (by simp), CState.allocs_mem c [lk, lp] 1 (by simp), rfl,
    fun a ha => (CState.allocs_frame (n := c.next) (W := fun _ => False) c [lk, lp] le_rfl).mem a ha fun h => h⟩

/-- A call of `run_terms_*` that only changes the C state. -/
theorem wframe_of_c {W : ℕ → Prop} {w : World α} {c : CState α} (h : MFrame w.c.next W w.c c) : WFrame W w { w with c := c } :=
  ⟨h, ⟨[], by simp, by simp⟩, ⟨[], by simp, by simp⟩, rfl⟩

theorem runB_wframe {N : Num α} {w w' : World α} {k d t : ℕ} (h : w.runB N k d t = .ok w') :
    WFrame (· ∈ (w.c.terms .b).cols) w w' ∧ w'.c.verb = w.c.verb ∧ (w.c.verb ≠ .info → w'.c.out = w.c.out) := by
  unfold runB at h
  split at h
  · next lk ld lt e1 e2 e3 =>
    split at h
    · obtain ⟨c, hc, h⟩ := Res.bind_eq_ok.1 h
      cases h
      have f1 := CState.setSpectraB_frame (n := w.c.next) (W := (· ∈ (w.c.terms .b).cols)) w.c "delta" "theta" lk.length (some k) (some d)
      have f2 := f1.trans (CState.setSpectraB_frame _ "theta" "theta" lk.length (some k) (some t))
      have f3 := CState.run_frame (n := w.c.next) f2.next hc
      rw [f2.terms .b (by decide)] at f3
      have f := f2.trans f3
      exact ⟨wframe_of_c f.m, f.verb, f.quiet⟩
    · cases h
      exact ⟨WFrame.refl _ _, rfl, fun _ => rfl⟩
  · cases h
    exact ⟨WFrame.refl _ _, rfl, fun _ => rfl⟩

/-- The effect of the construction and run of a `Spectrum1Loop` inside `B2Loop.run_terms`. -/
theorem runSub_wframe {N : Num α} (W : ℕ → Prop) {w w' : World α} {a : Field} {l : List α} {d : ℕ}
    (h : w.runSub N a l = .ok (w', d)) : WFrame W w w' ∧ w.c.next ≤ d ∧ d < w'.c.next := by
  unfold runSub at h
  dsimp only at h
  obtain ⟨w1, h1, h⟩ := Res.bind_eq_ok.1 h
  obtain ⟨c, h2, h⟩ := Res.bind_eq_ok.1 h
  obtain ⟨cs, h3, h⟩ := Res.bind_eq_ok.1 h
  cases h
  have hT := setTerms_spec h1
  have hn := newObj_wframe W .s1 w
  have hlen : (w.newObj .s1).dicts.length = w.dicts.length + 1 := by simp [newObj]
  have hnx : (w.newObj .s1).c.next = w.c.next := (CState.setVerbosity_fields w.c "info").2.2.2.2.1
  have hmx : (w.newObj .s1).c.mem = w.c.mem := (CState.setVerbosity_fields w.c "info").2.2.2.2.2.1
  have htx : (w.newObj .s1).c.terms = w.c.terms := (CState.setVerbosity_fields w.c "info").2.1
  have hwd : (⟨.s1, w.dicts.length, none⟩ : PObj).kind.widths.length = 5 := rfl
  have fT : MFrame w.c.next W (w.newObj .s1).c w1.c := by
    refine ⟨by rw [hT.next]; omega, hT.lin, fun b hb _ => ?_, fun b hb => ?_, hT.fresh, fun sl hs => ?_, Or.inr ?_, ?_⟩
    · exact hT.mem b (by rw [hnx]; exact hb)
    · rw [hT.mem b (by rw [hnx]; exact hb)]
    · rw [hT.terms]
      exact Function.update_of_ne hs _ _
    · intro b hb
      rw [hT.terms] at hb
      rw [show (⟨.s1, w.dicts.length, none⟩ : PObj).kind.slot = .s1 from rfl, Function.update_self, hnx] at hb
      have := (List.mem_range'_1.1 hb).1
      omega
    · intro hb sl b hbm
      rw [hT.next]
      rw [hT.terms] at hbm
      rw [show (⟨.s1, w.dicts.length, none⟩ : PObj).kind.slot = .s1 from rfl] at hbm
      by_cases e : sl = .s1
      · subst e
        rw [Function.update_self] at hbm
        have := (List.mem_range'_1.1 hbm).2
        dsimp only at this
        omega
      · rw [Function.update_of_ne e] at hbm
        have := hb sl b hbm
        omega
  have fR : MFrame w.c.next W w1.c c := by
    refine (CState.run_frame (n := w.c.next) (by rw [hT.next, hnx]; omega) h2).m.mono le_rfl ?_
    intro b hb hm
    rw [hT.terms, show (⟨.s1, w.dicts.length, none⟩ : PObj).kind.slot = .s1 from rfl, Function.update_self, hnx] at hm
    have := (List.mem_range'_1.1 hm).1
    omega
  have fR' : MFrame w1.c.next (fun _ => True) w1.c c :=
    (CState.run_frame (n := w1.c.next) le_rfl h2).m.mono le_rfl fun _ _ _ => trivial
  have fA : MFrame w.c.next W c (c.alloc (N.asm l cs)).1 := (CState.alloc_frame _ _ (by
    have := fR.next; have := hT.next; omega)).m
  have fA' : MFrame w1.c.next (fun _ => True) c (c.alloc (N.asm l cs)).1 := (CState.alloc_frame _ _ fR.next).m
  have hd : w.c.next ≤ (c.alloc (N.asm l cs)).2 := by
    have := fR.next; have := hT.next
    show _ ≤ c.next
    omega
  refine ⟨⟨((hn.m.trans fT).trans fR).trans fA, ?_, ?_, ?_⟩, hd, Nat.lt_succ_self _⟩
  · obtain ⟨m, e, hm⟩ := hn.objs
    refine ⟨m, hT.objs.trans e, fun o ho => ?_⟩
    have := hm o ho
    refine ⟨this.1, this.2.1, ?_⟩
    show o.dict < w1.dicts.length
    rw [hT.dicts, List.length_set]
    exact this.2.2
  · refine ⟨[w.c.next :: List.range' (w.c.next + 1) 5], ?_, ?_⟩
    · show w1.dicts = _
      rw [hT.dicts, hnx]
      simp only [newObj, hwd]
      rw [List.set_append_right _ _ le_rfl]
      simp
    · intro x hx b hb
      simp only [List.mem_singleton] at hx
      subst hx
      have hlt : b < w1.c.next := by
        rw [hT.next, hnx, hwd]
        rcases List.mem_cons.1 hb with e | hb
        · omega
        · have := (List.mem_range'_1.1 hb).2
          omega
      refine ⟨?_, ?_, ?_⟩
      · rcases List.mem_cons.1 hb with e | hb
        · omega
        · have := (List.mem_range'_1.1 hb).1
          omega
      · exact (hlt.trans_le fR.next).trans_le fA.next
      · show ((c.alloc (N.asm l cs)).1.mem b).isSome = true
        rw [(fR'.trans fA').alive hlt]
        rcases List.mem_cons.1 hb with e | hb
        · subst e
          rw [← hnx, hT.memk]
          rfl
        · obtain ⟨h1, h2⟩ := List.mem_range'_1.1 hb
          have := hT.memc (b - (w.c.next + 1)) (by rw [hwd]; omega)
          rw [hnx, show w.c.next + 1 + (b - (w.c.next + 1)) = b by omega] at this
          rw [this]
          rfl
  · exact hT.vars.trans hn.vars

/-- The effect of `run_terms`: below the old `next` it stores only into the columns of its structure. -/
theorem runTerms_wframe {N : Num α} {w w' : World α} {o : PObj} {a b : Field} (h : w.runTerms N o a b = .ok w') :
    WFrame (· ∈ (w.c.terms o.kind.slot).cols) w w' ∧ (o.kind ≠ .b2 → w'.c.verb = w.c.verb ∧ (w.c.verb ≠ .info → w'.c.out = w.c.out)) ∧
      (o.kind ≠ .b1 → o.kind ≠ .b2 → w'.c.terms = w.c.terms ∧ w'.c.dt = w.c.dt ∧ w'.c.tt = w.c.tt) := by
  have plain : ∀ κ : Kind, κ.slot ≠ .b → (do let c ← w.c.run N κ.slot a b; .ok { w with c := c } : Res (World α)) = .ok w' →
      WFrame (· ∈ (w.c.terms κ.slot).cols) w w' ∧ (κ ≠ .b2 → w'.c.verb = w.c.verb ∧ (w.c.verb ≠ .info → w'.c.out = w.c.out)) ∧
      (κ ≠ .b1 → κ ≠ .b2 → w'.c.terms = w.c.terms ∧ w'.c.dt = w.c.dt ∧ w'.c.tt = w.c.tt) := by
    intro κ hκ h
    obtain ⟨c, hc, h⟩ := Res.bind_eq_ok.1 h
    cases h
    have f := CState.run_frame (n := w.c.next) le_rfl hc
    obtain ⟨t1, t2, t3, -⟩ := CState.run_fields hκ hc
    exact ⟨wframe_of_c f.m, fun _ => ⟨f.verb, f.quiet⟩, fun _ _ => ⟨t1, t2, t3⟩⟩
  unfold runTerms at h
  split at h
  · next hk =>
    rw [hk]
    split at h
    · cases h
      exact ⟨WFrame.refl _ _, fun _ => ⟨rfl, fun _ => rfl⟩, fun h => absurd rfl h⟩
    · obtain ⟨f, v, q⟩ := runB_wframe h
      exact ⟨f, fun _ => ⟨v, q⟩, fun h => absurd rfl h⟩
  · next hk =>
    rw [hk]
    split at h
    · cases h
      exact ⟨WFrame.refl _ _, fun _ => ⟨rfl, fun _ => rfl⟩, fun _ h => absurd rfl h⟩
    · split at h
      · cases h
        exact ⟨WFrame.refl _ _, fun _ => ⟨rfl, fun _ => rfl⟩, fun _ h => absurd rfl h⟩
      · obtain ⟨⟨w1, d⟩, h1, h⟩ := Res.bind_eq_ok.1 h
        obtain ⟨⟨w2, e⟩, h2, h⟩ := Res.bind_eq_ok.1 h
        obtain ⟨f1, -, -⟩ := runSub_wframe (· ∈ (w.c.terms .b).cols) h1
        obtain ⟨f2, -, -⟩ := runSub_wframe (· ∈ (w.c.terms .b).cols) h2
        obtain ⟨f3, -, -⟩ := runB_wframe h
        have f12 := f1.trans f2
        rw [f12.m.terms .b (by decide)] at f3
        exact ⟨f12.trans f3, fun h => absurd rfl h, fun _ h => absurd rfl h⟩
  · next κ h1 h2 =>
    refine plain o.kind ?_ h
    generalize o.kind = κ at *
    cases κ <;> first | exact absurd rfl h1 | exact absurd rfl h2 | decide

theorem obj_set {w : World α} {i j : ℕ} {x : Option PObj} {o : PObj} (h : ({ w with objs := w.objs.set i x } : World α).obj j = some o) :
    (j = i ∧ x = some o) ∨ (j ≠ i ∧ w.obj j = some o) := by
  rw [obj_eq] at h
  dsimp only at h
  rw [List.getElem?_set] at h
  split at h
  · next e =>
    split at h
    · exact Or.inl ⟨e.symm, by simpa using h⟩
    · cases h
  · next e => exact Or.inr ⟨fun h => e h.symm, obj_eq.2 h⟩

theorem inv_lin {w w' : World α} {i : ℕ} {o : PObj} {k p : ℕ} (hi : Inv w) (ho : w.obj i = some o) (hk : (w.c.mem k).isSome = true)
    (hp : (w.c.mem p).isSome = true) (h : AfterLin w i o k p w') : Inv w' := by
  have hob : ∀ j x, w'.obj j = some x → (j = i ∧ x = { o with lin := some (k, p) }) ∨ (j ≠ i ∧ w.obj j = some x) := by
    intro j x hx
    have : ({ w with objs := w.objs.set i (some { o with lin := some (k, p) }) } : World α).obj j = some x := by
      rw [obj_eq] at hx ⊢
      dsimp only
      rw [← h.objs]
      exact hx
    rcases obj_set this with ⟨e, e'⟩ | e
    · exact Or.inl ⟨e, (Option.some.inj e').symm⟩
    · exact Or.inr e
  have hdict : ∀ d, w'.dict d = w.dict d := fun d => by unfold dict; rw [h.dicts]
  refine ⟨?_, ?_, ?_, ?_⟩
  · rw [h.next, h.mem]
    exact hi.fresh
  · intro a ha
    rw [h.mem]
    rw [reach_iff] at ha
    rcases ha with ha | ⟨j, x, hx, ha⟩
    · rw [h.vars] at ha
      exact hi.alive a (reach_iff.2 (Or.inl ha))
    · rw [hdict] at ha
      rcases hob j x hx with ⟨e, e'⟩ | ⟨-, e⟩
      · subst e'
        rcases ha with ha | ⟨k', p', hl, ha⟩
        · exact hi.alive a (reach_iff.2 (Or.inr ⟨i, o, ho, Or.inl ha⟩))
        · cases hl
          rcases ha with rfl | rfl
          · exact hk
          · exact hp
      · exact hi.alive a (reach_iff.2 (Or.inr ⟨j, x, e, ha⟩))
  · rw [h.terms, h.next]
    exact hi.cols
  · intro j x hx
    rw [h.dicts]
    rcases hob j x hx with ⟨e, e'⟩ | ⟨-, e⟩
    · subst e'
      exact hi.dicts i o ho
    · exact hi.dicts j x e

theorem mem_getD_set {l : List (List ℕ)} {d e : ℕ} {x : List ℕ} {a : ℕ} (h : a ∈ (l.set d x).getD e []) :
    a ∈ x ∨ a ∈ l.getD e [] := by
  rw [List.getD_eq_getElem?_getD, List.getElem?_set] at h
  split at h
  · split at h
    · exact Or.inl h
    · cases h
  · exact Or.inr (by rw [List.getD_eq_getElem?_getD]; exact h)

theorem inv_terms {N : Num α} {w w' : World α} {o : PObj} {l : List α} (hi : Inv w) (h : AfterTerms N w o l w') : Inv w' := by
  have hob : ∀ j, w'.obj j = w.obj j := fun j => by unfold obj; rw [h.objs]
  have hnew : ∀ a ∈ w.c.next :: List.range' (w.c.next + 1) o.kind.widths.length, (w'.c.mem a).isSome = true := by
    intro a ha
    rcases List.mem_cons.1 ha with e | ha
    · rw [e, h.memk]
      rfl
    · obtain ⟨h1, h2⟩ := List.mem_range'_1.1 ha
      have := h.memc (a - (w.c.next + 1)) (by omega)
      rw [show w.c.next + 1 + (a - (w.c.next + 1)) = a by omega] at this
      rw [this]
      rfl
  have hold : ∀ a, w.reach a = true → (w'.c.mem a).isSome = true := fun a ha => by
    rw [h.mem a (hi.lt ha)]
    exact hi.alive a ha
  refine ⟨h.fresh hi.fresh, ?_, ?_, ?_⟩
  · intro a ha
    rw [reach_iff] at ha
    rcases ha with ha | ⟨j, x, hx, ha⟩
    · rw [h.vars] at ha
      exact hold a (reach_iff.2 (Or.inl ha))
    · rw [hob] at hx
      rcases ha with ha | ha
      · unfold dict at ha
        rw [h.dicts] at ha
        rcases mem_getD_set ha with ha | ha
        · exact hnew a ha
        · exact hold a (reach_iff.2 (Or.inr ⟨j, x, hx, Or.inl ha⟩))
      · exact hold a (reach_iff.2 (Or.inr ⟨j, x, hx, Or.inr ha⟩))
  · intro sl a ha
    rw [h.terms] at ha
    rw [h.next]
    by_cases e : sl = o.kind.slot
    · rw [e, Function.update_self] at ha
      have := (List.mem_range'_1.1 ha).2
      omega
    · rw [Function.update_of_ne e] at ha
      have := hi.cols sl a ha
      omega
  · intro j x hx
    rw [hob] at hx
    rw [h.dicts, List.length_set]
    exact hi.dicts j x hx

theorem inv_alloc_var {w : World α} (hi : Inv w) (l : List α) : Inv { w with c := (w.c.alloc l).1, vars := (w.c.alloc l).2 :: w.vars } := by
  have hf := CState.alloc_frame (n := w.c.next) (W := fun _ => False) w.c l le_rfl
  refine ⟨hf.fresh hi.fresh, ?_, hf.bound hi.cols, hi.dicts⟩
  intro a ha
  rw [reach_iff] at ha
  have hold : ∀ b, w.reach b = true → (((w.c.alloc l).1.mem b)).isSome = true := fun b hb => by
    rw [hf.m.alive (hi.lt hb)]
    exact hi.alive b hb
  rcases ha with ha | ⟨j, x, hx, ha⟩
  · rcases List.mem_cons.1 ha with e | ha
    · rw [e]
      simp [CState.alloc]
    · exact hold a (reach_iff.2 (Or.inl ha))
  · exact hold a (reach_iff.2 (Or.inr ⟨j, x, hx, ha⟩))

theorem lt_of_range' {a n m : ℕ} (h : a ∈ List.range' n m) : n ≤ a ∧ a < n + m := List.mem_range'_1.1 h

/-- The invariant holds in every state that can be reached. -/
theorem inv_step {N : Num α} {w w' : World α} (hi : Inv w) {e : PyEvent α} (h : w.step N e = .ok w') : Inv w' := by
  cases e with
  | new κ =>
    cases h
    exact (newObj_wframe (fun _ => False) κ w).inv hi
  | setPkLin i kv pv =>
    simp only [step] at h
    split at h
    · next o lk lp ho h1 h2 =>
      have hs := setPkLin_spec h
      obtain ⟨m1, m2, -, -⟩ := alloc2_mem w.c lk lp
      refine inv_lin ((wframe_of_c (W := fun _ => False) (CState.allocs_frame w.c [lk, lp] le_rfl).m).inv hi) ?_ ?_ ?_ hs
      · exact ho
      · dsimp only
        rw [m1]
        rfl
      · dsimp only
        rw [m2]
        rfl
    · cases h
      exact hi
  | setSpectrumLin i kv pv =>
    simp only [step] at h
    split at h
    · next o ho =>
      split at h
      · next hr =>
        rw [Bool.and_eq_true] at hr
        exact inv_lin hi ho (hi.alive _ hr.1) (hi.alive _ hr.2) (setSpectrumLin_spec h)
      · cases h
        exact hi
    · cases h
      exact hi
  | setTerms i kv =>
    simp only [step] at h
    split at h
    · exact inv_terms hi (setTerms_spec h)
    · cases h
      exact hi
  | run i a b =>
    simp only [step] at h
    split at h
    · exact (runTerms_wframe h).1.inv hi
    · cases h
      exact hi
  | lookup kv =>
    simp only [step] at h
    split at h
    · obtain ⟨r, -, h⟩ := Res.bind_eq_ok.1 h
      cases h
      exact inv_alloc_var hi r
    · cases h
      exact hi
  | copy i =>
    simp only [step] at h
    split at h
    · next o ho =>
      cases h
      have hob : ∀ j x, (w.copy o).obj j = some x → ∃ j', w.obj j' = some x := by
        intro j x hx
        rw [obj_eq] at hx
        simp only [copy] at hx
        by_cases hlt : j < w.objs.length
        · rw [List.getElem?_append_left hlt] at hx
          exact ⟨j, obj_eq.2 hx⟩
        · rw [List.getElem?_append_right (by omega)] at hx
          have := List.mem_of_getElem? hx
          simp only [List.mem_singleton, Option.some.injEq] at this
          exact ⟨i, this ▸ ho⟩
      have hm := setVerbosity_mframe (n := w.c.next) (W := fun _ => False) w.c "info"
      refine ⟨hm.fresh hi.fresh, ?_, hm.bound hi.cols, ?_⟩
      · intro a ha
        have hr : w.reach a = true := by
          rw [reach_iff] at ha ⊢
          refine ha.imp id ?_
          rintro ⟨j, x, hx, ha⟩
          obtain ⟨j', hj'⟩ := hob j x hx
          exact ⟨j', x, hj', ha⟩
        show ((w.c.setVerbosity "info").mem a).isSome = true
        rw [hm.alive (hi.lt hr)]
        exact hi.alive a hr
      · intro j x hx
        obtain ⟨j', hj'⟩ := hob j x hx
        exact hi.dicts j' x hj'
    · cases h
      exact hi
  | deepcopy i =>
    simp only [step] at h
    split at h
    · next o ho =>
      cases h
      have hv := setVerbosity_mframe (n := w.c.next) (W := fun _ => False) w.c "info"
      have hvi : Inv { w with c := w.c.setVerbosity "info" } := (wframe_of_c hv).inv hi
      unfold deepcopy
      dsimp only
      split
      · exact hvi
      · next k p hl =>
        generalize w.c.setVerbosity "info" = c at *
        generalize (World.dict { w with c := c } o.dict).map (fun a => (c.mem a).getD []) = ls
        have f1 := CState.allocs_frame (n := c.next) (W := fun _ => False) c ls le_rfl
        obtain ⟨e1, e2⟩ := CState.allocs_addr c ls
        have m1 := CState.allocs_mem c ls
        generalize c.allocs ls = r at *
        generalize (c.mem k).getD [] = lk
        generalize (c.mem p).getD [] = lp
        have f2 := CState.allocs_frame (n := c.next) (W := fun _ => False) r.1 [lk, lp] f1.next
        have f2' := CState.allocs_frame (n := r.1.next) (W := fun _ => False) r.1 [lk, lp] le_rfl
        obtain ⟨a1, a2, a3, -⟩ := alloc2_mem r.1 lk lp
        have f := f1.trans f2
        refine ⟨f.fresh hvi.fresh, ?_, f.bound hvi.cols, ?_⟩
        · intro a ha
          have hold : ∀ b, ({ w with c := c } : World α).reach b = true → ((r.1.allocs [lk, lp]).1.mem b).isSome = true := by
            intro b hb
            rw [f.m.alive (hvi.lt hb)]
            exact hvi.alive b hb
          rw [reach_iff] at ha
          rcases ha with ha | ⟨j, x, hx, ha⟩
          · exact hold a (reach_iff.2 (Or.inl ha))
          · rw [obj_eq] at hx
            dsimp only at hx
            by_cases hlt : j < w.objs.length
            · rw [List.getElem?_append_left hlt] at hx
              have hd := hi.dicts j x (obj_eq.2 hx)
              refine hold a (reach_iff.2 (Or.inr ⟨j, x, obj_eq.2 hx, ha.imp (fun ha => ?_) id⟩))
              unfold dict at ha
              dsimp only at ha
              rwa [List.getD_append _ _ _ _ hd] at ha
            · rw [List.getElem?_append_right (by omega)] at hx
              have := List.mem_of_getElem? hx
              simp only [List.mem_singleton, Option.some.injEq] at this
              subst this
              rcases ha with ha | ⟨k', p', hl', ha⟩
              · unfold dict at ha
                dsimp only at ha
                rw [List.getD_append_right _ _ _ _ le_rfl] at ha
                simp only [Nat.sub_self, List.getD_cons_zero] at ha
                rw [e1] at ha
                obtain ⟨g1, g2⟩ := lt_of_range' ha
                show ((r.1.allocs [lk, lp]).1.mem a).isSome = true
                rw [f2'.m.alive (by omega)]
                have := m1 (a - c.next) (by omega)
                rw [show c.next + (a - c.next) = a by omega] at this
                rw [this]
                rfl
              · cases hl'
                show ((r.1.allocs [lk, lp]).1.mem a).isSome = true
                rcases ha with rfl | rfl
                · exact a1 ▸ rfl
                · exact a2 ▸ rfl
        · intro j x hx
          rw [obj_eq] at hx
          dsimp only at hx ⊢
          rw [List.length_append, List.length_singleton]
          by_cases hlt : j < w.objs.length
          · rw [List.getElem?_append_left hlt] at hx
            have := hi.dicts j x (obj_eq.2 hx)
            omega
          · rw [List.getElem?_append_right (by omega)] at hx
            have := List.mem_of_getElem? hx
            simp only [List.mem_singleton, Option.some.injEq] at this
            subst this
            exact Nat.lt_succ_self _
    · cases h
      exact hi
  | setVerbosity mode =>
    cases h
    exact (wframe_of_c (W := fun _ => False) (setVerbosity_mframe w.c mode)).inv hi
  | clear =>
    cases h
    exact (wframe_of_c (W := fun _ => False) (setVerbosity_mframe w.c "info")).inv hi
  | newArr l =>
    cases h
    exact inv_alloc_var hi l
  | write a l =>
    simp only [step] at h
    split at h
    · next l0 h0 =>
      split at h
      · cases h
        refine ⟨fun b hb => ?_, fun b hb => ?_, hi.cols, hi.dicts⟩
        · dsimp only at hb ⊢
          have := hi.lt_mem h0
          rw [Function.update_of_ne (by omega)]
          exact hi.fresh b hb
        · dsimp only
          by_cases e : b = a
          · rw [e, Function.update_self]
            rfl
          · rw [Function.update_of_ne e]
            exact hi.alive b hb
      · cases h
        exact hi
    · cases h
      exact hi
  | assign i j a =>
    simp only [step] at h
    split at h
    · next o ho =>
      split at h
      · next hr =>
        cases h
        refine ⟨hi.fresh, fun b hb => ?_, hi.cols, fun i x hx => ?_⟩
        · refine hi.alive b ?_
          rw [reach_iff] at hb
          rcases hb with hb | ⟨j', x, hx, hb | hb⟩
          · exact reach_iff.2 (Or.inl hb)
          · unfold dict at hb
            dsimp only at hb
            rcases mem_getD_set hb with hb | hb
            · rcases List.mem_or_eq_of_mem_set hb with hb | hb
              · exact reach_iff.2 (Or.inr ⟨i, o, ho, Or.inl hb⟩)
              · rw [hb]
                exact hr
            · exact reach_iff.2 (Or.inr ⟨j', x, hx, Or.inl hb⟩)
          · exact reach_iff.2 (Or.inr ⟨j', x, hx, Or.inr hb⟩)
        · dsimp only
          rw [List.length_set]
          exact hi.dicts i x hx
      · cases h
        exact hi
    · cases h
      exact hi
  | hold a =>
    simp only [step] at h
    split at h
    · next hr =>
      cases h
      refine ⟨hi.fresh, fun b hb => ?_, hi.cols, hi.dicts⟩
      refine hi.alive b ?_
      rw [reach_iff] at hb
      rcases hb with hb | hb
      · rcases List.mem_cons.1 hb with rfl | hb
        · exact hr
        · exact reach_iff.2 (Or.inl hb)
      · exact reach_iff.2 (Or.inr hb)
    · cases h
      exact hi
  | drop a =>
    cases h
    refine ⟨hi.fresh, fun b hb => hi.alive b ?_, hi.cols, hi.dicts⟩
    rw [reach_iff] at hb ⊢
    exact hb.imp (fun h => List.mem_of_mem_erase h) id
  | del i =>
    cases h
    refine ⟨hi.fresh, fun b hb => hi.alive b ?_, hi.cols, fun j x hx => ?_⟩
    · rw [reach_iff] at hb ⊢
      refine hb.imp id ?_
      rintro ⟨j, x, hx, hb⟩
      rcases obj_set hx with ⟨-, e⟩ | ⟨-, e⟩
      · cases e
      · exact ⟨j, x, e, hb⟩
    · rcases obj_set hx with ⟨-, e⟩ | ⟨-, e⟩
      · cases e
      · exact hi.dicts j x e
  | collect a =>
    simp only [step] at h
    split at h
    · cases h
      exact hi
    · next hr =>
      cases h
      refine ⟨fun b hb => ?_, fun b hb => ?_, hi.cols, hi.dicts⟩
      · dsimp only at hb ⊢
        by_cases e : b = a
        · rw [e, Function.update_self]
        · rw [Function.update_of_ne e]
          exact hi.fresh b hb
      · dsimp only
        have hne : b ≠ a := fun e => hr (by rw [← e]; exact hb)
        rw [Function.update_of_ne hne]
        exact hi.alive b hb

theorem inv_exec {N : Num α} {h : List (PyEvent α)} {w w' : World α} (hi : Inv w) (he : w.exec N h = .ok w') : Inv w' := by
  induction h generalizing w with
  | nil =>
    cases he
    exact hi
  | cons e h ih =>
    obtain ⟨w1, h1, h2⟩ := Res.bind_eq_ok.1 he
    exact ih (inv_step hi h1) h2

end World

end Verif
