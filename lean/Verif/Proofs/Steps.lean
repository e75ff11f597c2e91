import Verif.Proofs.World

/-!
# What one event can change
-/

namespace Verif

variable {α : Type}

namespace World

/-- The event replaces, modifies or releases the array at an address. -/
def Modifies (w : World α) : PyEvent α → ℕ → Prop
  | .write a _, x => x = a
  | .collect a, x => x = a ∧ w.reach a = false
  | .run i _ _, x => ∃ o, w.obj i = some o ∧ x ∈ (w.c.terms o.kind.slot).cols
  | _, _ => False

/-- The event gives a linear spectrum to an object. -/
def SetsLin : PyEvent α → Prop
  | .setPkLin _ _ _ => True
  | .setSpectrumLin _ _ _ => True
  | _ => False

/-- The event points a `terms_*` structure to other arrays. -/
def SetsTerms (w : World α) (sl : Slot) : PyEvent α → Prop
  | .setTerms i _ => ∃ o, w.obj i = some o ∧ o.kind.slot = sl
  | .run i _ _ => sl = .s1 ∧ ∃ o, w.obj i = some o ∧ (o.kind = .b1 ∨ o.kind = .b2)
  | _ => False

/-- The event replaces entries of a dictionary of columns. -/
def SetsDict (w : World α) (d : ℕ) : PyEvent α → Prop
  | .setTerms i _ => ∃ o, w.obj i = some o ∧ o.dict = d
  | .assign i _ _ => ∃ o, w.obj i = some o ∧ o.dict = d
  | _ => False

/-- The event changes the attributes of an object or deletes it. -/
def SetsObj (i : ℕ) : PyEvent α → Prop
  | .setPkLin j _ _ => j = i
  | .setSpectrumLin j _ _ => j = i
  | .del j => j = i
  | _ => False

/-- What an event leaves unchanged. -/
structure StepFrame (w : World α) (e : PyEvent α) (w' : World α) : Prop where
  next : w.c.next ≤ w'.c.next
  mem : ∀ a < w.c.next, ¬ Modifies w e a → w'.c.mem a = w.c.mem a
  shape : ∀ a < w.c.next, w.reach a = true → (w'.c.mem a).map List.length = (w.c.mem a).map List.length
  lin : ¬ SetsLin e → w'.c.lin = w.c.lin
  terms : ∀ sl, ¬ SetsTerms w sl e → w'.c.terms sl = w.c.terms sl
  cols : ∀ sl a, a ∈ (w'.c.terms sl).cols → a < w.c.next → a ∈ (w.c.terms sl).cols
  dlen : w.dicts.length ≤ w'.dicts.length
  dict : ∀ d < w.dicts.length, ¬ SetsDict w d e → w'.dict d = w.dict d
  obj : ∀ i o, w.obj i = some o → ¬ SetsObj i e → w'.obj i = some o

theorem StepFrame.refl (w : World α) (e : PyEvent α) : StepFrame w e w :=
  ⟨le_rfl, fun _ _ _ => rfl, fun _ _ _ => rfl, fun _ => rfl, fun _ _ => rfl, fun _ _ h _ => h, le_rfl, fun _ _ _ => rfl, fun _ _ h _ => h⟩

/-- From a frame. -/
theorem WFrame.step {W : ℕ → Prop} {w w' : World α} {e : PyEvent α} (h : WFrame W w w') (hW : ∀ a < w.c.next, W a → Modifies w e a)
    (ht : ¬ SetsTerms w .s1 e → w'.c.terms .s1 = w.c.terms .s1) : StepFrame w e w' where
  next := h.m.next
  mem a ha hn := h.m.mem a ha fun hw => hn (hW a ha hw)
  shape a ha _ := h.m.shape a ha
  lin _ := h.m.lin
  terms sl hs := by
    by_cases e : sl = .s1
    · subst e
      exact ht hs
    · exact h.m.terms sl e
  cols sl a ha hlt := by
    by_cases e : sl = .s1
    · subst e
      rcases h.m.terms1 with e | e
      · rwa [e] at ha
      · have := e a ha
        omega
    · rwa [h.m.terms sl e] at ha
  dlen := by
    obtain ⟨l, e, -⟩ := h.dicts
    rw [e, List.length_append]
    omega
  dict d hd _ := h.dict hd
  obj _ _ ho _ := h.obj ho

theorem AfterLin.step {w w' : World α} {i : ℕ} {o : PObj} {k p : ℕ} {e : PyEvent α} (h : AfterLin w i o k p w') (hl : SetsLin e)
    (ho : SetsObj i e) : StepFrame w e w' where
  next := h.next.ge
  mem a _ _ := by rw [h.mem]
  shape a _ _ := by rw [h.mem]
  lin hn := absurd hl hn
  terms sl _ := by rw [h.terms]
  cols sl a ha _ := by rwa [h.terms] at ha
  dlen := by rw [h.dicts]
  dict d _ _ := by unfold World.dict; rw [h.dicts]
  obj j x hx hj := by
    have : i ≠ j := by
      rintro rfl
      exact hj ho
    rw [obj_eq] at hx ⊢
    rw [h.objs, List.getElem?_set_ne this]
    exact hx

theorem stepFrame {N : Num α} {w w' : World α} {e : PyEvent α} (h : w.step N e = .ok w') : StepFrame w e w' := by
  cases e with
  | new κ =>
    cases h
    exact (newObj_wframe (fun _ => False) κ w).step (fun _ _ h => h) fun _ => by
      simp only [newObj]
      rw [(w.c.setVerbosity_fields "info").2.1]
  | setPkLin i kv pv =>
    simp only [step] at h
    split at h
    · next o lk lp ho h1 h2 =>
      obtain ⟨m1, m2, m3, m4⟩ := alloc2_mem w.c lk lp
      obtain ⟨t1, -, -, -⟩ := CState.allocs_terms w.c [lk, lp]
      have s := (setPkLin_spec h).step (e := .setPkLin i kv pv) trivial rfl
      have hle : w.c.next ≤ (w.c.allocs [lk, lp]).1.next := by omega
      exact {
        next := hle.trans s.next
        mem := fun a ha hn => (s.mem a (by dsimp only; omega) hn).trans (m4 a ha)
        shape := fun a ha hr => by
          rw [(s.mem a (by dsimp only; omega) fun h => h)]
          dsimp only
          rw [m4 a ha]
        lin := fun hn => absurd trivial hn
        terms := fun sl hs => (s.terms sl hs).trans (by dsimp only; rw [t1])
        cols := fun sl a ha hlt => by
          have := s.cols sl a ha (by dsimp only; omega)
          dsimp only at this
          rwa [t1] at this
        dlen := s.dlen
        dict := s.dict
        obj := s.obj }
    · cases h
      exact StepFrame.refl _ _
  | setSpectrumLin i kv pv =>
    simp only [step] at h
    split at h
    · split at h
      · exact (setSpectrumLin_spec h).step trivial rfl
      · cases h
        exact StepFrame.refl _ _
    · cases h
      exact StepFrame.refl _ _
  | setTerms i kv =>
    simp only [step] at h
    split at h
    · next o l ho hl =>
      have s := setTerms_spec h
      exact {
        next := by rw [s.next]; omega
        mem := fun a ha _ => s.mem a ha
        shape := fun a ha _ => by rw [s.mem a ha]
        lin := fun _ => s.lin
        terms := fun sl hs => by
          rw [s.terms, Function.update_of_ne]
          rintro rfl
          exact hs ⟨o, ho, rfl⟩
        cols := fun sl a ha hlt => by
          rw [s.terms] at ha
          by_cases e : sl = o.kind.slot
          · subst e
            rw [Function.update_self] at ha
            have := (lt_of_range' ha).1
            omega
          · rwa [Function.update_of_ne e] at ha
        dlen := by rw [s.dicts, List.length_set]
        dict := fun d _ hd => by
          unfold World.dict
          rw [s.dicts, List.getD_eq_getElem?_getD, List.getD_eq_getElem?_getD, List.getElem?_set_ne]
          rintro rfl
          exact hd ⟨o, ho, rfl⟩
        obj := fun j x hx _ => by
          unfold World.obj at hx ⊢
          rwa [s.objs] }
    · cases h
      exact StepFrame.refl _ _
  | run i a b =>
    simp only [step] at h
    split at h
    · next o ho =>
      obtain ⟨f, -, ft⟩ := runTerms_wframe h
      refine f.step (fun a _ ha => ⟨o, ho, ha⟩) fun hs => ?_
      have h1 : o.kind ≠ .b1 := fun e => hs ⟨rfl, o, ho, Or.inl e⟩
      have h2 : o.kind ≠ .b2 := fun e => hs ⟨rfl, o, ho, Or.inr e⟩
      rw [(ft h1 h2).1]
    · cases h
      exact StepFrame.refl _ _
  | lookup kv =>
    simp only [step] at h
    split at h
    · obtain ⟨r, -, h⟩ := Res.bind_eq_ok.1 h
      cases h
      have f := CState.alloc_frame (n := w.c.next) (W := fun _ => False) w.c r le_rfl
      exact ⟨f.next, fun a ha _ => f.mem a ha fun h => h, fun a ha _ => f.shape a ha, fun _ => rfl, fun _ _ => rfl, fun _ _ h _ => h, le_rfl,
        fun _ _ _ => rfl, fun _ _ h _ => h⟩
    · cases h
      exact StepFrame.refl _ _
  | copy i =>
    simp only [step] at h
    split at h
    · next o ho =>
      cases h
      obtain ⟨v1, v2, -, -, v5, v6, -⟩ := w.c.setVerbosity_fields "info"
      refine ⟨v5.ge, fun a _ _ => by simp only [copy, v6], fun a _ _ => by simp only [copy, v6], fun _ => v1, fun _ _ => by simp only [copy, v2],
        fun _ _ h _ => by simpa only [copy, v2] using h, le_rfl, fun _ _ _ => rfl, fun j x hx _ => ?_⟩
      rw [obj_eq] at hx ⊢
      simp only [copy]
      rw [List.getElem?_append_left (List.getElem?_eq_some_iff.1 hx).1]
      exact hx
    · cases h
      exact StepFrame.refl _ _
  | deepcopy i =>
    simp only [step] at h
    split at h
    · next o ho =>
      cases h
      obtain ⟨v1, v2, -, -, v5, v6, -⟩ := w.c.setVerbosity_fields "info"
      unfold deepcopy
      dsimp only
      split
      · exact ⟨v5.ge, fun a _ _ => by simp only [v6], fun a _ _ => by simp only [v6], fun _ => v1, fun _ _ => by simp only [v2],
          fun _ _ h _ => by simpa only [v2] using h, le_rfl, fun _ _ _ => rfl, fun j x hx _ => hx⟩
      · next k p hl =>
        generalize w.c.setVerbosity "info" = c at *
        generalize (World.dict { w with c := c } o.dict).map (fun a => (c.mem a).getD []) = ls
        have f1 := CState.allocs_frame (n := c.next) (W := fun _ => False) c ls le_rfl
        obtain ⟨t1, -, -, -⟩ := CState.allocs_terms c ls
        generalize c.allocs ls = r at *
        generalize (c.mem k).getD [] = lk
        generalize (c.mem p).getD [] = lp
        have f2 := CState.allocs_frame (n := c.next) (W := fun _ => False) r.1 [lk, lp] f1.next
        obtain ⟨t2, -, -, -⟩ := CState.allocs_terms r.1 [lk, lp]
        have f := f1.trans f2
        refine ⟨v5 ▸ f.next, fun a ha _ => ?_, fun a ha _ => ?_, fun _ => f.lin.trans v1, fun sl _ => ?_, fun sl a ha _ => ?_, ?_,
          fun d hd _ => ?_, fun j x hx _ => ?_⟩
        · rw [← v6]
          exact f.mem a (by omega) fun h => h
        · rw [← v6]
          exact f.shape a (by omega)
        · dsimp only
          rw [t2, t1, v2]
        · dsimp only at ha
          rwa [t2, t1, v2] at ha
        · simp
        · unfold World.dict
          dsimp only
          rw [List.getD_append _ _ _ _ hd]
        · rw [obj_eq] at hx ⊢
          dsimp only
          rw [List.getElem?_append_left (List.getElem?_eq_some_iff.1 hx).1]
          exact hx
    · cases h
      exact StepFrame.refl _ _
  | setVerbosity mode =>
    cases h
    obtain ⟨v1, v2, -, -, v5, v6, -⟩ := w.c.setVerbosity_fields mode
    exact ⟨v5.ge, fun a _ _ => by simp only [v6], fun a _ _ => by simp only [v6], fun _ => v1, fun _ _ => by simp only [v2],
      fun _ _ h _ => by simpa only [v2] using h, le_rfl, fun _ _ _ => rfl, fun j x hx _ => hx⟩
  | clear =>
    cases h
    obtain ⟨v1, v2, -, -, v5, v6, -⟩ := w.c.setVerbosity_fields "info"
    exact ⟨v5.ge, fun a _ _ => by simp only [v6], fun a _ _ => by simp only [v6], fun _ => v1, fun _ _ => by simp only [v2],
      fun _ _ h _ => by simpa only [v2] using h, le_rfl, fun _ _ _ => rfl, fun j x hx _ => hx⟩
  | newArr l =>
    cases h
    have f := CState.alloc_frame (n := w.c.next) (W := fun _ => False) w.c l le_rfl
    exact ⟨f.next, fun a ha _ => f.mem a ha fun h => h, fun a ha _ => f.shape a ha, fun _ => rfl, fun _ _ => rfl, fun _ _ h _ => h, le_rfl,
      fun _ _ _ => rfl, fun _ _ h _ => h⟩
  | write a l =>
    simp only [step] at h
    split at h
    · next l0 h0 =>
      split at h
      · next hc =>
        cases h
        rw [Bool.and_eq_true, beq_iff_eq] at hc
        refine ⟨le_rfl, fun b _ hb => Function.update_of_ne hb _ _, fun b _ _ => ?_, fun _ => rfl, fun _ _ => rfl, fun _ _ h _ => h, le_rfl,
          fun _ _ _ => rfl, fun _ _ h _ => h⟩
        dsimp only
        by_cases e : b = a
        · rw [e, Function.update_self, h0, Option.map_some, Option.map_some, hc.2]
        · rw [Function.update_of_ne e]
      · cases h
        exact StepFrame.refl _ _
    · cases h
      exact StepFrame.refl _ _
  | assign i j a =>
    simp only [step] at h
    split at h
    · next o ho =>
      split at h
      · cases h
        refine ⟨le_rfl, fun _ _ _ => rfl, fun _ _ _ => rfl, fun _ => rfl, fun _ _ => rfl, fun _ _ h _ => h, by simp, fun d _ hd => ?_,
          fun _ _ h _ => h⟩
        unfold World.dict
        dsimp only
        rw [List.getD_eq_getElem?_getD, List.getElem?_set_ne, ← List.getD_eq_getElem?_getD]
        rintro rfl
        exact hd ⟨o, ho, rfl⟩
      · cases h
        exact StepFrame.refl _ _
    · cases h
      exact StepFrame.refl _ _
  | hold a =>
    simp only [step] at h
    split at h
    · cases h
      exact ⟨le_rfl, fun _ _ _ => rfl, fun _ _ _ => rfl, fun _ => rfl, fun _ _ => rfl, fun _ _ h _ => h, le_rfl, fun _ _ _ => rfl, fun _ _ h _ => h⟩
    · cases h
      exact StepFrame.refl _ _
  | drop a =>
    cases h
    exact ⟨le_rfl, fun _ _ _ => rfl, fun _ _ _ => rfl, fun _ => rfl, fun _ _ => rfl, fun _ _ h _ => h, le_rfl, fun _ _ _ => rfl, fun _ _ h _ => h⟩
  | del i =>
    cases h
    refine ⟨le_rfl, fun _ _ _ => rfl, fun _ _ _ => rfl, fun _ => rfl, fun _ _ => rfl, fun _ _ h _ => h, le_rfl, fun _ _ _ => rfl, fun j x hx hj => ?_⟩
    have : i ≠ j := hj
    rw [obj_eq] at hx ⊢
    dsimp only
    rw [List.getElem?_set_ne this]
    exact hx
  | collect a =>
    simp only [step] at h
    split at h
    · cases h
      exact StepFrame.refl _ _
    · next hr =>
      cases h
      refine ⟨le_rfl, fun b _ hb => ?_, fun b _ hb => ?_, fun _ => rfl, fun _ _ => rfl, fun _ _ h _ => h, le_rfl, fun _ _ _ => rfl,
        fun _ _ h _ => h⟩
      · exact Function.update_of_ne (fun e => hb ⟨e, by simpa using hr⟩) _ _
      · dsimp only
        rw [Function.update_of_ne]
        rintro rfl
        exact hr hb

end World

end Verif
