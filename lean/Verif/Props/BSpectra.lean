import Verif.Props.Shared

/-!
# C42: the spectra of the B terms are never read after they were freed
-/

namespace Verif

open World

variable {α : Type}

/-- The undefined behaviour named by `bSpectrum`: reading a spectrum of the B terms through a missing or dangling pointer. -/
def Res.ReadsFreedB {β : Type} (r : Res β) : Prop := r = .ub "B spectrum"

theorem noB_bind {β γ : Type} {r : Res β} {f : β → Res γ} (h : ¬ r.ReadsFreedB) (hf : ∀ x, r = .ok x → ¬ (f x).ReadsFreedB) :
    ¬ (r >>= f).ReadsFreedB := by
  cases r with
  | ok x => exact hf x rfl
  | ub s =>
    intro e
    exact h (by cases e; rfl)

theorem noB_ok {β : Type} (x : β) : ¬ (Res.ok x).ReadsFreedB := fun h => by cases h

theorem noB_of_ne {β : Type} {s : String} (h : s ≠ "B spectrum") : ¬ (Res.ub s : Res β).ReadsFreedB := fun e => by
  cases e
  exact h rfl

theorem noB_raw (s : CState α) (p : Option ℕ) : ¬ (s.raw p).ReadsFreedB := by
  unfold CState.raw
  split
  · exact noB_of_ne (by decide)
  · split
    · exact noB_of_ne (by decide)
    · exact noB_ok _

theorem noB_arr (s : CState α) (p : Option ℕ) (n : ℕ) : ¬ (s.arr p n).ReadsFreedB := by
  unfold CState.arr
  split
  · exact noB_ok _
  · refine noB_bind (noB_raw s p) fun l _ => ?_
    split
    · exact noB_ok _
    · exact noB_of_ne (by decide)

theorem noB_pkv (s : CState α) (p : CPk) : ¬ (s.pkv p).ReadsFreedB :=
  noB_bind (noB_arr _ _ _) fun _ _ => noB_bind (noB_arr _ _ _) fun _ _ => noB_ok _

theorem noB_rd (l : List α) (i : ℕ) : ¬ (rd l i).ReadsFreedB := by
  unfold rd
  split
  · exact noB_ok _
  · exact noB_of_ne (by decide)

theorem noB_printK (s : CState α) (p : Option ℕ) (n : ℕ) : ¬ (s.printK p n).ReadsFreedB := by
  unfold CState.printK
  split
  · exact noB_bind (noB_raw s p) fun _ _ => noB_bind (noB_rd _ _) fun _ _ => noB_bind (noB_rd _ _) fun _ _ => noB_ok _
  · exact noB_ok _

theorem noB_store (s : CState α) (a : ℕ) (l : List α) : ¬ (s.store a l).ReadsFreedB := by
  unfold CState.store
  split
  · exact noB_of_ne (by decide)
  · split
    · exact noB_ok _
    · exact noB_of_ne (by decide)

theorem noB_storeAll (as : List ℕ) (ls : List (List α)) (s : CState α) : ¬ (s.storeAll as ls).ReadsFreedB := by
  induction as generalizing s ls with
  | nil =>
    cases ls with
    | nil => exact noB_ok _
    | cons l ls => exact noB_of_ne (by decide)
  | cons a as ih =>
    cases ls with
    | nil => exact noB_of_ne (by decide)
    | cons l ls => exact noB_bind (noB_store s a l) fun s' _ => ih ls s'

theorem noB_free (s : CState α) (a : ℕ) : ¬ (s.free a).ReadsFreedB := by
  unfold CState.free
  split
  · exact noB_of_ne (by decide)
  · exact noB_ok _

theorem noB_frees (as : List ℕ) (s : CState α) : ¬ (s.frees as).ReadsFreedB := by
  induction as generalizing s with
  | nil => exact noB_ok _
  | cons a as ih => exact noB_bind (noB_free s a) fun s' _ => ih s'

theorem noB_mapM {β γ : Type} {f : β → Res γ} (h : ∀ b, ¬ (f b).ReadsFreedB) (l : List β) : ¬ (l.mapM f).ReadsFreedB := by
  induction l with
  | nil => exact noB_ok _
  | cons b l ih =>
    rw [List.mapM_cons]
    exact noB_bind (h b) fun _ _ => noB_bind ih fun _ _ => noB_ok _

/-- The run itself names other undefined behaviour only. -/
def Num.NoB (N : Num α) : Prop :=
  (∀ sl a b t d e ks, ¬ (N.run sl a b t d e ks).ReadsFreedB) ∧ ∀ t ks, ¬ (N.look t ks).ReadsFreedB

theorem noB_runCore {N : Num α} (hN : N.NoB) {sl : Slot} {a b : Field} {s : CState α}
    (h : sl = .b → ∀ lin, s.pkv s.lin = .ok lin → (s.pkv s.dt).defined ∧ (s.pkv s.tt).defined) : ¬ (s.runCore N sl a b).ReadsFreedB := by
  refine noB_bind (noB_arr _ _ _) fun ks _ => noB_bind (noB_pkv _ _) fun lin hlin => ?_
  have hb : ∀ p, (sl = .b → (s.pkv p).defined) → ¬ (s.bSpectrum sl p).ReadsFreedB := by
    intro p hp
    unfold CState.bSpectrum
    split
    · next e =>
      obtain ⟨x, hx⟩ := hp e
      rw [hx]
      exact noB_ok _
    · exact noB_ok _
  exact noB_bind (hb _ fun e => (h e lin hlin).1) fun _ _ => noB_bind (hb _ fun e => (h e lin hlin).2) fun _ _ =>
    noB_bind (hN.1 _ _ _ _ _ _ _) fun _ _ => noB_storeAll _ _ _

theorem noB_runSpectrum1 {N : Num α} (hN : N.NoB) (a b : Field) (p : CPk) (s : CState α) : ¬ (s.runSpectrum1 N a b p).ReadsFreedB := by
  refine noB_bind (noB_printK _ _ _) fun _ _ => noB_bind (noB_runCore hN fun e => by cases e) fun _ _ => noB_bind (noB_arr _ _ _) fun _ _ =>
    noB_bind (noB_mapM (fun _ => noB_arr _ _ _) _) fun _ _ => noB_bind ?_ fun _ _ => noB_frees _ _
  unfold CState.storeAt
  split
  · exact noB_of_ne (by decide)
  · exact noB_store _ _ _

theorem pkv_of_arr {s : CState α} {n : ℕ} {k : Option ℕ} {d : ℕ} {lk l : List α} (hk : s.arr k n = .ok lk)
    (hd : s.mem d = some l) (hl : l.length = n) : (s.pkv ⟨n, k, some d⟩).defined := by
  refine ⟨⟨n, lk, l⟩, ?_⟩
  unfold CState.pkv
  dsimp only
  rw [hk, Res.ok_bind, ← hl, CState.arr_some hd, Res.ok_bind]

theorem pkv_arr {s : CState α} {p : CPk} {t : Pk α} (h : s.pkv p = .ok t) : ∃ lk, s.arr p.k p.nk = .ok lk := by
  obtain ⟨lk, h1, -⟩ := Res.bind_eq_ok.1 h
  exact ⟨lk, h1⟩

/-- C42: `run_terms_B` reads no freed spectrum when the spectra present are alive, or when one is missing (so that both are computed
by the run itself). -/
theorem C42_run_terms_B_partial {N : Num α} (hN : N.NoB) {s : CState α}
    (h : s.dt.nk = 0 ∨ s.tt.nk = 0 ∨ ((s.pkv s.dt).defined ∧ (s.pkv s.tt).defined)) : ¬ (s.runB N).ReadsFreedB := by
  unfold CState.runB
  dsimp only
  have hd : (s.say "*** Calculation of B term").pkv s.dt = s.pkv s.dt := by
    unfold CState.pkv CState.arr CState.raw
    rw [CState.say_mem]
  have ht : (s.say "*** Calculation of B term").pkv s.tt = s.pkv s.tt := by
    unfold CState.pkv CState.arr CState.raw
    rw [CState.say_mem]
  rw [← hd, ← ht, ← CState.say_dt s "*** Calculation of B term", ← CState.say_tt s "*** Calculation of B term"] at h
  generalize s.say "*** Calculation of B term" = s at *
  split
  · refine noB_bind (noB_runSpectrum1 hN _ _ _ _) fun u1 h1 => noB_bind (noB_runSpectrum1 hN _ _ _ _) fun u2 h2 => noB_bind ?_ fun _ _ =>
      noB_bind (noB_free _ _) fun _ _ => noB_free _ _
    obtain ⟨f1, d1, t1⟩ := CState.runSpectrum1_frame (n := s.next) (W := fun _ => False) (Nat.le_succ _) (fun d e => by cases e; exact le_rfl) h1
    have hm1 : (u1.mem s.next).map List.length = some s.lin.nk := by
      have := (CState.runSpectrum1_frame_gen (W := fun _ => True) le_rfl (fun _ _ _ => trivial) h1).1.shape s.next (Nat.lt_succ_self _)
      rw [this]
      simp [CState.alloc]
    have hl1 : u1.lin = s.lin := f1.lin
    have hn1 : s.next < u1.next := lt_of_lt_of_le (Nat.lt_succ_self _) f1.next
    obtain ⟨f2, d2, t2⟩ := CState.runSpectrum1_frame (n := u1.next) (W := fun _ => False) (Nat.le_succ _) (fun d e => by cases e; exact le_rfl) h2
    have hl2 : u2.lin = s.lin := f2.lin.trans hl1
    have hm2 : (u2.mem u1.next).map List.length = some s.lin.nk := by
      have := (CState.runSpectrum1_frame_gen (W := fun _ => True) le_rfl (fun _ _ _ => trivial) h2).1.shape u1.next (Nat.lt_succ_self _)
      rw [this]
      simp [CState.alloc, hl1]
    have hm3 : (u2.mem s.next).map List.length = some s.lin.nk := by
      rw [f2.shape s.next hn1, ← hm1]
      exact congrArg (Option.map List.length) (Function.update_of_ne hn1.ne _ _)
    have hdt : u2.dt = ⟨s.lin.nk, s.lin.k, some s.next⟩ := by
      rw [d2]
      exact d1
    have htt : u2.tt = ⟨s.lin.nk, s.lin.k, some u1.next⟩ := by
      rw [t2]
      show (⟨u1.lin.nk, u1.lin.k, some u1.next⟩ : CPk) = _
      rw [hl1]
    refine noB_runCore hN fun _ lin hlin => ?_
    obtain ⟨lk, hlk⟩ := pkv_arr hlin
    rw [hl2] at hlk
    obtain ⟨l1, e1, e2⟩ := Option.map_eq_some_iff.1 hm3
    obtain ⟨l2, e3, e4⟩ := Option.map_eq_some_iff.1 hm2
    rw [hdt, htt]
    exact ⟨pkv_of_arr hlk e1 e2, pkv_of_arr hlk e3 e4⟩
  · next hne =>
    rw [not_or] at hne
    have h := (h.resolve_left hne.1).resolve_left hne.2
    exact noB_runCore hN fun _ _ _ => h

theorem say_pkv (s : CState α) (m : String) (p : CPk) : (s.say m).pkv p = s.pkv p := by
  unfold CState.pkv CState.arr CState.raw
  rw [CState.say_mem]

theorem noB_setTerms (N : Num α) (w : World α) (o : PObj) (l : List α) : ¬ (w.setTerms N o l).ReadsFreedB :=
  noB_bind (noB_printK _ _ _) fun _ _ => noB_ok _

theorem noB_setSpectrumLin (w : World α) (i : ℕ) (o : PObj) (k p : ℕ) : ¬ (w.setSpectrumLin i o k p).ReadsFreedB := by
  unfold World.setSpectrumLin
  dsimp only
  split
  · split
    · exact noB_bind (noB_printK _ _ _) fun _ _ => noB_ok _
    · exact noB_ok _
  · exact noB_ok _

theorem noB_runPlain {N : Num α} (hN : N.NoB) {sl : Slot} (hs : sl ≠ .b) (a b : Field) (c : CState α) : ¬ (c.run N sl a b).ReadsFreedB := by
  unfold CState.run
  rw [if_neg hs]
  exact noB_runCore hN fun e => absurd e hs

theorem noB_runB {N : Num α} (hN : N.NoB) (w : World α) (k d t : ℕ) : ¬ (w.runB N k d t).ReadsFreedB := by
  unfold World.runB
  split
  · next lk ld lt e1 e2 e3 =>
    split
    · next hl =>
      refine noB_bind ?_ fun _ _ => noB_ok _
      unfold CState.run
      rw [if_pos rfl]
      have e1' : ∀ c : CState α, c.setSpectraB "delta" "theta" lk.length (some k) (some d) =
          { c.say " - setting P_delta_theta" with dt := ⟨lk.length, some k, some d⟩ } := fun c => CState.setSpectraB_eq ..
      have e2' : ∀ c : CState α, c.setSpectraB "theta" "theta" lk.length (some k) (some t) =
          { c.say " - setting P_theta_theta" with tt := ⟨lk.length, some k, some t⟩ } := fun c => CState.setSpectraB_eq ..
      rw [e1', e2']
      refine C42_run_terms_B_partial hN (Or.inr (Or.inr ?_))
      dsimp only
      rw [CState.say_dt]
      dsimp only
      have hmem : ∀ x l, w.c.mem x = some l → ({ CState.say { w.c.say " - setting P_delta_theta" with dt := ⟨lk.length, some k, some d⟩ }
          " - setting P_theta_theta" with tt := ⟨lk.length, some k, some t⟩ } : CState α).mem x = some l := by
        intro x l hx
        dsimp only
        rw [CState.say_mem]
        dsimp only
        rw [CState.say_mem]
        exact hx
      exact ⟨⟨_, CState.pkv_some (hmem k lk e1) (hmem d ld e2) hl.1⟩, ⟨_, CState.pkv_some (hmem k lk e1) (hmem t lt e3) hl.2⟩⟩
    · exact noB_ok _
  · exact noB_ok _

theorem noB_runSub {N : Num α} (hN : N.NoB) (w : World α) (a : Field) (lk : List α) : ¬ (w.runSub N a lk).ReadsFreedB :=
  noB_bind (noB_setTerms _ _ _ _) fun _ _ => noB_bind (noB_runPlain hN (by decide) _ _ _) fun _ _ =>
    noB_bind (noB_mapM (fun _ => noB_raw _ _) _) fun _ _ => noB_ok _

theorem noB_step {N : Num α} (hN : N.NoB) (w : World α) (e : PyEvent α) : ¬ (w.step N e).ReadsFreedB := by
  cases e with
  | setPkLin i kv pv =>
    simp only [step]
    split
    · exact noB_setSpectrumLin _ _ _ _ _
    · exact noB_ok _
  | setSpectrumLin i kv pv =>
    simp only [step]
    split
    · split
      · exact noB_setSpectrumLin _ _ _ _ _
      · exact noB_ok _
    · exact noB_ok _
  | setTerms i kv =>
    simp only [step]
    split
    · exact noB_setTerms _ _ _ _
    · exact noB_ok _
  | run i a b =>
    simp only [step]
    split
    · next o ho =>
      unfold runTerms
      split
      · split
        · exact noB_ok _
        · exact noB_runB hN _ _ _ _
      · split
        · exact noB_ok _
        · split
          · exact noB_ok _
          · exact noB_bind (noB_runSub hN _ _ _) fun _ _ => noB_bind (noB_runSub hN _ _ _) fun _ _ => noB_runB hN _ _ _ _
      · next h1 h2 =>
        refine noB_bind (noB_runPlain hN ?_ _ _ _) fun _ _ => noB_ok _
        intro hs
        generalize o.kind = κ at *
        cases κ <;> simp_all [Kind.slot]
    · exact noB_ok _
  | lookup kv =>
    simp only [step]
    split
    · exact noB_bind (noB_bind (noB_pkv _ _) fun _ _ => hN.2 _ _) fun _ _ => noB_ok _
    · exact noB_ok _
  | write a l =>
    simp only [step]
    split
    · split <;> exact noB_ok _
    · exact noB_ok _
  | assign i j a =>
    simp only [step]
    split
    · split <;> exact noB_ok _
    · exact noB_ok _
  | copy i => simp only [step]; split <;> exact noB_ok _
  | deepcopy i => simp only [step]; split <;> exact noB_ok _
  | hold a => simp only [step]; split <;> exact noB_ok _
  | collect a => simp only [step]; split <;> exact noB_ok _
  | new κ => exact noB_ok _
  | setVerbosity m => exact noB_ok _
  | clear => exact noB_ok _
  | newArr l => exact noB_ok _
  | drop a => exact noB_ok _
  | del i => exact noB_ok _

/-- C42: no Python program reads a freed spectrum of the B terms. -/
theorem C42_python {N : Num α} (hN : N.NoB) (w : World α) (h : List (PyEvent α)) : ¬ (w.exec N h).ReadsFreedB := by
  induction h generalizing w with
  | nil => exact noB_ok _
  | cons e h ih => exact noB_bind (noB_step hN w e) fun w' _ => ih w'

/-- The same numerical content with another name for its undefined behaviour. -/
def Num.named (N : Num α) : Num α where
  zero := N.zero
  run sl a b t d e ks := (N.run sl a b t d e ks).tag "run"
  asm := N.asm
  look t ks := (N.look t ks).tag "lookup"

theorem tag_noB {β : Type} (r : Res β) {s : String} (h : s ≠ "B spectrum") : ¬ (r.tag s).ReadsFreedB := by
  cases r with
  | ok b => exact noB_ok b
  | ub w => exact noB_of_ne h

theorem tag_ok {β : Type} {r : Res β} {s : String} {b : β} : r.tag s = .ok b ↔ r = .ok b := by
  cases r with
  | ok c => exact Iff.rfl
  | ub w => exact ⟨(fun h => by cases h), (fun h => by cases h)⟩

theorem named_noB (N : Num α) : N.named.NoB := ⟨fun _ _ _ _ _ _ _ => tag_noB _ (by decide), fun _ _ => tag_noB _ (by decide)⟩

/-- Two B runs of one object with a deletion of its modes in between, with the numerical content of `Verif.Model.Driver`. -/
noncomputable example (rt : ℕ → ℕ → ℝ × ℝ) : ¬ ((World.start ℝ).exec (exNum rt).named [.newArr exTable.k, .newArr exTable.pk, .new .b1, .setPkLin 0 0 1,
    .setTerms 0 0, .run 0 .delta .delta, .run 0 .delta .delta]).ReadsFreedB :=
  C42_python (named_noB _) _ _

/-! ## Calling the library directly -/

namespace CState

theorem arr_defined_shape {s s' : CState α} {p : Option ℕ} {n : ℕ} {l : List α}
    (h : ∀ a, p = some a → (s'.mem a).map List.length = (s.mem a).map List.length) (hd : s.arr p n = .ok l) : ∃ l', s'.arr p n = .ok l' := by
  unfold arr at hd ⊢
  split
  · exact ⟨_, rfl⟩
  · next hn =>
    rw [if_neg hn] at hd
    obtain ⟨x, hx, hd2⟩ := Res.bind_eq_ok.1 hd
    cases p with
    | none => cases hx
    | some a =>
      have := h a rfl
      unfold raw at hx ⊢
      dsimp only at hx ⊢
      split at hx
      · cases hx
      · next y hy =>
        cases hx
        rw [hy] at this
        obtain ⟨z, hz, hzl⟩ := Option.map_eq_some_iff.1 this
        split at hd2
        · next hle =>
          rw [hz]
          dsimp only
          rw [Res.ok_bind, if_pos (by omega)]
          exact ⟨_, rfl⟩
        · cases hd2

theorem free_mem {s s' : CState α} {a : ℕ} (h : s.free a = .ok s') : s'.mem = Function.update s.mem a none ∧ s'.lin = s.lin := by
  unfold free at h
  split at h
  · cases h
  · cases h
    exact ⟨rfl, rfl⟩

end CState

/-- C42 fails for direct calls: after a run that had to compute the spectra itself, the next run of the same state reads them although
the first run has freed them. -/
theorem C42_second_run_violation {N : Num α} {s s1 : CState α} (h0 : s.dt.nk = 0 ∨ s.tt.nk = 0) (hn : s.lin.nk ≠ 0)
    (hlt : ∀ a, s.lin.k = some a ∨ s.lin.pk = some a ∨ (s.terms .b).k = some a → a < s.next) (h : s.runB N = .ok s1) :
    (s1.runB N).ReadsFreedB := by
  have fB := CState.runB_frame le_rfl h
  unfold CState.runB at h
  dsimp only at h
  rw [if_pos (by rw [CState.say_dt, CState.say_tt]; exact h0)] at h
  have fs := CState.say_frame (n := s.next) (W := fun _ => True) s "*** Calculation of B term"
  have hnx : (s.say "*** Calculation of B term").next = s.next := CState.say_next _ _
  have hsl : (s.say "*** Calculation of B term").lin = s.lin := CState.say_lin _ _
  generalize s.say "*** Calculation of B term" = v at *
  obtain ⟨u1, h1, h⟩ := Res.bind_eq_ok.1 h
  obtain ⟨u2, h2, h⟩ := Res.bind_eq_ok.1 h
  obtain ⟨u3, h3, h⟩ := Res.bind_eq_ok.1 h
  obtain ⟨u4, h4, h⟩ := Res.bind_eq_ok.1 h
  have h4' : u3.free v.next = .ok u4 := h4
  have h' : u4.free u1.next = .ok s1 := h
  obtain ⟨f1, d1, t1⟩ := CState.runSpectrum1_frame_gen (n := s.next) (W := fun _ => True) (by show s.next ≤ v.next + 1; omega) (fun _ _ _ => trivial) h1
  have hl1 : u1.lin = v.lin := f1.lin
  have hn1 : v.next < u1.next := lt_of_lt_of_le (Nat.lt_succ_self _) f1.next
  obtain ⟨f2, d2, t2⟩ := CState.runSpectrum1_frame_gen (n := s.next) (W := fun _ => True) (by show s.next ≤ u1.next + 1; omega) (fun _ _ _ => trivial) h2
  have hdt2 : u2.dt = ⟨v.lin.nk, v.lin.k, some v.next⟩ := by
    rw [d2]
    exact d1
  have htt2 : u2.tt = ⟨v.lin.nk, v.lin.k, some u1.next⟩ := by
    rw [t2]
    show (⟨u1.lin.nk, u1.lin.k, some u1.next⟩ : CPk) = _
    rw [hl1]
  obtain ⟨ks, lin, dt, tt, r, g1, g2, -, -, -, g6⟩ := CState.runCore_ok h3
  obtain ⟨-, c2, c3, -, -⟩ := CState.storeAll_fields g6
  obtain ⟨-, a2, a3, -⟩ := CState.free_fields h4'
  obtain ⟨-, b2, b3, -⟩ := CState.free_fields h'
  have hdt : s1.dt = ⟨s.lin.nk, s.lin.k, some v.next⟩ := by rw [b2, a2, c2, hdt2, hsl]
  have htt : s1.tt = ⟨s.lin.nk, s.lin.k, some u1.next⟩ := by rw [b3, a3, c3, htt2, hsl]
  have hfree : s1.mem v.next = none := by
    rw [(CState.free_mem h').1, Function.update_of_ne hn1.ne, (CState.free_mem h4').1, Function.update_self]
  -- lengths of the arrays that were there before
  have sh : ∀ a < s.next, (s1.mem a).map List.length = (u2.mem a).map List.length := by
    intro a ha
    rw [fB.shape a ha, f2.shape a ha]
    have e1 : ((u1.alloc (List.replicate u1.lin.nk N.zero)).1.mem a).map List.length = (u1.mem a).map List.length :=
      congrArg (Option.map List.length) (Function.update_of_ne (by omega) _ _)
    have e2 : ((v.alloc (List.replicate v.lin.nk N.zero)).1.mem a).map List.length = (v.mem a).map List.length :=
      congrArg (Option.map List.length) (Function.update_of_ne (by omega) _ _)
    exact (fs.shape a ha).symm.trans (e2.symm.trans ((f1.shape a ha).symm.trans e1.symm))
  have hlin2 : u2.lin = s.lin := (f2.lin.trans hl1).trans hsl
  have hterms2 : u2.terms .b = s.terms .b := (f2.terms .b (by decide)).trans ((f1.terms .b (by decide)).trans (fs.terms .b (by decide)))
  rw [hterms2] at g1
  rw [hlin2] at g2
  obtain ⟨ks', hks'⟩ := CState.arr_defined_shape (s' := s1) (fun a ha => sh a (hlt a (Or.inr (Or.inr ha)))) g1
  obtain ⟨lk, hlk, g2⟩ := Res.bind_eq_ok.1 g2
  obtain ⟨lp, hlp, -⟩ := Res.bind_eq_ok.1 g2
  obtain ⟨lk', hlk'⟩ := CState.arr_defined_shape (s' := s1) (fun a ha => sh a (hlt a (Or.inl ha))) hlk
  obtain ⟨lp', hlp'⟩ := CState.arr_defined_shape (s' := s1) (fun a ha => sh a (hlt a (Or.inr (Or.inl ha)))) hlp
  have arr_say : ∀ (m : String) (p : Option ℕ) (n : ℕ), (s1.say m).arr p n = s1.arr p n := by
    intro m p n
    unfold CState.arr CState.raw
    rw [CState.say_mem]
  unfold CState.runB
  dsimp only
  rw [if_neg (by rw [CState.say_dt, CState.say_tt, hdt, htt]; exact not_or.2 ⟨hn, hn⟩)]
  unfold CState.runCore
  dsimp only
  rw [CState.say_terms, fB.terms .b (by decide), arr_say, hks', Res.ok_bind, say_pkv, CState.say_lin, fB.lin]
  have hp : s1.pkv s.lin = .ok ⟨s.lin.nk, lk', lp'⟩ := by
    unfold CState.pkv
    rw [hlk', Res.ok_bind, hlp', Res.ok_bind]
  rw [hp, Res.ok_bind, CState.say_dt, hdt]
  have hb : (s1.say "*** Calculation of B term").bSpectrum .b ⟨s.lin.nk, s.lin.k, some v.next⟩ = .ub "B spectrum" := by
    unfold CState.bSpectrum
    rw [if_pos rfl, say_pkv]
    unfold CState.pkv
    dsimp only
    rw [hlk', Res.ok_bind]
    unfold CState.arr
    rw [if_neg hn]
    unfold CState.raw
    dsimp only
    rw [hfree]
    rfl
  rw [hb]
  rfl

theorem forall₂_mem_right {β γ : Type} {R : β → γ → Prop} {l : List β} {m : List γ} (h : List.Forall₂ R l m) :
    List.Forall₂ (fun a b => R a b ∧ b ∈ m) l m := by
  induction h with
  | nil => exact .nil
  | cons h1 _ ih => exact .cons ⟨h1, .head _⟩ (ih.imp fun _ _ h => ⟨h.1, .tail _ h.2⟩)

theorem forall₂_exists {β γ : Type} {R : β → γ → Prop} {l : List β} {m : List γ} (h : List.Forall₂ R l m) {a : β} (ha : a ∈ l) : ∃ b, R a b := by
  induction h with
  | nil => cases ha
  | cons h1 _ ih =>
    rcases List.mem_cons.1 ha with rfl | ha
    · exact ⟨_, h1⟩
    · exact ih ha

namespace CState

theorem frees_ok {as : List ℕ} {s : CState α} (hn : as.Nodup) (ha : ∀ a ∈ as, (s.mem a).isSome = true) :
    ∃ s', s.frees as = .ok s' ∧ ∀ x, x ∉ as → s'.mem x = s.mem x := by
  induction as generalizing s with
  | nil => exact ⟨s, rfl, fun _ _ => rfl⟩
  | cons a as ih =>
    obtain ⟨hna, hn'⟩ := List.nodup_cons.1 hn
    obtain ⟨l, hl⟩ := Option.isSome_iff_exists.1 (ha a (.head _))
    have hf : s.free a = .ok { s with mem := Function.update s.mem a none } := by
      unfold free
      rw [hl]
    obtain ⟨s', h1, h2⟩ := ih (s := { s with mem := Function.update s.mem a none }) hn' fun x hx => by
      have hne : x ≠ a := fun e => hna (e ▸ hx)
      dsimp only
      rw [Function.update_of_ne hne]
      exact ha x (.tail _ hx)
    refine ⟨s', ?_, fun x hx => ?_⟩
    · unfold frees
      rw [hf, Res.ok_bind]
      exact h1
    · rw [h2 x fun h => hx (.tail _ h)]
      have hne : x ≠ a := fun e => hx (e ▸ .head _)
      exact Function.update_of_ne hne _ _

/-- `run_spectrum_1loop` with everything in place: the spectrum is the one assembled from the terms of the linear spectrum at its own
modes. -/
theorem runSpectrum1_ready {N : Num α} (hN : N.Sized) {s : CState α} {a b : Field} {k p d : ℕ} {lk lp l0 : List α} {r : List (List α)}
    (hfresh : ∀ x, s.next ≤ x → s.mem x = none) (hne : lk ≠ []) (hlin : s.lin = ⟨lk.length, some k, some p⟩) (hk : s.mem k = some lk)
    (hp : s.mem p = some lp) (hlen : lp.length = lk.length) (hd : s.mem d = some l0) (hl0 : l0.length = lk.length)
    (hr : N.run .s1 a b ⟨lk.length, lk, lp⟩ ⟨0, [], []⟩ ⟨0, [], []⟩ lk = .ok r) :
    ∃ s', s.runSpectrum1 N a b ⟨lk.length, some k, some d⟩ = .ok s' ∧ s'.mem d = some (N.asm lk r) := by
  have lt : ∀ {x l}, s.mem x = some l → x < s.next := by
    intro x l hx
    by_contra hc
    rw [hfresh x (by omega)] at hx
    cases hx
  unfold runSpectrum1
  dsimp only
  obtain ⟨ha, hx⟩ := allocs_addr s (List.replicate 5 (List.replicate lk.length N.zero))
  obtain ⟨t1, t2, t3, -⟩ := allocs_terms s (List.replicate 5 (List.replicate lk.length N.zero))
  have hf := allocs_frame (n := s.next) (W := fun _ => False) s (List.replicate 5 (List.replicate lk.length N.zero)) le_rfl
  have hm := allocs_mem s (List.replicate 5 (List.replicate lk.length N.zero))
  generalize s.allocs (List.replicate 5 (List.replicate lk.length N.zero)) = q at *
  rw [List.length_replicate] at ha hx
  have old : ∀ {x}, x < s.next → q.1.mem x = s.mem x := fun hx => hf.mem _ hx fun h => h
  have hq : ∀ x ∈ q.2, s.next ≤ x := fun x hx => by
    rw [ha] at hx
    exact (World.lt_of_range' hx).1
  have hnd : q.2.Nodup := by
    rw [ha]
    exact List.nodup_range'
  obtain ⟨u1, h1⟩ : ∃ u1, q.1.setTerms .s1 lk.length (some k) q.2 = .ok u1 :=
    printK_defined (s := { q.1 with terms := Function.update q.1.terms .s1 ⟨lk.length, some k, q.2⟩ }) hne ((old (lt hk)).trans hk)
  obtain ⟨c1, c2, c3, c4, c5, c6, c7⟩ := setTerms_fields h1
  rw [h1, Res.ok_bind]
  have hmem1 : ∀ (m : String) {x}, x < s.next → (u1.say m).mem x = s.mem x := fun m x hx => by
    rw [say_mem, c5]
    exact old hx
  obtain ⟨u2, h2, v2⟩ := runCore_ready (N := N) (sl := .s1) (a := a) (b := b) (s := u1.say "*** Calculation of power spectrum at 1 loop") (ks := lk) (ka := k)
    (cols := q.2) (t := ⟨lk.length, lk, lp⟩) (by rw [say_terms, c1, Function.update_self]) ((hmem1 _ (lt hk)).trans hk)
    (by
      rw [say_lin, c6, hf.lin, hlin]
      exact pkv_some ((hmem1 _ (lt hk)).trans hk) ((hmem1 _ (lt hp)).trans hp) hlen)
    (World.bSpectrum_none (by decide)) (World.bSpectrum_none (by decide)) hr hnd (by
      refine World.shape_of_sized hN (κ := .s1) hr ?_
      rw [ha]
      refine List.forall₂_of_length_eq_of_get rfl fun j h1 h2 => ?_
      simp only [List.get_eq_getElem, List.getElem_range', one_mul]
      have hw : (Kind.widths .s1)[j] = 1 := by
        have hw : ∀ m ∈ Kind.widths .s1, m = 1 := by decide
        exact hw _ (List.getElem_mem _)
      have h2' : j < 5 := h2
      rw [say_mem, c5, hm j (by rw [List.length_replicate]; exact h2'), hw, List.getElem_replicate]
      simp)
  rw [h2, Res.ok_bind]
  have f2 : ∀ {x}, x < s.next → u2.mem x = s.mem x := by
    intro x hx
    rw [(runCore_frame (n := s.next) (W := fun _ => False) (fun y hy hlt => by
      rw [say_terms, c1, Function.update_self] at hy
      exact absurd (hq y hy) (by omega)) h2).mem x hx fun h => h]
    exact hmem1 _ hx
  rw [arr_some ((f2 (lt hk)).trans hk), Res.ok_bind]
  have hlens := hN.run .s1 a b _ _ _ _ _ hr
  have hcs : q.2.mapM (fun x => u2.arr (some x) lk.length) = .ok r := by
    refine Res.forall₂_mapM ?_
    have hall : ∀ l ∈ r, l.length = lk.length := by
      intro l hl
      have : l.length ∈ (Kind.widths .s1).map (lk.length * ·) := by
        rw [← hlens]
        exact List.mem_map_of_mem hl
      obtain ⟨m, hm1, hm2⟩ := List.mem_map.1 this
      have hw : ∀ m ∈ Kind.widths .s1, m = 1 := by decide
      rw [← hm2, hw m hm1, Nat.mul_one]
    refine (forall₂_mem_right v2).imp fun x l hx => ?_
    rw [← hall l hx.2]
    exact arr_some hx.1
  rw [hcs, Res.ok_bind]
  have hst : u2.storeAt (some d) (N.asm lk r) = .ok { u2 with mem := Function.update u2.mem d (some (N.asm lk r)) } := by
    unfold storeAt store
    dsimp only
    rw [f2 (lt hd), hd]
    dsimp only
    have := hN.asm lk r
    rw [if_pos (by omega), List.drop_of_length_le (by omega), List.append_nil]
  rw [hst, Res.ok_bind]
  have hdq : d ∉ q.2 := fun h => absurd (hq d h) (by have := lt hd; omega)
  obtain ⟨s', h3, h4⟩ := frees_ok (s := { u2 with mem := Function.update u2.mem d (some (N.asm lk r)) }) hnd fun x hx => by
    have hne : x ≠ d := fun e => hdq (e ▸ hx)
    dsimp only
    rw [Function.update_of_ne hne]
    obtain ⟨l, hl⟩ := forall₂_exists v2 hx
    rw [hl]
    rfl
  exact ⟨s', h3, (h4 d hdq).trans (Function.update_self _ _ _)⟩

end CState

/-- The run of the B terms that has to compute the spectra itself is defined and gives the terms of the one-loop spectra. -/
theorem runB_fallback {N : Num α} (hN : N.Sized) {s : CState α} {k p ka : ℕ} {cols : List ℕ} {lk lp ks : List α} {r1 r2 r : List (List α)}
    (h0 : s.dt.nk = 0 ∨ s.tt.nk = 0) (hfresh : ∀ x, s.next ≤ x → s.mem x = none) (hne : lk ≠ [])
    (hlin : s.lin = ⟨lk.length, some k, some p⟩) (hk : s.mem k = some lk) (hp : s.mem p = some lp) (hlen : lp.length = lk.length)
    (ht : s.terms .b = ⟨ks.length, some ka, cols⟩) (hka : s.mem ka = some ks) (hn : cols.Nodup)
    (hs : List.Forall₂ (fun a m => (s.mem a).map List.length = some (ks.length * m)) cols (Kind.widths .b1))
    (hr1 : N.run .s1 .delta .theta ⟨lk.length, lk, lp⟩ ⟨0, [], []⟩ ⟨0, [], []⟩ lk = .ok r1)
    (hr2 : N.run .s1 .theta .theta ⟨lk.length, lk, lp⟩ ⟨0, [], []⟩ ⟨0, [], []⟩ lk = .ok r2)
    (hr : N.run .b .delta .delta ⟨lk.length, lk, lp⟩ ⟨lk.length, lk, N.asm lk r1⟩ ⟨lk.length, lk, N.asm lk r2⟩ ks = .ok r) :
    ∃ s', s.runB N = .ok s' ∧ List.Forall₂ (fun a l => s'.mem a = some l) cols r := by
  have lt0 : ∀ {x l}, s.mem x = some l → x < s.next := by
    intro x l hx
    by_contra hc
    rw [hfresh x (by omega)] at hx
    cases hx
  have hcols : ∀ x ∈ cols, x < s.next := by
    intro x hx
    obtain ⟨m, hm⟩ := forall₂_exists hs hx
    obtain ⟨l, hl, -⟩ := Option.map_eq_some_iff.1 hm
    exact lt0 hl
  unfold CState.runB
  dsimp only
  rw [if_pos (by rw [CState.say_dt, CState.say_tt]; exact h0)]
  have hnx : (s.say "*** Calculation of B term").next = s.next := CState.say_next _ _
  have hsl : (s.say "*** Calculation of B term").lin = s.lin := CState.say_lin _ _
  have hst : (s.say "*** Calculation of B term").terms = s.terms := CState.say_terms _ _
  have hsm : (s.say "*** Calculation of B term").mem = s.mem := CState.say_mem _ _
  generalize s.say "*** Calculation of B term" = v at *
  -- first spectrum
  have fa := CState.alloc_frame (n := v.next) (W := fun _ => False) v (List.replicate v.lin.nk N.zero) le_rfl
  set d := v.alloc (List.replicate v.lin.nk N.zero) with hd
  have hdl : d.1.lin = ⟨lk.length, some k, some p⟩ := hsl.trans hlin
  have hd2 : d.2 = s.next := hnx
  have hmd : ∀ {x}, x < s.next → d.1.mem x = s.mem x := fun {x} hx => by
    rw [fa.mem x (by omega) fun h => h, hsm]
  obtain ⟨u1, g1, m1⟩ := CState.runSpectrum1_ready hN (s := { d.1 with dt := ⟨d.1.lin.nk, d.1.lin.k, some d.2⟩ }) (a := .delta) (b := .theta)
    (k := k) (p := p) (d := d.2) (lk := lk) (lp := lp) (l0 := List.replicate v.lin.nk N.zero)
    (fa.fresh (by rw [hsm, hnx]; exact hfresh)) hne hdl ((hmd (lt0 hk)).trans hk) ((hmd (lt0 hp)).trans hp) hlen (Function.update_self _ _ _)
    (by rw [List.length_replicate, hsl, hlin]) hr1
  have g1' : ({ d.1 with dt := ⟨d.1.lin.nk, d.1.lin.k, some d.2⟩ } : CState α).runSpectrum1 N .delta .theta
      (⟨d.1.lin.nk, d.1.lin.k, some d.2⟩ : CPk) = .ok u1 := by
    rw [hdl]
    rw [hdl] at g1
    exact g1
  rw [g1', Res.ok_bind]
  obtain ⟨f1, d1, -⟩ := CState.runSpectrum1_frame (n := s.next) (W := fun _ => False) (by show s.next ≤ v.next + 1; omega)
    (fun x e => by cases e; exact hd2.ge) g1'
  have fr1 := f1.fresh (fa.fresh (by rw [hsm, hnx]; exact hfresh))
  have hm1 : ∀ {x}, x < s.next → u1.mem x = s.mem x := fun {x} hx => (f1.mem x hx fun h => h).trans (hmd hx)
  have hl1 : u1.lin = ⟨lk.length, some k, some p⟩ := f1.lin.trans hdl
  have hn1 : s.next < u1.next := by
    have : d.1.next ≤ u1.next := f1.next
    have : d.1.next = v.next + 1 := rfl
    omega
  have ht1 : u1.terms .b = s.terms .b := (f1.terms .b (by decide)).trans (by rw [← hst]; rfl)
  -- second spectrum
  have fb := CState.alloc_frame (n := u1.next) (W := fun _ => False) u1 (List.replicate u1.lin.nk N.zero) le_rfl
  set e := u1.alloc (List.replicate u1.lin.nk N.zero) with he
  have hel : e.1.lin = ⟨lk.length, some k, some p⟩ := hl1
  have he2 : e.2 = u1.next := rfl
  have hme : ∀ {x}, x < u1.next → e.1.mem x = u1.mem x := fun {x} hx => fb.mem x hx fun h => h
  obtain ⟨u2, g2, m2⟩ := CState.runSpectrum1_ready hN (s := { e.1 with tt := ⟨e.1.lin.nk, e.1.lin.k, some e.2⟩ }) (a := .theta) (b := .theta)
    (k := k) (p := p) (d := e.2) (lk := lk) (lp := lp) (l0 := List.replicate u1.lin.nk N.zero) (fb.fresh fr1) hne hel
    ((hme (by have := lt0 hk; omega)).trans ((hm1 (lt0 hk)).trans hk)) ((hme (by have := lt0 hp; omega)).trans ((hm1 (lt0 hp)).trans hp)) hlen
    (Function.update_self _ _ _) (by rw [List.length_replicate, hl1]) hr2
  have g2' : ({ e.1 with tt := ⟨e.1.lin.nk, e.1.lin.k, some e.2⟩ } : CState α).runSpectrum1 N .theta .theta
      (⟨e.1.lin.nk, e.1.lin.k, some e.2⟩ : CPk) = .ok u2 := by
    rw [hel]
    rw [hel] at g2
    exact g2
  rw [g2', Res.ok_bind]
  obtain ⟨f2, d2, t2⟩ := CState.runSpectrum1_frame (n := u1.next) (W := fun _ => False) (Nat.le_succ _)
    (fun x h => by cases h; exact le_rfl) g2'
  have hm2 : ∀ {x}, x < u1.next → u2.mem x = u1.mem x := fun {x} hx => (f2.mem x hx fun h => h).trans (hme hx)
  have hm20 : ∀ {x}, x < s.next → u2.mem x = s.mem x := fun {x} hx => (hm2 (by omega)).trans (hm1 hx)
  have hl2 : u2.lin = ⟨lk.length, some k, some p⟩ := f2.lin.trans hel
  have ht2 : u2.terms .b = s.terms .b := (f2.terms .b (by decide)).trans ht1
  have hdt : u2.dt = ⟨lk.length, some k, some s.next⟩ := by
    rw [d2]
    show u1.dt = _
    rw [d1]
    show (⟨d.1.lin.nk, d.1.lin.k, some d.2⟩ : CPk) = _
    rw [hdl, hd2]
  have htt : u2.tt = ⟨lk.length, some k, some u1.next⟩ := by
    rw [t2]
    show (⟨e.1.lin.nk, e.1.lin.k, some e.2⟩ : CPk) = _
    rw [hel, he2]
  have md : u2.mem s.next = some (N.asm lk r1) := by
    rw [hm2 hn1, ← hd2]
    exact m1
  have hr' : N.run (Kind.slot .b1) .delta .delta ⟨lk.length, lk, lp⟩ ⟨lk.length, lk, N.asm lk r1⟩ ⟨lk.length, lk, N.asm lk r2⟩ ks = .ok r := hr
  obtain ⟨u3, g3, v3⟩ := CState.runCore_ready (N := N) (sl := .b) (a := .delta) (b := .delta) (s := u2) (by rw [ht2]; exact ht)
    ((hm20 (lt0 hka)).trans hka)
    (by rw [hl2]; exact CState.pkv_some ((hm20 (lt0 hk)).trans hk) ((hm20 (lt0 hp)).trans hp) hlen)
    (by rw [hdt]; exact bSpectrum_some ((hm20 (lt0 hk)).trans hk) md (hN.asm _ _))
    (by rw [htt]; exact bSpectrum_some ((hm20 (lt0 hk)).trans hk) m2 (hN.asm _ _)) hr hn
    (by
      refine shape_of_sized hN (κ := .b1) hr' (((List.forall₂_and_left (p := fun a => u2.mem a = s.mem a) _ _).2 ⟨fun x hx => hm20 (hcols x hx), hs⟩).imp
        fun x m hx => ?_)
      rw [hx.1]
      exact hx.2)
  rw [g3, Res.ok_bind]
  have f3 := CState.runCore_frame (n := u1.next + 1) (W := (· ∈ cols)) (fun x hx _ => by rw [ht2, ht] at hx; exact hx) g3
  have k1 : u3.mem s.next = some (N.asm lk r1) := (f3.mem _ (by omega) fun h => absurd (hcols _ h) (lt_irrefl _)).trans md
  have k2 : u3.mem u1.next = some (N.asm lk r2) := (f3.mem _ (by omega) fun h => absurd (hcols _ h) (by omega)).trans m2
  have e1 : u3.free d.2 = .ok { u3 with mem := Function.update u3.mem s.next none } := by
    rw [hd2]
    unfold CState.free
    rw [k1]
  rw [e1, Res.ok_bind]
  have e2 : ({ u3 with mem := Function.update u3.mem s.next none } : CState α).free e.2 =
      .ok { u3 with mem := Function.update (Function.update u3.mem s.next none) u1.next none } := by
    unfold CState.free
    dsimp only
    rw [he2, Function.update_of_ne hn1.ne', k2]
  rw [e2]
  refine ⟨_, rfl, ((List.forall₂_and_left _ _).2 ⟨hcols, v3⟩).imp fun x l hx => ?_⟩
  have n1 : x ≠ s.next := hx.1.ne
  have n2 : x ≠ u1.next := (hx.1.trans hn1).ne
  dsimp only
  rw [Function.update_of_ne n2, Function.update_of_ne n1]
  exact hx.2

/-- The state after `set_pk_lin` and `set_terms_B` with fresh arrays. -/
noncomputable def exB : CState ℝ where
  verb := .quiet
  out := []
  lin := ⟨5, some 0, some 1⟩
  dt := ⟨0, none, none⟩
  tt := ⟨0, none, none⟩
  terms sl := if sl = .b then ⟨1, some 2, [3, 4, 5]⟩ else ⟨0, none, []⟩
  mem a := [exTable.k, exTable.pk, [2], [0], [0], List.replicate 9 0][a]?
  next := 6

/-- C42 fails for direct calls: `set_pk_lin`, `set_terms_B`, `run_terms_B`, `run_terms_B`.  The first run succeeds, the second one reads
freed memory. -/
theorem C42_use_after_free_violation (rt : ℕ → ℕ → ℝ × ℝ) : ∃ s s1 : CState ℝ, s.runB (exNum rt) = .ok s1 ∧ (s1.runB (exNum rt)).ReadsFreedB := by
  obtain ⟨r1, hr1⟩ := exNum_run rt exTable_physical.toWF (by norm_num [exTable]) exTable.k .s1 (by decide) .delta .theta
  obtain ⟨r2, hr2⟩ := exNum_run rt exTable_physical.toWF (by norm_num [exTable]) exTable.k .s1 (by decide) .theta .theta
  obtain ⟨r, hr⟩ := exNum_run_B rt exTable_physical.toWF (by norm_num [exTable]) (exNum_asm_wf rt r1) (by norm_num [exTable]) (exNum_asm_wf rt r2)
    (by norm_num [exTable]) [2] .delta .delta
  obtain ⟨s1, h1, -⟩ := runB_fallback (exNum_sized rt) (s := exB) (Or.inl rfl) (fun x hx => List.getElem?_eq_none hx) (lk := exTable.k) (lp := exTable.pk)
    (k := 0) (p := 1) (ka := 2) (cols := [3, 4, 5]) (ks := [2]) (by simp [exTable]) rfl rfl rfl rfl rfl rfl (by decide)
    (.cons rfl (.cons rfl (.cons rfl .nil))) hr1 hr2 hr
  refine ⟨exB, s1, h1, C42_second_run_violation (Or.inl rfl) (by decide) (fun a ha => ?_) h1⟩
  rcases ha with h | h | h <;> cases h <;> decide

end Verif
