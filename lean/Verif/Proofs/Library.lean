import Verif.Model.Library

/-!
# What the C calls leave unchanged
-/

namespace Verif

variable {α : Type}

namespace CState

/-- `s'` comes from `s` by code that, below address `n`, stores only into the arrays `W` and releases nothing. -/
structure Frame (n : ℕ) (W : ℕ → Prop) (s s' : CState α) : Prop where
  next : s.next ≤ s'.next
  lin : s'.lin = s.lin
  verb : s'.verb = s.verb
  quiet : s.verb ≠ .info → s'.out = s.out
  mem : ∀ a < n, ¬ W a → s'.mem a = s.mem a
  shape : ∀ a < n, (s'.mem a).map List.length = (s.mem a).map List.length
  fresh : (∀ a, s.next ≤ a → s.mem a = none) → ∀ a, s'.next ≤ a → s'.mem a = none
  terms : ∀ sl, sl ≠ .s1 → s'.terms sl = s.terms sl
  terms1 : s'.terms .s1 = s.terms .s1 ∨ ∀ a ∈ (s'.terms .s1).cols, n ≤ a
  bound : (∀ sl, ∀ a ∈ (s.terms sl).cols, a < s.next) → ∀ sl, ∀ a ∈ (s'.terms sl).cols, a < s'.next

theorem Frame.refl (n : ℕ) (W : ℕ → Prop) (s : CState α) : Frame n W s s :=
  ⟨le_rfl, rfl, rfl, fun _ => rfl, fun _ _ _ => rfl, fun _ _ => rfl, fun h => h, fun _ _ => rfl, Or.inl rfl, fun h => h⟩

theorem Frame.trans {n : ℕ} {W : ℕ → Prop} {s t u : CState α} (h : Frame n W s t) (k : Frame n W t u) : Frame n W s u where
  next := h.next.trans k.next
  lin := k.lin.trans h.lin
  verb := k.verb.trans h.verb
  quiet hv := (k.quiet (by rw [h.verb]; exact hv)).trans (h.quiet hv)
  mem a ha hw := (k.mem a ha hw).trans (h.mem a ha hw)
  shape a ha := (k.shape a ha).trans (h.shape a ha)
  fresh hf := k.fresh (h.fresh hf)
  terms sl hs := (k.terms sl hs).trans (h.terms sl hs)
  terms1 := by
    rcases k.terms1 with e | e
    · rw [e]; exact h.terms1
    · exact Or.inr e
  bound hb := k.bound (h.bound hb)

theorem Frame.mono {n m : ℕ} {V W : ℕ → Prop} {s t : CState α} (h : Frame n W s t) (hm : m ≤ n) (hV : ∀ a < m, W a → V a) :
    Frame m V s t where
  next := h.next
  lin := h.lin
  verb := h.verb
  quiet := h.quiet
  mem a ha hw := h.mem a (by omega) fun hx => hw (hV a ha hx)
  shape a ha := h.shape a (by omega)
  fresh := h.fresh
  terms := h.terms
  terms1 := h.terms1.imp id fun h a ha => hm.trans (h a ha)
  bound := h.bound

theorem alloc_frame {n : ℕ} {W : ℕ → Prop} (s : CState α) (l : List α) (hn : n ≤ s.next) : Frame n W s (s.alloc l).1 where
  next := Nat.le_succ _
  lin := rfl
  verb := rfl
  quiet _ := rfl
  mem a ha _ := Function.update_of_ne (by omega) _ _
  shape a ha := by simp only [alloc]; rw [Function.update_of_ne (by omega)]
  fresh hf a ha := by
    simp only [alloc] at ha ⊢
    rw [Function.update_of_ne (by omega)]
    exact hf a (by omega)
  terms _ _ := rfl
  terms1 := Or.inl rfl
  bound hb sl a ha := Nat.lt_succ_of_lt (hb sl a ha)

theorem allocs_frame {n : ℕ} {W : ℕ → Prop} (s : CState α) (ls : List (List α)) (hn : n ≤ s.next) :
    Frame n W s (s.allocs ls).1 := by
  induction ls generalizing s with
  | nil => exact Frame.refl _ _ _
  | cons l ls ih => exact (alloc_frame s l hn).trans (ih _ (hn.trans (Nat.le_succ _)))

theorem allocs_addr (s : CState α) (ls : List (List α)) : (s.allocs ls).2 = List.range' s.next ls.length ∧
    (s.allocs ls).1.next = s.next + ls.length := by
  induction ls generalizing s with
  | nil => exact ⟨rfl, rfl⟩
  | cons l ls ih =>
    obtain ⟨h1, h2⟩ := ih (s.alloc l).1
    constructor
    · simp only [allocs, h1, List.length_cons, List.range'_succ]
      rfl
    · simp only [allocs, h2, List.length_cons]
      simp only [alloc]
      omega

theorem allocs_mem (s : CState α) (ls : List (List α)) (j : ℕ) (hj : j < ls.length) :
    (s.allocs ls).1.mem (s.next + j) = some ls[j] := by
  induction ls generalizing s j with
  | nil => simp at hj
  | cons l ls ih =>
    cases j with
    | zero =>
      have := (allocs_frame (n := s.next + 1) (W := fun _ => False) (s.alloc l).1 ls le_rfl).mem s.next (by omega) (fun h => h)
      simp only [allocs, Nat.add_zero, List.getElem_cons_zero]
      rw [this]
      simp [alloc]
    | succ j =>
      have := ih (s.alloc l).1 j (by simpa using hj)
      simp only [allocs, List.getElem_cons_succ]
      rw [← this]
      congr 1
      simp only [alloc]
      omega

theorem allocs_terms (s : CState α) (ls : List (List α)) : (s.allocs ls).1.terms = s.terms ∧ (s.allocs ls).1.dt = s.dt ∧
    (s.allocs ls).1.tt = s.tt ∧ (s.allocs ls).1.out = s.out := by
  induction ls generalizing s with
  | nil => exact ⟨rfl, rfl, rfl, rfl⟩
  | cons l ls ih => exact ih (s.alloc l).1

theorem free_frame {n : ℕ} {W : ℕ → Prop} {s s' : CState α} {a : ℕ} (ha : n ≤ a) (h : s.free a = .ok s') : Frame n W s s' := by
  unfold free at h
  split at h
  · cases h
  · cases h
    exact {
      next := le_rfl
      lin := rfl
      verb := rfl
      quiet := fun _ => rfl
      mem := fun b hb _ => Function.update_of_ne (by omega) _ _
      shape := fun b hb => by
        dsimp only
        rw [Function.update_of_ne (by omega)]
      fresh := fun hf b hb => by
        dsimp only at hb ⊢
        by_cases e : b = a
        · rw [e, Function.update_self]
        · rw [Function.update_of_ne e]
          exact hf b hb
      terms := fun _ _ => rfl
      terms1 := Or.inl rfl
      bound := fun h => h }

theorem free_fields {s s' : CState α} {a : ℕ} (h : s.free a = .ok s') : s'.terms = s.terms ∧ s'.dt = s.dt ∧ s'.tt = s.tt ∧
    s'.next = s.next := by
  unfold free at h
  split at h
  · cases h
  · cases h
    exact ⟨rfl, rfl, rfl, rfl⟩

theorem frees_frame {n : ℕ} {W : ℕ → Prop} {as : List ℕ} {s s' : CState α} (ha : ∀ a ∈ as, n ≤ a) (h : s.frees as = .ok s') :
    Frame n W s s' := by
  induction as generalizing s with
  | nil =>
    cases h
    exact Frame.refl _ _ _
  | cons a as ih =>
    obtain ⟨t, h1, h2⟩ := Res.bind_eq_ok.1 h
    exact (free_frame (ha a (by simp)) h1).trans (ih (fun a ha' => ha a (by simp [ha'])) h2)

theorem frees_fields {as : List ℕ} {s s' : CState α} (h : s.frees as = .ok s') : s'.terms = s.terms ∧ s'.dt = s.dt ∧
    s'.tt = s.tt ∧ s'.next = s.next := by
  induction as generalizing s with
  | nil =>
    cases h
    exact ⟨rfl, rfl, rfl, rfl⟩
  | cons a as ih =>
    obtain ⟨t, h1, h2⟩ := Res.bind_eq_ok.1 h
    obtain ⟨a1, a2, a3, a4⟩ := free_fields h1
    obtain ⟨b1, b2, b3, b4⟩ := ih h2
    exact ⟨b1.trans a1, b2.trans a2, b3.trans a3, b4.trans a4⟩

theorem store_frame {n : ℕ} {W : ℕ → Prop} {s s' : CState α} {a : ℕ} {l : List α} (ha : a < n → W a)
    (h : s.store a l = .ok s') : Frame n W s s' := by
  unfold store at h
  split at h
  · cases h
  · next l0 h0 =>
    split at h
    · next hl =>
      cases h
      exact {
        next := le_rfl
        lin := rfl
        verb := rfl
        quiet := fun _ => rfl
        mem := fun b hb hw => Function.update_of_ne (fun e => hw (by subst e; exact ha hb)) _ _
        shape := fun b hb => by
          dsimp only
          by_cases e : b = a
          · rw [e, Function.update_self, h0]
            simp
            omega
          · rw [Function.update_of_ne e]
        fresh := fun hf b hb => by
          dsimp only at hb ⊢
          by_cases e : b = a
          · have := hf a (e ▸ hb)
            rw [h0] at this
            cases this
          · rw [Function.update_of_ne e]
            exact hf b hb
        terms := fun _ _ => rfl
        terms1 := Or.inl rfl
        bound := fun h => h }
    · cases h

theorem store_fields {s s' : CState α} {a : ℕ} {l : List α} (h : s.store a l = .ok s') : s'.terms = s.terms ∧ s'.dt = s.dt ∧
    s'.tt = s.tt ∧ s'.next = s.next ∧ s'.out = s.out := by
  unfold store at h
  split at h
  · cases h
  · split at h
    · cases h
      exact ⟨rfl, rfl, rfl, rfl, rfl⟩
    · cases h

theorem storeAll_frame {n : ℕ} {W : ℕ → Prop} {as : List ℕ} {ls : List (List α)} {s s' : CState α}
    (ha : ∀ a ∈ as, a < n → W a) (h : s.storeAll as ls = .ok s') : Frame n W s s' := by
  induction as generalizing s ls with
  | nil =>
    cases ls with
    | nil =>
      cases h
      exact Frame.refl _ _ _
    | cons => cases h
  | cons a as ih =>
    cases ls with
    | nil => cases h
    | cons l ls =>
      obtain ⟨t, h1, h2⟩ := Res.bind_eq_ok.1 h
      exact (store_frame (ha a (by simp)) h1).trans (ih (fun a ha' => ha a (by simp [ha'])) h2)

theorem storeAll_fields {as : List ℕ} {ls : List (List α)} {s s' : CState α} (h : s.storeAll as ls = .ok s') :
    s'.terms = s.terms ∧ s'.dt = s.dt ∧ s'.tt = s.tt ∧ s'.next = s.next ∧ s'.out = s.out := by
  induction as generalizing s ls with
  | nil =>
    cases ls with
    | nil =>
      cases h
      exact ⟨rfl, rfl, rfl, rfl, rfl⟩
    | cons => cases h
  | cons a as ih =>
    cases ls with
    | nil => cases h
    | cons l ls =>
      obtain ⟨t, h1, h2⟩ := Res.bind_eq_ok.1 h
      obtain ⟨a1, a2, a3, a4, a5⟩ := store_fields h1
      obtain ⟨b1, b2, b3, b4, b5⟩ := ih h2
      exact ⟨b1.trans a1, b2.trans a2, b3.trans a3, b4.trans a4, b5.trans a5⟩

theorem say_frame {n : ℕ} {W : ℕ → Prop} (s : CState α) (m : String) : Frame n W s (s.say m) := by
  unfold say
  split
  · next hv =>
    exact {
      next := le_rfl
      lin := rfl
      verb := rfl
      quiet := fun h => absurd hv h
      mem := fun _ _ _ => rfl
      shape := fun _ _ => rfl
      fresh := fun h => h
      terms := fun _ _ => rfl
      terms1 := Or.inl rfl
      bound := fun h => h }
  · exact Frame.refl _ _ _

@[simp] theorem say_mem (s : CState α) (m : String) : (s.say m).mem = s.mem := by unfold say; split <;> rfl
@[simp] theorem say_terms (s : CState α) (m : String) : (s.say m).terms = s.terms := by unfold say; split <;> rfl
@[simp] theorem say_lin (s : CState α) (m : String) : (s.say m).lin = s.lin := by unfold say; split <;> rfl
@[simp] theorem say_dt (s : CState α) (m : String) : (s.say m).dt = s.dt := by unfold say; split <;> rfl
@[simp] theorem say_tt (s : CState α) (m : String) : (s.say m).tt = s.tt := by unfold say; split <;> rfl
@[simp] theorem say_next (s : CState α) (m : String) : (s.say m).next = s.next := by unfold say; split <;> rfl
@[simp] theorem say_verb (s : CState α) (m : String) : (s.say m).verb = s.verb := by unfold say; split <;> rfl

theorem printK_say {s s' : CState α} {p : Option ℕ} {nk : ℕ} (h : s.printK p nk = .ok s') : s' = s.say "range" := by
  unfold printK at h
  split at h
  · obtain ⟨l, -, h⟩ := Res.bind_eq_ok.1 h
    obtain ⟨_, -, h⟩ := Res.bind_eq_ok.1 h
    obtain ⟨_, -, h⟩ := Res.bind_eq_ok.1 h
    cases h
    rfl
  · next hv =>
    cases h
    simp [say, hv]

theorem printK_frame {n : ℕ} {W : ℕ → Prop} {s s' : CState α} {p : Option ℕ} {nk : ℕ} (h : s.printK p nk = .ok s') :
    Frame n W s s' := by
  rw [printK_say h]
  exact say_frame _ _

/-- `runCore` ends with the stores. -/
theorem runCore_ok {N : Num α} {sl : Slot} {a b : Field} {s s' : CState α} (h : s.runCore N sl a b = .ok s') :
    ∃ ks lin dt tt r, s.arr (s.terms sl).k (s.terms sl).nk = .ok ks ∧ s.pkv s.lin = .ok lin ∧
      s.bSpectrum sl s.dt = .ok dt ∧ s.bSpectrum sl s.tt = .ok tt ∧
      N.run sl a b lin dt tt ks = .ok r ∧ s.storeAll (s.terms sl).cols r = .ok s' := by
  unfold runCore at h
  obtain ⟨ks, h1, h⟩ := Res.bind_eq_ok.1 h
  obtain ⟨lin, h2, h⟩ := Res.bind_eq_ok.1 h
  obtain ⟨dt, h3, h⟩ := Res.bind_eq_ok.1 h
  obtain ⟨tt, h4, h⟩ := Res.bind_eq_ok.1 h
  obtain ⟨r, h5, h⟩ := Res.bind_eq_ok.1 h
  exact ⟨ks, lin, dt, tt, r, h1, h2, h3, h4, h5, h⟩

theorem runCore_frame {n : ℕ} {W : ℕ → Prop} {N : Num α} {sl : Slot} {a b : Field} {s s' : CState α}
    (hW : ∀ a ∈ (s.terms sl).cols, a < n → W a) (h : s.runCore N sl a b = .ok s') : Frame n W s s' := by
  obtain ⟨_, _, _, _, _, -, -, -, -, -, h⟩ := runCore_ok h
  exact storeAll_frame hW h

theorem runCore_fields {N : Num α} {sl : Slot} {a b : Field} {s s' : CState α} (h : s.runCore N sl a b = .ok s') :
    s'.terms = s.terms ∧ s'.dt = s.dt ∧ s'.tt = s.tt ∧ s'.next = s.next ∧ s'.out = s.out := by
  obtain ⟨_, _, _, _, _, -, -, -, -, -, h⟩ := runCore_ok h
  exact storeAll_fields h

theorem setTerms_s1_frame {n : ℕ} {W : ℕ → Prop} {s s' : CState α} {nk : ℕ} {k : Option ℕ} {cols : List ℕ}
    (hc : ∀ a ∈ cols, n ≤ a ∧ a < s.next) (h : s.setTerms .s1 nk k cols = .ok s') : Frame n W s s' := by
  refine Frame.trans ?_ (printK_frame h)
  exact {
    next := le_rfl
    lin := rfl
    verb := rfl
    quiet := fun _ => rfl
    mem := fun _ _ _ => rfl
    shape := fun _ _ => rfl
    fresh := fun h => h
    terms := fun sl hs => Function.update_of_ne hs _ _
    terms1 := Or.inr fun a ha => by
      dsimp only at ha
      rw [Function.update_self] at ha
      exact (hc a ha).1
    bound := fun hb sl a ha => by
      dsimp only at ha ⊢
      by_cases e : sl = .s1
      · subst e
        rw [Function.update_self] at ha
        exact (hc a ha).2
      · rw [Function.update_of_ne e] at ha
        exact hb sl a ha }

theorem setTerms_fields {s s' : CState α} {sl : Slot} {nk : ℕ} {k : Option ℕ} {cols : List ℕ}
    (h : s.setTerms sl nk k cols = .ok s') : s'.terms = Function.update s.terms sl ⟨nk, k, cols⟩ ∧ s'.dt = s.dt ∧ s'.tt = s.tt ∧
      s'.next = s.next ∧ s'.mem = s.mem ∧ s'.lin = s.lin ∧ s'.verb = s.verb := by
  rw [printK_say h]
  simp

theorem runSpectrum1_frame_gen {n : ℕ} {W : ℕ → Prop} {N : Num α} {a b : Field} {p : CPk} {s s' : CState α} (hn : n ≤ s.next)
    (hp : ∀ d, p.pk = some d → d < n → W d) (h : s.runSpectrum1 N a b p = .ok s') : Frame n W s s' ∧ s'.dt = s.dt ∧ s'.tt = s.tt := by
  unfold runSpectrum1 at h
  dsimp only at h
  obtain ⟨ha, hx⟩ := allocs_addr s (List.replicate 5 (List.replicate p.nk N.zero))
  obtain ⟨t1, t2, t3, -⟩ := allocs_terms s (List.replicate 5 (List.replicate p.nk N.zero))
  have hf := allocs_frame (n := n) (W := W) s (List.replicate 5 (List.replicate p.nk N.zero)) hn
  have hfresh : ∀ a ∈ (s.allocs (List.replicate 5 (List.replicate p.nk N.zero))).2, n ≤ a ∧
      a < (s.allocs (List.replicate 5 (List.replicate p.nk N.zero))).1.next := by
    intro a h
    rw [ha, List.mem_range'_1] at h
    rw [hx]
    omega
  generalize s.allocs (List.replicate 5 (List.replicate p.nk N.zero)) = r at *
  obtain ⟨u1, h1, h⟩ := Res.bind_eq_ok.1 h
  obtain ⟨u2, h2, h⟩ := Res.bind_eq_ok.1 h
  obtain ⟨ks, -, h⟩ := Res.bind_eq_ok.1 h
  obtain ⟨cs, -, h⟩ := Res.bind_eq_ok.1 h
  obtain ⟨u3, h3, h⟩ := Res.bind_eq_ok.1 h
  obtain ⟨a1, a2, a3, -, -, -, -⟩ := setTerms_fields h1
  obtain ⟨b1, b2, b3, -, -⟩ := runCore_fields h2
  obtain ⟨d, hd, h3⟩ : ∃ d, p.pk = some d ∧ u2.store d (N.asm ks cs) = .ok u3 := by
    unfold storeAt at h3
    split at h3
    · cases h3
    · next d hd => exact ⟨d, hd, h3⟩
  obtain ⟨c1, c2, c3, -, -⟩ := store_fields h3
  obtain ⟨d1, d2, d3, -⟩ := frees_fields h
  refine ⟨(((hf.trans (setTerms_s1_frame hfresh h1)).trans (say_frame _ _)).trans (runCore_frame ?_ h2)).trans
    ((store_frame (hp d hd) h3).trans (frees_frame (fun a h => (hfresh a h).1) h)), ?_, ?_⟩
  · intro a h hlt
    simp only [say_terms, a1, Function.update_self] at h
    exact absurd (hfresh a h).1 (by omega)
  · rw [d2, c2, b2, say_dt, a2, t2]
  · rw [d3, c3, b3, say_tt, a3, t3]

theorem runSpectrum1_frame {n : ℕ} {W : ℕ → Prop} {N : Num α} {a b : Field} {p : CPk} {s s' : CState α} (hn : n ≤ s.next)
    (hp : ∀ d, p.pk = some d → n ≤ d) (h : s.runSpectrum1 N a b p = .ok s') : Frame n W s s' ∧ s'.dt = s.dt ∧ s'.tt = s.tt :=
  runSpectrum1_frame_gen hn (fun d hd hlt => absurd (hp d hd) (by omega)) h

theorem setDt_frame {n : ℕ} {W : ℕ → Prop} (s : CState α) (p : CPk) : Frame n W s { s with dt := p } :=
  ⟨le_rfl, rfl, rfl, fun _ => rfl, fun _ _ _ => rfl, fun _ _ => rfl, fun h => h, fun _ _ => rfl, Or.inl rfl, fun h => h⟩

theorem setTt_frame {n : ℕ} {W : ℕ → Prop} (s : CState α) (p : CPk) : Frame n W s { s with tt := p } :=
  ⟨le_rfl, rfl, rfl, fun _ => rfl, fun _ _ _ => rfl, fun _ _ => rfl, fun h => h, fun _ _ => rfl, Or.inl rfl, fun h => h⟩

theorem runB_frame {N : Num α} {n : ℕ} {s s' : CState α} (hn : n ≤ s.next) (h : s.runB N = .ok s') :
    Frame n (· ∈ (s.terms .b).cols) s s' := by
  unfold runB at h
  dsimp only at h
  refine (say_frame s "*** Calculation of B term").trans ?_
  have hn' : n ≤ (s.say "*** Calculation of B term").next := by rw [say_next]; exact hn
  rw [← say_terms s "*** Calculation of B term"]
  generalize s.say "*** Calculation of B term" = s at *
  split at h
  · obtain ⟨u1, h1, h⟩ := Res.bind_eq_ok.1 h
    obtain ⟨u2, h2, h⟩ := Res.bind_eq_ok.1 h
    obtain ⟨u3, h3, h⟩ := Res.bind_eq_ok.1 h
    obtain ⟨u4, h4, h⟩ := Res.bind_eq_ok.1 h
    have f0 := (alloc_frame (n := n) (W := (· ∈ (s.terms .b).cols)) s (List.replicate s.lin.nk N.zero) hn').trans
      (setDt_frame _ ⟨(s.alloc (List.replicate s.lin.nk N.zero)).1.lin.nk, (s.alloc (List.replicate s.lin.nk N.zero)).1.lin.k,
        some (s.alloc (List.replicate s.lin.nk N.zero)).2⟩)
    obtain ⟨f1, -, -⟩ := runSpectrum1_frame (n := n) (W := (· ∈ (s.terms .b).cols)) (hn'.trans (Nat.le_succ _))
      (fun d e => by cases e; exact hn') h1
    have g1 := f0.trans f1
    have f2 := (alloc_frame (n := n) (W := (· ∈ (s.terms .b).cols)) u1 (List.replicate u1.lin.nk N.zero)
      (hn'.trans g1.next)).trans
      (setTt_frame _ ⟨(u1.alloc (List.replicate u1.lin.nk N.zero)).1.lin.nk, (u1.alloc (List.replicate u1.lin.nk N.zero)).1.lin.k,
        some (u1.alloc (List.replicate u1.lin.nk N.zero)).2⟩)
    obtain ⟨f3, -, -⟩ := runSpectrum1_frame (n := n) (W := (· ∈ (s.terms .b).cols)) ((hn'.trans g1.next).trans (Nat.le_succ _))
      (fun d e => by cases e; exact hn'.trans g1.next) h2
    have g2 := (g1.trans f2).trans f3
    have f4 := runCore_frame (n := n) (W := (· ∈ (s.terms .b).cols))
      (fun a ha _ => by rw [g2.terms .b (by decide)] at ha; exact ha) h3
    have f5 := free_frame (n := n) (W := (· ∈ (s.terms .b).cols)) hn' h4
    have f6 := free_frame (n := n) (W := (· ∈ (s.terms .b).cols)) (hn'.trans g1.next) h
    exact ((g2.trans f4).trans f5).trans f6
  · exact runCore_frame (fun a ha _ => ha) h

/-- A run stores only into the columns of its structure and the arrays it allocates itself, and releases only the latter. -/
theorem run_frame {N : Num α} {sl : Slot} {a b : Field} {n : ℕ} {s s' : CState α} (hn : n ≤ s.next) (h : s.run N sl a b = .ok s') :
    Frame n (· ∈ (s.terms sl).cols) s s' := by
  unfold run at h
  split at h
  · next e =>
    subst e
    exact runB_frame hn h
  · refine (say_frame s "*** Calculation").trans (runCore_frame (fun a ha _ => ?_) h)
    rwa [say_terms] at ha

/-- A run of another structure than that of the B terms changes none of the pointers. -/
theorem run_fields {N : Num α} {sl : Slot} {a b : Field} {s s' : CState α} (hs : sl ≠ .b) (h : s.run N sl a b = .ok s') :
    s'.terms = s.terms ∧ s'.dt = s.dt ∧ s'.tt = s.tt ∧ s'.next = s.next := by
  unfold run at h
  rw [if_neg hs] at h
  obtain ⟨h1, h2, h3, h4, -⟩ := runCore_fields h
  rw [h1, h2, h3, h4]
  simp

theorem setSpectraB_eq (s : CState α) (a b : String) (nk : ℕ) (k p : Option ℕ) : s.setSpectraB a b nk k p =
    match setFlag a, setFlag b with
    | .theta, .theta => { s.say " - setting P_theta_theta" with tt := ⟨nk, k, p⟩ }
    | _, _ => { s.say " - setting P_delta_theta" with dt := ⟨nk, k, p⟩ } := by
  unfold setSpectraB
  generalize setFlag a = x
  generalize setFlag b = y
  cases x <;> cases y <;> rfl

theorem setSpectraB_frame {n : ℕ} {W : ℕ → Prop} (s : CState α) (a b : String) (nk : ℕ) (k p : Option ℕ) :
    Frame n W s (s.setSpectraB a b nk k p) := by
  rw [setSpectraB_eq]
  generalize setFlag a = x
  generalize setFlag b = y
  cases x <;> cases y
  · exact (say_frame s " - setting P_delta_theta").trans (setDt_frame _ _)
  · exact (say_frame s " - setting P_delta_theta").trans (setDt_frame _ _)
  · exact (say_frame s " - setting P_delta_theta").trans (setDt_frame _ _)
  · exact (say_frame s " - setting P_theta_theta").trans (setTt_frame _ _)

theorem setPkLin_fields {s s' : CState α} {k p : Option ℕ} {nk : ℕ} (h : s.setPkLin k p nk = .ok s') :
    s'.lin = ⟨nk, k, p⟩ ∧ s'.terms = s.terms ∧ s'.dt = s.dt ∧ s'.tt = s.tt ∧ s'.next = s.next ∧ s'.mem = s.mem ∧ s'.verb = s.verb := by
  rw [printK_say h]
  simp

theorem setVerbosity_fields (s : CState α) (m : String) : (s.setVerbosity m).lin = s.lin ∧ (s.setVerbosity m).terms = s.terms ∧
    (s.setVerbosity m).dt = s.dt ∧ (s.setVerbosity m).tt = s.tt ∧ (s.setVerbosity m).next = s.next ∧ (s.setVerbosity m).mem = s.mem ∧
    (s.setVerbosity m).out = s.out := by
  unfold setVerbosity
  dsimp only
  split <;> split <;> split <;> exact ⟨rfl, rfl, rfl, rfl, rfl, rfl, rfl⟩

end CState

end Verif
