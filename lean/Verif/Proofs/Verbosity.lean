import Verif.Model.Library

/-!
# Two C states that differ in verbosity and output only behave alike
-/

namespace Verif

variable {α : Type}

namespace CState

/-- The state with another verbosity and output. -/
def speak (s : CState α) (v : Verb) (o : List String) : CState α := { s with verb := v, out := o }

/-- `s'` differs from `s` in verbosity and output only; unless `c`, it reports only if `s` does. -/
def Like (c : Prop) (s s' : CState α) : Prop := (∃ v o, s' = s.speak v o) ∧ (c ∨ (s'.verb = .info → s.verb = .info))

variable {c : Prop}

theorem allocs_speak (v : Verb) (o : List String) : ∀ (ls : List (List α)) (s : CState α),
    (s.speak v o).allocs ls = ((s.allocs ls).1.speak v o, (s.allocs ls).2)
  | [], _ => rfl
  | l :: ls, s => by
    have h := allocs_speak v o ls (s.alloc l).1
    have h1 := congrArg Prod.fst h
    have h2 := congrArg Prod.snd h
    simp only [allocs]
    exact Prod.ext h1 (congrArg (s.next :: ·) h2)

theorem allocs_verb : ∀ (ls : List (List α)) (s : CState α), (s.allocs ls).1.verb = s.verb
  | [], _ => rfl
  | l :: ls, s => allocs_verb ls (s.alloc l).1

theorem Like.allocs {s s' : CState α} (h : Like c s s') (ls : List (List α)) :
    Like c (s.allocs ls).1 (s'.allocs ls).1 ∧ (s'.allocs ls).2 = (s.allocs ls).2 := by
  obtain ⟨⟨v, o, rfl⟩, h⟩ := h
  rw [allocs_speak]
  refine ⟨⟨⟨v, o, rfl⟩, h.imp id fun h hv => ?_⟩, rfl⟩
  rw [allocs_verb]
  exact h hv

theorem Like.alloc {s s' : CState α} (h : Like c s s') (l : List α) : Like c (s.alloc l).1 (s'.alloc l).1 ∧ (s'.alloc l).2 = (s.alloc l).2 := by
  obtain ⟨⟨v, o, rfl⟩, h⟩ := h
  exact ⟨⟨⟨v, o, rfl⟩, h⟩, rfl⟩

theorem Like.free {s s' t : CState α} (h : Like c s s') {a : ℕ} (e : s.free a = .ok t) : ∃ t', s'.free a = .ok t' ∧ Like c t t' := by
  obtain ⟨⟨v, o, rfl⟩, h⟩ := h
  revert e
  simp only [CState.free, speak]
  cases s.mem a with
  | none => exact fun e => nomatch e
  | some l =>
    rintro ⟨⟩
    exact ⟨_, rfl, ⟨v, o, rfl⟩, h⟩

theorem Like.frees : ∀ {as : List ℕ} {s s' t : CState α}, Like c s s' → s.frees as = .ok t → ∃ t', s'.frees as = .ok t' ∧ Like c t t'
  | [], _, _, _, h, e => by
    cases e
    exact ⟨_, rfl, h⟩
  | a :: as, s, s', t, h, e => by
    obtain ⟨u, e1, e2⟩ := Res.bind_eq_ok.1 e
    obtain ⟨u', e1', h'⟩ := h.free e1
    obtain ⟨t', e2', ht⟩ := h'.frees e2
    exact ⟨t', Res.bind_eq_ok.2 ⟨u', e1', e2'⟩, ht⟩

theorem Like.store {s s' t : CState α} (h : Like c s s') {a : ℕ} {l : List α} (e : s.store a l = .ok t) :
    ∃ t', s'.store a l = .ok t' ∧ Like c t t' := by
  obtain ⟨⟨v, o, rfl⟩, h⟩ := h
  revert e
  simp only [CState.store, speak]
  cases s.mem a with
  | none => exact fun e => nomatch e
  | some l0 =>
    dsimp only
    split
    · rintro ⟨⟩
      exact ⟨_, rfl, ⟨v, o, rfl⟩, h⟩
    · exact fun e => nomatch e

theorem Like.storeAll : ∀ {as : List ℕ} {ls : List (List α)} {s s' t : CState α}, Like c s s' → s.storeAll as ls = .ok t →
    ∃ t', s'.storeAll as ls = .ok t' ∧ Like c t t'
  | [], [], _, _, _, h, e => by
    cases e
    exact ⟨_, rfl, h⟩
  | a :: as, l :: ls, s, s', t, h, e => by
    obtain ⟨u, e1, e2⟩ := Res.bind_eq_ok.1 e
    obtain ⟨u', e1', h'⟩ := h.store e1
    obtain ⟨t', e2', ht⟩ := h'.storeAll e2
    exact ⟨t', Res.bind_eq_ok.2 ⟨u', e1', e2'⟩, ht⟩
  | [], _ :: _, _, _, _, _, e => nomatch e
  | _ :: _, [], _, _, _, _, e => nomatch e

theorem Like.storeAt {s s' t : CState α} (h : Like c s s') {p : Option ℕ} {l : List α} (e : s.storeAt p l = .ok t) :
    ∃ t', s'.storeAt p l = .ok t' ∧ Like c t t' := by
  cases p with
  | none => nomatch e
  | some a => exact h.store e

theorem Like.mem {s s' : CState α} (h : Like c s s') : s'.mem = s.mem := by
  obtain ⟨⟨v, o, rfl⟩, -⟩ := h
  rfl

theorem Like.lin {s s' : CState α} (h : Like c s s') : s'.lin = s.lin := by
  obtain ⟨⟨v, o, rfl⟩, -⟩ := h
  rfl

theorem Like.dt {s s' : CState α} (h : Like c s s') : s'.dt = s.dt := by
  obtain ⟨⟨v, o, rfl⟩, -⟩ := h
  rfl

theorem Like.tt {s s' : CState α} (h : Like c s s') : s'.tt = s.tt := by
  obtain ⟨⟨v, o, rfl⟩, -⟩ := h
  rfl

theorem Like.raw {s s' : CState α} (h : Like c s s') (p : Option ℕ) : s'.raw p = s.raw p := by
  obtain ⟨⟨v, o, rfl⟩, -⟩ := h
  rfl

theorem Like.arr {s s' : CState α} (h : Like c s s') (p : Option ℕ) (n : ℕ) : s'.arr p n = s.arr p n := by
  obtain ⟨⟨v, o, rfl⟩, -⟩ := h
  rfl

theorem Like.say {s s' : CState α} (h : Like c s s') (m m' : String) : Like c (s.say m) (s'.say m') := by
  obtain ⟨⟨v, o, rfl⟩, h⟩ := h
  have e : (s.say m).verb = s.verb := by
    simp only [CState.say]
    split <;> rfl
  have e' : ((s.speak v o).say m').verb = v := by
    simp only [CState.say]
    split <;> rfl
  refine ⟨?_, h.imp id fun h hv => e.trans (h (e'.symm.trans hv))⟩
  simp only [CState.say]
  split <;> split <;> exact ⟨_, _, rfl⟩

theorem Like.setVerbosity {s s' : CState α} (h : Like c s s') (mode : String) : Like c (s.setVerbosity mode) (s'.setVerbosity mode) := by
  obtain ⟨⟨v, o, rfl⟩, h⟩ := h
  simp only [CState.setVerbosity]
  split <;> split <;> split <;> first
    | exact ⟨⟨_, _, rfl⟩, .inr fun h => h⟩
    | exact ⟨⟨v, o, rfl⟩, h⟩

/-- The reads of `print_k`. -/
def Readable (s : CState α) (p : Option ℕ) (nk : ℕ) : Prop := ∃ l, s.raw p = .ok l ∧ nk ≠ 0 ∧ nk ≤ l.length

theorem rd_defined {l : List α} {i : ℕ} (h : i < l.length) : ∃ x, rd l i = .ok x := by
  refine ⟨l[i], ?_⟩
  simp [rd, h]

theorem readable_printK {s : CState α} {p : Option ℕ} {nk : ℕ} (h : s.Readable p nk) : s.printK p nk = .ok s ∨ s.printK p nk = .ok (s.say "range") := by
  obtain ⟨l, e, h0, h1⟩ := h
  simp only [printK]
  split
  · right
    obtain ⟨x, hx⟩ := rd_defined (l := l) (i := 0) (by omega)
    obtain ⟨y, hy⟩ := rd_defined (l := l) (i := subSize nk 1) (by
      have : subSize nk 1 ≤ nk - 1 := by
        have e1 : nk + sizeMod - 1 = nk - 1 + sizeMod := by omega
        simp only [subSize, e1, Nat.add_mod_right]
        exact Nat.mod_le _ _
      omega)
    rw [e, Res.ok_bind, hx, Res.ok_bind, hy, Res.ok_bind]
  · exact .inl rfl

theorem printK_ok {s t : CState α} {p : Option ℕ} {nk : ℕ} (e : s.printK p nk = .ok t) : t = s ∨ t = s.say "range" := by
  revert e
  simp only [printK]
  split
  · intro e
    obtain ⟨l, -, e⟩ := Res.bind_eq_ok.1 e
    obtain ⟨x, -, e⟩ := Res.bind_eq_ok.1 e
    obtain ⟨y, -, e⟩ := Res.bind_eq_ok.1 e
    cases e
    exact .inr rfl
  · rintro ⟨⟩
    exact .inl rfl

theorem Like.say_left {s s' : CState α} (h : Like c s s') (m : String) : Like c (s.say m) s' := by
  obtain ⟨⟨v, o, rfl⟩, h⟩ := h
  have e : (s.say m).verb = s.verb := by
    simp only [CState.say]
    split <;> rfl
  refine ⟨?_, h.imp id fun h hv => e.trans (h hv)⟩
  simp only [CState.say]
  split <;> exact ⟨_, _, rfl⟩

theorem Like.say_right {s s' : CState α} (h : Like c s s') (m : String) : Like c s (s'.say m) := by
  obtain ⟨⟨v, o, rfl⟩, h⟩ := h
  have e' : ((s.speak v o).say m).verb = v := by
    simp only [CState.say]
    split <;> rfl
  refine ⟨?_, h.imp id fun h hv => h (e'.symm.trans hv)⟩
  simp only [CState.say]
  split <;> exact ⟨_, _, rfl⟩

theorem Like.printK {s s' t : CState α} (h : Like c s s') {p : Option ℕ} {nk : ℕ} (hc : c → s.Readable p nk) (e : s.printK p nk = .ok t) :
    ∃ t', s'.printK p nk = .ok t' ∧ Like c t t' := by
  have ht : Like c t s' := by
    rcases printK_ok e with rfl | rfl
    · exact h
    · exact h.say_left _
  rcases h.2 with hc' | hv
  · have r : s'.Readable p nk := by
      obtain ⟨l, h1, h2⟩ := hc hc'
      exact ⟨l, (h.raw p).trans h1, h2⟩
    rcases readable_printK r with e' | e'
    · exact ⟨_, e', ht⟩
    · exact ⟨_, e', ht.say_right _⟩
  · by_cases hi : s'.verb = .info
    · have e0 := e
      simp only [CState.printK, if_pos (hv hi)] at e0
      obtain ⟨l, h1, e0⟩ := Res.bind_eq_ok.1 e0
      obtain ⟨x, h2, e0⟩ := Res.bind_eq_ok.1 e0
      obtain ⟨y, h3, -⟩ := Res.bind_eq_ok.1 e0
      refine ⟨s'.say "range", ?_, ht.say_right _⟩
      simp only [CState.printK, if_pos hi]
      rw [h.raw, h1, Res.ok_bind, h2, Res.ok_bind, h3, Res.ok_bind]
    · refine ⟨s', ?_, ht⟩
      simp only [CState.printK, if_neg hi]

theorem Like.setPkLin {s s' t : CState α} (h : Like c s s') {k p : Option ℕ} {nk : ℕ} (hc : c → s.Readable k nk) (e : s.setPkLin k p nk = .ok t) :
    ∃ t', s'.setPkLin k p nk = .ok t' ∧ Like c t t' := by
  refine Like.printK (s := { s with lin := ⟨nk, k, p⟩ }) (s' := { s' with lin := ⟨nk, k, p⟩ }) ?_ hc e
  obtain ⟨⟨v, o, rfl⟩, h⟩ := h
  exact ⟨⟨v, o, rfl⟩, h⟩

theorem Like.withTerms {s s' : CState α} (h : Like c s s') (sl : Slot) (t : CTerms) :
    Like c { s with terms := Function.update s.terms sl t } { s' with terms := Function.update s'.terms sl t } := by
  obtain ⟨⟨v, o, rfl⟩, h⟩ := h
  exact ⟨⟨v, o, rfl⟩, h⟩

theorem Like.setTerms {s s' t : CState α} (h : Like c s s') {sl : Slot} {nk : ℕ} {k : Option ℕ} {cols : List ℕ}
    (hc : c → s.Readable k nk) (e : s.setTerms sl nk k cols = .ok t) : ∃ t', s'.setTerms sl nk k cols = .ok t' ∧ Like c t t' :=
  (h.withTerms sl ⟨nk, k, cols⟩).printK hc e

theorem Like.setSpectraB {s s' : CState α} (h : Like c s s') (a b : String) (nk : ℕ) (k p : Option ℕ) :
    Like c (s.setSpectraB a b nk k p) (s'.setSpectraB a b nk k p) := by
  have hd : ∀ {u u' : CState α}, Like c u u' → ∀ q, Like c { u with dt := q } { u' with dt := q } := by
    rintro u u' ⟨⟨v, o, rfl⟩, h⟩ q
    exact ⟨⟨v, o, rfl⟩, h⟩
  have ht : ∀ {u u' : CState α}, Like c u u' → ∀ q, Like c { u with tt := q } { u' with tt := q } := by
    rintro u u' ⟨⟨v, o, rfl⟩, h⟩ q
    exact ⟨⟨v, o, rfl⟩, h⟩
  simp only [CState.setSpectraB]
  cases setFlag a
  · exact hd (h.say _ _) _
  · cases setFlag b
    · exact hd (h.say _ _) _
    · exact ht (h.say _ _) _

theorem Like.runCore {s s' t : CState α} (h : Like c s s') {N : Num α} {sl : Slot} {a b : Field} (e : s.runCore N sl a b = .ok t) :
    ∃ t', s'.runCore N sl a b = .ok t' ∧ Like c t t' := by
  have h0 := h
  obtain ⟨⟨v, o, rfl⟩, -⟩ := h
  obtain ⟨ks, e1, e⟩ := Res.bind_eq_ok.1 e
  obtain ⟨lin, e2, e⟩ := Res.bind_eq_ok.1 e
  obtain ⟨dt, e3, e⟩ := Res.bind_eq_ok.1 e
  obtain ⟨tt, e4, e⟩ := Res.bind_eq_ok.1 e
  obtain ⟨r, e5, e⟩ := Res.bind_eq_ok.1 e
  obtain ⟨t', e', ht⟩ := h0.storeAll e
  exact ⟨t', Res.bind_eq_ok.2 ⟨ks, e1, Res.bind_eq_ok.2 ⟨lin, e2, Res.bind_eq_ok.2 ⟨dt, e3, Res.bind_eq_ok.2 ⟨tt, e4,
    Res.bind_eq_ok.2 ⟨r, e5, e'⟩⟩⟩⟩⟩, ht⟩

theorem mapM_congr {β γ : Type} {f g : β → Res γ} (h : ∀ b, f b = g b) (l : List β) : l.mapM f = l.mapM g := by
  rw [funext h]

theorem Like.runSpectrum1 {s s' t : CState α} (h : Like c s s') {N : Num α} {a b : Field} {p : CPk} (hc : c → p.nk ≠ 0)
    (e : s.runSpectrum1 N a b p = .ok t) : ∃ t', s'.runSpectrum1 N a b p = .ok t' ∧ Like c t t' := by
  obtain ⟨ha, ea⟩ := h.allocs (List.replicate 5 (List.replicate p.nk N.zero))
  obtain ⟨s1, e1, e⟩ := Res.bind_eq_ok.1 e
  obtain ⟨s2, e2, e⟩ := Res.bind_eq_ok.1 e
  obtain ⟨ks, e3, e⟩ := Res.bind_eq_ok.1 e
  obtain ⟨cs, e4, e⟩ := Res.bind_eq_ok.1 e
  obtain ⟨s3, e5, e⟩ := Res.bind_eq_ok.1 e
  have hr : c → (s.allocs (List.replicate 5 (List.replicate p.nk N.zero))).1.Readable p.k p.nk := by
    intro hc'
    obtain ⟨ks', e2', -⟩ := Res.bind_eq_ok.1 e2
    have key : ∀ {u : CState α}, u = s1 ∨ u = s1.say "*** Calculation of power spectrum at 1 loop" →
        u.terms .s1 = ⟨p.nk, p.k, (s.allocs (List.replicate 5 (List.replicate p.nk N.zero))).2⟩ ∧
        u.mem = (s.allocs (List.replicate 5 (List.replicate p.nk N.zero))).1.mem := by
      have k1 : s1.terms .s1 = ⟨p.nk, p.k, (s.allocs (List.replicate 5 (List.replicate p.nk N.zero))).2⟩ ∧
          s1.mem = (s.allocs (List.replicate 5 (List.replicate p.nk N.zero))).1.mem := by
        rcases printK_ok e1 with rfl | rfl
        · exact ⟨by simp, rfl⟩
        · simp only [CState.say]
          split <;> exact ⟨by simp, rfl⟩
      rintro u (rfl | rfl)
      · exact k1
      · simp only [CState.say]
        split <;> exact k1
    obtain ⟨kt, km⟩ := key (.inr rfl)
    rw [kt] at e2'
    simp only [CState.arr, if_neg (hc hc')] at e2'
    obtain ⟨l, h1, h2⟩ := Res.bind_eq_ok.1 e2'
    refine ⟨l, ?_, hc hc', ?_⟩
    · rw [← h1]
      cases hk : p.k with
      | none => rfl
      | some x => simp only [CState.raw, km]
    · by_contra hn
      rw [if_neg hn] at h2
      nomatch h2
  obtain ⟨s1', e1', h1⟩ := ha.setTerms hr e1
  obtain ⟨s2', e2', h2⟩ := (h1.say "*** Calculation of power spectrum at 1 loop" "*** Calculation of power spectrum at 1 loop").runCore e2
  obtain ⟨s3', e5', h3⟩ := h2.storeAt e5
  obtain ⟨t', e', ht⟩ := h3.frees e
  refine ⟨t', ?_, ht⟩
  simp only [CState.runSpectrum1, ea]
  refine Res.bind_eq_ok.2 ⟨s1', e1', Res.bind_eq_ok.2 ⟨s2', e2', Res.bind_eq_ok.2 ⟨ks, (h2.arr ..).trans e3,
    Res.bind_eq_ok.2 ⟨cs, (mapM_congr (fun a => h2.arr _ _) _).trans e4, Res.bind_eq_ok.2 ⟨s3', e5', e'⟩⟩⟩⟩⟩

theorem Like.setDt {s s' : CState α} (h : Like c s s') (q : CPk) : Like c { s with dt := q } { s' with dt := q } := by
  obtain ⟨⟨v, o, rfl⟩, h⟩ := h
  exact ⟨⟨v, o, rfl⟩, h⟩

theorem Like.setTt {s s' : CState α} (h : Like c s s') (q : CPk) : Like c { s with tt := q } { s' with tt := q } := by
  obtain ⟨⟨v, o, rfl⟩, h⟩ := h
  exact ⟨⟨v, o, rfl⟩, h⟩

theorem Like.setMem {s s' : CState α} (h : Like c s s') (m : ℕ → Option (List α)) : Like c { s with mem := m } { s' with mem := m } := by
  obtain ⟨⟨v, o, rfl⟩, h⟩ := h
  exact ⟨⟨v, o, rfl⟩, h⟩

theorem say_linear (s : CState α) (m : String) : (s.say m).lin = s.lin := by
  simp only [CState.say]
  split <;> rfl

theorem free_lin {s t : CState α} {a : ℕ} (e : s.free a = .ok t) : t.lin = s.lin := by
  simp only [CState.free] at e
  split at e
  · nomatch e
  · cases e
    rfl

theorem frees_lin : ∀ {as : List ℕ} {s t : CState α}, s.frees as = .ok t → t.lin = s.lin
  | [], _, _, e => by
    cases e
    rfl
  | a :: as, s, t, e => by
    obtain ⟨u, e1, e2⟩ := Res.bind_eq_ok.1 e
    exact (frees_lin e2).trans (free_lin e1)

theorem store_lin {s t : CState α} {a : ℕ} {l : List α} (e : s.store a l = .ok t) : t.lin = s.lin := by
  simp only [CState.store] at e
  split at e
  · nomatch e
  · split at e
    · cases e
      rfl
    · nomatch e

theorem storeAll_lin : ∀ {as : List ℕ} {ls : List (List α)} {s t : CState α}, s.storeAll as ls = .ok t → t.lin = s.lin
  | [], [], _, _, e => by
    cases e
    rfl
  | a :: as, l :: ls, s, t, e => by
    obtain ⟨u, e1, e2⟩ := Res.bind_eq_ok.1 e
    exact (storeAll_lin e2).trans (store_lin e1)
  | [], _ :: _, _, _, e => nomatch e
  | _ :: _, [], _, _, e => nomatch e

theorem runCore_lin {s t : CState α} {N : Num α} {sl : Slot} {a b : Field} (e : s.runCore N sl a b = .ok t) : t.lin = s.lin := by
  obtain ⟨ks, e1, e⟩ := Res.bind_eq_ok.1 e
  obtain ⟨lin, e2, e⟩ := Res.bind_eq_ok.1 e
  obtain ⟨dt, e3, e⟩ := Res.bind_eq_ok.1 e
  obtain ⟨tt, e4, e⟩ := Res.bind_eq_ok.1 e
  obtain ⟨r, e5, e⟩ := Res.bind_eq_ok.1 e
  exact storeAll_lin e

theorem allocs_lin : ∀ (ls : List (List α)) (s : CState α), (s.allocs ls).1.lin = s.lin
  | [], _ => rfl
  | l :: ls, s => allocs_lin ls (s.alloc l).1

theorem setTerms_lin {s t : CState α} {sl : Slot} {nk : ℕ} {k : Option ℕ} {cols : List ℕ} (e : s.setTerms sl nk k cols = .ok t) :
    t.lin = s.lin := by
  rcases printK_ok e with rfl | rfl
  · rfl
  · exact say_linear _ _

theorem runSpectrum1_lin {s t : CState α} {N : Num α} {a b : Field} {p : CPk} (e : s.runSpectrum1 N a b p = .ok t) : t.lin = s.lin := by
  obtain ⟨s1, e1, e⟩ := Res.bind_eq_ok.1 e
  obtain ⟨s2, e2, e⟩ := Res.bind_eq_ok.1 e
  obtain ⟨ks, e3, e⟩ := Res.bind_eq_ok.1 e
  obtain ⟨cs, e4, e⟩ := Res.bind_eq_ok.1 e
  obtain ⟨s3, e5, e⟩ := Res.bind_eq_ok.1 e
  have h3 : s3.lin = s2.lin := by
    cases hp : p.pk with
    | none =>
      rw [hp] at e5
      nomatch e5
    | some x =>
      rw [hp] at e5
      exact store_lin e5
  rw [frees_lin e, h3, runCore_lin e2, say_linear, setTerms_lin e1, allocs_lin]

theorem Like.runB {s s' t : CState α} (h : Like c s s') {N : Num α} (hc : c → s.lin.nk ≠ 0) (e : s.runB N = .ok t) :
    ∃ t', s'.runB N = .ok t' ∧ Like c t t' := by
  have h1 := h.say "*** Calculation of B term" "*** Calculation of B term"
  have l1 := say_linear s "*** Calculation of B term"
  simp only [CState.runB] at e ⊢
  generalize s.say "*** Calculation of B term" = u at e h1 l1
  generalize s'.say "*** Calculation of B term" = u' at h1 ⊢
  rw [h1.dt, h1.tt]
  split
  · next hz =>
    rw [if_pos hz] at e
    rw [h1.lin]
    obtain ⟨h2, en⟩ := h1.alloc (List.replicate u.lin.nk N.zero)
    have l2 : (u.alloc (List.replicate u.lin.nk N.zero)).1.lin = u.lin := rfl
    rw [en, h2.lin]
    generalize (u.alloc (List.replicate u.lin.nk N.zero)).1 = d at e h2 l2 ⊢
    generalize (u'.alloc (List.replicate u.lin.nk N.zero)).1 = d' at h2 ⊢
    obtain ⟨s1, e1, e⟩ := Res.bind_eq_ok.1 e
    have l3 := runSpectrum1_lin e1
    obtain ⟨s1', e1', h3⟩ := (h2.setDt ⟨d.lin.nk, d.lin.k, some (u.alloc (List.replicate u.lin.nk N.zero)).2⟩).runSpectrum1
      (fun hc' => by dsimp only; rw [l2, l1]; exact hc hc') e1
    obtain ⟨h4, en'⟩ := h3.alloc (List.replicate s1.lin.nk N.zero)
    have l4 : (s1.alloc (List.replicate s1.lin.nk N.zero)).1.lin = s1.lin := rfl
    obtain ⟨s2, e2, e⟩ := Res.bind_eq_ok.1 e
    obtain ⟨s2', e2', h5⟩ := (h4.setTt ⟨(s1.alloc (List.replicate s1.lin.nk N.zero)).1.lin.nk, (s1.alloc (List.replicate s1.lin.nk N.zero)).1.lin.k,
      some (s1.alloc (List.replicate s1.lin.nk N.zero)).2⟩).runSpectrum1 (fun hc' => by dsimp only; rw [l4, l3]; dsimp only; rw [l2, l1]; exact hc hc') e2
    obtain ⟨s3, e3, e⟩ := Res.bind_eq_ok.1 e
    obtain ⟨s3', e3', h6⟩ := h5.runCore e3
    obtain ⟨s4, e4, e⟩ := Res.bind_eq_ok.1 e
    obtain ⟨s4', e4', h7⟩ := h6.free e4
    obtain ⟨t', e', h8⟩ := h7.free e
    rw [h2.lin] at e1'
    rw [h4.lin] at e2'
    refine ⟨t', Res.bind_eq_ok.2 ⟨s1', e1', ?_⟩, h8⟩
    rw [h3.lin, en', h4.lin]
    exact Res.bind_eq_ok.2 ⟨s2', e2', Res.bind_eq_ok.2 ⟨s3', e3', Res.bind_eq_ok.2 ⟨s4', e4', e'⟩⟩⟩
  · next hz =>
    rw [if_neg hz] at e
    exact h1.runCore e

theorem Like.run {s s' t : CState α} (h : Like c s s') {N : Num α} {sl : Slot} {a b : Field} (hc : c → s.lin.nk ≠ 0)
    (e : s.run N sl a b = .ok t) : ∃ t', s'.run N sl a b = .ok t' ∧ Like c t t' := by
  simp only [CState.run] at e ⊢
  split
  · next hb =>
    rw [if_pos hb] at e
    exact h.runB hc e
  · next hb =>
    rw [if_neg hb] at e
    exact (h.say _ _).runCore e

end CState

end Verif
