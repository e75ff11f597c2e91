import Verif.Proofs.Heap

/-!
# C55, C61: heap blocks of the runs, and variables shared by the threads

`Balanced s s'` says that between `s` and `s'` nothing leaked and nothing was released that had not been allocated in between: the blocks
in use are the same, and the released blocks are exactly those allocated, each once.
-/

namespace Verif

/-- Every block allocated between `s` and `s'` (those numbered from `s.next` to `s'.next`) was released exactly once, nothing else was. -/
structure Balanced (s s' : HeapSt) : Prop where
  live : s'.live = s.live
  next : s.next ≤ s'.next
  once : ∃ fr, s'.freed = s.freed ++ fr ∧ fr.Nodup ∧ ∀ b, b ∈ fr ↔ s.next ≤ b ∧ b < s'.next

theorem Inv.balanced {s s' : HeapSt} {S : Set Var} (h : Inv s S ∅ s') : Balanced s s' where
  live := by ext b; simpa using h.live b
  next := h.le
  once := by
    obtain ⟨fr, h1, h2, _, h4⟩ := h.freed
    exact ⟨fr, h1, h2, fun b => by simpa using (h4 b).symm⟩

theorem Balanced.trans {s s1 s2 : HeapSt} (h : Balanced s s1) (h' : Balanced s1 s2) : Balanced s s2 where
  live := h'.live.trans h.live
  next := h.next.trans h'.next
  once := by
    obtain ⟨f1, a1, b1, c1⟩ := h.once
    obtain ⟨f2, a2, b2, c2⟩ := h'.once
    refine ⟨f1 ++ f2, by rw [a2, a1, List.append_assoc], ?_, ?_⟩
    · rw [List.nodup_append]
      refine ⟨b1, b2, ?_⟩
      intro x hx y hy e
      have := (c1 x).mp hx
      have := (c2 y).mp hy
      omega
    · intro b
      rw [List.mem_append, c1, c2]
      have := h.next
      have := h'.next
      omega

theorem Balanced.refl (s : HeapSt) : Balanced s s where
  live := rfl
  next := le_refl _
  once := ⟨[], by simp, by simp, fun b => by simp⟩

/-- The blocks in use have been handed out. -/
def HeapSt.Sound (s : HeapSt) : Prop := ∀ b ∈ s.live, b < s.next

/-- A variable points to a block in use. -/
def HeapSt.Points (s : HeapSt) (v : Var) : Prop := ∃ b ∈ s.live, s.ptr v = some b

theorem Balanced.sound {s s' : HeapSt} (h : Balanced s s') (hs : s.Sound) : s'.Sound := fun b hb =>
  lt_of_lt_of_le (hs b (h.live ▸ hb)) h.next

theorem Trace.assigned {r : RunKind} {m : ℕ} {l : List Act} (hl : r.Trace m l) {v : Var} (hv : v.owner = none) :
    .alloc v ∉ l ∧ ∀ w, .copy v w ∉ l := by
  have := Ok.trace hl (S := {v | v.owner = none}) (H := ∅) (fun _ h => h) (by simp) (fun v h => Or.inr (RunKind.shared_owner h))
  exact this.assigned v (by simp [priv, hv])

/-- Each of the six runs, with any number of threads and however their actions interleave, uses no released block and releases exactly
once every block it allocates; the arrays of the caller and the pointers to them are left alone. -/
theorem C55_run {r : RunKind} {m : ℕ} {l : List Act} (hl : r.Trace m l) {s : HeapSt} (hs : s.Sound) (hp : ∀ v, r.shared v → s.Points v) :
    ∃ s', s.exec l = .ok s' ∧ Balanced s s' ∧ ∀ v, v.owner = none → s'.ptr v = s.ptr v := by
  have i := Inv.start (S := {v | r.shared v}) hs hp
  obtain ⟨s', e, i'⟩ := i.exec (Ok.trace hl (fun v h => RunKind.shared_owner h) (by simp) (fun v h => Or.inr h))
  exact ⟨s', e, i'.balanced, fun v hv => HeapSt.exec_ptr e (Trace.assigned hl hv).1 (Trace.assigned hl hv).2⟩

theorem HeapSt.exec_next {s s' : HeapSt} {l : List Act} (h : s.exec l = .ok s') : s.next ≤ s'.next := by
  induction l generalizing s with
  | nil => cases h; exact le_refl _
  | cons a l ih =>
    obtain ⟨s1, e1, e2⟩ := Res.bind_eq_ok.mp h
    refine le_trans ?_ (ih e2)
    cases a with
    | alloc u => cases e1; exact Nat.le_succ _
    | free u =>
      simp only [HeapSt.step] at e1
      split at e1
      · cases e1; exact le_refl _
      · split at e1 <;> cases e1
        exact le_refl _
    | use u =>
      simp only [HeapSt.step] at e1
      split at e1
      · cases e1
      · split at e1 <;> cases e1
        exact le_refl _
    | copy u w => cases e1; exact le_refl _
    | assign u => cases e1; exact le_refl _

theorem spectrum_trace_ends {m : ℕ} {l : List Act} {out : Var} (hl : RunKind.SpectrumTrace m out l) {s : HeapSt} (hs : s.Sound)
    (hk : s.Points (.lin "k")) (hpk : s.Points (.lin "pk")) (hout : s.Points out) (ho : out.owner = none)
    (hne : ∀ f, out ≠ .terms .s1 f) : ∃ s', s.exec l = .ok s' ∧ Balanced s s' ∧
      ∀ v ∈ tempVars, ∃ b, s'.ptr v = some b ∧ s.next ≤ b ∧ b < s'.next := by
  obtain ⟨run, asm, h1, h2, rfl⟩ := hl
  have e1 : RunKind.callocs = tempVars.map .alloc := rfl
  have e2 : RunKind.freeTerms = tempVars.map .free := rfl
  let S : Set Var := {v | v = .lin "k" ∨ v = .lin "pk" ∨ v = out}
  have i0 := Inv.start (S := S) hs (by rintro v (rfl | rfl | rfl) <;> assumption)
  have hSt : ∀ f, Var.terms .s1 f ∉ S := by
    rintro f (h | h | h)
    · cases h
    · cases h
    · exact hne f h.symm
  have hS : ∀ v ∈ S, v.owner = none := by
    rintro v (rfl | rfl | rfl)
    · rfl
    · rfl
    · exact ho
  obtain ⟨s1, x1, i1⟩ := i0.exec (Ok.allocs (O := Set.univ) tempVars_nodup (fun _ _ => trivial) (by simp)
    (fun v hv => by obtain ⟨f, _, rfl⟩ := mem_tempVars hv; exact hSt f))
  obtain ⟨s2, x2, i2⟩ := i1.copy (v := .terms .s1 "k") (w := .lin "k")
    (by
      rintro (h | h)
      · exact h
      · obtain ⟨f, hf, e⟩ := mem_tempVars h
        cases e; exact hf rfl) (Or.inl rfl)
  have oS : ∀ v ∈ insert (Var.terms .s1 "k") S, v.owner = none := by
    rintro v (rfl | hv)
    · rfl
    · exact hS v hv
  have oH : ∀ v ∈ (∅ : Set Var) ∪ {v | v ∈ tempVars}, v.owner = none := by
    rintro v (hv | hv)
    · exact hv.elim
    · obtain ⟨f, _, rfl⟩ := mem_tempVars hv; rfl
  have hr : ∀ v, RunKind.s1.shared v → v ∈ (∅ : Set Var) ∪ {v | v ∈ tempVars} ∨ v ∈ insert (Var.terms .s1 "k") S := fun v hv => by
    rcases s1_shared hv with rfl | rfl | rfl | h
    · exact Or.inr (Or.inr (Or.inl rfl))
    · exact Or.inr (Or.inr (Or.inr (Or.inl rfl)))
    · exact Or.inr (Or.inl rfl)
    · exact Or.inl (Or.inr h)
  obtain ⟨s3, x3, i3⟩ := i2.exec (Ok.trace h1 oS oH hr)
  obtain ⟨s4, x4, i4⟩ := i3.exec (Ok.body (O := priv) h2 (fun _ => by simp [priv, Var.owner])
    (fun b hb => by simpa [Var.owner] using oH _ hb) (fun b hb => by simpa [Var.owner] using oS _ hb)
    (fun v hv => by
      rcases hv with hv | rfl
      · exact hr v hv
      · exact Or.inr (Or.inr (Or.inr (Or.inr rfl)))))
  obtain ⟨s5, x5, i5⟩ := i4.exec (Ok.frees (O := Set.univ) tempVars_nodup (fun _ _ => trivial) (fun v hv => Or.inr hv))
  refine ⟨s5, ?_, ?_, ?_⟩
  · rw [e1, e2]
    exact HeapSt.exec_append_ok (HeapSt.exec_append_ok (HeapSt.exec_append_ok (HeapSt.exec_append_ok x1 x2) x3) x4) x5
  · have e : ((∅ : Set Var) ∪ {v | v ∈ tempVars}) \ {v | v ∈ tempVars} = ∅ := by simp
    rw [e] at i5
    exact i5.balanced
  · intro v hv
    obtain ⟨b, hb, h1, h2⟩ := i4.held v (Or.inr hv)
    refine ⟨b, ?_, h1, lt_of_lt_of_le h2 (HeapSt.exec_next x5)⟩
    rw [HeapSt.exec_ptr x5 (by simp) (by simp)]
    exact hb

/-- The self-contained one-loop spectrum, called with modes from the linear spectrum and a place for the values in use, releases exactly
once all it allocates and uses no released block. -/
theorem C55_spectrum {m : ℕ} {l : List Act} {out : Var} (hl : RunKind.SpectrumTrace m out l) {s : HeapSt} (hs : s.Sound)
    (hk : s.Points (.lin "k")) (hpk : s.Points (.lin "pk")) (hout : s.Points out) (ho : out.owner = none)
    (hne : ∀ f, out ≠ .terms .s1 f) : ∃ s', s.exec l = .ok s' ∧ Balanced s s' := by
  obtain ⟨s', h, h', _⟩ := spectrum_trace_ends hl hs hk hpk hout ho hne
  exact ⟨s', h, h'⟩

/-- The variables that a run of the B term without spectra leaves pointing elsewhere. -/
def stale : Var → Bool
  | .dt _ | .tt _ | .terms .s1 _ => true
  | _ => false

theorem Body.assigned {th : ℕ} {A : Var → Prop} {l : List Act} (h : Body th A l) {v : Var} (hv : v.owner = none) :
    .alloc v ∉ l ∧ ∀ w, .copy v w ∉ l := by
  obtain ⟨evs, he, rfl⟩ := h
  constructor
  · intro hm
    obtain ⟨e, _, hm⟩ := List.mem_flatMap.mp hm
    cases e with
    | touch u => simp [Ev.acts] at hm
    | interp us =>
      simp only [Ev.acts, List.mem_append, List.mem_cons, List.mem_map, List.not_mem_nil, or_false] at hm
      rcases hm with ((h | h) | ⟨b, _, h⟩) | (h | h) <;> cases h <;> simp [Var.owner] at hv
  · intro w hm
    obtain ⟨e, _, hm⟩ := List.mem_flatMap.mp hm
    cases e with
    | touch u => simp [Ev.acts] at hm
    | interp us =>
      simp only [Ev.acts, List.mem_append, List.mem_cons, List.mem_map, List.not_mem_nil, or_false] at hm
      rcases hm with ((h | h) | ⟨b, _, h⟩) | (h | h) <;> cases h

theorem Parallel.assigned {r : RunKind} {m : ℕ} {progs : ℕ → List Act} {par : List (ℕ × Act)}
    (h : ∀ th < m, r.ThreadTrace th (progs th)) (hi : Interleaving m progs par) {v : Var} (hv : v.owner = none) :
    .alloc v ∉ par.map Prod.snd ∧ ∀ w, .copy v w ∉ par.map Prod.snd := by
  have := Ok.parallel h hi (S := {v | v.owner = none}) (H := ∅) (fun _ h => h) (by simp) (fun v h => Or.inr (RunKind.shared_owner h))
  exact this.assigned v (by simp [priv, hv])

theorem Spectrum.assigned {m : ℕ} {out : Var} {l : List Act} (hl : RunKind.SpectrumTrace m out l) {v : Var} (hv : v.owner = none)
    (hst : stale v = false) : .alloc v ∉ l ∧ ∀ w, .copy v w ∉ l := by
  obtain ⟨run, asm, h1, h2, rfl⟩ := hl
  have a := Trace.assigned h1 hv
  have b := Body.assigned h2 hv
  have hne : ∀ f, v ≠ .terms .s1 f := fun f e => by rw [e] at hst; cases hst
  constructor
  · simp [RunKind.callocs, RunKind.freeTerms, a.1, b.1, hne]
  · intro w
    simp [RunKind.callocs, RunKind.freeTerms, a.2 w, b.2 w, hne]

theorem Fallback.assigned {m : ℕ} {l : List Act} (hl : RunKind.FallbackTrace m l) {v : Var} (hv : v.owner = none)
    (hst : stale v = false) : .alloc v ∉ l ∧ ∀ w, .copy v w ∉ l := by
  obtain ⟨pre, sdt, stt, dbg, progs, par, h1, h2, h3, h4, h5, h6, rfl⟩ := hl
  have a := Body.assigned h1 hv
  have b := Spectrum.assigned h2 hv hst
  have c := Spectrum.assigned h3 hv hst
  have d := Body.assigned h4 hv
  have e := Parallel.assigned h5 h6 hv
  have hdt : ∀ f, v ≠ .dt f := fun f e => by rw [e] at hst; cases hst
  have htt : ∀ f, v ≠ .tt f := fun f e => by rw [e] at hst; cases hst
  constructor
  · simp only [List.mem_append, not_or]
    exact ⟨⟨⟨⟨a.1, ⟨⟨by simp [hdt], b.1⟩, by simp [htt]⟩, c.1⟩, d.1⟩, e.1⟩, by simp⟩
  · intro w
    simp only [List.mem_append, not_or]
    exact ⟨⟨⟨⟨a.2 w, ⟨⟨by simp [hdt], b.2 w⟩, by simp [htt]⟩, c.2 w⟩, d.2 w⟩, e.2 w⟩, by simp⟩

/-- The run of the B term that has to compute its spectra first releases them, the arrays of both one-loop spectra and all tables
exactly once, and uses none of them afterwards. -/
theorem C55_fallback {m : ℕ} {l : List Act} (hl : RunKind.FallbackTrace m l) {s : HeapSt} (hs : s.Sound)
    (hk : s.Points (.lin "k")) (hpk : s.Points (.lin "pk")) (ht : ∀ f ∈ RunKind.b.arrays, s.Points (.terms .b f)) :
    ∃ s', s.exec l = .ok s' ∧ Balanced s s' ∧ ∀ v, v.owner = none → stale v = false → s'.ptr v = s.ptr v := by
  have i := Inv.start (S := fallbackVars) hs (by
    rintro v (rfl | rfl | ⟨f, hf, rfl⟩)
    · exact hk
    · exact hpk
    · exact ht f hf)
  obtain ⟨s', e, i', _⟩ := i.fallback hl
  exact ⟨s', e, i'.balanced, fun v hv hst => HeapSt.exec_ptr e (Fallback.assigned hl hv hst).1 (Fallback.assigned hl hv hst).2⟩

/-! ## Histories -/

/-- What a program does with the library: register an array of its own, or run a term. -/
inductive HeapCall
  | bind (v : Var) (b : ℕ)
  | run (r : RunKind) (m : ℕ) (l : List Act)
  | fallback (m : ℕ) (l : List Act)

/-- Execution of a history. -/
def HeapSt.calls (s : HeapSt) : List HeapCall → Res HeapSt
  | [] => .ok s
  | .bind v b :: cs => HeapSt.calls { s with ptr := fun u => if u = v then some b else s.ptr u } cs
  | .run _ _ l :: cs => s.exec l >>= fun s => s.calls cs
  | .fallback _ l :: cs => s.exec l >>= fun s => s.calls cs

/-- Every run is preceded by the registrations it needs, of arrays among `U`; `p` holds the registrations in force.  A run of the B term
without spectra voids those of the spectra and of the one-loop terms. -/
def Registered (U : Finset ℕ) : (Var → Option ℕ) → List HeapCall → Prop
  | _, [] => True
  | p, .bind v b :: cs => v.owner = none ∧ b ∈ U ∧ Registered U (fun u => if u = v then some b else p u) cs
  | p, .run r m l :: cs => r.Trace m l ∧ (∀ v, r.shared v → ∃ b ∈ U, p v = some b) ∧ Registered U p cs
  | p, .fallback m l :: cs => RunKind.FallbackTrace m l ∧ (∃ b ∈ U, p (.lin "k") = some b) ∧ (∃ b ∈ U, p (.lin "pk") = some b) ∧
      (∀ f ∈ RunKind.b.arrays, ∃ b ∈ U, p (.terms .b f) = some b) ∧ Registered U (fun u => if stale u then none else p u) cs

theorem history_balanced {cs : List HeapCall} {p : Var → Option ℕ} {s : HeapSt} (hs : s.Sound)
    (hp : ∀ v b, v.owner = none → p v = some b → s.ptr v = some b) (hpo : ∀ v, v.owner ≠ none → p v = none)
    (hr : Registered s.live p cs) : ∃ s', s.calls cs = .ok s' ∧ Balanced s s' := by
  induction cs generalizing p s with
  | nil => exact ⟨s, rfl, Balanced.refl s⟩
  | cons c cs ih =>
    have pts : ∀ v, (∃ b ∈ s.live, p v = some b) → s.Points v := fun v ⟨b, hb, e⟩ => by
      by_cases ho : v.owner = none
      · exact ⟨b, hb, hp v b ho e⟩
      · rw [hpo v ho] at e; cases e
    cases c with
    | bind v b =>
      obtain ⟨ho, hb, hr⟩ := hr
      have := ih (s := { s with ptr := fun u => if u = v then some b else s.ptr u }) hs (p := fun u => if u = v then some b else p u)
        (fun u c hu e => by
          by_cases huv : u = v
          · simp only [huv, if_true] at e ⊢; exact e
          · simp only [huv, if_false] at e ⊢; exact hp u c hu e)
        (fun u hu => by
          by_cases huv : u = v
          · exact absurd (huv ▸ ho) hu
          · simp only [huv, if_false]; exact hpo u hu) hr
      obtain ⟨s', e, hbal⟩ := this
      exact ⟨s', e, ⟨hbal.live, hbal.next, hbal.once⟩⟩
    | run r m l =>
      obtain ⟨hl, hsh, hr⟩ := hr
      obtain ⟨s1, e1, b1, k1⟩ := C55_run hl hs (fun v hv => pts v (hsh v hv))
      obtain ⟨s2, e2, b2⟩ := ih (s := s1) (b1.sound hs) (p := p) (fun v b ho e => (k1 v ho).trans (hp v b ho e)) hpo (by rw [b1.live]; exact hr)
      exact ⟨s2, by simp only [HeapSt.calls, e1, Res.ok_bind]; exact e2, b1.trans b2⟩
    | fallback m l =>
      obtain ⟨hl, hk, hpk, ht, hr⟩ := hr
      obtain ⟨s1, e1, b1, k1⟩ := C55_fallback hl hs (pts _ hk) (pts _ hpk) (fun f hf => pts _ (ht f hf))
      obtain ⟨s2, e2, b2⟩ := ih (s := s1) (b1.sound hs) (p := fun u => if stale u then none else p u)
        (fun v b ho e => by
          by_cases hst : stale v = true
          · simp [hst] at e
          · simp only [hst] at e
            exact (k1 v ho (by simpa using hst)).trans (hp v b ho e))
        (fun v ho => by
          by_cases hst : stale v = true
          · simp [hst]
          · simp only [hst]; exact hpo v ho) (by rw [b1.live]; exact hr)
      exact ⟨s2, by simp only [HeapSt.calls, e1, Res.ok_bind]; exact e2, b1.trans b2⟩

/-- Over every history of registrations and runs, in any order and with any numbers of threads, in which each run is preceded by the
registrations it needs, no run uses a released block and all blocks allocated by the library have been released exactly once.
Missing: after a run of the B term without spectra the spectra and the one-loop arrays have to be registered again, which the code does
not enforce, see the violations below. -/
theorem C55_history_partial {cs : List HeapCall} {s : HeapSt} (hs : s.Sound) (hr : Registered s.live (fun _ => none) cs) :
    ∃ s', s.calls cs = .ok s' ∧ Balanced s s' :=
  history_balanced hs (fun _ _ _ e => by cases e) (fun _ _ => rfl) hr

/-! ## Use after release -/

/-- The actions of one thread of the B run that allocates its tables, reads a value of a spectrum, and releases its tables. -/
def readThread (r : RunKind) (v : Var) : List Act :=
  r.assigns ++ (r.inits.flatMap fun T => T.allocs 0 ++ []) ++ [.use v] ++ r.frees.flatMap fun T => T.frees 0

theorem readThread_trace {r : RunKind} {v : Var} (hv : r.shared v) : r.Trace 1 (readThread r v) := by
  refine ⟨[], [], fun _ => readThread r v, (readThread r v).map fun a => (0, a), ⟨[], by simp, rfl⟩, ?_, ⟨?_, ?_⟩, ⟨[], by simp, rfl⟩, ?_⟩
  · intro th ht
    obtain rfl : th = 0 := by omega
    exact ⟨fun _ => [], [.use v], fun T => ⟨[], by simp, rfl⟩, ⟨[.touch v], by
      intro u hu
      have : u = v := by simpa using hu
      exact Or.inr (this ▸ hv), rfl⟩, rfl⟩
  · intro x hx
    obtain ⟨a, _, rfl⟩ := List.mem_map.mp hx
    exact Nat.one_pos
  · intro th ht
    obtain rfl : th = 0 := by omega
    rw [List.filter_eq_self.mpr (by simp), List.map_map]
    exact List.map_id _
  · simp [List.map_map, Function.comp_def]

theorem HeapSt.exec_dead {s : HeapSt} {v : Var} {b : ℕ} (hb : s.ptr v = some b) (hd : b ∉ s.live) (hn : b < s.next) {l : List Act}
    (hl : ∀ a ∈ l, (∃ u, a = .alloc u ∧ u ≠ v) ∨ ∃ u, a = .assign u) (l' : List Act) : (s.exec (l ++ .use v :: l')).isUB := by
  induction l generalizing s with
  | nil => exact ⟨"released block", by simp [HeapSt.exec, HeapSt.step, hb, hd]⟩
  | cons a l ih =>
    have ih' := fun (s : HeapSt) h1 h2 h3 => ih (s := s) h1 h2 h3 fun a ha => hl a (by simp [ha])
    rcases hl a (by simp) with ⟨u, rfl, hu⟩ | ⟨u, rfl⟩
    · refine ih' _ ?_ ?_ ?_
      · show (if v = u then _ else _) = _
        rw [if_neg (Ne.symm hu)]; exact hb
      · show b ∉ insert s.next s.live
        rw [Finset.mem_insert, not_or]
        exact ⟨by omega, hd⟩
      · show b < s.next + 1
        omega
    · exact ih' s hb hd hn

theorem readThread_dead {r : RunKind} {s : HeapSt} {v : Var} {b : ℕ} (ho : v.owner = none) (hb : s.ptr v = some b) (hd : b ∉ s.live)
    (hn : b < s.next) : (s.exec (readThread r v)).isUB := by
  unfold readThread
  rw [List.append_assoc, List.singleton_append]
  refine HeapSt.exec_dead hb hd hn ?_ _
  intro a ha
  rcases List.mem_append.mp ha with ha | ha
  · right
    cases r <;> simp [RunKind.assigns] at ha
    exact ⟨_, ha⟩
  · left
    obtain ⟨T, _, ha⟩ := List.mem_flatMap.mp ha
    rw [List.append_nil] at ha
    obtain ⟨f, _, rfl⟩ := List.mem_map.mp ha
    exact ⟨_, rfl, fun e => by rw [← e] at ho; cases ho⟩

/-- After every run of the B term that had to compute its spectra, the static spectra point to released blocks; a further run, which finds
them set, reads a released block. -/
theorem C55_second_run_violation {m : ℕ} {l : List Act} (hl : RunKind.FallbackTrace m l) {s : HeapSt} (hs : s.Sound)
    (hk : s.Points (.lin "k")) (hpk : s.Points (.lin "pk")) (ht : ∀ f ∈ RunKind.b.arrays, s.Points (.terms .b f)) :
    ∃ l', RunKind.b.Trace 1 l' ∧ (s.exec l).defined ∧ (s.exec (l ++ l')).isUB := by
  have i := Inv.start (S := fallbackVars) hs (by
    rintro v (rfl | rfl | ⟨f, hf, rfl⟩)
    · exact hk
    · exact hpk
    · exact ht f hf)
  obtain ⟨s', e, i', d⟩ := i.fallback hl
  obtain ⟨b, hb, h1, h2⟩ := d (.dt "pk") (Or.inl rfl)
  refine ⟨readThread .b (.dt "pk"), readThread_trace (Or.inr (Or.inr (Or.inr ⟨rfl, Or.inr (Or.inl rfl)⟩))), ⟨s', e⟩, ?_⟩
  rw [HeapSt.exec_append, e, Res.ok_bind]
  refine readThread_dead rfl hb ?_ h2
  rw [i'.balanced.live]
  exact fun h => absurd (hs b h) (by omega)

/-- After every self-contained one-loop spectrum the static term arrays point to released blocks; a run of the one-loop terms that follows
without new arrays uses a released block. -/
theorem C55_terms_violation {m : ℕ} {l : List Act} {out : Var} (hl : RunKind.SpectrumTrace m out l) {s : HeapSt} (hs : s.Sound)
    (hk : s.Points (.lin "k")) (hpk : s.Points (.lin "pk")) (hout : s.Points out) (ho : out.owner = none)
    (hne : ∀ f, out ≠ .terms .s1 f) : ∃ l', RunKind.s1.Trace 1 l' ∧ (s.exec l).defined ∧ (s.exec (l ++ l')).isUB := by
  obtain ⟨s', e, hb, hd⟩ := spectrum_trace_ends hl hs hk hpk hout ho hne
  obtain ⟨b, hp, h1, h2⟩ := hd (.terms .s1 "gamma1a_1loop") (by simp [tempVars])
  refine ⟨readThread .s1 (.terms .s1 "gamma1a_1loop"),
    readThread_trace (Or.inr (Or.inr (Or.inl ⟨_, by simp [RunKind.arrays], rfl⟩))), ⟨s', e⟩, ?_⟩
  rw [HeapSt.exec_append, e, Res.ok_bind]
  refine readThread_dead rfl hp ?_ h2
  rw [hb.live]
  exact fun h => absurd (hs b h) (by omega)

/-! ## Variables written by one thread and reached by another -/

/-- The variable an action writes (the pointer variable itself, not the block behind it). -/
def Act.writes : Act → Option Var
  | .alloc v | .copy v _ | .assign v => some v
  | .free _ | .use _ => none

/-- The variables an action reaches. -/
def Act.reaches : Act → List Var
  | .alloc v | .free v | .use v | .assign v => [v]
  | .copy v w => [v, w]

/-- No variable written by one thread of a parallel region is reached by another one, except in the run of the B term. -/
theorem C61_threads_apart_partial {r : RunKind} (hr : r ≠ .b) {i j : ℕ} (hij : i ≠ j) {li lj : List Act} (hi : r.ThreadTrace i li)
    (hj : r.ThreadTrace j lj) : ∀ a ∈ li, ∀ v, a.writes = some v → ∀ c ∈ lj, v ∉ c.reaches := by
  have key : ∀ {O S : Set Var}, ∀ {l : List Act} {H H' : Set Var}, Ok O S H l H' → ∀ a ∈ l, ∀ v ∈ a.reaches,
      v ∈ O ∨ v ∈ H ∨ v ∈ S ∨ a = .assign v := by
    intro O S l
    induction l with
    | nil => simp
    | cons a l ih =>
      intro H H' h c hc v hv
      rcases List.mem_cons.mp hc with rfl | hc'
      · cases c with
        | alloc u => left; simp only [Act.reaches, List.mem_singleton] at hv; exact hv ▸ h.1
        | free u => left; simp only [Act.reaches, List.mem_singleton] at hv; exact hv ▸ h.1
        | use u =>
          simp only [Act.reaches, List.mem_singleton] at hv
          subst hv
          rcases h.1 with h | h
          · exact Or.inr (Or.inl h)
          · exact Or.inr (Or.inr (Or.inl h))
        | copy u w => exact h.elim
        | assign u =>
          simp only [Act.reaches, List.mem_singleton] at hv
          exact Or.inr (Or.inr (Or.inr (by rw [hv])))
      · cases a with
        | alloc u =>
          rcases ih h.2.2.2 c hc' v hv with h' | (h' | h') | h'
          · exact Or.inl h'
          · exact Or.inl (h' ▸ h.1)
          · exact Or.inr (Or.inl h')
          · exact Or.inr (Or.inr h')
        | free u =>
          rcases ih h.2.2 c hc' v hv with h' | h' | h'
          · exact Or.inl h'
          · exact Or.inr (Or.inl h'.1)
          · exact Or.inr (Or.inr h')
        | use u => exact ih h.2 c hc' v hv
        | copy u w => exact h.elim
        | assign u => exact ih h c hc' v hv
  have noassign : ∀ {th l}, r.ThreadTrace th l → ∀ v, Act.assign v ∉ l := by
    rintro th l ⟨fill, loop, hf, hl, rfl⟩ v hv
    have body : ∀ {A : Var → Prop} {l : List Act}, Body th A l → Act.assign v ∉ l := by
      rintro A l ⟨evs, _, rfl⟩ h
      obtain ⟨e, _, h⟩ := List.mem_flatMap.mp h
      cases e with
      | touch u => simp [Ev.acts] at h
      | interp us => simp [Ev.acts] at h
    rcases List.mem_append.mp hv with hv | hv
    · rcases List.mem_append.mp hv with hv | hv
      · rcases List.mem_append.mp hv with hv | hv
        · cases r <;> simp [RunKind.assigns] at hv
          exact hr rfl
        · obtain ⟨T, _, h⟩ := List.mem_flatMap.mp hv
          rcases List.mem_append.mp h with h | h
          · simp [Tab.allocs] at h
          · exact body (hf T) h
      · exact body hl hv
    · obtain ⟨T, _, h⟩ := List.mem_flatMap.mp hv
      simp [Tab.frees] at h
  intro a ha v hv c hc hvc
  have hvi : v.owner = some i := by
    cases a with
    | alloc u =>
      cases hv
      by_contra hne
      exact ((Ok.thread hi).assigned v hne).1 ha
    | copy u w =>
      cases hv
      exact absurd ha (Ok.no_copy (Ok.thread hi) _ _)
    | assign u => cases hv; exact absurd ha (noassign hi v)
    | free u => cases hv
    | use u => cases hv
  rcases key (Ok.thread hj) c hc v hvc with h | h | h | h
  · have : v.owner = some j := h
    rw [hvi] at this
    exact hij (Option.some.inj this)
  · exact h.elim
  · have := RunKind.shared_owner h
    rw [hvi] at this
    cases this
  · exact noassign hj v (h ▸ hc)

/-- In the run of the B term every thread assigns the static copies of the two spectra (`src/calc_pkcorr_from_B.c:69-70`), which are not
private to the threads: any two threads write the same variable. -/
theorem C61_B_violation {i j : ℕ} {li lj : List Act} (hi : RunKind.b.ThreadTrace i li) (hj : RunKind.b.ThreadTrace j lj) :
    ∃ v, ∃ a ∈ li, ∃ c ∈ lj, a.writes = some v ∧ c.writes = some v := by
  obtain ⟨_, _, _, _, rfl⟩ := hi
  obtain ⟨_, _, _, _, rfl⟩ := hj
  exact ⟨.kernelB, .assign .kernelB, by simp [RunKind.assigns], .assign .kernelB, by simp [RunKind.assigns], rfl, rfl⟩

/-! ## Concrete cases -/

/-- A program with one array registered for everything. -/
def exHeap : HeapSt := ⟨fun v => if v.owner = none then some 0 else none, {0}, 1, []⟩

theorem exHeap_sound : exHeap.Sound := fun b hb => by
  have : b = 0 := by simpa [exHeap] using hb
  subst this; exact Nat.one_pos

theorem exHeap_points {v : Var} (h : v.owner = none) : exHeap.Points v := ⟨0, by simp [exHeap], if_pos h⟩

/-- One thread of the one-loop A run: fill a table, interpolate, store a value. -/
def exThread (th : ℕ) : List Act :=
  RunKind.a1.assigns ++
    (RunKind.a1.inits.flatMap fun T => T.allocs th ++ if T = .A1_q then [.use (.tab th .A1_q "x"), .use (.lin "pk")] else []) ++
    ([.use (.tab th .A1_mu "mu")] ++ Ev.acts th (.interp [true, false]) ++ [.use (.terms .a1 "A")]) ++
    RunKind.a1.frees.flatMap fun T => T.frees th

theorem exThread_trace (th : ℕ) : RunKind.a1.ThreadTrace th (exThread th) := by
  refine ⟨_, _, fun T => ?_, ?_, rfl⟩
  · split
    · next h =>
      subst h
      refine ⟨[.touch (.tab th .A1_q "x"), .touch (.lin "pk")], ?_, rfl⟩
      intro v hv
      simp only [List.mem_cons, Ev.touch.injEq, List.not_mem_nil, or_false] at hv
      rcases hv with rfl | rfl
      · exact Or.inl ⟨"x", by simp [Tab.allocated, Tab.isMu], rfl⟩
      · exact Or.inr (Or.inr rfl)
    · exact ⟨[], by simp, rfl⟩
  · refine ⟨[.touch (.tab th .A1_mu "mu"), .interp [true, false], .touch (.terms .a1 "A")], ?_, rfl⟩
    intro v hv
    simp only [List.mem_cons, Ev.touch.injEq, List.not_mem_nil, or_false, reduceCtorEq, false_or] at hv
    rcases hv with rfl | rfl
    · exact Or.inl ⟨.A1_mu, by simp [RunKind.reached], "mu", by simp [Tab.allocated, Tab.isMu], rfl⟩
    · exact Or.inr (Or.inr (Or.inr (Or.inl ⟨"A", by simp [RunKind.arrays], rfl⟩)))

/-- Two threads taking turns. -/
def exTurns : List (ℕ × Act) := (List.zipWith (fun a c => [(0, a), (1, c)]) (exThread 0) (exThread 1)).flatten

theorem exTurns_interleaving : Interleaving 2 exThread exTurns := by
  refine ⟨by decide, fun th ht => ?_⟩
  match th, ht with
  | 0, _ => rfl
  | 1, _ => rfl

theorem exTurns_trace : RunKind.a1.Trace 2 (exTurns.map Prod.snd) :=
  ⟨[], [], exThread, exTurns, ⟨[], by simp, rfl⟩, fun th _ => exThread_trace th, exTurns_interleaving, ⟨[], by simp, rfl⟩, by simp⟩

/-- Two threads of the one-loop A run taking turns, with tables, interpolation and stored values. -/
example : ∃ s', exHeap.exec (exTurns.map Prod.snd) = .ok s' ∧ Balanced exHeap s' :=
  let ⟨s', h1, h2, _⟩ := C55_run exTurns_trace exHeap_sound fun _ hv => exHeap_points (RunKind.shared_owner hv)
  ⟨s', h1, h2⟩

/-- The trace does allocate: twenty blocks. -/
example : ∃ s', exHeap.exec (exTurns.map Prod.snd) = .ok s' ∧ s'.next = 21 := ⟨_, rfl, rfl⟩

theorem exSpectrum_trace (out : Var) : RunKind.SpectrumTrace 1 out
    (RunKind.callocs ++ [.copy (.terms .s1 "k") (.lin "k")] ++ readThread .s1 (.lin "k") ++ [.use out] ++ RunKind.freeTerms) :=
  ⟨readThread .s1 (.lin "k"), [.use out], readThread_trace (Or.inl rfl), ⟨[.touch out], fun v hv => Or.inr (by simpa using hv), rfl⟩, rfl⟩

example : ∃ s', exHeap.exec (RunKind.callocs ++ [.copy (.terms .s1 "k") (.lin "k")] ++ readThread .s1 (.lin "k") ++ [.use (.dt "pk")] ++
    RunKind.freeTerms) = .ok s' ∧ Balanced exHeap s' :=
  C55_spectrum (exSpectrum_trace (.dt "pk")) exHeap_sound (exHeap_points rfl) (exHeap_points rfl) (exHeap_points rfl) rfl (by simp)

/-- A run of the B term without spectra. -/
def exFallback : List Act :=
  [] ++ ([.copy (.dt "k") (.lin "k"), .alloc (.dt "pk")] ++
    (RunKind.callocs ++ [.copy (.terms .s1 "k") (.lin "k")] ++ readThread .s1 (.lin "k") ++ [.use (.dt "pk")] ++ RunKind.freeTerms) ++
    [.copy (.tt "k") (.lin "k"), .alloc (.tt "pk")] ++
    (RunKind.callocs ++ [.copy (.terms .s1 "k") (.lin "k")] ++ readThread .s1 (.lin "k") ++ [.use (.tt "pk")] ++ RunKind.freeTerms)) ++ [] ++
    ((readThread .b (.tt "pk")).map fun a => (0, a)).map Prod.snd ++ [.free (.dt "pk"), .free (.tt "pk")]

theorem exFallback_trace : RunKind.FallbackTrace 1 exFallback := by
  refine ⟨[], _, _, [], fun _ => readThread .b (.tt "pk"), (readThread .b (.tt "pk")).map fun a => (0, a), ⟨[], by simp, rfl⟩,
    exSpectrum_trace _, exSpectrum_trace _, ⟨[], by simp, rfl⟩, ?_, ⟨?_, ?_⟩, rfl⟩
  · intro th ht
    obtain rfl : th = 0 := by omega
    exact ⟨fun _ => [], [.use (.tt "pk")], fun T => ⟨[], by simp, rfl⟩, ⟨[.touch (.tt "pk")], by
      intro u hu
      have : u = .tt "pk" := by simpa using hu
      exact Or.inr (Or.inr (Or.inr (Or.inr ⟨rfl, Or.inr (Or.inr (Or.inr this))⟩))), rfl⟩, rfl⟩
  · intro x hx
    obtain ⟨a, _, rfl⟩ := List.mem_map.mp hx
    exact Nat.one_pos
  · intro th ht
    obtain rfl : th = 0 := by omega
    rw [List.filter_eq_self.mpr (by simp), List.map_map]
    exact List.map_id _

example : ∃ s', exHeap.exec exFallback = .ok s' ∧ Balanced exHeap s' :=
  let ⟨s', h1, h2, _⟩ := C55_fallback exFallback_trace exHeap_sound (exHeap_points rfl) (exHeap_points rfl) fun _ _ => exHeap_points rfl
  ⟨s', h1, h2⟩

example : ∃ l', RunKind.b.Trace 1 l' ∧ (exHeap.exec exFallback).defined ∧ (exHeap.exec (exFallback ++ l')).isUB :=
  C55_second_run_violation exFallback_trace exHeap_sound (exHeap_points rfl) (exHeap_points rfl) fun _ _ => exHeap_points rfl

example : ∃ l', RunKind.s1.Trace 1 l' ∧ (exHeap.exec (RunKind.callocs ++ [.copy (.terms .s1 "k") (.lin "k")] ++ readThread .s1 (.lin "k") ++
    [.use (.dt "pk")] ++ RunKind.freeTerms)).defined ∧ (exHeap.exec (RunKind.callocs ++ [.copy (.terms .s1 "k") (.lin "k")] ++
    readThread .s1 (.lin "k") ++ [.use (.dt "pk")] ++ RunKind.freeTerms ++ l')).isUB :=
  C55_terms_violation (exSpectrum_trace (.dt "pk")) exHeap_sound (exHeap_points rfl) (exHeap_points rfl) (exHeap_points rfl) rfl (by simp)

/-- A history: registrations, the one-loop A run on two threads, the B term without spectra, then the one-loop A run again. -/
def exCalls : List HeapCall :=
  [.bind (.lin "k") 0, .bind (.lin "pk") 0] ++ RunKind.a1.arrays.map (fun f => .bind (.terms .a1 f) 0) ++
    RunKind.b.arrays.map (fun f => .bind (.terms .b f) 0) ++
    [.run .a1 2 (exTurns.map Prod.snd), .fallback 1 exFallback, .run .a1 2 (exTurns.map Prod.snd)]

example : ∃ s', (⟨fun _ => none, {0}, 1, []⟩ : HeapSt).calls exCalls = .ok s' ∧ Balanced ⟨fun _ => none, {0}, 1, []⟩ s' := by
  refine C55_history_partial exHeap_sound ?_
  have sh : ∀ v, RunKind.a1.shared v → v = .lin "k" ∨ v = .lin "pk" ∨ ∃ f ∈ RunKind.a1.arrays, v = .terms .a1 f := by
    rintro v (h | h | h | ⟨h, _⟩)
    · exact Or.inl h
    · exact Or.inr (Or.inl h)
    · exact Or.inr (Or.inr h)
    · cases h
  refine ⟨rfl, by simp, rfl, by simp, rfl, by simp, rfl, by simp, rfl, by simp, rfl, by simp, rfl, by simp, rfl, by simp, rfl, by simp,
    rfl, by simp, exTurns_trace, ?_, exFallback_trace, ⟨0, by simp, rfl⟩, ⟨0, by simp, rfl⟩, ?_, exTurns_trace, ?_, trivial⟩
  · intro v hv
    rcases sh v hv with rfl | rfl | ⟨f, hf, rfl⟩
    · exact ⟨0, by simp, rfl⟩
    · exact ⟨0, by simp, rfl⟩
    · simp only [RunKind.arrays, List.mem_cons, List.not_mem_nil, or_false] at hf
      rcases hf with rfl | rfl | rfl | rfl <;> exact ⟨0, by simp, rfl⟩
  · intro f hf
    simp only [RunKind.arrays, List.mem_cons, List.not_mem_nil, or_false] at hf
    rcases hf with rfl | rfl | rfl | rfl <;> exact ⟨0, by simp, rfl⟩
  · intro v hv
    rcases sh v hv with rfl | rfl | ⟨f, hf, rfl⟩
    · exact ⟨0, by simp, rfl⟩
    · exact ⟨0, by simp, rfl⟩
    · simp only [RunKind.arrays, List.mem_cons, List.not_mem_nil, or_false] at hf
      rcases hf with rfl | rfl | rfl | rfl <;> exact ⟨0, by simp, rfl⟩

/-- The threads of the example above. -/
example : ∀ a ∈ exThread 0, ∀ v, a.writes = some v → ∀ c ∈ exThread 1, v ∉ c.reaches :=
  C61_threads_apart_partial (by decide) (by decide) (exThread_trace 0) (exThread_trace 1)

example : RunKind.b.ThreadTrace 3 (RunKind.b.assigns ++ (RunKind.b.inits.flatMap fun T => T.allocs 3 ++ []) ++ [] ++
    RunKind.b.frees.flatMap fun T => T.frees 3) :=
  ⟨fun _ => [], [], fun _ => ⟨[], by simp, rfl⟩, ⟨[], by simp, rfl⟩, rfl⟩

end Verif
