import Verif.Proofs.Verbosity

/-!
# Two worlds that differ in verbosity and output only behave alike
-/

namespace Verif

variable {α : Type}

namespace CState

variable {c : Prop}

theorem Like.mono {c' : Prop} (hcc : c → c') {s s' : CState α} (h : Like c s s') : Like c' s s' := ⟨h.1, h.2.imp hcc id⟩

theorem Like.info {c' : Prop} {s s' : CState α} (h : Like c s s') : Like c' (s.setVerbosity "info") (s'.setVerbosity "info") := by
  obtain ⟨⟨v, o, rfl⟩, -⟩ := h
  exact ⟨⟨.info, o, rfl⟩, .inr fun _ => rfl⟩

theorem allocs_old : ∀ (ls : List (List α)) (s : CState α) {a : ℕ}, a < s.next → (s.allocs ls).1.mem a = s.mem a
  | [], _, _, _ => rfl
  | l :: ls, s, a, h => by
    have h1 : a < (s.alloc l).1.next := Nat.lt_succ_of_lt h
    refine (allocs_old ls (s.alloc l).1 h1).trans ?_
    exact Function.update_of_ne (by omega) _ _

theorem readable_of_mem {s : CState α} {a : ℕ} {l : List α} (h : s.mem a = some l) (h0 : l ≠ []) : s.Readable (some a) l.length :=
  ⟨l, by simp only [CState.raw, h], by simpa using h0, le_rfl⟩

theorem setSpectraB_lin (s : CState α) (a b : String) (nk : ℕ) (k p : Option ℕ) : (s.setSpectraB a b nk k p).lin = s.lin := by
  simp only [CState.setSpectraB]
  cases setFlag a
  · exact say_linear _ _
  · cases setFlag b
    · exact say_linear _ _
    · exact say_linear _ _

end CState

open CState (Like)

namespace World

variable {c : Prop}

/-- The worlds differ in verbosity and output only. -/
structure WLike (c : Prop) (w w' : World α) : Prop where
  c : Like c w.c w'.c
  dicts : w'.dicts = w.dicts
  objs : w'.objs = w.objs
  vars : w'.vars = w.vars

/-- The event reads no empty array: an array of modes or a spectrum passed is not empty, and neither is the spectrum of a run. -/
def Full (w : World α) : PyEvent α → Prop
  | .setPkLin _ kv _ => w.c.mem kv ≠ some []
  | .setSpectrumLin _ kv _ => w.c.mem kv ≠ some []
  | .setTerms _ kv => w.c.mem kv ≠ some []
  | .run _ _ _ => w.c.lin.nk ≠ 0
  | _ => True

theorem WLike.obj {w w' : World α} (h : WLike c w w') (i : ℕ) : w'.obj i = w.obj i := by
  simp only [World.obj, h.objs]

theorem WLike.dict {w w' : World α} (h : WLike c w w') (d : ℕ) : w'.dict d = w.dict d := by
  simp only [World.dict, h.dicts]

theorem WLike.reach {w w' : World α} (h : WLike c w w') (a : ℕ) : w'.reach a = w.reach a := by
  simp only [World.reach, World.dict, h.objs, h.vars, h.dicts]

theorem WLike.setC {w w' : World α} (h : WLike c w w') {c' : Prop} {s s' : CState α} (hs : Like c' s s') : WLike c' { w with c := s } { w' with c := s' } :=
  ⟨hs, h.dicts, h.objs, h.vars⟩

theorem WLike.setSpectrumLin {w w' v : World α} (h : WLike c w w') {i k p : ℕ} {o : PObj} (hc : c → w.c.mem k ≠ some [])
    (e : w.setSpectrumLin i o k p = .ok v) : ∃ v', w'.setSpectrumLin i o k p = .ok v' ∧ WLike c v v' := by
  have hm : w'.c.mem = w.c.mem := h.c.mem
  have ho : WLike c { w with objs := w.objs.set i (some { o with lin := some (k, p) }) }
      { w' with objs := w'.objs.set i (some { o with lin := some (k, p) }) } := ⟨h.c, h.dicts, by dsimp only; rw [h.objs], h.vars⟩
  simp only [World.setSpectrumLin, hm] at e ⊢
  cases hk : w.c.mem k with
  | none =>
    rw [hk] at e
    cases e
    exact ⟨_, rfl, ho⟩
  | some lk =>
    cases hp : w.c.mem p with
    | none =>
      rw [hk, hp] at e
      cases e
      exact ⟨_, rfl, ho⟩
    | some lp =>
      rw [hk, hp] at e
      dsimp only at e ⊢
      split
      · next hl =>
        rw [if_pos hl] at e
        obtain ⟨s, e1, e2⟩ := Res.bind_eq_ok.1 e
        cases e2
        obtain ⟨s', e1', hs⟩ := h.c.setPkLin (fun hc' => CState.readable_of_mem hk fun h0 => hc hc' (by rw [hk, h0])) e1
        exact ⟨_, Res.bind_eq_ok.2 ⟨s', e1', rfl⟩, ho.setC hs⟩
      · next hl =>
        rw [if_neg hl] at e
        cases e
        exact ⟨_, rfl, ho⟩

theorem WLike.setPkLin {w w' v : World α} (h : WLike c w w') {i : ℕ} {o : PObj} {lk lp : List α} (hc : c → lk ≠ [])
    (e : w.setPkLin i o lk lp = .ok v) : ∃ v', w'.setPkLin i o lk lp = .ok v' ∧ WLike c v v' := by
  obtain ⟨h1, e1⟩ := h.c.alloc lk
  obtain ⟨h2, e2⟩ := h1.alloc lp
  simp only [World.setPkLin, e1, e2]
  refine (h.setC h2).setSpectrumLin (fun hc' hm => hc hc' ?_) e
  have : ((w.c.alloc lk).1.alloc lp).1.mem (w.c.alloc lk).2 = some lk :=
    (Function.update_of_ne (by simp [CState.alloc]) _ _).trans (Function.update_self _ _ _)
  exact Option.some.inj (this.symm.trans hm)

theorem WLike.setTerms {w w' v : World α} (h : WLike c w w') {N : Num α} {o : PObj} {l : List α} (hc : c → l ≠ [])
    (e : w.setTerms N o l = .ok v) : ∃ v', w'.setTerms N o l = .ok v' ∧ WLike c v v' := by
  obtain ⟨h1, e1⟩ := h.c.alloc l
  obtain ⟨h2, e2⟩ := h1.allocs (o.kind.widths.map fun m => List.replicate (l.length * m) N.zero)
  simp only [World.setTerms] at e ⊢
  rw [e1, e2, h.dicts]
  obtain ⟨s, e3, e4⟩ := Res.bind_eq_ok.1 e
  cases e4
  have hm : ((w.c.alloc l).1.allocs (o.kind.widths.map fun m => List.replicate (l.length * m) N.zero)).1.mem (w.c.alloc l).2 = some l :=
    (CState.allocs_old _ _ (by simp [CState.alloc])).trans (Function.update_self _ _ _)
  obtain ⟨s', e3', h3⟩ := h2.setTerms (fun hc' => CState.readable_of_mem hm (hc hc')) e3
  exact ⟨_, Res.bind_eq_ok.2 ⟨s', e3', rfl⟩, ⟨h3, rfl, h.objs, h.vars⟩⟩

theorem WLike.runB {w w' v : World α} (h : WLike c w w') {N : Num α} {k d t : ℕ} (hc : c → w.c.lin.nk ≠ 0)
    (e : w.runB N k d t = .ok v) : ∃ v', w'.runB N k d t = .ok v' ∧ WLike c v v' := by
  have hm : w'.c.mem = w.c.mem := h.c.mem
  simp only [World.runB, hm] at e ⊢
  split
  · next lk ld lt hk hd ht =>
    rw [hk, hd, ht] at e
    dsimp only at e
    split
    · next hl =>
      rw [if_pos hl] at e
      obtain ⟨s, e1, e2⟩ := Res.bind_eq_ok.1 e
      cases e2
      obtain ⟨s', e1', hs⟩ := ((h.c.setSpectraB "delta" "theta" lk.length (some k) (some d)).setSpectraB "theta" "theta" lk.length (some k)
        (some t)).run (fun hc' => by rw [CState.setSpectraB_lin, CState.setSpectraB_lin]; exact hc hc') e1
      exact ⟨_, Res.bind_eq_ok.2 ⟨s', e1', rfl⟩, h.setC hs⟩
    · next hl =>
      rw [if_neg hl] at e
      cases e
      exact ⟨_, rfl, h⟩
  · next hn =>
    split at e
    · next lk ld lt hk hd ht => exact absurd ht (hn lk ld lt hk hd)
    · cases e
      exact ⟨_, rfl, h⟩

theorem WLike.runSub {w w' : World α} {r : World α × ℕ} (h : WLike c w w') {N : Num α} {a : Field} {lk : List α}
    (e : w.runSub N a lk = .ok r) : ∃ r', w'.runSub N a lk = .ok r' ∧ WLike False r.1 r'.1 ∧ r'.2 = r.2 := by
  have h1 : WLike False (w.newObj .s1) (w'.newObj .s1) :=
    ⟨h.c.info, by simp only [newObj, h.dicts], by simp only [newObj, h.objs, h.dicts], h.vars⟩
  simp only [World.runSub] at e ⊢
  rw [h.dicts]
  obtain ⟨w1, e1, e⟩ := Res.bind_eq_ok.1 e
  obtain ⟨s2, e2, e⟩ := Res.bind_eq_ok.1 e
  obtain ⟨cs, e3, e⟩ := Res.bind_eq_ok.1 e
  cases e
  obtain ⟨w1', e1', h2⟩ := h1.setTerms False.elim e1
  obtain ⟨s2', e2', h3⟩ := h2.c.run False.elim e2
  obtain ⟨h4, e4⟩ := h3.alloc (N.asm lk cs)
  refine ⟨_, Res.bind_eq_ok.2 ⟨w1', e1', Res.bind_eq_ok.2 ⟨s2', e2', Res.bind_eq_ok.2 ⟨cs, ?_, rfl⟩⟩⟩, h2.setC h4, e4⟩
  rw [h2.dict]
  exact (CState.mapM_congr (fun x => h3.raw _) _).trans e3

theorem WLike.mono {c' : Prop} (hcc : c → c') {w w' : World α} (h : WLike c w w') : WLike c' w w' := ⟨h.c.mono hcc, h.dicts, h.objs, h.vars⟩

theorem WLike.runTerms {w w' v : World α} (h : WLike c w w') {N : Num α} {o : PObj} {a b : Field} (hc : c → w.c.lin.nk ≠ 0)
    (e : w.runTerms N o a b = .ok v) : ∃ v', w'.runTerms N o a b = .ok v' ∧ WLike c v v' := by
  have hm : w'.c.mem = w.c.mem := h.c.mem
  obtain ⟨κ, d, lin⟩ := o
  have main : ∀ sl, (do let s ← w.c.run N sl a b; Res.ok { w with c := s }) = Res.ok v →
      ∃ v', (do let s ← w'.c.run N sl a b; Res.ok { w' with c := s }) = Res.ok v' ∧ WLike c v v' := by
    intro sl e
    obtain ⟨s, e1, e2⟩ := Res.bind_eq_ok.1 e
    cases e2
    obtain ⟨s', e1', hs⟩ := h.c.run hc e1
    exact ⟨_, Res.bind_eq_ok.2 ⟨s', e1', rfl⟩, h.setC hs⟩
  cases κ with
  | s1 => exact main .s1 e
  | s2 => exact main .s2 e
  | bias => exact main .bias e
  | a1 => exact main .a1 e
  | a2 => exact main .a2 e
  | b1 =>
    cases lin with
    | none =>
      cases e
      exact ⟨_, rfl, h⟩
    | some kp => exact h.runB hc e
  | b2 =>
    cases lin with
    | none =>
      cases e
      exact ⟨_, rfl, h⟩
    | some kp =>
      simp only [World.runTerms, hm] at e ⊢
      cases hk : w.c.mem kp.1 with
      | none =>
        rw [hk] at e
        cases e
        exact ⟨_, rfl, h⟩
      | some lk =>
        rw [hk] at e
        obtain ⟨r, e1, e⟩ := Res.bind_eq_ok.1 e
        obtain ⟨r2, e2, e⟩ := Res.bind_eq_ok.1 e
        obtain ⟨r', e1', h1, n1⟩ := h.runSub e1
        obtain ⟨r2', e2', h2, n2⟩ := h1.runSub e2
        obtain ⟨v', e', h3⟩ := h2.runB False.elim e
        refine ⟨v', Res.bind_eq_ok.2 ⟨r', e1', Res.bind_eq_ok.2 ⟨r2', e2', ?_⟩⟩, h3.mono False.elim⟩
        rw [n1, n2]
        exact e'

theorem WLike.deepcopy {w w' : World α} (h : WLike c w w') (o : PObj) : WLike c (w.deepcopy o) (w'.deepcopy o) := by
  have h1 : WLike c { w with c := w.c.setVerbosity "info" } { w' with c := w'.c.setVerbosity "info" } := h.setC h.c.info
  simp only [World.deepcopy]
  cases o.lin with
  | none => exact h1
  | some kp =>
    have hm : (w'.c.setVerbosity "info").mem = (w.c.setVerbosity "info").mem := h1.c.mem
    have hd : ∀ d, World.dict { w' with c := w'.c.setVerbosity "info" } d = World.dict { w with c := w.c.setVerbosity "info" } d := h1.dict
    simp only [hm, hd]
    obtain ⟨h2, e2⟩ := h1.c.allocs ((World.dict { w with c := w.c.setVerbosity "info" } o.dict).map fun a => ((w.c.setVerbosity "info").mem a).getD [])
    obtain ⟨h3, e3⟩ := h2.allocs [((w.c.setVerbosity "info").mem kp.1).getD [], ((w.c.setVerbosity "info").mem kp.2).getD []]
    dsimp only at e2 e3
    refine ⟨h3, ?_, ?_, h.vars⟩
    · dsimp only
      rw [h.dicts, e2]
    · dsimp only
      rw [h.objs, h.dicts, e3]

/-- One event in worlds that differ in verbosity and output only. -/
theorem WLike.step {w w' v : World α} (h : WLike c w w') {N : Num α} {e : PyEvent α} (hc : c → w.Full e) (hs : w.step N e = .ok v) :
    ∃ v', w'.step N e = .ok v' ∧ WLike c v v' := by
  have hm : w'.c.mem = w.c.mem := h.c.mem
  have stay : (.ok w : Res (World α)) = .ok v → ∃ v', (.ok w' : Res (World α)) = .ok v' ∧ WLike c v v' := by
    intro e
    cases e
    exact ⟨_, rfl, h⟩
  cases e with
  | new κ =>
    cases hs
    exact ⟨_, rfl, h.c.info, by simp only [newObj, h.dicts], by simp only [newObj, h.objs, h.dicts], h.vars⟩
  | setPkLin i kv pv =>
    simp only [World.step, hm, h.obj] at hs ⊢
    cases ho : w.obj i with
    | none => rw [ho] at hs; exact stay hs
    | some o =>
      cases hk : w.c.mem kv with
      | none => rw [ho, hk] at hs; exact stay hs
      | some lk =>
        cases hp : w.c.mem pv with
        | none => rw [ho, hk, hp] at hs; exact stay hs
        | some lp =>
          rw [ho, hk, hp] at hs
          exact h.setPkLin (fun hc' h0 => hc hc' (by rw [hk, h0])) hs
  | setSpectrumLin i kv pv =>
    simp only [World.step, h.reach, h.obj] at hs ⊢
    cases ho : w.obj i with
    | none => rw [ho] at hs; exact stay hs
    | some o =>
      rw [ho] at hs
      dsimp only at hs ⊢
      split
      · next hr =>
        rw [if_pos hr] at hs
        exact h.setSpectrumLin hc hs
      · next hr =>
        rw [if_neg hr] at hs
        exact stay hs
  | setTerms i kv =>
    simp only [World.step, hm, h.obj] at hs ⊢
    cases ho : w.obj i with
    | none => rw [ho] at hs; exact stay hs
    | some o =>
      cases hk : w.c.mem kv with
      | none => rw [ho, hk] at hs; exact stay hs
      | some l =>
        rw [ho, hk] at hs
        exact h.setTerms (fun hc' h0 => hc hc' (by rw [hk, h0])) hs
  | run i a b =>
    simp only [World.step, h.obj] at hs ⊢
    cases ho : w.obj i with
    | none => rw [ho] at hs; exact stay hs
    | some o =>
      rw [ho] at hs
      exact h.runTerms hc hs
  | lookup kv =>
    simp only [World.step, hm] at hs ⊢
    cases hk : w.c.mem kv with
    | none => rw [hk] at hs; exact stay hs
    | some l =>
      rw [hk] at hs
      obtain ⟨r, e1, e2⟩ := Res.bind_eq_ok.1 hs
      cases e2
      obtain ⟨h1, n1⟩ := h.c.alloc r
      refine ⟨_, Res.bind_eq_ok.2 ⟨r, ?_, rfl⟩, h1, h.dicts, h.objs, by dsimp only; rw [n1, h.vars]⟩
      obtain ⟨⟨v, o, hw⟩, -⟩ := h.c
      rw [hw]
      exact e1
  | copy i =>
    simp only [World.step, h.obj] at hs ⊢
    cases ho : w.obj i with
    | none => rw [ho] at hs; exact stay hs
    | some o =>
      rw [ho] at hs
      cases hs
      exact ⟨_, rfl, h.c.info, h.dicts, by simp only [World.copy, h.objs], h.vars⟩
  | deepcopy i =>
    simp only [World.step, h.obj] at hs ⊢
    cases ho : w.obj i with
    | none => rw [ho] at hs; exact stay hs
    | some o =>
      rw [ho] at hs
      cases hs
      exact ⟨_, rfl, h.deepcopy o⟩
  | setVerbosity m =>
    cases hs
    exact ⟨_, rfl, h.setC (h.c.setVerbosity m)⟩
  | clear =>
    cases hs
    exact ⟨_, rfl, h.setC h.c.info⟩
  | newArr l =>
    cases hs
    obtain ⟨h1, n1⟩ := h.c.alloc l
    exact ⟨_, rfl, h1, h.dicts, h.objs, by dsimp only; rw [n1, h.vars]⟩
  | write a l =>
    simp only [World.step, hm, h.reach] at hs ⊢
    cases ha : w.c.mem a with
    | none => rw [ha] at hs; exact stay hs
    | some l0 =>
      rw [ha] at hs
      dsimp only at hs ⊢
      split
      · next hr =>
        rw [if_pos hr] at hs
        cases hs
        exact ⟨_, rfl, h.setC (h.c.setMem _)⟩
      · next hr =>
        rw [if_neg hr] at hs
        exact stay hs
  | assign i j a =>
    simp only [World.step, h.obj, h.reach] at hs ⊢
    cases ho : w.obj i with
    | none => rw [ho] at hs; exact stay hs
    | some o =>
      rw [ho] at hs
      dsimp only at hs ⊢
      split
      · next hr =>
        rw [if_pos hr] at hs
        cases hs
        exact ⟨_, rfl, h.c, by dsimp only; rw [h.dicts, h.dict], h.objs, h.vars⟩
      · next hr =>
        rw [if_neg hr] at hs
        exact stay hs
  | hold a =>
    simp only [World.step, h.reach] at hs ⊢
    split
    · next hr =>
      rw [if_pos hr] at hs
      cases hs
      exact ⟨_, rfl, h.c, h.dicts, h.objs, by dsimp only; rw [h.vars]⟩
    · next hr =>
      rw [if_neg hr] at hs
      exact stay hs
  | drop a =>
    cases hs
    exact ⟨_, rfl, h.c, h.dicts, h.objs, by dsimp only; rw [h.vars]⟩
  | del i =>
    cases hs
    exact ⟨_, rfl, h.c, h.dicts, by dsimp only; rw [h.objs], h.vars⟩
  | collect a =>
    simp only [World.step, hm, h.reach] at hs ⊢
    split
    · next hr =>
      rw [if_pos hr] at hs
      exact stay hs
    · next hr =>
      rw [if_neg hr] at hs
      cases hs
      exact ⟨_, rfl, h.setC (h.c.setMem _)⟩

end World

end Verif
