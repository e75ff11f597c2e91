import Verif.Proofs.Steps
import Verif.Proofs.NumSized

/-!
# What an object needs for its run, and histories that keep it
-/

namespace Verif

variable {α : Type}

namespace World

/-- Every event of the history satisfies `P` in the state it happens in. -/
def Along (N : Num α) (P : World α → PyEvent α → Prop) : World α → List (PyEvent α) → World α → Prop
  | w, [], w' => w' = w
  | w, e :: h, w' => P w e ∧ ∃ w1, w.step N e = .ok w1 ∧ Along N P w1 h w'

theorem Along.exec {N : Num α} {P : World α → PyEvent α → Prop} {h : List (PyEvent α)} {w w' : World α} (ha : Along N P w h w') :
    w.exec N h = .ok w' := by
  induction h generalizing w with
  | nil =>
    cases ha
    rfl
  | cons e h ih =>
    obtain ⟨-, w1, h1, h2⟩ := ha
    unfold World.exec
    rw [h1, Res.ok_bind]
    exact ih h2

theorem Along.keep {N : Num α} {P : World α → PyEvent α → Prop} {Q : World α → Prop} {h : List (PyEvent α)} {w w' : World α}
    (ha : Along N P w h w') (hq : Q w) (hs : ∀ w e w', P w e → w.step N e = .ok w' → Q w → Q w') : Q w' := by
  induction h generalizing w with
  | nil =>
    cases ha
    exact hq
  | cons e h ih =>
    obtain ⟨hp, w1, h1, h2⟩ := ha
    exact ih h2 (hs _ _ _ hp h1 hq)

/-- Events that may change which spectrum a run of object `i` uses: a spectrum is set, a spectrum array of the object is modified,
the object is deleted. -/
def LinDisturbed (i : ℕ) (w : World α) : PyEvent α → Prop
  | .setPkLin _ _ _ => True
  | .setSpectrumLin _ _ _ => True
  | .del j => j = i
  | .write a _ => ∃ o k p, w.obj i = some o ∧ o.lin = some (k, p) ∧ (a = k ∨ a = p)
  | _ => False

/-- Events that may change which arrays a run of object `i` fills: terms of the same family or dictionary are set, a column is
replaced or the modes are modified, a B run takes over the one-loop terms, the object is deleted. -/
def TermsDisturbed (i : ℕ) (w : World α) : PyEvent α → Prop
  | .setTerms j _ => ∃ o x, w.obj i = some o ∧ w.obj j = some x ∧ (x.kind.slot = o.kind.slot ∨ x.dict = o.dict)
  | .assign j _ _ => ∃ o x, w.obj i = some o ∧ w.obj j = some x ∧ x.dict = o.dict
  | .run j _ _ => ∃ o x, w.obj i = some o ∧ w.obj j = some x ∧ o.kind.slot = .s1 ∧ (x.kind = .b1 ∨ x.kind = .b2)
  | .write a _ => ∃ o, w.obj i = some o ∧ (w.dict o.dict).head? = some a
  | .del j => j = i
  | _ => False

/-- The spectrum `(lk, lp)` of object `i` is the one the library uses. -/
def LinReady (w : World α) (i : ℕ) (κ : Kind) (lk lp : List α) : Prop :=
  ∃ d k p, w.obj i = some ⟨κ, d, some (k, p)⟩ ∧ w.c.lin = ⟨lk.length, some k, some p⟩ ∧ w.c.mem k = some lk ∧ w.c.mem p = some lp ∧
    lp.length = lk.length ∧ ∀ sl, k ∉ (w.c.terms sl).cols ∧ p ∉ (w.c.terms sl).cols

/-- The columns of object `i`, with modes `ks`, are the ones its run fills. -/
def TermsReady (w : World α) (i : ℕ) (κ : Kind) (ks : List α) : Prop :=
  ∃ d lin ka cols, w.obj i = some ⟨κ, d, lin⟩ ∧ w.dict d = ka :: cols ∧ w.c.terms κ.slot = ⟨ks.length, some ka, cols⟩ ∧
    w.c.mem ka = some ks ∧ cols.Nodup ∧
    List.Forall₂ (fun a m => (w.c.mem a).map List.length = some (ks.length * m)) cols κ.widths ∧ ∀ sl, ka ∉ (w.c.terms sl).cols

theorem reach_lin {w : World α} {i : ℕ} {o : PObj} {k p : ℕ} (ho : w.obj i = some o) (hl : o.lin = some (k, p)) :
    w.reach k = true ∧ w.reach p = true :=
  ⟨reach_iff.2 (Or.inr ⟨i, o, ho, Or.inr ⟨k, p, hl, Or.inl rfl⟩⟩), reach_iff.2 (Or.inr ⟨i, o, ho, Or.inr ⟨k, p, hl, Or.inr rfl⟩⟩)⟩

theorem reach_dict {w : World α} {i : ℕ} {o : PObj} {a : ℕ} (ho : w.obj i = some o) (ha : a ∈ w.dict o.dict) : w.reach a = true :=
  reach_iff.2 (Or.inr ⟨i, o, ho, Or.inl ha⟩)

/-- An array that no run stores into is modified by `write` only. -/
theorem not_modifies {w : World α} {e : PyEvent α} {a : ℕ} (hr : w.reach a = true) (hc : ∀ sl, a ∉ (w.c.terms sl).cols)
    (hw : ∀ l, e ≠ .write a l) : ¬ Modifies w e a := by
  intro hm
  cases e <;> try exact hm
  · obtain ⟨o, -, ha⟩ := hm
    exact hc _ ha
  · exact hw _ (by rw [show a = _ from hm])
  · obtain ⟨rfl, hf⟩ := hm
    rw [hr] at hf
    cases hf

theorem lin_step {N : Num α} {w w' : World α} {e : PyEvent α} {i : ℕ} {κ : Kind} {lk lp : List α} (hi : Inv w)
    (h : w.step N e = .ok w') (hl : LinReady w i κ lk lp) (hd : ¬ LinDisturbed i w e) : LinReady w' i κ lk lp := by
  obtain ⟨d, k, p, ho, hlin, hk, hp, hlen, hc⟩ := hl
  have f := stepFrame h
  obtain ⟨rk, rp⟩ := reach_lin ho rfl
  have hk' : w'.c.mem k = some lk := by
    rw [f.mem k (hi.lt rk) (not_modifies rk (fun sl => (hc sl).1) ?_)]
    · exact hk
    · rintro l rfl
      exact hd ⟨_, k, p, ho, rfl, Or.inl rfl⟩
  have hp' : w'.c.mem p = some lp := by
    rw [f.mem p (hi.lt rp) (not_modifies rp (fun sl => (hc sl).2) ?_)]
    · exact hp
    · rintro l rfl
      exact hd ⟨_, k, p, ho, rfl, Or.inr rfl⟩
  refine ⟨d, k, p, f.obj _ _ ho fun hs => hd ?_, (f.lin fun hs => hd ?_).trans hlin, hk', hp', hlen,
    fun sl => ⟨fun hx => (hc sl).1 (f.cols sl k hx (hi.lt rk)), fun hx => (hc sl).2 (f.cols sl p hx (hi.lt rp))⟩⟩
  · cases e <;> first | exact hs | exact hs.elim | exact trivial
  · cases e <;> first | exact hs | exact hs.elim

theorem terms_step {N : Num α} {w w' : World α} {e : PyEvent α} {i : ℕ} {κ : Kind} {ks : List α} (hi : Inv w)
    (h : w.step N e = .ok w') (ht : TermsReady w i κ ks) (hd : ¬ TermsDisturbed i w e) : TermsReady w' i κ ks := by
  obtain ⟨d, lin, ka, cols, ho, hdict, hterms, hka, hnd, hsh, hc⟩ := ht
  have f := stepFrame h
  have rka : w.reach ka = true := reach_dict ho (by rw [hdict]; simp)
  have rcol : ∀ a ∈ cols, w.reach a = true := fun a ha => reach_dict ho (by rw [hdict]; simp [ha])
  have hob : ∃ lin', w'.obj i = some ⟨κ, d, lin'⟩ := by
    by_cases hs : SetsObj i e
    · cases e <;> try exact hs.elim
      · next j kv pv =>
        have : j = i := hs
        subst this
        simp only [step] at h
        split at h
        · next o lk lp ho' h1 h2 =>
          have s := setPkLin_spec h
          rw [ho] at ho'
          cases ho'
          refine ⟨some (w.c.next, w.c.next + 1), ?_⟩
          rw [obj_eq, s.objs]
          dsimp only
          rw [List.getElem?_set_self (List.getElem?_eq_some_iff.1 (obj_eq.1 ho)).1]
        · cases h
          exact ⟨_, ho⟩
      · next j kv pv =>
        have : j = i := hs
        subst this
        simp only [step] at h
        split at h
        · next o ho' =>
          rw [ho] at ho'
          cases ho'
          split at h
          · have s := setSpectrumLin_spec h
            refine ⟨some (kv, pv), ?_⟩
            rw [obj_eq, s.objs, List.getElem?_set_self (List.getElem?_eq_some_iff.1 (obj_eq.1 ho)).1]
          · cases h
            exact ⟨_, ho⟩
        · cases h
          exact ⟨_, ho⟩
      · exact absurd hs hd
    · exact ⟨_, f.obj _ _ ho hs⟩
  obtain ⟨lin', hob⟩ := hob
  refine ⟨d, lin', ka, cols, hob, ?_, ?_, ?_, hnd, ?_, fun sl hx => hc sl (f.cols sl ka hx (hi.lt rka))⟩
  · rw [f.dict d (hi.dicts i _ ho) fun hs => hd ?_]
    · exact hdict
    · cases e <;> try exact hs.elim
      · obtain ⟨x, hx, hxd⟩ := hs
        exact ⟨_, x, ho, hx, Or.inr hxd⟩
      · obtain ⟨x, hx, hxd⟩ := hs
        exact ⟨_, x, ho, hx, hxd⟩
  · rw [f.terms κ.slot fun hs => hd ?_]
    · exact hterms
    · cases e <;> try exact hs.elim
      · obtain ⟨x, hx, hxs⟩ := hs
        exact ⟨_, x, ho, hx, Or.inl hxs⟩
      · obtain ⟨hs1, x, hx, hxk⟩ := hs
        exact ⟨_, x, ho, hx, hs1, hxk⟩
  · rw [f.mem ka (hi.lt rka) (not_modifies rka hc ?_)]
    · exact hka
    · rintro l rfl
      exact hd ⟨_, ho, by rw [hdict]; rfl⟩
  · refine ((List.forall₂_and_left _ _).2 ⟨rcol, hsh⟩).imp fun a m hx => ?_
    rw [f.shape a (hi.lt hx.1) hx.1]
    exact hx.2

theorem lin_ready {N : Num α} {w w' : World α} {i kv pv : ℕ} {o : PObj} {lk lp : List α} (hi : Inv w) (ho : w.obj i = some o)
    (hk : w.c.mem kv = some lk) (hp : w.c.mem pv = some lp) (hlen : lp.length = lk.length)
    (h : w.step N (.setPkLin i kv pv) = .ok w') : LinReady w' i o.kind lk lp := by
  simp only [step, ho, hk, hp] at h
  have s := setPkLin_spec h
  obtain ⟨m1, m2, m3, -⟩ := alloc2_mem w.c lk lp
  obtain ⟨t1, -, -, -⟩ := CState.allocs_terms w.c [lk, lp]
  refine ⟨o.dict, w.c.next, w.c.next + 1, ?_, s.lin.1 lk lp m1 m2 hlen.symm, by rw [s.mem]; exact m1, by rw [s.mem]; exact m2, hlen, fun sl => ?_⟩
  · rw [obj_eq, s.objs]
    dsimp only
    rw [List.getElem?_set_self (List.getElem?_eq_some_iff.1 (obj_eq.1 ho)).1]
  · rw [s.terms]
    dsimp only
    rw [t1]
    exact ⟨fun hx => by have := hi.cols sl _ hx; omega, fun hx => by have := hi.cols sl _ hx; omega⟩

theorem terms_ready {N : Num α} {w w' : World α} {i kv : ℕ} {o : PObj} {ks : List α} (hi : Inv w) (ho : w.obj i = some o)
    (hk : w.c.mem kv = some ks) (h : w.step N (.setTerms i kv) = .ok w') : TermsReady w' i o.kind ks := by
  simp only [step, ho, hk] at h
  have s := setTerms_spec h
  refine ⟨o.dict, o.lin, w.c.next, List.range' (w.c.next + 1) o.kind.widths.length, ?_, ?_, ?_, s.memk, List.nodup_range', ?_, fun sl hx => ?_⟩
  · unfold World.obj
    rw [s.objs]
    exact ho
  · unfold World.dict
    rw [s.dicts, List.getD_eq_getElem?_getD, List.getElem?_set_self (hi.dicts i o ho)]
    rfl
  · rw [s.terms, Function.update_self]
  · refine List.forall₂_of_length_eq_of_get (by simp) fun j h1 h2 => ?_
    simp only [List.get_eq_getElem, List.getElem_range', one_mul]
    rw [s.memc j h2, Option.map_some, List.length_replicate]
  · rw [s.terms] at hx
    by_cases e : sl = o.kind.slot
    · rw [e, Function.update_self] at hx
      have := (lt_of_range' hx).1
      omega
    · rw [Function.update_of_ne e] at hx
      have := hi.cols sl _ hx
      omega

end World

namespace CState

theorem storeAll_ok {as : List ℕ} {ls : List (List α)} {s : CState α} (hn : as.Nodup)
    (hs : List.Forall₂ (fun a l => (s.mem a).map List.length = some l.length) as ls) :
    ∃ s', s.storeAll as ls = .ok s' ∧ List.Forall₂ (fun a l => s'.mem a = some l) as ls := by
  induction as generalizing s ls with
  | nil =>
    cases hs
    exact ⟨s, rfl, .nil⟩
  | cons a as ih =>
    obtain ⟨l, ls', h1, h2, rfl⟩ := List.forall₂_cons_left_iff.1 hs
    obtain ⟨l0, h0, hl⟩ := Option.map_eq_some_iff.1 h1
    have hst : s.store a l = .ok { s with mem := Function.update s.mem a (some l) } := by
      unfold store
      rw [h0]
      dsimp only
      rw [if_pos hl.ge, List.drop_of_length_le hl.le, List.append_nil]
    obtain ⟨hna, hn'⟩ := List.nodup_cons.1 hn
    have hs3 : List.Forall₂ (fun a' l' => (({ s with mem := Function.update s.mem a (some l) } : CState α).mem a').map List.length = some l'.length) as ls' := by
      refine ((List.forall₂_and_left _ _).2 ⟨fun x hx => hx, h2⟩).imp fun x m hx => ?_
      have hne : x ≠ a := fun e => hna (e ▸ hx.1)
      dsimp only
      rw [Function.update_of_ne hne]
      exact hx.2
    obtain ⟨s', h3, h4⟩ := ih hn' hs3
    refine ⟨s', ?_, .cons ?_ h4⟩
    · unfold storeAll
      rw [hst, Res.ok_bind]
      exact h3
    · have := (storeAll_frame (n := a + 1) (W := (· ∈ as)) (fun x hx _ => hx) h3).mem a (by omega) hna
      rw [this]
      exact Function.update_self _ _ _

theorem arr_some {s : CState α} {a : ℕ} {l : List α} (h : s.mem a = some l) : s.arr (some a) l.length = .ok l := by
  unfold arr
  split
  · next e => rw [List.length_eq_zero_iff.1 e]
  · simp [raw, h]

theorem pkv_some {s : CState α} {k p : ℕ} {lk lp : List α} (hk : s.mem k = some lk) (hp : s.mem p = some lp)
    (hl : lp.length = lk.length) : s.pkv ⟨lk.length, some k, some p⟩ = .ok ⟨lk.length, lk, lp⟩ := by
  unfold pkv
  dsimp only
  rw [arr_some hk, Res.ok_bind, ← hl, arr_some hp, Res.ok_bind]

/-- The run between the messages, with everything in place. -/
theorem runCore_ready {N : Num α} {sl : Slot} {a b : Field} {s : CState α} {ks : List α} {ka : ℕ} {cols : List ℕ} {t d e : Pk α}
    {r : List (List α)} (ht : s.terms sl = ⟨ks.length, some ka, cols⟩) (hka : s.mem ka = some ks) (hl : s.pkv s.lin = .ok t)
    (hd : s.bSpectrum sl s.dt = .ok d) (he : s.bSpectrum sl s.tt = .ok e) (hr : N.run sl a b t d e ks = .ok r) (hn : cols.Nodup)
    (hs : List.Forall₂ (fun a l => (s.mem a).map List.length = some l.length) cols r) :
    ∃ s', s.runCore N sl a b = .ok s' ∧ List.Forall₂ (fun a l => s'.mem a = some l) cols r := by
  obtain ⟨s', h1, h2⟩ := storeAll_ok hn hs
  refine ⟨s', ?_, h2⟩
  unfold runCore
  dsimp only
  rw [ht]
  dsimp only
  rw [arr_some hka, Res.ok_bind, hl, Res.ok_bind, hd, Res.ok_bind, he, Res.ok_bind, hr, Res.ok_bind]
  exact h1

end CState

theorem mapM_mem {β γ : Type} {f : β → Option γ} {l : List β} {r : List γ} (h : List.Forall₂ (fun a b => f a = some b) l r) :
    l.mapM f = some r := by
  induction h with
  | nil => rfl
  | cons h1 _ ih => simp [List.mapM_cons, h1, ih]

theorem printK_defined {s : CState α} {a : ℕ} {l : List α} (hl : l ≠ []) (h : s.mem a = some l) :
    ∃ s', s.printK (some a) l.length = .ok s' := by
  have hpos := List.length_pos_iff.2 hl
  unfold CState.printK
  split
  · have hlt : subSize l.length 1 < l.length := by
      unfold subSize
      have := Nat.mod_le (l.length - 1) sizeMod
      rw [show l.length + sizeMod - 1 = l.length - 1 + sizeMod by omega, Nat.add_mod_right]
      omega
    simp [CState.raw, h, rd_ok hpos, rd_ok hlt]
  · exact ⟨s, rfl⟩

namespace World

theorem setTerms_defined {N : Num α} {w : World α} {o : PObj} {l : List α} (hl : l ≠ []) : ∃ w', w.setTerms N o l = .ok w' := by
  unfold setTerms CState.setTerms
  dsimp only
  have hm : ((w.c.alloc l).1.allocs (o.kind.widths.map fun m => List.replicate (l.length * m) N.zero)).1.mem (w.c.alloc l).2 = some l := by
    have := (CState.allocs_frame (n := w.c.next + 1) (W := fun _ => False) (w.c.alloc l).1
      (o.kind.widths.map fun m => List.replicate (l.length * m) N.zero) le_rfl).mem w.c.next (by omega) fun h => h
    show _ = _
    rw [show (w.c.alloc l).2 = w.c.next from rfl, this]
    simp [CState.alloc]
  generalize (w.c.alloc l).1.allocs (o.kind.widths.map fun m => List.replicate (l.length * m) N.zero) = r at *
  obtain ⟨s', hs'⟩ := printK_defined (s := { r.1 with terms := Function.update r.1.terms o.kind.slot ⟨l.length, some (w.c.alloc l).2, r.2⟩ }) hl hm
  rw [hs', Res.ok_bind]
  exact ⟨_, rfl⟩

/-- The results an object's run should leave in the columns after `k`: computed from the spectrum `(lk, lp)` of the object for the
modes `ks`. -/
def Expected (N : Num α) (κ : Kind) (a b : Field) (lk lp ks : List α) (r : List (List α)) : Prop :=
  match κ with
  | .b1 => N.run .b .delta .delta ⟨lk.length, lk, lp⟩ ⟨lk.length, lk, lp⟩ ⟨lk.length, lk, lp⟩ ks = .ok r
  | .b2 => ∃ r1 r2, N.run .s1 .delta .theta ⟨lk.length, lk, lp⟩ ⟨0, [], []⟩ ⟨0, [], []⟩ lk = .ok r1 ∧
      N.run .s1 .theta .theta ⟨lk.length, lk, lp⟩ ⟨0, [], []⟩ ⟨0, [], []⟩ lk = .ok r2 ∧
      N.run .b .delta .delta ⟨lk.length, lk, lp⟩ ⟨lk.length, lk, N.asm lk r1⟩ ⟨lk.length, lk, N.asm lk r2⟩ ks = .ok r
  | κ => N.run κ.slot a b ⟨lk.length, lk, lp⟩ ⟨0, [], []⟩ ⟨0, [], []⟩ ks = .ok r

theorem shape_of_sized {N : Num α} (hN : N.Sized) {κ : Kind} {a b : Field} {t d e : Pk α} {ks : List α} {r : List (List α)}
    (hr : N.run κ.slot a b t d e ks = .ok r) {c : CState α} {cols : List ℕ}
    (hs : List.Forall₂ (fun a m => (c.mem a).map List.length = some (ks.length * m)) cols κ.widths) :
    List.Forall₂ (fun a l => (c.mem a).map List.length = some l.length) cols r := by
  have hlen := hN.run κ a b t d e ks r hr
  have : List.Forall₂ (fun a (n : ℕ) => (c.mem a).map List.length = some n) cols (κ.widths.map (ks.length * ·)) := by
    rw [List.forall₂_map_right_iff]
    exact hs
  rw [← hlen, List.forall₂_map_right_iff] at this
  exact this

theorem bSpectrum_none {c : CState α} {sl : Slot} {p : CPk} (h : sl ≠ .b) : c.bSpectrum sl p = .ok ⟨0, [], []⟩ := by
  unfold CState.bSpectrum
  rw [if_neg h]

/-- A run of a class other than B. -/
theorem run_plain {N : Num α} (hN : N.Sized) {κ : Kind} (hκ : κ.slot ≠ .b) {a b : Field} {c : CState α} {k p ka : ℕ} {cols : List ℕ}
    {lk lp ks : List α} {r : List (List α)} (hlin : c.lin = ⟨lk.length, some k, some p⟩) (hk : c.mem k = some lk)
    (hp : c.mem p = some lp) (hlen : lp.length = lk.length) (ht : c.terms κ.slot = ⟨ks.length, some ka, cols⟩)
    (hka : c.mem ka = some ks) (hn : cols.Nodup)
    (hs : List.Forall₂ (fun a m => (c.mem a).map List.length = some (ks.length * m)) cols κ.widths)
    (hr : N.run κ.slot a b ⟨lk.length, lk, lp⟩ ⟨0, [], []⟩ ⟨0, [], []⟩ ks = .ok r) :
    ∃ c', c.run N κ.slot a b = .ok c' ∧ List.Forall₂ (fun a l => c'.mem a = some l) cols r := by
  unfold CState.run
  rw [if_neg hκ]
  refine CState.runCore_ready (ka := ka) (ks := ks) (t := ⟨lk.length, lk, lp⟩) (by rw [CState.say_terms]; exact ht)
    (by rw [CState.say_mem]; exact hka) ?_ (bSpectrum_none hκ) (bSpectrum_none hκ) hr hn ?_
  · rw [CState.say_lin, hlin]
    exact CState.pkv_some (by rw [CState.say_mem]; exact hk) (by rw [CState.say_mem]; exact hp) hlen
  · rw [CState.say_mem]
    exact shape_of_sized hN hr hs

/-- The spectrum computed by a `Spectrum1Loop` built inside `B2Loop.run_terms`. -/
theorem runSub_ready {N : Num α} (hN : N.Sized) {w : World α} (hi : Inv w) {a : Field} {k p : ℕ} {lk lp : List α} {r : List (List α)}
    (hne : lk ≠ []) (hlin : w.c.lin = ⟨lk.length, some k, some p⟩) (hk : w.c.mem k = some lk) (hp : w.c.mem p = some lp)
    (hlen : lp.length = lk.length) (hr : N.run .s1 a .theta ⟨lk.length, lk, lp⟩ ⟨0, [], []⟩ ⟨0, [], []⟩ lk = .ok r) :
    ∃ w' d, w.runSub N a lk = .ok (w', d) ∧ w'.c.mem d = some (N.asm lk r) := by
  unfold runSub
  dsimp only
  have f0 := newObj_wframe (fun _ => False) .s1 w
  have hi1 := f0.inv hi
  have hd1 : w.dicts.length < (w.newObj .s1).dicts.length := by simp [newObj]
  have hlin1 : (w.newObj .s1).c.lin = w.c.lin := f0.m.lin
  have hk1 : (w.newObj .s1).c.mem k = some lk := (f0.m.mem k (hi.lt_mem hk) fun h => h).trans hk
  have hp1 : (w.newObj .s1).c.mem p = some lp := (f0.m.mem p (hi.lt_mem hp) fun h => h).trans hp
  generalize w.newObj .s1 = w1 at *
  obtain ⟨w2, h2⟩ := setTerms_defined (N := N) (w := w1) (o := ⟨.s1, w.dicts.length, none⟩) hne
  have s := setTerms_spec h2
  rw [h2, Res.ok_bind]
  obtain ⟨c, hc, hv⟩ := run_plain hN (κ := .s1) (by decide) (a := a) (b := .theta) (c := w2.c) (k := k) (p := p) (ks := lk) (r := r)
    (by rw [s.lin, hlin1, hlin]) (by rw [s.mem k (hi1.lt_mem hk1)]; exact hk1) (by rw [s.mem p (hi1.lt_mem hp1)]; exact hp1) hlen
    (by rw [s.terms]; exact Function.update_self _ _ _) s.memk List.nodup_range' (by
      refine List.forall₂_of_length_eq_of_get (by simp) fun j h1 h2 => ?_
      simp only [List.get_eq_getElem, List.getElem_range', one_mul]
      rw [s.memc j h2, Option.map_some, List.length_replicate]) hr
  have hc' : w2.c.run N .s1 a .theta = .ok c := hc
  rw [hc', Res.ok_bind]
  have hdict : (w2.dict w.dicts.length).tail = List.range' (w1.c.next + 1) (Kind.widths .s1).length := by
    unfold World.dict
    rw [s.dicts, List.getD_eq_getElem?_getD, List.getElem?_set_self hd1]
    rfl
  have hm : (w2.dict w.dicts.length).tail.mapM (fun x => c.raw (some x)) = .ok r := by
    rw [hdict]
    refine Res.forall₂_mapM (hv.imp fun x l hx => ?_)
    simp [CState.raw, hx]
  rw [hm, Res.ok_bind]
  exact ⟨_, _, rfl, by simp [CState.alloc]⟩

theorem bSpectrum_some {c : CState α} {k p : ℕ} {lk lp : List α} (hk : c.mem k = some lk) (hp : c.mem p = some lp)
    (hl : lp.length = lk.length) : c.bSpectrum .b ⟨lk.length, some k, some p⟩ = .ok ⟨lk.length, lk, lp⟩ := by
  unfold CState.bSpectrum
  rw [if_pos rfl, CState.pkv_some hk hp hl]
  rfl

/-- The B run with both spectra supplied. -/
theorem runB_ready {N : Num α} (hN : N.Sized) {w : World α} {k p d t ka : ℕ} {cols : List ℕ} {lk lp ld lt ks : List α}
    {r : List (List α)} (hne : lk ≠ []) (hlin : w.c.lin = ⟨lk.length, some k, some p⟩) (hk : w.c.mem k = some lk)
    (hp : w.c.mem p = some lp) (hlen : lp.length = lk.length) (hd : w.c.mem d = some ld) (hld : ld.length = lk.length)
    (ht : w.c.mem t = some lt) (hlt : lt.length = lk.length) (hterms : w.c.terms .b = ⟨ks.length, some ka, cols⟩)
    (hka : w.c.mem ka = some ks) (hn : cols.Nodup)
    (hs : List.Forall₂ (fun a m => (w.c.mem a).map List.length = some (ks.length * m)) cols (Kind.widths .b1))
    (hr : N.run .b .delta .delta ⟨lk.length, lk, lp⟩ ⟨lk.length, lk, ld⟩ ⟨lk.length, lk, lt⟩ ks = .ok r) :
    ∃ w', w.runB N k d t = .ok w' ∧ List.Forall₂ (fun a l => w'.c.mem a = some l) cols r ∧ w'.objs = w.objs ∧ w'.dicts = w.dicts := by
  unfold runB
  rw [hk, hd, ht]
  dsimp only
  rw [if_pos ⟨hld, hlt⟩]
  have e1 : ∀ c : CState α, c.setSpectraB "delta" "theta" lk.length (some k) (some d) =
      { c.say " - setting P_delta_theta" with dt := ⟨lk.length, some k, some d⟩ } := fun c => CState.setSpectraB_eq ..
  have e2 : ∀ c : CState α, c.setSpectraB "theta" "theta" lk.length (some k) (some t) =
      { c.say " - setting P_theta_theta" with tt := ⟨lk.length, some k, some t⟩ } := fun c => CState.setSpectraB_eq ..
  rw [e1, e2]
  unfold CState.run
  rw [if_pos rfl]
  unfold CState.runB
  have hpos : lk.length ≠ 0 := fun h => hne (List.length_eq_zero_iff.1 h)
  dsimp only
  have hr' : N.run (Kind.slot .b1) .delta .delta ⟨lk.length, lk, lp⟩ ⟨lk.length, lk, ld⟩ ⟨lk.length, lk, lt⟩ ks = .ok r := hr
  generalize hc : (CState.say { CState.say { w.c.say " - setting P_delta_theta" with dt := ⟨lk.length, some k, some d⟩ } " - setting P_theta_theta"
    with tt := ⟨lk.length, some k, some t⟩ } "*** Calculation of B term") = c
  have hmem : c.mem = w.c.mem := by rw [← hc]; simp
  have hcl : c.lin = w.c.lin := by rw [← hc]; simp
  have hct : c.terms = w.c.terms := by rw [← hc]; simp
  have hdt : c.dt = ⟨lk.length, some k, some d⟩ := by rw [← hc]; simp
  have htt : c.tt = ⟨lk.length, some k, some t⟩ := by rw [← hc]; simp
  rw [if_neg (by rw [hdt, htt]; simpa using hne)]
  obtain ⟨c', h1, h2⟩ := CState.runCore_ready (N := N) (sl := .b) (a := .delta) (b := .delta) (s := c) (by rw [hct]; exact hterms) (by rw [hmem]; exact hka)
    (by rw [hcl, hlin]; exact CState.pkv_some (by rw [hmem]; exact hk) (by rw [hmem]; exact hp) hlen)
    (by rw [hdt]; exact bSpectrum_some (by rw [hmem]; exact hk) (by rw [hmem]; exact hd) hld)
    (by rw [htt]; exact bSpectrum_some (by rw [hmem]; exact hk) (by rw [hmem]; exact ht) hlt) hr hn
    (by rw [hmem]; exact shape_of_sized hN (κ := .b1) hr' hs)
  rw [h1, Res.ok_bind]
  exact ⟨_, rfl, h2, rfl, rfl⟩

theorem columns_eq {w : World α} {i : ℕ} {o : PObj} {ka : ℕ} {cols : List ℕ} {ks : List α} {r : List (List α)} (ho : w.obj i = some o)
    (hd : w.dict o.dict = ka :: cols) (hka : w.c.mem ka = some ks) (hv : List.Forall₂ (fun a l => w.c.mem a = some l) cols r) :
    w.columns i = some (ks :: r) := by
  unfold columns
  rw [ho]
  dsimp only
  rw [hd]
  exact mapM_mem (.cons hka hv)

/-- The run of an object whose spectrum and columns are in place. -/
theorem run_ready {N : Num α} (hN : N.Sized) {w : World α} (hi : Inv w) {i : ℕ} {κ : Kind} {a b : Field} {lk lp ks : List α}
    {r : List (List α)} (hne : κ = .b1 ∨ κ = .b2 → lk ≠ []) (hl : LinReady w i κ lk lp) (ht : TermsReady w i κ ks)
    (hr : Expected N κ a b lk lp ks r) : ∃ w', w.step N (.run i a b) = .ok w' ∧ w'.columns i = some (ks :: r) := by
  obtain ⟨d, k, p, ho, hlin, hk, hp, hlen, hcl⟩ := hl
  obtain ⟨d', lin', ka, cols, ho', hdict, hterms, hka, hn, hs, hck⟩ := ht
  rw [ho] at ho'
  cases ho'
  have key : (∃ w', w.runTerms N ⟨κ, d, some (k, p)⟩ a b = .ok w' ∧ List.Forall₂ (fun a l => w'.c.mem a = some l) cols r) →
      ∃ w', w.step N (.run i a b) = .ok w' ∧ w'.columns i = some (ks :: r) := by
    rintro ⟨w', h1, h2⟩
    have hst : w.step N (.run i a b) = .ok w' := by
      simp only [step, ho]
      exact h1
    have f := (runTerms_wframe h1).1
    refine ⟨w', hst, columns_eq (ka := ka) (f.obj ho) ?_ ?_ h2⟩
    · rw [f.dict (hi.dicts i _ ho)]
      exact hdict
    · rw [f.m.mem ka (hi.lt_mem hka) (hck _)]
      exact hka
  apply key
  have plain : κ ≠ .b1 → κ ≠ .b2 → N.run κ.slot a b ⟨lk.length, lk, lp⟩ ⟨0, [], []⟩ ⟨0, [], []⟩ ks = .ok r →
      ∃ w' : World α, (do let c ← w.c.run N κ.slot a b; .ok { w with c := c } : Res (World α)) = .ok w' ∧
        List.Forall₂ (fun a l => w'.c.mem a = some l) cols r := by
    intro h1 h2 hr
    obtain ⟨c, hc, hv⟩ := run_plain hN (κ := κ) (by cases κ <;> simp_all [Kind.slot]) (a := a) (b := b) hlin hk hp hlen hterms hka hn hs hr
    exact ⟨{ w with c := c }, by rw [hc, Res.ok_bind], hv⟩
  cases κ
  case b1 =>
    obtain ⟨w', h1, h2, -⟩ := runB_ready hN (hne (Or.inl rfl)) hlin hk hp hlen hp hlen hp hlen hterms hka hn hs hr
    exact ⟨w', h1, h2⟩
  case b2 =>
    obtain ⟨r1, r2, hr1, hr2, hr⟩ := hr
    have hne := hne (Or.inr rfl)
    obtain ⟨w1, d1, g1, v1⟩ := runSub_ready hN hi hne hlin hk hp hlen hr1
    obtain ⟨f1, -⟩ := runSub_wframe (fun _ => False) g1
    have hi1 := f1.inv hi
    have m1 : ∀ {x l}, w.c.mem x = some l → w1.c.mem x = some l := fun hx => (f1.m.mem _ (hi.lt_mem hx) fun h => h).trans hx
    obtain ⟨w2, d2, g2, v2⟩ := runSub_ready hN hi1 hne (f1.m.lin.trans hlin) (m1 hk) (m1 hp) hlen hr2
    obtain ⟨f2, -⟩ := runSub_wframe (fun _ => False) g2
    have m2 : ∀ {x l}, w1.c.mem x = some l → w2.c.mem x = some l := fun hx => (f2.m.mem _ (hi1.lt_mem hx) fun h => h).trans hx
    have f := f1.trans f2
    have m : ∀ {x}, x < w.c.next → w2.c.mem x = w.c.mem x := fun hx => f.m.mem _ hx fun h => h
    obtain ⟨w', h1, h2, -⟩ := runB_ready hN (w := w2) hne (f.m.lin.trans hlin) (m2 (m1 hk)) (m2 (m1 hp)) hlen (m2 v1) (hN.asm _ _) v2
      (hN.asm _ _) ((f.m.terms .b (by decide)).trans hterms) (m2 (m1 hka)) hn (by
        refine ((List.forall₂_and_left (p := fun a => w2.c.mem a = w.c.mem a) _ _).2 ⟨fun x hx => m ?_, hs⟩).imp fun x m hx => ?_
        · exact hi.lt (reach_dict ho (by rw [hdict]; simp [hx]))
        · rw [hx.1]
          exact hx.2) hr
    refine ⟨w', ?_, h2⟩
    simp only [runTerms, hk]
    rw [g1, Res.ok_bind, g2, Res.ok_bind]
    exact h1
  all_goals exact plain (by decide) (by decide) hr

end World

end Verif
