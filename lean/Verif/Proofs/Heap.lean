import Verif.Model.Heap
import Mathlib.Data.Set.Basic
import Mathlib.Data.List.Nodup
import Mathlib.Data.Set.Insert
import Mathlib.Tactic.Tauto

/-!
# Proofs about allocation traces

`Ok O S H l H'`: starting from the held variables `H`, the actions `l` allocate only into variables of `O` that are not held, release
only held variables, access only held variables or those of `S`, and end with `H'` held.
-/

namespace Verif

/-- The thread a variable belongs to. -/
def Var.owner : Var → Option ℕ
  | .tab th _ _ => some th
  | .scratch th _ => some th
  | _ => none

/-- The variables belonging to threads. -/
def priv : Set Var := {v | v.owner ≠ none}

/-- The check. -/
def Ok (O S : Set Var) : Set Var → List Act → Set Var → Prop
  | H, [], H' => H' = H
  | H, .alloc v :: l, H' => v ∈ O ∧ v ∉ H ∧ v ∉ S ∧ Ok O S (insert v H) l H'
  | H, .free v :: l, H' => v ∈ O ∧ v ∈ H ∧ Ok O S (H \ {v}) l H'
  | H, .use v :: l, H' => (v ∈ H ∨ v ∈ S) ∧ Ok O S H l H'
  | _, .copy _ _ :: _, _ => False
  | H, .assign _ :: l, H' => Ok O S H l H'

theorem Ok.append {O S H H1 H2 : Set Var} {l l' : List Act} (h : Ok O S H l H1) (h' : Ok O S H1 l' H2) : Ok O S H (l ++ l') H2 := by
  induction l generalizing H with
  | nil => cases h; exact h'
  | cons a l ih =>
    cases a <;> simp only [Ok, List.cons_append] at h ⊢
    · exact ⟨h.1, h.2.1, h.2.2.1, ih h.2.2.2⟩
    · exact ⟨h.1, h.2.1, ih h.2.2⟩
    · exact ⟨h.1, ih h.2⟩
    · exact ih h

theorem Ok.mono {O O' S H H' : Set Var} {l : List Act} (hO : O ⊆ O') (h : Ok O S H l H') : Ok O' S H l H' := by
  induction l generalizing H with
  | nil => exact h
  | cons a l ih =>
    cases a <;> simp only [Ok] at h ⊢
    · exact ⟨hO h.1, h.2.1, h.2.2.1, ih h.2.2.2⟩
    · exact ⟨hO h.1, h.2.1, ih h.2.2⟩
    · exact ⟨h.1, ih h.2⟩
    · exact ih h

theorem Ok.assigned {O S H H' : Set Var} {l : List Act} (h : Ok O S H l H') (v : Var) (hv : v ∉ O) :
    .alloc v ∉ l ∧ ∀ w, .copy v w ∉ l := by
  induction l generalizing H with
  | nil => simp
  | cons a l ih =>
    cases a with
    | alloc u =>
      have := ih h.2.2.2
      have hne : v ≠ u := fun e => hv (e ▸ h.1)
      simpa [hne] using this
    | free u => simpa using ih h.2.2
    | use u => simpa using ih h.2
    | copy u w => exact h.elim
    | assign u => simpa using ih h

theorem Ok.no_copy {O S H H' : Set Var} {l : List Act} (h : Ok O S H l H') (v w : Var) : .copy v w ∉ l := by
  induction l generalizing H with
  | nil => simp
  | cons a l ih =>
    cases a with
    | alloc u => simpa using ih h.2.2.2
    | free u => simpa using ih h.2.2
    | use u => simpa using ih h.2
    | copy u w => exact h.elim
    | assign u => simpa using ih h

theorem Ok.allocs {O S H : Set Var} {vs : List Var} (hn : vs.Nodup) (hO : ∀ v ∈ vs, v ∈ O) (hH : ∀ v ∈ vs, v ∉ H) (hS : ∀ v ∈ vs, v ∉ S) :
    Ok O S H (vs.map .alloc) (H ∪ {v | v ∈ vs}) := by
  induction vs generalizing H with
  | nil => simp [Ok]
  | cons v vs ih =>
    have hn' := List.nodup_cons.mp hn
    refine ⟨hO v (by simp), hH v (by simp), hS v (by simp), ?_⟩
    have := ih (H := insert v H) hn'.2 (fun u hu => hO u (by simp [hu]))
      (fun u hu => by
        rintro (h | h)
        · exact hn'.1 (h ▸ hu)
        · exact hH u (by simp [hu]) h) (fun u hu => hS u (by simp [hu]))
    convert this using 1
    ext u; simp only [Set.mem_union, Set.mem_ofPred_eq, List.mem_cons, Set.mem_insert_iff]; tauto

theorem Ok.frees {O S H : Set Var} {vs : List Var} (hn : vs.Nodup) (hO : ∀ v ∈ vs, v ∈ O) (hH : ∀ v ∈ vs, v ∈ H) :
    Ok O S H (vs.map .free) (H \ {v | v ∈ vs}) := by
  induction vs generalizing H with
  | nil => simp [Ok]
  | cons v vs ih =>
    have hn' := List.nodup_cons.mp hn
    refine ⟨hO v (by simp), hH v (by simp), ?_⟩
    have := ih (H := H \ {v}) hn'.2 (fun u hu => hO u (by simp [hu]))
      (fun u hu => ⟨hH u (by simp [hu]), fun h => hn'.1 ((show u = v from h) ▸ hu)⟩)
    convert this using 1
    ext u; simp only [Set.mem_sdiff, Set.mem_ofPred_eq, List.mem_cons, Set.mem_singleton_iff]; tauto

theorem Ok.uses {O S H : Set Var} {vs : List Var} (h : ∀ v ∈ vs, v ∈ H ∨ v ∈ S) : Ok O S H (vs.map .use) H := by
  induction vs with
  | nil => simp [Ok]
  | cons v vs ih => exact ⟨h v (by simp), ih fun u hu => h u (by simp [hu])⟩

theorem Ok.interp {O S H : Set Var} {th : ℕ} (hO : ∀ b, Var.scratch th b ∈ O) (hH : ∀ b, Var.scratch th b ∉ H)
    (hS : ∀ b, Var.scratch th b ∉ S) (us : List Bool) : Ok O S H (Ev.acts th (.interp us)) H := by
  have e1 : [Act.alloc (.scratch th false), .alloc (.scratch th true)] = [Var.scratch th false, .scratch th true].map Act.alloc := rfl
  have e2 : [Act.free (.scratch th false), .free (.scratch th true)] = [Var.scratch th false, .scratch th true].map Act.free := rfl
  have e3 : us.map (fun b => Act.use (.scratch th b)) = (us.map (Var.scratch th)).map Act.use := by simp
  have hm : ∀ v ∈ [Var.scratch th false, Var.scratch th true], ∃ b, v = .scratch th b := by simp
  have a := Ok.allocs (O := O) (S := S) (H := H) (vs := [Var.scratch th false, .scratch th true]) (by simp)
    (fun v hv => by obtain ⟨b, rfl⟩ := hm v hv; exact hO b) (fun v hv => by obtain ⟨b, rfl⟩ := hm v hv; exact hH b)
    (fun v hv => by obtain ⟨b, rfl⟩ := hm v hv; exact hS b)
  have f := Ok.frees (O := O) (S := S) (H := H ∪ {v | v ∈ [Var.scratch th false, .scratch th true]})
    (vs := [Var.scratch th false, .scratch th true]) (by simp)
    (fun v hv => by obtain ⟨b, rfl⟩ := hm v hv; exact hO b) (fun v hv => Or.inr hv)
  have u := Ok.uses (O := O) (S := S) (H := H ∪ {v | v ∈ [Var.scratch th false, .scratch th true]}) (vs := us.map (Var.scratch th))
    (fun v hv => by
      obtain ⟨b, _, rfl⟩ := List.mem_map.mp hv
      left; right; cases b <;> simp)
  have e : (H ∪ {v | v ∈ [Var.scratch th false, .scratch th true]}) \ {v | v ∈ [Var.scratch th false, .scratch th true]} = H := by
    ext v
    simp only [Set.mem_sdiff, Set.mem_union, Set.mem_ofPred_eq]
    constructor
    · rintro ⟨h | h, h'⟩
      · exact h
      · exact absurd h h'
    · intro h
      refine ⟨Or.inl h, fun h' => ?_⟩
      obtain ⟨b, rfl⟩ := hm v h'
      exact hH b h
  rw [e] at f
  simp only [Ev.acts]
  rw [e1, e2, e3]
  exact (a.append u).append f

theorem Ok.body {O S H : Set Var} {th : ℕ} {A : Var → Prop} {l : List Act} (hb : Body th A l) (hO : ∀ b, Var.scratch th b ∈ O)
    (hH : ∀ b, Var.scratch th b ∉ H) (hS : ∀ b, Var.scratch th b ∉ S) (hA : ∀ v, A v → v ∈ H ∨ v ∈ S) : Ok O S H l H := by
  obtain ⟨evs, he, rfl⟩ := hb
  induction evs with
  | nil => simp [Ok]
  | cons e evs ih =>
    rw [List.flatMap_cons]
    refine Ok.append ?_ (ih fun v hv => he v (by simp [hv]))
    cases e with
    | touch v => exact ⟨hA v (he v (by simp)), rfl⟩
    | interp us => exact Ok.interp hO hH hS us

/-! ## One thread -/

/-- The variables of tables. -/
def tabVars (th : ℕ) (ts : List Tab) : Set Var := {v | ∃ T ∈ ts, ∃ f ∈ T.allocated, v = .tab th T f}

theorem Tab.allocated_nodup (T : Tab) : T.allocated.Nodup := by
  unfold Tab.allocated; split <;> decide

theorem Tab.released_eq (T : Tab) : T.released = T.allocated := rfl

theorem Tab.vars_nodup (T : Tab) (th : ℕ) : (T.allocated.map fun f => Var.tab th T f).Nodup :=
  T.allocated_nodup.map fun a b h => by cases h; rfl

theorem Ok.inits {S H : Set Var} {th : ℕ} {fill : Tab → List Act} (hf : ∀ T, Body th (T.fillVars th) (fill T)) {ts : List Tab}
    (hn : ts.Nodup) (hSo : ∀ v ∈ S, v.owner = none) (hlin : Var.lin "k" ∈ S ∧ Var.lin "pk" ∈ S)
    (hH : ∀ T ∈ ts, ∀ f, Var.tab th T f ∉ H) (hsc : ∀ b, Var.scratch th b ∉ H) :
    Ok {v | v.owner = some th} S H (ts.flatMap fun T => T.allocs th ++ fill T) (H ∪ tabVars th ts) := by
  induction ts generalizing H with
  | nil => simp [Ok, tabVars]
  | cons T ts ih =>
    have hn' := List.nodup_cons.mp hn
    have hS' : ∀ T f, Var.tab th T f ∉ S := fun T f h => by simpa [Var.owner] using hSo _ h
    have hS'' : ∀ b, Var.scratch th b ∉ S := fun b h => by simpa [Var.owner] using hSo _ h
    have hm : ∀ v ∈ (T.allocated.map fun f => Var.tab th T f), ∃ f ∈ T.allocated, v = .tab th T f := fun v hv => by
      obtain ⟨f, hf, rfl⟩ := List.mem_map.mp hv; exact ⟨f, hf, rfl⟩
    have a := Ok.allocs (O := {v | v.owner = some th}) (S := S) (H := H) (T.vars_nodup th)
      (fun v hv => by obtain ⟨f, _, rfl⟩ := hm v hv; rfl) (fun v hv => by obtain ⟨f, _, rfl⟩ := hm v hv; exact hH T (by simp) f)
      (fun v hv => by obtain ⟨f, _, rfl⟩ := hm v hv; exact hS' T f)
    have b := Ok.body (O := {v | v.owner = some th}) (S := S) (H := H ∪ {v | v ∈ T.allocated.map fun f => Var.tab th T f}) (hf T)
      (fun _ => rfl)
      (fun b h => by
        rcases h with h | h
        · exact hsc b h
        · obtain ⟨f, _, e⟩ := hm _ h; cases e) hS''
      (fun v hv => by
        rcases hv with ⟨f, hf, rfl⟩ | rfl | rfl
        · exact Or.inl (Or.inr (List.mem_map.mpr ⟨f, hf, rfl⟩))
        · exact Or.inr hlin.1
        · exact Or.inr hlin.2)
    have c := ih (H := H ∪ {v | v ∈ T.allocated.map fun f => Var.tab th T f}) hn'.2
      (fun T' hT' f h => by
        rcases h with h | h
        · exact hH T' (by simp [hT']) f h
        · obtain ⟨g, _, e⟩ := hm _ h
          cases e
          exact hn'.1 hT')
      (fun b h => by
        rcases h with h | h
        · exact hsc b h
        · obtain ⟨f, _, e⟩ := hm _ h; cases e)
    have e : H ∪ tabVars th (T :: ts) = H ∪ {v | v ∈ T.allocated.map fun f => Var.tab th T f} ∪ tabVars th ts := by
      ext v
      simp only [tabVars, Set.mem_union, Set.mem_ofPred_eq, List.mem_cons, List.mem_map]
      constructor
      · rintro (h | ⟨T', (rfl | hT'), f, hf, rfl⟩)
        · exact Or.inl (Or.inl h)
        · exact Or.inl (Or.inr ⟨f, hf, rfl⟩)
        · exact Or.inr ⟨T', hT', f, hf, rfl⟩
      · rintro ((h | ⟨f, hf, rfl⟩) | ⟨T', hT', f, hf, rfl⟩)
        · exact Or.inl h
        · exact Or.inr ⟨T, Or.inl rfl, f, hf, rfl⟩
        · exact Or.inr ⟨T', Or.inr hT', f, hf, rfl⟩
    rw [List.flatMap_cons, e]
    refine Ok.append ?_ c
    have := Ok.append a b
    rwa [List.map_map] at this

theorem Ok.freeTabs {S H : Set Var} {th : ℕ} {ts : List Tab} (hn : ts.Nodup) (hH : tabVars th ts ⊆ H) :
    Ok {v | v.owner = some th} S H (ts.flatMap fun T => T.frees th) (H \ tabVars th ts) := by
  induction ts generalizing H with
  | nil => simp [Ok, tabVars]
  | cons T ts ih =>
    have hn' := List.nodup_cons.mp hn
    have hm : ∀ v ∈ (T.allocated.map fun f => Var.tab th T f), ∃ f ∈ T.allocated, v = .tab th T f := fun v hv => by
      obtain ⟨f, hf, rfl⟩ := List.mem_map.mp hv; exact ⟨f, hf, rfl⟩
    have a := Ok.frees (O := {v | v.owner = some th}) (S := S) (H := H) (T.vars_nodup th)
      (fun v hv => by obtain ⟨f, _, rfl⟩ := hm v hv; rfl)
      (fun v hv => by obtain ⟨f, hf, rfl⟩ := hm v hv; exact hH ⟨T, by simp, f, hf, rfl⟩)
    have c := ih (H := H \ {v | v ∈ T.allocated.map fun f => Var.tab th T f}) hn'.2 (by
      rintro v ⟨T', hT', f, hf, rfl⟩
      refine ⟨hH ⟨T', by simp [hT'], f, hf, rfl⟩, fun h => ?_⟩
      obtain ⟨g, _, e⟩ := hm _ h
      cases e
      exact hn'.1 hT')
    have e : H \ tabVars th (T :: ts) = (H \ {v | v ∈ T.allocated.map fun f => Var.tab th T f}) \ tabVars th ts := by
      ext v
      simp only [tabVars, Set.mem_sdiff, Set.mem_ofPred_eq, List.mem_cons, List.mem_map]
      constructor
      · rintro ⟨h, h'⟩
        exact ⟨⟨h, fun ⟨f, hf, e⟩ => h' ⟨T, Or.inl rfl, f, hf, e.symm⟩⟩, fun ⟨T', hT', f, hf, e⟩ => h' ⟨T', Or.inr hT', f, hf, e⟩⟩
      · rintro ⟨⟨h, h1⟩, h2⟩
        refine ⟨h, ?_⟩
        rintro ⟨T', (rfl | hT'), f, hf, e⟩
        · exact h1 ⟨f, hf, e.symm⟩
        · exact h2 ⟨T', hT', f, hf, e⟩
    rw [List.flatMap_cons, e]
    refine Ok.append ?_ c
    rw [List.map_map] at a
    exact a

theorem RunKind.tabs_nodup (r : RunKind) : r.inits.Nodup := by cases r <;> decide

theorem RunKind.frees_eq (r : RunKind) : r.frees = r.inits := by cases r <;> rfl

theorem RunKind.reached_sub (r : RunKind) : ∀ T ∈ r.reached, T ∈ r.inits := by cases r <;> exact fun T h => h

theorem RunKind.shared_owner {r : RunKind} {v : Var} (h : r.shared v) : v.owner = none := by
  rcases h with rfl | rfl | ⟨f, _, rfl⟩ | ⟨_, rfl | rfl | rfl | rfl⟩ <;> rfl

theorem Ok.thread {r : RunKind} {th : ℕ} {l : List Act} (h : r.ThreadTrace th l) : Ok {v | v.owner = some th} {v | r.shared v} ∅ l ∅ := by
  obtain ⟨fill, loop, hf, hl, rfl⟩ := h
  have a : Ok {v | v.owner = some th} {v | r.shared v} ∅ r.assigns ∅ := by cases r <;> simp [RunKind.assigns, Ok]
  have b := Ok.inits (S := {v | r.shared v}) (H := ∅) hf r.tabs_nodup (fun v hv => RunKind.shared_owner hv)
    ⟨Or.inl rfl, Or.inr (Or.inl rfl)⟩ (by simp) (by simp)
  have c := Ok.body (O := {v | v.owner = some th}) (S := {v | r.shared v}) (H := ∅ ∪ tabVars th r.inits) hl (fun _ => rfl)
    (fun b h => by rcases h with h | ⟨T, _, f, _, e⟩ <;> [exact h; cases e]) (fun b h => by simpa [Var.owner] using RunKind.shared_owner h)
    (fun v hv => by
      rcases hv with ⟨T, hT, f, hf, rfl⟩ | h
      · exact Or.inl (Or.inr ⟨T, r.reached_sub T hT, f, hf, rfl⟩)
      · exact Or.inr h)
  have d := Ok.freeTabs (th := th) (S := {v | r.shared v}) (H := ∅ ∪ tabVars th r.inits) r.tabs_nodup (by simp)
  rw [r.frees_eq]
  have e : (∅ ∪ tabVars th r.inits) \ tabVars th r.inits = ∅ := by simp
  rw [e] at d
  exact ((a.append b).append c).append d

/-! ## Interleavings -/

theorem Ok.interleave {S H0 Sh : Set Var} (m : ℕ) (l : List (ℕ × Act)) (Hs : ℕ → Set Var) (hm : ∀ x ∈ l, x.1 < m)
    (hth : ∀ th < m, Ok {v | v.owner = some th} Sh (Hs th) ((l.filter fun x => x.1 = th).map Prod.snd) ∅)
    (hHs : ∀ th < m, ∀ v ∈ Hs th, v.owner = some th) (hSh : ∀ v ∈ Sh, v ∈ H0 ∨ v ∈ S) (hS : ∀ v ∈ S, v.owner = none)
    (hH0 : ∀ v ∈ H0, v.owner = none) : Ok priv S (H0 ∪ {v | ∃ th < m, v ∈ Hs th}) (l.map Prod.snd) H0 := by
  induction l generalizing Hs with
  | nil =>
    show H0 = _
    ext v
    constructor
    · exact Or.inl
    · rintro (h | ⟨th, ht, h⟩)
      · exact h
      · have e : ∅ = Hs th := hth th ht
        rw [← e] at h
        exact h.elim
  | cons x l ih =>
    obtain ⟨t, a⟩ := x
    have ht : t < m := hm (t, a) (by simp)
    have hm' : ∀ x ∈ l, x.1 < m := fun x hx => hm x (by simp [hx])
    have hself := hth t ht
    rw [List.filter_cons_of_pos (by simp), List.map_cons] at hself
    have hother : ∀ th < m, th ≠ t → Ok {v | v.owner = some th} Sh (Hs th) ((l.filter fun x => x.1 = th).map Prod.snd) ∅ := fun th h hne => by
      have := hth th h
      rwa [List.filter_cons_of_neg (by simpa using fun e => hne e.symm)] at this
    have key : ∀ K : Set Var, (∀ v ∈ K, v.owner = some t) →
        Ok {v | v.owner = some t} Sh K ((l.filter fun x => x.1 = t).map Prod.snd) ∅ →
        Ok priv S (H0 ∪ {v | ∃ th < m, v ∈ Function.update Hs t K th}) (l.map Prod.snd) H0 := fun K hK hok => by
      refine ih (Function.update Hs t K) hm' ?_ ?_
      · intro th h
        by_cases e : th = t
        · subst e; simpa using hok
        · rw [Function.update_of_ne e]; exact hother th h e
      · intro th h v hv
        by_cases e : th = t
        · subst e; exact hK v (by simpa using hv)
        · rw [Function.update_of_ne e] at hv; exact hHs th h v hv
    have hupd : ∀ K v, (∃ th < m, v ∈ Function.update Hs t K th) ↔ v ∈ K ∨ ∃ th < m, th ≠ t ∧ v ∈ Hs th := fun K v => by
      constructor
      · rintro ⟨th, h, hv⟩
        by_cases e : th = t
        · subst e; exact Or.inl (by simpa using hv)
        · rw [Function.update_of_ne e] at hv; exact Or.inr ⟨th, h, e, hv⟩
      · rintro (h | ⟨th, h, e, hv⟩)
        · exact ⟨t, ht, by simpa using h⟩
        · exact ⟨th, h, by rwa [Function.update_of_ne e]⟩
    have hall : ∀ v, (∃ th < m, v ∈ Hs th) ↔ v ∈ Hs t ∨ ∃ th < m, th ≠ t ∧ v ∈ Hs th := fun v => by
      rw [← hupd (Hs t) v, Function.update_eq_self]
    have hsep : ∀ v, v.owner = some t → ¬ ∃ th < m, th ≠ t ∧ v ∈ Hs th := fun v hv ⟨th, h, hne, hm⟩ => by
      have := hHs th h v hm
      rw [hv] at this
      exact hne (Option.some.inj this).symm
    have hsep0 : ∀ v, v.owner = some t → v ∉ H0 := fun v hv h => by have := hH0 v h; rw [hv] at this; cases this
    have hsepS : ∀ v, v.owner = some t → v ∉ S := fun v hv h => by have := hS v h; rw [hv] at this; cases this
    cases a with
    | alloc v =>
      obtain ⟨h1, h2, h3, h4⟩ := hself
      have hv : v.owner = some t := h1
      refine ⟨by simp [priv, hv], ?_, hsepS v hv, ?_⟩
      · rintro (h | h)
        · exact hsep0 v hv h
        · rcases (hall v).mp h with h | h
          · exact h2 h
          · exact hsep v hv h
      · have := key (insert v (Hs t)) (fun u hu => by rcases hu with rfl | hu <;> [exact hv; exact hHs t ht u hu]) h4
        convert this using 1
        ext u
        simp only [Set.mem_insert_iff, Set.mem_union, Set.mem_ofPred_eq]
        rw [hupd, hall u]
        simp only [Set.mem_insert_iff]
        tauto
    | free v =>
      obtain ⟨h1, h2, h4⟩ := hself
      have hv : v.owner = some t := h1
      refine ⟨by simp [priv, hv], Or.inr ((hall v).mpr (Or.inl h2)), ?_⟩
      have := key (Hs t \ {v}) (fun u hu => hHs t ht u hu.1) h4
      convert this using 1
      ext u
      simp only [Set.mem_sdiff, Set.mem_union, Set.mem_ofPred_eq, Set.mem_singleton_iff]
      rw [hupd, hall u]
      simp only [Set.mem_sdiff, Set.mem_singleton_iff]
      have h0 : u = v → u ∉ H0 := fun e => e ▸ hsep0 v hv
      have h1 : u = v → ¬ ∃ th < m, th ≠ t ∧ u ∈ Hs th := fun e => e ▸ hsep v hv
      clear hupd hall hsep hsep0 hsepS key this
      generalize (∃ th < m, th ≠ t ∧ u ∈ Hs th) = P at *
      by_cases e : u = v
      · have := h0 e; have := h1 e; tauto
      · tauto
    | use v =>
      obtain ⟨h1, h4⟩ := hself
      refine ⟨?_, ?_⟩
      · rcases h1 with h | h
        · exact Or.inl (Or.inr ((hall v).mpr (Or.inl h)))
        · rcases hSh v h with h | h
          · exact Or.inl (Or.inl h)
          · exact Or.inr h
      · have := key (Hs t) (hHs t ht) h4
        rwa [Function.update_eq_self] at this
    | copy v w => exact hself.elim
    | assign v =>
      have := key (Hs t) (hHs t ht) hself
      rwa [Function.update_eq_self] at this

theorem Ok.parallel {r : RunKind} {m : ℕ} {progs : ℕ → List Act} {par : List (ℕ × Act)} (h : ∀ th < m, r.ThreadTrace th (progs th))
    (hi : Interleaving m progs par) {S H : Set Var} (hS : ∀ v ∈ S, v.owner = none) (hH : ∀ v ∈ H, v.owner = none)
    (hr : ∀ v, r.shared v → v ∈ H ∨ v ∈ S) : Ok priv S H (par.map Prod.snd) H := by
  have := Ok.interleave (S := S) (H0 := H) (Sh := {v | r.shared v}) m par (fun _ => ∅) hi.1
    (fun th ht => by rw [hi.2 th ht]; exact Ok.thread (h th ht)) (by simp) hr hS hH
  simpa using this

theorem Ok.trace {r : RunKind} {m : ℕ} {l : List Act} (h : r.Trace m l) {S H : Set Var} (hS : ∀ v ∈ S, v.owner = none)
    (hH : ∀ v ∈ H, v.owner = none) (hr : ∀ v, r.shared v → v ∈ H ∨ v ∈ S) : Ok priv S H l H := by
  obtain ⟨pre, post, progs, par, h1, h2, h3, h4, rfl⟩ := h
  have sc : ∀ (K : Set Var), (∀ v ∈ K, v.owner = none) → ∀ b, Var.scratch 0 b ∉ K := fun K hK b hb => by simpa [Var.owner] using hK _ hb
  exact ((Ok.body (O := priv) h1 (fun _ => by simp [priv, Var.owner]) (sc H hH) (sc S hS) hr).append (Ok.parallel h2 h3 hS hH hr)).append
    (Ok.body (O := priv) h4 (fun _ => by simp [priv, Var.owner]) (sc H hH) (sc S hS) hr)

/-! ## Soundness of the check -/

/-- The state `s`, reached from `s0`, with exactly the held variables `H` owning blocks allocated since and the variables `S` pointing
to blocks of `s0`. -/
structure Inv (s0 : HeapSt) (S H : Set Var) (s : HeapSt) : Prop where
  base : ∀ b ∈ s0.live, b < s0.next
  sh : ∀ v ∈ S, ∃ b ∈ s0.live, s.ptr v = some b
  sep : ∀ v ∈ S, v ∉ H
  held : ∀ v ∈ H, ∃ b, s.ptr v = some b ∧ s0.next ≤ b ∧ b < s.next
  inj : ∀ v ∈ H, ∀ w ∈ H, s.ptr v = s.ptr w → v = w
  live : ∀ b, b ∈ s.live ↔ b ∈ s0.live ∨ ∃ v ∈ H, s.ptr v = some b
  le : s0.next ≤ s.next
  freed : ∃ fr, s.freed = s0.freed ++ fr ∧ fr.Nodup ∧ (∀ b ∈ fr, ∀ v ∈ H, s.ptr v ≠ some b) ∧
    ∀ b, s0.next ≤ b ∧ b < s.next ↔ b ∈ fr ∨ ∃ v ∈ H, s.ptr v = some b

theorem Inv.weaken {s0 s : HeapSt} {S S' H : Set Var} (h : Inv s0 S H s) (hs : S' ⊆ S) : Inv s0 S' H s :=
  { h with sh := fun v hv => h.sh v (hs hv), sep := fun v hv => h.sep v (hs hv) }

theorem Inv.start {s : HeapSt} {S : Set Var} (hb : ∀ b ∈ s.live, b < s.next) (hS : ∀ v ∈ S, ∃ b ∈ s.live, s.ptr v = some b) :
    Inv s S ∅ s where
  base := hb
  sh := hS
  sep := by simp
  held := by simp
  inj := by simp
  live := by simp
  le := le_refl _
  freed := ⟨[], by simp, by simp, by simp, fun b => by
    constructor
    · rintro ⟨h, h'⟩; omega
    · simp⟩

theorem Inv.alloc {s0 s : HeapSt} {S H : Set Var} {v : Var} (h : Inv s0 S H s) (hv : v ∉ H) (hvS : v ∉ S) :
    ∃ s', s.step (.alloc v) = .ok s' ∧ Inv s0 S (insert v H) s' := by
  refine ⟨_, rfl, ?_⟩
  have hp : ∀ u, u ∈ H → (if u = v then some s.next else s.ptr u) = s.ptr u := fun u hu => if_neg fun e : u = v => hv (e ▸ hu)
  have hlt : ∀ u ∈ H, ∀ b, s.ptr u = some b → b < s.next := fun u hu b hb => by
    obtain ⟨c, hc, _, h2⟩ := h.held u hu
    rw [hb] at hc; cases hc; exact h2
  have hex : ∀ b, (∃ u ∈ insert v H, (if u = v then some s.next else s.ptr u) = some b) ↔ b = s.next ∨ ∃ u ∈ H, s.ptr u = some b := fun b => by
    constructor
    · rintro ⟨u, rfl | hu, e⟩
      · rw [if_pos rfl] at e; exact Or.inl (Option.some.inj e).symm
      · rw [hp u hu] at e; exact Or.inr ⟨u, hu, e⟩
    · rintro (rfl | ⟨u, hu, e⟩)
      · exact ⟨v, Or.inl rfl, if_pos rfl⟩
      · exact ⟨u, Or.inr hu, by rw [hp u hu]; exact e⟩
  obtain ⟨fr, f1, f2, f3, f4⟩ := h.freed
  constructor
  · exact h.base
  · intro u hu
    obtain ⟨b, hb, e⟩ := h.sh u hu
    have hne : u ≠ v := fun e => hvS (e ▸ hu)
    exact ⟨b, hb, (if_neg hne).trans e⟩
  · rintro u hu (rfl | h')
    · exact hvS hu
    · exact h.sep u hu h'
  · rintro u (rfl | hu)
    · exact ⟨s.next, if_pos rfl, h.le, Nat.lt_succ_self _⟩
    · obtain ⟨b, e, h1, h2⟩ := h.held u hu
      exact ⟨b, (hp u hu).trans e, h1, Nat.lt_succ_of_lt h2⟩
  · rintro u (rfl | hu) w (rfl | hw) e
    · rfl
    · replace e : (if u = u then some s.next else s.ptr u) = (if w = u then some s.next else s.ptr w) := e
      rw [if_pos rfl, hp w hw] at e
      exact absurd (hlt w hw _ e.symm) (lt_irrefl _)
    · replace e : (if u = w then some s.next else s.ptr u) = (if w = w then some s.next else s.ptr w) := e
      rw [if_pos rfl, hp u hu] at e
      exact absurd (hlt u hu _ e) (lt_irrefl _)
    · replace e : (if u = v then some s.next else s.ptr u) = (if w = v then some s.next else s.ptr w) := e
      rw [hp u hu, hp w hw] at e
      exact h.inj u hu w hw e
  · intro b
    show b ∈ insert s.next s.live ↔ _
    rw [hex b, Finset.mem_insert, h.live b]
    tauto
  · exact Nat.le_succ_of_le h.le
  · refine ⟨fr, f1, f2, ?_, ?_⟩
    · rintro b hb u (rfl | hu) e
      · replace e : (if u = u then some s.next else s.ptr u) = some b := e
        rw [if_pos rfl] at e
        have := (f4 b).mpr (Or.inl hb)
        have := Option.some.inj e
        omega
      · exact f3 b hb u hu ((hp u hu).symm.trans e)
    · intro b
      show s0.next ≤ b ∧ b < s.next + 1 ↔ _
      rw [hex b]
      have := f4 b
      have hle := h.le
      constructor
      · rintro ⟨h1, h2⟩
        by_cases e : b = s.next
        · exact Or.inr (Or.inl e)
        · rcases this.mp ⟨h1, by omega⟩ with h | h
          · exact Or.inl h
          · exact Or.inr (Or.inr h)
      · rintro (h | rfl | h)
        · have := this.mpr (Or.inl h); exact ⟨this.1, by omega⟩
        · exact ⟨hle, by omega⟩
        · have := this.mpr (Or.inr h); exact ⟨this.1, by omega⟩

theorem Inv.free {s0 s : HeapSt} {S H : Set Var} {v : Var} (h : Inv s0 S H s) (hv : v ∈ H) :
    ∃ s', s.step (.free v) = .ok s' ∧ Inv s0 S (H \ {v}) s' ∧ s'.ptr = s.ptr ∧ ∀ b, s.ptr v = some b → b ∉ s'.live ∧ b < s'.next := by
  obtain ⟨b, hb, hlo, hhi⟩ := h.held v hv
  have hl : b ∈ s.live := (h.live b).mpr (Or.inr ⟨v, hv, hb⟩)
  refine ⟨{ s with live := s.live.erase b, freed := s.freed ++ [b] }, ?_, ?_, rfl, ?_⟩
  · simp [HeapSt.step, hb, hl]
  · have hne : ∀ u ∈ H, u ≠ v → s.ptr u ≠ some b := fun u hu hn e => hn (h.inj u hu v hv (e.trans hb.symm))
    have hex : ∀ c, (∃ u ∈ H \ {v}, s.ptr u = some c) ↔ c ≠ b ∧ ∃ u ∈ H, s.ptr u = some c := fun c => by
      constructor
      · rintro ⟨u, ⟨hu, hn⟩, e⟩
        exact ⟨fun ec => hne u hu hn (ec ▸ e), u, hu, e⟩
      · rintro ⟨hc, u, hu, e⟩
        refine ⟨u, ⟨hu, fun eu => hc ?_⟩, e⟩
        rw [show u = v from eu, hb] at e
        exact (Option.some.inj e).symm
    obtain ⟨fr, f1, f2, f3, f4⟩ := h.freed
    have hbase : b ∉ s0.live := fun hb' => absurd (h.base b hb') (by omega)
    constructor
    · exact h.base
    · exact h.sh
    · exact fun u hu h' => h.sep u hu h'.1
    · exact fun u hu => h.held u hu.1
    · exact fun u hu w hw e => h.inj u hu.1 w hw.1 e
    · intro c
      show c ∈ s.live.erase b ↔ _
      rw [Finset.mem_erase, h.live c]
      have := hex c
      constructor
      · rintro ⟨h1, h2 | h2⟩
        · exact Or.inl h2
        · exact Or.inr (this.mpr ⟨h1, h2⟩)
      · rintro (h2 | h2)
        · exact ⟨fun e => hbase (e ▸ h2), Or.inl h2⟩
        · exact ⟨(this.mp h2).1, Or.inr (this.mp h2).2⟩
    · exact h.le
    · refine ⟨fr ++ [b], by simp [f1], ?_, ?_, ?_⟩
      · rw [List.nodup_append]
        refine ⟨f2, by simp, ?_⟩
        intro c hc d hd e
        have hd' : d = b := by simpa using hd
        subst hd'; subst e
        exact f3 _ hc v hv hb
      · intro c hc u hu e
        rcases List.mem_append.mp hc with hc | hc
        · exact f3 c hc u hu.1 e
        · have hc' : c = b := by simpa using hc
          exact hne u hu.1 hu.2 (hc' ▸ e)
      · intro c
        rw [f4 c]
        have := hex c
        constructor
        · rintro (h | h)
          · exact Or.inl (by simp [h])
          · by_cases e : c = b
            · exact Or.inl (by simp [e])
            · exact Or.inr (this.mpr ⟨e, h⟩)
        · rintro (h | h)
          · rcases List.mem_append.mp h with h | h
            · exact Or.inl h
            · have hc' : c = b := by simpa using h
              exact Or.inr ⟨v, hv, hc' ▸ hb⟩
          · exact Or.inr (this.mp h).2
  · intro c hc
    rw [hb] at hc; cases hc
    exact ⟨by simp, hhi⟩

theorem Inv.use {s0 s : HeapSt} {S H : Set Var} {v : Var} (h : Inv s0 S H s) (hv : v ∈ H ∨ v ∈ S) : s.step (.use v) = .ok s := by
  have : ∃ b ∈ s.live, s.ptr v = some b := by
    rcases hv with hv | hv
    · obtain ⟨b, hb, _⟩ := h.held v hv
      exact ⟨b, (h.live b).mpr (Or.inr ⟨v, hv, hb⟩), hb⟩
    · obtain ⟨b, hb, e⟩ := h.sh v hv
      exact ⟨b, (h.live b).mpr (Or.inl hb), e⟩
  obtain ⟨b, hb, e⟩ := this
  simp [HeapSt.step, e, hb]

theorem Inv.copy {s0 s : HeapSt} {S H : Set Var} {v w : Var} (h : Inv s0 S H s) (hv : v ∉ H) (hw : w ∈ S) :
    ∃ s', s.step (.copy v w) = .ok s' ∧ Inv s0 (insert v S) H s' := by
  refine ⟨_, rfl, ?_⟩
  have hp : ∀ u, u ∈ H → (if u = v then s.ptr w else s.ptr u) = s.ptr u := fun u hu => if_neg fun e : u = v => hv (e ▸ hu)
  have hex : ∀ b, (∃ u ∈ H, (if u = v then s.ptr w else s.ptr u) = some b) ↔ ∃ u ∈ H, s.ptr u = some b := fun b => by
    constructor
    · rintro ⟨u, hu, e⟩; exact ⟨u, hu, (hp u hu).symm.trans e⟩
    · rintro ⟨u, hu, e⟩; exact ⟨u, hu, (hp u hu).trans e⟩
  obtain ⟨fr, f1, f2, f3, f4⟩ := h.freed
  constructor
  · exact h.base
  · intro u hu
    by_cases e : u = v
    · subst e
      obtain ⟨b, hb, e⟩ := h.sh w hw
      exact ⟨b, hb, (if_pos rfl).trans e⟩
    · obtain ⟨b, hb, e'⟩ := h.sh u (by rcases hu with h | h; exacts [absurd h e, h])
      exact ⟨b, hb, (if_neg e).trans e'⟩
  · rintro u (rfl | hu)
    · exact hv
    · exact h.sep u hu
  · intro u hu
    obtain ⟨b, e, h1⟩ := h.held u hu
    exact ⟨b, (hp u hu).trans e, h1⟩
  · intro u hu w' hw' e
    exact h.inj u hu w' hw' ((hp u hu).symm.trans (e.trans (hp w' hw')))
  · intro b
    show b ∈ s.live ↔ _
    rw [h.live b, ← hex b]
  · exact h.le
  · refine ⟨fr, f1, f2, fun b hb u hu e => f3 b hb u hu ((hp u hu).symm.trans e), fun b => ?_⟩
    show s0.next ≤ b ∧ b < s.next ↔ _
    rw [f4 b, ← hex b]

theorem HeapSt.exec_append (s : HeapSt) (l l' : List Act) : s.exec (l ++ l') = s.exec l >>= fun s => s.exec l' := by
  induction l generalizing s with
  | nil => rfl
  | cons a l ih =>
    simp only [List.cons_append, HeapSt.exec]
    cases s.step a with
    | ok s1 => simp [ih]
    | ub w => rfl

theorem HeapSt.exec_append_ok {s s1 s2 : HeapSt} {l l' : List Act} (h : s.exec l = .ok s1) (h' : s1.exec l' = .ok s2) :
    s.exec (l ++ l') = .ok s2 := by
  rw [HeapSt.exec_append, h]; exact h'

theorem Inv.exec {s0 s : HeapSt} {O S H H' : Set Var} {l : List Act} (h : Inv s0 S H s) (hl : Ok O S H l H') :
    ∃ s', s.exec l = .ok s' ∧ Inv s0 S H' s' := by
  induction l generalizing s H with
  | nil => cases hl; exact ⟨s, rfl, h⟩
  | cons a l ih =>
    cases a with
    | alloc v =>
      obtain ⟨s1, e1, h1⟩ := h.alloc hl.2.1 hl.2.2.1
      obtain ⟨s2, e2, h2⟩ := ih h1 hl.2.2.2
      exact ⟨s2, by rw [HeapSt.exec, e1]; exact e2, h2⟩
    | free v =>
      obtain ⟨s1, e1, h1, _⟩ := h.free hl.2.1
      obtain ⟨s2, e2, h2⟩ := ih h1 hl.2.2
      exact ⟨s2, by rw [HeapSt.exec, e1]; exact e2, h2⟩
    | use v =>
      obtain ⟨s2, e2, h2⟩ := ih h hl.2
      exact ⟨s2, by rw [HeapSt.exec, h.use hl.1]; exact e2, h2⟩
    | copy v w => exact hl.elim
    | assign v => exact ih h hl

/-- Pointers that are not assigned keep their values. -/
theorem HeapSt.exec_ptr {s s' : HeapSt} {l : List Act} {v : Var} (h : s.exec l = .ok s') (ha : .alloc v ∉ l) (hc : ∀ w, .copy v w ∉ l) :
    s'.ptr v = s.ptr v := by
  induction l generalizing s with
  | nil => cases h; rfl
  | cons a l ih =>
    obtain ⟨s1, e1, e2⟩ := Res.bind_eq_ok.mp h
    rw [ih e2 (fun h => ha (by simp [h])) (fun w h => hc w (by simp [h]))]
    cases a with
    | alloc u =>
      cases e1
      exact if_neg fun e => ha (by simp [e])
    | free u =>
      simp only [HeapSt.step] at e1
      split at e1
      · cases e1; rfl
      · split at e1
        · cases e1; rfl
        · cases e1
    | use u =>
      simp only [HeapSt.step] at e1
      split at e1
      · cases e1
      · split at e1
        · cases e1; rfl
        · cases e1
    | copy u w =>
      cases e1
      exact if_neg fun e => hc w (by simp [e])
    | assign u => cases e1; rfl

/-! ## The self-contained one-loop spectrum and the missing spectra of the B term -/

/-- The arrays of `run_spectrum_1loop`. -/
def tempVars : List Var := ["pk_lin", "sigmad2", "gamma1a_1loop", "gamma1b_1loop", "pk_gamma2_tree_tree"].map (Var.terms .s1)

theorem tempVars_nodup : tempVars.Nodup := by unfold tempVars; simp

theorem mem_tempVars {v : Var} (h : v ∈ tempVars) : ∃ f, f ≠ "k" ∧ v = .terms .s1 f := by
  unfold tempVars at h
  simp only [List.map_cons, List.map_nil, List.mem_cons, List.not_mem_nil, or_false] at h
  rcases h with rfl | rfl | rfl | rfl | rfl <;> exact ⟨_, by decide, rfl⟩

theorem s1_shared {v : Var} (h : RunKind.s1.shared v) : v = .lin "k" ∨ v = .lin "pk" ∨ v = .terms .s1 "k" ∨ v ∈ tempVars := by
  rcases h with h | h | ⟨f, hf, rfl⟩ | ⟨h, _⟩
  · exact Or.inl h
  · exact Or.inr (Or.inl h)
  · simp only [RunKind.arrays, List.mem_cons, List.not_mem_nil, or_false] at hf
    rcases hf with rfl | h
    · exact Or.inr (Or.inr (Or.inl rfl))
    · refine Or.inr (Or.inr (Or.inr ?_))
      unfold tempVars
      refine List.mem_map.mpr ⟨f, ?_, rfl⟩
      simpa using h
  · cases h

theorem Inv.spectrum {s0 s : HeapSt} {S H : Set Var} {m : ℕ} {out : Var} {l : List Act} (h : Inv s0 S H s)
    (hl : RunKind.SpectrumTrace m out l) (hlin : Var.lin "k" ∈ S ∧ Var.lin "pk" ∈ S) (hout : out ∈ H) (hS : ∀ v ∈ S, v.owner = none)
    (hH : ∀ v ∈ H, v.owner = none) (hSt : ∀ f, Var.terms .s1 f ∉ S) (hHt : ∀ f, Var.terms .s1 f ∉ H) :
    ∃ s', s.exec l = .ok s' ∧ Inv s0 S H s' := by
  obtain ⟨run, asm, h1, h2, rfl⟩ := hl
  have e1 : RunKind.callocs = tempVars.map .alloc := rfl
  have e2 : RunKind.freeTerms = tempVars.map .free := rfl
  have a := Ok.allocs (O := Set.univ) (S := S) (H := H) tempVars_nodup (fun _ _ => trivial)
    (fun v hv => by obtain ⟨f, _, rfl⟩ := mem_tempVars hv; exact hHt f) (fun v hv => by obtain ⟨f, _, rfl⟩ := mem_tempVars hv; exact hSt f)
  obtain ⟨s1, x1, i1⟩ := h.exec a
  obtain ⟨s2, x2, i2⟩ := i1.copy (v := .terms .s1 "k") (w := .lin "k")
    (by
      rintro (h | h)
      · exact hHt _ h
      · obtain ⟨f, hf, e⟩ := mem_tempVars h
        cases e; exact hf rfl) hlin.1
  have x2' : s1.exec [.copy (.terms .s1 "k") (.lin "k")] = .ok s2 := by rw [HeapSt.exec, x2]; rfl
  have oS : ∀ v ∈ insert (Var.terms .s1 "k") S, v.owner = none := by
    rintro v (rfl | hv)
    · rfl
    · exact hS v hv
  have oH : ∀ v ∈ H ∪ {v | v ∈ tempVars}, v.owner = none := by
    rintro v (hv | hv)
    · exact hH v hv
    · obtain ⟨f, _, rfl⟩ := mem_tempVars hv; rfl
  have hr : ∀ v, RunKind.s1.shared v → v ∈ H ∪ {v | v ∈ tempVars} ∨ v ∈ insert (Var.terms .s1 "k") S := fun v hv => by
    rcases s1_shared hv with rfl | rfl | rfl | h
    · exact Or.inr (Or.inr hlin.1)
    · exact Or.inr (Or.inr hlin.2)
    · exact Or.inr (Or.inl rfl)
    · exact Or.inl (Or.inr h)
  obtain ⟨s3, x3, i3⟩ := i2.exec (Ok.trace h1 oS oH hr)
  obtain ⟨s4, x4, i4⟩ := i3.exec (Ok.body (O := priv) h2 (fun _ => by simp [priv, Var.owner])
    (fun b hb => by simpa [Var.owner] using oH _ hb) (fun b hb => by simpa [Var.owner] using oS _ hb)
    (fun v hv => by
      rcases hv with hv | rfl
      · exact hr v hv
      · exact Or.inl (Or.inl hout)))
  obtain ⟨s5, x5, i5⟩ := i4.exec (Ok.frees (O := Set.univ) tempVars_nodup (fun _ _ => trivial) (fun v hv => Or.inr hv))
  refine ⟨s5, ?_, ?_⟩
  · rw [e1, e2]
    exact HeapSt.exec_append_ok (HeapSt.exec_append_ok (HeapSt.exec_append_ok (HeapSt.exec_append_ok x1 x2') x3) x4) x5
  · have e : (H ∪ {v | v ∈ tempVars}) \ {v | v ∈ tempVars} = H := by
      ext v
      constructor
      · rintro ⟨h | h, h'⟩
        · exact h
        · exact absurd h h'
      · intro h
        refine ⟨Or.inl h, fun h' => ?_⟩
        obtain ⟨f, _, rfl⟩ := mem_tempVars h'
        exact hHt f h
    rw [e] at i5
    exact i5.weaken (Set.subset_insert _ _)

/-- What must be registered before a run of the B term without spectra. -/
def fallbackVars : Set Var := {v | v = .lin "k" ∨ v = .lin "pk" ∨ ∃ f ∈ RunKind.b.arrays, v = .terms .b f}

theorem Inv.fallback {s : HeapSt} {m : ℕ} {l : List Act} (h : Inv s fallbackVars ∅ s) (hl : RunKind.FallbackTrace m l) :
    ∃ s', s.exec l = .ok s' ∧ Inv s fallbackVars ∅ s' ∧
      ∀ v, v = .dt "pk" ∨ v = .tt "pk" → ∃ b, s'.ptr v = some b ∧ s.next ≤ b ∧ b < s'.next := by
  obtain ⟨pre, sdt, stt, dbg, progs, par, h1, h2, h3, h4, h5, h6, rfl⟩ := hl
  have o0 : ∀ v ∈ fallbackVars, v.owner = none := by
    rintro v (rfl | rfl | ⟨f, _, rfl⟩) <;> rfl
  have lk : Var.lin "k" ∈ fallbackVars := Or.inl rfl
  have lp : Var.lin "pk" ∈ fallbackVars := Or.inr (Or.inl rfl)
  have t0 : ∀ f, Var.terms .s1 f ∉ fallbackVars := by
    rintro f (h | h | ⟨g, _, h⟩) <;> cases h
  have d0 : ∀ f, Var.dt f ∉ fallbackVars := by
    rintro f (h | h | ⟨g, _, h⟩) <;> cases h
  have r0 : ∀ f, Var.tt f ∉ fallbackVars := by
    rintro f (h | h | ⟨g, _, h⟩) <;> cases h
  obtain ⟨s1, x1, i1⟩ := h.exec (Ok.body (O := priv) h1 (fun _ => by simp [priv, Var.owner]) (by simp)
    (fun b hb => by simpa [Var.owner] using o0 _ hb)
    (fun v hv => by
      rcases hv with rfl | rfl | rfl | rfl | rfl
      · exact Or.inr lk
      · exact Or.inr lp
      all_goals exact Or.inr (Or.inr (Or.inr ⟨_, by simp [RunKind.arrays], rfl⟩))))
  obtain ⟨s2, x2, i2⟩ := i1.copy (v := .dt "k") (w := .lin "k") (by simp) lk
  obtain ⟨s3, x3, i3⟩ := i2.alloc (v := .dt "pk") (by simp) (by
    rintro (h | h)
    · exact absurd (show _ = _ from h) (by simp)
    · exact d0 _ h)
  obtain ⟨s4, x4, i4⟩ := i3.spectrum h2 ⟨Or.inr lk, Or.inr lp⟩ (Or.inl rfl)
    (by
      rintro v (rfl | hv)
      · rfl
      · exact o0 v hv)
    (by
      rintro v (rfl | hv)
      · rfl
      · exact hv.elim)
    (by
      rintro f (h | h)
      · cases h
      · exact t0 f h)
    (by
      rintro f (h | h)
      · cases h
      · exact h)
  obtain ⟨s5, x5, i5⟩ := i4.copy (v := .tt "k") (w := .lin "k")
    (by
      rintro (h | h)
      · cases h
      · exact h) (Or.inr lk)
  obtain ⟨s6, x6, i6⟩ := i5.alloc (v := .tt "pk")
    (by
      rintro (h | h)
      · cases h
      · exact h)
    (by
      rintro (h | h | h)
      · exact absurd (show _ = _ from h) (by simp)
      · cases h
      · exact r0 _ h)
  have oS : ∀ v ∈ insert (Var.tt "k") (insert (Var.dt "k") fallbackVars), v.owner = none := by
    rintro v (rfl | rfl | hv)
    · rfl
    · rfl
    · exact o0 v hv
  have oH : ∀ v ∈ insert (Var.tt "pk") (insert (Var.dt "pk") (∅ : Set Var)), v.owner = none := by
    rintro v (rfl | rfl | hv)
    · rfl
    · rfl
    · exact hv.elim
  obtain ⟨s7, x7, i7⟩ := i6.spectrum h3 ⟨Or.inr (Or.inr lk), Or.inr (Or.inr lp)⟩ (Or.inl rfl) oS oH
    (by
      rintro f (h | h | h)
      · cases h
      · cases h
      · exact t0 f h)
    (by
      rintro f (h | h | h)
      · cases h
      · cases h
      · exact h)
  have hr : ∀ v, RunKind.b.shared v →
      v ∈ insert (Var.tt "pk") (insert (Var.dt "pk") (∅ : Set Var)) ∨ v ∈ insert (Var.tt "k") (insert (Var.dt "k") fallbackVars) := by
    rintro v (rfl | rfl | hf | ⟨_, rfl | rfl | rfl | rfl⟩)
    · exact Or.inr (Or.inr (Or.inr lk))
    · exact Or.inr (Or.inr (Or.inr lp))
    · exact Or.inr (Or.inr (Or.inr (Or.inr (Or.inr hf))))
    · exact Or.inr (Or.inr (Or.inl rfl))
    · exact Or.inl (Or.inr (Or.inl rfl))
    · exact Or.inr (Or.inl rfl)
    · exact Or.inl (Or.inl rfl)
  obtain ⟨s8, x8, i8⟩ := i7.exec (Ok.body (O := priv) h4 (fun _ => by simp [priv, Var.owner])
    (fun b hb => by simpa [Var.owner] using oH _ hb) (fun b hb => by simpa [Var.owner] using oS _ hb) hr)
  obtain ⟨s9, x9, i9⟩ := i8.exec (Ok.parallel h5 h6 oS oH hr)
  obtain ⟨s10, x10, i10, p10, _⟩ := i9.free (v := .dt "pk") (Or.inr (Or.inl rfl))
  obtain ⟨s11, x11, i11, p11, _⟩ := i10.free (v := .tt "pk") ⟨Or.inl rfl, by simp⟩
  refine ⟨s11, ?_, ?_, ?_⟩
  · have y1 : s1.exec [.copy (.dt "k") (.lin "k"), .alloc (.dt "pk")] = .ok s3 := by
      rw [HeapSt.exec, x2]; show s2.exec _ = _; rw [HeapSt.exec, x3]; rfl
    have y2 : s4.exec [.copy (.tt "k") (.lin "k"), .alloc (.tt "pk")] = .ok s6 := by
      rw [HeapSt.exec, x5]; show s5.exec _ = _; rw [HeapSt.exec, x6]; rfl
    have y3 : s9.exec [.free (.dt "pk"), .free (.tt "pk")] = .ok s11 := by
      rw [HeapSt.exec, x10]; show s10.exec _ = _; rw [HeapSt.exec, x11]; rfl
    exact HeapSt.exec_append_ok (HeapSt.exec_append_ok (HeapSt.exec_append_ok (HeapSt.exec_append_ok x1
      (HeapSt.exec_append_ok (HeapSt.exec_append_ok (HeapSt.exec_append_ok y1 x4) y2) x7)) x8) x9) y3
  · have e : (insert (Var.tt "pk") (insert (Var.dt "pk") (∅ : Set Var)) \ {Var.dt "pk"}) \ {Var.tt "pk"} = ∅ := by
      ext v
      constructor
      · rintro ⟨⟨h | h | h, h1⟩, h2⟩
        · exact absurd h h2
        · exact absurd h h1
        · exact h
      · exact fun h => h.elim
    rw [e] at i11
    exact i11.weaken fun v hv => Or.inr (Or.inr hv)
  · rintro v hv
    obtain ⟨b, hb, h1, h2⟩ := i9.held v (by rcases hv with rfl | rfl <;> simp)
    refine ⟨b, by rw [p11, p10]; exact hb, h1, ?_⟩
    have n10 : s10.next = s9.next := by
      obtain ⟨c, hc, _⟩ := i9.held (.dt "pk") (by simp)
      simp only [HeapSt.step, hc] at x10
      split at x10 <;> cases x10
      rfl
    have n11 : s11.next = s10.next := by
      obtain ⟨c, hc, _⟩ := i10.held (.tt "pk") (by simp)
      simp only [HeapSt.step, hc] at x11
      split at x11 <;> cases x11
      rfl
    omega

end Verif
