import Verif.Model.Resolve
import Mathlib.Logic.Relation
import Mathlib.Tactic.Tauto

/-!
# C88: every method of every class finds what it uses
-/

namespace Verif

open PyObj

/-! ## What it means -/

/-- Whatever running the method `a` on the object asks for, directly or through other methods, is there. -/
def Complete (o : PyObj) (a : Attr) : Prop :=
  ∀ x, Relation.ReflTransGen (fun x y => y ∈ o.asks x) (.attr (some o.cls) a) x → o.has x = true

/-- The objects that a program can hold: new ones, those given a spectrum, selections, copies and deep copies. -/
inductive Held : PyObj → Prop
  | new (c : PyCls) : Held (PyObj.new c)
  | spectrum {o : PyObj} : Held o → bound o.cls = true → Held o.withSpectrum
  | select {o : PyObj} : Held o → Held o.select
  | copy {o : PyObj} : Held o → Held o.copy
  | deepcopy {o o' : PyObj} : Held o → o.deepcopy = .ok o' → Held o'

/-- The classes that a user works with: those of `__all__` without the common base `PyRegPT`. -/
def userClasses : List PyCls :=
  [.SpectrumLin, .SpectrumNoWiggle, .Spectrum1Loop, .Spectrum2Loop, .A1Loop, .A2Loop, .B1Loop, .B2Loop, .Bias1Loop]

/-- The methods that fail for want of an attribute. -/
def missing : List (PyCls × Attr) :=
  [(.SpectrumLin, .zeros), (.SpectrumNoWiggle, .zeros), (.SpectrumNoWiggle, .set_terms), (.Bias1Loop, .pk_interp), (.Bias1Loop, .sigmav),
    (.Bias1Loop, .sigmar), (.Bias1Loop, .sigma8)]

/-- The methods that ask for the spectrum of the object. -/
def wantsSpectrum (c : PyCls) (a : Attr) : Prop :=
  bound c = true ∧ (a = .deepcopy ∨ (a = .run_terms ∧ (c = .B1Loop ∨ c = .B2Loop)))

instance (c : PyCls) (a : Attr) : Decidable (wantsSpectrum c a) := by unfold wantsSpectrum; infer_instance

/-! ## Attributes of objects -/

theorem held_attrs {o : PyObj} (h : Held o) :
    (∀ a ∈ (PyObj.new o.cls).attrs, a ∈ o.attrs) ∧
    ∀ a ∈ o.attrs, a ∈ (PyObj.new o.cls).attrs ∨ (a = .spectrum_lin ∧ bound o.cls = true) := by
  induction h with
  | new c => exact ⟨fun a h => h, fun a h => .inl h⟩
  | spectrum h hb ih =>
      refine ⟨fun a ha => List.mem_cons_of_mem _ (ih.1 a ha), fun a ha => ?_⟩
      rcases List.mem_cons.1 ha with rfl | ha
      · exact .inr ⟨rfl, hb⟩
      · exact ih.2 a ha
  | select h ih => exact ⟨fun a h => h, fun a h => .inl h⟩
  | copy h ih =>
      refine ⟨fun a ha => List.mem_append_right _ ha, fun a ha => ?_⟩
      rcases List.mem_append.1 ha with ha | ha
      · exact ih.2 a ha
      · exact .inl ha
  | @deepcopy o o' h hd ih =>
      unfold PyObj.deepcopy at hd
      by_cases hb : bound o.cls = true
      · rw [if_pos hb] at hd
        by_cases hs : o.attrs.contains .spectrum_lin = true
        · rw [if_pos hs] at hd
          cases hd
          refine ⟨fun a ha => List.mem_cons_of_mem _ ha, fun a ha => ?_⟩
          rcases List.mem_cons.1 ha with rfl | ha
          · exact .inr ⟨rfl, hb⟩
          · exact .inl ha
        · rw [if_neg hs] at hd; cases hd
      · rw [if_neg hb] at hd
        cases hd
        exact ⟨fun a h => h, fun a h => .inl h⟩

theorem asks_cls {o o' : PyObj} (h : o.cls = o'.cls) : o.asks = o'.asks := by
  funext x
  unfold PyObj.asks
  rw [h]

theorem has_mono {o o' : PyObj} (h : o.cls = o'.cls) (ha : ∀ a ∈ o.attrs, a ∈ o'.attrs) (x : Node) (hx : o.has x = true) :
    o'.has x = true := by
  unfold PyObj.has at hx ⊢
  match x with
  | .col a => simpa [h] using hx
  | .attr none a => exact hx
  | .attr (some c) a =>
      simp only [Bool.or_eq_true, List.contains_iff_mem] at hx ⊢
      exact hx.imp (ha a) id

theorem complete_mono {o o' : PyObj} (h : o.cls = o'.cls) (ha : ∀ a ∈ o.attrs, a ∈ o'.attrs) {a : Attr} (hc : Complete o a) :
    Complete o' a := by
  intro x hx
  rw [← h, ← asks_cls h] at hx
  exact has_mono h ha x (hc x hx)

/-! ## The check -/

/-- What a list of nodes asks for in a number of rounds. -/
def round (o : PyObj) : ℕ → List Node → List Node
  | 0, l => l
  | n + 1, l => round o n (l ++ l.flatMap o.asks).eraseDups

/-- A set of nodes that is there and asks for nothing outside. -/
def Closed (o : PyObj) (l : List Node) : Prop := ∀ x ∈ l, o.has x = true ∧ ∀ y ∈ o.asks x, y ∈ l

instance (o : PyObj) (l : List Node) : Decidable (Closed o l) := by unfold Closed; infer_instance

theorem complete_of_closed {o : PyObj} {l : List Node} (hl : Closed o l) {a : Attr} (ha : .attr (some o.cls) a ∈ l) : Complete o a := by
  intro x hx
  have : x ∈ l := by
    induction hx with
    | refl => exact ha
    | tail _ h ih => exact (hl _ ih).2 _ h
  exact (hl x this).1

/-- The names that a class and its bases define. -/
def definedNames (c : PyCls) : List Attr := (PyCls.mro 11 (some c)).flatMap fun d => d.body.map Prod.fst

theorem mem_definedNames {c : PyCls} {a : Attr} (h : (PyCls.find (some c) a).isSome = true) : a ∈ definedNames c := by
  unfold PyCls.find at h
  rw [List.findSome?_isSome_iff] at h
  obtain ⟨d, hd, h⟩ := h
  refine List.mem_flatMap.2 ⟨d, hd, ?_⟩
  rw [Option.isSome_map] at h
  obtain ⟨us, hus⟩ := Option.isSome_iff_exists.1 h
  obtain ⟨l1, l2, hl, -⟩ := List.lookup_eq_some_iff.1 hus
  exact List.mem_map.2 ⟨(a, us), by rw [hl]; simp, rfl⟩

theorem check_with : ∀ c ∈ userClasses, Closed (if bound c then (PyObj.new c).withSpectrum else PyObj.new c)
    (round (PyObj.new c) 8 (((definedNames c).filter fun a => decide ((c, a) ∉ missing)).map (.attr (some c)))) := by
  decide +kernel

theorem check_without : ∀ c ∈ userClasses, Closed (PyObj.new c)
    (round (PyObj.new c) 8 (((definedNames c).filter fun a => decide ((c, a) ∉ missing ∧ ¬wantsSpectrum c a)).map (.attr (some c)))) := by
  decide +kernel

theorem mem_round (o : PyObj) {x : Node} : ∀ (n : ℕ) (l : List Node), x ∈ l → x ∈ round o n l
  | 0, _, h => h
  | n + 1, l, h => mem_round o n _ (by rw [List.mem_eraseDups]; exact List.mem_append_left _ h)

/-! ## The property -/

/-- C88, except for the methods in `missing`: whatever a program did with an object, every method that its class defines or inherits
finds all methods, class attributes, attributes of the object and columns it uses, directly or through the methods it calls; the
methods that ask for the spectrum need one to have been given. -/
theorem C88_methods_partial {o : PyObj} (ho : Held o) (hc : o.cls ∈ userClasses) {a : Attr} (ha : (PyCls.find (some o.cls) a).isSome = true)
    (hm : (o.cls, a) ∉ missing) (hs : wantsSpectrum o.cls a → .spectrum_lin ∈ o.attrs) : Complete o a := by
  obtain ⟨h1, -⟩ := held_attrs ho
  by_cases hw : wantsSpectrum o.cls a
  · have hb : bound o.cls = true := hw.1
    have hk := check_with o.cls hc
    rw [if_pos hb] at hk
    refine complete_mono (o := (PyObj.new o.cls).withSpectrum) (o' := o) rfl (fun b hb' => ?_)
      (complete_of_closed hk (mem_round _ _ _ (List.mem_map.2 ⟨a, List.mem_filter.2 ⟨mem_definedNames ha, decide_eq_true hm⟩, rfl⟩)))
    rcases List.mem_cons.1 hb' with rfl | hb'
    · exact hs hw
    · exact h1 b hb'
  · exact complete_mono (o := PyObj.new o.cls) (o' := o) rfl h1
      (complete_of_closed (check_without o.cls hc)
        (mem_round _ _ _ (List.mem_map.2 ⟨a, List.mem_filter.2 ⟨mem_definedNames ha, decide_eq_true ⟨hm, hw⟩⟩, rfl⟩)))

/-- A two-loop spectrum with a linear spectrum, copied and then restricted to some modes. -/
example : Complete (PyObj.new .Spectrum2Loop).withSpectrum.copy.select .sigma8 :=
  C88_methods_partial (.select (.copy (.spectrum (.new _) (by decide)))) (by decide) (by decide) (by decide) (fun h => absurd h (by decide))

example : Complete (PyObj.new .B2Loop).withSpectrum.copy .run_terms :=
  C88_methods_partial (.copy (.spectrum (.new _) (by decide))) (by decide) (by decide) (by decide) (fun _ => by decide)

/-- C88 fails: `zeros` of `SpectrumLin` and `SpectrumNoWiggle`, hence `set_terms` of the latter, look for `C_TYPE`, which only the classes
bound to the library have; `pk_interp`, `sigmav`, `sigmar` and `sigma8` of `Bias1Loop` look for a `pk` that this class does not have.
They fail for every object. -/
theorem C88_missing_violation {o : PyObj} (ho : Held o) {a : Attr} (hm : (o.cls, a) ∈ missing) :
    ∃ b, (b = .C_TYPE ∨ b = .pk) ∧ Relation.ReflTransGen (fun x y => y ∈ o.asks x) (.attr (some o.cls) a) (.attr (some o.cls) b) ∧
      o.has (.attr (some o.cls) b) = false := by
  obtain ⟨-, h2⟩ := held_attrs ho
  have hb : ∀ c, ∀ b, (b = Attr.C_TYPE ∨ b = .pk) → b ∉ (PyObj.new c).attrs := by
    intro c b hb
    rcases hb with rfl | rfl <;> cases c <;> decide
  have hno : ∀ b, (b = Attr.C_TYPE ∨ b = .pk) → o.attrs.contains b = false := by
    intro b hb'
    rw [List.contains_eq_mem, decide_eq_false_iff_not]
    intro hmem
    rcases h2 b hmem with h | ⟨h, -⟩
    · exact hb _ b hb' h
    · rcases hb' with rfl | rfl <;> cases h
  have hcl : ∀ x, o.asks x = (PyObj.new o.cls).asks x := fun x => congrFun (asks_cls (o := o) (o' := PyObj.new o.cls) rfl) x
  have one : ∀ {x y : Node}, y ∈ (PyObj.new o.cls).asks x → Relation.ReflTransGen (fun x y => y ∈ o.asks x) x y := fun h =>
    .single (by rw [hcl]; exact h)
  have hfin : ∀ b, (b = Attr.C_TYPE ∨ b = .pk) → PyCls.find (some o.cls) b = none → o.has (.attr (some o.cls) b) = false := by
    intro b hb' hf
    simp only [PyObj.has, hno b hb', hf, Option.isSome_none, Bool.or_self]
  obtain ⟨c, attrs⟩ := o
  simp only [missing, List.mem_cons, Prod.mk.injEq, List.not_mem_nil, or_false] at hm
  rcases hm with ⟨rfl, rfl⟩ | ⟨rfl, rfl⟩ | ⟨rfl, rfl⟩ | ⟨rfl, rfl⟩ | ⟨rfl, rfl⟩ | ⟨rfl, rfl⟩ | ⟨rfl, rfl⟩
  · exact ⟨.C_TYPE, .inl rfl, one (by dsimp only; decide), hfin _ (.inl rfl) (by dsimp only; decide)⟩
  · exact ⟨.C_TYPE, .inl rfl, one (by dsimp only; decide), hfin _ (.inl rfl) (by dsimp only; decide)⟩
  · exact ⟨.C_TYPE, .inl rfl, (one (y := .attr (some .SpectrumNoWiggle) .zeros) (by dsimp only; decide)).trans (one (by dsimp only; decide)),
      hfin _ (.inl rfl) (by dsimp only; decide)⟩
  · exact ⟨.pk, .inr rfl, one (by dsimp only; decide), hfin _ (.inr rfl) (by dsimp only; decide)⟩
  · exact ⟨.pk, .inr rfl, one (by dsimp only; decide), hfin _ (.inr rfl) (by dsimp only; decide)⟩
  · exact ⟨.pk, .inr rfl, one (by dsimp only; decide), hfin _ (.inr rfl) (by dsimp only; decide)⟩
  · exact ⟨.pk, .inr rfl, (one (y := .attr (some .Bias1Loop) .sigmar) (by dsimp only; decide)).trans (one (by dsimp only; decide)), hfin _ (.inr rfl) (by dsimp only; decide)⟩

example : ¬Complete (PyObj.new .Bias1Loop).withSpectrum .sigmav := fun h => by
  obtain ⟨b, -, h1, h2⟩ := C88_missing_violation (o := (PyObj.new .Bias1Loop).withSpectrum) (.spectrum (.new _) (by decide)) (a := .sigmav)
    (by decide)
  rw [h _ h1] at h2
  cases h2

/-- C88: for the classes bound to the library `deepcopy`, and the runs of `B1Loop` and `B2Loop`, find what they use exactly if the
object was given a spectrum. -/
theorem C88_spectrum {o : PyObj} (ho : Held o) (hc : o.cls ∈ userClasses) {a : Attr} (hw : wantsSpectrum o.cls a) :
    Complete o a ↔ .spectrum_lin ∈ o.attrs := by
  refine ⟨fun h => ?_, fun h => C88_methods_partial ho hc ?_ ?_ fun _ => h⟩
  · have h1 : Node.attr (some o.cls) .spectrum_lin ∈ o.asks (.attr (some o.cls) a) := by
      rw [asks_cls (o := o) (o' := PyObj.new o.cls) rfl]
      obtain ⟨hb, hw⟩ := hw
      revert hb hw hc
      generalize o.cls = c
      intro hc hb hw
      rcases hw with rfl | ⟨rfl, rfl | rfl⟩
      · cases c <;> revert hb hc <;> decide
      · decide
      · decide
    have h2 := h _ (.single h1)
    have hf : PyCls.find (some o.cls) .spectrum_lin = none := by
      cases o.cls <;> decide
    simpa [PyObj.has, hf] using h2
  · obtain ⟨hb, hw⟩ := hw
    rcases hw with rfl | ⟨rfl, h | h⟩
    · cases o.cls <;> decide
    · rw [h]; decide
    · rw [h]; decide
  · obtain ⟨hb, hw⟩ := hw
    rcases hw with rfl | ⟨rfl, h | h⟩
    · cases o.cls <;> decide
    · rw [h]; decide
    · rw [h]; decide

example : ¬Complete (PyObj.new .B1Loop) .run_terms := fun h => by
  have := (C88_spectrum (.new _) (by decide) (by decide)).1 h
  revert this
  decide

/-- C88 fails for selections: an object restricted to some modes has no spectrum, even if it was taken from an object that has one, so
`deepcopy` of it, and a run of `B1Loop` or `B2Loop`, raise. -/
theorem C88_selection_violation {o : PyObj} (ho : Held o) (hc : o.cls ∈ userClasses) {a : Attr} (hw : wantsSpectrum o.cls a)
    (hs : .spectrum_lin ∈ o.attrs) : Complete o a ∧ ¬Complete o.select a ∧ o.select.deepcopy = .error "AttributeError" := by
  have hn : Attr.spectrum_lin ∉ o.select.attrs := by
    show Attr.spectrum_lin ∉ (PyObj.new o.cls).attrs
    cases o.cls <;> decide
  refine ⟨(C88_spectrum ho hc hw).2 hs, fun h => hn ((C88_spectrum (.select ho) hc hw).1 h), ?_⟩
  unfold PyObj.deepcopy
  have hb : bound o.select.cls = true := hw.1
  rw [if_pos hb, if_neg (by simpa using hn)]

example : ¬Complete (PyObj.new .Spectrum1Loop).withSpectrum.select .deepcopy :=
  (C88_selection_violation (.spectrum (.new _) (by decide)) (by decide) ⟨by decide, .inl rfl⟩ (by decide)).2.1

/-- C88: copies keep what their original can do, and deep copies have it unless they could not be made. -/
theorem C88_copies {o : PyObj} (ho : Held o) {a : Attr} (h : Complete o a) :
    Complete o.copy a ∧ ∀ o', o.deepcopy = .ok o' → Complete o' a := by
  refine ⟨complete_mono (o := o) (o' := o.copy) rfl (fun b hb => List.mem_append_left _ hb) h, fun o' hd => ?_⟩
  obtain ⟨-, h2⟩ := held_attrs ho
  unfold PyObj.deepcopy at hd
  by_cases hb : bound o.cls = true
  · rw [if_pos hb] at hd
    by_cases hs : o.attrs.contains .spectrum_lin = true
    · rw [if_pos hs] at hd
      cases hd
      refine complete_mono (o := o) (o' := (PyObj.new o.cls).withSpectrum) rfl (fun b hb' => ?_) h
      rcases h2 b hb' with h' | ⟨h', -⟩
      · exact List.mem_cons_of_mem _ h'
      · exact h' ▸ List.mem_cons_self
    · rw [if_neg hs] at hd; cases hd
  · rw [if_neg hb] at hd
    cases hd
    refine complete_mono (o := o) (o' := (PyObj.new o.cls)) rfl (fun b hb' => ?_) h
    rcases h2 b hb' with h' | ⟨-, h'⟩
    · exact h'
    · exact absurd h' hb

example : ∀ o', (PyObj.new .A2Loop).withSpectrum.deepcopy = .ok o' → Complete o' .deepcopy :=
  (C88_copies (.spectrum (.new _) (by decide)) ((C88_spectrum (.spectrum (.new _) (by decide)) (by decide) ⟨by decide, .inl rfl⟩).2
    (by decide))).2

end Verif
