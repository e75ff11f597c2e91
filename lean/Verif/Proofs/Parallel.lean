import Verif.Model.Parallel

/-!
# Parallel regions: the outcome does not depend on the schedule
-/

namespace Verif

/-- Content of a cell. -/
def Mem.at (μ : Mem) (c : Cell) : Option (Option ℝ) := (μ c.1)[c.2]?

theorem Mem.ext_at {μ ν : Mem} (h : ∀ c, μ.at c = ν.at c) : μ = ν := by
  funext a
  apply List.ext_getElem?
  intro i
  exact h (a, i)

theorem Mem.wr_ok (μ : Mem) (c : Cell) (v : ℝ) (h : c.2 < (μ c.1).length) :
    ∃ ν, μ.wr c v = .ok ν ∧ ν.at c = some (some v) ∧ (∀ c', c' ≠ c → ν.at c' = μ.at c') ∧
      ∀ a, (ν a).length = (μ a).length := by
  refine ⟨Function.update μ c.1 ((μ c.1).set c.2 (some v)), by simp [Mem.wr, Buf.wr_ok h], ?_, ?_, ?_⟩
  · simp [Mem.at, h]
  · intro c' hc
    by_cases e : c'.1 = c.1
    · have : c.2 ≠ c'.2 := fun e' => hc (Prod.ext e e'.symm)
      simp only [Mem.at, e, Function.update_self]
      rw [List.getElem?_set_ne this]
    · simp [Mem.at, Function.update_of_ne e]
  · intro a
    by_cases e : a = c.1
    · subst e; simp
    · simp [Function.update_of_ne e]

theorem Mem.wr_ub (μ : Mem) (c : Cell) (v : ℝ) (h : (μ c.1).length ≤ c.2) : μ.wr c v = .ub "out of bounds write" := by
  simp [Mem.wr, Buf.wr, Nat.not_lt.mpr h]

/-- The body of the loop gives the row `row ik` whatever iterations the tables have served before: `R` is the part of the tables
the iterations leave alone. -/
structure Work.Pure {σ : Type} {m : ℕ} (W : Work σ m) (n : ℕ) (R : σ → Prop) (row : ℕ → Fin m → ℝ) : Prop where
  init : ∃ s, W.init = .ok s ∧ R s
  body : ∀ s, R s → ∀ ik < n, ∃ s', W.body s ik = .ok (s', row ik) ∧ R s'

/-- No cell belongs to two (row, column) pairs. -/
def LayInj {m : ℕ} (lay : ℕ → Fin m → Cell) (n : ℕ) : Prop :=
  ∀ ik < n, ∀ ik' < n, ∀ c c', lay ik c = lay ik' c' → ik = ik' ∧ c = c'

/-- All cells exist. -/
def LayIn {m : ℕ} (lay : ℕ → Fin m → Cell) (n : ℕ) (μ : Mem) : Prop :=
  ∀ ik < n, ∀ c, (lay ik c).2 < (μ (lay ik c).1).length

private structure Inv {σ : Type} {m : ℕ} (lay : ℕ → Fin m → Cell) (R : σ → Prop) (row : ℕ → Fin m → ℝ) (μ : Mem)
    (q : ℕ → Option ℕ) (done : List ℕ) (M : Machine σ) : Prop where
  live : ∀ th, q th = (M.th th).map fun T => T.pending.length
  tables : ∀ th T, M.th th = some T → R T.tables
  pend : ∀ th T, M.th th = some T → ∀ w ∈ T.pending, ∃ ik ∈ done, ∃ c, w = (lay ik c, row ik c)
  kept : ∀ ik ∈ done, ∀ c, M.mem.at (lay ik c) = some (some (row ik c)) ∨
    ∃ th T, M.th th = some T ∧ (lay ik c, row ik c) ∈ T.pending
  other : ∀ c, (∀ ik ∈ done, ∀ j, lay ik j ≠ c) → M.mem.at c = μ.at c
  len : ∀ a, (M.mem a).length = (μ a).length

private theorem Inv.live_some {σ : Type} {m : ℕ} {lay : ℕ → Fin m → Cell} {R : σ → Prop} {row : ℕ → Fin m → ℝ} {μ : Mem}
    {q : ℕ → Option ℕ} {done : List ℕ} {M : Machine σ} (h : Inv lay R row μ q done M) {th n : ℕ} (hq : q th = some n) :
    ∃ T, M.th th = some T ∧ T.pending.length = n := by
  have := h.live th
  rw [hq] at this
  rcases e : M.th th with _ | T
  · rw [e] at this; simp at this
  · rw [e] at this; simp at this; exact ⟨T, rfl, this.symm⟩

private theorem Inv.exec {σ : Type} {m : ℕ} {W : Work σ m} {lay : ℕ → Fin m → Cell} {n : ℕ} {R : σ → Prop}
    {row : ℕ → Fin m → ℝ} {μ : Mem} (hW : W.Pure n R row) (hinj : LayInj lay n) (hin : LayIn lay n μ) :
    ∀ (es : List Event) (q : ℕ → Option ℕ) (done : List ℕ) (M : Machine σ), Inv lay R row μ q done M → (∀ ik ∈ done, ik < n) →
      Ordered m q es → (∀ ik ∈ steps es, ik < n) →
      ∃ M' q', execAll W lay M es = .ok M' ∧ Inv lay R row μ q' (steps es ++ done) M' ∧ ∀ th, q' th = none ∨ q' th = some 0
  | [], q, done, M, h, _, ho, _ => ⟨M, q, rfl, h, ho⟩
  | .init th :: es, q, done, M, h, hd, ho, hs => by
      obtain ⟨s, hs0, hR⟩ := hW.init
      obtain ⟨ho1, ho2⟩ := ho
      have hnone : M.th th = none := by
        have := h.live th
        rw [ho1] at this
        rcases e : M.th th with _ | T
        · rfl
        · rw [e] at this; simp at this
      have h' : Inv lay R row μ (Function.update q th (some 0)) done
          { M with th := Function.update M.th th (some ⟨s, []⟩) } := by
        refine ⟨?_, ?_, ?_, ?_, h.other, h.len⟩
        · intro t
          by_cases e : t = th
          · subst e; simp
          · simp [Function.update_of_ne e, h.live t]
        · intro t T hT
          by_cases e : t = th
          · subst e; simp at hT; rw [← hT]; exact hR
          · simp [Function.update_of_ne e] at hT
            exact h.tables t T hT
        · intro t T hT
          by_cases e : t = th
          · subst e; simp at hT; rw [← hT]; simp
          · simp [Function.update_of_ne e] at hT
            exact h.pend t T hT
        · intro ik hik c
          rcases h.kept ik hik c with h1 | ⟨t, T, hT, hw⟩
          · exact .inl h1
          · refine .inr ⟨t, T, ?_, hw⟩
            by_cases e : t = th
            · subst e; rw [hnone] at hT; exact absurd hT (by simp)
            · simpa [Function.update_of_ne e] using hT
      obtain ⟨M', q', h1, h2⟩ := Inv.exec hW hinj hin es _ done _ h' hd ho2 hs
      exact ⟨M', q', by simp [execAll, Verif.exec, hs0, h1], h2⟩
  | .step th ik :: es, q, done, M, h, hd, ho, hs => by
      obtain ⟨np, ho1, ho2⟩ := ho
      obtain ⟨T, hT, hTl⟩ := h.live_some ho1
      have hik : ik < n := hs ik (by simp [steps])
      obtain ⟨s', hb, hR'⟩ := hW.body T.tables (h.tables th T hT) ik hik
      have hmem : ∀ c, (lay ik c, row ik c) ∈ rowWrites lay ik (row ik) := fun c => by
        simp only [rowWrites, List.mem_ofFn]
        exact ⟨c, rfl⟩
      have h' : Inv lay R row μ (Function.update q th (some (np + m))) (ik :: done)
          { M with th := Function.update M.th th (some ⟨s', T.pending ++ rowWrites lay ik (row ik)⟩) } := by
        refine ⟨?_, ?_, ?_, ?_, ?_, h.len⟩
        · intro t
          by_cases e : t = th
          · subst e; simp [rowWrites, hTl]
          · simp [Function.update_of_ne e, h.live t]
        · intro t T' hT'
          by_cases e : t = th
          · subst e; simp at hT'; rw [← hT']; exact hR'
          · simp [Function.update_of_ne e] at hT'
            exact h.tables t T' hT'
        · intro t T' hT' w hw
          by_cases e : t = th
          · subst e; simp at hT'; rw [← hT'] at hw
            rcases List.mem_append.1 hw with hw | hw
            · obtain ⟨j, hj, c, hc⟩ := h.pend t T hT w hw
              exact ⟨j, List.mem_cons_of_mem _ hj, c, hc⟩
            · simp only [rowWrites, List.mem_ofFn] at hw
              obtain ⟨c, hc⟩ := hw
              exact ⟨ik, List.mem_cons_self, c, hc.symm⟩
          · simp [Function.update_of_ne e] at hT'
            obtain ⟨j, hj, c, hc⟩ := h.pend t T' hT' w hw
            exact ⟨j, List.mem_cons_of_mem _ hj, c, hc⟩
        · intro j hj c
          rcases List.mem_cons.1 hj with hj | hj
          · subst hj
            exact .inr ⟨th, _, Function.update_self .., List.mem_append_right _ (hmem c)⟩
          · rcases h.kept j hj c with h1 | ⟨t, T', hT', hw⟩
            · exact .inl h1
            · by_cases e : t = th
              · subst e; rw [hT] at hT'; cases hT'
                exact .inr ⟨t, _, Function.update_self .., List.mem_append_left _ hw⟩
              · exact .inr ⟨t, T', by simpa [Function.update_of_ne e] using hT', hw⟩
        · intro c hc
          exact h.other c fun j hj => hc j (List.mem_cons_of_mem _ hj)
      obtain ⟨M', q', h1, h2, h3⟩ := Inv.exec hW hinj hin es _ (ik :: done) _ h'
        (fun j hj => by
          rcases List.mem_cons.1 hj with rfl | hj
          · exact hik
          · exact hd j hj) ho2 (fun j hj => hs j (by simp [steps, hj]))
      refine ⟨M', q', by simp [execAll, Verif.exec, hT, hb, h1], ?_, h3⟩
      refine ⟨h2.live, h2.tables, ?_, ?_, ?_, h2.len⟩
      · intro t T' hT' w hw
        obtain ⟨j, hj, c, hc⟩ := h2.pend t T' hT' w hw
        exact ⟨j, by simp [steps] at hj ⊢; tauto, c, hc⟩
      · intro j hj
        exact h2.kept j (by simp [steps] at hj ⊢; tauto)
      · intro c hc
        exact h2.other c fun j hj => hc j (by simp [steps] at hj ⊢; tauto)
  | .commit th :: es, q, done, M, h, hd, ho, hs => by
      obtain ⟨np, ho1, ho2⟩ := ho
      obtain ⟨⟨s, pend⟩, hT, hTl⟩ := h.live_some ho1
      rcases pend with _ | ⟨⟨c, v⟩, rest⟩
      · simp at hTl
      simp only [List.length_cons, Nat.add_right_cancel_iff] at hTl
      have key : ∃ M1, Verif.exec W lay M (.commit th) = .ok M1 ∧
          Inv lay R row μ (Function.update q th (some np)) done M1 := by
        obtain ⟨ik, hik, j, hj⟩ := h.pend th _ hT (c, v) List.mem_cons_self
        simp only [Prod.mk.injEq] at hj
        obtain ⟨hc, hv⟩ := hj
        have hlen : c.2 < (M.mem c.1).length := by
          rw [h.len, hc]; exact hin ik (hd ik hik) j
        obtain ⟨ν, hν, h1, h2, h3⟩ := Mem.wr_ok M.mem c v hlen
        refine ⟨⟨Function.update M.th th (some ⟨s, rest⟩), ν⟩, by simp [Verif.exec, hT, hν], ?_⟩
        refine ⟨?_, ?_, ?_, ?_, ?_, ?_⟩
        · intro t
          by_cases e : t = th
          · subst e; simp [hTl]
          · simp [Function.update_of_ne e, h.live t]
        · intro t T' hT'
          by_cases e : t = th
          · subst e; simp at hT'; rw [← hT']; exact h.tables t ⟨s, (c, v) :: rest⟩ hT
          · simp [Function.update_of_ne e] at hT'
            exact h.tables t T' hT'
        · intro t T' hT' w hw
          by_cases e : t = th
          · subst e; simp at hT'; rw [← hT'] at hw
            exact h.pend t _ hT w (List.mem_cons_of_mem _ hw)
          · simp [Function.update_of_ne e] at hT'
            exact h.pend t T' hT' w hw
        · intro ik' hik' j'
          by_cases ec : lay ik' j' = c
          · have := hinj ik' (hd _ hik') ik (hd _ hik) j' j (ec.trans hc)
            obtain ⟨e1, e2⟩ := this
            subst e1 e2
            left
            show ν.at (lay ik' j') = _
            rw [ec, h1, hv]
          · rcases h.kept ik' hik' j' with hk | ⟨t, T', hT', hw⟩
            · left
              show ν.at (lay ik' j') = _
              rw [h2 _ ec, hk]
            · by_cases e : t = th
              · subst e; rw [hT] at hT'; cases hT'
                rcases List.mem_cons.1 hw with hw | hw
                · exact absurd (congrArg Prod.fst hw) ec
                · exact .inr ⟨t, _, Function.update_self .., hw⟩
              · exact .inr ⟨t, T', by simpa [Function.update_of_ne e] using hT', hw⟩
        · intro c' hc'
          show ν.at c' = _
          rw [h2 c' (fun e => hc' ik hik j (hc ▸ e.symm)), h.other c' hc']
        · intro a
          show (ν a).length = _
          rw [h3, h.len]
      obtain ⟨M1, hM1, hI⟩ := key
      obtain ⟨M', q', h1, h2⟩ := Inv.exec hW hinj hin es _ done M1 hI hd ho2 hs
      exact ⟨M', q', by simp [execAll, hM1, h1], h2⟩

/-- `ν` is `μ` with the rows stored in their cells and every other cell unchanged. -/
structure Stored {m : ℕ} (lay : ℕ → Fin m → Cell) (n : ℕ) (row : ℕ → Fin m → ℝ) (μ ν : Mem) : Prop where
  row : ∀ ik < n, ∀ j, ν.at (lay ik j) = some (some (row ik j))
  other : ∀ c, (∀ ik < n, ∀ j, lay ik j ≠ c) → ν.at c = μ.at c
  len : ∀ a, (ν a).length = (μ a).length

theorem Stored.unique {m : ℕ} {lay : ℕ → Fin m → Cell} {n : ℕ} {row : ℕ → Fin m → ℝ} {μ ν ν' : Mem}
    (h : Stored lay n row μ ν) (h' : Stored lay n row μ ν') : ν = ν' := by
  apply Mem.ext_at
  intro c
  by_cases hc : ∃ ik < n, ∃ j, lay ik j = c
  · obtain ⟨ik, hik, j, rfl⟩ := hc
    rw [h.row ik hik j, h'.row ik hik j]
  · push Not at hc
    rw [h.other c hc, h'.other c hc]

/-- Every schedule of a region with pure iterations runs without undefined behaviour and leaves the rows in their cells. -/
theorem region_ok {σ : Type} {m : ℕ} {W : Work σ m} {lay : ℕ → Fin m → Cell} {n : ℕ} {R : σ → Prop} {row : ℕ → Fin m → ℝ}
    {μ : Mem} (hW : W.Pure n R row) (hinj : LayInj lay n) (hin : LayIn lay n μ) (es : List Event) (hes : Schedule m n es) :
    ∃ ν, region W lay es μ = .ok ν ∧ Stored lay n row μ ν := by
  have h0 : Inv (σ := σ) lay R row μ (fun _ => none) [] ⟨fun _ => none, μ⟩ :=
    ⟨by simp, by simp, by simp, by simp, fun _ _ => rfl, fun _ => rfl⟩
  obtain ⟨M, q, h1, h2, h3⟩ := Inv.exec hW hinj hin es _ [] _ h0 (by simp) hes.2.1
    (fun ik hik => by simpa using hes.2.2.mem_iff.1 hik)
  have hmem : ∀ ik, ik ∈ steps es ++ [] ↔ ik < n := fun ik => by simp [hes.2.2.mem_iff]
  refine ⟨M.mem, by simp [region, h1], ?_, fun c hc => h2.other c fun ik hik => hc ik ((hmem ik).1 hik), h2.len⟩
  intro ik hik j
  rcases h2.kept ik ((hmem ik).2 hik) j with h | ⟨t, T, hT, hw⟩
  · exact h
  · have hl := h2.live t
    rw [hT] at hl
    rcases h3 t with h | h
    · rw [h] at hl; simp at hl
    · rw [h] at hl; simp at hl
      rw [List.length_eq_zero_iff.1 hl.symm] at hw; simp at hw

end Verif
