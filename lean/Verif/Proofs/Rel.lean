import Verif.Proofs.Parallel

/-!
# Relating two executions
-/

namespace Verif

namespace Res

/-- Two executions with the same outcome up to a relation of the results. -/
def Rel {β γ : Type} (Q : β → γ → Prop) : Res β → Res γ → Prop
  | .ok b, .ok c => Q b c
  | .ub _, .ub _ => True
  | _, _ => False

theorem Rel.bind {β γ β' γ' : Type} {Q : β → γ → Prop} {P : β' → γ' → Prop} {r : Res β} {r' : Res γ} {f : β → Res β'}
    {f' : γ → Res γ'} (h : Rel Q r r') (hf : ∀ b c, Q b c → Rel P (f b) (f' c)) : Rel P (r >>= f) (r' >>= f') := by
  cases r <;> cases r' <;> simp_all [Rel]

theorem Rel.refl {β : Type} {Q : β → β → Prop} (h : ∀ b, Q b b) (r : Res β) : Rel Q r r := by
  cases r <;> simp_all [Rel]

theorem Rel.of_eq {β : Type} {r r' : Res β} (h : r = r') : Rel (fun b c => b = c) r r' := h ▸ Rel.refl (fun _ => rfl) r

theorem Rel.mono {β γ : Type} {Q P : β → γ → Prop} {r : Res β} {r' : Res γ} (h : Rel Q r r') (hQ : ∀ b c, Q b c → P b c) :
    Rel P r r' := by
  cases r <;> cases r' <;> simp_all [Rel]

theorem Rel.ok {β γ : Type} {Q : β → γ → Prop} {b : β} {r' : Res γ} (h : Rel Q (.ok b) r') : ∃ c, r' = .ok c ∧ Q b c := by
  cases r' <;> simp_all [Rel]

theorem Rel.ok' {β γ : Type} {Q : β → γ → Prop} {c : γ} {r : Res β} (h : Rel Q r (.ok c)) : ∃ b, r = .ok b ∧ Q b c := by
  cases r <;> simp_all [Rel]

end Res

open Res (Rel)

theorem iter_rel {σ τ : Type} {Q : σ → τ → Prop} {b1 : ℕ → σ → Res σ} {b2 : ℕ → τ → Res τ} :
    ∀ (n i : ℕ) (s : σ) (t : τ), Q s t → (∀ j s t, i ≤ j → j < i + n → Q s t → Rel Q (b1 j s) (b2 j t)) →
      Rel Q (iter b1 n i s) (iter b2 n i t)
  | 0, _, _, _, h, _ => h
  | n + 1, i, s, t, h, hb => by
      refine Rel.bind (hb i s t le_rfl (by omega) h) fun s' t' h' => ?_
      exact iter_rel n (i + 1) s' t' h' fun j s t hj hj' => hb j s t (by omega) (by omega)

theorem forRange_rel {σ τ : Type} {Q : σ → τ → Prop} {b1 : ℕ → σ → Res σ} {b2 : ℕ → τ → Res τ} {lo hi : ℕ} {s : σ} {t : τ}
    (h : Q s t) (hb : ∀ j s t, lo ≤ j → j < hi → Q s t → Rel Q (b1 j s) (b2 j t)) :
    Rel Q (forRange lo hi s b1) (forRange lo hi t b2) :=
  iter_rel _ _ _ _ h fun j s t hj hj' => hb j s t hj (by omega)

/-- The outcome of an iteration does not depend on which of the tables related to `s0` it starts from. -/
def Work.Det {σ : Type} {m : ℕ} (W : Work σ m) (S : σ → σ → Prop) : Prop :=
  (∀ s, S s s) ∧ ∀ s s0, S s s0 → ∀ ik, Rel (fun r r' => S r.1 s0 ∧ r.2 = r'.2) (W.body s ik) (W.body s0 ik)

/-- Every iteration of a defined execution is defined from the initial tables. -/
theorem execAll_body {σ : Type} {m : ℕ} {W : Work σ m} {lay : ℕ → Fin m → Cell} {S : σ → σ → Prop} (hW : W.Det S) {s0 : σ}
    (h0 : W.init = .ok s0) :
    ∀ (es : List Event) (M M' : Machine σ), (∀ th T, M.th th = some T → S T.tables s0) → execAll W lay M es = .ok M' →
      ∀ ik ∈ steps es, (W.body s0 ik).defined
  | [], _, _, _, _ => by simp [steps]
  | e :: es, M, M', hM, h => by
      simp only [execAll, Res.bind_eq_ok] at h
      obtain ⟨M1, h1, h2⟩ := h
      rcases e with th | ⟨th, j⟩ | th
      · simp only [exec, h0, Res.ok_bind] at h1
        cases h1
        refine execAll_body hW h0 es _ M' ?_ h2
        intro t T hT
        by_cases e : t = th
        · subst e; simp at hT; rw [← hT]; exact hW.1 s0
        · simp [Function.update_of_ne e] at hT; exact hM t T hT
      · simp only [exec] at h1
        rcases hT : M.th th with _ | T
        · rw [hT] at h1; simp at h1
        · rw [hT] at h1
          simp only [Res.bind_eq_ok] at h1
          obtain ⟨r, hr, h1⟩ := h1
          cases h1
          have hrel := hW.2 T.tables s0 (hM th T hT) j
          rw [hr] at hrel
          obtain ⟨r0, hr0, hS, _⟩ := hrel.ok
          intro ik hik
          rcases List.mem_cons.1 (by simpa only [steps] using hik) with rfl | hik
          · exact ⟨r0, hr0⟩
          · refine execAll_body hW h0 es _ M' ?_ h2 ik hik
            intro t T' hT'
            by_cases e : t = th
            · subst e; simp at hT'; rw [← hT']; exact hS
            · simp [Function.update_of_ne e] at hT'; exact hM t T' hT'
      · refine execAll_body hW h0 es M1 M' ?_ h2
        simp only [exec] at h1
        rcases hT : M.th th with _ | ⟨s, _ | ⟨⟨c, v⟩, rest⟩⟩
        · rw [hT] at h1; cases h1; exact hM
        · rw [hT] at h1; cases h1; exact hM
        · rw [hT] at h1
          simp only [Res.bind_eq_ok] at h1
          obtain ⟨μ, _, h1⟩ := h1
          cases h1
          intro t T' hT'
          by_cases e : t = th
          · subst e; simp at hT'; rw [← hT']; exact hM t ⟨s, (c, v) :: rest⟩ hT
          · simp [Function.update_of_ne e] at hT'; exact hM t T' hT'

/-- A defined region: the tables are initialised, every iteration is defined from the initial tables, and the memory holds
the rows computed from them. -/
theorem region_spec {σ : Type} {m : ℕ} {W : Work σ m} {lay : ℕ → Fin m → Cell} {n : ℕ} {S : σ → σ → Prop} {μ ν : Mem}
    (hW : W.Det S) (hinj : LayInj lay n) (hin : LayIn lay n μ) {es : List Event} (hes : Schedule m n es)
    (h : region W lay es μ = .ok ν) :
    ∃ s0 row, W.init = .ok s0 ∧ W.Pure n (fun s => S s s0) row ∧ Stored lay n row μ ν := by
  obtain ⟨hne, hord, hperm⟩ := hes
  obtain ⟨s0, h0⟩ : W.init.defined := by
    rcases es with _ | ⟨e, es⟩
    · exact absurd rfl hne
    · rcases e with th | ⟨th, j⟩ | th
      · simp only [region, execAll, exec, Res.bind_eq_ok] at h
        obtain ⟨_, ⟨_, ⟨s, hs, _⟩, _⟩, _⟩ := h
        exact ⟨s, hs⟩
      · obtain ⟨_, hq, _⟩ := hord; simp at hq
      · obtain ⟨_, hq, _⟩ := hord; simp at hq
  have hall : ∀ ik < n, (W.body s0 ik).defined := by
    intro ik hik
    simp only [region, Res.bind_eq_ok] at h
    obtain ⟨M, hM, _⟩ := h
    exact execAll_body hW h0 es _ M (by simp) hM ik (hperm.mem_iff.2 (by simpa using hik))
  classical
  let row : ℕ → Fin m → ℝ := fun ik => if hd : (W.body s0 ik).defined then (Classical.choose hd).2 else fun _ => 0
  have hpure : W.Pure n (fun s => S s s0) row := by
    refine ⟨⟨s0, h0, hW.1 s0⟩, fun s hs ik hik => ?_⟩
    have hd := hall ik hik
    have hrow : row ik = (Classical.choose hd).2 := dif_pos hd
    have hc := Classical.choose_spec hd
    have hrel := hW.2 s s0 hs ik
    rw [hc] at hrel
    obtain ⟨r, hr, h1, h2⟩ := hrel.ok'
    exact ⟨r.1, by rw [hr, hrow, ← h2], h1⟩
  obtain ⟨ν', h1, h2⟩ := region_ok hpure hinj hin es ⟨hne, hord, hperm⟩
  rw [h] at h1
  cases h1
  exact ⟨s0, row, h0, hpure, h2⟩

/-- Any two schedules give the same memory. -/
theorem region_det {σ : Type} {m : ℕ} {W : Work σ m} {lay : ℕ → Fin m → Cell} {n : ℕ} {S : σ → σ → Prop} {μ ν : Mem}
    (hW : W.Det S) (hinj : LayInj lay n) (hin : LayIn lay n μ) {es es' : List Event} (hes : Schedule m n es)
    (hes' : Schedule m n es') (h : region W lay es μ = .ok ν) : region W lay es' μ = .ok ν := by
  obtain ⟨s0, row, h0, hp, hst⟩ := region_spec hW hinj hin hes h
  obtain ⟨ν', h1, h2⟩ := region_ok hp hinj hin es' hes'
  rw [h1, hst.unique h2]

end Verif
