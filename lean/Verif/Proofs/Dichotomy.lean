import Verif.Proofs.Size

/-! Lemmas on the bisection. -/

set_option linter.unusedSectionVars false

namespace Verif

section generic
variable {α : Type} [Add α] [Sub α] [Mul α] [Div α] [Neg α] [Histo α]

/-- With enough fuel the recursion ends inside the range, reading only cells of the range (a table agreeing on the
range gives the same answer). -/
theorem dichAux_ok (x : α) (tab tab' : List α) : ∀ (fuel mn mx : ℕ), mn < mx → mx - mn ≤ fuel → mx ≤ tab.length →
    mx < sizeMod → (∀ i, mn ≤ i → i < mx → tab'[i]? = tab[i]?) →
    ∃ r, (∀ fuel', mx - mn ≤ fuel' → dichAux x tab' fuel' mn mx = .ok r) ∧ dichAux x tab fuel mn mx = .ok r ∧ mn ≤ r ∧ r < mx := by
  intro fuel
  induction fuel with
  | zero => intro mn mx h1 h2; omega
  | succ n ih =>
    intro mn mx h1 h2 h3 h4 hag
    by_cases hm : mn = subSize mx 1
    · refine ⟨mn, ?_, ?_, le_rfl, h1⟩
      · intro f hf
        obtain ⟨f, rfl⟩ : ∃ g, f = g + 1 := ⟨f - 1, by omega⟩
        unfold dichAux; rw [if_pos hm]
      · unfold dichAux; rw [if_pos hm]
    · have hm' := hm
      rw [subSize_eq (by omega) h4] at hm'
      have hi1 : mn < (mn + mx) / 2 := by omega
      have hi2 : (mn + mx) / 2 < mx := by omega
      have hget : rd tab ((mn + mx) / 2) = .ok tab[(mn + mx) / 2] := rd_ok (by omega)
      have hget' : rd tab' ((mn + mx) / 2) = .ok tab[(mn + mx) / 2] := by
        unfold rd; rw [hag _ (by omega) hi2, List.getElem?_eq_getElem (by omega)]
      by_cases c1 : Histo.lt x tab[(mn + mx) / 2] = true
      · obtain ⟨r, a1, a2, a3, a4⟩ := ih mn ((mn + mx) / 2) hi1 (by omega) (by omega) (by omega)
          (fun i hi hi' => hag i hi (by omega))
        refine ⟨r, ?_, ?_, a3, by omega⟩
        · intro f hf
          obtain ⟨f, rfl⟩ : ∃ g, f = g + 1 := ⟨f - 1, by omega⟩
          unfold dichAux; rw [if_neg hm]; dsimp only; rw [hget']; simp only [Res.ok_bind]; rw [if_pos c1]
          exact a1 f (by omega)
        · unfold dichAux; rw [if_neg hm]; dsimp only; rw [hget]; simp only [Res.ok_bind]; rw [if_pos c1]
          exact a2
      · by_cases c2 : Histo.lt tab[(mn + mx) / 2] x = true
        · obtain ⟨r, a1, a2, a3, a4⟩ := ih ((mn + mx) / 2) mx hi2 (by omega) (by omega) (by omega)
            (fun i hi hi' => hag i (by omega) hi')
          refine ⟨r, ?_, ?_, by omega, a4⟩
          · intro f hf
            obtain ⟨f, rfl⟩ : ∃ g, f = g + 1 := ⟨f - 1, by omega⟩
            unfold dichAux; rw [if_neg hm]; dsimp only; rw [hget']; simp only [Res.ok_bind]; rw [if_neg c1, if_pos c2]
            exact a1 f (by omega)
          · unfold dichAux; rw [if_neg hm]; dsimp only; rw [hget]; simp only [Res.ok_bind]; rw [if_neg c1, if_pos c2]
            exact a2
        · refine ⟨(mn + mx) / 2, ?_, ?_, by omega, hi2⟩
          · intro f hf
            obtain ⟨f, rfl⟩ : ∃ g, f = g + 1 := ⟨f - 1, by omega⟩
            unfold dichAux; rw [if_neg hm]; dsimp only; rw [hget']; simp only [Res.ok_bind]; rw [if_neg c1, if_neg c2]
          · unfold dichAux; rw [if_neg hm]; dsimp only; rw [hget]; simp only [Res.ok_bind]; rw [if_neg c1, if_neg c2]

end generic

/-- On a sorted real table the result brackets the argument. -/
theorem dichAux_bracket (x : ℝ) (tab : List ℝ) (hs : tab.Pairwise (· < ·)) (M : ℕ) (hM : M ≤ tab.length) (hM2 : M < sizeMod) :
    ∀ (fuel mn mx : ℕ) (r : ℕ), mn < mx → mx ≤ M → dichAux x tab fuel mn mx = .ok r →
      (∀ v, tab[mn]? = some v → v ≤ x) → (mx < M → ∀ v, tab[mx]? = some v → x < v) →
      (∀ v, tab[r]? = some v → v ≤ x) ∧ (r + 1 < M → ∀ v, tab[r + 1]? = some v → x < v) := by
  intro fuel
  induction fuel with
  | zero => intro mn mx r h1 h2 h; simp [dichAux] at h
  | succ n ih =>
    intro mn mx r h1 h2 h hlo hhi
    unfold dichAux at h
    by_cases hm : mn = subSize mx 1
    · rw [if_pos hm] at h
      obtain rfl : mn = r := by simpa using h
      rw [subSize_eq (by omega) (by omega)] at hm
      refine ⟨hlo, fun hr v hv => ?_⟩
      have : mn + 1 = mx := by omega
      rw [this] at hv hr
      exact hhi hr v hv
    · rw [if_neg hm] at h
      rw [subSize_eq (by omega) (by omega)] at hm
      have hi : (mn + mx) / 2 < tab.length := by omega
      dsimp only at h
      rw [rd_ok hi] at h
      simp only [Res.ok_bind] at h
      by_cases c1 : Histo.lt x tab[(mn + mx) / 2] = true
      · rw [if_pos c1] at h
        refine ih mn _ r (by omega) (by omega) h hlo ?_
        intro _ v hv
        rw [List.getElem?_eq_getElem hi] at hv
        simp at hv c1; rw [← hv]; exact c1
      · rw [if_neg c1] at h
        by_cases c2 : Histo.lt tab[(mn + mx) / 2] x = true
        · rw [if_pos c2] at h
          refine ih _ mx r (by omega) (by omega) h ?_ hhi
          intro v hv
          rw [List.getElem?_eq_getElem hi] at hv
          simp at hv c2; rw [← hv]; exact c2.le
        · rw [if_neg c2] at h
          obtain rfl : (mn + mx) / 2 = r := by simpa using h
          simp at c1 c2
          refine ⟨?_, ?_⟩
          · intro v hv
            rw [List.getElem?_eq_getElem hi] at hv
            simp at hv; rw [← hv]; exact c1
          · intro hr v hv
            have hr' : (mn + mx) / 2 + 1 < tab.length := by omega
            rw [List.getElem?_eq_getElem hr'] at hv
            simp at hv; rw [← hv]
            refine lt_of_le_of_lt c2 ?_
            exact List.pairwise_iff_getElem.mp hs _ _ hi hr' (by omega)

end Verif
