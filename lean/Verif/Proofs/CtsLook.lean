import Verif.Proofs.TameLook

/-! The interpolated spectrum is continuous within the table. -/

open Polynomial

namespace Verif

/-- Within the table, polynomial interpolation is one polynomial per closed interval between neighbouring modes. -/
theorem lookup_piece (t : Pk ℝ) (h : t.Increasing) (P : ℝ → ℝ) (hl : ∀ k, t.k.getD 0 0 ≤ k → k ≤ t.k.getD (t.nk - 1) 0 → lookup t .poly k = .ok (P k))
    (i : ℕ) (hi : i + 1 < t.nk) : ∃ p : ℝ[X], ∀ k, t.k.getD i 0 ≤ k → k ≤ t.k.getD (i + 1) 0 → P k = p.eval k := by
  have mono : ∀ a b, a ≤ b → b < t.nk → t.k.getD a 0 ≤ t.k.getD b 0 := fun a b hab hb => by
    rcases Nat.eq_or_lt_of_le hab with e | e
    · rw [e]
    · exact (h.getD_lt e hb).le
  choose! p hp hpe using fun r (hr : r < t.nk) => exists_window_poly t h (r - 2) (min (t.nk - 1) (r + 2) - (r - 2) + 1) (by omega)
  have key : ∀ r < t.nk, ∀ k, t.k.getD r 0 ≤ k → k ≤ t.k.getD (t.nk - 1) 0 → (r + 1 < t.nk → k < t.k.getD (r + 1) 0) → P k = (p r).eval k := by
    intro r r2 k k1 k2 k3
    have hk0 := (mono 0 r (by omega) r2).trans k1
    obtain ⟨r', a1, a2, a3, a4⟩ := exists_bracket t h (by omega) k hk0
    have hr : r' = r := by
      rcases lt_trichotomy r' r with e | e | e
      · have := a4 (by omega)
        have := mono (r' + 1) r e r2
        linarith
      · exact e
      · have := k3 (by omega)
        have := mono (r + 1) r' e a2
        linarith
    subst hr
    have e1 := lookup_in_poly t h (by omega) k hk0 k2 r' a1 r2
    rw [interpolPoly_window t h k (r' - 2) _ (by omega) (by omega) (p r') (hp r' r2) (hpe r' r2), hl k hk0 k2, Res.ok.injEq] at e1
    exact e1
  refine ⟨p i, fun k k1 k2 => ?_⟩
  rcases k2.lt_or_eq with c | c
  · exact key i (by omega) k k1 (k2.trans (mono _ _ (by omega) (by omega))) fun _ => c
  · rw [c, key (i + 1) hi _ le_rfl (mono _ _ (by omega) (by omega)) fun h' => h.getD_lt (Nat.lt_succ_self _) h', hpe (i + 1) hi _ (by omega) (by omega),
      hpe i (by omega) _ (by omega) (by omega)]

theorem lookup_continuousOn (t : Pk ℝ) (h : t.Increasing) (h1 : 1 ≤ t.nk) (P : ℝ → ℝ)
    (hl : ∀ k, t.k.getD 0 0 ≤ k → k ≤ t.k.getD (t.nk - 1) 0 → lookup t .poly k = .ok (P k)) :
    ContinuousOn P (Set.Icc (t.k.getD 0 0) (t.k.getD (t.nk - 1) 0)) := by
  have step : ∀ j < t.nk, ContinuousOn P (Set.Icc (t.k.getD 0 0) (t.k.getD j 0)) := by
    intro j
    induction j with
    | zero => intro _; rw [Set.Icc_self]; exact continuousOn_singleton _ _
    | succ j ih =>
      intro hj
      have h0 : t.k.getD 0 0 ≤ t.k.getD j 0 := by
        rcases Nat.eq_zero_or_pos j with e | e
        · rw [e]
        · exact (h.getD_lt e (by omega)).le
      rw [← Set.Icc_union_Icc_eq_Icc h0 (h.getD_lt (Nat.lt_succ_self j) hj).le]
      refine (ih (by omega)).union_of_isClosed ?_ isClosed_Icc isClosed_Icc
      obtain ⟨p, hp⟩ := lookup_piece t h P hl j hj
      exact p.continuous.continuousOn.congr fun k hk => hp k hk.1 hk.2
  exact step _ (by omega)

end Verif
