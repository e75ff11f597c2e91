import Verif.Proofs.Runs

/-!
# One-sided comparison of computations

`Res.Sim Q r r'`: whenever `r` is defined so is `r'`, with related outcomes.
-/

namespace Verif

namespace Res

/-- Whenever `r` is defined so is `r'`, with related outcomes. -/
def Sim {β γ : Type} (Q : β → γ → Prop) (r : Res β) (r' : Res γ) : Prop := ∀ b, r = .ok b → ∃ c, r' = .ok c ∧ Q b c

theorem Sim.bind {β γ β' γ' : Type} {Q : β → γ → Prop} {P : β' → γ' → Prop} {r : Res β} {r' : Res γ} {f : β → Res β'}
    {f' : γ → Res γ'} (h : Sim Q r r') (hf : ∀ b c, Q b c → Sim P (f b) (f' c)) : Sim P (r >>= f) (r' >>= f') := by
  intro d hd
  obtain ⟨b, hb, hd⟩ := bind_eq_ok.1 hd
  obtain ⟨c, hc, hq⟩ := h b hb
  obtain ⟨d', h1, h2⟩ := hf b c hq d hd
  exact ⟨d', by rw [hc, ok_bind, h1], h2⟩

theorem Sim.of_eq {β : Type} {r r' : Res β} (h : r = r') : Sim (fun b c => b = c) r r' := by
  subst h
  exact fun b hb => ⟨b, hb, rfl⟩

theorem Sim.ok {β γ : Type} {Q : β → γ → Prop} {b : β} {c : γ} (h : Q b c) : Sim Q (.ok b) (.ok c) := by
  intro b' hb
  injection hb with hb
  subst hb
  exact ⟨c, rfl, h⟩

end Res

open Res (Sim)

theorem iter_sim {σ τ : Type} {Q : σ → τ → Prop} {b1 : ℕ → σ → Res σ} {b2 : ℕ → τ → Res τ} :
    ∀ (n i : ℕ) (s : σ) (t : τ), Q s t → (∀ j s t, i ≤ j → j < i + n → Q s t → Sim Q (b1 j s) (b2 j t)) →
      Sim Q (iter b1 n i s) (iter b2 n i t)
  | 0, _, _, _, h, _ => Sim.ok h
  | n + 1, i, s, t, h, hb => by
      refine Sim.bind (hb i s t le_rfl (by omega) h) fun s' t' h' => ?_
      exact iter_sim n (i + 1) s' t' h' fun j s t hj hj' => hb j s t (by omega) (by omega)

theorem forRange_sim {σ τ : Type} {Q : σ → τ → Prop} {b1 : ℕ → σ → Res σ} {b2 : ℕ → τ → Res τ} {lo hi : ℕ} {s : σ} {t : τ}
    (h : Q s t) (hb : ∀ j s t, lo ≤ j → j < hi → Q s t → Sim Q (b1 j s) (b2 j t)) :
    Sim Q (forRange lo hi s b1) (forRange lo hi t b2) :=
  iter_sim _ _ _ _ h fun j s t hj hj' => hb j s t hj (by omega)

/-- One iteration of `quadLoop`. -/
noncomputable def quadBody {ι : Type} (half : Bool) (g : GLQ ℝ) (kern : ℕ → ℝ → Res (ι → ℝ)) (extra : ℕ → Res (ι → ℝ))
    (wt : ℝ → ℝ → ℝ) (iq : ℕ) (s : GLMu ℝ × (ι → ℝ)) : Res (GLMu ℝ × (ι → ℝ)) := do
  let x ← rd g.x iq
  let r ← muRange half g.x g.nq x
  match r with
  | none => .ok s
  | some (lo, hi) => do
      let gm := updateGLMu s.1 lo hi
      let integ ← forRange 0 gm.nmu (fun _ : ι => (0 : ℝ)) fun imu acc => do
        let mu ← rd gm.mu imu
        let kr ← kern iq mu
        let w ← rd gm.w imu
        .ok (fun i : ι => acc i + kr i * w)
      let ex ← extra iq
      let w ← rd g.w iq
      .ok (gm, fun i => s.2 i + (integ i + ex i) * wt x w)

theorem quadLoop_eq {ι : Type} (half : Bool) (g : GLQ ℝ) (gm : GLMu ℝ) (kern : ℕ → ℝ → Res (ι → ℝ)) (extra : ℕ → Res (ι → ℝ))
    (wt : ℝ → ℝ → ℝ) :
    quadLoop half g gm kern extra wt = forRange 0 g.nq (gm, fun _ : ι => (0 : ℝ)) (quadBody half g kern extra wt) := rfl

/-- The double loop component by component: an integrand whose components are components of another one gives the
corresponding components of the result. -/
theorem quadLoop_sim {ι κ : Type} (φ : κ → ι) (half : Bool) (g : GLQ ℝ) (gm : GLMu ℝ) {kern : ℕ → ℝ → Res (ι → ℝ)}
    {kern' : ℕ → ℝ → Res (κ → ℝ)} {extra : ℕ → Res (ι → ℝ)} {extra' : ℕ → Res (κ → ℝ)} (wt : ℝ → ℝ → ℝ)
    (hk : ∀ iq mu, Sim (fun f f' => f' = fun i => f (φ i)) (kern iq mu) (kern' iq mu))
    (hx : ∀ iq, Sim (fun f f' => f' = fun i => f (φ i)) (extra iq) (extra' iq)) :
    Sim (fun r r' => r'.1 = r.1 ∧ r'.2 = fun i => r.2 (φ i)) (quadLoop half g gm kern extra wt)
      (quadLoop half g gm kern' extra' wt) := by
  rw [quadLoop_eq, quadLoop_eq]
  refine forRange_sim ⟨rfl, rfl⟩ ?_
  rintro iq ⟨gm, s⟩ ⟨gm', s'⟩ _ _ ⟨h1, h2⟩
  dsimp only at h1 h2
  subst h1 h2
  unfold quadBody
  refine Sim.bind (Sim.of_eq rfl) fun x _ e => ?_
  subst e
  refine Sim.bind (Sim.of_eq rfl) fun r _ e => ?_
  subst e
  rcases r with _ | ⟨lo, hi⟩
  · exact Sim.ok ⟨rfl, rfl⟩
  · dsimp only
    refine Sim.bind (Q := fun (f : ι → ℝ) f' => f' = fun i => f (φ i)) (forRange_sim rfl ?_) fun f f' e => ?_
    · intro imu a a' _ _ e
      subst e
      refine Sim.bind (Sim.of_eq rfl) fun mu _ e => ?_
      subst e
      refine Sim.bind (hk iq mu) fun f f' e => ?_
      subst e
      refine Sim.bind (Sim.of_eq rfl) fun w _ e => ?_
      subst e
      exact Sim.ok rfl
    · subst e
      refine Sim.bind (hx iq) fun f f' e => ?_
      subst e
      refine Sim.bind (Sim.of_eq rfl) fun w _ e => ?_
      subst e
      exact Sim.ok ⟨rfl, rfl⟩

theorem noExtra_sim {ι κ : Type} (φ : κ → ι) (iq : ℕ) :
    Sim (fun f f' => f' = fun i => f (φ i)) (noExtra (ι := ι) iq) (noExtra (ι := κ) iq) := Sim.ok rfl

/-- The head of a run from its ingredients. -/
theorem runHead_of {σ : Type} {m : ℕ} {e : Env} {o : IName} {params : List String} {W : Work σ m} {lay : ℕ → Fin m → Cell}
    {S : σ → σ → Prop} (hW : W.Det S) (hinj : LayInj lay e.ks.length) {pl sg : List ℝ} {s0 : σ} {row : ℕ → Fin m → ℝ}
    (hpl : findPk e.t e.ks (e.cfg.interp o) = .ok pl) (hsg : runningSigmad2 e.t e.ks (e.cfg.uv o) = .ok sg)
    (h0 : W.init = .ok s0) (hrow : ∀ ik < e.ks.length, ∃ s', W.body s0 ik = .ok (s', row ik)) {es : List Event}
    (hes : Schedule m e.ks.length es) : Assigns (runHead e o params W lay es) (mapRun params lay e.ks.length pl sg row) :=
  (columns12_assigns e o params hpl hsg).comp (region_assigns_of hW hinj h0 hrow es hes)

end Verif
