import Verif.Model.Library
import Verif.Proofs.Runs

/-!
# Sizes of the results of runs
-/

namespace Verif

/-- Runs return columns of the sizes given by the class; the assembled spectrum has one value per mode. -/
structure Num.Sized {α : Type} (N : Num α) : Prop where
  run : ∀ (κ : Kind) (a b : Field) (t d e : Pk α) (ks : List α) (r : List (List α)), N.run κ.slot a b t d e ks = .ok r →
    r.map List.length = κ.widths.map (ks.length * ·)
  asm : ∀ ks cs, (N.asm ks cs).length = ks.length

/-- Same sizes of all arrays, and initialised arrays stay so. -/
def SameSize (μ ν : Mem) : Prop := ∀ i, (ν i).length = (μ i).length ∧ ((∀ x ∈ μ i, ∃ v, x = some v) → ∀ x ∈ ν i, ∃ v, x = some v)

theorem SameSize.refl (μ : Mem) : SameSize μ μ := fun _ => ⟨rfl, fun h => h⟩

theorem SameSize.trans {μ ν ρ : Mem} (h : SameSize μ ν) (k : SameSize ν ρ) : SameSize μ ρ :=
  fun i => ⟨(k i).1.trans (h i).1, fun hx => (k i).2 ((h i).2 hx)⟩

theorem wr_size {μ ν : Mem} {c : Cell} {v : ℝ} (h : μ.wr c v = .ok ν) : SameSize μ ν := by
  unfold Mem.wr at h
  obtain ⟨b, hb, h⟩ := Res.bind_eq_ok.1 h
  cases h
  unfold Buf.wr at hb
  split at hb
  · cases hb
    intro i
    by_cases e : i = c.1
    · subst e
      rw [Function.update_self, List.length_set]
      refine ⟨rfl, fun hx x hm => ?_⟩
      rcases List.mem_or_eq_of_mem_set hm with hm | hm
      · exact hx x hm
      · exact ⟨v, hm⟩
    · rw [Function.update_of_ne e]
      exact ⟨rfl, fun h => h⟩
  · cases hb

theorem fillArr_size {id n : ℕ} {f : ℕ → Res ℝ} {μ ν : Mem} (h : fillArr id n f μ = .ok ν) : SameSize μ ν := by
  refine forRange_post (fun _ ν => SameSize μ ν) h (SameSize.refl _) fun j s s' _ hs hb => ?_
  obtain ⟨v, -, hw⟩ := Res.bind_eq_ok.1 hb
  exact hs.trans (wr_size hw)

theorem columns12_size {e : Env} {o : IName} {p : List String} {μ ν : Mem} (h : columns12 e o p μ = .ok ν) : SameSize μ ν := by
  unfold columns12 at h
  obtain ⟨_, -, h⟩ := Res.bind_eq_ok.1 h
  obtain ⟨ρ, h1, h⟩ := Res.bind_eq_ok.1 h
  obtain ⟨_, -, h⟩ := Res.bind_eq_ok.1 h
  exact (fillArr_size h1).trans (fillArr_size h)

theorem exec_size {σ : Type} {m : ℕ} {W : Work σ m} {lay : ℕ → Fin m → Cell} {M M' : Machine σ} {e : Event}
    (h : exec W lay M e = .ok M') : SameSize M.mem M'.mem := by
  cases e with
  | init th =>
    obtain ⟨_, -, h⟩ := Res.bind_eq_ok.1 h
    cases h
    exact SameSize.refl _
  | step th ik =>
    simp only [exec] at h
    split at h
    · cases h
    · obtain ⟨_, -, h⟩ := Res.bind_eq_ok.1 h
      cases h
      exact SameSize.refl _
  | commit th =>
    simp only [exec] at h
    split at h
    · cases h
      exact SameSize.refl _
    · cases h
      exact SameSize.refl _
    · obtain ⟨_, h1, h⟩ := Res.bind_eq_ok.1 h
      cases h
      exact wr_size h1

theorem execAll_size {σ : Type} {m : ℕ} {W : Work σ m} {lay : ℕ → Fin m → Cell} {es : List Event} {M M' : Machine σ}
    (h : execAll W lay M es = .ok M') : SameSize M.mem M'.mem := by
  induction es generalizing M with
  | nil =>
    cases h
    exact SameSize.refl _
  | cons e es ih =>
    obtain ⟨_, h1, h⟩ := Res.bind_eq_ok.1 h
    exact (exec_size h1).trans (ih h)

theorem region_size {σ : Type} {m : ℕ} {W : Work σ m} {lay : ℕ → Fin m → Cell} {es : List Event} {μ ν : Mem}
    (h : region W lay es μ = .ok ν) : SameSize μ ν := by
  obtain ⟨_, h1, h⟩ := Res.bind_eq_ok.1 h
  cases h
  exact execAll_size h1

theorem add_size {μ ν : Mem} {c : Cell} {v : ℝ} (h : μ.add c v = .ok ν) : SameSize μ ν := by
  obtain ⟨_, -, h⟩ := Res.bind_eq_ok.1 h
  exact wr_size h

theorem addRows_size {n : ℕ} {lay : ℕ → Fin 5 → Cell} {f : ℕ → Res (Fin 5 → ℝ)} {μ ν : Mem} (h : addRows n lay f μ = .ok ν) :
    SameSize μ ν := by
  refine forRange_post (fun _ ν => SameSize μ ν) h (SameSize.refl _) fun j s s' _ hs hb => ?_
  obtain ⟨_, -, h⟩ := Res.bind_eq_ok.1 hb
  obtain ⟨_, h1, h⟩ := Res.bind_eq_ok.1 h
  obtain ⟨_, h2, h⟩ := Res.bind_eq_ok.1 h
  obtain ⟨_, h3, h⟩ := Res.bind_eq_ok.1 h
  obtain ⟨_, h4, h⟩ := Res.bind_eq_ok.1 h
  exact ((((hs.trans (add_size h1)).trans (add_size h2)).trans (add_size h3)).trans (add_size h4)).trans (add_size h)

theorem contents_length : ∀ {b : Buf ℝ} {l : List ℝ}, b.contents = .ok l → l.length = b.length
  | [], l, h => by
    cases h
    rfl
  | none :: _, l, h => by cases h
  | some v :: b, l, h => by
    obtain ⟨vs, h1, h⟩ := Res.bind_eq_ok.1 h
    cases h
    rw [List.length_cons, List.length_cons, contents_length h1]

theorem Res.mapM_forall₂ {β γ : Type} {f : β → Res γ} {l : List β} {r : List γ} (h : l.mapM f = .ok r) :
    List.Forall₂ (fun a b => f a = .ok b) l r := by
  induction l generalizing r with
  | nil =>
    cases h
    exact .nil
  | cons a l ih =>
    rw [List.mapM_cons] at h
    obtain ⟨b, h1, h⟩ := Res.bind_eq_ok.1 h
    obtain ⟨bs, h2, h⟩ := Res.bind_eq_ok.1 h
    cases h
    exact .cons h1 (ih h2)

theorem Res.forall₂_mapM {β γ : Type} {f : β → Res γ} {l : List β} {r : List γ} (h : List.Forall₂ (fun a b => f a = .ok b) l r) :
    l.mapM f = .ok r := by
  induction h with
  | nil => rfl
  | cons h1 _ ih =>
    rw [List.mapM_cons, h1, Res.ok_bind, ih, Res.ok_bind]
    rfl

theorem readCols_size {κ : Kind} {ks : List ℝ} {μ : Mem} {r : List (List ℝ)} (hμ : SameSize (zeroCols κ ks) μ)
    (h : readCols κ μ = .ok r) : r.map List.length = κ.widths.map (ks.length * ·) := by
  have hf := Res.mapM_forall₂ h
  have hlen := hf.length_eq
  rw [List.length_range] at hlen
  refine List.ext_getElem (by simp [hlen]) fun j h1 h2 => ?_
  rw [List.getElem_map, List.getElem_map]
  have hj : j < r.length := by simpa using h1
  have hw : j < κ.widths.length := by omega
  have hx := hf.get (i := j) (by simpa using hw) hj
  simp only [List.get_eq_getElem, List.getElem_range] at hx
  rw [contents_length hx, (hμ (j + 1)).1]
  simp [zeroCols, hw]

theorem runTerms1_size {e : Env} {a b : Field} {es : List Event} {μ ν : Mem} (h : runTerms1 e a b es μ = .ok ν) : SameSize μ ν := by
  obtain ⟨ρ, h3, h4⟩ := Res.bind_eq_ok.1 h
  exact (columns12_size h3).trans (region_size h4)

theorem runTerms2_size {q : Cuba ℝ} {e : Env} {a b : Field} {es : List Event} {μ : Mem} {r : Cfg ℝ × Mem} (h : runTerms2 q e a b es μ = .ok r) : SameSize μ r.2 := by
  obtain ⟨ν, h3, h4⟩ := Res.bind_eq_ok.1 h
  obtain ⟨ν', h5, h4⟩ := Res.bind_eq_ok.1 h4
  obtain ⟨_, -, h4⟩ := Res.bind_eq_ok.1 h4
  obtain ⟨_, h6, h4⟩ := Res.bind_eq_ok.1 h4
  cases h4
  exact ((columns12_size h3).trans (region_size h5)).trans (fillArr_size h6)

theorem runTermsBias_size {e : Env} {es : List Event} {μ ν : Mem} (h : runTermsBias e es μ = .ok ν) : SameSize μ ν := by
  obtain ⟨ρ, h3, h4⟩ := Res.bind_eq_ok.1 h
  exact (columns12_size h3).trans (region_size h4)

theorem runTermsA1_size {e : Env} {es : List Event} {μ ν : Mem} (h : runTermsA1 e es μ = .ok ν) : SameSize μ ν := by
  obtain ⟨ρ, h3, h4⟩ := Res.bind_eq_ok.1 h
  exact (columns12_size h3).trans (region_size h4)

theorem runTermsA2_size {q : Cuba (Fin 12 → ℝ)} {e : Env} {es : List Event} {μ : Mem} {r : Cfg ℝ × Mem} (h : runTermsA2 q e es μ = .ok r) : SameSize μ r.2 := by
  obtain ⟨ν, h3, h4⟩ := Res.bind_eq_ok.1 h
  obtain ⟨ν', h5, h4⟩ := Res.bind_eq_ok.1 h4
  obtain ⟨_, -, h4⟩ := Res.bind_eq_ok.1 h4
  obtain ⟨_, h6, h4⟩ := Res.bind_eq_ok.1 h4
  cases h4
  exact ((columns12_size h3).trans (region_size h5)).trans (addRows_size h6)

theorem runTermsB_size {e : Env} {dt tt : Pk ℝ} {es : List Event} {μ ν : Mem} (h : runTermsB e dt tt es μ = .ok ν) : SameSize μ ν := by
  obtain ⟨ρ, h3, h4⟩ := Res.bind_eq_ok.1 h
  exact (columns12_size h3).trans (region_size h4)

theorem driverNum_sized (cfg : Cfg ℝ) (rt : ℕ → ℕ → ℝ × ℝ) (q1 : Cuba ℝ) (q2 : Cuba (Fin 12 → ℝ)) (es : ℕ → ℕ → List Event) :
    (driverNum cfg rt q1 q2 es).Sized where
  asm ks cs := by simp [driverNum]
  run κ a b t d e ks r h := by
    cases κ
    all_goals
      obtain ⟨μ, h1, h2⟩ := Res.bind_eq_ok.1 h
      refine readCols_size ?_ h2
      first | exact runTerms1_size h1 | exact runTerms2_size h1 | exact runTermsBias_size h1 | exact runTermsA1_size h1 |
        exact runTermsA2_size h1 | exact runTermsB_size h1

/-- The columns of a finished run can be read. -/
theorem readCols_defined {κ : Kind} {ks : List ℝ} {μ : Mem} (hμ : SameSize (zeroCols κ ks) μ) : ∃ r, readCols κ μ = .ok r := by
  have key : ∀ l : List ℕ, ∃ r, l.mapM (fun j => (μ (j + 1)).contents) = .ok r := by
    intro l
    induction l with
    | nil => exact ⟨[], rfl⟩
    | cons j l ih =>
      obtain ⟨r, hr⟩ := ih
      obtain ⟨v, hv⟩ : ∃ v, (μ (j + 1)).contents = .ok v := by
        have hi := (hμ (j + 1)).2 fun x hx => ⟨0, by simpa [zeroCols] using List.eq_of_mem_replicate hx⟩
        generalize μ (j + 1) = b at hi
        induction b with
        | nil => exact ⟨[], rfl⟩
        | cons x b ih =>
          obtain ⟨y, rfl⟩ := hi x (by simp)
          obtain ⟨vs, hvs⟩ := ih fun z hz => hi z (by simp [hz])
          exact ⟨y :: vs, by simp [Buf.contents, hvs]⟩
      exact ⟨v :: r, by rw [List.mapM_cons, hv, Res.ok_bind, hr]; rfl⟩
  exact key _

/-- What is read is what the cells hold. -/
theorem readCols_cell {κ : Kind} {μ : Mem} {r : List (List ℝ)} (h : readCols κ μ = .ok r) {j ik : ℕ} (hj : j < κ.widths.length) {v : ℝ}
    (hv : μ.at (j + 1, ik) = some (some v)) : (r.getD j []).getD ik 0 = v := by
  have hf := Res.mapM_forall₂ h
  have hlen := hf.length_eq
  rw [List.length_range] at hlen
  have hx := hf.get (i := j) (by simpa using hj) (by omega)
  simp only [List.get_eq_getElem, List.getElem_range] at hx
  have key : ∀ {b : Buf ℝ} {l : List ℝ} {i : ℕ}, b.contents = .ok l → b[i]? = some (some v) → l.getD i 0 = v := by
    intro b
    induction b with
    | nil =>
      intro l i _ h
      cases h
    | cons x b ih =>
      intro l i hc hi
      cases x with
      | none => cases hc
      | some y =>
        obtain ⟨vs, h1, h2⟩ := Res.bind_eq_ok.1 hc
        cases h2
        cases i with
        | zero =>
          simp only [List.getElem?_cons_zero, Option.some.injEq] at hi
          simpa using hi
        | succ i =>
          rw [List.getElem?_cons_succ] at hi
          simpa using ih h1 hi
  have := key hx hv
  rw [List.getD_eq_getElem?_getD (l := r), List.getElem?_eq_getElem (by omega)]
  exact this

end Verif
