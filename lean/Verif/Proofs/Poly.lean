import Verif.Proofs.Size

/-! Lemmas on `interpol_poly`: the in-place tableau and the path through it. -/

set_option linter.unusedSectionVars false

namespace Verif

variable {α : Type} [Add α] [Sub α] [Mul α] [Div α] [Neg α] [Histo α]

/-- The differences tableau as a recursive function: `(c,d)` of column `j`, row `i`. -/
def tableau (x : α) (X Y : ℕ → α) : ℕ → ℕ → α × α
  | 0, i => (Y i, Y i)
  | j + 1, i =>
      let den := ((tableau x X Y j (i + 1)).1 - (tableau x X Y j i).2) / (X i - X (i + (j + 1)))
      ((X i - x) * den, (X (i + (j + 1)) - x) * den)

theorem exists_fn {l : List α} {n : ℕ} (h0 : 0 < n) (h : n ≤ l.length) : ∃ X : ℕ → α, ∀ i < n, l[i]? = some (X i) := by
  refine ⟨fun i => if h' : i < l.length then l[i] else l[0], fun i hi => ?_⟩
  have : i < l.length := by omega
  simp [this]

theorem polyInit_ok (x : α) (tabx taby : List α) (nx : ℕ) (X Y : ℕ → α) (h0 : 0 < nx)
    (hX : ∀ i < nx, tabx[i]? = some (X i)) (hY : ∀ i < nx, taby[i]? = some (Y i)) :
    ∃ s, polyInit x tabx taby nx = .ok s ∧ s.ixclose < nx ∧ s.c.length = nx ∧ s.d.length = nx ∧
      (∀ i < nx, s.c[i]? = some (some (Y i))) ∧ (∀ i < nx, s.d[i]? = some (some (Y i))) := by
  have hrd : ∀ i < nx, rd tabx i = .ok (X i) := fun i hi => by simp [rd, hX i hi]
  have hrdy : ∀ i < nx, rd taby i = .ok (Y i) := fun i hi => by simp [rd, hY i hi]
  unfold polyInit
  rw [hrd 0 h0]
  simp only [Res.ok_bind]
  obtain ⟨s, h1, h2, h3, h4, h5, h6⟩ := forRange_inv (lo := 0) (hi := nx)
    (s := (⟨0, Histo.abs (x - X 0), malloc α nx, malloc α nx⟩ : PolyInit α))
    (body := fun ix s => do
      let xi ← rd tabx ix
      let tmpdiff := Histo.abs (x - xi)
      let yi ← rd taby ix
      let c ← s.c.wr ix yi
      let d ← s.d.wr ix yi
      if Histo.lt tmpdiff s.diff then .ok ⟨ix, tmpdiff, c, d⟩ else .ok ⟨s.ixclose, s.diff, c, d⟩)
    (fun j s => s.ixclose < nx ∧ s.c.length = nx ∧ s.d.length = nx ∧
      (∀ i < j, s.c[i]? = some (some (Y i))) ∧ (∀ i < j, s.d[i]? = some (some (Y i))))
    (Nat.zero_le _) ⟨h0, by simp [malloc], by simp [malloc], by omega, by omega⟩
    (by
      intro j s _ hj ⟨a1, a2, a3, a4, a5⟩
      have key : ∀ (b : Buf α), b.length = nx → (∀ i < j, b[i]? = some (some (Y i))) →
          ∀ i < j + 1, (b.set j (some (Y j)))[i]? = some (some (Y i)) := by
        intro b hb hlo i hi
        by_cases hij : i = j
        · subst hij; rw [List.getElem?_set_self (by omega)]
        · rw [List.getElem?_set_ne (by omega)]; exact hlo i (by omega)
      rw [hrd j hj, hrdy j hj]
      simp only [Res.ok_bind]
      rw [Buf.wr_ok (by omega), Buf.wr_ok (by omega)]
      simp only [Res.ok_bind]
      by_cases hc : Histo.lt (Histo.abs (x - X j)) s.diff = true
      · rw [if_pos hc]
        exact ⟨_, rfl, hj, by simpa using a2, by simpa using a3, key _ a2 a4, key _ a3 a5⟩
      · rw [if_neg hc]
        exact ⟨_, rfl, a1, by simpa using a2, by simpa using a3, key _ a2 a4, key _ a3 a5⟩)
  exact ⟨s, h1, h2, h3, h4, h5, h6⟩

theorem polyColumn_ok (x : α) (tabx : List α) (nx j : ℕ) (X Y : ℕ → α) (hj : j + 1 ≤ nx)
    (hX : ∀ i < nx, tabx[i]? = some (X i)) (c d : Buf α) (hc : c.length = nx) (hd : d.length = nx)
    (hcv : ∀ i < nx - j, c[i]? = some (some (tableau x X Y j i).1))
    (hdv : ∀ i < nx - j, d[i]? = some (some (tableau x X Y j i).2)) :
    ∃ c' d', polyColumn x tabx nx (j + 1) c d = .ok (c', d') ∧ c'.length = nx ∧ d'.length = nx ∧
      (∀ i < nx - (j + 1), c'[i]? = some (some (tableau x X Y (j + 1) i).1)) ∧
      (∀ i < nx - (j + 1), d'[i]? = some (some (tableau x X Y (j + 1) i).2)) := by
  have hrd : ∀ i < nx, rd tabx i = .ok (X i) := fun i hi => by simp [rd, hX i hi]
  obtain ⟨s, h1, h2, h3, h4, h5, -, -⟩ := forRange_inv (lo := 0) (hi := nx - (j + 1)) (s := (c, d))
    (body := fun ix s => do
      let c1 ← Buf.rd s.1 (ix + 1)
      let d0 ← Buf.rd s.2 ix
      let xi ← rd tabx ix
      let xj ← rd tabx (ix + (j + 1))
      let den := (c1 - d0) / (xi - xj)
      let c ← Buf.wr s.1 ix ((xi - x) * den)
      let d ← Buf.wr s.2 ix ((xj - x) * den)
      .ok (c, d))
    (fun m s => s.1.length = nx ∧ s.2.length = nx ∧
      (∀ i < m, s.1[i]? = some (some (tableau x X Y (j + 1) i).1)) ∧
      (∀ i < m, s.2[i]? = some (some (tableau x X Y (j + 1) i).2)) ∧
      (∀ i, m ≤ i → i < nx - j → s.1[i]? = some (some (tableau x X Y j i).1)) ∧
      (∀ i, m ≤ i → i < nx - j → s.2[i]? = some (some (tableau x X Y j i).2)))
    (Nat.zero_le _) ⟨hc, hd, by omega, by omega, fun i _ hi => hcv i hi, fun i _ hi => hdv i hi⟩
    (by
      intro m s _ hm ⟨a1, a2, a3, a4, a5, a6⟩
      rw [Buf.rd_ok (a5 (m + 1) (by omega) (by omega)), Buf.rd_ok (a6 m le_rfl (by omega)), hrd m (by omega),
        hrd (m + (j + 1)) (by omega)]
      simp only [Res.ok_bind]
      rw [Buf.wr_ok (by omega), Buf.wr_ok (by omega)]
      simp only [Res.ok_bind]
      refine ⟨_, rfl, by simpa using a1, by simpa using a2, ?_, ?_, ?_, ?_⟩
      · intro i hi
        by_cases him : i = m
        · subst him; rw [List.getElem?_set_self (by omega)]; rfl
        · rw [List.getElem?_set_ne (by omega)]; exact a3 i (by omega)
      · intro i hi
        by_cases him : i = m
        · subst him; rw [List.getElem?_set_self (by omega)]; rfl
        · rw [List.getElem?_set_ne (by omega)]; exact a4 i (by omega)
      · intro i hi hi'
        rw [List.getElem?_set_ne (by omega)]; exact a5 i (by omega) hi'
      · intro i hi hi'
        rw [List.getElem?_set_ne (by omega)]; exact a6 i (by omega) hi')
  exact ⟨s.1, s.2, h1, h2, h3, h4, h5⟩

/-- Master lemma: `interpol_poly` is defined for `1 <= nx < 2^63`, and any relation `Q j a y` ("`y` is the value of the
interpolant on nodes `a..a+j`") that is preserved by the two moves through the tableau holds of the result for all nodes. -/
theorem interpolPoly_rule (x : α) (tabx taby : List α) (nx : ℕ) (X Y : ℕ → α) (h0 : 0 < nx) (hsz : nx < 2 ^ 63)
    (hX : ∀ i < nx, tabx[i]? = some (X i)) (hY : ∀ i < nx, taby[i]? = some (Y i))
    (Q : ℕ → ℕ → α → Prop) (hQ0 : ∀ a < nx, Q 0 a (Y a))
    (hQc : ∀ j a y, a + j + 1 < nx → Q j a y → Q (j + 1) a (y + (tableau x X Y (j + 1) a).1))
    (hQd : ∀ j a y, a + j + 1 < nx → Q j (a + 1) y → Q (j + 1) a (y + (tableau x X Y (j + 1) a).2)) :
    ∃ y, interpolPoly x tabx taby nx = .ok y ∧ Q (nx - 1) 0 y := by
  obtain ⟨s, h1, h2, h3, h4, h5, h6⟩ := polyInit_ok x tabx taby nx X Y h0 hX hY
  have hm : sizeMod = 2 ^ 64 := rfl
  unfold interpolPoly
  rw [h1]
  simp only [Res.ok_bind]
  have hrdy : rd taby s.ixclose = .ok (Y s.ixclose) := by simp [rd, hY _ h2]
  rw [hrdy]
  simp only [Res.ok_bind]
  obtain ⟨s', g1, g2⟩ := forRange_inv (lo := 1) (hi := nx)
    (s := (⟨s.c, s.d, Y s.ixclose, subSize s.ixclose 1⟩ : PolyState α)) (body := polyStep x tabx nx)
    (fun jx s => s.c.length = nx ∧ s.d.length = nx ∧
      (∀ i < nx - (jx - 1), s.c[i]? = some (some (tableau x X Y (jx - 1) i).1)) ∧
      (∀ i < nx - (jx - 1), s.d[i]? = some (some (tableau x X Y (jx - 1) i).2)) ∧
      ∃ a, a ≤ nx - jx ∧ s.ixclose = subSize a 1 ∧ Q (jx - 1) a s.y)
    h0 ⟨h3, h4, by simpa [tableau] using h5, by simpa [tableau] using h6, s.ixclose, by omega, rfl, hQ0 _ h2⟩
    (by
      intro jx s hj hjn ⟨a1, a2, a3, a4, a, a5, a6, a7⟩
      obtain ⟨j, rfl⟩ : ∃ j, jx = j + 1 := ⟨jx - 1, by omega⟩
      simp only [Nat.add_sub_cancel] at a3 a4 a7 ⊢
      obtain ⟨c', d', b1, b2, b3, b4, b5⟩ := polyColumn_ok x tabx nx j X Y (by omega) hX s.c s.d a1 a2 a3 a4
      have ha : addSize s.ixclose 1 = a := by rw [a6]; exact addSize_subSize (by omega)
      unfold polyStep
      rw [b1]
      simp only [Res.ok_bind, ha]
      rw [mulSize_eq (by omega)]
      by_cases hc : 2 * a < nx - (j + 1)
      · rw [if_pos hc, Buf.rd_ok (b4 a (by omega))]
        simp only [Res.ok_bind]
        exact ⟨_, rfl, b2, b3, b4, b5, a, by omega, a6, hQc j a s.y (by omega) a7⟩
      · rw [if_neg hc]
        have ha1 : 1 ≤ a := by omega
        have hix : s.ixclose = a - 1 := by rw [a6, subSize_eq ha1 (by omega)]
        rw [hix, Buf.rd_ok (b5 (a - 1) (by omega))]
        simp only [Res.ok_bind]
        refine ⟨_, rfl, b2, b3, b4, b5, a - 1, by omega, rfl, ?_⟩
        apply hQd j (a - 1) s.y (by omega)
        have : a - 1 + 1 = a := by omega
        rw [this]; exact a7)
  rw [g1]
  simp only [Res.ok_bind]
  obtain ⟨-, -, -, -, a, ha, -, hq⟩ := g2
  refine ⟨_, rfl, ?_⟩
  have : a = 0 := by omega
  rw [this] at hq
  exact hq

end Verif
