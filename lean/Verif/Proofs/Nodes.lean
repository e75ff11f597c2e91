import Verif.Model.Common
import Verif.Proofs.Size

/-! Lemmas on `nodes_weights_gauss_legendre`. -/

set_option linter.unusedSectionVars false

namespace Verif

section generic
variable {α : Type} [Add α] [Sub α] [Mul α] [Div α] [Neg α] [Histo α]

/-- Final content of node cell `i`. -/
def nodeAt (rt : ℕ → α × α) (xmin xmax : α) (n i : ℕ) : α :=
  if 2 * i + 1 < n then (xmax + xmin) / Histo.lit 2 - (xmax - xmin) / Histo.lit 2 * (rt i).1
  else (xmax + xmin) / Histo.lit 2 + (xmax - xmin) / Histo.lit 2 * (rt (n - 1 - i)).1

/-- Final content of weight cell `i`. -/
def weightAt (rt : ℕ → α × α) (xmin xmax : α) (n i : ℕ) : α :=
  let r := rt (if 2 * i + 1 < n then i else n - 1 - i)
  Histo.lit 2 * ((xmax - xmin) / Histo.lit 2) / ((Histo.lit 1 - r.1 * r.1) * r.2 * r.2)

theorem nodesWeights_cells (rt : ℕ → α × α) (xmin xmax : α) (x w : Buf α) (n : ℕ) (hn : n < 2 ^ 63)
    (hx : n ≤ x.length) (hw : n ≤ w.length) :
    ∃ x' w', nodesWeights rt xmin xmax x w n = .ok (x', w') ∧ x'.length = x.length ∧ w'.length = w.length ∧
      ∀ i, x'[i]? = (if i < n then some (some (nodeAt rt xmin xmax n i)) else x[i]?) ∧
        w'[i]? = (if i < n then some (some (weightAt rt xmin xmax n i)) else w[i]?) := by
  have hm : sizeMod = 2 ^ 64 := rfl
  unfold nodesWeights
  dsimp only
  have hloop := forRange_inv (lo := 0) (hi := (n + 1) / 2) (s := (x, w))
    (body := fun ii s => do
      let z := (rt ii).1
      let pp := (rt ii).2
      let x ← s.1.wr ii ((xmax + xmin) / Histo.lit 2 - (xmax - xmin) / Histo.lit 2 * z)
      let x ← x.wr (subSize (subSize n ii) 1) ((xmax + xmin) / Histo.lit 2 + (xmax - xmin) / Histo.lit 2 * z)
      let w ← s.2.wr ii (Histo.lit 2 * ((xmax - xmin) / Histo.lit 2) / ((Histo.lit 1 - z * z) * pp * pp))
      let wi ← w.rd ii
      let w ← w.wr (subSize (subSize n ii) 1) wi
      .ok (x, w))
    (P := fun j s => s.1.length = x.length ∧ s.2.length = w.length ∧
      ∀ i, s.1[i]? = (if i < j ∨ (n - j ≤ i ∧ i < n) then some (some (nodeAt rt xmin xmax n i)) else x[i]?) ∧
        s.2[i]? = (if i < j ∨ (n - j ≤ i ∧ i < n) then some (some (weightAt rt xmin xmax n i)) else w[i]?))
    (by omega) ⟨rfl, rfl, fun i => by
      have : ¬ (i < 0 ∨ (n - 0 ≤ i ∧ i < n)) := by omega
      rw [if_neg this, if_neg this]; exact ⟨rfl, rfl⟩⟩ (by
        rintro j ⟨sx, sw⟩ - hj ⟨hl1, hl2, hc⟩
        dsimp only at hl1 hl2 hc ⊢
        rw [subSize_eq (a := n) (b := j) (by omega) (by omega), subSize_eq (by omega) (by omega)]
        rw [Buf.wr_ok (by omega)]
        simp only [Res.ok_bind]
        rw [Buf.wr_ok (by simp; omega)]
        simp only [Res.ok_bind]
        rw [Buf.wr_ok (by omega)]
        simp only [Res.ok_bind]
        rw [Buf.rd_ok (v := Histo.lit 2 * ((xmax - xmin) / Histo.lit 2) / ((Histo.lit 1 - (rt j).1 * (rt j).1) * (rt j).2 * (rt j).2))
          (by rw [List.getElem?_set_self (by omega)])]
        simp only [Res.ok_bind]
        rw [Buf.wr_ok (by simp; omega)]
        simp only [Res.ok_bind]
        refine ⟨_, rfl, by simp [hl1], by simp [hl2], ?_⟩
        intro i
        obtain ⟨hc1, hc2⟩ := hc i
        have key : (i < j + 1 ∨ (n - (j + 1) ≤ i ∧ i < n)) ↔ (i = j ∨ i = n - j - 1) ∨ (i < j ∨ (n - j ≤ i ∧ i < n)) := by omega
        by_cases c1 : n - j - 1 = i
        · have hp : i < j + 1 ∨ (n - (j + 1) ≤ i ∧ i < n) := by omega
          have hij : n - 1 - i = j := by omega
          have hnot : ¬ (2 * i + 1 < n) := by omega
          rw [if_pos hp, if_pos hp, ← c1, List.getElem?_set_self (by simp; omega), List.getElem?_set_self (by simp; omega), c1,
            nodeAt, weightAt, if_neg hnot, if_neg hnot, hij]
          exact ⟨rfl, rfl⟩
        · rw [List.getElem?_set_ne c1, List.getElem?_set_ne c1]
          by_cases c2 : j = i
          · have hp : i < j + 1 ∨ (n - (j + 1) ≤ i ∧ i < n) := by omega
            have hlt : 2 * i + 1 < n := by omega
            rw [if_pos hp, if_pos hp, ← c2, List.getElem?_set_self (by omega), List.getElem?_set_self (by omega), c2,
              nodeAt, weightAt, if_pos hlt, if_pos hlt]
            exact ⟨rfl, rfl⟩
          · rw [List.getElem?_set_ne c2, List.getElem?_set_ne c2, hc1, hc2]
            have : (i < j + 1 ∨ (n - (j + 1) ≤ i ∧ i < n)) ↔ (i < j ∨ (n - j ≤ i ∧ i < n)) := by omega
            simp only [this, and_self])
  obtain ⟨s', h1, h2, h3, h4⟩ := hloop
  refine ⟨s'.1, s'.2, h1, h2, h3, ?_⟩
  intro i
  obtain ⟨h5, h6⟩ := h4 i
  by_cases c : i < n
  · have : i < (n + 1) / 2 ∨ (n - (n + 1) / 2 ≤ i ∧ i < n) := by omega
    rw [if_pos this] at h5 h6
    rw [if_pos c, if_pos c]
    exact ⟨h5, h6⟩
  · have : ¬ (i < (n + 1) / 2 ∨ (n - (n + 1) / 2 ≤ i ∧ i < n)) := by omega
    rw [if_neg this] at h5 h6
    rw [if_neg c, if_neg c]
    exact ⟨h5, h6⟩

/-- With buffers of exactly `n` cells. -/
theorem nodesWeights_eq (rt : ℕ → α × α) (xmin xmax : α) (x w : Buf α) (n : ℕ) (hn : n < 2 ^ 63)
    (hx : x.length = n) (hw : w.length = n) :
    nodesWeights rt xmin xmax x w n = .ok (((List.range n).map (nodeAt rt xmin xmax n)).map some,
      ((List.range n).map (weightAt rt xmin xmax n)).map some) := by
  obtain ⟨x', w', h1, h2, h3, h4⟩ := nodesWeights_cells rt xmin xmax x w n hn hx.ge hw.ge
  rw [h1]
  congr 2
  · apply List.ext_getElem?
    intro i
    rw [(h4 i).1]
    by_cases c : i < n
    · simp [c]
    · simp [c, hx ▸ (not_lt.mp c)]
  · apply List.ext_getElem?
    intro i
    rw [(h4 i).2]
    by_cases c : i < n
    · simp [c]
    · simp [c, hw ▸ (not_lt.mp c)]

theorem contents_map_some (l : List α) : Buf.contents (l.map some) = .ok l := by
  induction l with
  | nil => rfl
  | cons a l ih => simp [Buf.contents, ih]

/-- `init_gauss_legendre_mu`: the reference rule on `[-1,1]`. -/
theorem initGLMu_eq (rt : ℕ → α × α) (n : ℕ) (hn : n < 2 ^ 63) :
    initGLMu rt n = .ok ⟨n, (List.range n).map (nodeAt rt (Histo.lit (-1)) (Histo.lit 1) n),
      (List.range n).map (weightAt rt (Histo.lit (-1)) (Histo.lit 1) n),
      (List.range n).map (nodeAt rt (Histo.lit (-1)) (Histo.lit 1) n),
      (List.range n).map (weightAt rt (Histo.lit (-1)) (Histo.lit 1) n)⟩ := by
  unfold initGLMu
  rw [nodesWeights_eq rt _ _ _ _ n hn (by simp [malloc]) (by simp [malloc])]
  simp only [Res.ok_bind]
  rw [contents_map_some, contents_map_some]
  rfl

end generic

end Verif
