import Verif.Model.Views
import Verif.Props.Interp

/-!
# C81: arrays are read as the caller sees them
-/

namespace Verif

open Polynomial

variable {α : Type}

namespace View

theorem mapM_cread {v : View α} (is : List ℕ) (h : ∀ i ∈ is, ∃ x, v.elem i = some x ∧ v.cread i = .ok x) :
    is.mapM v.cread = Res.ok (is.filterMap v.elem) := by
  induction is with
  | nil => rfl
  | cons i is ih =>
    obtain ⟨x, h1, h2⟩ := h i (.head _)
    rw [List.mapM_cons, h2, Res.ok_bind, ih fun j hj => h j (.tail _ hj), List.filterMap_cons_some h1]
    rfl

theorem cseen_eq {v : View α} (hw : v.WF) (h : v.stride = 1 ∨ v.n ≤ 1) : v.cseen v.n = .ok v.vals := by
  refine mapM_cread _ fun i hi => ?_
  have hi := List.mem_range.1 hi
  obtain ⟨x, hx⟩ := Option.isSome_iff_exists.1 (hw i hi)
  refine ⟨x, hx, ?_⟩
  have e : v.off + (i : ℤ) * v.stride = v.off + i := by
    rcases h with h | h
    · rw [h, mul_one]
    · rw [show i = 0 by omega]; simp
  unfold elem at hx
  rw [e] at hx
  unfold cread
  rw [hx]

theorem map_some_vals {v : View α} (hw : v.WF) : v.vals.map some = (List.range v.n).map v.elem := by
  have : ∀ is : List ℕ, (∀ i ∈ is, (v.elem i).isSome) → (is.filterMap v.elem).map some = is.map v.elem := by
    intro is
    induction is with
    | nil => intro _; rfl
    | cons i is ih =>
      intro h
      obtain ⟨x, hx⟩ := Option.isSome_iff_exists.1 (h i (.head _))
      rw [List.filterMap_cons_some hx, List.map_cons, List.map_cons, ih fun j hj => h j (.tail _ hj), hx]
  exact this _ fun i hi => hw i (List.mem_range.1 hi)

theorem length_vals {v : View α} (hw : v.WF) : v.vals.length = v.n := by
  simpa using congrArg List.length (map_some_vals hw)

theorem vals_get {v : View α} (hw : v.WF) {i : ℕ} (hi : i < v.n) : v.vals[i]? = v.elem i := by
  have h := congrArg (fun l => l[i]?) (map_some_vals hw)
  simp only [List.getElem?_map, List.getElem?_range hi, Option.map_some] at h
  cases e : v.vals[i]? with
  | none => rw [e] at h; cases h
  | some x => rw [e] at h; exact Option.some_injective _ h

theorem fresh_elem (l : List α) (i : ℕ) : (fresh l).elem i = l[i]? := by
  unfold elem cell fresh
  have : ¬ ((0 : ℤ) + i * 1 < 0) := by omega
  rw [if_neg this]
  simp

theorem fresh_wf (l : List α) : (fresh l).WF := fun i hi => by
  rw [fresh_elem, List.getElem?_eq_getElem hi]
  rfl

theorem fresh_vals (l : List α) : (fresh l).vals = l := by
  apply List.ext_getElem?
  intro i
  by_cases hi : i < l.length
  · rw [vals_get (fresh_wf l) hi, fresh_elem]
  · have h1 : (fresh l).vals.length = l.length := length_vals (fresh_wf l)
    rw [List.getElem?_eq_none (by omega), List.getElem?_eq_none (by omega)]

theorem fresh_seen (l : List α) : (fresh l).cseen l.length = .ok l := by
  have := cseen_eq (fresh_wf l) (.inl rfl)
  rwa [fresh_vals] at this

theorem slice_bounds {n : ℕ} {start stop : Option ℤ} {step : ℤ} : ∃ first last : ℤ,
    (if step < 0 then -1 ≤ last ∧ first ≤ (n : ℤ) - 1 else 0 ≤ first ∧ last ≤ n) ∧
    sliceIndices n start stop step = (first, if step < 0 then (if last < first then ((first - last - 1) / (-step) + 1).toNat else 0)
      else if first < last then ((last - first - 1) / step + 1).toNat else 0) := by
  refine ⟨_, _, ?_, rfl⟩
  by_cases h : step < 0
  · simp only [if_pos h]
    constructor
    · cases stop with
      | none => exact le_rfl
      | some z => dsimp only; split <;> omega
    · cases start with
      | none => exact le_rfl
      | some z => dsimp only; split <;> omega
  · simp only [if_neg h]
    constructor
    · cases start with
      | none => exact le_rfl
      | some z => dsimp only; split <;> omega
    · cases stop with
      | none => exact le_rfl
      | some z => dsimp only; split <;> omega

/-- The positions of a slice lie inside the array. -/
theorem slice_inside {n : ℕ} {start stop : Option ℤ} {step : ℤ} (hs : step ≠ 0) {i : ℕ} (hi : i < (sliceIndices n start stop step).2) :
    0 ≤ (sliceIndices n start stop step).1 + i * step ∧ (sliceIndices n start stop step).1 + i * step < n := by
  obtain ⟨first, last, hb, hr⟩ := slice_bounds (n := n) (start := start) (stop := stop) (step := step)
  rw [hr] at hi ⊢
  dsimp only at hi ⊢
  rcases lt_or_gt_of_ne hs with hneg | hpos
  · simp only [if_pos hneg] at hi hb
    split at hi
    · have h1 : (i : ℤ) ≤ (first - last - 1) / (-step) := by omega
      have h2 := (Int.le_ediv_iff_mul_le (by omega)).1 h1
      have h3 : (i : ℤ) * step ≤ 0 := mul_nonpos_of_nonneg_of_nonpos (by omega) hneg.le
      rw [mul_neg] at h2
      constructor <;> omega
    · omega
  · simp only [if_neg (not_lt.2 hpos.le)] at hi hb
    split at hi
    · have h1 : (i : ℤ) ≤ (last - first - 1) / step := by omega
      have h2 := (Int.le_ediv_iff_mul_le hpos).1 h1
      have h3 : 0 ≤ (i : ℤ) * step := mul_nonneg (by omega) hpos.le
      constructor <;> omega
    · omega

theorem slice_elem {v w : View α} {start stop : Option ℤ} {step : ℤ} (h : v.slice start stop step = some w) (i : ℕ) (hi : i < w.n) :
    ∃ j : ℕ, j < v.n ∧ (j : ℤ) = (sliceIndices v.n start stop step).1 + i * step ∧ w.elem i = v.elem j := by
  unfold slice at h
  split at h
  · cases h
  · next hs =>
    cases h
    obtain ⟨h1, h2⟩ := slice_inside hs hi
    refine ⟨((sliceIndices v.n start stop step).1 + i * step).toNat, by omega, Int.toNat_of_nonneg h1, ?_⟩
    unfold elem cell
    dsimp only
    rw [Int.toNat_of_nonneg h1, show v.off + (sliceIndices v.n start stop step).1 * v.stride + (i : ℤ) * (v.stride * step)
      = v.off + ((sliceIndices v.n start stop step).1 + i * step) * v.stride by ring]

theorem slice_wf {v w : View α} {start stop : Option ℤ} {step : ℤ} (hw : v.WF) (h : v.slice start stop step = some w) : w.WF := fun i hi => by
  obtain ⟨j, hj, -, e⟩ := slice_elem h i hi
  rw [e]
  exact hw j hj

theorem slice_stride {v w : View α} {start stop : Option ℤ} {step : ℤ} (h : v.slice start stop step = some w) :
    w.stride = v.stride * step ∧ w.double = v.double ∧ w.n = (sliceIndices v.n start stop step).2 := by
  unfold slice at h
  split at h
  · cases h
  · cases h
    exact ⟨rfl, rfl, rfl⟩

theorem pick_some {v w : View α} {idx : List ℕ} (h : v.pick idx = some w) :
    w.stride = 1 ∧ w.double = v.double ∧ w.WF ∧ w.n = idx.length ∧ w.vals.map some = idx.map v.elem := by
  unfold pick at h
  obtain ⟨l, h1, h2⟩ := Option.bind_eq_some_iff.1 h
  cases h2
  have hl : l.map some = idx.map v.elem := by
    clear h
    induction idx generalizing l with
    | nil => cases h1; rfl
    | cons i idx ih =>
      rw [List.mapM_cons] at h1
      obtain ⟨x, hx, h1⟩ := Option.bind_eq_some_iff.1 h1
      obtain ⟨l', hl', h1⟩ := Option.bind_eq_some_iff.1 h1
      cases h1
      rw [List.map_cons, List.map_cons, ih _ hl']
      split at hx
      · rw [hx]
      · cases hx
  refine ⟨rfl, rfl, fresh_wf l, by simpa [fresh] using congrArg List.length hl, ?_⟩
  have : ({ fresh l with double := v.double } : View α).vals = (fresh l).vals := rfl
  rw [this, fresh_vals, hl]

end View

/-! ## Slices, as Python defines them -/

/-- What a slice holds: for `0 ≤ a`, `b ≤ n` and a positive step, `x[a:b:step]` holds `x[a]`, `x[a+step]`, ... as long as the index is below
`b`. -/
theorem C81_slice_elements {v w : View α} (hw : v.WF) (a b s : ℕ) (hb : b ≤ v.n) (hs : 0 < s)
    (h : v.slice (some a) (some b) s = some w) (i : ℕ) : w.vals[i]? = if a + i * s < b then v.vals[a + i * s]? else none := by
  have hcount : w.n = if a < b then (b - a - 1) / s + 1 else 0 := by
    rw [(View.slice_stride h).2.2]
    unfold View.sliceIndices
    have h0 : ¬ (s : ℤ) < 0 := by omega
    have h1 : ¬ (a : ℤ) < 0 := by omega
    have h2 : ¬ (b : ℤ) < 0 := by omega
    simp only [if_neg h0, if_neg h1, if_neg h2]
    rw [min_eq_left (by omega : (b : ℤ) ≤ v.n)]
    by_cases hab : a < b
    · rw [min_eq_left (by omega : (a : ℤ) ≤ v.n), if_pos (by omega), if_pos hab,
        show ((b : ℤ) - a - 1) / s + 1 = (((b - a - 1) / s + 1 : ℕ) : ℤ) by push_cast [show 1 ≤ b - a by omega, hab.le]; omega]
      rfl
    · rw [if_neg hab, if_neg (by omega)]
  have hlt : i < w.n ↔ a + i * s < b := by
    rw [hcount]
    split
    · rw [Nat.lt_succ_iff, Nat.le_div_iff_mul_le hs]
      omega
    · constructor
      · omega
      · intro h
        have : 0 ≤ i * s := Nat.zero_le _
        omega
  by_cases hi : i < w.n
  · obtain ⟨j, hj, e1, e2⟩ := View.slice_elem h i hi
    have hlt' := hlt.1 hi
    have : j = a + i * s := by
      have hf : (View.sliceIndices v.n (some (a : ℤ)) (some (b : ℤ)) s).1 = a := by
        unfold View.sliceIndices
        have h0 : ¬ (s : ℤ) < 0 := by omega
        have h1 : ¬ (a : ℤ) < 0 := by omega
        simp only [if_neg h0, if_neg h1]
        have : 0 ≤ i * s := Nat.zero_le _
        exact min_eq_left (by omega)
      rw [hf] at e1
      exact_mod_cast e1
    rw [if_pos hlt', View.vals_get (View.slice_wf hw h) hi, e2, this, View.vals_get hw (this ▸ hj)]
  · rw [if_neg (fun h => hi (hlt.2 h)), List.getElem?_eq_none (by rw [View.length_vals (View.slice_wf hw h)]; omega)]

/-- `x[::-1]` is the reversed array. -/
theorem C81_slice_reversed {v w : View α} (hw : v.WF) (h : v.slice none none (-1) = some w) : w.vals = v.vals.reverse := by
  have hn : w.n = v.n := by
    rw [(View.slice_stride h).2.2]
    unfold View.sliceIndices
    simp only [show ((-1 : ℤ) < 0) from by decide, if_true, neg_neg, Int.ediv_one]
    split <;> omega
  apply List.ext_getElem?
  intro i
  by_cases hi : i < w.n
  · obtain ⟨j, hj, e1, e2⟩ := View.slice_elem h i hi
    have hf : (View.sliceIndices v.n none none (-1)).1 = (v.n : ℤ) - 1 := by
      unfold View.sliceIndices
      simp only [show ((-1 : ℤ) < 0) from by decide, if_true]
    rw [hf] at e1
    have hl := View.length_vals hw
    rw [View.vals_get (View.slice_wf hw h) hi, e2, List.getElem?_reverse (by omega), View.length_vals hw, ← View.vals_get hw hj,
      show v.n - 1 - i = j by omega]
  · rw [List.getElem?_eq_none (by rw [View.length_vals (View.slice_wf hw h)]; omega),
      List.getElem?_eq_none (by rw [List.length_reverse, View.length_vals hw]; omega)]

example : ∃ w, (View.fresh [10, 11, 12, 13, 14, 15, 16]).slice (some 1) (some 6) 2 = some w ∧ w.vals = [11, 13, 15] := ⟨_, rfl, rfl⟩

example : ∃ w, (View.fresh [10, 11, 12, 13]).slice none none (-1) = some w ∧ w.vals = [13, 12, 11, 10] := ⟨_, rfl, rfl⟩

/-! ## Which layouts the library reads correctly -/

/-- C81: the library sees the elements of an array, whatever they are, exactly if the array has stride one or at most one element. -/
theorem C81_layout_partial [Nontrivial α] (v : View α) (hw : v.WF) :
    (∀ l : List α, l.length = v.buf.length → View.cseen { v with buf := l } v.n = .ok (View.vals { v with buf := l })) ↔
      v.stride = 1 ∨ v.n ≤ 1 := by
  have hinb : ∀ i < v.n, 0 ≤ v.off + i * v.stride ∧ v.off + i * v.stride < v.buf.length := by
    intro i hi
    have := hw i hi
    unfold View.elem View.cell at this
    split at this
    · cases this
    · next h0 =>
      by_contra hc
      rw [List.getElem?_eq_none (by omega)] at this
      cases this
  have hwl : ∀ l : List α, l.length = v.buf.length → View.WF { v with buf := l } := by
    intro l hl i hi
    obtain ⟨h1, h2⟩ := hinb i hi
    unfold View.elem View.cell
    dsimp only
    rw [if_neg (by omega), List.getElem?_eq_getElem (by omega)]
    rfl
  constructor
  · intro h
    by_contra hc
    push Not at hc
    obtain ⟨hs, hn⟩ := hc
    obtain ⟨a, b, hab⟩ := exists_pair_ne α
    obtain ⟨q1, q2⟩ := hinb 1 hn
    obtain ⟨p1, p2⟩ := hinb 0 (by omega)
    simp only [Nat.cast_one, one_mul, Nat.cast_zero, zero_mul, add_zero] at q1 q2 p1 p2
    let l : List α := (List.replicate v.buf.length a).set (v.off + v.stride).toNat b
    have hl : l.length = v.buf.length := by simp [l]
    have hh := h l hl
    have hv1 : (View.vals { v with buf := l })[1]? = some b := by
      rw [View.vals_get (hwl l hl) (i := 1) hn]
      unfold View.elem View.cell
      dsimp only
      simp only [Nat.cast_one, one_mul]
      rw [if_neg (by omega), List.getElem?_set_self (by simp; omega)]
    -- what C reads at position 1
    have hc1 : ∀ (f : ℕ → Res α) (n : ℕ) (r : List α), (List.range n).mapM f = Res.ok r → ∀ i (hi : i < n), ∃ x, f i = .ok x ∧ r[i]? = some x := by
      intro f n
      have : ∀ (is : List ℕ) (r : List α), is.mapM f = Res.ok r → ∀ i (hi : i < is.length), ∃ x, f is[i] = .ok x ∧ r[i]? = some x := by
        intro is
        induction is with
        | nil => intro r _ i hi; cases hi
        | cons j is ih =>
          intro r hr i hi
          rw [List.mapM_cons] at hr
          obtain ⟨x, hx, hr⟩ := Res.bind_eq_ok.1 hr
          obtain ⟨r', hr', hr⟩ := Res.bind_eq_ok.1 hr
          cases hr
          cases i with
          | zero => exact ⟨x, hx, rfl⟩
          | succ i => 
            obtain ⟨y, h1, h2⟩ := ih r' hr' i (by simpa using hi)
            exact ⟨y, h1, h2⟩
      intro r hr i hi
      obtain ⟨x, h1, h2⟩ := this _ r hr i (by simpa using hi)
      exact ⟨x, by simpa using h1, h2⟩
    obtain ⟨x, hx, hx'⟩ := hc1 _ _ _ hh 1 hn
    rw [hv1] at hx'
    cases hx'
    unfold View.cread View.cell at hx
    dsimp only at hx
    rw [if_neg (by omega)] at hx
    split at hx
    · next y hy =>
      cases hx
      have hne : (v.off + v.stride).toNat ≠ (v.off + ((1 : ℕ) : ℤ)).toNat := by
        push_cast
        omega
      rw [List.getElem?_set_ne hne] at hy
      have := List.mem_of_getElem? hy
      exact hab (List.eq_of_mem_replicate this).symm
    · cases hx
  · intro h l hl
    exact View.cseen_eq (v := { v with buf := l }) (hwl l hl) h

/-- Every second entry of an array: not read correctly. -/
example : ¬ ∀ l : List ℝ, l.length = 6 → View.cseen ⟨l, 0, 2, 3, true⟩ 3 = .ok (View.vals ⟨l, 0, 2, 3, true⟩) := fun h =>
  absurd ((C81_layout_partial ⟨[0, 0, 0, 0, 0, (0 : ℝ)], 0, 2, 3, true⟩ (by intro i hi; dsimp only at hi; interval_cases i <;> rfl)).1 h) (by decide)

/-! ## The calls -/

/-- C81: `set_pk_lin` gives the library the elements of its two arguments, whatever their layout. -/
theorem C81_set_pk_lin {k pk : View α} (hk : k.WF) (hp : pk.WF) (hn : pk.n = k.n) (t : Pk α) :
    setPkView k pk t = .done ⟨k.n, k.vals, pk.vals⟩ := by
  have h1 : k.flatten.n = k.n := View.length_vals hk
  have h2 : pk.flatten.n = k.n := (View.length_vals hp).trans hn
  have s1 : k.flatten.cseen k.n = .ok k.vals := by
    have := View.fresh_seen k.vals
    rwa [View.length_vals hk] at this
  have s2 : pk.flatten.cseen k.n = .ok pk.vals := by
    have := View.fresh_seen pk.vals
    rwa [View.length_vals hp, hn] at this
  unfold setPkView setSpectrumView View.accepted
  simp only [h1, h2, s1, s2]
  simp [View.flatten, View.fresh]

/-- C81: `find_pk_lin` looks up the elements of its argument, whatever their layout. -/
theorem C81_find_pk_lin [Add α] [Sub α] [Mul α] [Div α] [Neg α] [Histo α] (t : Pk α) (k : View α) (interpol : String) :
    findPkView t k interpol = findPk t k.vals (if interpol = "poly" then .poly else .lin) := by
  unfold findPkView
  rw [show k.flatten.cseen k.flatten.n = .ok k.vals from View.fresh_seen k.vals, Res.ok_bind]

/-- C81: when the two columns have different lengths, or are no arrays of doubles, nothing is passed to the library. -/
theorem C81_lengths (s : SpecObj α) (t : Pk α) (h : s.pk.n ≠ s.k.n ∨ s.k.double = false ∨ s.pk.double = false) :
    setSpectrumView s t = .raised "ArgumentError" t := by
  unfold setSpectrumView View.accepted
  rw [if_neg]
  rcases h with h | h | h <;> simp [h]

/-- C81: a spectrum object with columns of stride one is read as it is. -/
theorem C81_spectrum_partial {s : SpecObj α} (hk : s.k.WF) (hp : s.pk.WF) (hn : s.pk.n = s.k.n) (dk : s.k.double = true)
    (dp : s.pk.double = true) (sk : s.k.stride = 1 ∨ s.k.n ≤ 1) (sp : s.pk.stride = 1 ∨ s.pk.n ≤ 1) (t : Pk α) :
    setSpectrumView s t = .done ⟨s.k.n, s.k.vals, s.pk.vals⟩ := by
  have s2 := View.cseen_eq hp sp
  rw [hn] at s2
  unfold setSpectrumView View.accepted
  simp [dk, dp, hn, View.cseen_eq hk sk, s2]

/-- Cutting a spectrum object by plain slices `[a:b]` one after the other. -/
def SpecObj.cuts (l : List (Option ℤ × Option ℤ)) (s : SpecObj α) : Option (SpecObj α) := l.foldlM (fun s x => s.slice x.1 x.2 1) s

/-- C81: a spectrum with fresh columns of equal length, cut any number of times, is read as Python sees it. -/
theorem C81_cuts_partial {k pk : List α} (hn : pk.length = k.length) (l : List (Option ℤ × Option ℤ)) (t : Pk α) :
    ∃ s, (⟨.fresh k, .fresh pk⟩ : SpecObj α).cuts l = some s ∧ setSpectrumView s t = .done ⟨s.k.n, s.k.vals, s.pk.vals⟩ := by
  have main : ∀ (l : List (Option ℤ × Option ℤ)) (s : SpecObj α), s.k.WF → s.pk.WF → s.pk.n = s.k.n → s.k.double = true → s.pk.double = true →
      s.k.stride = 1 → s.pk.stride = 1 → ∃ s', s.cuts l = some s' ∧ setSpectrumView s' t = .done ⟨s'.k.n, s'.k.vals, s'.pk.vals⟩ := by
    intro l
    induction l with
    | nil =>
      intro s a1 a2 a3 a4 a5 a6 a7
      exact ⟨s, rfl, C81_spectrum_partial a1 a2 a3 a4 a5 (.inl a6) (.inl a7) t⟩
    | cons x l ih =>
      intro s a1 a2 a3 a4 a5 a6 a7
      obtain ⟨k', hk'⟩ : ∃ k', s.k.slice x.1 x.2 1 = some k' := ⟨_, rfl⟩
      obtain ⟨p', hp'⟩ : ∃ p', s.pk.slice x.1 x.2 1 = some p' := ⟨_, rfl⟩
      obtain ⟨b1, b2, b3⟩ := View.slice_stride hk'
      obtain ⟨c1, c2, c3⟩ := View.slice_stride hp'
      have hs : s.slice x.1 x.2 1 = some ⟨k', p'⟩ := by
        unfold SpecObj.slice
        rw [hk', hp']
        rfl
      obtain ⟨s', h1, h2⟩ := ih ⟨k', p'⟩ (View.slice_wf a1 hk') (View.slice_wf a2 hp') (by rw [c3, b3, a3]) (by rw [b2, a4]) (by rw [c2, a5])
        (by rw [b1, a6, one_mul]) (by rw [c1, a7, one_mul])
      refine ⟨s', ?_, h2⟩
      unfold SpecObj.cuts
      rw [List.foldlM_cons, hs]
      exact h1
  exact main l _ (View.fresh_wf k) (View.fresh_wf pk) hn rfl rfl rfl rfl

/-- C81: a selection by a mask or an array of indices makes new blocks and is read as Python sees it, whatever the layout before. -/
theorem C81_pick_partial {s s' : SpecObj α} {idx : List ℕ} (dk : s.k.double = true) (dp : s.pk.double = true) (h : s.pick idx = some s')
    (t : Pk α) : setSpectrumView s' t = .done ⟨s'.k.n, s'.k.vals, s'.pk.vals⟩ ∧
      s'.k.vals.map some = idx.map s.k.elem ∧ s'.pk.vals.map some = idx.map s.pk.elem := by
  unfold SpecObj.pick at h
  obtain ⟨k', hk, h⟩ := Option.bind_eq_some_iff.1 h
  obtain ⟨p', hp, h⟩ := Option.bind_eq_some_iff.1 h
  cases h
  obtain ⟨a1, a2, a3, a4, a5⟩ := View.pick_some hk
  obtain ⟨b1, b2, b3, b4, b5⟩ := View.pick_some hp
  exact ⟨C81_spectrum_partial a3 b3 (by rw [b4, a4]) (by rw [a2, dk]) (by rw [b2, dp]) (.inl a1) (.inl b1) t, a5, b5⟩

/-- Six modes. -/
def sixModes : SpecObj ℝ := ⟨.fresh [1, 2, 3, 4, 5, 6], .fresh [10, 20, 30, 25, 20, 15]⟩

/-- C81 fails: with `spectrum[::2]` the library gets the first three modes of the spectrum instead of every second one, without any error. -/
theorem C81_step_violation (t : Pk ℝ) : ∃ s, sixModes.slice none none 2 = some s ∧ s.k.vals = [1, 3, 5] ∧ s.pk.vals = [10, 30, 20] ∧
    setSpectrumView s t = .done ⟨3, [1, 2, 3], [10, 20, 30]⟩ := ⟨_, rfl, rfl, rfl, rfl⟩

/-- C81 fails: with `spectrum[::-1]` the library reads beyond the end of the arrays. -/
theorem C81_reversed_violation (t : Pk ℝ) : ∃ s, sixModes.slice none none (-1) = some s ∧ s.k.vals = [6, 5, 4, 3, 2, 1] ∧
    setSpectrumView s t = .ub "out of bounds read" := ⟨_, rfl, rfl, rfl⟩

/-- C81 fails: with the columns `table[:,0]` and `table[:,1]` of an array of two columns and three rows the library gets modes and values
mixed; the second column is read beyond its end for one row more. -/
theorem C81_table_violation (t : Pk ℝ) : ∃ s : SpecObj ℝ, s.k.buf = [1, 10, 2, 20, 3, 30] ∧ s.pk.buf = s.k.buf ∧ s.k.vals = [1, 2, 3] ∧
    s.pk.vals = [10, 20, 30] ∧ setSpectrumView s t = .done ⟨3, [1, 10, 2], [10, 2, 20]⟩ :=
  ⟨⟨⟨[1, 10, 2, 20, 3, 30], 0, 2, 3, true⟩, ⟨[1, 10, 2, 20, 3, 30], 1, 2, 3, true⟩⟩, rfl, rfl, rfl, rfl, rfl⟩

/-- C81 fails: in `B2Loop.run_terms` the two spectra are computed at the modes of the spectrum object (`set_terms` copies them), but the
library pairs the values with other modes. -/
theorem C81_B2_violation (d : List ℝ) (hd : d.length = 3) (t : Pk ℝ) : ∃ s, sixModes.slice none none 2 = some s ∧ s.k.flatten.vals = [1, 3, 5] ∧
    setSpectraBView s d t = .done ⟨3, [1, 2, 3], d⟩ := by
  refine ⟨_, rfl, rfl, ?_⟩
  match d, hd with
  | [x, y, z], _ => rfl

noncomputable example : ∃ s, sixModes.cuts [(some 1, none), (none, some (-2))] = some s ∧ s.k.vals = [2, 3, 4] ∧ s.pk.vals = [20, 30, 25] ∧
    setSpectrumView s ⟨0, [], []⟩ = .done ⟨3, [2, 3, 4], [20, 30, 25]⟩ := ⟨_, rfl, rfl, rfl, rfl⟩

noncomputable example : ∃ s, sixModes.pick [0, 2, 4] = some s ∧ setSpectrumView s ⟨0, [], []⟩ = .done ⟨3, [1, 3, 5], [10, 30, 20]⟩ := ⟨_, rfl, rfl⟩

/-- The two columns of a table, handed over with `set_pk_lin`. -/
noncomputable example : setPkView (⟨[1, 10, 2, 20, 3, 30], 0, 2, 3, true⟩ : View ℝ) ⟨[1, 10, 2, 20, 3, 30], 1, 2, 3, true⟩ ⟨0, [], []⟩
    = .done ⟨3, [1, 2, 3], [10, 20, 30]⟩ :=
  C81_set_pk_lin (k := ⟨[1, 10, 2, 20, 3, 30], 0, 2, 3, true⟩) (pk := ⟨[1, 10, 2, 20, 3, 30], 1, 2, 3, true⟩) (by intro i hi; change i < 3 at hi; interval_cases i <;> rfl) (by intro i hi; change i < 3 at hi; interval_cases i <;> rfl) rfl _

/-! ## The wrappers of the interpolations -/

/-- C81: `interpol_poly` with arrays of stride one and distinct abscissae gives the value of the interpolating polynomial. -/
theorem C81_interpol_poly_partial (x : ℝ) {tx ty : View ℝ} (hx : tx.WF) (hy : ty.WF) (hn : ty.n = tx.n) (dx : tx.double = true)
    (dy : ty.double = true) (sx : tx.stride = 1 ∨ tx.n ≤ 1) (sy : ty.stride = 1 ∨ ty.n ≤ 1) (h1 : 1 ≤ tx.n) (hsz : tx.n < 2 ^ 63)
    (hdist : tx.vals.Nodup) (p : ℝ[X]) (hdeg : p.degree < tx.n)
    (hp : ∀ (i : ℕ) (h : i < tx.vals.length) (h' : i < ty.vals.length), p.eval tx.vals[i] = ty.vals[i]) :
    interpolPolyView x tx ty = .done (p.eval x) := by
  have lx := View.length_vals hx
  have ly := View.length_vals hy
  have s2 := View.cseen_eq hy sy
  rw [hn] at s2
  have hi := C04_interpolPoly_unique x tx.vals ty.vals (by rw [lx, ly, hn]) (by rw [lx]; exact h1) (by rw [lx]; exact hsz) hdist p
    (by rw [lx]; exact hdeg) fun i h => hp i h (by rw [ly, hn, ← lx]; exact h)
  rw [lx] at hi
  unfold interpolPolyView View.accepted
  rw [if_pos hn.symm]
  simp [dx, dy, hn, View.cseen_eq hx sx, s2, hi]

/-- C81: tables of different lengths are refused. -/
theorem C81_interpol_poly_lengths (x : ℝ) (tx ty : View ℝ) (hn : ty.n ≠ tx.n) : interpolPolyView x tx ty = .raised "AssertionError" x := by
  unfold interpolPolyView
  rw [if_neg fun h => hn h.symm]

/-- A straight line through two points. -/
theorem interpolPoly_two (x a b c d : ℝ) (hab : a ≠ b) : interpolPoly x [a, b] [c, d] 2 = .ok (c + (d - c) / (b - a) * (x - a)) := by
  have hb : b - a ≠ 0 := sub_ne_zero.2 hab.symm
  have h := C04_interpolPoly_unique x [a, b] [c, d] rfl (by simp) (by norm_num) (by simpa using hab) (C ((d - c) / (b - a)) * X + C (c - (d - c) / (b - a) * a))
    (lt_of_le_of_lt degree_linear_le (by norm_num)) (fun i hi => by
      change i < 2 at hi
      interval_cases i
      · simp
      · simp
        field_simp
        ring)
  refine h.trans (congrArg Res.ok ?_)
  simp
  ring

/-- C81 fails: `interpol_poly(2, x[::2], y[::2])` for the table with points (1,0) and (3,1) gives 7, the ordinate of the entry left out,
instead of one half. -/
theorem C81_interpol_poly_violation : ∃ tx ty : View ℝ, (View.fresh [1, 2, 3, 4]).slice none none 2 = some tx ∧
    (View.fresh [0, 7, 1, 9]).slice none none 2 = some ty ∧ tx.vals = [1, 3] ∧ ty.vals = [0, 1] ∧
    interpolPolyView 2 tx ty = .done 7 ∧ interpolPoly 2 tx.vals ty.vals 2 = .ok (1 / 2) := by
  refine ⟨_, _, rfl, rfl, rfl, rfl, ?_, (interpolPoly_two 2 1 3 0 1 (by norm_num)).trans (by norm_num)⟩
  have h : interpolPoly (2 : ℝ) [1, 2] [0, 7] 2 = .ok 7 := (interpolPoly_two 2 1 2 0 7 (by norm_num)).trans (by norm_num)
  change interpolPolyView 2 (⟨[1, 2, 3, 4], 0, 2, 2, true⟩ : View ℝ) ⟨[0, 7, 1, 9], 0, 2, 2, true⟩ = .done 7
  unfold interpolPolyView
  rw [if_pos rfl]
  refine (if_pos rfl).trans ?_
  have e : (do
      let a ← View.cseen (⟨[1, 2, 3, 4], 0, 2, 2, true⟩ : View ℝ) 2
      let b ← View.cseen (⟨[0, 7, 1, 9], 0, 2, 2, true⟩ : View ℝ) 2
      interpolPoly (2 : ℝ) a b 2) = .ok 7 := h
  dsimp only
  rw [e]

example : interpolPolyView 5 (.fresh [1, 2]) (.fresh [0, 7]) = .done (28 : ℝ) := by
  refine (C81_interpol_poly_partial 5 (tx := .fresh [1, 2]) (ty := .fresh [0, 7]) (View.fresh_wf _) (View.fresh_wf _) rfl rfl rfl (.inl rfl) (.inl rfl) (by decide) (by decide)
    (by rw [View.fresh_vals]; norm_num) (C 7 * X + C (-7)) (lt_of_le_of_lt degree_linear_le (by decide)) fun i h _ => ?_).trans (by norm_num)
  simp only [View.fresh_vals]
  change i < 2 at h
  interval_cases i <;> norm_num

/-- C81: `interpol_lin` passes the two end points by value, so any layout is read correctly: the line through the end points. -/
theorem C81_interpol_lin (x : ℝ) {tx ty : View ℝ} {x0 x1 y0 y1 : ℝ} {lx ly : List ℝ} (hx : tx.vals = x0 :: (lx ++ [x1]))
    (hy : ty.vals = y0 :: (ly ++ [y1])) (h : x0 ≠ x1) : ∃ y, interpolLinView x tx ty = .done y ∧ (y - y0) * (x1 - x0) = (x - x0) * (y1 - y0) := by
  refine ⟨interpolLin x x0 x1 y0 y1, ?_, ?_⟩
  · unfold interpolLinView View.ends
    rw [hx, hy]
    simp
  · have : x1 - x0 ≠ 0 := sub_ne_zero.2 h.symm
    unfold interpolLin
    field_simp
    ring

/-- A table of three points in a column of an array: the chord of the end points. -/
example : ∃ y, interpolLinView 2 (⟨[1, 10, 2, 70, 3, 30], 0, 2, 3, true⟩ : View ℝ) ⟨[1, 10, 2, 70, 3, 30], 1, 2, 3, true⟩ = .done y ∧ y = 20 := by
  obtain ⟨y, h1, h2⟩ := C81_interpol_lin 2 (tx := ⟨[1, 10, 2, 70, 3, 30], 0, 2, 3, true⟩) (ty := ⟨[1, 10, 2, 70, 3, 30], 1, 2, 3, true⟩) (lx := [2])
    (ly := [70]) rfl rfl (by norm_num)
  exact ⟨y, h1, by linarith⟩

end Verif
