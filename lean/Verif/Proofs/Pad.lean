import Verif.Model.Pad

/-!
# Lemmas on padding
-/

namespace Verif

section
variable {α : Type}

theorem lookup_map_put (d : Cols α) (key key' : String) (a : NdArr α) :
    List.lookup key' (d.map (fun kv => if kv.1 == key then (key, a) else kv)) =
      if key' = key then (if d.any (fun kv => kv.1 == key) then some a else none) else List.lookup key' d := by
  induction d with
  | nil => simp
  | cons kv d ih =>
    obtain ⟨u, v⟩ := kv
    by_cases h1 : u = key
    · subst h1
      by_cases h2 : key' = u
      · subst h2; simp
      · have h3 : (key' == u) = false := by simpa using h2
        simp [List.lookup_cons, h2, h3] at ih ⊢
        exact ih
    · have h1' : (u == key) = false := by simpa using h1
      by_cases h2 : key' = u
      · subst h2
        simp [h1]
      · have h3 : (key' == u) = false := by simpa using h2
        rw [List.map_cons, List.any_cons, h1', Bool.false_or, if_neg (by simp), List.lookup_cons, List.lookup_cons, h3]
        exact ih

theorem lookup_isSome_any (d : Cols α) (key : String) (h : d.any (fun kv => kv.1 == key) = false) : List.lookup key d = none := by
  induction d with
  | nil => rfl
  | cons kv d ih =>
    obtain ⟨u, v⟩ := kv
    simp only [List.any_cons, Bool.or_eq_false_iff] at h
    have h3 : (key == u) = false := by
      have := h.1
      simp only [beq_eq_false_iff_ne] at this ⊢
      exact fun e => this e.symm
    rw [List.lookup_cons, h3]
    exact ih h.2

theorem lookup_append' (d : Cols α) (key key' : String) (a : NdArr α) (h : List.lookup key d = none) :
    List.lookup key' (d ++ [(key, a)]) = if key' = key then some a else List.lookup key' d := by
  induction d with
  | nil =>
    by_cases e : key' = key
    · subst e; simp
    · have h3 : (key' == key) = false := by simpa using e
      simp [List.lookup_cons, h3, e]
  | cons kv d ih =>
    obtain ⟨u, v⟩ := kv
    rw [List.lookup_cons] at h
    rw [List.cons_append, List.lookup_cons, List.lookup_cons]
    by_cases e : key = u
    · subst e; simp at h
    · have h3 : (key == u) = false := by simpa using e
      rw [h3] at h
      rw [ih h]
      by_cases e2 : key' = u
      · subst e2
        have : key' ≠ key := fun h => e h.symm
        simp [this]
      · have h4 : (key' == u) = false := by simpa using e2
        rw [h4]

theorem lookup_put (d : Cols α) (key key' : String) (a : NdArr α) :
    List.lookup key' (d.put key a) = if key' = key then some a else List.lookup key' d := by
  unfold Cols.put
  cases h : d.any (fun kv => kv.1 == key) with
  | true =>
    rw [if_pos rfl, lookup_map_put, h]
    simp
  | false =>
    rw [if_neg (by simp), lookup_append' d key key' a (lookup_isSome_any d key h)]

/-- One-dimensional padding of a column. -/
def NdArr.padded (s e : ℕ) (c : α) : NdArr α → NdArr α
  | .vec l => .vec (padList s e c l)
  | .mat r => .mat r

theorem padOne_vec (c : α) (s e : ℕ) {key : String} {d : Cols α} {l : List α} (h : d.lookup key = some (.vec l)) :
    padOne "constant" c s e key d = .done (d.put key (.vec (padList s e c l))) := by
  unfold padOne
  rw [h]
  rfl

theorem padOne_mat (mode : String) (c : α) (s e : ℕ) {key : String} {d : Cols α} {r : List (List α)}
    (h : d.lookup key = some (.mat r)) : padOne mode c s e key d = .raised "ValueError" d := by
  unfold padOne
  rw [h]
  simp [npPad, padWidth, NdArr.ndim, asPairs]

theorem padEach (c : α) (s e : ℕ) (fields : List String) (hnd : fields.Nodup) (d : Cols α)
    (hd : ∀ key ∈ fields, ∃ l, d.lookup key = some (.vec l)) :
    ∃ d' : Cols α, pyEach (padOne "constant" c s e) fields d = .done d' ∧
      ∀ key, d'.lookup key = if key ∈ fields then (d.lookup key).map (NdArr.padded s e c) else d.lookup key := by
  induction fields generalizing d with
  | nil => exact ⟨d, rfl, by simp⟩
  | cons f fields ih =>
    rw [List.nodup_cons] at hnd
    obtain ⟨l, hl⟩ := hd f (by simp)
    obtain ⟨d', e1, e2⟩ := ih hnd.2 (d.put f (.vec (padList s e c l))) (by
      intro key hk
      obtain ⟨m, hm⟩ := hd key (by simp [hk])
      refine ⟨m, ?_⟩
      have hne : key ≠ f := fun h => hnd.1 (h ▸ hk)
      rw [lookup_put, if_neg hne, hm])
    refine ⟨d', ?_, ?_⟩
    · rw [pyEach, padOne_vec c s e hl]
      exact e1
    · intro key
      rw [e2 key, lookup_put]
      by_cases h1 : key = f
      · subst h1
        rw [if_neg hnd.1, if_pos rfl, if_pos (by simp), hl]
        rfl
      · simp [h1]

theorem assign_first (v : List α) (c : α) (s : ℕ) (hs : s ≤ v.length) (m : List α) :
    setFirst (List.replicate s c ++ m) v s = some (v.take s ++ m) := by
  unfold setFirst assignSlice
  have h1 : min s (List.replicate s c ++ m).length = s := by simp
  have h2 : (v.take s).length = s := by simp [hs]
  rw [h1, h2]
  simp

theorem assign_last (v : List α) (c : α) (e : ℕ) (he : 0 < e) (hv : e ≤ v.length) (m : List α) :
    setLast (m ++ List.replicate e c) v e = some (m ++ v.drop (v.length - e)) := by
  have he' : ¬ e = 0 := by omega
  unfold setLast assignSlice lastSlice negStart
  simp only [if_neg he']
  have h1 : (v.drop (v.length - e)).length = (m ++ List.replicate e c).length - ((m ++ List.replicate e c).length - e) := by
    simp; omega
  rw [if_pos h1]
  simp

theorem setEnds_done {key : String} {d : Cols α} {l : List α} {c : α} {s e : ℕ} (h : d.lookup key = some (.vec (padList s e c l)))
    {v : List α} (hs : s ≤ v.length) (he : 0 < e) (hv : e ≤ v.length) :
    setEnds key v s e d = .done (d.put key (.vec (v.take s ++ l ++ v.drop (v.length - e)))) := by
  unfold setEnds
  rw [h]
  simp only [padList, List.append_assoc]
  rw [assign_first v c s hs]
  simp only
  rw [← List.append_assoc, assign_last v c e he hv]
  simp

theorem setKwargs_done (c : α) (s e : ℕ) (he : 0 < e) (kw : List (String × List α)) (hnd : (kw.map Prod.fst).Nodup) (d : Cols α)
    (hl : ∀ kv ∈ kw, s ≤ kv.2.length ∧ e ≤ kv.2.length ∧ ∃ l, d.lookup kv.1 = some (.vec (padList s e c l))) :
    ∃ d' : Cols α, setKwargs s e kw d = .done d' ∧ (∀ key, key ∉ kw.map Prod.fst → d'.lookup key = d.lookup key) ∧
      ∀ kv ∈ kw, ∀ l, d.lookup kv.1 = some (.vec (padList s e c l)) →
        d'.lookup kv.1 = some (.vec (kv.2.take s ++ l ++ kv.2.drop (kv.2.length - e))) := by
  induction kw generalizing d with
  | nil => exact ⟨d, rfl, by simp, by simp⟩
  | cons kv kw ih =>
    obtain ⟨key, v⟩ := kv
    rw [List.map_cons, List.nodup_cons] at hnd
    obtain ⟨h1, h2, l, h3⟩ := hl (key, v) (by simp)
    obtain ⟨d', e1, e2, e3⟩ := ih hnd.2 (d.put key (.vec (v.take s ++ l ++ v.drop (v.length - e)))) (by
      intro kv hkv
      obtain ⟨g1, g2, m, g3⟩ := hl kv (by simp [hkv])
      refine ⟨g1, g2, m, ?_⟩
      rw [lookup_put, if_neg, g3]
      intro h
      exact hnd.1 (List.mem_map.mpr ⟨kv, hkv, h⟩))
    refine ⟨d', ?_, ?_, ?_⟩
    · rw [setKwargs, setEnds_done h3 h1 he h2]
      exact e1
    · intro key' hk
      simp only [List.map_cons, List.mem_cons, not_or] at hk
      rw [e2 key' hk.2, lookup_put, if_neg hk.1]
    · intro kv hkv m hm
      rcases List.mem_cons.mp hkv with rfl | hkv
      · rw [e2 key hnd.1, lookup_put, if_pos rfl]
        rw [h3] at hm
        simp only [Option.some.injEq, NdArr.vec.injEq] at hm
        have : l = m := by
          unfold padList at hm
          simpa using hm
        rw [this]
      · refine e3 kv hkv m ?_
        rw [lookup_put, if_neg, hm]
        intro h
        exact hnd.1 (List.mem_map.mpr ⟨kv, hkv, h⟩)

end

/-! ## Ascending requests over exact reals -/

theorem filter_below (k : List ℝ) (hk : k.Pairwise (· < ·)) (x : ℝ) : k.take (countBelow k x) = k.filter (fun y => decide (y < x)) := by
  unfold countBelow
  induction k with
  | nil => simp
  | cons y k ih =>
    rw [List.pairwise_cons] at hk
    by_cases h : y < x
    · have h' : (Histo.lt y x : Bool) = true := by simpa [Histo.lt] using h
      have h2 : decide (y < x) = true := by simpa using h
      rw [List.countP_cons, h', List.filter_cons, h2, if_pos rfl, if_pos rfl, List.take_succ_cons, ih hk.2]
    · have h' : (Histo.lt y x : Bool) = false := by simpa [Histo.lt] using h
      have e1 : k.filter (fun y => decide (y < x)) = [] := by
        rw [List.filter_eq_nil_iff]
        intro z hz
        have := hk.1 z hz
        simp only [decide_eq_true_eq, not_lt] at h ⊢
        linarith
      have e2 : k.countP (fun y => (Histo.lt y x : Bool)) = 0 := by
        rw [List.countP_eq_zero]
        intro z hz
        have := hk.1 z hz
        simp [Histo.lt] at h ⊢
        linarith
      have h2 : decide (y < x) = false := by simpa using h
      rw [List.countP_cons, h', List.filter_cons, h2, e1, e2]
      simp

theorem filter_above (k : List ℝ) (hk : k.Pairwise (· < ·)) (x : ℝ) :
    k.drop (k.length - countAbove k x) = k.filter (fun y => decide (x < y)) := by
  unfold countAbove
  induction k with
  | nil => simp
  | cons y k ih =>
    rw [List.pairwise_cons] at hk
    have hle : k.countP (fun y => (Histo.lt x y : Bool)) ≤ k.length := List.countP_le_length
    by_cases h : x < y
    · have h' : (Histo.lt x y : Bool) = true := by simpa [Histo.lt] using h
      have e1 : k.filter (fun y => decide (x < y)) = k := by
        rw [List.filter_eq_self]
        intro z hz
        have := hk.1 z hz
        simp only [decide_eq_true_eq]
        linarith
      have e2 : k.countP (fun y => (Histo.lt x y : Bool)) = k.length := by
        rw [List.countP_eq_length]
        intro z hz
        have := hk.1 z hz
        simp [Histo.lt]
        linarith
      have h2 : decide (x < y) = true := by simpa using h
      rw [List.countP_cons, h', List.filter_cons, h2, e1, e2]
      simp
    · have h' : (Histo.lt x y : Bool) = false := by simpa [Histo.lt] using h
      have h2 : decide (x < y) = false := by simpa using h
      rw [List.countP_cons, h', List.filter_cons, h2, if_neg (by simp), if_neg (by simp), ← ih hk.2, List.length_cons, add_zero]
      rw [show k.length + 1 - k.countP (fun y => (Histo.lt x y : Bool)) = (k.length - k.countP (fun y => (Histo.lt x y : Bool))) + 1 by omega,
        List.drop_succ_cons]

end Verif
