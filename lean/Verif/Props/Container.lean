import Verif.Model.Container

/-!
# Container operations (C82, C83, C84)
-/

namespace Verif

variable {α : Type}

/-! ## What the operations should do -/

/-- Row `i` of a column: one number, or the numbers of one mode. -/
def NArr.row : NArr α → ℕ → Option (List α)
  | .num _, _ => none
  | .vec l, i => l[i]?.map fun a => [a]
  | .mat _ rows, i => rows[i]?

/-- The length of the second axis, if there is one. -/
def NArr.width : NArr α → Option ℕ
  | .mat w _ => some w
  | _ => none

/-- The column has `n` rows, which are full when it has two axes. -/
def NArr.Rows (n : ℕ) : NArr α → Prop
  | .num _ => False
  | .vec l => l.length = n
  | .mat w rows => rows.length = n ∧ ∀ r ∈ rows, r.length = w

/-- Where a slice begins on `n` modes: at the start given, counted from the end if negative. -/
def sliceLo (n : ℕ) : Option ℤ → ℤ
  | none => 0
  | some i => if i < 0 then max (i + n) 0 else i

/-- Where a slice ends on `n` modes. -/
def sliceHi (n : ℕ) : Option ℤ → ℤ
  | none => n
  | some i => if i < 0 then i + n else i

/-- The meaning of an index on `n` modes. -/
def Selects (n : ℕ) (ix : Index) (ps : List ℕ) : Prop :=
  match ix with
  | .int i => ∃ p : ℕ, ps = [p] ∧ p < n ∧ ((p : ℤ) = i ∨ (p : ℤ) = i + n)
  | .slice start stop step => ps.Pairwise (· < ·) ∧ ∀ p : ℕ, p ∈ ps ↔
      p < n ∧ sliceLo n start ≤ p ∧ (p : ℤ) < sliceHi n stop ∧ (step : ℤ) ∣ p - sliceLo n start
  | .mask m => ps.Pairwise (· < ·) ∧ ∀ p : ℕ, p ∈ ps ↔ m[p]? = some true
  | .list is => List.Forall₂ (fun i p => p < n ∧ ((p : ℤ) = i ∨ (p : ℤ) = i + n)) is ps

/-- The indices that make sense on `n` modes. -/
def ValidIndex (n : ℕ) : Index → Prop
  | .int i => -(n : ℤ) ≤ i ∧ i < n
  | .slice _ _ step => step ≠ 0
  | .mask m => m.length = n
  | .list is => ∀ i ∈ is, -(n : ℤ) ≤ i ∧ i < n

/-! ## Positions -/

theorem wrap_ok {n : ℕ} {i : ℤ} {p : ℕ} (h : Index.wrap n i = .ok p) : p < n ∧ ((p : ℤ) = i ∨ (p : ℤ) = i + n) := by
  unfold Index.wrap at h
  dsimp only at h
  split_ifs at h with h1 h2 h2
  all_goals cases h
  · omega
  · omega

theorem wrap_valid {n : ℕ} {i : ℤ} (h : -(n : ℤ) ≤ i ∧ i < n) : ∃ p, Index.wrap n i = .ok p := by
  unfold Index.wrap
  dsimp only
  split_ifs with h1 h2 h2
  all_goals first
    | exact ⟨_, rfl⟩
    | (exfalso; omega)

theorem wrap_invalid {n : ℕ} {i : ℤ} (h : ¬(-(n : ℤ) ≤ i ∧ i < n)) : Index.wrap n i = .error "IndexError" := by
  unfold Index.wrap
  dsimp only
  split_ifs with h1 h2 h2
  all_goals first
    | rfl
    | (exfalso; omega)

theorem trues_spec (m : List Bool) : ∀ i : ℕ, (Index.trues i m).Pairwise (· < ·) ∧
    ∀ p, p ∈ Index.trues i m ↔ i ≤ p ∧ m[p - i]? = some true := by
  induction m with
  | nil => intro i; simp [Index.trues]
  | cons b m ih =>
    intro i
    obtain ⟨h1, h2⟩ := ih (i + 1)
    have key : ∀ p, (p = i ∧ b = true) ∨ (i + 1 ≤ p ∧ m[p - (i + 1)]? = some true) ↔ i ≤ p ∧ (b :: m)[p - i]? = some true := by
      intro p
      rcases Nat.lt_trichotomy p i with h | h | h
      · constructor
        · rintro (h' | h') <;> omega
        · rintro ⟨h', -⟩; omega
      · subst h; simp
      · obtain ⟨d, rfl⟩ : ∃ d, p = i + 1 + d := ⟨p - (i + 1), by omega⟩
        have e1 : i + 1 + d - i = d + 1 := by omega
        have e2 : i + 1 + d - (i + 1) = d := by omega
        rw [e1, e2, List.getElem?_cons_succ]
        constructor
        · rintro (h' | h')
          · omega
          · exact ⟨by omega, h'.2⟩
        · rintro ⟨-, h'⟩
          exact .inr ⟨by omega, h'⟩
    unfold Index.trues
    split_ifs with hb
    · refine ⟨List.pairwise_cons.2 ⟨fun p hp => ?_, h1⟩, fun p => ?_⟩
      · have := (h2 p).1 hp; omega
      · rw [List.mem_cons, h2, ← key]
        simp [hb]
    · refine ⟨h1, fun p => ?_⟩
      rw [h2, ← key]
      simp [hb]

theorem mapM_except {β γ : Type} {f : β → Except String γ} : ∀ {l : List β} {r : List γ}, l.mapM f = .ok r →
    List.Forall₂ (fun b c => f b = .ok c) l r := by
  intro l
  induction l with
  | nil => intro r h; cases h; exact .nil
  | cons b l ih =>
    intro r h
    rw [List.mapM_cons] at h
    cases hb : f b with
    | error w => rw [hb] at h; cases h
    | ok c =>
      cases hl : l.mapM f with
      | error w => rw [hb, hl] at h; cases h
      | ok cs => rw [hb, hl] at h; cases h; exact .cons hb (ih hl)

theorem mapM_except_ok {β γ : Type} {f : β → Except String γ} : ∀ {l : List β}, (∀ b ∈ l, ∃ c, f b = .ok c) →
    ∃ r, l.mapM f = .ok r := by
  intro l
  induction l with
  | nil => intro _; exact ⟨[], rfl⟩
  | cons b l ih =>
    intro h
    obtain ⟨c, hc⟩ := h b (.head _)
    obtain ⟨r, hr⟩ := ih fun b hb => h b (.tail _ hb)
    exact ⟨c :: r, by rw [List.mapM_cons, hc, hr]; rfl⟩

theorem ceil_count {L d j : ℕ} (hd : 0 < d) : j < (L + d - 1) / d ↔ j * d < L := by
  rw [Nat.lt_iff_add_one_le, Nat.le_div_iff_mul_le hd, Nat.add_mul, one_mul]
  omega

theorem positions_selects {n : ℕ} {ix : Index} {ps : List ℕ} (h : ix.positions n = .ok ps) : Selects n ix ps := by
  cases ix with
  | int i =>
    simp only [Index.positions] at h
    cases hw : Index.wrap n i with
    | error w => rw [hw] at h; cases h
    | ok p => rw [hw] at h; cases h; exact ⟨p, rfl, wrap_ok hw⟩
  | slice start stop step =>
    unfold Index.positions at h
    dsimp only at h
    split_ifs at h with h0
    cases h
    refine ⟨?_, fun p => ?_⟩
    · rw [List.pairwise_map]
      refine List.pairwise_lt_range.imp fun {a b} hab => ?_
      have := Nat.mul_lt_mul_of_pos_right hab (Nat.pos_of_ne_zero h0)
      omega
    · generalize ha : (start.map (Index.clip n)).getD 0 = a
      generalize hb : (stop.map (Index.clip n)).getD n = b
      simp only [List.mem_map, List.mem_range]
      have hA : (∃ j, j < (b - a + step - 1) / step ∧ a + j * step = p) ↔ a ≤ p ∧ p < b ∧ step ∣ p - a := by
        constructor
        · rintro ⟨j, hj, rfl⟩
          rw [ceil_count (Nat.pos_of_ne_zero h0)] at hj
          refine ⟨by omega, by omega, ⟨j, ?_⟩⟩
          rw [Nat.add_sub_cancel_left, mul_comm]
        · rintro ⟨h1, h2, j, hj⟩
          refine ⟨j, ?_, ?_⟩
          · rw [ceil_count (Nat.pos_of_ne_zero h0), mul_comm, ← hj]; omega
          · rw [mul_comm, ← hj]; omega
      rw [hA]
      have hbn : b ≤ n := by
        rw [← hb]
        cases stop with
        | none => exact le_rfl
        | some i =>
          simp only [Option.map_some, Option.getD_some, Index.clip]
          split_ifs <;> omega
      have hlo : sliceLo n start = a ∨ ((n : ℤ) ≤ sliceLo n start ∧ a = n) := by
        rw [← ha]
        cases start with
        | none => exact .inl rfl
        | some i =>
          simp only [Option.map_some, Option.getD_some, Index.clip, sliceLo]
          split_ifs <;> omega
      have hh : p < b ↔ p < n ∧ (p : ℤ) < sliceHi n stop := by
        rw [← hb]
        cases stop with
        | none => simp [sliceHi]
        | some i =>
          simp only [Option.map_some, Option.getD_some, Index.clip, sliceHi]
          split_ifs <;> omega
      rcases hlo with h0 | ⟨h1, h2⟩
      · rw [hh, h0]
        constructor
        · rintro ⟨h1, ⟨h2, h3⟩, h4⟩
          refine ⟨h2, by omega, h3, ?_⟩
          rw [← Nat.cast_sub h1]
          exact Int.natCast_dvd_natCast.2 h4
        · rintro ⟨h1, h2, h3, h4⟩
          have h2' : a ≤ p := by omega
          rw [← Nat.cast_sub h2'] at h4
          exact ⟨h2', ⟨h1, h3⟩, Int.natCast_dvd_natCast.1 h4⟩
      · constructor
        · rintro ⟨h3, h4, -⟩; omega
        · rintro ⟨h3, h4, -⟩; omega
  | mask m =>
    simp only [Index.positions] at h
    split_ifs at h with h0
    cases h
    obtain ⟨h1, h2⟩ := trues_spec m 0
    exact ⟨h1, fun p => by rw [h2]; simp⟩
  | list is =>
    unfold Index.positions at h
    exact (mapM_except h).imp fun _ _ h => wrap_ok h

theorem selects_lt {n : ℕ} {ix : Index} {ps : List ℕ} (h : Selects n ix ps) (hv : ValidIndex n ix) : ∀ p ∈ ps, p < n := by
  intro p hp
  cases ix with
  | int i => obtain ⟨q, rfl, hq, -⟩ := h; simp at hp; omega
  | slice start stop step => exact ((h.2 p).1 hp).1
  | mask m =>
    have h1 := (h.2 p).1 hp
    have h2 : m.length = n := hv
    have := (List.getElem?_eq_some_iff.1 h1).1
    omega
  | list is =>
    have hF : List.Forall₂ _ is ps := h
    clear hv h
    induction hF with
    | nil => cases hp
    | cons h1 _ ih =>
      rcases List.mem_cons.1 hp with rfl | hp
      · exact h1.1
      · exact ih hp

theorem positions_valid {n : ℕ} {ix : Index} (h : ValidIndex n ix) : ∃ ps, ix.positions n = .ok ps := by
  cases ix with
  | int i => obtain ⟨p, hp⟩ := wrap_valid h; exact ⟨[p], by simp only [Index.positions]; rw [hp]; rfl⟩
  | slice start stop step => exact ⟨_, if_neg h⟩
  | mask m => exact ⟨_, if_pos h⟩
  | list is => exact mapM_except_ok fun i hi => wrap_valid (h i hi)

theorem positions_ok_valid {n : ℕ} {ix : Index} {ps : List ℕ} (h : ix.positions n = .ok ps) : ValidIndex n ix := by
  cases ix with
  | int i =>
    by_contra hv
    simp only [Index.positions] at h
    rw [wrap_invalid hv] at h
    cases h
  | slice start stop step =>
    intro h0
    unfold Index.positions at h
    dsimp only at h
    rw [if_pos h0] at h
    cases h
  | mask m =>
    by_contra hv
    simp only [Index.positions] at h
    rw [if_neg (show ¬m.length = n from hv)] at h
    cases h
  | list is =>
    intro i hi
    by_contra hv
    have hF := mapM_except h
    clear h
    induction hF with
    | nil => cases hi
    | cons h1 _ ih =>
      rcases List.mem_cons.1 hi with rfl | hi
      · rw [wrap_invalid hv] at h1; cases h1
      · exact ih hi

/-! ## Selection of modes -/

theorem sel_rows [Inhabited α] {n : ℕ} {ix : Index} {ps : List ℕ} (hix : ix.scalar = false) (hp : ix.positions n = .ok ps)
    {a : NArr α} (ha : a.Rows n) : ∃ a', a.sel ix = .ok a' ∧ a'.Rows ps.length ∧ a'.width = a.width ∧
      ∀ j p, ps[j]? = some p → a'.row j = a.row p := by
  have hlt := selects_lt (positions_selects hp) (positions_ok_valid hp)
  cases a with
  | num a => cases ha
  | vec l =>
    have ha : l.length = n := ha
    refine ⟨.vec (ps.map fun p => l[p]!), ?_, by simp [NArr.Rows], rfl, fun j p hj => ?_⟩
    · simp only [NArr.sel]
      rw [ha, hp, hix]
      rfl
    · have hpn : p < l.length := ha ▸ hlt p (List.mem_of_getElem? hj)
      simp [NArr.row, hj, hpn]
  | mat w rows =>
    have ha : rows.length = n ∧ ∀ r ∈ rows, r.length = w := ha
    refine ⟨.mat w (ps.map fun p => rows[p]!), ?_, ⟨by simp, fun r hr => ?_⟩, rfl, fun j p hj => ?_⟩
    · simp only [NArr.sel]
      rw [ha.1, hp, hix]
      rfl
    · obtain ⟨p, hpm, rfl⟩ := List.mem_map.1 hr
      have hpn : p < rows.length := ha.1 ▸ hlt p hpm
      rw [getElem!_pos rows p hpn]
      exact ha.2 _ (List.getElem_mem hpn)
    · have hpn : p < rows.length := ha.1 ▸ hlt p (List.mem_of_getElem? hj)
      simp [NArr.row, hj, hpn]

theorem lookup_forall₂ {R : NArr α → NArr α → Prop} {l l' : List (String × NArr α)}
    (h : List.Forall₂ (fun x y => y.1 = x.1 ∧ R x.2 y.2) l l') {key : String} {a : NArr α} (ha : l.lookup key = some a) :
    ∃ a', l'.lookup key = some a' ∧ R a a' := by
  induction h with
  | nil => cases ha
  | @cons x y l l' h1 _ ih =>
    obtain ⟨kx, ax⟩ := x
    obtain ⟨ky, ay⟩ := y
    obtain ⟨h1, h2⟩ := h1
    dsimp only at h1 h2
    subst h1
    rw [List.lookup_cons] at ha ⊢
    split at ha
    · cases ha; exact ⟨ay, rfl, h2⟩
    · exact ih ha

theorem keys_forall₂ {R : NArr α → NArr α → Prop} {l l' : List (String × NArr α)}
    (h : List.Forall₂ (fun x y => y.1 = x.1 ∧ R x.2 y.2) l l') : l'.map Prod.fst = l.map Prod.fst := by
  induction h with
  | nil => rfl
  | cons h1 _ ih => rw [List.map_cons, List.map_cons, h1.1, ih]

/-- C82: for an object all of whose columns have one row per mode, an index that selects a range, a mask or a list of modes is
accepted exactly if it makes sense for that number of modes, and gives an object of the same class with the same columns in which
every column consists of its rows at the positions that the index means, the same positions for all columns. -/
theorem C82_select_partial [Inhabited α] {n : ℕ} {t : Box α} (h0 : t.cols ≠ []) (ht : ∀ kv ∈ t.cols, kv.2.Rows n) {ix : Index}
    (hix : ix.scalar = false) :
    ((∃ t', t.sel ix = .ok t') ↔ ValidIndex n ix) ∧
    ∀ t', t.sel ix = .ok t' → t'.cls = t.cls ∧ t'.keys = t.keys ∧ ∃ ps, Selects n ix ps ∧
      ∀ key a, t.cols.lookup key = some a → ∃ a', t'.cols.lookup key = some a' ∧ a'.Rows ps.length ∧ a'.width = a.width ∧
        ∀ j p, ps[j]? = some p → a'.row j = a.row p := by
  have main : ∀ t', t.sel ix = .ok t' → ValidIndex n ix ∧ t'.cls = t.cls ∧ t'.keys = t.keys ∧ ∃ ps, Selects n ix ps ∧
      ∀ key a, t.cols.lookup key = some a → ∃ a', t'.cols.lookup key = some a' ∧ a'.Rows ps.length ∧ a'.width = a.width ∧
        ∀ j p, ps[j]? = some p → a'.row j = a.row p := by
    intro t' h
    unfold Box.sel at h
    cases hm : t.cols.mapM (fun kv => (kv.2.sel ix).map fun a => (kv.1, a)) with
    | error w => rw [hm] at h; cases h
    | ok cols =>
      rw [hm] at h
      cases h
      have hF := mapM_except hm
      have hv : ∃ ps, ix.positions n = .ok ps := by
        cases hp : ix.positions n with
        | ok ps => exact ⟨ps, rfl⟩
        | error w =>
          exfalso
          obtain ⟨kv, l, hl⟩ := List.exists_cons_of_ne_nil h0
          rw [hl] at hF
          have hr := ht kv (by rw [hl]; exact .head _)
          obtain ⟨key, a⟩ := kv
          cases hF with
          | cons h1 _ =>
            cases a with
            | num a => cases hr
            | vec l =>
              have hr : l.length = n := hr
              simp only [NArr.sel] at h1
              rw [hr, hp] at h1
              cases h1
            | mat w rows =>
              have hr : rows.length = n := hr.1
              simp only [NArr.sel] at h1
              rw [hr, hp] at h1
              cases h1
      obtain ⟨ps, hp⟩ := hv
      have hF' : List.Forall₂ (fun x y : String × NArr α => y.1 = x.1 ∧ (y.2.Rows ps.length ∧ y.2.width = x.2.width ∧
          ∀ j p, ps[j]? = some p → y.2.row j = x.2.row p)) t.cols cols := by
        clear hm h0
        revert ht
        generalize t.cols = tc at hF ⊢
        induction hF with
        | nil => intro _; exact .nil
        | @cons x y l l' h1 _ ih =>
          intro ht
          obtain ⟨a', h2, h3⟩ := sel_rows hix hp (ht x (.head _))
          rw [h2] at h1
          cases h1
          exact .cons ⟨rfl, h3⟩ (ih fun kv hkv => ht kv (.tail _ hkv))
      exact ⟨positions_ok_valid hp, rfl,
        keys_forall₂ (R := fun a a' => a'.Rows ps.length ∧ a'.width = a.width ∧ ∀ j p, ps[j]? = some p → a'.row j = a.row p) hF', ps, positions_selects hp, fun key a ha =>
        lookup_forall₂ (R := fun a a' => a'.Rows ps.length ∧ a'.width = a.width ∧ ∀ j p, ps[j]? = some p → a'.row j = a.row p) hF' ha⟩
  refine ⟨⟨fun ⟨t', h⟩ => (main t' h).1, fun hv => ?_⟩, fun t' h => (main t' h).2⟩
  obtain ⟨ps, hp⟩ := positions_valid hv
  have hm : ∃ r, t.cols.mapM (fun kv => (kv.2.sel ix).map fun a => (kv.1, a)) = .ok r := by
    refine mapM_except_ok fun kv hkv => ?_
    obtain ⟨a', h2, -⟩ := sel_rows hix hp (ht kv hkv)
    exact ⟨_, by rw [h2]; rfl⟩
  obtain ⟨r, hr⟩ := hm
  exact ⟨⟨t.cls, r⟩, by unfold Box.sel; rw [hr]; rfl⟩

/-- Two modes of an object of class `A1Loop` after `run_terms`. -/
def ctA : Box ℤ := ⟨clsA, [("k", .vec [1, 2]), ("pk_lin", .vec [3, 4]), ("sigmad2", .vec [5, 6]),
  ("pk", .mat 5 [[10, 11, 12, 13, 14], [20, 21, 22, 23, 24]])]⟩

theorem ctA_rows : ∀ kv ∈ ctA.cols, kv.2.Rows 2 := by
  intro kv hkv
  simp only [ctA, List.mem_cons, List.not_mem_nil, or_false] at hkv
  rcases hkv with rfl | rfl | rfl | rfl
  · rfl
  · rfl
  · rfl
  · exact ⟨rfl, fun r hr => by simp only [List.mem_cons, List.not_mem_nil, or_false] at hr; rcases hr with rfl | rfl <;> rfl⟩

example : ∃ t', ctA.sel (.mask [false, true]) = .ok t' ∧ t'.cols.lookup "pk" = some (.mat 5 [[20, 21, 22, 23, 24]]) ∧
    t'.cols.lookup "k" = some (.vec [2]) := ⟨_, rfl, rfl, rfl⟩

example : (∃ t', ctA.sel (.slice (some (-1)) none 1) = .ok t') ↔ ValidIndex 2 (.slice (some (-1)) none 1) :=
  (C82_select_partial (by simp [ctA]) ctA_rows rfl).1

/-- C82: selecting one mode gives for every column its row at that mode: a number for a column with one axis, the numbers of
that mode for a column with two axes. -/
theorem C82_select_one_partial [Inhabited α] {n : ℕ} {t : Box α} (h0 : t.cols ≠ []) (ht : ∀ kv ∈ t.cols, kv.2.Rows n) (i : ℤ) :
    ((∃ t', t.sel (.int i) = .ok t') ↔ -(n : ℤ) ≤ i ∧ i < n) ∧
    ∀ t', t.sel (.int i) = .ok t' → t'.cls = t.cls ∧ t'.keys = t.keys ∧ ∃ p : ℕ, p < n ∧ ((p : ℤ) = i ∨ (p : ℤ) = i + n) ∧
      ∀ key a, t.cols.lookup key = some a → ∃ a', t'.cols.lookup key = some a' ∧
        a' = (match a with
          | .num x => .num x
          | .vec l => .num l[p]!
          | .mat _ rows => .vec rows[p]!) ∧ a.row p = some a'.flat := by
  have one : ∀ p, Index.wrap n i = .ok p → ∀ a : NArr α, a.Rows n → ∃ a', a.sel (.int i) = .ok a' ∧ (a' = (match a with
          | .num x => .num x
          | .vec l => .num l[p]!
          | .mat _ rows => .vec rows[p]!) ∧ a.row p = some a'.flat) := by
    intro p hp a ha
    have hlt := (wrap_ok hp).1
    cases a with
    | num a => cases ha
    | vec l =>
      have ha : l.length = n := ha
      refine ⟨_, ?_, rfl, ?_⟩
      · simp only [NArr.sel, Index.positions]
        rw [ha, hp]
        rfl
      · have h : p < l.length := ha ▸ hlt
        simp [NArr.row, NArr.flat, h]
    | mat w rows =>
      have ha : rows.length = n := ha.1
      refine ⟨_, ?_, rfl, ?_⟩
      · simp only [NArr.sel, Index.positions]
        rw [ha, hp]
        rfl
      · have h : p < rows.length := ha ▸ hlt
        simp [NArr.row, NArr.flat, h]
  have bad : ¬(-(n : ℤ) ≤ i ∧ i < n) → ∀ a : NArr α, a.Rows n → a.sel (.int i) = .error "IndexError" := by
    intro hv a ha
    have hw := wrap_invalid hv
    cases a with
    | num a => cases ha
    | vec l =>
      have ha : l.length = n := ha
      simp only [NArr.sel, Index.positions]
      rw [ha, hw]
      rfl
    | mat w rows =>
      have ha : rows.length = n := ha.1
      simp only [NArr.sel, Index.positions]
      rw [ha, hw]
      rfl
  have hval : (∃ t', t.sel (.int i) = .ok t') → -(n : ℤ) ≤ i ∧ i < n := by
    rintro ⟨t', h⟩
    by_contra hv
    obtain ⟨kv, l, hl⟩ := List.exists_cons_of_ne_nil h0
    unfold Box.sel at h
    rw [hl, List.mapM_cons, bad hv kv.2 (ht kv (by rw [hl]; exact .head _))] at h
    cases h
  refine ⟨⟨hval, fun hv => ?_⟩, fun t' h => ?_⟩
  · obtain ⟨p, hp⟩ := wrap_valid hv
    have hm : ∃ r, t.cols.mapM (fun kv => (kv.2.sel (.int i)).map fun a => (kv.1, a)) = .ok r := by
      refine mapM_except_ok fun kv hkv => ?_
      obtain ⟨a', h2, -⟩ := one p hp _ (ht kv hkv)
      exact ⟨_, by rw [h2]; rfl⟩
    obtain ⟨r, hr⟩ := hm
    exact ⟨⟨t.cls, r⟩, by unfold Box.sel; rw [hr]; rfl⟩
  · obtain ⟨p, hp⟩ := wrap_valid (hval ⟨t', h⟩)
    unfold Box.sel at h
    cases hm : t.cols.mapM (fun kv => (kv.2.sel (.int i)).map fun a => (kv.1, a)) with
    | error w => rw [hm] at h; cases h
    | ok cols =>
      rw [hm] at h
      cases h
      have hF := mapM_except hm
      have hF' : List.Forall₂ (fun x y : String × NArr α => y.1 = x.1 ∧ (y.2 = (match x.2 with
          | .num x => .num x
          | .vec l => .num l[p]!
          | .mat _ rows => .vec rows[p]!) ∧ x.2.row p = some y.2.flat)) t.cols cols := by
        clear hm h0 hval
        revert ht
        generalize t.cols = tc at hF ⊢
        induction hF with
        | nil => intro _; exact .nil
        | @cons x y l l' h1 _ ih =>
          intro ht
          obtain ⟨a', h2, h3⟩ := one p hp x.2 (ht x (.head _))
          rw [h2] at h1
          cases h1
          exact .cons ⟨rfl, h3⟩ (ih fun kv hkv => ht kv (.tail _ hkv))
      exact ⟨rfl, keys_forall₂ (R := fun a a' => a' = (match a with
          | .num x => .num x
          | .vec l => .num l[p]!
          | .mat _ rows => .vec rows[p]!) ∧ a.row p = some a'.flat) hF', p, (wrap_ok hp).1, (wrap_ok hp).2, fun key a ha =>
        lookup_forall₂ (R := fun a a' => a' = (match a with
          | .num x => .num x
          | .vec l => .num l[p]!
          | .mat _ rows => .vec rows[p]!) ∧ a.row p = some a'.flat) hF' ha⟩

example : ∃ t', ctA.sel (.int (-1)) = .ok t' ∧ t'.cols.lookup "pk" = some (.vec [20, 21, 22, 23, 24]) ∧
    t'.cols.lookup "k" = some (.num 2) := ⟨_, rfl, rfl, rfl⟩

example : ¬∃ t', ctA.sel (.int 2) = .ok t' := fun h =>
  absurd ((C82_select_one_partial (by simp [ctA]) ctA_rows 2).1.1 h).2 (by norm_num)

/-! ## Assembled spectra of a selection -/

noncomputable section

/-- The object as the assembly formulas of `Model/Python.lean` see it. -/
def Box.terms (t : Box ℝ) : Terms := ⟨t.cols.map fun kv => (kv.1, kv.2.flat)⟩

theorem terms_get (t : Box ℝ) (key : String) : t.terms.get key = ((t.cols.lookup key).map NArr.flat).getD [] := by
  unfold Terms.get Box.terms
  congr 1
  dsimp only
  induction t.cols with
  | nil => rfl
  | cons kv l ih =>
    obtain ⟨k, a⟩ := kv
    rw [List.map_cons, List.lookup_cons, List.lookup_cons]
    dsimp only
    cases key == k
    · exact ih
    · rfl

theorem flatten_getD {w : ℕ} : ∀ {rows : List (List ℝ)}, (∀ r ∈ rows, r.length = w) → ∀ {j c : ℕ}, c < w →
    rows.flatten.getD (j * w + c) 0 = (rows[j]?.getD []).getD c 0 := by
  intro rows
  induction rows with
  | nil => intro _ j c _; simp
  | cons r rows ih =>
    intro h j c hc
    have hr := h r (.head _)
    cases j with
    | zero => simp [List.getElem?_append_left (show c < r.length by omega)]
    | succ j =>
      have e : (j + 1) * w + c = r.length + (j * w + c) := by rw [hr]; ring
      have := ih (fun r hr => h r (.tail _ hr)) (j := j) hc
      simp only [List.getD_eq_getElem?_getD] at this ⊢
      rw [List.flatten_cons, e, List.getElem?_append_right (by omega), Nat.add_sub_cancel_left, this, List.getElem?_cons_succ]

theorem lookup_none_keys {l l' : List (String × NArr α)} (h : l'.map Prod.fst = l.map Prod.fst) {key : String}
    (hn : l.lookup key = none) : l'.lookup key = none := by
  rw [List.lookup_eq_none_iff] at hn ⊢
  intro p hp
  have : p.1 ∈ l.map Prod.fst := h ▸ List.mem_map_of_mem hp
  obtain ⟨q, hq, e⟩ := List.mem_map.1 this
  rw [← e]
  exact hn q hq

/-- The value at mode `j` and component `c` of a selection. -/
theorem sel_val {n : ℕ} {t t' : Box ℝ} (ht : ∀ kv ∈ t.cols, kv.2.Rows n) {ps : List ℕ} (hk : t'.keys = t.keys)
    (h : ∀ key a, t.cols.lookup key = some a → ∃ a', t'.cols.lookup key = some a' ∧ a'.Rows ps.length ∧ a'.width = a.width ∧
        ∀ j p, ps[j]? = some p → a'.row j = a.row p) {j p : ℕ} (hj : ps[j]? = some p) {key : String} {w c : ℕ}
    (hw : ∀ a, t.cols.lookup key = some a → a.width.getD 1 = w) (hc : c < w) :
    t'.terms.val key (j * w + c) = t.terms.val key (p * w + c) := by
  unfold Terms.val
  rw [terms_get, terms_get]
  cases hl : t.cols.lookup key with
  | none => rw [lookup_none_keys hk hl]; simp
  | some a =>
    obtain ⟨a', h1, h2, h3, h4⟩ := h key a hl
    have h4 := h4 j p hj
    have hwa := hw a hl
    obtain ⟨l1, l2, hm, -⟩ := List.lookup_eq_some_iff.1 hl
    have ha := ht (key, a) (by rw [hm]; simp)
    rw [h1]
    dsimp only at ha
    simp only [Option.map_some, Option.getD_some]
    cases a with
    | num x => cases ha
    | vec l =>
      cases a' with
      | num x => cases h2
      | mat w' rows => cases h3
      | vec l' =>
        have hw1 : w = 1 := hwa.symm
        subst hw1
        have hc0 : c = 0 := by omega
        subst hc0
        simp only [NArr.row] at h4
        simp only [NArr.flat, mul_one, add_zero, List.getD_eq_getElem?_getD]
        cases e1 : l'[j]? with
        | none => cases e2 : l[p]? with
          | none => rfl
          | some y => rw [e1, e2] at h4; cases h4
        | some x => cases e2 : l[p]? with
          | none => rw [e1, e2] at h4; cases h4
          | some y => rw [e1, e2] at h4; cases h4; rfl
    | mat w' rows =>
      cases a' with
      | num x => cases h2
      | vec l => cases h3
      | mat w'' rows' =>
        have hw1 : w' = w := hwa
        have hw2 : w'' = w' := by simpa [NArr.width] using h3
        subst hw1
        subst hw2
        simp only [NArr.row] at h4
        simp only [NArr.flat]
        rw [flatten_getD h2.2 hc, flatten_getD ha.2 hc, h4]

/-- C82: the spectra that an object with selected modes assembles are those of the whole object at these modes: the one- and
two-loop spectra, the bias terms with and without damping, and the components of the A and B terms. -/
theorem C82_spectra_partial {n : ℕ} {t : Box ℝ} (h0 : t.cols ≠ []) (ht : ∀ kv ∈ t.cols, kv.2.Rows n) {ix : Index}
    (hix : ix.scalar = false) {t' : Box ℝ} (hs : t.sel ix = .ok t') :
    ∃ ps, Selects n ix ps ∧ ∀ j p, ps[j]? = some p → ∀ D : ℝ,
      ((∀ key a, t.cols.lookup key = some a → a.width = none) →
        t'.terms.pk1 D none j = t.terms.pk1 D none p ∧ t'.terms.pk2 D none j = t.terms.pk2 D none p ∧
        t'.terms.pkLin D j = t.terms.pkLin D p ∧ t'.terms.pkSigma3sq D j = t.terms.pkSigma3sq D p ∧
        ∀ key, t'.terms.pkBias key D j = t.terms.pkBias key D p ∧
          t'.terms.pkBiasDamp key D none j = t.terms.pkBiasDamp key D none p) ∧
      ∀ w, (∀ a, t.cols.lookup "pk" = some a → a.width = some w) → ∀ c < w,
        t'.terms.pkAB D (j * w + c) = t.terms.pkAB D (p * w + c) := by
  obtain ⟨-, hk, ps, hps, h⟩ := (C82_select_partial h0 ht hix).2 t' hs
  refine ⟨ps, hps, fun j p hj D => ⟨fun hw => ?_, fun w hw c hc => ?_⟩⟩
  · have hv : ∀ key, t'.terms.val key j = t.terms.val key p := by
      intro key
      have := sel_val ht hk h hj (key := key) (w := 1) (c := 0) (fun a ha => by rw [hw key a ha]; rfl) one_pos
      simpa using this
    refine ⟨?_, ?_, ?_, ?_, fun key => ⟨?_, ?_⟩⟩
    · simp only [Terms.pk1, hv]
    · simp only [Terms.pk2, hv]
    · simp only [Terms.pkLin, Terms.scaleFactor, hv]
    · simp only [Terms.pkSigma3sq, Terms.scaleFactor, hv]
    · simp only [Terms.pkBias, Terms.scaleFactor, hv]
    · simp only [Terms.pkBiasDamp, Terms.dampingFactor, hv]
  · have := sel_val ht hk h hj (key := "pk") (w := w) (c := c) (fun a ha => by rw [hw a ha]; rfl) hc
    simp only [Terms.pkAB, Terms.scaleFactor, this]

example : ∃ t', (⟨clsLin, [("k", .vec [1, 2]), ("pk", .vec [3, 4])]⟩ : Box ℝ).sel (.slice (some 1) none 1) = .ok t' ∧
    t'.cols.lookup "pk" = some (.vec [4]) := ⟨_, rfl, rfl⟩

end

/-! ## Loops over columns -/

theorem lookup_dictSet (name : String) (item : NArr α) (l : List (String × NArr α)) (key : String) :
    (Box.dictSet name item l).lookup key = if key = name then some item else l.lookup key := by
  induction l with
  | nil =>
    simp only [Box.dictSet, List.lookup_cons, List.lookup_nil]
    by_cases h : key = name
    · simp [h]
    · simp [h, beq_false_of_ne h]
  | cons kv l ih =>
    obtain ⟨k, a⟩ := kv
    unfold Box.dictSet
    split_ifs with h1 h2 h2
    · simp [h1, h2]
    · subst h1
      simp [List.lookup_cons, beq_false_of_ne h2]
    · subst h2
      rw [List.lookup_cons, beq_false_of_ne (Ne.symm h1), ih, if_pos rfl]
    · rw [List.lookup_cons, List.lookup_cons, ih, if_neg h2]

theorem keys_dictSet (name : String) (item : NArr α) {l : List (String × NArr α)} (h : name ∈ l.map Prod.fst) :
    (Box.dictSet name item l).map Prod.fst = l.map Prod.fst := by
  induction l with
  | nil => cases h
  | cons kv l ih =>
    obtain ⟨k, a⟩ := kv
    unfold Box.dictSet
    split_ifs with h1
    · rfl
    · rw [List.map_cons, List.map_cons, ih]
      exact (List.mem_cons.1 h).resolve_left fun e => h1 e.symm

theorem lookup_mem_keys {l : List (String × NArr α)} {key : String} : (∃ a, l.lookup key = some a) ↔ key ∈ l.map Prod.fst := by
  constructor
  · rintro ⟨a, h⟩
    obtain ⟨l1, l2, hm, -⟩ := List.lookup_eq_some_iff.1 h
    rw [hm]; simp
  · intro h
    cases hl : l.lookup key with
    | some a => exact ⟨a, rfl⟩
    | none =>
      obtain ⟨q, hq, rfl⟩ := List.mem_map.1 h
      have := List.lookup_eq_none_iff.1 hl q hq
      simp at this

/-- A loop over columns in which no step raises. -/
theorem eachCol_done {f : String → NArr α → Except String (NArr α)} {g : String → NArr α → NArr α} :
    ∀ {ks : List String} {t : Box α}, ks.Nodup → (∀ key ∈ ks, ∃ a, t.cols.lookup key = some a ∧ f key a = .ok (g key a)) →
    ∃ t', t.eachCol f ks = .done t' ∧ t'.cls = t.cls ∧ t'.keys = t.keys ∧
      ∀ key, t'.cols.lookup key = if key ∈ ks then (t.cols.lookup key).map (g key) else t.cols.lookup key := by
  intro ks
  induction ks with
  | nil => intro t _ _; exact ⟨t, rfl, rfl, rfl, fun key => by simp⟩
  | cons k ks ih =>
    intro t hn h
    obtain ⟨hk, hn⟩ := List.nodup_cons.1 hn
    obtain ⟨a, ha, hf⟩ := h k (.head _)
    have hmem : k ∈ t.cols.map Prod.fst := lookup_mem_keys.1 ⟨a, ha⟩
    obtain ⟨t', h1, h2, h3, h4⟩ := ih (t := t.set k (g k a)) hn (fun key hkey => by
      obtain ⟨b, hb, hfb⟩ := h key (.tail _ hkey)
      refine ⟨b, ?_, hfb⟩
      have hne : key ≠ k := fun e => hk (e ▸ hkey)
      rw [Box.set, lookup_dictSet, if_neg hne, hb])
    refine ⟨t', ?_, h2, ?_, fun key => ?_⟩
    · unfold Box.eachCol Box.get
      rw [ha]
      dsimp only
      rw [hf]
      exact h1
    · rw [h3]; exact keys_dictSet _ _ hmem
    · rw [h4, Box.set, lookup_dictSet]
      by_cases e : key = k
      · subst e
        simp [hk, ha]
      · simp [e]

theorem put_rows {n : ℕ} {ix : Index} {ps : List ℕ} (hp : ix.positions n = .ok ps) (item : α) {a : NArr α} (ha : a.Rows n) :
    ∃ a', a.put ix item = .ok a' ∧ a'.Rows n ∧ a'.width = a.width ∧ ∀ i, (i ∈ ps → a'.row i = (a.row i).map fun r =>
      List.replicate r.length item) ∧ (i ∉ ps → a'.row i = a.row i) := by
  cases a with
  | num a => cases ha
  | vec l =>
    have ha : l.length = n := ha
    refine ⟨.vec (l.mapIdx fun i a => if i ∈ ps then item else a), ?_, by simp [NArr.Rows, ha], rfl, fun i => ⟨fun hi => ?_, fun hi => ?_⟩⟩
    · simp only [NArr.put]; rw [ha, hp]; rfl
    · simp [NArr.row, hi, Function.comp_def]
    · simp [NArr.row, hi]
  | mat w rows =>
    have ha : rows.length = n ∧ ∀ r ∈ rows, r.length = w := ha
    refine ⟨.mat w (rows.mapIdx fun i r => if i ∈ ps then List.replicate w item else r), ?_, ⟨by simp [ha.1], fun r hr => ?_⟩, rfl,
      fun i => ⟨fun hi => ?_, fun hi => ?_⟩⟩
    · simp only [NArr.put]; rw [ha.1, hp]; rfl
    · obtain ⟨i, hi, rfl⟩ := List.mem_mapIdx.1 hr
      split_ifs
      · simp
      · exact ha.2 _ (List.getElem_mem hi)
    · simp only [NArr.row, List.getElem?_mapIdx, hi, if_true]
      cases e : rows[i]? with
      | none => rfl
      | some r => rw [Option.map_some, Option.map_some, ha.2 r (List.mem_of_getElem? e)]
    · simp [NArr.row, hi]

/-- C82: assigning a number to selected modes of an object whose columns have one row per mode changes in every column all entries
of the selected rows and nothing else. -/
theorem C82_assign_partial {n : ℕ} {t : Box α} (hn : t.keys.Nodup) (ht : ∀ kv ∈ t.cols, kv.2.Rows n) {ix : Index}
    (hix : ValidIndex n ix) (item : α) :
    ∃ t' ps, t.put ix item = .done t' ∧ t'.cls = t.cls ∧ t'.keys = t.keys ∧ Selects n ix ps ∧
      ∀ key a, t.cols.lookup key = some a → ∃ a', t'.cols.lookup key = some a' ∧ a'.Rows n ∧ a'.width = a.width ∧
        ∀ i, (i ∈ ps → a'.row i = (a.row i).map fun r => List.replicate r.length item) ∧ (i ∉ ps → a'.row i = a.row i) := by
  obtain ⟨ps, hp⟩ := positions_valid hix
  have rows_of : ∀ key a, t.cols.lookup key = some a → a.Rows n := by
    intro key a ha
    obtain ⟨l1, l2, hm, -⟩ := List.lookup_eq_some_iff.1 ha
    exact ht (key, a) (by rw [hm]; simp)
  obtain ⟨t', h1, h2, h3, h4⟩ := eachCol_done (t := t) (f := fun _ a => a.put ix item)
    (g := fun _ a => (a.put ix item).toOption.getD a) hn (fun key hkey => by
      obtain ⟨a, ha⟩ := lookup_mem_keys.2 hkey
      obtain ⟨a', h, -⟩ := put_rows hp item (rows_of key a ha)
      exact ⟨a, ha, by rw [h]; rfl⟩)
  refine ⟨t', ps, h1, h2, h3, positions_selects hp, fun key a ha => ?_⟩
  obtain ⟨a', h, h5⟩ := put_rows hp item (rows_of key a ha)
  refine ⟨a', ?_, h5⟩
  rw [h4, if_pos (show key ∈ t.keys from lookup_mem_keys.1 ⟨a, ha⟩), ha, Option.map_some, h]
  rfl

example : ∃ t', ctA.put (.list [-1]) 7 = .done t' ∧ t'.cols.lookup "pk" = some (.mat 5 [[10, 11, 12, 13, 14], [7, 7, 7, 7, 7]]) ∧
    t'.cols.lookup "k" = some (.vec [1, 7]) := ⟨_, rfl, rfl, rfl⟩

example : ∃ t' ps, ctA.put (.list [-1]) 7 = .done t' ∧ Selects 2 (.list [-1]) ps := by
  obtain ⟨t', ps, h1, -, -, h2, -⟩ := C82_assign_partial (t := ctA) (by decide) ctA_rows (ix := .list [-1])
    (by simp [ValidIndex]) 7
  exact ⟨t', ps, h1, h2⟩

/-- C82: an index means one list of positions. -/
theorem C82_positions {n : ℕ} {ix : Index} {ps qs : List ℕ} (h1 : Selects n ix ps) (h2 : Selects n ix qs) : ps = qs := by
  cases ix with
  | int i =>
    obtain ⟨p, rfl, hp⟩ := h1
    obtain ⟨q, rfl, hq⟩ := h2
    rw [show p = q by omega]
  | slice start stop step => exact h1.1.eq_of_mem_iff h2.1 fun p => by rw [h1.2, h2.2]
  | mask m => exact h1.1.eq_of_mem_iff h2.1 fun p => by rw [h1.2, h2.2]
  | list is =>
    have h1 : List.Forall₂ _ is ps := h1
    have h2 : List.Forall₂ _ is qs := h2
    clear * - h1 h2
    induction h1 generalizing qs with
    | nil => cases h2; rfl
    | cons hp _ ih =>
      cases h2 with
      | cons hq h2 =>
        rw [ih h2]
        congr 1
        omega

example : Selects 5 (.slice (some 1) (some (-1)) 2) [1, 3] := positions_selects (n := 5) rfl

/-! ## Preparing the columns -/

theorem zeros_lookup [Zero α] (n : ℕ) (key : String) : ∀ (ks : List String) (t : Box α),
    (ks.foldl (fun t key => if key = "k" then t else t.set key (Box.zeroCol t.cls n key)) t).cls = t.cls ∧
    (ks.foldl (fun t key => if key = "k" then t else t.set key (Box.zeroCol t.cls n key)) t).cols.lookup key =
      if key ∈ ks ∧ key ≠ "k" then some (Box.zeroCol t.cls n key) else t.cols.lookup key := by
  intro ks
  induction ks with
  | nil => intro t; simp
  | cons k ks ih =>
    intro t
    rw [List.foldl_cons]
    by_cases hk : k = "k"
    · rw [if_pos hk]
      obtain ⟨h1, h2⟩ := ih t
      refine ⟨h1, h2.trans ?_⟩
      subst hk
      by_cases e : key = "k"
      · simp [e]
      · simp [e]
    · rw [if_neg hk]
      obtain ⟨h1, h2⟩ := ih (t.set k (Box.zeroCol t.cls n k))
      refine ⟨h1, h2.trans ?_⟩
      rw [Box.set, lookup_dictSet]
      dsimp only
      by_cases e : key = k
      · subst e; simp [hk]
      · by_cases e' : key ∈ ks <;> simp [e, e']

/-- C83: whatever columns an object had before, in whatever order, after `zeros` the list that is handed to the library has one
array per field, in the order of the fields: the modes, and zeros in the number of modes times the number of components. -/
theorem C83_arguments [Zero α] (t : Box α) (k : NArr α) :
    (t.zeros k).iter = t.cls.fields.filter (fun key => (t.zeros k).contains key) ∧
    ("k" ∈ t.cls.fields → (t.zeros k).iter = t.cls.fields ∧
      (t.zeros k).tolist = .ok (t.cls.fields.map fun key => if key = "k" then .vec k.flat
        else .vec (List.replicate (k.flat.length * (t.cls.shape.lookup key).getD 1) 0))) ∧
    (t.zeros k).size = .ok k.flat.length := by
  have hz := fun key => zeros_lookup (α := α) k.flat.length key t.cls.fields (t.set "k" (.vec k.flat))
  have hcls : (t.zeros k).cls = t.cls := (hz "k").1
  have hlook : ∀ key, (t.zeros k).cols.lookup key = if key = "k" then some (.vec k.flat)
      else if key ∈ t.cls.fields then some (.vec (List.replicate (k.flat.length * (t.cls.shape.lookup key).getD 1) 0))
      else t.cols.lookup key := by
    intro key
    refine (hz key).2.trans ?_
    rw [Box.set, lookup_dictSet]
    dsimp only
    by_cases e : key = "k"
    · simp [e]
    · by_cases e' : key ∈ t.cls.fields
      · simp only [e, e', and_self, ne_eq, not_false_eq_true, if_true, if_false, Box.zeroCol]
        cases t.cls.shape.lookup key <;> simp
      · simp [e, e']
  have hiter : (t.zeros k).iter = t.cls.fields.filter (fun key => (t.zeros k).contains key) := by
    unfold Box.iter
    rw [hcls]
    refine List.filter_congr fun key _ => ?_
    rw [Bool.eq_iff_iff, Box.contains, Option.isSome_iff_exists, lookup_mem_keys, List.contains_iff_mem]
    rfl
  refine ⟨hiter, fun hk => ?_, ?_⟩
  · have hall : (t.zeros k).iter = t.cls.fields := by
      rw [hiter, List.filter_eq_self]
      intro key hkey
      rw [Box.contains, hlook]
      split_ifs <;> rfl
    refine ⟨hall, ?_⟩
    unfold Box.tolist
    rw [hall]
    have : ∀ l : List String, (∀ key ∈ l, key ∈ t.cls.fields) → l.mapM (t.zeros k).get =
        .ok (l.map fun key => if key = "k" then .vec k.flat
          else .vec (List.replicate (k.flat.length * (t.cls.shape.lookup key).getD 1) 0)) := by
      intro l
      induction l with
      | nil => intro _; rfl
      | cons key l ih =>
        intro h
        rw [List.mapM_cons, ih fun key hkey => h key (.tail _ hkey), Box.get, hlook, List.map_cons]
        have := h key (.head _)
        by_cases e : key = "k"
        · simp only [e, if_true]; rfl
        · simp only [e, this, if_true, if_false]; rfl
    exact this _ fun _ h => h
  · unfold Box.size Box.get
    rw [hlook, if_pos rfl]
    rfl

example : ((⟨clsA, [("pk", .vec [9]), ("other", .vec [8])]⟩ : Box ℤ).zeros (.vec [1, 2])).tolist =
    .ok [.vec [1, 2], .vec [0, 0], .vec [0, 0], .vec [0, 0, 0, 0, 0, 0, 0, 0, 0, 0]] := rfl

example : ∀ c ∈ [clsLin, cls1, cls2, clsBias, clsA, clsB], "k" ∈ c.fields := by
  intro c hc
  simp only [List.mem_cons, List.not_mem_nil, or_false] at hc
  rcases hc with rfl | rfl | rfl | rfl | rfl | rfl <;> exact .head _

theorem chunks_flatten {w : ℕ} : ∀ {n : ℕ} {l : List α}, l.length = n * w →
    ((List.range n).map fun i => (l.drop (i * w)).take w).flatten = l := by
  intro n
  induction n with
  | zero => intro l h; simp at h; simp [h]
  | succ n ih =>
    intro l h
    have h' : (l.drop w).length = n * w := by rw [List.length_drop, h, Nat.add_mul]; omega
    have := ih h'
    rw [List.range_succ_eq_map, List.map_cons, List.flatten_cons, List.map_map]
    have e : ((fun i => (l.drop (i * w)).take w) ∘ Nat.succ) = fun i => ((l.drop w).drop (i * w)).take w := by
      funext i
      simp only [Function.comp, List.drop_drop, Nat.succ_eq_add_one, Nat.add_mul, one_mul]
      rw [Nat.add_comm]
    rw [e, this]
    simp

/-- C83: `reshape` gives the columns with components one row per mode, whose entries are the successive numbers that the library
wrote (component `c` of mode `i` at `i w + c`), and leaves all other columns and the order of the numbers as they were. -/
theorem C83_reshape {n : ℕ} {t : Box α} (hf : t.cls.fields.Nodup) (hsz : t.size = .ok n)
    (h : ∀ key ∈ t.cls.fields, ∀ w, t.cls.shape.lookup key = some w → ∃ a, t.cols.lookup key = some a ∧ a.flat.length = n * w) :
    ∃ t', t.reshape = .done t' ∧ t'.cls = t.cls ∧ t'.keys = t.keys ∧
      (∀ key ∈ t.cls.fields, ∀ w, t.cls.shape.lookup key = some w → ∀ a, t.cols.lookup key = some a →
        ∃ a', t'.cols.lookup key = some a' ∧ a'.Rows n ∧ a'.width = some w ∧ a'.flat = a.flat ∧
          ∀ i c r, c < w → a'.row i = some r → r[c]? = a.flat[i * w + c]?) ∧
      ∀ key, t.cls.shape.lookup key = none ∨ key ∉ t.cls.fields → t'.cols.lookup key = t.cols.lookup key := by
  obtain ⟨t', h1, h2, h3, h4⟩ := eachCol_done (t := t)
    (ks := t.cls.fields.filter fun key => (t.cls.shape.lookup key).isSome)
    (f := fun key a => do
      let n ← t.size
      a.setShape n ((t.cls.shape.lookup key).getD 0))
    (g := fun key a => .mat ((t.cls.shape.lookup key).getD 0)
      ((List.range n).map fun i => (a.flat.drop (i * (t.cls.shape.lookup key).getD 0)).take ((t.cls.shape.lookup key).getD 0)))
    (hf.filter _) (fun key hkey => by
      obtain ⟨hk1, hk2⟩ := List.mem_filter.1 hkey
      obtain ⟨w, hw⟩ := Option.isSome_iff_exists.1 hk2
      obtain ⟨a, ha, hl⟩ := h key hk1 w hw
      refine ⟨a, ha, ?_⟩
      rw [hsz, hw]
      exact if_pos hl)
  refine ⟨t', h1, h2, h3, fun key hk w hw a ha => ?_, fun key hk => ?_⟩
  · obtain ⟨a0, ha0, hl⟩ := h key hk w hw
    rw [ha] at ha0
    cases ha0
    have hlen : ∀ i < n, ((a.flat.drop (i * w)).take w).length = w := by
      intro i hi
      rw [List.length_take, List.length_drop, hl]
      have : (i + 1) * w ≤ n * w := Nat.mul_le_mul_right _ hi
      rw [Nat.add_mul] at this
      omega
    refine ⟨.mat w ((List.range n).map fun i => (a.flat.drop (i * w)).take w), ?_, ⟨by simp, fun r hr => ?_⟩, rfl,
      chunks_flatten hl, fun i c r hc hr => ?_⟩
    · rw [h4, if_pos (List.mem_filter.2 ⟨hk, by rw [hw]; rfl⟩), ha, hw]
      rfl
    · obtain ⟨i, hi, rfl⟩ := List.mem_map.1 hr
      exact hlen i (List.mem_range.1 hi)
    · simp only [NArr.row, List.getElem?_map] at hr
      by_cases hi : i < n
      · rw [List.getElem?_range hi, Option.map_some] at hr
        cases hr
        rw [List.getElem?_take_of_lt hc, List.getElem?_drop]
      · rw [List.getElem?_eq_none (by simpa using hi)] at hr
        cases hr
  · rw [h4, if_neg]
    intro hm
    obtain ⟨hk1, hk2⟩ := List.mem_filter.1 hm
    rcases hk with hk | hk
    · rw [hk] at hk2; cases hk2
    · exact hk hk1

/-- Two modes of `A1Loop` with the components as the library wrote them. -/
def ctFlat : Box ℤ := ⟨clsA, [("k", .vec [1, 2]), ("pk_lin", .vec [3, 4]), ("sigmad2", .vec [5, 6]),
  ("pk", .vec [10, 11, 12, 13, 14, 20, 21, 22, 23, 24])]⟩

example : ctFlat.reshape = .done ctA := rfl

example : ctA.reshape = .done ctA := rfl

example : ∃ t', ctFlat.reshape = .done t' ∧ t'.keys = ctFlat.keys := by
  obtain ⟨t', h1, -, h2, -⟩ := C83_reshape (n := 2) (t := ctFlat) (by decide) rfl (by
    intro key hk w hw
    simp only [ctFlat, clsA, List.mem_cons, List.not_mem_nil, or_false] at hk
    rcases hk with rfl | rfl | rfl | rfl
    · cases hw
    · cases hw
    · cases hw
    · cases hw; exact ⟨_, rfl, rfl⟩)
  exact ⟨t', h1, h2⟩

/-- C83: the laws of a dictionary: a column assigned is the column read, and the others are as before; an object contains exactly the
names that can be read; `pop` returns the column and leaves the others; `as_dict` gives the columns asked for. -/
theorem C83_dictionary (t : Box α) (name : String) (item : NArr α) :
    (t.set name item).get name = .ok item ∧ (∀ key, key ≠ name → (t.set name item).get key = t.get key) ∧
    (∀ key, t.contains key = true ↔ ∃ a, t.get key = .ok a) ∧
    (∀ a t', t.pop name = .ok (a, t') → t.get name = .ok a ∧ t'.contains name = false ∧
      ∀ key, key ≠ name → t'.get key = t.get key) ∧ (t.contains name = true → ∃ r, t.pop name = .ok r) ∧
    (∀ fields d, t.asDict (some fields) = .ok d → List.Forall₂ (fun f e => e.1 = f ∧ t.get f = .ok e.2) fields d) ∧
    (t.keys.Nodup → t.asDict none = .ok t.cols) := by
  refine ⟨?_, fun key hk => ?_, fun key => ?_, fun a t' h => ?_, fun h => ?_, fun fields d h => ?_, fun hn => ?_⟩
  · simp [Box.get, Box.set, lookup_dictSet]
  · simp [Box.get, Box.set, lookup_dictSet, hk]
  · rw [Box.contains, Box.get]
    cases t.cols.lookup key <;> simp
  · unfold Box.pop at h
    cases hl : t.cols.lookup name with
    | none => rw [hl] at h; cases h
    | some b =>
      rw [hl] at h
      cases h
      have hfil : ∀ key, (t.cols.filter fun kv => kv.1 ≠ name).lookup key = if key = name then none else t.cols.lookup key := by
        intro key
        generalize t.cols = l
        induction l with
        | nil => simp
        | cons kv l ih =>
          obtain ⟨k, c⟩ := kv
          rw [List.filter_cons]
          by_cases hk : k = name
          · subst hk
            simp only [ne_eq, not_true, decide_false, Bool.false_eq_true, if_false]
            simp only [ne_eq] at ih
            rw [ih]
            split_ifs with e
            · rfl
            · rw [List.lookup_cons, beq_false_of_ne e]
          · simp only [ne_eq, hk, not_false_eq_true, decide_true, if_true]
            simp only [ne_eq] at ih
            rw [List.lookup_cons, ih, List.lookup_cons]
            by_cases e : key = k
            · subst e; simp [hk]
            · simp [beq_false_of_ne e]
      refine ⟨by rw [Box.get, hl], by rw [Box.contains, hfil, if_pos rfl]; rfl, fun key hk => ?_⟩
      rw [Box.get, Box.get, hfil, if_neg hk]
  · unfold Box.contains at h
    unfold Box.pop
    cases hl : t.cols.lookup name with
    | none => rw [hl] at h; cases h
    | some b => exact ⟨_, rfl⟩
  · refine (mapM_except h).imp fun f e hfe => ?_
    cases hg : t.get f with
    | error w => rw [hg] at hfe; cases hfe
    | ok a => rw [hg] at hfe; cases hfe; exact ⟨rfl, rfl⟩
  · unfold Box.asDict
    simp only [Option.getD_none, Box.keys]
    have key : ∀ l : List (String × NArr α), (∀ kv ∈ l, t.cols.lookup kv.1 = some kv.2) →
        (l.map Prod.fst).mapM (fun field => (t.get field).map fun a => (field, a)) = .ok l := by
      intro l
      induction l with
      | nil => intro _; rfl
      | cons kv l ih =>
        intro h
        rw [List.map_cons, List.mapM_cons, ih fun kv hkv => h kv (.tail _ hkv), Box.get, h kv (.head _)]
        rfl
    refine key _ fun kv hkv => ?_
    have hn : (t.cols.map Prod.fst).Nodup := hn
    clear key
    revert hkv hn
    generalize t.cols = l
    induction l with
    | nil => intro h; cases h
    | cons x l ih =>
      intro hkv hn
      rw [List.map_cons, List.nodup_cons] at hn
      obtain ⟨k, a⟩ := x
      rw [List.lookup_cons]
      rcases List.mem_cons.1 hkv with rfl | hm
      · simp
      · have hne : kv.1 ≠ k := fun e => hn.1 (by have := List.mem_map_of_mem (f := Prod.fst) hm; rwa [e] at this)
        rw [beq_false_of_ne hne]
        exact ih hm hn.2

example : ∃ r, ctA.pop "sigmad2" = .ok r ∧ r.2.keys = ["k", "pk_lin", "pk"] := ⟨_, rfl, rfl⟩

/-! ## Selection right after `set_terms` -/

/-- C82 fails for `A1Loop` between `set_terms` and `run_terms`: its column `pk` is then flat, so that selecting modes keeps as many
single numbers as modes, all of the first modes. -/
theorem C82_flat_violation :
    ¬∀ (c : PyClass) (reshaped : Bool) (k : List ℤ) (ix : Index) (t : Box ℤ),
      (c, reshaped) ∈ [(clsA, false), (clsA, true), (clsB, true)] → Box.setTerms reshaped ⟨c, []⟩ (.vec k) = .done t →
      ix.scalar = false → ValidIndex k.length ix →
      ∃ t' ps, t.sel ix = .ok t' ∧ Selects k.length ix ps ∧ ∀ a', t'.cols.lookup "pk" = some a' →
        a'.flat.length = ps.length * (c.shape.lookup "pk").getD 1 := by
  intro h
  obtain ⟨t', ps, h1, -, h2⟩ := h clsA false [1, 2] (.slice none (some 1) 1) _ (.head _) rfl rfl one_ne_zero
  cases h1
  have := h2 _ rfl
  have e : (clsA.shape.lookup "pk").getD 1 = 5 := rfl
  rw [e] at this
  have this : 1 = ps.length * 5 := this
  omega

/-- A mask with one entry per mode is refused by that object, although all its other columns accept it. -/
theorem C82_mask_violation : ∃ t : Box ℤ, Box.setTerms false ⟨clsA, []⟩ (.vec [1, 2]) = .done t ∧
    t.sel (.mask [true, false]) = .error "IndexError" ∧ ∀ key ∈ ["k", "pk_lin", "sigmad2"], ∃ a b, t.cols.lookup key = some a ∧
      a.sel (.mask [true, false]) = .ok b := by
  refine ⟨_, rfl, rfl, fun key hk => ?_⟩
  simp only [List.mem_cons, List.not_mem_nil, or_false] at hk
  rcases hk with rfl | rfl | rfl <;> exact ⟨_, _, rfl, rfl⟩

/-- C82: for the classes without components, and for those that reshape in `set_terms`, every column of a new object has one row per
mode right after `set_terms`, so that modes can be selected from then on. -/
theorem C82_set_terms_partial [Zero α] {c : PyClass} (hk : "k" ∈ c.fields) (hn : c.fields.Nodup) (hs : c.shape.lookup "k" = none)
    {reshaped : Bool} (hr : reshaped = true ∨ c.shape = []) (k : List α) :
    ∃ t : Box α, Box.setTerms reshaped ⟨c, []⟩ (.vec k) = .done t ∧ t.cls = c ∧
      ∀ key, (key ∈ c.fields → ∃ a, t.cols.lookup key = some a ∧ a.Rows k.length ∧ a.width = c.shape.lookup key) ∧
        (key ∉ c.fields → t.cols.lookup key = none) := by
  have hz := fun key => zeros_lookup (α := α) k.length key c.fields ((⟨c, []⟩ : Box α).set "k" (.vec k))
  set t0 : Box α := (⟨c, []⟩ : Box α).zeros (.vec k) with ht0
  have hcls : t0.cls = c := (hz "k").1
  have hlook : ∀ key, t0.cols.lookup key = if key = "k" then some (.vec k)
      else if key ∈ c.fields then some (.vec (List.replicate (k.length * (c.shape.lookup key).getD 1) 0)) else none := by
    intro key
    refine (hz key).2.trans ?_
    rw [Box.set, lookup_dictSet]
    dsimp only
    by_cases e : key = "k"
    · simp [e]
    · by_cases e' : key ∈ c.fields
      · simp only [e, e', and_self, ne_eq, not_false_eq_true, if_true, if_false, Box.zeroCol]
        cases c.shape.lookup key <;> simp
      · simp [e, e']
  have hsz : t0.size = .ok k.length := by
    unfold Box.size Box.get
    rw [hlook, if_pos rfl]
    rfl
  have hmiss : ∀ key, key ∉ c.fields → t0.cols.lookup key = none := by
    intro key hkey
    have hne : key ≠ "k" := fun e => hkey (e ▸ hk)
    rw [hlook, if_neg hne, if_neg hkey]
  have hflat : ∀ key ∈ c.fields, c.shape.lookup key = none → ∃ a, t0.cols.lookup key = some a ∧ a.Rows k.length ∧
      a.width = c.shape.lookup key := by
    intro key hkey hw
    rw [hlook, hw]
    by_cases e : key = "k"
    · exact ⟨.vec k, by rw [if_pos e], rfl, rfl⟩
    · exact ⟨.vec (List.replicate (k.length * 1) 0), by rw [if_neg e, if_pos hkey]; rfl, by simp [NArr.Rows], rfl⟩
  cases reshaped with
  | false =>
    have hr : c.shape = [] := hr.resolve_left (by simp)
    refine ⟨t0, rfl, hcls, fun key => ⟨fun hkey => hflat key hkey (by rw [hr]; rfl), hmiss key⟩⟩
  | true =>
    obtain ⟨t', h1, h2, -, h3, h4⟩ := C83_reshape (t := t0) (n := k.length) (by rw [hcls]; exact hn) hsz (by
      rw [hcls]
      intro key hkey w hw
      have hne : key ≠ "k" := by rintro rfl; rw [hs] at hw; cases hw
      refine ⟨.vec (List.replicate (k.length * w) 0), ?_, by simp [NArr.flat]⟩
      rw [hlook, if_neg hne, if_pos hkey, hw]
      rfl)
    rw [hcls] at h2 h3 h4
    refine ⟨t', h1, h2, fun key => ⟨fun hkey => ?_, fun hkey => by rw [h4 key (.inr hkey), hmiss key hkey]⟩⟩
    cases hw : c.shape.lookup key with
    | none =>
      obtain ⟨a, h5, h6, h7⟩ := hflat key hkey hw
      exact ⟨a, by rw [h4 key (.inl hw), h5], h6, by rw [h7, hw]⟩
    | some w =>
      have hne : key ≠ "k" := by rintro rfl; rw [hs] at hw; cases hw
      obtain ⟨a', h5, h6, h7, -⟩ := h3 key hkey w hw (.vec (List.replicate (k.length * w) 0)) (by
        rw [hlook, if_neg hne, if_pos hkey, hw]; rfl)
      exact ⟨a', h5, h6, h7⟩

example : ∃ t : Box ℤ, Box.setTerms true ⟨clsB, []⟩ (.vec [1, 2]) = .done t ∧
    t.cols.lookup "pk" = some (.mat 9 [[0, 0, 0, 0, 0, 0, 0, 0, 0], [0, 0, 0, 0, 0, 0, 0, 0, 0]]) := ⟨_, rfl, rfl⟩

example : ∃ t : Box ℤ, Box.setTerms true ⟨clsB, []⟩ (.vec [1, 2]) = .done t ∧ t.cls = clsB := by
  obtain ⟨t, h1, h2, -⟩ := C82_set_terms_partial (α := ℤ) (c := clsB) (.head _) (by decide) rfl (.inl rfl) [1, 2]
  exact ⟨t, h1, h2⟩

/-! ## Operations on all columns -/

theorem map_flat (f : α → α) (a : NArr α) : (a.map f).flat = a.flat.map f := by
  cases a with
  | num a => rfl
  | vec l => rfl
  | mat w rows => simp [NArr.map, NArr.flat, List.map_flatten]

/-- C84: when all fields are there as arrays, `nan_to_zero` replaces in these the entries that are not numbers by zero and nothing
else; other columns stay. -/
theorem C84_nan_partial [Zero α] {isnan : α → Bool} (h0 : isnan 0 = false) {t : Box α} (hn : t.cls.fields.Nodup)
    (h : ∀ key ∈ t.cls.fields, ∃ a n, t.cols.lookup key = some a ∧ a.Rows n) :
    ∃ t', t.nanToZero isnan = .done t' ∧ t'.cls = t.cls ∧ t'.keys = t.keys ∧
      (∀ key ∈ t.cls.fields, ∀ a, t.cols.lookup key = some a → ∃ a', t'.cols.lookup key = some a' ∧ a'.len = a.len ∧
        a'.width = a.width ∧ a'.flat.length = a.flat.length ∧ ∀ (i : ℕ) x, a.flat[i]? = some x →
          (isnan x = false → a'.flat[i]? = some x) ∧ (isnan x = true → a'.flat[i]? = some 0)) ∧
      (∀ key ∈ t.cls.fields, ∀ a', t'.cols.lookup key = some a' → ∀ x ∈ a'.flat, isnan x = false) ∧
      ∀ key, key ∉ t.cls.fields → t'.cols.lookup key = t.cols.lookup key := by
  obtain ⟨t', h1, h2, h3, h4⟩ := eachCol_done (t := t) (ks := t.cls.fields) (f := fun _ a => match a with
    | .num _ => .error "TypeError"
    | a => .ok (a.map fun x => if isnan x then 0 else x)) (g := fun _ a => a.map fun x => if isnan x then 0 else x) hn
    (fun key hkey => by
      obtain ⟨a, n, ha, hr⟩ := h key hkey
      refine ⟨a, ha, ?_⟩
      cases a with
      | num a => cases hr
      | vec l => rfl
      | mat w rows => rfl)
  refine ⟨t', h1, h2, h3, fun key hkey a ha => ?_, fun key hkey a' ha' x hx => ?_, fun key hkey => by rw [h4, if_neg hkey]⟩
  · refine ⟨a.map fun x => if isnan x then 0 else x, by rw [h4, if_pos hkey, ha]; rfl, ?_, ?_, by rw [map_flat, List.length_map],
      fun i x hx => ?_⟩
    · cases a <;> simp [NArr.map, NArr.len]
    · cases a <;> rfl
    · rw [map_flat, List.getElem?_map, hx]
      constructor <;> intro hx' <;> simp [hx']
  · obtain ⟨a, n, ha, -⟩ := h key hkey
    rw [h4, if_pos hkey, ha, Option.map_some] at ha'
    cases ha'
    rw [map_flat] at hx
    obtain ⟨y, -, rfl⟩ := List.mem_map.1 hx
    split_ifs with hy
    · exact h0
    · simpa using hy

/-- Two modes of the linear spectrum, with `-1` in the place of values that are not numbers. -/
def ctNan : Box ℤ := ⟨clsLin, [("pk", .vec [-1, 5]), ("k", .vec [1, 2])]⟩

example : ∃ t', ctNan.nanToZero (· == -1) = .done t' ∧ t'.cols.lookup "pk" = some (.vec [0, 5]) ∧
    t'.cols.lookup "k" = some (.vec [1, 2]) := ⟨_, rfl, rfl, rfl⟩

example : ∃ t', ctNan.nanToZero (· == -1) = .done t' ∧ t'.keys = ctNan.keys := by
  obtain ⟨t', h1, -, h2, -⟩ := C84_nan_partial (isnan := (· == (-1 : ℤ))) (by decide) (t := ctNan) (by decide) (by
    intro key hk
    simp only [ctNan, clsLin, List.mem_cons, List.not_mem_nil, or_false] at hk
    rcases hk with rfl | rfl <;> exact ⟨_, 2, rfl, rfl⟩)
  exact ⟨t', h1, h2⟩

theorem assoc_ext {β : Type} {l l' : List (String × β)} (hk : l'.map Prod.fst = l.map Prod.fst) (hn : (l.map Prod.fst).Nodup)
    (h : ∀ key, l'.lookup key = l.lookup key) : l' = l := by
  induction l generalizing l' with
  | nil => simpa using hk
  | cons x l ih =>
    cases l' with
    | nil => simp at hk
    | cons y l' =>
      obtain ⟨kx, a⟩ := x
      obtain ⟨ky, b⟩ := y
      simp only [List.map_cons, List.cons.injEq] at hk
      obtain ⟨rfl, hk⟩ := hk
      rw [List.map_cons, List.nodup_cons] at hn
      have e := h ky
      simp only [List.lookup_cons, beq_self_eq_true] at e
      have e : b = a := by simpa using e
      subst e
      congr 1
      refine ih hk hn.2 fun key => ?_
      by_cases e : key = ky
      · subst e
        have n1 : l.lookup key = none := by
          rw [List.lookup_eq_none_iff]
          intro p hp
          have : key ≠ p.1 := fun e => hn.1 (by have := List.mem_map_of_mem (f := Prod.fst) hp; rwa [← e] at this)
          simpa using this
        have n2 : l'.lookup key = none := by
          rw [List.lookup_eq_none_iff]
          intro p hp
          have : key ≠ p.1 := fun e => hn.1 (by have := List.mem_map_of_mem (f := Prod.fst) hp; rwa [← e, hk] at this)
          simpa using this
        rw [n1, n2]
      · have := h key
        rwa [List.lookup_cons, List.lookup_cons, beq_false_of_ne e] at this

noncomputable section

/-- C84: when every column has a scaling power, `rescale` multiplies every entry of every column by the scale to twice that power,
and the outcome is the one that `Terms.rescale` describes. -/
theorem C84_rescale_partial {t : Box ℝ} (hn : t.keys.Nodup) (h : ∀ key ∈ t.keys, ∃ n, t.cls.scale.lookup key = some n) (s : ℝ) :
    ∃ t', t.rescale s = .done t' ∧ t'.cls = t.cls ∧ t'.keys = t.keys ∧
      (∀ key a n, t.cols.lookup key = some a → t.cls.scale.lookup key = some n → ∃ a', t'.cols.lookup key = some a' ∧
        a'.len = a.len ∧ a'.width = a.width ∧ a'.flat = a.flat.map fun x => x * s ^ (2 * n)) ∧
      Terms.rescale t.cls s t.terms = some t'.terms := by
  obtain ⟨t', h1, h2, h3, h4⟩ := eachCol_done (t := t) (ks := t.keys) (f := fun key a => match t.cls.scale.lookup key with
    | some n => .ok (a.map (· * s ^ (2 * n)))
    | none => .error "KeyError") (g := fun key a => a.map (· * s ^ (2 * (t.cls.scale.lookup key).getD 0))) hn
    (fun key hkey => by
      obtain ⟨n, hk⟩ := h key hkey
      obtain ⟨a, ha⟩ := lookup_mem_keys.2 hkey
      exact ⟨a, ha, by rw [hk]; rfl⟩)
  refine ⟨t', h1, h2, h3, fun key a n ha hk => ?_, ?_⟩
  · refine ⟨a.map (· * s ^ (2 * n)), ?_, ?_, ?_, map_flat _ _⟩
    · rw [h4, if_pos (show key ∈ t.keys from lookup_mem_keys.1 ⟨a, ha⟩), ha, hk]; rfl
    · cases a <;> simp [NArr.map, NArr.len]
    · cases a <;> rfl
  · have e : t'.cols = t.cols.map fun kv => (kv.1, kv.2.map (· * s ^ (2 * (t.cls.scale.lookup kv.1).getD 0))) := by
      refine assoc_ext (h3.trans (by simp [Box.keys, Function.comp_def])) (by simpa [Function.comp_def, Box.keys] using hn) fun key => ?_
      have hmap : ∀ l : List (String × NArr ℝ), (l.map fun kv =>
          (kv.1, kv.2.map (· * s ^ (2 * (t.cls.scale.lookup kv.1).getD 0)))).lookup key =
            (l.lookup key).map fun a => a.map (· * s ^ (2 * (t.cls.scale.lookup key).getD 0)) := by
        intro l
        induction l with
        | nil => rfl
        | cons kv l ih =>
          obtain ⟨k, a⟩ := kv
          rw [List.map_cons, List.lookup_cons, List.lookup_cons]
          dsimp only
          by_cases e : key = k
          · subst e; simp
          · simp only [beq_false_of_ne e]; exact ih
      rw [h4, hmap]
      split_ifs with hm
      · rfl
      · cases hl : t.cols.lookup key with
        | none => rfl
        | some a => exact absurd (lookup_mem_keys.1 ⟨a, hl⟩) hm
    unfold Terms.rescale Box.terms
    rw [e]
    dsimp only
    have : ∀ l : List (String × NArr ℝ), (∀ kv ∈ l, kv.1 ∈ t.keys) →
        (l.map fun kv => (kv.1, kv.2.flat)).mapM (Terms.scaleCol t.cls s) = some ((l.map fun kv =>
          (kv.1, kv.2.map (· * s ^ (2 * (t.cls.scale.lookup kv.1).getD 0)))).map fun kv => (kv.1, kv.2.flat)) := by
      intro l
      induction l with
      | nil => intro _; rfl
      | cons kv l ih =>
        intro hl
        obtain ⟨n, hk⟩ := h kv.1 (hl kv (.head _))
        rw [List.map_cons, List.mapM_cons, ih fun kv hkv => hl kv (.tail _ hkv), Terms.scaleCol]
        simp only [hk, List.map_cons, map_flat, Option.getD_some]
        rfl
    rw [this _ fun kv hkv => List.mem_map_of_mem hkv]
    rfl

example : ∃ t', (⟨clsLin, [("k", .vec [1, 2]), ("pk", .vec [3, 4])]⟩ : Box ℝ).rescale 2 = .done t' ∧
    t'.keys = ["k", "pk"] := by
  obtain ⟨t', h1, -, h2, -⟩ := C84_rescale_partial (t := ⟨clsLin, [("k", .vec [1, 2]), ("pk", .vec [3, 4])]⟩) (by simp [Box.keys])
    (by
      intro key hk
      simp only [Box.keys, List.map_cons, List.map_nil, List.mem_cons, List.not_mem_nil, or_false] at hk
      rcases hk with rfl | rfl <;> exact ⟨_, rfl⟩) 2
  exact ⟨t', h1, h2⟩

end

/-- The operation is refused without changing the object, or carried out. -/
def AllOrNothing (t : Box α) (r : PyRes (Box α)) : Prop := (∃ t', r = .done t') ∨ ∃ w, r = .raised w t

/-- C84 fails for `rescale`: with a further column in the object the others are rescaled before the exception. -/
theorem C84_rescale_violation : ¬∀ (t : Box ℤ) (s : ℤ), AllOrNothing t (t.rescale s) := by
  intro h
  rcases h ⟨clsLin, [("k", .vec [1]), ("pk", .vec [3]), ("error", .vec [7])]⟩ 2 with ⟨t', h⟩ | ⟨w, h⟩
  · cases h
  · have := congrArg (fun r : PyRes (Box ℤ) => match r with
      | .raised _ t => t.cols.lookup "pk"
      | _ => none) h
    revert this
    change some (NArr.vec [12]) = some (NArr.vec [3]) → False
    decide

/-- C84 fails for `nan_to_zero`: with a field missing the earlier ones are changed before the exception. -/
theorem C84_nan_violation : ¬∀ (t : Box ℤ), AllOrNothing t (t.nanToZero (· == -1)) := by
  intro h
  rcases h ⟨clsLin, [("k", .vec [-1])]⟩ with ⟨t', h⟩ | ⟨w, h⟩
  · cases h
  · have := congrArg (fun r : PyRes (Box ℤ) => match r with
      | .raised _ t => t.cols.lookup "k"
      | _ => none) h
    revert this
    change some (NArr.vec [0]) = some (NArr.vec [-1]) → False
    decide

/-- C84 fails for the assignment to selected modes of `A1Loop` before `run_terms`: all columns but the flat one are written before the
exception. -/
theorem C84_assign_violation : ¬∀ (t : Box ℤ) (k : List ℤ) (ix : Index) (item : ℤ),
    Box.setTerms false ⟨clsA, []⟩ (.vec k) = .done t → ValidIndex k.length ix → AllOrNothing t (t.put ix item) := by
  intro h
  rcases h _ [1, 2] (.mask [true, false]) 7 rfl rfl with ⟨t', h⟩ | ⟨w, h⟩
  · cases h
  · have := congrArg (fun r : PyRes (Box ℤ) => match r with
      | .raised _ t => t.cols.lookup "k"
      | _ => none) h
    revert this
    change some (NArr.vec [7, 2]) = some (NArr.vec [1, 2]) → False
    decide

end Verif
