import Verif.Proofs.Pad
import Verif.Props.FindPk
import Verif.Props.Sigma

/-!
# C46 – padding
-/

namespace Verif

/-- The modes of `k` below the present range. -/
noncomputable def below (k0 k : List ℝ) : List ℝ := k.filter fun y => decide (y < k0.headD 0)

/-- The modes of `k` above the present range. -/
noncomputable def above (k0 k : List ℝ) : List ℝ := k.filter fun y => decide (k0.getLastD 0 < y)

/-- The wanted array of modes. -/
noncomputable def padGoal (k0 k : List ℝ) : List ℝ := below k0 k ++ k0 ++ above k0 k

/-- The wanted array of modes is ascending. -/
theorem padGoal_ascending {k0 k : List ℝ} (hne : k0 ≠ []) (h0 : k0.Pairwise (· < ·)) (hk : k.Pairwise (· < ·)) :
    (padGoal k0 k).Pairwise (· < ·) := by
  unfold padGoal below above
  cases k0 with
  | nil => exact absurd rfl hne
  | cons x l =>
    have hlast : ∀ y ∈ x :: l, y ≤ (x :: l).getLastD 0 := by
      intro y hy
      have hl : (x :: l).getLastD 0 = (x :: l).getLast (by simp) := by simp [List.getLastD_eq_getLast?, List.getLast?_eq_getLast_of_ne_nil]
      rw [hl]
      have hd : (x :: l).dropLast ++ [(x :: l).getLast (by simp)] = x :: l := List.dropLast_append_getLast _
      rw [← hd] at h0 hy
      rw [List.pairwise_append] at h0
      rcases List.mem_append.mp hy with hy | hy
      · exact (h0.2.2 y hy _ (by simp)).le
      · simp only [List.mem_singleton] at hy; exact hy.le
    have hfirst : ∀ y ∈ x :: l, x ≤ y := by
      intro y hy
      rw [List.pairwise_cons] at h0
      rcases List.mem_cons.mp hy with rfl | hy
      · exact le_rfl
      · exact (h0.1 y hy).le
    simp only [List.headD_cons]
    rw [List.pairwise_append, List.pairwise_append]
    refine ⟨⟨hk.filter _, h0, ?_⟩, hk.filter _, ?_⟩
    · intro a ha b hb
      have h1 : a < x := of_decide_eq_true (List.mem_filter.mp ha).2
      exact lt_of_lt_of_le h1 (hfirst b hb)
    · intro a ha b hb
      have h1 := (List.mem_filter.mp hb).2
      simp only [decide_eq_true_eq] at h1
      rcases List.mem_append.mp ha with ha | ha
      · have h2 : a < x := of_decide_eq_true (List.mem_filter.mp ha).2
        exact lt_trans h2 (lt_of_le_of_lt (hlast x (by simp)) h1)
      · exact lt_of_le_of_lt (hlast a ha) h1

/-- What a column of the padded container has to look like. -/
def Extends (k0 k l l' : List ℝ) : Prop :=
  ∃ a b, a.length = (below k0 k).length ∧ b.length = (above k0 k).length ∧ l' = a ++ l ++ b

theorem padTerms_steps {fields : List String} (hnd : fields.Nodup) (hk : "k" ∈ fields) {d : Cols ℝ}
    (hd : ∀ key ∈ fields, ∃ l, d.lookup key = some (.vec l)) {k0 k : List ℝ} (h0 : d.lookup "k" = some (.vec k0)) (hne : k0 ≠ [])
    (asc : k.Pairwise (· < ·)) (hup : ∃ y ∈ k, k0.getLastD 0 < y) (c : ℝ) (kw : List (String × List ℝ))
    (hkw : (kw.map Prod.fst).Nodup) (hkw' : ∀ kv ∈ kw, kv.1 ∈ fields ∧ kv.1 ≠ "k" ∧ kv.2.length = k.length) :
    ∃ d', padTerms fields k "constant" c kw d = .done d' ∧ d'.lookup "k" = some (.vec (padGoal k0 k)) ∧
      (∀ kv ∈ kw, ∀ l, d.lookup kv.1 = some (.vec l) →
        d'.lookup kv.1 = some (.vec (kv.2.take (below k0 k).length ++ l ++ kv.2.drop (k.length - (above k0 k).length)))) ∧
      (∀ key ∈ fields, key ≠ "k" → key ∉ kw.map Prod.fst → ∀ l, d.lookup key = some (.vec l) →
        d'.lookup key = some (.vec (List.replicate (below k0 k).length c ++ l ++ List.replicate (above k0 k).length c))) ∧
      ∀ key, key ∉ fields → d'.lookup key = d.lookup key := by
  cases k0 with
  | nil => exact absurd rfl hne
  | cons x l0 =>
    have hl : (x :: l0).getLastD 0 = (x :: l0).getLast (by simp) := by simp [List.getLastD_eq_getLast?, List.getLast?_eq_getLast_of_ne_nil]
    have hB : k.take (countBelow k x) = below (x :: l0) k := filter_below k asc x
    have hA : k.drop (k.length - countAbove k ((x :: l0).getLast (by simp))) = above (x :: l0) k := by
      rw [filter_above k asc, above, hl]
    have hs : countBelow k x ≤ k.length := List.countP_le_length
    have he : countAbove k ((x :: l0).getLast (by simp)) ≤ k.length := List.countP_le_length
    have hep : 0 < countAbove k ((x :: l0).getLast (by simp)) := by
      obtain ⟨y, hy, hlt⟩ := hup
      refine List.countP_pos_iff.mpr ⟨y, hy, ?_⟩
      rw [hl] at hlt
      simpa [Histo.lt] using hlt
    have lB : (below (x :: l0) k).length = countBelow k x := by rw [← hB]; simp [hs]
    have lA : (above (x :: l0) k).length = countAbove k ((x :: l0).getLast (by simp)) := by rw [← hA]; simp; omega
    generalize hse : countBelow k x = s at *
    generalize hee : countAbove k ((x :: l0).getLast (by simp)) = e at *
    obtain ⟨d1, e1, f1⟩ := padEach c s e fields hnd d hd
    have g1 : d1.lookup "k" = some (.vec (padList s e c (x :: l0))) := by rw [f1, if_pos hk, h0]; rfl
    have e2 := setEnds_done g1 hs hep he
    rw [hB, hA] at e2
    generalize hd2 : d1.put "k" (.vec (below (x :: l0) k ++ (x :: l0) ++ above (x :: l0) k)) = d2 at e2
    have g2 : ∀ key, d2.lookup key = if key = "k" then some (.vec (padGoal (x :: l0) k)) else d1.lookup key := by
      intro key; rw [← hd2, lookup_put]; rfl
    obtain ⟨d3, e3, f3, f4⟩ := setKwargs_done c s e hep kw hkw d2 (by
      intro kv hkv
      obtain ⟨a1, a2, a3⟩ := hkw' kv hkv
      obtain ⟨l, hl'⟩ := hd kv.1 a1
      refine ⟨by omega, by omega, l, ?_⟩
      rw [g2, if_neg a2, f1, if_pos a1, hl']; rfl)
    refine ⟨d3, ?_, ?_, ?_, ?_, ?_⟩
    · unfold padTerms
      rw [h0]
      simp only [hse, hee]
      rw [e1]
      simp only [PyRes.andThen]
      rw [e2]
      simp only
      rw [e3]
    · rw [f3, g2, if_pos rfl]
      intro h
      obtain ⟨kv, hkv, hq⟩ := List.mem_map.mp h
      exact (hkw' kv hkv).2.1 hq
    · intro kv hkv l hl'
      obtain ⟨a1, a2, a3⟩ := hkw' kv hkv
      rw [f4 kv hkv l, lB, lA, a3]
      rw [g2, if_neg a2, f1, if_pos a1, hl']; rfl
    · intro key hkey hk' hkw'' l hl'
      rw [f3 key hkw'', g2, if_neg hk', f1, if_pos hkey, hl', lB, lA]; rfl
    · intro key hkey
      have hne : key ≠ "k" := fun h => hkey (h ▸ hk)
      rw [f3, g2, if_neg hne, f1, if_neg hkey]
      intro h
      obtain ⟨kv, hkv, hq⟩ := List.mem_map.mp h
      exact hkey (hq ▸ (hkw' kv hkv).1)

/-- C46, partial, class `Terms`: when all columns are one-dimensional and some requested mode lies above the present range,
`pad_k` puts the modes outside the range before and after, keeps every present entry, fills the new entries with the constant and
with the ends of the arrays given by keyword, and leaves other columns alone; the modes stay ascending.  Missing: two-dimensional
columns (`C46_two_dimensional_violation`) and requests without mode above the range (`C46_no_upper_violation`). -/
theorem C46_terms_partial {fields : List String} (hnd : fields.Nodup) (hk : "k" ∈ fields) {d : Cols ℝ}
    (hd : ∀ key ∈ fields, ∃ l, d.lookup key = some (.vec l)) {k0 k : List ℝ} (h0 : d.lookup "k" = some (.vec k0)) (hne : k0 ≠ [])
    (asc0 : k0.Pairwise (· < ·)) (asc : k.Pairwise (· < ·)) (hup : ∃ y ∈ k, k0.getLastD 0 < y) (c : ℝ) (kw : List (String × List ℝ))
    (hkw : (kw.map Prod.fst).Nodup) (hkw' : ∀ kv ∈ kw, kv.1 ∈ fields ∧ kv.1 ≠ "k" ∧ kv.2.length = k.length) :
    ∃ d', padTerms fields k "constant" c kw d = .done d' ∧ d'.lookup "k" = some (.vec (padGoal k0 k)) ∧
      (padGoal k0 k).Pairwise (· < ·) ∧
      (∀ kv ∈ kw, ∀ l, d.lookup kv.1 = some (.vec l) →
        d'.lookup kv.1 = some (.vec (kv.2.take (below k0 k).length ++ l ++ kv.2.drop (k.length - (above k0 k).length)))) ∧
      (∀ key ∈ fields, key ≠ "k" → key ∉ kw.map Prod.fst → ∀ l, d.lookup key = some (.vec l) →
        d'.lookup key = some (.vec (List.replicate (below k0 k).length c ++ l ++ List.replicate (above k0 k).length c))) ∧
      ∀ key, key ∉ fields → d'.lookup key = d.lookup key := by
  obtain ⟨d', e1, e2, e3⟩ := padTerms_steps hnd hk hd h0 hne asc hup c kw hkw hkw'
  exact ⟨d', e1, e2, padGoal_ascending hne asc0 asc, e3⟩

theorem mapM_append_ok {β γ : Type} (f : β → Res γ) {a b : List β} {v : List γ} (h : (a ++ b).mapM f = .ok v) :
    ∃ u w, a.mapM f = .ok u ∧ b.mapM f = .ok w ∧ v = u ++ w ∧ u.length = a.length ∧ w.length = b.length := by
  induction a generalizing v with
  | nil =>
    refine ⟨[], v, rfl, h, rfl, rfl, ?_⟩
    rw [List.nil_append] at h
    induction b generalizing v with
    | nil => cases h; rfl
    | cons x b ih =>
      rw [List.mapM_cons] at h
      obtain ⟨y, h1, h2⟩ := Res.bind_eq_ok.mp h
      obtain ⟨ys, h3, h4⟩ := Res.bind_eq_ok.mp h2
      cases h4
      simp [ih h3]
  | cons x a ih =>
    rw [List.cons_append, List.mapM_cons] at h
    obtain ⟨y, h1, h2⟩ := Res.bind_eq_ok.mp h
    obtain ⟨ys, h3, h4⟩ := Res.bind_eq_ok.mp h2
    cases h4
    obtain ⟨u, w, g1, g2, g3, g4, g5⟩ := ih h3
    refine ⟨y :: u, w, ?_, g2, by rw [g3]; rfl, by simp [g4], g5⟩
    rw [List.mapM_cons, h1, g1]; rfl

theorem padRegPT_steps {fields : List String} (hnd : fields.Nodup) (hk : "k" ∈ fields) {d : Cols ℝ}
    (hd : ∀ key ∈ fields, ∃ l, d.lookup key = some (.vec l)) {k0 k : List ℝ} (h0 : d.lookup "k" = some (.vec k0)) (hne : k0 ≠ [])
    (asc : k.Pairwise (· < ·)) (hup : ∃ y ∈ k, k0.getLastD 0 < y) (c : ℝ) {t : Pk ℝ} {interpol : String} {m : Interpol}
    (hm : m = if interpol = "poly" then .poly else .lin) {v w : List ℝ} (hv : findPk t (padGoal k0 k) m = .ok v)
    (hw : runningSigmad2 t (padGoal k0 k) (1 / 2) = .ok w) :
    ∃ d', padRegPT t fields k "constant" c interpol d = .done d' ∧ d'.lookup "k" = some (.vec (padGoal k0 k)) ∧
      ("pk_lin" ∈ fields → d'.lookup "pk_lin" = some (.vec v)) ∧ ("sigmad2" ∈ fields → d'.lookup "sigmad2" = some (.vec w)) ∧
      (∀ key ∈ fields, key ≠ "k" → key ≠ "pk_lin" → key ≠ "sigmad2" → ∀ l, d.lookup key = some (.vec l) →
        d'.lookup key = some (.vec (List.replicate (below k0 k).length c ++ l ++ List.replicate (above k0 k).length c))) ∧
      ∀ key, key ∉ fields → d'.lookup key = d.lookup key := by
  obtain ⟨d1, e1, f1, -, f2, f3⟩ := padTerms_steps hnd hk hd h0 hne asc hup c [] List.nodup_nil (by simp)
  have hlit : (Histo.lit (1 / 2) : ℝ) = 1 / 2 := by simp
  have r1 : ∃ d2, recompute fields "pk_lin" (fun l => findPk t l (if interpol = "poly" then .poly else .lin)) d1 = .done d2 ∧
      ∀ key, d2.lookup key = if key = "pk_lin" ∧ "pk_lin" ∈ fields then some (.vec v) else d1.lookup key := by
    by_cases hin : "pk_lin" ∈ fields
    · refine ⟨d1.put "pk_lin" (.vec v), ?_, ?_⟩
      · unfold recompute
        rw [if_pos hin, f1]
        simp only
        rw [← hm, hv]
      · intro key
        rw [lookup_put]
        simp [hin]
    · refine ⟨d1, ?_, by simp [hin]⟩
      unfold recompute
      rw [if_neg hin]
  obtain ⟨d2, e2, g2⟩ := r1
  have r2 : ∃ d3, recompute fields "sigmad2" (fun l => runningSigmad2 t l (Histo.lit (1 / 2))) d2 = .done d3 ∧
      ∀ key, d3.lookup key = if key = "sigmad2" ∧ "sigmad2" ∈ fields then some (.vec w) else d2.lookup key := by
    by_cases hin : "sigmad2" ∈ fields
    · refine ⟨d2.put "sigmad2" (.vec w), ?_, ?_⟩
      · unfold recompute
        rw [if_pos hin, g2, if_neg (by simp), f1]
        simp only
        rw [hlit, hw]
      · intro key
        rw [lookup_put]
        simp [hin]
    · refine ⟨d2, ?_, by simp [hin]⟩
      unfold recompute
      rw [if_neg hin]
  obtain ⟨d3, e3, g3⟩ := r2
  refine ⟨d3, ?_, ?_, ?_, ?_, ?_, ?_⟩
  · unfold padRegPT
    rw [e1]
    simp only [PyRes.andThen]
    rw [e2]
    simp only
    rw [e3]
  · rw [g3, if_neg (by simp), g2, if_neg (by simp), f1]
  · intro hin
    rw [g3, if_neg (by simp), g2, if_pos ⟨rfl, hin⟩]
  · intro hin
    rw [g3, if_pos ⟨rfl, hin⟩]
  · intro key hkey k3 k2 k1 l hl
    rw [g3, if_neg (by simp [k1]), g2, if_neg (by simp [k2]), f2 key hkey k3 (by simp) l hl]
  · intro key hkey
    have n1 : ¬ (key = "sigmad2" ∧ "sigmad2" ∈ fields) := fun h => hkey (h.1 ▸ h.2)
    have n2 : ¬ (key = "pk_lin" ∧ "pk_lin" ∈ fields) := fun h => hkey (h.1 ▸ h.2)
    rw [g3, if_neg n1, g2, if_neg n2, f3 key hkey]

/-- C46, partial, classes using the library with one-dimensional columns (`Spectrum1Loop`, `Spectrum2Loop`, `Bias1Loop`): when the
present columns `pk_lin` and `sigmad2` hold the lookups of the present spectrum in the mode named by `interpol` and with the default
cutoff, `pad_k` extends every column and keeps every present entry.  Missing: two-dimensional columns, requests without mode above
the range, other cutoffs (`C46_sigmad2_violation`). -/
theorem C46_regpt_partial {fields : List String} (hnd : fields.Nodup) (hk : "k" ∈ fields) {d : Cols ℝ}
    (hd : ∀ key ∈ fields, ∃ l, d.lookup key = some (.vec l)) {k0 k : List ℝ} (h0 : d.lookup "k" = some (.vec k0)) (hne : k0 ≠ [])
    (asc0 : k0.Pairwise (· < ·)) (asc : k.Pairwise (· < ·)) (hup : ∃ y ∈ k, k0.getLastD 0 < y) (c : ℝ)
    {t : Pk ℝ} (ht : t.Increasing) (h1 : 1 ≤ t.nk) {interpol : String} {m : Interpol} (hm : m = if interpol = "poly" then .poly else .lin)
    (hp : "pk_lin" ∈ fields → ∃ v, d.lookup "pk_lin" = some (.vec v) ∧ findPk t k0 m = .ok v)
    (hs : "sigmad2" ∈ fields → ∃ v, d.lookup "sigmad2" = some (.vec v) ∧ runningSigmad2 t k0 (1 / 2) = .ok v)
    (hdef : (findPk t (padGoal k0 k) m).defined) :
    ∃ d', padRegPT t fields k "constant" c interpol d = .done d' ∧ d'.lookup "k" = some (.vec (padGoal k0 k)) ∧
      (padGoal k0 k).Pairwise (· < ·) ∧
      (∀ key ∈ fields, ∀ l, d.lookup key = some (.vec l) → ∃ l', d'.lookup key = some (.vec l') ∧ Extends k0 k l l') ∧
      ∀ key, key ∉ fields → d'.lookup key = d.lookup key := by
  have hasc := padGoal_ascending hne asc0 asc
  have hle : (padGoal k0 k).Pairwise (· ≤ ·) := hasc.imp fun h => h.le
  obtain ⟨v, hv⟩ := hdef
  obtain ⟨P, hP⟩ := exists_piecewiseLinear t ht
  have hw : runningSigmad2 t (padGoal k0 k) (1 / 2) = .ok ((padGoal k0 k).map (sigmaSpec t P (1 / 2))) :=
    C11_sigmad2_integral_partial t ht h1 P hP (1 / 2) (by norm_num) _ hle
  obtain ⟨d', e1, g0, g1, g2, g3, g4⟩ := padRegPT_steps hnd hk hd h0 hne asc hup c hm hv hw
  -- the lookups at the new modes extend those at the present ones
  have hvE : ∀ v0, findPk t k0 m = .ok v0 → Extends k0 k v0 v := by
    intro v0 hv0
    rw [findPk_ascending t ht h1 m _ hle, padGoal] at hv
    rw [findPk_ascending t ht h1 m _ (asc0.imp fun h => h.le)] at hv0
    obtain ⟨u, w, g1, g2, g3, g4, g5⟩ := mapM_append_ok _ hv
    obtain ⟨u', w', q1, q2, q3, q4, q5⟩ := mapM_append_ok _ g1
    rw [hv0] at q2
    cases q2
    exact ⟨u', w, q4, g5, by rw [g3, q3]⟩
  have hwE : ∀ v0, runningSigmad2 t k0 (1 / 2) = .ok v0 → Extends k0 k v0 ((padGoal k0 k).map (sigmaSpec t P (1 / 2))) := by
    intro v0 hv0
    rw [C11_sigmad2_integral_partial t ht h1 P hP (1 / 2) (by norm_num) _ (asc0.imp fun h => h.le)] at hv0
    cases hv0
    exact ⟨(below k0 k).map (sigmaSpec t P (1 / 2)), (above k0 k).map (sigmaSpec t P (1 / 2)), by simp, by simp, by simp [padGoal]⟩
  refine ⟨d', e1, g0, hasc, ?_, g4⟩
  intro key hkey l hl
  by_cases k1 : key = "sigmad2"
  · subst k1
    obtain ⟨v0, a1, a2⟩ := hs hkey
    rw [hl] at a1
    cases a1
    exact ⟨_, g2 hkey, hwE _ a2⟩
  · by_cases k2 : key = "pk_lin"
    · subst k2
      obtain ⟨v0, a1, a2⟩ := hp hkey
      rw [hl] at a1
      cases a1
      exact ⟨v, g1 hkey, hvE _ a2⟩
    · by_cases k3 : key = "k"
      · subst k3
        rw [h0] at hl
        cases hl
        exact ⟨padGoal k0 k, g0, below k0 k, above k0 k, rfl, rfl, rfl⟩
      · exact ⟨_, g3 key hkey k3 k2 k1 l hl, _, _, by simp, by simp, rfl⟩

/-! ## Disagreements -/

theorem below_length (k0 k : List ℝ) : (below k0 k).length = countBelow k (k0.headD 0) := by
  unfold below countBelow
  rw [List.countP_eq_length_filter]
  rfl

theorem above_length (k0 k : List ℝ) : (above k0 k).length = countAbove k (k0.getLastD 0) := by
  unfold above countAbove
  rw [List.countP_eq_length_filter]
  rfl

theorem padTerms_start {fields : List String} {k : List ℝ} {mode : String} {c : ℝ} {kw : List (String × List ℝ)} {d : Cols ℝ}
    {k0 : List ℝ} (h0 : d.lookup "k" = some (.vec k0)) (hne : k0 ≠ []) :
    padTerms fields k mode c kw d =
      ((pyEach (padOne mode c (below k0 k).length (above k0 k).length) fields d).andThen
        (setEnds "k" k (below k0 k).length (above k0 k).length)).andThen (setKwargs (below k0 k).length (above k0 k).length kw) := by
  cases k0 with
  | nil => exact absurd rfl hne
  | cons x l =>
    have hl : (x :: l).getLastD 0 = (x :: l).getLast (by simp) := by simp [List.getLastD_eq_getLast?, List.getLast?_eq_getLast_of_ne_nil]
    unfold padTerms
    rw [h0, below_length, above_length, hl]
    rfl

/-- C46 is violated for the classes with a two-dimensional column (`A1Loop`, `A2Loop`, `B1Loop`, `B2Loop`, whose fields are these):
`pad_k` always raises, after the modes, the linear spectrum and the variance were padded with the constant, so that the container
is left with columns of different lengths. -/
theorem C46_two_dimensional_violation {d : Cols ℝ} {k0 pl sg : List ℝ} {r : List (List ℝ)} (h0 : d.lookup "k" = some (.vec k0))
    (hne : k0 ≠ []) (h1 : d.lookup "pk_lin" = some (.vec pl)) (h2 : d.lookup "sigmad2" = some (.vec sg))
    (h3 : d.lookup "pk" = some (.mat r)) (t : Pk ℝ) (k : List ℝ) (c : ℝ) (interpol : String) (fields : List String)
    (hf : fields = clsA.fields ∨ fields = clsB.fields) :
    ∃ d', padRegPT t fields k "constant" c interpol d = .raised "ValueError" d' ∧ d'.lookup "pk" = some (.mat r) ∧
      d'.lookup "k" = some (.vec (List.replicate (below k0 k).length c ++ k0 ++ List.replicate (above k0 k).length c)) := by
  have hf' : fields = ["k", "pk_lin", "sigmad2"] ++ ["pk"] := by rcases hf with rfl | rfl <;> rfl
  rw [hf']
  obtain ⟨d1, e1, f1⟩ := padEach c (below k0 k).length (above k0 k).length ["k", "pk_lin", "sigmad2"] (by decide) d (by
    intro key hkey
    simp only [List.mem_cons, List.not_mem_nil, or_false] at hkey
    rcases hkey with rfl | rfl | rfl
    · exact ⟨_, h0⟩
    · exact ⟨_, h1⟩
    · exact ⟨_, h2⟩)
  have happ : ∀ (f : String → Cols ℝ → PyRes (Cols ℝ)) (l l' : List String) (x : Cols ℝ),
      pyEach f (l ++ l') x = (pyEach f l x).andThen (pyEach f l') := by
    intro f l l' x
    induction l generalizing x with
    | nil => rfl
    | cons a l ih =>
      simp only [List.cons_append, pyEach]
      cases f a x with
      | done s => exact ih s
      | raised w s => rfl
      | ub w => rfl
  have g3 : d1.lookup "pk" = some (.mat r) := by rw [f1, if_neg (by decide), h3]
  refine ⟨d1, ?_, g3, ?_⟩
  · unfold padRegPT
    rw [padTerms_start h0 hne, happ, e1]
    simp only [PyRes.andThen, pyEach]
    rw [padOne_mat _ _ _ _ g3]
  · rw [f1, if_pos (by decide), h0]; rfl

/-- C46 is violated when no requested mode lies above the present range: the slice `[-0:]` is the whole array, so `pad_k` raises
unless the request happens to have one mode or as many modes as the padded array. -/
theorem C46_no_upper_violation {fields : List String} (hnd : fields.Nodup) (hk : "k" ∈ fields) {d : Cols ℝ}
    (hd : ∀ key ∈ fields, ∃ l, d.lookup key = some (.vec l)) {k0 k : List ℝ} (h0 : d.lookup "k" = some (.vec k0)) (hne : k0 ≠ [])
    (hup : above k0 k = []) (hl1 : k.length ≠ 1) (hl2 : k.length ≠ (below k0 k).length + k0.length) (c : ℝ)
    (kw : List (String × List ℝ)) : ∃ d', padTerms fields k "constant" c kw d = .raised "ValueError" d' := by
  rw [padTerms_start h0 hne, hup]
  obtain ⟨d1, e1, f1⟩ := padEach c (below k0 k).length 0 fields hnd d hd
  have g1 : d1.lookup "k" = some (.vec (padList (below k0 k).length 0 c k0)) := by rw [f1, if_pos hk, h0]; rfl
  have hs : (below k0 k).length ≤ k.length := by rw [below_length]; exact List.countP_le_length
  refine ⟨d1.put "k" (.vec (k.take (below k0 k).length ++ k0)), ?_⟩
  rw [List.length_nil, e1]
  simp only [PyRes.andThen]
  unfold setEnds
  rw [g1]
  simp only [padList, List.replicate_zero, List.append_nil]
  rw [assign_first k c _ hs]
  simp only
  have : setLast (k.take (below k0 k).length ++ k0) k 0 = none := by
    unfold setLast assignSlice lastSlice negStart
    simp only [if_true, List.drop_zero, Nat.sub_zero]
    rw [if_neg (by simp [hs]; omega)]
    match k, hl1 with
    | [], _ => rfl
    | [x], h => exact absurd rfl h
    | x :: y :: l, _ => rfl
  rw [this]

/-- C46 is violated when no requested mode lies above the present range and the request has as many modes as the padded array: every
mode is replaced by the requested one while the other columns keep the values of the previous modes. -/
theorem C46_overwrite_violation {fields : List String} (hnd : fields.Nodup) (hk : "k" ∈ fields) {d : Cols ℝ}
    (hd : ∀ key ∈ fields, ∃ l, d.lookup key = some (.vec l)) {k0 k : List ℝ} (h0 : d.lookup "k" = some (.vec k0)) (hne : k0 ≠ [])
    (hup : above k0 k = []) (hl2 : k.length = (below k0 k).length + k0.length) (c : ℝ) :
    ∃ d', padTerms fields k "constant" c [] d = .done d' ∧ d'.lookup "k" = some (.vec k) ∧
      ∀ key ∈ fields, key ≠ "k" → ∀ l, d.lookup key = some (.vec l) →
        d'.lookup key = some (.vec (List.replicate (below k0 k).length c ++ l)) := by
  rw [padTerms_start h0 hne, hup]
  obtain ⟨d1, e1, f1⟩ := padEach c (below k0 k).length 0 fields hnd d hd
  have g1 : d1.lookup "k" = some (.vec (padList (below k0 k).length 0 c k0)) := by rw [f1, if_pos hk, h0]; rfl
  have hs : (below k0 k).length ≤ k.length := by omega
  refine ⟨d1.put "k" (.vec k), ?_, ?_, ?_⟩
  · rw [List.length_nil, e1]
    simp only [PyRes.andThen]
    unfold setEnds
    rw [g1]
    simp only [padList, List.replicate_zero, List.append_nil]
    rw [assign_first k c _ hs]
    simp only
    have : setLast (k.take (below k0 k).length ++ k0) k 0 = some k := by
      unfold setLast assignSlice lastSlice negStart
      simp only [if_true, List.drop_zero, Nat.sub_zero]
      rw [if_pos (by simp [hs]; omega)]
      simp
    rw [this]
    rfl
  · rw [lookup_put, if_pos rfl]
  · intro key hkey hk' l hl
    rw [lookup_put, if_neg hk', f1, if_pos hkey, hl]
    simp [NdArr.padded, padList]

/-- C46 is violated by a request of one mode inside the range: every mode is replaced by it. -/
theorem C46_broadcast_violation {fields : List String} (hnd : fields.Nodup) (hk : "k" ∈ fields) {d : Cols ℝ}
    (hd : ∀ key ∈ fields, ∃ l, d.lookup key = some (.vec l)) {k0 : List ℝ} (h0 : d.lookup "k" = some (.vec k0)) (hne : k0 ≠ [])
    {y : ℝ} (h1 : k0.headD 0 ≤ y) (h2 : y ≤ k0.getLastD 0) (c : ℝ) :
    ∃ d', padTerms fields [y] "constant" c [] d = .done d' ∧ d'.lookup "k" = some (.vec (List.replicate k0.length y)) := by
  have hB : below k0 [y] = [] := by
    unfold below
    rw [List.filter_eq_nil_iff]
    intro z hz
    rw [List.mem_singleton.mp hz]
    simpa using h1
  have hA : above k0 [y] = [] := by
    unfold above
    rw [List.filter_eq_nil_iff]
    intro z hz
    rw [List.mem_singleton.mp hz]
    simpa using h2
  rw [padTerms_start h0 hne, hB, hA]
  obtain ⟨d1, e1, f1⟩ := padEach c 0 0 fields hnd d hd
  have g1 : d1.lookup "k" = some (.vec (padList 0 0 c k0)) := by rw [f1, if_pos hk, h0]; rfl
  refine ⟨d1.put "k" (.vec (List.replicate k0.length y)), ?_, ?_⟩
  · rw [List.length_nil, e1]
    simp only [PyRes.andThen]
    unfold setEnds
    rw [g1]
    simp only [padList, List.replicate_zero, List.append_nil, List.nil_append]
    have e3 : setFirst k0 [y] 0 = some k0 := by
      unfold setFirst assignSlice
      simp
    rw [e3]
    simp only
    have : setLast k0 [y] 0 = some (List.replicate k0.length y) := by
      unfold setLast assignSlice lastSlice negStart
      simp only [if_true, List.drop_zero, Nat.sub_zero, List.length_singleton]
      by_cases hl : 1 = k0.length
      · rw [if_pos hl, ← hl]; simp only [List.replicate_one, List.take_zero, List.nil_append, Option.some.injEq]
        rw [hl]; simp
      · rw [if_neg hl]; simp
    rw [this]
    rfl
  · rw [lookup_put, if_pos rfl]

/-- C46 is violated for every padding mode but the default one: `constant_values` is passed along, which `np.pad` refuses. -/
theorem C46_mode_violation {mode : String} (hm : mode ≠ "constant") (fields : List String) (hk : fields.head? = some "k") {d : Cols ℝ}
    {k0 : List ℝ} (h0 : d.lookup "k" = some (.vec k0)) (hne : k0 ≠ []) (k : List ℝ) (c : ℝ) (kw : List (String × List ℝ)) :
    padTerms fields k mode c kw d = .raised "ValueError" d := by
  rw [padTerms_start h0 hne]
  cases fields with
  | nil => cases hk
  | cons f fields =>
    cases hk
    have : padOne mode c (below k0 k).length (above k0 k).length "k" d = .raised "ValueError" d := by
      unfold padOne
      rw [h0]
      simp [npPad, hm]
    rw [pyEach, this]
    rfl

/-- C46 is violated for `A1Loop` between `set_terms` and `run_terms`, when the column `pk` is still flat: it is lengthened by one cell
per new mode instead of five, so that it can no longer be reshaped to one row of five per mode. -/
theorem C46_flat_violation {d : Cols ℝ} {k0 k pl sg fl : List ℝ} (h0 : d.lookup "k" = some (.vec k0)) (hne : k0 ≠ [])
    (h1 : d.lookup "pk_lin" = some (.vec pl)) (h2 : d.lookup "sigmad2" = some (.vec sg)) (h3 : d.lookup "pk" = some (.vec fl))
    (hfl : fl.length = k0.length * 5) (asc0 : k0.Pairwise (· < ·)) (asc : k.Pairwise (· < ·)) (hup : ∃ y ∈ k, k0.getLastD 0 < y) (c : ℝ)
    {t : Pk ℝ} (ht : t.Increasing) (ht2 : 2 ≤ t.nk) :
    ∃ d' kk pp, padRegPT t clsA.fields k "constant" c "poly" d = .done d' ∧ d'.lookup "k" = some (.vec kk) ∧
      d'.lookup "pk" = some (.vec pp) ∧ pp.length ≠ kk.length * 5 := by
  have hasc := padGoal_ascending hne asc0 asc
  obtain ⟨v, hv⟩ := C06_findPk_poly_safe t ht.toWF ht2 (padGoal k0 k)
  obtain ⟨w, hw, -⟩ := C11_sigmad2_safe t ht.toWF (by omega) (padGoal k0 k) (1 / 2)
  obtain ⟨d', e1, g0, -, -, g3, -⟩ := padRegPT_steps (fields := clsA.fields) (by decide) (by decide) (by
    intro key hkey
    simp only [clsA, List.mem_cons, List.not_mem_nil, or_false] at hkey
    rcases hkey with rfl | rfl | rfl | rfl
    · exact ⟨_, h0⟩
    · exact ⟨_, h1⟩
    · exact ⟨_, h2⟩
    · exact ⟨_, h3⟩) h0 hne asc hup c (interpol := "poly") rfl hv hw
  refine ⟨d', _, _, e1, g0, g3 "pk" (by decide) (by decide) (by decide) (by decide) fl h3, ?_⟩
  have hA : 0 < (above k0 k).length := by
    obtain ⟨y, hy, hlt⟩ := hup
    exact List.length_pos_of_mem (List.mem_filter.mpr ⟨hy, by simpa using hlt⟩)
  unfold padGoal
  simp
  omega

/-- C46 is violated after a run with another cutoff than the default one: `pad_k` recomputes the variance of the present modes with
the default cutoff. -/
theorem C46_sigmad2_violation : ∃ (t : Pk ℝ) (uv : ℝ) (k0 k sg sg' : List ℝ) (d d' : Cols ℝ), t.Increasing ∧
    d.lookup "k" = some (.vec k0) ∧ d.lookup "sigmad2" = some (.vec sg) ∧ runningSigmad2 t k0 uv = .ok sg ∧
    padRegPT t cls1.fields k "constant" 0 "poly" d = .done d' ∧ d'.lookup "sigmad2" = some (.vec sg') ∧ ¬ Extends k0 k sg sg' := by
  have ht : (⟨3, [1, 2, 3], [1, 1, 1]⟩ : Pk ℝ).Increasing := ⟨⟨rfl, rfl, by norm_num⟩, by norm_num⟩
  have hB : below [3 / 2] [3 / 2, 5] = [] := by norm_num [below]
  have hA : above [3 / 2] [3 / 2, 5] = [5] := by norm_num [above]
  have hG : padGoal [3 / 2] [3 / 2, 5] = [3 / 2, 5] := by rw [padGoal, hB, hA]; rfl
  have e1 := C11_sigmad2_order_violation.2.1
  have e2 : ∃ x, runningSigmad2 (⟨3, [1, 2, 3], [1, 1, 1]⟩ : Pk ℝ) (padGoal [3 / 2] [3 / 2, 5]) (1 / 2) = .ok [0, x] := by
    rw [hG]
    norm_num [runningSigmad2, sigmaLoop, sigmaInner, sigmaWritten, rd, subSize, sizeMod, Histo.lt, interpolLin]
  obtain ⟨x, e2⟩ := e2
  obtain ⟨v, hv⟩ := C06_findPk_poly_safe _ ht.toWF (by decide) (padGoal [3 / 2] [3 / 2, 5])
  obtain ⟨d', p1, -, -, p2, -, -⟩ := padRegPT_steps (fields := cls1.fields) (by decide) (by decide)
    (d := [("k", .vec [3 / 2]), ("pk_lin", .vec [1]), ("sigmad2", .vec [1 / (12 * Real.pi * Real.pi)]), ("gamma1a_1loop", .vec [0]),
      ("gamma1b_1loop", .vec [0]), ("pk_gamma2_tree_tree", .vec [0])]) (by
    intro key hkey
    simp only [cls1, List.mem_cons, List.not_mem_nil, or_false] at hkey
    rcases hkey with rfl | rfl | rfl | rfl | rfl | rfl <;> exact ⟨_, rfl⟩) (k0 := [3 / 2]) rfl (by simp) (k := [3 / 2, 5]) (by norm_num)
    ⟨5, by simp, by norm_num⟩ 0 (interpol := "poly") rfl hv e2
  refine ⟨_, 1, [3 / 2], [3 / 2, 5], _, _, _, d', ht, rfl, rfl, e1, p1, p2 (by decide), ?_⟩
  rintro ⟨a, b, h1, h2, h3⟩
  rw [hB] at h1
  rw [List.length_eq_zero_iff.mp h1] at h3
  simp only [List.nil_append, List.cons_append, List.cons.injEq] at h3
  have : (0 : ℝ) < 1 / (12 * Real.pi * Real.pi) := by positivity
  rw [← h3.1] at this
  exact lt_irrefl _ this

/-! ## Concrete cases -/

/-- A present container of `Spectrum1Loop` with two modes. -/
noncomputable def exCols : Cols ℝ := [("k", .vec [2, 3]), ("pk_lin", .vec [4, 9]), ("sigmad2", .vec [0, 0]), ("gamma1a_1loop", .vec [5, 6]),
  ("gamma1b_1loop", .vec [7, 8]), ("pk_gamma2_tree_tree", .vec [9, 10])]

theorem exCols_vec : ∀ key ∈ cls1.fields, ∃ l, exCols.lookup key = some (.vec l) := by
  intro key hkey
  simp only [cls1, List.mem_cons, List.not_mem_nil, or_false] at hkey
  rcases hkey with rfl | rfl | rfl | rfl | rfl | rfl <;> exact ⟨_, rfl⟩

/-- Padding two modes with three others, one column given by keyword: the hypotheses of `C46_terms_partial` hold and the result is
the expected one. -/
example : ∃ d', padTerms cls1.fields [1, 5 / 2, 4] "constant" 0 [("gamma1a_1loop", [11, 12, 13])] exCols = .done d' ∧
    d'.lookup "k" = some (.vec [1, 2, 3, 4]) ∧ d'.lookup "gamma1a_1loop" = some (.vec [11, 5, 6, 13]) ∧
    d'.lookup "pk_gamma2_tree_tree" = some (.vec [0, 9, 10, 0]) := by
  have hB : below [2, 3] [1, 5 / 2, 4] = [1] := by norm_num [below]
  have hA : above [2, 3] [1, 5 / 2, 4] = [4] := by norm_num [above]
  obtain ⟨d', e1, e2, -, e3, e4, -⟩ := C46_terms_partial (fields := cls1.fields) (by decide) (by decide) exCols_vec
    (k0 := [2, 3]) (k := [1, 5 / 2, 4]) rfl (by simp) (by norm_num) (by norm_num) ⟨4, by simp, by norm_num⟩ 0
    [("gamma1a_1loop", [11, 12, 13])] (by simp) (by simp [cls1])
  refine ⟨d', e1, ?_, ?_, ?_⟩
  · rw [e2, padGoal, hB, hA]; rfl
  · rw [e3 ("gamma1a_1loop", [11, 12, 13]) (by simp) [5, 6] rfl, hB, hA]; rfl
  · rw [e4 "pk_gamma2_tree_tree" (by decide) (by decide) (by simp) [9, 10] rfl, hB, hA]; rfl

/-- The same through the library: the hypotheses of `C46_regpt_partial` hold for the columns a run leaves. -/
example : ∃ d d' : Cols ℝ, padRegPT exTable cls1.fields [1, 5 / 2, 4] "constant" 0 "poly" d = .done d' ∧
    d'.lookup "k" = some (.vec [1, 2, 3, 4]) ∧
    ∀ key ∈ cls1.fields, ∀ l, d.lookup key = some (.vec l) → ∃ l', d'.lookup key = some (.vec l') ∧ Extends [2, 3] [1, 5 / 2, 4] l l' := by
  have hB : below [2, 3] [1, 5 / 2, 4] = [1] := by norm_num [below]
  have hA : above [2, 3] [1, 5 / 2, 4] = [4] := by norm_num [above]
  have ht := exTable_physical.toIncreasing
  obtain ⟨v, hv⟩ := C06_findPk_poly_safe _ ht.toWF (by decide) [2, 3]
  obtain ⟨w, hw, -⟩ := C11_sigmad2_safe _ ht.toWF (by decide) [2, 3] (1 / 2)
  obtain ⟨d', e1, e2, -, e3, -⟩ := C46_regpt_partial (fields := cls1.fields) (by decide) (by decide)
    (d := [("k", .vec [2, 3]), ("pk_lin", .vec v), ("sigmad2", .vec w), ("gamma1a_1loop", .vec [5, 6]),
      ("gamma1b_1loop", .vec [7, 8]), ("pk_gamma2_tree_tree", .vec [9, 10])]) (by
    intro key hkey
    simp only [cls1, List.mem_cons, List.not_mem_nil, or_false] at hkey
    rcases hkey with rfl | rfl | rfl | rfl | rfl | rfl <;> exact ⟨_, rfl⟩)
    (k0 := [2, 3]) (k := [1, 5 / 2, 4]) rfl (by simp) (by norm_num) (by norm_num) ⟨4, by simp, by norm_num⟩ 0 ht (by decide)
    (interpol := "poly") rfl (fun _ => ⟨v, rfl, hv⟩) (fun _ => ⟨w, rfl, hw⟩) (C06_findPk_poly_safe _ ht.toWF (by decide) _)
  exact ⟨_, d', e1, by rw [e2, padGoal, hB, hA]; rfl, e3⟩

/-- A request whose highest mode is not above the range: `pad_k` raises. -/
example : ∃ d', padTerms cls1.fields [1, 5 / 4, 3] "constant" 0 [] exCols = .raised "ValueError" d' :=
  C46_no_upper_violation (k0 := [2, 3]) (by decide) (by decide) exCols_vec rfl (by simp) (by norm_num [above]) (by simp)
    (by norm_num [below]) 0 []

/-- The mode 2 becomes 5/2 while its terms stay. -/
example : ∃ d', padTerms cls1.fields [1, 5 / 2, 3] "constant" 0 [] exCols = .done d' ∧ d'.lookup "k" = some (.vec [1, 5 / 2, 3]) ∧
    d'.lookup "gamma1a_1loop" = some (.vec [0, 5, 6]) := by
  have hB : below [2, 3] [1, 5 / 2, 3] = [1] := by norm_num [below]
  obtain ⟨d', e1, e2, e3⟩ := C46_overwrite_violation (fields := cls1.fields) (k0 := [2, 3]) (k := [1, 5 / 2, 3]) (by decide) (by decide)
    exCols_vec rfl (by simp) (by norm_num [above]) (by rw [hB]; rfl) 0
  refine ⟨d', e1, e2, ?_⟩
  rw [e3 "gamma1a_1loop" (by decide) (by decide) [5, 6] rfl, hB]
  rfl

/-- Both modes become 5/2. -/
example : ∃ d', padTerms cls1.fields [5 / 2] "constant" 0 [] exCols = .done d' ∧ d'.lookup "k" = some (.vec [5 / 2, 5 / 2]) :=
  C46_broadcast_violation (k0 := [2, 3]) (by decide) (by decide) exCols_vec rfl (by simp) (by norm_num) (by norm_num) 0

/-- The classes concerned by `C46_regpt_partial` have no repeated field and contain the modes. -/
example : (∀ c ∈ [clsLin, cls1, cls2, clsBias, clsA, clsB], c.fields.Nodup ∧ "k" ∈ c.fields) ∧
    (∀ c ∈ [clsLin, cls1, cls2, clsBias], c.shape = []) := by decide

/-- A container of `A2Loop` or `B1Loop` with two modes: `pad_k` raises. -/
example : ∃ d', padRegPT exTable clsA.fields [1, 4] "constant" 0 "poly"
    [("k", .vec [2, 3]), ("pk_lin", .vec [4, 9]), ("sigmad2", .vec [0, 0]), ("pk", .mat [[1, 2, 3, 4, 5], [6, 7, 8, 9, 10]])]
      = .raised "ValueError" d' := by
  obtain ⟨d', e, -⟩ := C46_two_dimensional_violation (d := [("k", .vec [2, 3]), ("pk_lin", .vec [4, 9]), ("sigmad2", .vec [0, 0]),
    ("pk", .mat [[1, 2, 3, 4, 5], [6, 7, 8, 9, 10]])]) (k0 := [2, 3]) rfl (by simp) rfl rfl rfl exTable [1, 4] 0 "poly" clsA.fields (Or.inl rfl)
  exact ⟨d', e⟩

/-- A container of `A1Loop` after `set_terms` with two modes. -/
example : ∃ d' kk pp, padRegPT exTable clsA.fields [1, 4] "constant" 0 "poly"
    [("k", .vec [2, 3]), ("pk_lin", .vec [0, 0]), ("sigmad2", .vec [0, 0]), ("pk", .vec [0, 0, 0, 0, 0, 0, 0, 0, 0, 0])] = .done d' ∧
      d'.lookup "k" = some (.vec kk) ∧ d'.lookup "pk" = some (.vec pp) ∧ pp.length ≠ kk.length * 5 :=
  C46_flat_violation (k0 := [2, 3]) rfl (by simp) rfl rfl rfl rfl (by norm_num) (by norm_num) ⟨4, by simp, by norm_num⟩ 0
    exTable_physical.toIncreasing (by decide)

/-- Any other mode name raises. -/
example : padTerms cls1.fields [1, 4] "edge" 0 [] exCols = .raised "ValueError" exCols :=
  C46_mode_violation (by decide) _ rfl (k0 := [2, 3]) rfl (by simp) _ _ _

end Verif
