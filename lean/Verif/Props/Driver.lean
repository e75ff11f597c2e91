import Verif.Proofs.Runs
import Mathlib.Tactic.IntervalCases

/-!
# C43, C44, C45: the runs
-/

namespace Verif

open Res (Rel)

/-! ## Layouts and room -/

theorem lay1_inj (n : ℕ) : LayInj (layCols params1 names1) n := layCols_inj _ _ (by decide) n

theorem lay2_inj (n : ℕ) : LayInj (layCols params2 names2) n := layCols_inj _ _ (by decide) n

theorem layBias_inj (n : ℕ) : LayInj (layCols paramsBias namesBias) n := layCols_inj _ _ (by decide) n

/-- Every one of the first `N` arrays has `n` cells. -/
def Room (N n : ℕ) (μ : Mem) : Prop := ∀ i < N, n ≤ (μ i).length

/-- Three arrays with `n` cells and one with `n*m` cells. -/
def RoomFlat (m n : ℕ) (μ : Mem) : Prop := (∀ i < 3, n ≤ (μ i).length) ∧ n * m ≤ (μ 3).length

theorem lay1_in {n : ℕ} {μ : Mem} (h : Room 6 n μ) : LayIn (layCols params1 names1) n μ := by
  intro ik hik c
  have : ∀ c : Fin 3, pos params1 (names1 c) < 6 := by decide
  exact lt_of_lt_of_le hik (h _ (this c))

theorem lay2_in {n : ℕ} {μ : Mem} (h : Room 11 n μ) : LayIn (layCols params2 names2) n μ := by
  intro ik hik c
  have : ∀ c : Fin 7, pos params2 (names2 c) < 11 := by decide
  exact lt_of_lt_of_le hik (h _ (this c))

theorem layBias_in {n : ℕ} {μ : Mem} (h : Room 11 n μ) : LayIn (layCols paramsBias namesBias) n μ := by
  intro ik hik c
  have : ∀ c : Fin 8, pos paramsBias (namesBias c) < 11 := by decide
  exact lt_of_lt_of_le hik (h _ (this c))

theorem layFlat_in {m n : ℕ} {params : List String} {name : String} {μ : Mem} (h : n * m ≤ (μ (pos params name)).length) :
    LayIn (layFlat m params name) n μ := by
  intro ik hik c
  refine lt_of_lt_of_le ?_ h
  show ik * m + c < n * m
  calc ik * m + c < ik * m + m := by omega
    _ = (ik + 1) * m := by ring
    _ ≤ n * m := Nat.mul_le_mul_right m hik

theorem room12 {params : List String} {N n : ℕ} {μ : Mem} (h : ∀ i < N, n ≤ (μ i).length) (h1 : pos params "pk_lin" < N)
    (h2 : pos params "sigmad2" < N) : Room12 params n μ := ⟨h _ h1, h _ h2⟩

/-! ## What a run stores -/

/-- The one-loop run. -/
theorem run1_assigns {e : Env} {a b : Field} {es : List Event} {μ ν : Mem} (hμ : Room 6 e.ks.length μ)
    (hes : Schedule 3 e.ks.length es) (h : runTerms1 e a b es μ = .ok ν) :
    ∃ pl sg s0 row, findPk e.t e.ks (e.cfg.interp .spectrum_1loop) = .ok pl ∧
      runningSigmad2 e.t e.ks (e.cfg.uv .spectrum_1loop) = .ok sg ∧ (work1 e a b).init = .ok s0 ∧
      (∀ ik < e.ks.length, ∃ s', (work1 e a b).body s0 ik = .ok (s', row ik)) ∧
      ν = overlay (mapRun params1 (layCols params1 names1) e.ks.length pl sg row) μ ∧
      ∀ es', Schedule 3 e.ks.length es' →
        Assigns (runTerms1 e a b es') (mapRun params1 (layCols params1 names1) e.ks.length pl sg row) :=
  runHead_assigns (work1_det e a b) (lay1_inj _) (lay1_in hμ) (room12 hμ (by decide) (by decide)) hes h

/-- The bias run. -/
theorem runBias_assigns {e : Env} {es : List Event} {μ ν : Mem} (hμ : Room 11 e.ks.length μ)
    (hes : Schedule 8 e.ks.length es) (h : runTermsBias e es μ = .ok ν) :
    ∃ pl sg s0 row, findPk e.t e.ks (e.cfg.interp .bias_1loop) = .ok pl ∧
      runningSigmad2 e.t e.ks (e.cfg.uv .bias_1loop) = .ok sg ∧ (workBias e).init = .ok s0 ∧
      (∀ ik < e.ks.length, ∃ s', (workBias e).body s0 ik = .ok (s', row ik)) ∧
      ν = overlay (mapRun paramsBias (layCols paramsBias namesBias) e.ks.length pl sg row) μ ∧
      ∀ es', Schedule 8 e.ks.length es' →
        Assigns (runTermsBias e es') (mapRun paramsBias (layCols paramsBias namesBias) e.ks.length pl sg row) :=
  runHead_assigns (workBias_det e) (layBias_inj _) (layBias_in hμ) (room12 hμ (by decide) (by decide)) hes h

/-- The one-loop A run. -/
theorem runA1_assigns {e : Env} {es : List Event} {μ ν : Mem} (hμ : RoomFlat 5 e.ks.length μ)
    (hes : Schedule 5 e.ks.length es) (h : runTermsA1 e es μ = .ok ν) :
    ∃ pl sg s0 row, findPk e.t e.ks (e.cfg.interp .A_1loop) = .ok pl ∧
      runningSigmad2 e.t e.ks (e.cfg.uv .A_1loop) = .ok sg ∧ (workA1 e).init = .ok s0 ∧
      (∀ ik < e.ks.length, ∃ s', (workA1 e).body s0 ik = .ok (s', row ik)) ∧
      ν = overlay (mapRun paramsA (layFlat 5 paramsA "A") e.ks.length pl sg row) μ ∧
      ∀ es', Schedule 5 e.ks.length es' →
        Assigns (runTermsA1 e es') (mapRun paramsA (layFlat 5 paramsA "A") e.ks.length pl sg row) :=
  runHead_assigns (workA1_det e) (layFlat_inj _ _ _ _) (layFlat_in hμ.2) (room12 hμ.1 (by decide) (by decide)) hes h

/-- The B run. -/
theorem runB_assigns {e : Env} {dt tt : Pk ℝ} {es : List Event} {μ ν : Mem} (hμ : RoomFlat 9 e.ks.length μ)
    (hes : Schedule 9 e.ks.length es) (h : runTermsB e dt tt es μ = .ok ν) :
    ∃ pl sg s0 row, findPk e.t e.ks (e.cfg.interp .B) = .ok pl ∧
      runningSigmad2 e.t e.ks (e.cfg.uv .B) = .ok sg ∧ (workB e dt tt).init = .ok s0 ∧
      (∀ ik < e.ks.length, ∃ s', (workB e dt tt).body s0 ik = .ok (s', row ik)) ∧
      ν = overlay (mapRun paramsB (layFlat 9 paramsB "B") e.ks.length pl sg row) μ ∧
      ∀ es', Schedule 9 e.ks.length es' →
        Assigns (runTermsB e dt tt es') (mapRun paramsB (layFlat 9 paramsB "B") e.ks.length pl sg row) :=
  runHead_assigns (workB_det e dt tt) (layFlat_inj _ _ _ _) (layFlat_in hμ.2) (room12 hμ.1 (by decide) (by decide)) hes h

/-- Values stored by the two-loop run. -/
noncomputable def mapRun2 (n : ℕ) (pl sg : List ℝ) (row : ℕ → Fin 7 → ℝ) (g3 : ℕ → ℝ) (c : Cell) : Option ℝ :=
  (rowMap (layOne (pos params2 "pk_gamma3_tree")) n (fun ik _ => g3 ik) c).or (mapRun params2 (layCols params2 names2) n pl sg row c)

/-- The third-order term of the two-loop run. -/
noncomputable def gamma3At (cuba : Cuba ℝ) (e : Env) (a b : Field) (p : Precision ℝ) (ik : ℕ) : Res ℝ := do
  let k ← rd e.ks ik
  calcGamma3 cuba e.t p.interpol a b p.min p.max k

/-- The two-loop run. -/
theorem run2_assigns {cuba : Cuba ℝ} {e : Env} {a b : Field} {es : List Event} {μ ν : Mem} {cfg : Cfg ℝ} (hμ : Room 11 e.ks.length μ)
    (hes : Schedule 7 e.ks.length es) (h : runTerms2 cuba e a b es μ = .ok (cfg, ν)) :
    ∃ pl sg s0 row g3, findPk e.t e.ks (e.cfg.interp .spectrum_2loop) = .ok pl ∧
      runningSigmad2 e.t e.ks (e.cfg.uv .spectrum_2loop) = .ok sg ∧ (work2 e a b).init = .ok s0 ∧
      (∀ ik < e.ks.length, ∃ s', (work2 e a b).body s0 ik = .ok (s', row ik)) ∧
      autoRange e.t e.cfg .gamma3_tree_q = .ok cfg ∧
      (∀ ik < e.ks.length, gamma3At cuba e a b (cfg.prec .gamma3_tree_q) ik = .ok (g3 ik)) ∧
      ν = overlay (mapRun2 e.ks.length pl sg row g3) μ ∧
      ∀ es', Schedule 7 e.ks.length es' → ∀ μ', Room 11 e.ks.length μ' →
        runTerms2 cuba e a b es' μ' = .ok (cfg, overlay (mapRun2 e.ks.length pl sg row g3) μ') := by
  have h' : (runHead e .spectrum_2loop params2 (work2 e a b) (layCols params2 names2) es μ >>= fun μ => do
      let cfg ← autoRange e.t e.cfg .gamma3_tree_q
      let μ ← fillArr (pos params2 "pk_gamma3_tree") e.ks.length (gamma3At cuba e a b (cfg.prec .gamma3_tree_q)) μ
      .ok (cfg, μ)) = .ok (cfg, ν) := by
    rw [← h]
    simp only [runHead, runTerms2, bind_assoc]
    rfl
  simp only [Res.bind_eq_ok] at h'
  obtain ⟨μ1, h1, cfg', h2, ν', h3, h4⟩ := h'
  injection h4 with h4
  injection h4 with h4 h5
  subst h4 h5
  obtain ⟨pl, sg, s0, row, e1, e2, e3, e4, e5, e6⟩ :=
    runHead_assigns (work2_det e a b) (lay2_inj _) (lay2_in hμ) (room12 hμ (by decide) (by decide)) hes h1
  have hd := fillArr_ok h3
  choose! g3 hg3 using hd
  have a3 := fillArr_assigns (pos params2 "pk_gamma3_tree") _ _ g3 hg3
  have key : ∀ es', Schedule 7 e.ks.length es' → ∀ μ', Room 11 e.ks.length μ' →
      runTerms2 cuba e a b es' μ' = .ok (cfg', overlay (mapRun2 e.ks.length pl sg row g3) μ') := by
    intro es' hes' μ' hμ'
    have f1 := fits_mapRun (pl := pl) (sg := sg) (row := row) (lay2_inj e.ks.length) (lay2_in hμ')
      (room12 (params := params2) hμ' (by decide) (by decide))
    have f3 : Fits (rowMap (layOne (pos params2 "pk_gamma3_tree")) e.ks.length fun ik _ => g3 ik) μ' :=
      fits_rowMap (layOne_inj _ _) fun ik hik _ => lt_of_lt_of_le hik (hμ' (pos params2 "pk_gamma3_tree") (by decide))
    have := ((e6 es' hes').comp a3) μ' (f1.or f3)
    dsimp only at this
    rw [show runTerms2 cuba e a b es' μ' = (runHead e .spectrum_2loop params2 (work2 e a b) (layCols params2 names2) es' μ' >>=
      fun μ => do
        let cfg ← autoRange e.t e.cfg .gamma3_tree_q
        let μ ← fillArr (pos params2 "pk_gamma3_tree") e.ks.length (gamma3At cuba e a b (cfg.prec .gamma3_tree_q)) μ
        .ok (cfg, μ)) by simp only [runHead, runTerms2, bind_assoc]; rfl, h2]
    simp only [Res.ok_bind]
    rw [← bind_assoc, this]
    rfl
  refine ⟨pl, sg, s0, row, g3, e1, e2, e3, e4, h2, hg3, ?_, key⟩
  have := key es hes μ hμ
  rw [h] at this
  simpa using this

/-- The part of the two-loop A run added by the serial loop. -/
noncomputable def a2At (cuba : Cuba (Fin 12 → ℝ)) (e : Env) (p : Precision ℝ) (ik : ℕ) : Res (Fin 5 → ℝ) := do
  let k ← rd e.ks ik
  let r ← calcA2II cuba e.t (e.cfg.interp .bispectrum_1loop) (e.cfg.uv .bispectrum_1loop) p.min p.max k
  .ok (columnsA2 r)

/-- The two-loop A run. -/
theorem runA2_assigns {cuba : Cuba (Fin 12 → ℝ)} {e : Env} {es : List Event} {μ ν : Mem} {cfg : Cfg ℝ}
    (hμ : RoomFlat 5 e.ks.length μ) (hes : Schedule 5 e.ks.length es) (h : runTermsA2 cuba e es μ = .ok (cfg, ν)) :
    ∃ (pl sg : List ℝ) (s0 : TabA2) (row add : ℕ → Fin 5 → ℝ), findPk e.t e.ks (e.cfg.interp .A_2loop) = .ok pl ∧
      runningSigmad2 e.t e.ks (e.cfg.uv .A_2loop) = .ok sg ∧ (workA2 e).init = .ok s0 ∧
      (∀ ik < e.ks.length, ∃ s', (workA2 e).body s0 ik = .ok (s', row ik)) ∧
      autoRange e.t e.cfg .A_2loop_II_III_q = .ok cfg ∧
      (∀ ik < e.ks.length, a2At cuba e (cfg.prec .A_2loop_II_III_q) ik = .ok (add ik)) ∧
      ν = overlay (mapRun paramsA (layFlat 5 paramsA "A") e.ks.length pl sg fun ik c => row ik c + add ik c) μ ∧
      ∀ es', Schedule 5 e.ks.length es' → ∀ μ', RoomFlat 5 e.ks.length μ' → runTermsA2 cuba e es' μ' =
        .ok (cfg, overlay (mapRun paramsA (layFlat 5 paramsA "A") e.ks.length pl sg fun ik c => row ik c + add ik c) μ') := by
  have eq : ∀ es μ, runTermsA2 cuba e es μ = (runHead e .A_2loop paramsA (workA2 e) (layFlat 5 paramsA "A") es μ >>= fun μ => do
      let cfg ← autoRange e.t e.cfg .A_2loop_II_III_q
      let μ ← addRows e.ks.length (layFlat 5 paramsA "A") (a2At cuba e (cfg.prec .A_2loop_II_III_q)) μ
      .ok (cfg, μ)) := by
    intro es μ
    simp only [runHead, runTermsA2, bind_assoc]
    rfl
  have h' := h
  rw [eq] at h'
  simp only [Res.bind_eq_ok] at h'
  obtain ⟨μ1, h1, cfg', h2, ν', h3, h4⟩ := h'
  injection h4 with h4
  injection h4 with h4 h5
  subst h4 h5
  obtain ⟨pl, sg, s0, row, e1, e2, e3, e4, e5, e6⟩ :=
    runHead_assigns (workA2_det e) (layFlat_inj _ _ _ _) (layFlat_in hμ.2) (room12 hμ.1 (by decide) (by decide)) hes h1
  have hd := addRows_ok h3
  choose! add hadd using hd
  have key : ∀ es', Schedule 5 e.ks.length es' → ∀ μ', RoomFlat 5 e.ks.length μ' → runTermsA2 cuba e es' μ' =
        .ok (cfg', overlay (mapRun paramsA (layFlat 5 paramsA "A") e.ks.length pl sg fun ik c => row ik c + add ik c) μ') := by
    intro es' hes' μ' hμ'
    have f1 := fits_mapRun (pl := pl) (sg := sg) (row := row) (layFlat_inj 5 paramsA "A" e.ks.length) (layFlat_in hμ'.2)
      (room12 (params := paramsA) hμ'.1 (by decide) (by decide))
    have a1 := e6 es' hes' μ' f1
    have hcell : ∀ ik < e.ks.length, ∀ c, (overlay (mapRun paramsA (layFlat 5 paramsA "A") e.ks.length pl sg row) μ').at
        (layFlat 5 paramsA "A" ik c) = some (some (row ik c)) := by
      intro ik hik c
      refine overlay_some f1 ?_
      unfold mapRun
      rw [rowMap_lay (layFlat_inj _ _ _ _) row hik c]
      rfl
    have a2 := addRows_overlay (layFlat_inj 5 paramsA "A" e.ks.length) hadd hcell
    rw [eq, a1, Res.ok_bind, h2, Res.ok_bind, a2, Res.ok_bind, overlay_overlay]
    congr 3
    funext c
    unfold mapRun
    by_cases hc : ∃ ik < e.ks.length, ∃ j, layFlat 5 paramsA "A" ik j = c
    · obtain ⟨ik, hik, j, rfl⟩ := hc
      rw [rowMap_lay (layFlat_inj _ _ _ _) _ hik j]
      simp
    · push Not at hc
      rw [rowMap_none hc, rowMap_none hc]
      simp
  refine ⟨pl, sg, s0, row, add, e1, e2, e3, e4, h2, hadd, ?_, key⟩
  have := key es hes μ hμ
  rw [h] at this
  simpa using this

/-! ## Cells -/

theorem mapRun_lay {m : ℕ} {params : List String} {lay : ℕ → Fin m → Cell} {n : ℕ} (hinj : LayInj lay n) (pl sg : List ℝ)
    (row : ℕ → Fin m → ℝ) {ik : ℕ} (hik : ik < n) (j : Fin m) : mapRun params lay n pl sg row (lay ik j) = some (row ik j) := by
  unfold mapRun
  rw [rowMap_lay hinj row hik j]
  rfl

theorem mapRun_off {m : ℕ} {params : List String} {lay : ℕ → Fin m → Cell} {n : ℕ} {pl sg : List ℝ}
    {row : ℕ → Fin m → ℝ} {c : Cell} (h : ∀ ik < n, ∀ j, lay ik j ≠ c) : mapRun params lay n pl sg row c = map12 params n pl sg c := by
  unfold mapRun
  rw [rowMap_none h]
  rfl

theorem map12_none {params : List String} {n : ℕ} {pl sg : List ℝ} {c : Cell}
    (h : c.2 < n → c.1 ≠ pos params "pk_lin" ∧ c.1 ≠ pos params "sigmad2") : map12 params n pl sg c = none := by
  rcases e : map12 params n pl sg c with _ | v
  · rfl
  · obtain ⟨h1, h2⟩ := map12_cases e
    exact absurd h2 (by have := h h1; tauto)

/-! ## C43 -/

/-- C43: a loop of `n` iterations handed out in consecutive blocks to any number of threads is a schedule. -/
theorem C43_static_schedule (m : ℕ) (lens : List ℕ) (h : lens ≠ []) : Schedule m lens.sum (blocks m 0 0 lens) := by
  have hcommit : ∀ (th : ℕ) (q : ℕ → Option ℕ) (es : List Event) (r : ℕ), q th = some r →
      Ordered m (Function.update q th (some 0)) es → Ordered m q (List.replicate r (.commit th) ++ es) := by
    intro th q es r
    induction r generalizing q with
    | zero =>
        intro hq ho
        have : Function.update q th (some 0) = q := by rw [← hq]; simp
        simpa [this] using ho
    | succ r ih =>
        intro hq ho
        refine ⟨r, hq, ih _ (by simp) ?_⟩
        simpa using ho
  have hblock : ∀ (th len lo : ℕ) (q : ℕ → Option ℕ) (es : List Event), q th = some 0 → Ordered m q es →
      Ordered m q (block m th lo len ++ es) := by
    intro th len
    induction len with
    | zero => intro lo q es _ ho; simpa [block] using ho
    | succ len ih =>
        intro lo q es hq ho
        have : block m th lo (len + 1) = .step th lo :: (List.replicate m (.commit th) ++ block m th (lo + 1) len) := by
          simp [block, List.range'_succ]
        rw [this]
        refine ⟨0, hq, ?_⟩
        show Ordered m _ ((List.replicate m (Event.commit th) ++ block m th (lo + 1) len) ++ es)
        rw [List.append_assoc]
        refine hcommit th _ _ m (by simp) ?_
        have e : Function.update (Function.update q th (some (0 + m))) th (some 0) = q := by
          rw [Function.update_idem, ← hq]; simp
        rw [e]
        exact ih (lo + 1) q es hq ho
  have hord : ∀ (lens : List ℕ) (th lo : ℕ) (q : ℕ → Option ℕ), (∀ i, q i = none ∨ q i = some 0) → (∀ i, th ≤ i → q i = none) →
      Ordered m q (blocks m th lo lens) := by
    intro lens
    induction lens with
    | nil => intro th lo q hq _; exact hq
    | cons len rest ih =>
        intro th lo q hq hth
        refine ⟨hth th le_rfl, ?_⟩
        refine hblock th len lo _ _ (by simp) (ih _ _ _ ?_ ?_)
        · intro i
          by_cases hi : i = th
          · subst hi; simp
          · simpa [Function.update_of_ne hi] using hq i
        · intro i hi
          rw [Function.update_of_ne (by omega)]
          exact hth i (by omega)
  have happ : ∀ a b : List Event, steps (a ++ b) = steps a ++ steps b := by
    intro a b
    induction a with
    | nil => rfl
    | cons x xs ih => cases x <;> simp [steps, ih]
  have hrep : ∀ th r, steps (List.replicate r (.commit th)) = [] := by
    intro th r
    induction r with
    | zero => rfl
    | succ r ih => simpa [List.replicate_succ, steps] using ih
  have hsb : ∀ th len lo, steps (block m th lo len) = List.range' lo len := by
    intro th len
    induction len with
    | zero => intro lo; rfl
    | succ len ih =>
        intro lo
        have : block m th lo (len + 1) = .step th lo :: (List.replicate m (.commit th) ++ block m th (lo + 1) len) := by
          simp [block, List.range'_succ]
        rw [this]
        simp [steps, happ, hrep, ih, List.range'_succ]
  have hsteps : ∀ (lens : List ℕ) (th lo : ℕ), steps (blocks m th lo lens) = List.range' lo lens.sum := by
    intro lens
    induction lens with
    | nil => intro th lo; rfl
    | cons len rest ih =>
        intro th lo
        simp only [blocks, List.cons_append, steps, happ, hsb, ih, List.sum_cons]
        rw [List.range'_append_1]
  refine ⟨?_, hord lens 0 0 _ (fun _ => Or.inl rfl) fun _ _ => rfl, ?_⟩
  · cases lens with
    | nil => exact absurd rfl h
    | cons a l => simp [blocks]
  · rw [hsteps, List.range_eq_range']

/-- Non-vacuity: five modes on three threads, one of them idle. -/
example : Schedule 3 5 (blocks 3 0 0 [2, 0, 3]) := C43_static_schedule 3 [2, 0, 3] (by simp)

/-- Non-vacuity: an interleaved schedule.  Two threads, mode 1 before mode 0, stores of the two threads mixed. -/
example : Schedule 1 3 [.init 1, .step 1 1, .init 0, .step 0 2, .commit 1, .step 1 0, .commit 0, .commit 1] := by
  refine ⟨by simp, ?_, by decide⟩
  refine ⟨rfl, 0, by simp, by simp [Function.update], 0, by simp [Function.update], 0, by simp [Function.update], 0,
    by simp [Function.update], 0, by simp [Function.update], 0, by simp [Function.update], ?_⟩
  intro th
  by_cases h0 : th = 0
  · subst h0; simp [Function.update]
  · by_cases h1 : th = 1
    · subst h1; simp [Function.update]
    · simp [Function.update, h0, h1]

/-- C43: no two (mode, column) pairs share a cell, for every run. -/
theorem C43_single_writer (ik ik' : ℕ) :
    (∀ c c', layCols params1 names1 ik c = layCols params1 names1 ik' c' → ik = ik' ∧ c = c') ∧
    (∀ c c', layCols params2 names2 ik c = layCols params2 names2 ik' c' → ik = ik' ∧ c = c') ∧
    (∀ c c', layCols paramsBias namesBias ik c = layCols paramsBias namesBias ik' c' → ik = ik' ∧ c = c') ∧
    (∀ c c', layFlat 5 paramsA "A" ik c = layFlat 5 paramsA "A" ik' c' → ik = ik' ∧ c = c') ∧
    (∀ c c', layFlat 9 paramsB "B" ik c = layFlat 9 paramsB "B" ik' c' → ik = ik' ∧ c = c') := by
  have h1 : ik < ik + ik' + 1 := by omega
  have h2 : ik' < ik + ik' + 1 := by omega
  exact ⟨lay1_inj _ ik h1 ik' h2, lay2_inj _ ik h1 ik' h2, layBias_inj _ ik h1 ik' h2, layFlat_inj _ _ _ _ ik h1 ik' h2,
    layFlat_inj _ _ _ _ ik h1 ik' h2⟩

/-- C43, one-loop spectrum: two schedules give the same memory. -/
theorem C43_one_loop {e : Env} {a b : Field} {es es' : List Event} {μ ν : Mem} (hμ : Room 6 e.ks.length μ)
    (hes : Schedule 3 e.ks.length es) (hes' : Schedule 3 e.ks.length es') :
    runTerms1 e a b es μ = .ok ν ↔ runTerms1 e a b es' μ = .ok ν := by
  have key : ∀ es es', Schedule 3 e.ks.length es → Schedule 3 e.ks.length es' → runTerms1 e a b es μ = .ok ν →
      runTerms1 e a b es' μ = .ok ν := by
    intro es es' hes hes' h
    obtain ⟨pl, sg, s0, row, _, _, _, _, rfl, h6⟩ := run1_assigns hμ hes h
    exact h6 es' hes' μ (fits_mapRun (lay1_inj _) (lay1_in hμ) (room12 hμ (by decide) (by decide)))
  exact ⟨key _ _ hes hes', key _ _ hes' hes⟩

/-- C43, two-loop spectrum. -/
theorem C43_two_loop {cuba : Cuba ℝ} {e : Env} {a b : Field} {es es' : List Event} {μ ν : Mem} {cfg : Cfg ℝ}
    (hμ : Room 11 e.ks.length μ) (hes : Schedule 7 e.ks.length es) (hes' : Schedule 7 e.ks.length es') :
    runTerms2 cuba e a b es μ = .ok (cfg, ν) ↔ runTerms2 cuba e a b es' μ = .ok (cfg, ν) := by
  have key : ∀ es es', Schedule 7 e.ks.length es → Schedule 7 e.ks.length es' → runTerms2 cuba e a b es μ = .ok (cfg, ν) →
      runTerms2 cuba e a b es' μ = .ok (cfg, ν) := by
    intro es es' hes hes' h
    obtain ⟨pl, sg, s0, row, g3, _, _, _, _, _, _, rfl, h6⟩ := run2_assigns hμ hes h
    exact h6 es' hes' μ hμ
  exact ⟨key _ _ hes hes', key _ _ hes' hes⟩

/-- C43, bias terms. -/
theorem C43_bias {e : Env} {es es' : List Event} {μ ν : Mem} (hμ : Room 11 e.ks.length μ)
    (hes : Schedule 8 e.ks.length es) (hes' : Schedule 8 e.ks.length es') :
    runTermsBias e es μ = .ok ν ↔ runTermsBias e es' μ = .ok ν := by
  have key : ∀ es es', Schedule 8 e.ks.length es → Schedule 8 e.ks.length es' → runTermsBias e es μ = .ok ν →
      runTermsBias e es' μ = .ok ν := by
    intro es es' hes hes' h
    obtain ⟨pl, sg, s0, row, _, _, _, _, rfl, h6⟩ := runBias_assigns hμ hes h
    exact h6 es' hes' μ (fits_mapRun (layBias_inj _) (layBias_in hμ) (room12 hμ (by decide) (by decide)))
  exact ⟨key _ _ hes hes', key _ _ hes' hes⟩

/-- C43, one-loop A terms. -/
theorem C43_A_one_loop {e : Env} {es es' : List Event} {μ ν : Mem} (hμ : RoomFlat 5 e.ks.length μ)
    (hes : Schedule 5 e.ks.length es) (hes' : Schedule 5 e.ks.length es') :
    runTermsA1 e es μ = .ok ν ↔ runTermsA1 e es' μ = .ok ν := by
  have key : ∀ es es', Schedule 5 e.ks.length es → Schedule 5 e.ks.length es' → runTermsA1 e es μ = .ok ν →
      runTermsA1 e es' μ = .ok ν := by
    intro es es' hes hes' h
    obtain ⟨pl, sg, s0, row, _, _, _, _, rfl, h6⟩ := runA1_assigns hμ hes h
    exact h6 es' hes' μ (fits_mapRun (layFlat_inj _ _ _ _) (layFlat_in hμ.2) (room12 hμ.1 (by decide) (by decide)))
  exact ⟨key _ _ hes hes', key _ _ hes' hes⟩

/-- C43, two-loop A terms. -/
theorem C43_A_two_loop {cuba : Cuba (Fin 12 → ℝ)} {e : Env} {es es' : List Event} {μ ν : Mem} {cfg : Cfg ℝ}
    (hμ : RoomFlat 5 e.ks.length μ) (hes : Schedule 5 e.ks.length es) (hes' : Schedule 5 e.ks.length es') :
    runTermsA2 cuba e es μ = .ok (cfg, ν) ↔ runTermsA2 cuba e es' μ = .ok (cfg, ν) := by
  have key : ∀ es es', Schedule 5 e.ks.length es → Schedule 5 e.ks.length es' → runTermsA2 cuba e es μ = .ok (cfg, ν) →
      runTermsA2 cuba e es' μ = .ok (cfg, ν) := by
    intro es es' hes hes' h
    obtain ⟨pl, sg, s0, row, add, _, _, _, _, _, _, rfl, h6⟩ := runA2_assigns hμ hes h
    exact h6 es' hes' μ hμ
  exact ⟨key _ _ hes hes', key _ _ hes' hes⟩

/-- C43, B terms. -/
theorem C43_B {e : Env} {dt tt : Pk ℝ} {es es' : List Event} {μ ν : Mem} (hμ : RoomFlat 9 e.ks.length μ)
    (hes : Schedule 9 e.ks.length es) (hes' : Schedule 9 e.ks.length es') :
    runTermsB e dt tt es μ = .ok ν ↔ runTermsB e dt tt es' μ = .ok ν := by
  have key : ∀ es es', Schedule 9 e.ks.length es → Schedule 9 e.ks.length es' → runTermsB e dt tt es μ = .ok ν →
      runTermsB e dt tt es' μ = .ok ν := by
    intro es es' hes hes' h
    obtain ⟨pl, sg, s0, row, _, _, _, _, rfl, h6⟩ := runB_assigns hμ hes h
    exact h6 es' hes' μ (fits_mapRun (layFlat_inj _ _ _ _) (layFlat_in hμ.2) (room12 hμ.1 (by decide) (by decide)))
  exact ⟨key _ _ hes hes', key _ _ hes' hes⟩

/-! ## C44 -/

/-- Two memories agree on the first `n` cells of the arrays `1, ..., N-1`. -/
def AgreeCols (N n : ℕ) (ν ν' : Mem) : Prop := ∀ i ik, 1 ≤ i → i < N → ik < n → ν'.at (i, ik) = ν.at (i, ik)

/-- Two memories agree on the columns of a multi-component run. -/
def AgreeFlat (m n : ℕ) (ν ν' : Mem) : Prop :=
  (∀ i ik, 1 ≤ i → i < 3 → ik < n → ν'.at (i, ik) = ν.at (i, ik)) ∧ ∀ i, i < n * m → ν'.at (3, i) = ν.at (3, i)

theorem overlay_agree {W : Cell → Option ℝ} {μ μ' : Mem} (h : Fits W μ) (h' : Fits W μ') {c : Cell} (hc : W c ≠ none) :
    (overlay W μ').at c = (overlay W μ).at c := by
  rcases e : W c with _ | v
  · exact absurd e hc
  · rw [overlay_some h e, overlay_some h' e]

theorem mapRun1_some {n : ℕ} {pl sg : List ℝ} {row : ℕ → Fin 3 → ℝ} {i ik : ℕ} (h1 : 1 ≤ i) (h6 : i < 6) (hik : ik < n) :
    mapRun params1 (layCols params1 names1) n pl sg row (i, ik) ≠ none := by
  have h12 : ∀ c, map12 params1 n pl sg c ≠ none → mapRun params1 (layCols params1 names1) n pl sg row c ≠ none := by
    intro c hc
    unfold mapRun
    simpa using fun _ => hc
  have hl : ∀ j : Fin 3, mapRun params1 (layCols params1 names1) n pl sg row (pos params1 (names1 j), ik) ≠ none := fun j => by
    have := mapRun_lay (params := params1) (lay1_inj n) pl sg row hik j
    rw [show (pos params1 (names1 j), ik) = layCols params1 names1 ik j from rfl, this]
    simp
  interval_cases i
  · refine h12 _ ?_
    rw [show (1, ik) = (pos params1 "pk_lin", ik) from rfl, map12_pk_lin _ _ hik (by decide)]
    simp
  · refine h12 _ ?_
    rw [show (2, ik) = (pos params1 "sigmad2", ik) from rfl, map12_sigmad2 _ _ hik]
    simp
  · exact hl 0
  · exact hl 1
  · exact hl 2

/-- C44, one-loop spectrum: running again changes nothing, and the stored values do not depend on what the arrays contained. -/
theorem C44_one_loop {e : Env} {a b : Field} {es es' : List Event} {μ μ' ν : Mem} (hμ : Room 6 e.ks.length μ)
    (hμ' : Room 6 e.ks.length μ') (hes : Schedule 3 e.ks.length es) (hes' : Schedule 3 e.ks.length es')
    (h : runTerms1 e a b es μ = .ok ν) :
    runTerms1 e a b es' ν = .ok ν ∧ ∃ ν', runTerms1 e a b es' μ' = .ok ν' ∧ AgreeCols 6 e.ks.length ν ν' := by
  obtain ⟨pl, sg, s0, row, _, _, _, _, rfl, h6⟩ := run1_assigns hμ hes h
  have f : ∀ μ, Room 6 e.ks.length μ → Fits (mapRun params1 (layCols params1 names1) e.ks.length pl sg row) μ := fun μ hμ =>
    fits_mapRun (lay1_inj _) (lay1_in hμ) (room12 hμ (by decide) (by decide))
  refine ⟨?_, _, h6 es' hes' μ' (f μ' hμ'), fun i ik h1 h2 hik => overlay_agree (f μ hμ) (f μ' hμ') (mapRun1_some h1 h2 hik)⟩
  rw [h6 es' hes' _ (f μ hμ).overlay, overlay_idem]

theorem mapRunBias_some {n : ℕ} {pl sg : List ℝ} {row : ℕ → Fin 8 → ℝ} {i ik : ℕ} (h1 : 1 ≤ i) (h6 : i < 11) (hik : ik < n) :
    mapRun paramsBias (layCols paramsBias namesBias) n pl sg row (i, ik) ≠ none := by
  have h12 : ∀ c, map12 paramsBias n pl sg c ≠ none → mapRun paramsBias (layCols paramsBias namesBias) n pl sg row c ≠ none := by
    intro c hc
    unfold mapRun
    simpa using fun _ => hc
  have hl : ∀ j : Fin 8, mapRun paramsBias (layCols paramsBias namesBias) n pl sg row (pos paramsBias (namesBias j), ik) ≠ none :=
    fun j => by
      have := mapRun_lay (params := paramsBias) (layBias_inj n) pl sg row hik j
      rw [show (pos paramsBias (namesBias j), ik) = layCols paramsBias namesBias ik j from rfl, this]
      simp
  interval_cases i
  · refine h12 _ ?_
    rw [show (1, ik) = (pos paramsBias "pk_lin", ik) from rfl, map12_pk_lin _ _ hik (by decide)]
    simp
  · refine h12 _ ?_
    rw [show (2, ik) = (pos paramsBias "sigmad2", ik) from rfl, map12_sigmad2 _ _ hik]
    simp
  · exact hl 0
  · exact hl 1
  · exact hl 2
  · exact hl 3
  · exact hl 4
  · exact hl 5
  · exact hl 6
  · exact hl 7

/-- C44, bias terms. -/
theorem C44_bias {e : Env} {es es' : List Event} {μ μ' ν : Mem} (hμ : Room 11 e.ks.length μ)
    (hμ' : Room 11 e.ks.length μ') (hes : Schedule 8 e.ks.length es) (hes' : Schedule 8 e.ks.length es')
    (h : runTermsBias e es μ = .ok ν) :
    runTermsBias e es' ν = .ok ν ∧ ∃ ν', runTermsBias e es' μ' = .ok ν' ∧ AgreeCols 11 e.ks.length ν ν' := by
  obtain ⟨pl, sg, s0, row, _, _, _, _, rfl, h6⟩ := runBias_assigns hμ hes h
  have f : ∀ μ, Room 11 e.ks.length μ → Fits (mapRun paramsBias (layCols paramsBias namesBias) e.ks.length pl sg row) μ := fun μ hμ =>
    fits_mapRun (layBias_inj _) (layBias_in hμ) (room12 hμ (by decide) (by decide))
  refine ⟨?_, _, h6 es' hes' μ' (f μ' hμ'), fun i ik h1 h2 hik => overlay_agree (f μ hμ) (f μ' hμ') (mapRunBias_some h1 h2 hik)⟩
  rw [h6 es' hes' _ (f μ hμ).overlay, overlay_idem]

theorem mapRunFlat_some {m n : ℕ} {params : List String} {name : String} {pl sg : List ℝ} {row : ℕ → Fin m → ℝ}
    (hne : pos params "sigmad2" ≠ pos params "pk_lin") :
    (∀ ik < n, mapRun params (layFlat m params name) n pl sg row (pos params "pk_lin", ik) ≠ none ∧
      mapRun params (layFlat m params name) n pl sg row (pos params "sigmad2", ik) ≠ none) ∧
    ∀ i < n * m, mapRun params (layFlat m params name) n pl sg row (pos params name, i) ≠ none := by
  have h12 : ∀ c, map12 params n pl sg c ≠ none → mapRun params (layFlat m params name) n pl sg row c ≠ none := by
    intro c hc
    unfold mapRun
    simpa using fun _ => hc
  refine ⟨fun ik hik => ⟨h12 _ ?_, h12 _ ?_⟩, fun i hi => ?_⟩
  · rw [map12_pk_lin _ _ hik hne]; simp
  · rw [map12_sigmad2 _ _ hik]; simp
  · have hm : 0 < m := Nat.pos_of_ne_zero fun h => by subst h; simp at hi
    have hik : i / m < n := by rw [Nat.div_lt_iff_lt_mul hm]; exact hi
    have := mapRun_lay (params := params) (layFlat_inj m params name n) pl sg row hik ⟨i % m, Nat.mod_lt _ hm⟩
    rw [show layFlat m params name (i / m) ⟨i % m, Nat.mod_lt _ hm⟩ = (pos params name, i) by
      simp only [layFlat]; rw [Nat.div_add_mod']] at this
    rw [this]
    simp

theorem agreeFlat_overlay {m n : ℕ} {params : List String} {name : String} {pl sg : List ℝ} {row : ℕ → Fin m → ℝ} {μ μ' : Mem}
    (h1 : pos params "pk_lin" = 1) (h2 : pos params "sigmad2" = 2) (h3 : pos params name = 3)
    (f : Fits (mapRun params (layFlat m params name) n pl sg row) μ)
    (f' : Fits (mapRun params (layFlat m params name) n pl sg row) μ') :
    AgreeFlat m n (overlay (mapRun params (layFlat m params name) n pl sg row) μ)
      (overlay (mapRun params (layFlat m params name) n pl sg row) μ') := by
  obtain ⟨a1, a2⟩ := mapRunFlat_some (m := m) (n := n) (name := name) (pl := pl) (sg := sg) (row := row)
    (show pos params "sigmad2" ≠ pos params "pk_lin" by rw [h1, h2]; decide)
  refine ⟨fun i ik hi1 hi3 hik => overlay_agree f f' ?_, fun i hi => overlay_agree f f' ?_⟩
  · interval_cases i
    · rw [← h1]; exact (a1 ik hik).1
    · rw [← h2]; exact (a1 ik hik).2
  · rw [← h3]; exact a2 i hi

/-- C44, one-loop A terms. -/
theorem C44_A_one_loop {e : Env} {es es' : List Event} {μ μ' ν : Mem} (hμ : RoomFlat 5 e.ks.length μ)
    (hμ' : RoomFlat 5 e.ks.length μ') (hes : Schedule 5 e.ks.length es) (hes' : Schedule 5 e.ks.length es')
    (h : runTermsA1 e es μ = .ok ν) :
    runTermsA1 e es' ν = .ok ν ∧ ∃ ν', runTermsA1 e es' μ' = .ok ν' ∧ AgreeFlat 5 e.ks.length ν ν' := by
  obtain ⟨pl, sg, s0, row, _, _, _, _, rfl, h6⟩ := runA1_assigns hμ hes h
  have f : ∀ μ, RoomFlat 5 e.ks.length μ → Fits (mapRun paramsA (layFlat 5 paramsA "A") e.ks.length pl sg row) μ := fun μ hμ =>
    fits_mapRun (layFlat_inj _ _ _ _) (layFlat_in hμ.2) (room12 hμ.1 (by decide) (by decide))
  refine ⟨?_, _, h6 es' hes' μ' (f μ' hμ'), agreeFlat_overlay rfl rfl rfl (f μ hμ) (f μ' hμ')⟩
  rw [h6 es' hes' _ (f μ hμ).overlay, overlay_idem]

/-- C44, B terms. -/
theorem C44_B {e : Env} {dt tt : Pk ℝ} {es es' : List Event} {μ μ' ν : Mem} (hμ : RoomFlat 9 e.ks.length μ)
    (hμ' : RoomFlat 9 e.ks.length μ') (hes : Schedule 9 e.ks.length es) (hes' : Schedule 9 e.ks.length es')
    (h : runTermsB e dt tt es μ = .ok ν) :
    runTermsB e dt tt es' ν = .ok ν ∧ ∃ ν', runTermsB e dt tt es' μ' = .ok ν' ∧ AgreeFlat 9 e.ks.length ν ν' := by
  obtain ⟨pl, sg, s0, row, _, _, _, _, rfl, h6⟩ := runB_assigns hμ hes h
  have f : ∀ μ, RoomFlat 9 e.ks.length μ → Fits (mapRun paramsB (layFlat 9 paramsB "B") e.ks.length pl sg row) μ := fun μ hμ =>
    fits_mapRun (layFlat_inj _ _ _ _) (layFlat_in hμ.2) (room12 hμ.1 (by decide) (by decide))
  refine ⟨?_, _, h6 es' hes' μ' (f μ' hμ'), agreeFlat_overlay rfl rfl rfl (f μ hμ) (f μ' hμ')⟩
  rw [h6 es' hes' _ (f μ hμ).overlay, overlay_idem]

/-- The automatic range only touches the range of `p`, and finds the same one the second time. -/
theorem autoRange_spec {t : Pk ℝ} {cfg cfg' : Cfg ℝ} {p : PName} (h : autoRange t cfg p = .ok cfg') :
    (∀ p', p' ≠ p → cfg'.prec p' = cfg.prec p') ∧ cfg'.interp = cfg.interp ∧ cfg'.uv = cfg.uv ∧
      (cfg'.prec p).n = (cfg.prec p).n ∧ (cfg'.prec p).interpol = (cfg.prec p).interpol ∧ autoRange t cfg' p = .ok cfg' := by
  simp only [autoRange, Res.bind_eq_ok] at h
  obtain ⟨r, hr, h⟩ := h
  injection h with h
  subst h
  refine ⟨fun p' hp => by simp [Function.update_of_ne hp], rfl, rfl, by simp, by simp, ?_⟩
  have h2 : glqRange t { cfg.prec p with min := r.1, max := r.2 } = .ok r := by
    unfold glqRange at hr ⊢
    split at hr
    · split
      · exact hr
      · rfl
    · injection hr with hr
      subst hr
      split
      · contradiction
      · rfl
  simp only [autoRange, Function.update_self, h2, Res.ok_bind, Function.update_idem]

theorem mapRun2_some {n : ℕ} {pl sg : List ℝ} {row : ℕ → Fin 7 → ℝ} {g3 : ℕ → ℝ} {i ik : ℕ} (h1 : 1 ≤ i) (h6 : i < 11) (hik : ik < n) :
    mapRun2 n pl sg row g3 (i, ik) ≠ none := by
  have hr : ∀ c, mapRun params2 (layCols params2 names2) n pl sg row c ≠ none → mapRun2 n pl sg row g3 c ≠ none := by
    intro c hc
    unfold mapRun2
    simpa using fun _ => hc
  have h12 : ∀ c, map12 params2 n pl sg c ≠ none → mapRun params2 (layCols params2 names2) n pl sg row c ≠ none := by
    intro c hc
    unfold mapRun
    simpa using fun _ => hc
  have hl : ∀ j : Fin 7, mapRun params2 (layCols params2 names2) n pl sg row (pos params2 (names2 j), ik) ≠ none := fun j => by
    have := mapRun_lay (params := params2) (lay2_inj n) pl sg row hik j
    rw [show (pos params2 (names2 j), ik) = layCols params2 names2 ik j from rfl, this]
    simp
  interval_cases i
  · refine hr _ (h12 _ ?_)
    rw [show (1, ik) = (pos params2 "pk_lin", ik) from rfl, map12_pk_lin _ _ hik (by decide)]
    simp
  · refine hr _ (h12 _ ?_)
    rw [show (2, ik) = (pos params2 "sigmad2", ik) from rfl, map12_sigmad2 _ _ hik]
    simp
  · exact hr _ (hl 0)
  · exact hr _ (hl 1)
  · exact hr _ (hl 2)
  · exact hr _ (hl 3)
  · exact hr _ (hl 4)
  · exact hr _ (hl 5)
  · exact hr _ (hl 6)
  · unfold mapRun2
    rw [show (10, ik) = layOne (pos params2 "pk_gamma3_tree") ik 0 from rfl, rowMap_lay (layOne_inj _ _) _ hik]
    simp

theorem fits_mapRun2 {n : ℕ} {pl sg : List ℝ} {row : ℕ → Fin 7 → ℝ} {g3 : ℕ → ℝ} {μ : Mem} (hμ : Room 11 n μ) :
    Fits (mapRun2 n pl sg row g3) μ :=
  (fits_mapRun (lay2_inj _) (lay2_in hμ) (room12 hμ (by decide) (by decide))).or
    (fits_rowMap (layOne_inj _ _) fun ik hik _ => lt_of_lt_of_le hik (hμ (pos params2 "pk_gamma3_tree") (by decide)))

/-- C44, two-loop spectrum: the second run starts from the settings the first one left. -/
theorem C44_two_loop {cuba : Cuba ℝ} {e : Env} {a b : Field} {es es' : List Event} {μ μ' ν : Mem} {cfg : Cfg ℝ}
    (hμ : Room 11 e.ks.length μ) (hμ' : Room 11 e.ks.length μ') (hes : Schedule 7 e.ks.length es)
    (hes' : Schedule 7 e.ks.length es') (h : runTerms2 cuba e a b es μ = .ok (cfg, ν)) :
    runTerms2 cuba { e with cfg := cfg } a b es' ν = .ok (cfg, ν) ∧
      ∃ ν', runTerms2 cuba { e with cfg := cfg } a b es' μ' = .ok (cfg, ν') ∧ AgreeCols 11 e.ks.length ν ν' := by
  obtain ⟨pl, sg, s0, row, g3, _, _, _, _, h5, _, rfl, h6⟩ := run2_assigns hμ hes h
  obtain ⟨c1, c2, c3, c4, c5, c6⟩ := autoRange_spec h5
  have hw : work2 { e with cfg := cfg } a b = work2 e a b := by
    simp only [work2, Env.tabQ, Env.tabMu]
    rw [c1 .gamma1_1loop_q (by decide), c1 .gamma1_2loop_q (by decide), c1 .gamma2_tree_q (by decide),
      c1 .gamma2_tree_mu (by decide), c1 .gamma2d_1loop_q (by decide), c1 .gamma2t_1loop_q (by decide)]
  have heq : ∀ es μ, runTerms2 cuba { e with cfg := cfg } a b es μ = runTerms2 cuba e a b es μ := by
    intro es μ
    unfold runTerms2
    simp only [hw, c6, h5]
    have h12 : columns12 { e with cfg := cfg } .spectrum_2loop params2 μ = columns12 e .spectrum_2loop params2 μ := by
      simp only [columns12, c2, c3]
    rw [h12]
  have hov : Room 11 e.ks.length (overlay (mapRun2 e.ks.length pl sg row g3) μ) := by
    intro i hi
    rw [overlay_length]
    exact hμ i hi
  refine ⟨?_, _, by rw [heq, h6 es' hes' μ' hμ'], fun i ik h1 h2 hik =>
    overlay_agree (fits_mapRun2 hμ) (fits_mapRun2 hμ') (mapRun2_some h1 h2 hik)⟩
  rw [heq, h6 es' hes' _ hov, overlay_idem]

/-- C44, two-loop A terms: the serial loop adds to cells the parallel region has just overwritten. -/
theorem C44_A_two_loop {cuba : Cuba (Fin 12 → ℝ)} {e : Env} {es es' : List Event} {μ μ' ν : Mem} {cfg : Cfg ℝ}
    (hμ : RoomFlat 5 e.ks.length μ) (hμ' : RoomFlat 5 e.ks.length μ') (hes : Schedule 5 e.ks.length es)
    (hes' : Schedule 5 e.ks.length es') (h : runTermsA2 cuba e es μ = .ok (cfg, ν)) :
    runTermsA2 cuba { e with cfg := cfg } es' ν = .ok (cfg, ν) ∧
      ∃ ν', runTermsA2 cuba { e with cfg := cfg } es' μ' = .ok (cfg, ν') ∧ AgreeFlat 5 e.ks.length ν ν' := by
  obtain ⟨pl, sg, s0, row, add, _, _, _, _, h5, _, rfl, h6⟩ := runA2_assigns hμ hes h
  obtain ⟨c1, c2, c3, c4, c5, c6⟩ := autoRange_spec h5
  have hw : workA2 { e with cfg := cfg } = workA2 e := by
    simp only [workA2, Env.tabQ, Env.tabMu, Env.biI, c2, c3]
    rw [c1 .A_2loop_I_q (by decide), c1 .A_2loop_I_mu (by decide), c1 .gamma1_1loop_q (by decide),
      c1 .gamma2d_1loop_q (by decide), c1 .gamma2t_1loop_q (by decide)]
  have heq : ∀ es μ, runTermsA2 cuba { e with cfg := cfg } es μ = runTermsA2 cuba e es μ := by
    intro es μ
    unfold runTermsA2
    simp only [hw, c6, h5, c2, c3]
    have h12 : columns12 { e with cfg := cfg } .A_2loop paramsA μ = columns12 e .A_2loop paramsA μ := by
      simp only [columns12, c2, c3]
    rw [h12]
  have f : ∀ μ, RoomFlat 5 e.ks.length μ →
      Fits (mapRun paramsA (layFlat 5 paramsA "A") e.ks.length pl sg fun ik c => row ik c + add ik c) μ := fun μ hμ =>
    fits_mapRun (layFlat_inj _ _ _ _) (layFlat_in hμ.2) (room12 hμ.1 (by decide) (by decide))
  have hov : RoomFlat 5 e.ks.length
      (overlay (mapRun paramsA (layFlat 5 paramsA "A") e.ks.length pl sg fun ik c => row ik c + add ik c) μ) :=
    ⟨fun i hi => by rw [overlay_length]; exact hμ.1 i hi, by rw [overlay_length]; exact hμ.2⟩
  refine ⟨?_, _, by rw [heq, h6 es' hes' μ' hμ'], agreeFlat_overlay rfl rfl rfl (f μ hμ) (f μ' hμ')⟩
  rw [heq, h6 es' hes' _ hov, overlay_idem]

end Verif
