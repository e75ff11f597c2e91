import Verif.Proofs.Tables
import Mathlib.Data.List.GetD

/-!
# Runs as assignments

A run stores values that do not depend on the previous contents of the memory: it overlays a fixed partial map on it.
-/

namespace Verif

open Res (Rel)

/-- Memory after storing the values of `W`. -/
noncomputable def overlay (W : Cell → Option ℝ) (μ : Mem) : Mem :=
  fun a => (μ a).mapIdx fun i x => match W (a, i) with
    | some v => some v
    | none => x

/-- The cells of `W` exist. -/
def Fits (W : Cell → Option ℝ) (μ : Mem) : Prop := ∀ c v, W c = some v → c.2 < (μ c.1).length

/-- `T` stores the values of `W`, whatever the memory contains. -/
def Assigns (T : Mem → Res Mem) (W : Cell → Option ℝ) : Prop := ∀ μ, Fits W μ → T μ = .ok (overlay W μ)

theorem overlay_at (W : Cell → Option ℝ) (μ : Mem) (c : Cell) :
    (overlay W μ).at c = (μ.at c).map fun x => match W c with
      | some v => some v
      | none => x := by
  simp [Mem.at, overlay]

theorem overlay_length (W : Cell → Option ℝ) (μ : Mem) (a : ℕ) : (overlay W μ a).length = (μ a).length := by simp [overlay]

theorem overlay_some {W : Cell → Option ℝ} {μ : Mem} {c : Cell} {v : ℝ} (hf : Fits W μ) (h : W c = some v) :
    (overlay W μ).at c = some (some v) := by
  have := hf c v h
  rw [overlay_at, h]
  simp [Mem.at, this]

theorem overlay_none {W : Cell → Option ℝ} (μ : Mem) {c : Cell} (h : W c = none) : (overlay W μ).at c = μ.at c := by
  rw [overlay_at, h]
  simp

theorem Fits.overlay {W W' : Cell → Option ℝ} {μ : Mem} (h : Fits W μ) : Fits W (overlay W' μ) := by
  intro c v hc
  rw [overlay_length]
  exact h c v hc

theorem overlay_overlay (W W' : Cell → Option ℝ) (μ : Mem) :
    overlay W' (overlay W μ) = overlay (fun c => (W' c).or (W c)) μ := by
  apply Mem.ext_at
  intro c
  rw [overlay_at, overlay_at, overlay_at]
  rcases W' c with _ | v' <;> rcases W c with _ | v <;> rcases μ.at c with _ | x <;> simp

theorem overlay_idem (W : Cell → Option ℝ) (μ : Mem) : overlay W (overlay W μ) = overlay W μ := by
  rw [overlay_overlay]
  congr 1
  funext c
  rcases W c <;> rfl

theorem Assigns.comp {T T' : Mem → Res Mem} {W W' : Cell → Option ℝ} (h : Assigns T W) (h' : Assigns T' W') :
    Assigns (fun μ => T μ >>= T') (fun c => (W' c).or (W c)) := by
  intro μ hf
  have h1 : Fits W μ := by
    intro c v hc
    rcases e : W' c with _ | v'
    · exact hf c v (by simp [e, hc])
    · exact hf c v' (by simp [e])
  have h2 : Fits W' μ := fun c v hc => hf c v (by simp [hc])
  show (T μ >>= T') = _
  rw [h μ h1, Res.ok_bind, h' _ h2.overlay, overlay_overlay]

open Classical in
/-- The values of `n` rows. -/
noncomputable def rowMap {m : ℕ} (lay : ℕ → Fin m → Cell) (n : ℕ) (row : ℕ → Fin m → ℝ) (c : Cell) : Option ℝ :=
  if h : ∃ p : ℕ × Fin m, p.1 < n ∧ lay p.1 p.2 = c then some (row (Classical.choose h).1 (Classical.choose h).2) else none

theorem rowMap_lay {m : ℕ} {lay : ℕ → Fin m → Cell} {n : ℕ} (hinj : LayInj lay n) (row : ℕ → Fin m → ℝ) {ik : ℕ} (hik : ik < n)
    (j : Fin m) : rowMap lay n row (lay ik j) = some (row ik j) := by
  have h : ∃ p : ℕ × Fin m, p.1 < n ∧ lay p.1 p.2 = lay ik j := ⟨(ik, j), hik, rfl⟩
  unfold rowMap
  rw [dif_pos h]
  obtain ⟨h1, h2⟩ := Classical.choose_spec h
  obtain ⟨e1, e2⟩ := hinj _ h1 _ hik _ _ h2
  rw [e1, e2]

theorem rowMap_none {m : ℕ} {lay : ℕ → Fin m → Cell} {n : ℕ} {row : ℕ → Fin m → ℝ} {c : Cell}
    (h : ∀ ik < n, ∀ j, lay ik j ≠ c) : rowMap lay n row c = none := by
  unfold rowMap
  rw [dif_neg]
  rintro ⟨p, hp, hc⟩
  exact h p.1 hp p.2 hc

theorem rowMap_cases {m : ℕ} {lay : ℕ → Fin m → Cell} {n : ℕ} {row : ℕ → Fin m → ℝ} {c : Cell} {v : ℝ} (hinj : LayInj lay n)
    (h : rowMap lay n row c = some v) : ∃ ik < n, ∃ j, lay ik j = c ∧ v = row ik j := by
  by_cases hc : ∃ ik < n, ∃ j, lay ik j = c
  · obtain ⟨ik, hik, j, rfl⟩ := hc
    rw [rowMap_lay hinj row hik j] at h
    exact ⟨ik, hik, j, rfl, by simpa using h.symm⟩
  · push Not at hc
    rw [rowMap_none hc] at h
    exact absurd h (by simp)

theorem fits_rowMap {m : ℕ} {lay : ℕ → Fin m → Cell} {n : ℕ} {row : ℕ → Fin m → ℝ} {μ : Mem} (hinj : LayInj lay n)
    (hin : LayIn lay n μ) : Fits (rowMap lay n row) μ := by
  intro c v h
  obtain ⟨ik, hik, j, rfl, _⟩ := rowMap_cases hinj h
  exact hin ik hik j

theorem Fits.layIn {m : ℕ} {lay : ℕ → Fin m → Cell} {n : ℕ} {row : ℕ → Fin m → ℝ} {μ : Mem} (hinj : LayInj lay n)
    (h : Fits (rowMap lay n row) μ) : LayIn lay n μ := fun _ hik j => h _ _ (rowMap_lay hinj row hik j)

theorem Stored.eq_overlay {m : ℕ} {lay : ℕ → Fin m → Cell} {n : ℕ} {row : ℕ → Fin m → ℝ} {μ ν : Mem} (hinj : LayInj lay n)
    (hin : LayIn lay n μ) (h : Stored lay n row μ ν) : ν = overlay (rowMap lay n row) μ := by
  apply h.unique
  refine ⟨fun ik hik j => overlay_some (fits_rowMap hinj hin) (rowMap_lay hinj row hik j), fun c hc => ?_, fun a => ?_⟩
  · exact overlay_none μ (rowMap_none hc)
  · exact overlay_length _ _ _

/-- A region that is defined under one schedule is, under every schedule, the assignment of its rows. -/
theorem region_assigns {σ : Type} {m : ℕ} {W : Work σ m} {lay : ℕ → Fin m → Cell} {n : ℕ} {S : σ → σ → Prop} {μ ν : Mem}
    (hW : W.Det S) (hinj : LayInj lay n) (hin : LayIn lay n μ) {es : List Event} (hes : Schedule m n es)
    (h : region W lay es μ = .ok ν) :
    ∃ s0 row, W.init = .ok s0 ∧ (∀ ik < n, ∃ s', W.body s0 ik = .ok (s', row ik)) ∧ ν = overlay (rowMap lay n row) μ ∧
      ∀ es', Schedule m n es' → Assigns (region W lay es') (rowMap lay n row) := by
  obtain ⟨s0, row, h0, hp, hst⟩ := region_spec hW hinj hin hes h
  refine ⟨s0, row, h0, fun ik hik => ?_, hst.eq_overlay hinj hin, fun es' hes' μ' hf => ?_⟩
  · obtain ⟨s', h1, _⟩ := hp.body s0 (hW.1 s0) ik hik
    exact ⟨s', h1⟩
  · have hin' := hf.layIn hinj
    obtain ⟨ν', h1, h2⟩ := region_ok hp hinj hin' es' hes'
    rw [h1, h2.eq_overlay hinj hin']

/-- Converse: if the tables and every iteration from them are defined then every schedule is the assignment of the rows. -/
theorem region_assigns_of {σ : Type} {m : ℕ} {W : Work σ m} {lay : ℕ → Fin m → Cell} {n : ℕ} {S : σ → σ → Prop}
    (hW : W.Det S) (hinj : LayInj lay n) {s0 : σ} {row : ℕ → Fin m → ℝ} (h0 : W.init = .ok s0)
    (hrow : ∀ ik < n, ∃ s', W.body s0 ik = .ok (s', row ik)) (es : List Event) (hes : Schedule m n es) :
    Assigns (region W lay es) (rowMap lay n row) := by
  intro μ hf
  have hin := hf.layIn hinj
  have hp : W.Pure n (fun s => S s s0) row := by
    refine ⟨⟨s0, h0, hW.1 s0⟩, fun s hs ik hik => ?_⟩
    obtain ⟨s', hs'⟩ := hrow ik hik
    have hrel := hW.2 s s0 hs ik
    rw [hs'] at hrel
    obtain ⟨r, hr, h1, h2⟩ := hrel.ok'
    exact ⟨r.1, by rw [hr]; exact congrArg _ (Prod.ext rfl h2), h1⟩
  obtain ⟨ν, h1, h2⟩ := region_ok hp hinj hin es hes
  rw [h1, h2.eq_overlay hinj hin]

/-! ## Serial loops -/

/-- Postcondition of a loop that is known to be defined. -/
theorem iter_post {σ : Type} {body : ℕ → σ → Res σ} (P : ℕ → σ → Prop) :
    ∀ (n i : ℕ) (s s' : σ), iter body n i s = .ok s' → P i s →
      (∀ j s s', i ≤ j → j < i + n → P j s → body j s = .ok s' → P (j + 1) s') → P (i + n) s'
  | 0, i, s, s', h, h0, _ => by cases h; exact h0
  | n + 1, i, s, s', h, h0, hb => by
      simp only [iter, Res.bind_eq_ok] at h
      obtain ⟨s1, h1, h2⟩ := h
      have := iter_post P n (i + 1) s1 s' h2 (hb i s s1 le_rfl (by omega) h0 h1) fun j a b hj hj' => hb j a b (by omega) (by omega)
      rwa [show i + 1 + n = i + (n + 1) by omega] at this

theorem forRange_post {σ : Type} {body : ℕ → σ → Res σ} {n : ℕ} {s s' : σ} (P : ℕ → σ → Prop)
    (h : forRange 0 n s body = .ok s') (h0 : P 0 s)
    (hb : ∀ j s s', j < n → P j s → body j s = .ok s' → P (j + 1) s') : P n s' := by
  have := iter_post P n 0 s s' h h0 fun j a b _ hj => hb j a b (by omega)
  simpa using this

/-- One array, one cell per iteration. -/
def layOne (id ik : ℕ) (_ : Fin 1) : Cell := (id, ik)

theorem layOne_inj (id n : ℕ) : LayInj (layOne id) n := by
  intro ik _ ik' _ c c' h
  simp only [layOne, Prod.mk.injEq] at h
  exact ⟨h.2, Subsingleton.elim _ _⟩

theorem fillArr_assigns (id n : ℕ) (f : ℕ → Res ℝ) (v : ℕ → ℝ) (hf : ∀ ik < n, f ik = .ok (v ik)) :
    Assigns (fillArr id n f) (rowMap (layOne id) n fun ik _ => v ik) := by
  intro μ hfit
  have hin := hfit.layIn (layOne_inj id n)
  have := forRange_inv (lo := 0) (hi := n) (s := μ) (body := fun ik μ => do
      let v ← f ik
      μ.wr (id, ik) v) (P := fun j ν => Stored (layOne id) j (fun ik _ => v ik) μ ν) (Nat.zero_le n)
    ⟨fun _ h => absurd h (Nat.not_lt_zero _), fun _ _ => rfl, fun _ => rfl⟩ (by
      intro j ν _ hj hν
      obtain ⟨ν', h1, h2, h3, h4⟩ := Mem.wr_ok ν (id, j) (v j) (by rw [hν.len]; exact hin j hj 0)
      refine ⟨ν', by simp [hf j hj, h1], fun ik hik c => ?_, fun c hc => ?_, fun a => ?_⟩
      · rcases Nat.lt_succ_iff_lt_or_eq.1 hik with hik | rfl
        · rw [h3 _ (by simp [layOne]; omega)]
          exact hν.row ik hik c
        · exact h2
      · rw [h3 c (fun e => hc j (by omega) 0 e.symm)]
        exact hν.other c fun ik hik => hc ik (by omega)
      · rw [h4, hν.len])
  obtain ⟨ν, h1, h2⟩ := this
  unfold fillArr
  rw [h1, h2.eq_overlay (layOne_inj id n) hin]

theorem fillArr_ok {id n : ℕ} {f : ℕ → Res ℝ} {μ ν : Mem} (h : fillArr id n f μ = .ok ν) : ∀ ik < n, (f ik).defined := by
  have := forRange_post (P := fun j _ => ∀ ik < j, (f ik).defined) h (by simp) (by
    intro j s s' _ hP hb ik hik
    simp only [Res.bind_eq_ok] at hb
    obtain ⟨v, hv, _⟩ := hb
    rcases Nat.lt_succ_iff_lt_or_eq.1 hik with hik | rfl
    · exact hP ik hik
    · exact ⟨v, hv⟩)
  exact this

/-! ## Lengths -/

theorem findPkLoop_length (t : Pk ℝ) (i : Interpol) (k0 k1 : ℝ) : ∀ (ks : List ℝ) (st : ℕ) (l : List ℝ),
    findPkLoop t i k0 k1 st ks = .ok l → l.length = ks.length
  | [], _, l, h => by cases h; rfl
  | k :: ks, st, l, h => by
      simp only [findPkLoop, Res.bind_eq_ok] at h
      obtain ⟨⟨st', v⟩, _, vs, h2, h3⟩ := h
      cases h3
      simp [findPkLoop_length t i k0 k1 ks st' vs h2]

theorem findPk_length {t : Pk ℝ} {ks : List ℝ} {i : Interpol} {l : List ℝ} (h : findPk t ks i = .ok l) :
    l.length = ks.length := by
  simp only [findPk, Res.bind_eq_ok] at h
  obtain ⟨_, _, _, _, h⟩ := h
  exact findPkLoop_length t i _ _ ks 0 l h

theorem sigmaLoop_length (t : Pk ℝ) (uv : ℝ) : ∀ (ks : List ℝ) (ik : ℕ) (acc : ℝ) (l : List ℝ),
    sigmaLoop t uv ik acc ks = .ok l → l.length = ks.length
  | [], _, _, l, h => by cases h; rfl
  | k :: ks, ik, acc, l, h => by
      simp only [sigmaLoop, Res.bind_eq_ok] at h
      obtain ⟨k0, _, h⟩ := h
      split at h
      · simp only [Res.bind_eq_ok] at h
        obtain ⟨vs, h2, h3⟩ := h
        cases h3
        simp [sigmaLoop_length t uv ks _ _ vs h2]
      · simp only [Res.bind_eq_ok] at h
        obtain ⟨⟨i', a', w⟩, _, v, _, vs, h2, h3⟩ := h
        cases h3
        simp [sigmaLoop_length t uv ks _ _ vs h2]

theorem runningSigmad2_length {t : Pk ℝ} {ks : List ℝ} {uv : ℝ} {l : List ℝ} (h : runningSigmad2 t ks uv = .ok l) :
    l.length = ks.length := sigmaLoop_length t uv ks _ _ l h

theorem rd_getD {l : List ℝ} {i : ℕ} (h : i < l.length) : rd l i = .ok (l.getD i 0) := by
  rw [rd_ok h, List.getD_eq_getElem _ _ h]

/-! ## Opening columns -/

/-- The assignment made by `columns12`. -/
noncomputable def map12 (params : List String) (n : ℕ) (pl sg : List ℝ) (c : Cell) : Option ℝ :=
  (rowMap (layOne (pos params "sigmad2")) n (fun ik _ => sg.getD ik 0) c).or
    (rowMap (layOne (pos params "pk_lin")) n (fun ik _ => pl.getD ik 0) c)

theorem columns12_assigns (e : Env) (o : IName) (params : List String) {pl sg : List ℝ}
    (h1 : findPk e.t e.ks (e.cfg.interp o) = .ok pl) (h2 : runningSigmad2 e.t e.ks (e.cfg.uv o) = .ok sg) :
    Assigns (columns12 e o params) (map12 params e.ks.length pl sg) := by
  intro μ hf
  have a1 := fillArr_assigns (pos params "pk_lin") e.ks.length (rd pl) (fun ik => pl.getD ik 0)
    (fun ik hik => rd_getD (by rw [findPk_length h1]; exact hik))
  have a2 := fillArr_assigns (pos params "sigmad2") e.ks.length (rd sg) (fun ik => sg.getD ik 0)
    (fun ik hik => rd_getD (by rw [runningSigmad2_length h2]; exact hik))
  have := (a1.comp a2) μ hf
  unfold columns12
  rw [h1, h2]
  exact this

theorem columns12_ok {e : Env} {o : IName} {params : List String} {μ ν : Mem} (h : columns12 e o params μ = .ok ν) :
    ∃ pl sg, findPk e.t e.ks (e.cfg.interp o) = .ok pl ∧ runningSigmad2 e.t e.ks (e.cfg.uv o) = .ok sg := by
  simp only [columns12, Res.bind_eq_ok] at h
  obtain ⟨pl, h1, _, _, sg, h2, _⟩ := h
  exact ⟨pl, sg, h1, h2⟩

/-! ## Layouts -/

theorem layFlat_inj (m : ℕ) (params : List String) (name : String) (n : ℕ) : LayInj (layFlat m params name) n := by
  intro ik _ ik' _ c c' h
  simp only [layFlat, Prod.mk.injEq, true_and] at h
  have hm : 0 < m := lt_of_le_of_lt (Nat.zero_le _) c.2
  have h1 : ik = ik' := by
    have := congrArg (· / m) h
    simpa [Nat.add_comm (ik * m), Nat.add_comm (ik' * m), Nat.add_mul_div_right _ _ hm, Nat.div_eq_of_lt c.2,
      Nat.div_eq_of_lt c'.2] using this
  subst h1
  exact ⟨rfl, Fin.ext (by omega)⟩

theorem layCols_inj {m : ℕ} (params : List String) (names : Fin m → String)
    (h : ∀ c c', pos params (names c) = pos params (names c') → c = c') (n : ℕ) : LayInj (layCols params names) n := by
  intro ik _ ik' _ c c' e
  simp only [layCols, Prod.mk.injEq] at e
  exact ⟨e.2, h c c' e.1⟩

/-! ## Whole runs -/

/-- Values stored by a run without serial tail. -/
noncomputable def mapRun {m : ℕ} (params : List String) (lay : ℕ → Fin m → Cell) (n : ℕ) (pl sg : List ℝ) (row : ℕ → Fin m → ℝ)
    (c : Cell) : Option ℝ := (rowMap lay n row c).or (map12 params n pl sg c)

/-- The arrays `pk_lin` and `sigmad2` hold `n` values. -/
def Room12 (params : List String) (n : ℕ) (μ : Mem) : Prop :=
  n ≤ (μ (pos params "pk_lin")).length ∧ n ≤ (μ (pos params "sigmad2")).length

theorem map12_cases {params : List String} {n : ℕ} {pl sg : List ℝ} {c : Cell} {v : ℝ} (h : map12 params n pl sg c = some v) :
    c.2 < n ∧ (c.1 = pos params "pk_lin" ∨ c.1 = pos params "sigmad2") := by
  unfold map12 at h
  rcases Option.or_eq_some_iff.1 h with h | ⟨_, h⟩
  · obtain ⟨ik, hik, j, rfl, _⟩ := rowMap_cases (layOne_inj _ _) h
    exact ⟨hik, Or.inr rfl⟩
  · obtain ⟨ik, hik, j, rfl, _⟩ := rowMap_cases (layOne_inj _ _) h
    exact ⟨hik, Or.inl rfl⟩

theorem fits_map12 {params : List String} {n : ℕ} {pl sg : List ℝ} {μ : Mem} (h : Room12 params n μ) :
    Fits (map12 params n pl sg) μ := by
  intro c v hc
  obtain ⟨h1, h2 | h2⟩ := map12_cases hc
  · rw [h2]; exact lt_of_lt_of_le h1 h.1
  · rw [h2]; exact lt_of_lt_of_le h1 h.2

theorem Fits.or {W W' : Cell → Option ℝ} {μ : Mem} (h : Fits W μ) (h' : Fits W' μ) : Fits (fun c => (W' c).or (W c)) μ := by
  intro c v hc
  rcases Option.or_eq_some_iff.1 hc with h1 | ⟨_, h1⟩
  · exact h' c v h1
  · exact h c v h1

theorem fits_mapRun {m : ℕ} {params : List String} {lay : ℕ → Fin m → Cell} {n : ℕ} {pl sg : List ℝ} {row : ℕ → Fin m → ℝ} {μ : Mem}
    (hinj : LayInj lay n) (hin : LayIn lay n μ) (h : Room12 params n μ) : Fits (mapRun params lay n pl sg row) μ :=
  (fits_map12 h).or (fits_rowMap hinj hin)

theorem map12_sigmad2 {params : List String} {n : ℕ} (pl sg : List ℝ) {ik : ℕ} (hik : ik < n) :
    map12 params n pl sg (pos params "sigmad2", ik) = some (sg.getD ik 0) := by
  unfold map12
  rw [show (pos params "sigmad2", ik) = layOne (pos params "sigmad2") ik 0 from rfl, rowMap_lay (layOne_inj _ _) _ hik]
  rfl

theorem map12_pk_lin {params : List String} {n : ℕ} (pl sg : List ℝ) {ik : ℕ} (hik : ik < n)
    (hne : pos params "sigmad2" ≠ pos params "pk_lin") :
    map12 params n pl sg (pos params "pk_lin", ik) = some (pl.getD ik 0) := by
  unfold map12
  rw [rowMap_none (lay := layOne (pos params "sigmad2"))]
  · rw [show (pos params "pk_lin", ik) = layOne (pos params "pk_lin") ik 0 from rfl, rowMap_lay (layOne_inj _ _) _ hik]
    rfl
  · intro i _ j h
    exact hne (congrArg Prod.fst h)

/-- The common shape of the runs up to the end of the parallel region. -/
noncomputable def runHead {σ : Type} {m : ℕ} (e : Env) (o : IName) (params : List String) (W : Work σ m) (lay : ℕ → Fin m → Cell)
    (es : List Event) (μ : Mem) : Res Mem := do
  let μ ← columns12 e o params μ
  region W lay es μ

theorem runHead_assigns {σ : Type} {m : ℕ} {e : Env} {o : IName} {params : List String} {W : Work σ m} {lay : ℕ → Fin m → Cell}
    {S : σ → σ → Prop} (hW : W.Det S) (hinj : LayInj lay e.ks.length) {μ ν : Mem} (hin : LayIn lay e.ks.length μ)
    (hroom : Room12 params e.ks.length μ) {es : List Event} (hes : Schedule m e.ks.length es)
    (h : runHead e o params W lay es μ = .ok ν) :
    ∃ pl sg s0 row, findPk e.t e.ks (e.cfg.interp o) = .ok pl ∧ runningSigmad2 e.t e.ks (e.cfg.uv o) = .ok sg ∧
      W.init = .ok s0 ∧ (∀ ik < e.ks.length, ∃ s', W.body s0 ik = .ok (s', row ik)) ∧
      ν = overlay (mapRun params lay e.ks.length pl sg row) μ ∧
      ∀ es', Schedule m e.ks.length es' → Assigns (runHead e o params W lay es') (mapRun params lay e.ks.length pl sg row) := by
  simp only [runHead, Res.bind_eq_ok] at h
  obtain ⟨μ1, h1, h2⟩ := h
  obtain ⟨pl, sg, hpl, hsg⟩ := columns12_ok h1
  have a12 := columns12_assigns e o params hpl hsg
  have e1 := a12 μ (fits_map12 hroom)
  rw [h1] at e1
  injection e1 with e1
  have hin1 : LayIn lay e.ks.length μ1 := by
    intro ik hik c
    rw [e1, overlay_length]
    exact hin ik hik c
  obtain ⟨s0, row, hs0, hrow, hν, has⟩ := region_assigns hW hinj hin1 hes h2
  refine ⟨pl, sg, s0, row, hpl, hsg, hs0, hrow, ?_, fun es' hes' => ?_⟩
  · rw [hν, e1, overlay_overlay]
    rfl
  · exact a12.comp (has es' hes')

/-! ## Serial accumulation -/

theorem Mem.add_ok {μ : Mem} {c : Cell} {x : ℝ} (v : ℝ) (h : μ.at c = some (some x)) :
    ∃ ν, μ.add c v = .ok ν ∧ ν.at c = some (some (x + v)) ∧ (∀ c', c' ≠ c → ν.at c' = μ.at c') ∧
      ∀ a, (ν a).length = (μ a).length := by
  have hl : c.2 < (μ c.1).length := by
    unfold Mem.at at h
    exact (List.getElem?_eq_some_iff.1 h).1
  obtain ⟨ν, h1, h2⟩ := Mem.wr_ok μ c (x + v) hl
  refine ⟨ν, ?_, h2⟩
  unfold Mem.add
  rw [Buf.rd_ok h, Res.ok_bind, h1]

theorem addRows_overlay {n : ℕ} {lay : ℕ → Fin 5 → Cell} (hinj : LayInj lay n) {f : ℕ → Res (Fin 5 → ℝ)} {p r : ℕ → Fin 5 → ℝ}
    (hf : ∀ ik < n, f ik = .ok (p ik)) {μ : Mem} (hμ : ∀ ik < n, ∀ c, μ.at (lay ik c) = some (some (r ik c))) :
    addRows n lay f μ = .ok (overlay (rowMap lay n fun ik c => r ik c + p ik c) μ) := by
  have hin : LayIn lay n μ := fun ik hik c => (List.getElem?_eq_some_iff.1 (hμ ik hik c)).1
  have := forRange_inv (lo := 0) (hi := n) (s := μ) (body := fun ik μ => do
      let p ← f ik
      let μ ← μ.add (lay ik 0) (p 0)
      let μ ← μ.add (lay ik 1) (p 1)
      let μ ← μ.add (lay ik 2) (p 2)
      let μ ← μ.add (lay ik 3) (p 3)
      μ.add (lay ik 4) (p 4)) (P := fun j ν => Stored lay j (fun ik c => r ik c + p ik c) μ ν) (Nat.zero_le n)
    ⟨fun _ h => absurd h (Nat.not_lt_zero _), fun _ _ => rfl, fun _ => rfl⟩ (by
      intro j ν _ hj hν
      have hne : ∀ c c' : Fin 5, c ≠ c' → lay j c ≠ lay j c' := fun c c' h e => h (hinj j hj j hj c c' e).2
      have h0 : ∀ c, ν.at (lay j c) = some (some (r j c)) := fun c => by
        rw [hν.other _ fun ik hik c' e => (Nat.ne_of_lt hik) (hinj ik (by omega) j hj c' c e).1]
        exact hμ j hj c
      obtain ⟨ν0, a0, b0, c0, d0⟩ := Mem.add_ok (p j 0) (h0 0)
      obtain ⟨ν1, a1, b1, c1, d1⟩ := Mem.add_ok (μ := ν0) (c := lay j 1) (x := r j 1) (p j 1) (by
        rw [c0 _ (hne 1 0 (by decide)), h0])
      obtain ⟨ν2, a2, b2, c2, d2⟩ := Mem.add_ok (μ := ν1) (c := lay j 2) (x := r j 2) (p j 2) (by
        rw [c1 _ (hne 2 1 (by decide)), c0 _ (hne 2 0 (by decide)), h0])
      obtain ⟨ν3, a3, b3, c3, d3⟩ := Mem.add_ok (μ := ν2) (c := lay j 3) (x := r j 3) (p j 3) (by
        rw [c2 _ (hne 3 2 (by decide)), c1 _ (hne 3 1 (by decide)), c0 _ (hne 3 0 (by decide)), h0])
      obtain ⟨ν4, a4, b4, c4, d4⟩ := Mem.add_ok (μ := ν3) (c := lay j 4) (x := r j 4) (p j 4) (by
        rw [c3 _ (hne 4 3 (by decide)), c2 _ (hne 4 2 (by decide)), c1 _ (hne 4 1 (by decide)), c0 _ (hne 4 0 (by decide)), h0])
      have keep : ∀ c, (∀ i, lay j i ≠ c) → ν4.at c = ν.at c := fun c hc => by
        rw [c4 _ (hc 4).symm, c3 _ (hc 3).symm, c2 _ (hc 2).symm, c1 _ (hc 1).symm, c0 _ (hc 0).symm]
      refine ⟨ν4, by simp [hf j hj, a0, a1, a2, a3, a4], fun ik hik c => ?_, fun c hc => ?_, fun a => ?_⟩
      · rcases Nat.lt_succ_iff_lt_or_eq.1 hik with hik | rfl
        · rw [keep _ fun i e => (Nat.ne_of_lt hik) (hinj j hj ik (by omega) i c e).1.symm]
          exact hν.row ik hik c
        · fin_cases c
          · show ν4.at (lay ik 0) = _
            rw [c4 _ (hne 0 4 (by decide)), c3 _ (hne 0 3 (by decide)), c2 _ (hne 0 2 (by decide)), c1 _ (hne 0 1 (by decide)), b0]
            rfl
          · show ν4.at (lay ik 1) = _
            rw [c4 _ (hne 1 4 (by decide)), c3 _ (hne 1 3 (by decide)), c2 _ (hne 1 2 (by decide)), b1]
            rfl
          · show ν4.at (lay ik 2) = _
            rw [c4 _ (hne 2 4 (by decide)), c3 _ (hne 2 3 (by decide)), b2]
            rfl
          · show ν4.at (lay ik 3) = _
            rw [c4 _ (hne 3 4 (by decide)), b3]
            rfl
          · show ν4.at (lay ik 4) = _
            rw [b4]
            rfl
      · rw [keep c fun i => hc j (by omega) i]
        exact hν.other c fun ik hik => hc ik (by omega)
      · rw [d4, d3, d2, d1, d0, hν.len])
  obtain ⟨ν, h1, h2⟩ := this
  unfold addRows
  rw [h1, h2.eq_overlay hinj hin]

theorem addRows_ok {n : ℕ} {lay : ℕ → Fin 5 → Cell} {f : ℕ → Res (Fin 5 → ℝ)} {μ ν : Mem} (h : addRows n lay f μ = .ok ν) :
    ∀ ik < n, (f ik).defined := by
  have := forRange_post (P := fun j _ => ∀ ik < j, (f ik).defined) h (by simp) (by
    intro j s s' _ hP hb ik hik
    simp only [Res.bind_eq_ok] at hb
    obtain ⟨v, hv, _⟩ := hb
    rcases Nat.lt_succ_iff_lt_or_eq.1 hik with hik | rfl
    · exact hP ik hik
    · exact ⟨v, hv⟩)
  exact this

end Verif
