import Verif.Props.Safety
import Verif.Props.Sigma

/-!
# C94: the result at a mode does not depend on the other requested modes

Two runs with the same spectrum and settings and with different lists of modes: the row of a mode that is in both lists.
-/

namespace Verif

open Res

/-- The same spectrum and settings with other requests. -/
def Env.withKs (e : Env) (ks : List ℝ) : Env := ⟨e.cfg, e.rt, e.t, ks⟩

/-- Row `i` of `ν` and row `j` of `ν'` have the same entries in the columns `names`. -/
def SameRow (cls : PyClass) (names : List String) (ν ν' : Mem) (i j : ℕ) : Prop :=
  ∀ s ∈ names, ν.at (cellOf cls s i) = ν'.at (cellOf cls s j)

/-- Rows of `m` components. -/
def SameRow2 (cls : PyClass) (m : ℕ) (ν ν' : Mem) (i j : ℕ) : Prop :=
  ∀ c : Fin m, ν.at (cellOf2 cls "pk" m i c) = ν'.at (cellOf2 cls "pk" m j c)

/-! ## Terms -/

section

variable {e : Env} {ks' : List ℝ} {es es' : List Event} {μ ν μ' ν' : Mem} {i j : ℕ} (hi : i < e.ks.length) (hj : j < ks'.length)
  (hij : e.ks[i] = ks'[j])

include hij

/-- C94: the one-loop run. -/
theorem C94_one_loop {a b : Field} (hμ : Room 6 e.ks.length μ) (hμ' : Room 6 ks'.length μ') (hes : Schedule 3 e.ks.length es)
    (hes' : Schedule 3 ks'.length es') (h : runTerms1 e a b es μ = .ok ν) (h' : runTerms1 (e.withKs ks') a b es' μ' = .ok ν') :
    SameRow cls1 ["gamma1a_1loop", "gamma1b_1loop", "pk_gamma2_tree_tree"] ν ν' i j := by
  obtain ⟨_, _, g1, g, gm, va, vb, s, v2, -, -, a1, a2, a3, a4, a5, a6, -, -, c1, c2, c3, -⟩ := C45_one_loop hμ hes h hi
  obtain ⟨_, _, g1', g', gm', va', vb', s', v2', -, -, b1, b2, b3, b4, b5, b6, -, -, d1, d2, d3, -⟩ :=
    C45_one_loop (e := e.withKs ks') hμ' hes' h' hj
  cases ok.inj (a1.symm.trans b1)
  cases ok.inj (a2.symm.trans b2)
  cases ok.inj (a3.symm.trans b3)
  rw [hij] at a4 a5 a6
  cases ok.inj (a4.symm.trans b4)
  cases ok.inj (a5.symm.trans b5)
  cases ok.inj (a6.symm.trans b6)
  intro s hs
  fin_cases hs
  · exact c1.trans d1.symm
  · exact c2.trans d2.symm
  · exact c3.trans d3.symm

/-- C94: the bias run. -/
theorem C94_bias (hμ : Room 11 e.ks.length μ) (hμ' : Room 11 ks'.length μ') (hes : Schedule 8 e.ks.length es)
    (hes' : Schedule 8 ks'.length es') (h : runTermsBias e es μ = .ok ν) (h' : runTermsBias (e.withKs ks') es' μ' = .ok ν') :
    SameRow clsBias ["pk_b2d", "pk_bs2d", "pk_b2t", "pk_bs2t", "pk_b22", "pk_b2s2", "pk_bs22", "sigma3sq"] ν ν' i j := by
  obtain ⟨_, _, g, gm, -, -, a1, a2, -, -, c⟩ := C45_bias hμ hes h hi
  obtain ⟨_, _, g', gm', -, -, b1, b2, -, -, d⟩ := C45_bias (e := e.withKs ks') hμ' hes' h' hj
  cases ok.inj (a1.symm.trans b1)
  cases ok.inj (a2.symm.trans b2)
  have key : ∀ n, ν.at (cellOf clsBias (biasCol n).1 i) = ν'.at (cellOf clsBias (biasCol n).1 j) := fun n => by
    obtain ⟨s, v, h1, h2⟩ := c n
    obtain ⟨s', v', h1', h2'⟩ := d n
    rw [hij] at h1
    cases ok.inj (h1.symm.trans h1')
    exact h2.trans h2'.symm
  intro s hs
  fin_cases hs
  · exact key 0
  · exact key 1
  · exact key 2
  · exact key 3
  · exact key 4
  · exact key 5
  · exact key 6
  · exact key 7

/-- C94: the one-loop A run. -/
theorem C94_A_one_loop (hμ : RoomFlat 5 e.ks.length μ) (hμ' : RoomFlat 5 ks'.length μ') (hes : Schedule 5 e.ks.length es)
    (hes' : Schedule 5 ks'.length es') (h : runTermsA1 e es μ = .ok ν) (h' : runTermsA1 (e.withKs ks') es' μ' = .ok ν') :
    SameRow2 clsA 5 ν ν' i j := by
  obtain ⟨_, _, g, gm, s, v, -, -, a1, a2, a3, -, -, c⟩ := C45_A_one_loop hμ hes h hi
  obtain ⟨_, _, g', gm', s', v', -, -, b1, b2, b3, -, -, d⟩ := C45_A_one_loop (e := e.withKs ks') hμ' hes' h' hj
  cases ok.inj (a1.symm.trans b1)
  cases ok.inj (a2.symm.trans b2)
  rw [hij] at a3
  cases ok.inj (a3.symm.trans b3)
  exact fun n => (c 5 (by decide) n).trans (d 5 (by decide) n).symm

/-- C94: the B run. -/
theorem C94_B {dt tt : Pk ℝ} (hμ : RoomFlat 9 e.ks.length μ) (hμ' : RoomFlat 9 ks'.length μ') (hes : Schedule 9 e.ks.length es)
    (hes' : Schedule 9 ks'.length es') (h : runTermsB e dt tt es μ = .ok ν) (h' : runTermsB (e.withKs ks') dt tt es' μ' = .ok ν') :
    SameRow2 clsB 9 ν ν' i j := by
  obtain ⟨_, _, g, gm, s, v, -, -, a1, a2, a3, -, -, c⟩ := C45_B hμ hes h hi
  obtain ⟨_, _, g', gm', s', v', -, -, b1, b2, b3, -, -, d⟩ := C45_B (e := e.withKs ks') hμ' hes' h' hj
  cases ok.inj (a1.symm.trans b1)
  cases ok.inj (a2.symm.trans b2)
  rw [hij] at a3
  cases ok.inj (a3.symm.trans b3)
  exact fun n => (c 9 (by decide) n).trans (d 9 (by decide) n).symm

/-- C94: the two-loop run, for every cubature routine. -/
theorem C94_two_loop {cuba : Cuba ℝ} {a b : Field} {cfg cfg' : Cfg ℝ} (hμ : Room 11 e.ks.length μ) (hμ' : Room 11 ks'.length μ')
    (hes : Schedule 7 e.ks.length es) (hes' : Schedule 7 ks'.length es') (h : runTerms2 cuba e a b es μ = .ok (cfg, ν))
    (h' : runTerms2 cuba (e.withKs ks') a b es' μ' = .ok (cfg', ν')) :
    SameRow cls2 ["gamma1a_1loop", "gamma1a_2loop", "gamma1b_1loop", "gamma1b_2loop", "pk_gamma2_tree_tree", "pk_gamma2_tree_1loop",
      "pk_gamma2_1loop_1loop", "pk_gamma3_tree"] ν ν' i j := by
  obtain ⟨_, _, g1, g12, g, gm, gd, gt, x1, x2, y1, y2, s, r, g3, range, -, -, a1, a2, a3, a4, a5, a6, a7, a8, a9, a10, -, a11, a12, a13, -, -,
    c1, c2, c3, c4, c5, c6, c7, c8, -⟩ := C45_two_loop hμ hes h hi
  obtain ⟨_, _, g1', g12', g', gm', gd', gt', x1', x2', y1', y2', s', r', g3', range', -, -, b1, b2, b3, b4, b5, b6, b7, b8, b9, b10, -, b11,
    b12, b13, -, -, d1, d2, d3, d4, d5, d6, d7, d8, -⟩ := C45_two_loop (e := e.withKs ks') hμ' hes' h' hj
  cases ok.inj (a1.symm.trans b1)
  cases ok.inj (a2.symm.trans b2)
  cases ok.inj (a3.symm.trans b3)
  cases ok.inj (a4.symm.trans b4)
  cases ok.inj (a5.symm.trans b5)
  cases ok.inj (a6.symm.trans b6)
  cases ok.inj (a12.symm.trans b12)
  rw [hij] at a7 a8 a9 a10 a11 a13
  cases ok.inj (a7.symm.trans b7)
  cases ok.inj (a8.symm.trans b8)
  cases ok.inj (a9.symm.trans b9)
  cases ok.inj (a10.symm.trans b10)
  cases ok.inj (a11.symm.trans b11)
  cases ok.inj (a13.symm.trans b13)
  intro s hs
  fin_cases hs
  · exact c1.trans d1.symm
  · exact c2.trans d2.symm
  · exact c3.trans d3.symm
  · exact c4.trans d4.symm
  · exact c5.trans d5.symm
  · exact c6.trans d6.symm
  · exact c7.trans d7.symm
  · exact c8.trans d8.symm

/-- C94: the two-loop A run, for every cubature routine. -/
theorem C94_A_two_loop {cuba : Cuba (Fin 12 → ℝ)} {cfg cfg' : Cfg ℝ} (hμ : RoomFlat 5 e.ks.length μ) (hμ' : RoomFlat 5 ks'.length μ')
    (hes : Schedule 5 e.ks.length es) (hes' : Schedule 5 ks'.length es') (h : runTermsA2 cuba e es μ = .ok (cfg, ν))
    (h' : runTermsA2 cuba (e.withKs ks') es' μ' = .ok (cfg', ν')) : SameRow2 clsA 5 ν ν' i j := by
  obtain ⟨_, _, g, gm, g1, gd, gt, s, v, w, range, -, -, a1, a2, a3, a4, a5, a6, a7, a8, -, -, c⟩ := C45_A_two_loop hμ hes h hi
  obtain ⟨_, _, g', gm', g1', gd', gt', s', v', w', range', -, -, b1, b2, b3, b4, b5, b6, b7, b8, -, -, d⟩ :=
    C45_A_two_loop (e := e.withKs ks') hμ' hes' h' hj
  cases ok.inj (a1.symm.trans b1)
  cases ok.inj (a2.symm.trans b2)
  cases ok.inj (a3.symm.trans b3)
  cases ok.inj (a4.symm.trans b4)
  cases ok.inj (a5.symm.trans b5)
  cases ok.inj (a7.symm.trans b7)
  rw [hij] at a6 a8
  cases ok.inj (a6.symm.trans b6)
  cases ok.inj (a8.symm.trans b8)
  exact fun n => (c 5 (by decide) n).trans (d 5 (by decide) n).symm

end

/-! ## The columns of the linear spectrum and of the displacement variance -/

section

variable {t : Pk ℝ} (ht : t.Increasing) (h1 : 1 ≤ t.nk) {ks ks' : List ℝ} (hk : ks.Pairwise (· ≤ ·)) (hk' : ks'.Pairwise (· ≤ ·)) {i j : ℕ}
  (hi : i < ks.length) (hj : j < ks'.length) (hij : ks[i] = ks'[j])

include ht h1 hk hk' hij

theorem findPk_row {o : Interpol} {vs vs' : List ℝ} (h : findPk t ks o = .ok vs) (h' : findPk t ks' o = .ok vs') : vs.getD i 0 = vs'.getD j 0 := by
  obtain ⟨l, p⟩ := C07_findPk_pointwise_partial t ht h1 o ks hk vs h
  obtain ⟨l', p'⟩ := C07_findPk_pointwise_partial t ht h1 o ks' hk' vs' h'
  have e1 := p i hi (by omega)
  rw [hij, p' j hj (by omega)] at e1
  rw [getD_eq (by omega), getD_eq (by omega)]
  injection e1 with e1
  injection e1 with e1
  exact e1.symm

theorem sigmad2_row {uv : ℝ} (huv : 0 ≤ uv) {vs vs' : List ℝ} (h : runningSigmad2 t ks uv = .ok vs) (h' : runningSigmad2 t ks' uv = .ok vs') :
    vs.getD i 0 = vs'.getD j 0 := by
  obtain ⟨P, hP⟩ := exists_piecewiseLinear t ht
  rw [C11_sigmad2_integral_partial t ht h1 P hP uv huv ks hk] at h
  rw [C11_sigmad2_integral_partial t ht h1 P hP uv huv ks' hk'] at h'
  cases h
  cases h'
  rw [getD_eq (by simpa using hi), getD_eq (by simpa using hj), List.getElem_map, List.getElem_map, hij]

end

/-- C94: the two other columns of the one-loop run, for ascending requests.  Missing for C94: requests in another order, see
`C94_sigmad2_violation` and `C94_pk_lin_violation`. -/
theorem C94_linear_partial {e : Env} {ks' : List ℝ} {es es' : List Event} {μ ν μ' ν' : Mem} {a b : Field} (ht : e.t.Increasing) (h1 : 1 ≤ e.t.nk)
    (hk : e.ks.Pairwise (· ≤ ·)) (hk' : ks'.Pairwise (· ≤ ·)) (huv : 0 ≤ e.cfg.uv .spectrum_1loop) {i j : ℕ} (hi : i < e.ks.length)
    (hj : j < ks'.length) (hij : e.ks[i] = ks'[j]) (hμ : Room 6 e.ks.length μ) (hμ' : Room 6 ks'.length μ') (hes : Schedule 3 e.ks.length es)
    (hes' : Schedule 3 ks'.length es') (h : runTerms1 e a b es μ = .ok ν) (h' : runTerms1 (e.withKs ks') a b es' μ' = .ok ν') :
    SameRow cls1 ["pk_lin", "sigmad2"] ν ν' i j := by
  obtain ⟨pl, sg, _, _, _, _, _, _, _, a1, a2, -, -, -, -, -, -, c1, c2, -⟩ := C45_one_loop hμ hes h hi
  obtain ⟨pl', sg', _, _, _, _, _, _, _, b1, b2, -, -, -, -, -, -, d1, d2, -⟩ := C45_one_loop (e := e.withKs ks') hμ' hes' h' hj
  have e1 := findPk_row ht h1 hk hk' hi hj hij a1 b1
  have e2 := sigmad2_row ht h1 hk hk' hi hj hij huv a2 b2
  intro s hs
  fin_cases hs
  · exact c1.trans (by rw [e1]; exact d1.symm)
  · exact c2.trans (by rw [e2]; exact d2.symm)

section

variable {e : Env} {ks' : List ℝ} {es es' : List Event} {μ ν μ' ν' : Mem} (ht : e.t.Increasing) (h1 : 1 ≤ e.t.nk)
  (hk : e.ks.Pairwise (· ≤ ·)) (hk' : ks'.Pairwise (· ≤ ·)) {i j : ℕ} (hi : i < e.ks.length) (hj : j < ks'.length) (hij : e.ks[i] = ks'[j])

include ht h1 hk hk' hij

/-- C94: the bias run.  Missing as for `C94_linear_partial`. -/
theorem C94_linear_bias_partial (hμ : Room 11 e.ks.length μ) (hμ' : Room 11 ks'.length μ')
    (hes : Schedule 8 e.ks.length es) (hes' : Schedule 8 ks'.length es') (huv : 0 ≤ e.cfg.uv .bias_1loop) (h : runTermsBias e es μ = .ok ν)
    (h' : runTermsBias (e.withKs ks') es' μ' = .ok ν') : SameRow clsBias ["pk_lin", "sigmad2"] ν ν' i j := by
  obtain ⟨_, _, _, _, a1, a2, -, -, c1, c2, -⟩ :=
    C45_bias hμ hes h hi
  obtain ⟨_, _, _, _, b1, b2, -, -, d1, d2, -⟩ :=
    C45_bias (e := e.withKs ks') hμ' hes' h' hj
  have e1 := findPk_row ht h1 hk hk' hi hj hij a1 b1
  have e2 := sigmad2_row ht h1 hk hk' hi hj hij huv a2 b2
  intro s hs
  fin_cases hs
  · exact c1.trans (by rw [e1]; exact d1.symm)
  · exact c2.trans (by rw [e2]; exact d2.symm)

/-- C94: the one-loop A run.  Missing as for `C94_linear_partial`. -/
theorem C94_linear_A_one_loop_partial (hμ : RoomFlat 5 e.ks.length μ) (hμ' : RoomFlat 5 ks'.length μ')
    (hes : Schedule 5 e.ks.length es) (hes' : Schedule 5 ks'.length es') (huv : 0 ≤ e.cfg.uv .A_1loop) (h : runTermsA1 e es μ = .ok ν)
    (h' : runTermsA1 (e.withKs ks') es' μ' = .ok ν') : SameRow clsA ["pk_lin", "sigmad2"] ν ν' i j := by
  obtain ⟨_, _, _, _, _, _, a1, a2, -, -, -, c1, c2, -⟩ :=
    C45_A_one_loop hμ hes h hi
  obtain ⟨_, _, _, _, _, _, b1, b2, -, -, -, d1, d2, -⟩ :=
    C45_A_one_loop (e := e.withKs ks') hμ' hes' h' hj
  have e1 := findPk_row ht h1 hk hk' hi hj hij a1 b1
  have e2 := sigmad2_row ht h1 hk hk' hi hj hij huv a2 b2
  intro s hs
  fin_cases hs
  · exact c1.trans (by rw [e1]; exact d1.symm)
  · exact c2.trans (by rw [e2]; exact d2.symm)

/-- C94: the B run.  Missing as for `C94_linear_partial`. -/
theorem C94_linear_B_partial {dt tt : Pk ℝ} (hμ : RoomFlat 9 e.ks.length μ) (hμ' : RoomFlat 9 ks'.length μ')
    (hes : Schedule 9 e.ks.length es) (hes' : Schedule 9 ks'.length es') (huv : 0 ≤ e.cfg.uv .B) (h : runTermsB e dt tt es μ = .ok ν)
    (h' : runTermsB (e.withKs ks') dt tt es' μ' = .ok ν') : SameRow clsB ["pk_lin", "sigmad2"] ν ν' i j := by
  obtain ⟨_, _, _, _, _, _, a1, a2, -, -, -, c1, c2, -⟩ :=
    C45_B hμ hes h hi
  obtain ⟨_, _, _, _, _, _, b1, b2, -, -, -, d1, d2, -⟩ :=
    C45_B (e := e.withKs ks') hμ' hes' h' hj
  have e1 := findPk_row ht h1 hk hk' hi hj hij a1 b1
  have e2 := sigmad2_row ht h1 hk hk' hi hj hij huv a2 b2
  intro s hs
  fin_cases hs
  · exact c1.trans (by rw [e1]; exact d1.symm)
  · exact c2.trans (by rw [e2]; exact d2.symm)

/-- C94: the two-loop A run.  Missing as for `C94_linear_partial`. -/
theorem C94_linear_A_two_loop_partial {cuba : Cuba (Fin 12 → ℝ)} {cfg cfg' : Cfg ℝ} (hμ : RoomFlat 5 e.ks.length μ) (hμ' : RoomFlat 5 ks'.length μ')
    (hes : Schedule 5 e.ks.length es) (hes' : Schedule 5 ks'.length es') (huv : 0 ≤ e.cfg.uv .A_2loop) (h : runTermsA2 cuba e es μ = .ok (cfg, ν))
    (h' : runTermsA2 cuba (e.withKs ks') es' μ' = .ok (cfg', ν')) : SameRow clsA ["pk_lin", "sigmad2"] ν ν' i j := by
  obtain ⟨_, _, _, _, _, _, _, _, _, _, _, a1, a2, -, -, -, -, -, -, -, -, c1, c2, -⟩ :=
    C45_A_two_loop hμ hes h hi
  obtain ⟨_, _, _, _, _, _, _, _, _, _, _, b1, b2, -, -, -, -, -, -, -, -, d1, d2, -⟩ :=
    C45_A_two_loop (e := e.withKs ks') hμ' hes' h' hj
  have e1 := findPk_row ht h1 hk hk' hi hj hij a1 b1
  have e2 := sigmad2_row ht h1 hk hk' hi hj hij huv a2 b2
  intro s hs
  fin_cases hs
  · exact c1.trans (by rw [e1]; exact d1.symm)
  · exact c2.trans (by rw [e2]; exact d2.symm)

/-- C94: the two-loop run.  Missing as for `C94_linear_partial`. -/
theorem C94_linear_two_loop_partial {cuba : Cuba ℝ} {a b : Field} {cfg cfg' : Cfg ℝ} (hμ : Room 11 e.ks.length μ) (hμ' : Room 11 ks'.length μ')
    (hes : Schedule 7 e.ks.length es) (hes' : Schedule 7 ks'.length es') (huv : 0 ≤ e.cfg.uv .spectrum_2loop) (h : runTerms2 cuba e a b es μ = .ok (cfg, ν))
    (h' : runTerms2 cuba (e.withKs ks') a b es' μ' = .ok (cfg', ν')) : SameRow cls2 ["pk_lin", "sigmad2"] ν ν' i j := by
  obtain ⟨_, _, _, _, _, _, _, _, _, _, _, _, _, _, _, _, a1, a2, -, -, -, -, -, -, -, -, -, -, -, -, -, -, c1, c2, -⟩ :=
    C45_two_loop hμ hes h hi
  obtain ⟨_, _, _, _, _, _, _, _, _, _, _, _, _, _, _, _, b1, b2, -, -, -, -, -, -, -, -, -, -, -, -, -, -, d1, d2, -⟩ :=
    C45_two_loop (e := e.withKs ks') hμ' hes' h' hj
  have e1 := findPk_row ht h1 hk hk' hi hj hij a1 b1
  have e2 := sigmad2_row ht h1 hk hk' hi hj hij huv a2 b2
  intro s hs
  fin_cases hs
  · exact c1.trans (by rw [e1]; exact d1.symm)
  · exact c2.trans (by rw [e2]; exact d2.symm)

end

/-! ## Unordered requests -/

/-- Three tabulated modes, default settings. -/
noncomputable def reqEnv (rt : ℕ → ℕ → ℝ × ℝ) (ks : List ℝ) : Env := ⟨Cfg.default, rt, ⟨3, [1, 2, 3], [1, 1, 1]⟩, ks⟩

theorem reqEnv_ok (rt : ℕ → ℕ → ℝ × ℝ) (ks : List ℝ) : (reqEnv rt ks).Ok where
  wf := ⟨rfl, rfl, by norm_num [reqEnv]⟩
  two := by norm_num [reqEnv]
  size := (exEnv_ok rt ks).size
  poly := (exEnv_ok rt ks).poly
  interp := (exEnv_ok rt ks).interp

/-- Six tabulated modes, default settings. -/
noncomputable def reqEnv6 (rt : ℕ → ℕ → ℝ × ℝ) (ks : List ℝ) : Env := ⟨Cfg.default, rt, ⟨6, [1, 2, 3, 4, 5, 6], [0, 0, 0, 0, 0, 1]⟩, ks⟩

theorem reqEnv6_ok (rt : ℕ → ℕ → ℝ × ℝ) (ks : List ℝ) : (reqEnv6 rt ks).Ok where
  wf := ⟨rfl, rfl, by norm_num [reqEnv6]⟩
  two := by norm_num [reqEnv6]
  size := (exEnv_ok rt ks).size
  poly := (exEnv_ok rt ks).poly
  interp := (exEnv_ok rt ks).interp

theorem req_room (n : ℕ) {m : ℕ} (h : n ≤ 45) : Room m n exMem := fun i _ => by simpa [exMem] using h

theorem req_sched (n : ℕ) {m : ℕ} : Schedule m n (blocks m 0 0 [n]) := by simpa using C43_static_schedule m [n] (by simp)

/-- C94 is violated for unordered requests: with default settings the displacement variance of a mode requested after a larger one is four
times the one of the mode alone. -/
theorem C94_sigmad2_violation (rt : ℕ → ℕ → ℝ × ℝ) (a b : Field) :
    ∃ ν ν', runTerms1 (reqEnv rt [6, 3]) a b (blocks 3 0 0 [2]) exMem = .ok ν ∧
      runTerms1 ((reqEnv rt [6, 3]).withKs [3]) a b (blocks 3 0 0 [1]) exMem = .ok ν' ∧
      ν.at (cellOf cls1 "sigmad2" 1) = some (some (4 / (12 * Real.pi * Real.pi))) ∧
      ν'.at (cellOf cls1 "sigmad2" 0) = some (some (1 / (12 * Real.pi * Real.pi))) ∧ ¬ SameRow cls1 ["sigmad2"] ν ν' 1 0 := by
  obtain ⟨ν, h⟩ := C59_one_loop (reqEnv_ok rt [6, 3]) a b (req_sched 2) (req_room 2 (by decide))
  obtain ⟨ν', h'⟩ := C59_one_loop (reqEnv_ok rt [3]) a b (req_sched 1) (req_room 1 (by decide))
  obtain ⟨pl, sg, _, _, _, _, _, _, _, -, a2, -, -, -, -, -, -, -, c2, -⟩ :=
    C45_one_loop (e := reqEnv rt [6, 3]) (req_room 2 (by decide)) (req_sched 2) h (ik := 1) (show 1 < 2 by decide)
  obtain ⟨pl', sg', _, _, _, _, _, _, _, -, b2, -, -, -, -, -, -, -, d2, -⟩ :=
    C45_one_loop (e := reqEnv rt [3]) (req_room 1 (by decide)) (req_sched 1) h' (ik := 0) (show 0 < 1 by decide)
  have e1 : runningSigmad2 (⟨3, [1, 2, 3], [1, 1, 1]⟩ : Pk ℝ) [6, 3] (1 / 2) =
      .ok [4 / (12 * Real.pi * Real.pi), 4 / (12 * Real.pi * Real.pi)] := by
    norm_num [runningSigmad2, sigmaLoop, sigmaInner, sigmaWritten, rd, subSize, sizeMod, Histo.lt]
  have e2 : runningSigmad2 (⟨3, [1, 2, 3], [1, 1, 1]⟩ : Pk ℝ) [3] (1 / 2) = .ok [1 / (12 * Real.pi * Real.pi)] := by
    norm_num [runningSigmad2, sigmaLoop, sigmaInner, sigmaWritten, rd, subSize, sizeMod, Histo.lt, interpolLin]
  have hu : (Cfg.default : Cfg ℝ).uv .spectrum_1loop = 1 / 2 := by norm_num [Cfg.default, Histo.lit]
  simp only [reqEnv, hu] at a2 b2
  cases ok.inj (a2.symm.trans e1)
  cases ok.inj (b2.symm.trans e2)
  refine ⟨ν, ν', h, h', c2, d2, fun hs => ?_⟩
  have := (c2.symm.trans (hs "sigmad2" (by simp))).trans d2
  exact C11_sigmad2_order_violation.2.2 (Option.some.inj (Option.some.inj this))

/-- The first value of a request is the one of the first mode alone. -/
theorem findPk_cons_single {t : Pk ℝ} {o : Interpol} {k : ℝ} {ks vs : List ℝ} (h : findPk t (k :: ks) o = .ok vs) :
    ∃ v, findPk t [k] o = .ok [v] ∧ vs.head? = some v := by
  simp only [findPk, findPkLoop, Res.bind_eq_ok] at h
  obtain ⟨k0, h0, k1, h1, ⟨st, v⟩, h2, ws, -, h4⟩ := h
  cases h4
  exact ⟨v, by simp [findPk, findPkLoop, h0, h1, h2], rfl⟩

/-- C94 is violated for unordered requests: the linear spectrum of a mode requested after a larger one is not the one of the mode alone. -/
theorem C94_pk_lin_violation (rt : ℕ → ℕ → ℝ × ℝ) (a b : Field) :
    ∃ ν ν', runTerms1 (reqEnv6 rt [11 / 2, 3 / 2]) a b (blocks 3 0 0 [2]) exMem = .ok ν ∧
      runTerms1 ((reqEnv6 rt [11 / 2, 3 / 2]).withKs [3 / 2]) a b (blocks 3 0 0 [1]) exMem = .ok ν' ∧
      ¬ SameRow cls1 ["pk_lin"] ν ν' 1 0 := by
  obtain ⟨ν, h⟩ := C59_one_loop (reqEnv6_ok rt [11 / 2, 3 / 2]) a b (req_sched 2) (req_room 2 (by decide))
  obtain ⟨ν', h'⟩ := C59_one_loop (reqEnv6_ok rt [3 / 2]) a b (req_sched 1) (req_room 1 (by decide))
  obtain ⟨pl, sg, _, _, _, _, _, _, _, a1, -, -, -, -, -, -, -, c1, -⟩ :=
    C45_one_loop (e := reqEnv6 rt [11 / 2, 3 / 2]) (req_room 2 (by decide)) (req_sched 2) h (ik := 1) (show 1 < 2 by decide)
  obtain ⟨pl', sg', _, _, _, _, _, _, _, b1, -, -, -, -, -, -, -, d1, -⟩ :=
    C45_one_loop (e := reqEnv6 rt [3 / 2]) (req_room 1 (by decide)) (req_sched 1) h' (ik := 0) (show 0 < 1 by decide)
  refine ⟨ν, ν', h, h', fun hs => ?_⟩
  have key := Option.some.inj <| Option.some.inj ((c1.symm.trans (hs "pk_lin" (by simp))).trans d1)
  apply C07_findPk_order_violation_poly
  have x1 : findPk (⟨6, [1, 2, 3, 4, 5, 6], [0, 0, 0, 0, 0, 1]⟩ : Pk ℝ) [11 / 2, 3 / 2] .poly = .ok pl := a1
  have x2 : findPk (⟨6, [1, 2, 3, 4, 5, 6], [0, 0, 0, 0, 0, 1]⟩ : Pk ℝ) [3 / 2] .poly = .ok pl' := b1
  have l2 := findPk_length x2
  obtain ⟨u, hu, hp⟩ := findPk_cons_single x1
  obtain ⟨y, rfl⟩ := List.length_eq_one_iff.1 l2
  have l1 := findPk_length x1
  obtain ⟨p, q, rfl⟩ := List.length_eq_two.1 l1
  simp only [List.getD_cons_succ, List.getD_cons_zero] at key
  cases hp
  rw [x1, x2, hu, key]
  rfl

/-! ## Non-vacuity

The mode 8 is the fourth of five requests (two of them equal) on three threads, and the second of two requests on one thread. -/

variable (rt : ℕ → ℕ → ℝ × ℝ)

/-- C94 for the one-loop run. -/
example : ∃ ν ν', runTerms1 (exEnv rt exKs) .delta .theta (blocks 3 0 0 [2, 0, 3]) exMem = .ok ν ∧
    runTerms1 ((exEnv rt exKs).withKs [2, 8]) .delta .theta (blocks 3 0 0 [2]) exMem = .ok ν' ∧
    SameRow cls1 ["gamma1a_1loop", "gamma1b_1loop", "pk_gamma2_tree_tree"] ν ν' 3 1 ∧ SameRow cls1 ["pk_lin", "sigmad2"] ν ν' 3 1 := by
  obtain ⟨ν, h⟩ := C59_one_loop (exEnv_ok rt exKs) .delta .theta (exSchedule 3) (exRoom 6)
  obtain ⟨ν', h'⟩ := C59_one_loop (exEnv_ok rt [2, 8]) .delta .theta (req_sched 2) (req_room 2 (by decide))
  have hi : 3 < (exEnv rt exKs).ks.length := by simp [exEnv, exKs]
  have hj : 1 < ([2, 8] : List ℝ).length := by simp
  exact ⟨ν, ν', h, h', C94_one_loop hi hj rfl (exRoom 6) (req_room 2 (by decide)) (exSchedule 3) (req_sched 2) h h',
    C94_linear_partial exTable_physical.toIncreasing (by norm_num [exEnv, exTable]) (by norm_num [exEnv, exKs]) (by norm_num)
      (by norm_num [exEnv, Cfg.default, Histo.lit]) hi hj rfl (exRoom 6) (req_room 2 (by decide)) (exSchedule 3) (req_sched 2) h h'⟩

/-- C94 for the two-loop run. -/
example : ∃ r r', runTerms2 exCuba (exEnv rt exKs) .delta .theta (blocks 7 0 0 [2, 0, 3]) exMem = .ok r ∧
    runTerms2 exCuba ((exEnv rt exKs).withKs [2, 8]) .delta .theta (blocks 7 0 0 [2]) exMem = .ok r' ∧
    SameRow cls2 ["gamma1a_2loop", "pk_gamma3_tree"] r.2 r'.2 3 1 := by
  obtain ⟨⟨c, ν⟩, h⟩ := C59_two_loop (exEnv_ok rt exKs) exCuba_safe .delta .theta (exSchedule 7) (exRoom 11)
  obtain ⟨⟨c', ν'⟩, h'⟩ := C59_two_loop (exEnv_ok rt [2, 8]) exCuba_safe .delta .theta (req_sched 2) (req_room 2 (by decide))
  have H := C94_two_loop (e := exEnv rt exKs) (ks' := [2, 8]) (i := 3) (j := 1) (by simp [exEnv, exKs]) (by simp) rfl (exRoom 11)
    (req_room 2 (by decide)) (exSchedule 7) (req_sched 2) h h'
  exact ⟨_, _, h, h', fun s hs => H s (List.Subset.trans (by decide) (List.Subset.refl _) hs)⟩

/-- C94 for the bias run. -/
example : ∃ ν ν', runTermsBias (exEnv rt exKs) (blocks 8 0 0 [2, 0, 3]) exMem = .ok ν ∧
    runTermsBias ((exEnv rt exKs).withKs [2, 8]) (blocks 8 0 0 [2]) exMem = .ok ν' ∧ SameRow clsBias ["pk_b2d", "sigma3sq"] ν ν' 3 1 := by
  obtain ⟨ν, h⟩ := C59_bias (exEnv_ok rt exKs) (exSchedule 8) (exRoom 11)
  obtain ⟨ν', h'⟩ := C59_bias (exEnv_ok rt [2, 8]) (req_sched 2) (req_room 2 (by decide))
  have H := C94_bias (e := exEnv rt exKs) (ks' := [2, 8]) (i := 3) (j := 1) (by simp [exEnv, exKs]) (by simp) rfl (exRoom 11)
    (req_room 2 (by decide)) (exSchedule 8) (req_sched 2) h h'
  exact ⟨_, _, h, h', fun s hs => H s (List.Subset.trans (by decide) (List.Subset.refl _) hs)⟩

theorem req_flat (n : ℕ) {m : ℕ} (h : n ≤ 45) (h' : n * m ≤ 45) : RoomFlat m n exMem :=
  ⟨fun i _ => by simpa [exMem] using h, by simpa [exMem] using h'⟩

/-- C94 for the A runs. -/
example : (∃ ν ν', runTermsA1 (exEnv rt exKs) (blocks 5 0 0 [2, 0, 3]) exMem = .ok ν ∧
      runTermsA1 ((exEnv rt exKs).withKs [2, 8]) (blocks 5 0 0 [2]) exMem = .ok ν' ∧ SameRow2 clsA 5 ν ν' 3 1) ∧
    ∃ r r', runTermsA2 exCuba (exEnv rt exKs) (blocks 5 0 0 [2, 0, 3]) exMem = .ok r ∧
      runTermsA2 exCuba ((exEnv rt exKs).withKs [2, 8]) (blocks 5 0 0 [2]) exMem = .ok r' ∧ SameRow2 clsA 5 r.2 r'.2 3 1 := by
  have f := exRoomFlat 5 (by norm_num)
  have f' : RoomFlat 5 2 exMem := req_flat 2 (by decide) (by decide)
  obtain ⟨ν, h⟩ := C59_A_one_loop (exEnv_ok rt exKs) (exSchedule 5) f
  obtain ⟨ν', h'⟩ := C59_A_one_loop (exEnv_ok rt [2, 8]) (req_sched 2) f'
  obtain ⟨⟨c, ρ⟩, g⟩ := C59_A_two_loop (exEnv_ok rt exKs) exCuba_safe (exSchedule 5) f
  obtain ⟨⟨c', ρ'⟩, g'⟩ := C59_A_two_loop (exEnv_ok rt [2, 8]) exCuba_safe (req_sched 2) f'
  have hi : 3 < (exEnv rt exKs).ks.length := by simp [exEnv, exKs]
  have hj : 1 < ([2, 8] : List ℝ).length := by simp
  exact ⟨⟨_, _, h, h', C94_A_one_loop hi hj rfl f f' (exSchedule 5) (req_sched 2) h h'⟩,
    ⟨_, _, g, g', C94_A_two_loop hi hj rfl f f' (exSchedule 5) (req_sched 2) g g'⟩⟩

/-- C94 for the B run. -/
example : ∃ ν ν', runTermsB (exEnv rt exKs) exTable exTable (blocks 9 0 0 [2, 0, 3]) exMem = .ok ν ∧
    runTermsB ((exEnv rt exKs).withKs [2, 8]) exTable exTable (blocks 9 0 0 [2]) exMem = .ok ν' ∧ SameRow2 clsB 9 ν ν' 3 1 := by
  have w := exTable_physical.toWF
  have two : 2 ≤ exTable.nk := by norm_num [exTable]
  have f' : RoomFlat 9 2 exMem := req_flat 2 (by decide) (by decide)
  obtain ⟨ν, h⟩ := C59_B (exEnv_ok rt exKs) w two w two (exSchedule 9) (exRoomFlat 9 le_rfl)
  obtain ⟨ν', h'⟩ := C59_B (exEnv_ok rt [2, 8]) w two w two (req_sched 2) f'
  exact ⟨_, _, h, h', C94_B (e := exEnv rt exKs) (ks' := [2, 8]) (i := 3) (j := 1) (by simp [exEnv, exKs]) (by simp) rfl
    (exRoomFlat 9 le_rfl) f' (exSchedule 9) (req_sched 2) h h'⟩

/-- C94 for the linear columns of the other runs. -/
example : (∃ ν ν', runTermsBias (exEnv rt exKs) (blocks 8 0 0 [2, 0, 3]) exMem = .ok ν ∧
      runTermsBias ((exEnv rt exKs).withKs [2, 8]) (blocks 8 0 0 [2]) exMem = .ok ν' ∧ SameRow clsBias ["pk_lin", "sigmad2"] ν ν' 3 1) ∧
    (∃ ν ν', runTermsA1 (exEnv rt exKs) (blocks 5 0 0 [2, 0, 3]) exMem = .ok ν ∧
      runTermsA1 ((exEnv rt exKs).withKs [2, 8]) (blocks 5 0 0 [2]) exMem = .ok ν' ∧ SameRow clsA ["pk_lin", "sigmad2"] ν ν' 3 1) ∧
    (∃ ν ν', runTermsB (exEnv rt exKs) exTable exTable (blocks 9 0 0 [2, 0, 3]) exMem = .ok ν ∧
      runTermsB ((exEnv rt exKs).withKs [2, 8]) exTable exTable (blocks 9 0 0 [2]) exMem = .ok ν' ∧
      SameRow clsB ["pk_lin", "sigmad2"] ν ν' 3 1) ∧
    (∃ r r', runTermsA2 exCuba (exEnv rt exKs) (blocks 5 0 0 [2, 0, 3]) exMem = .ok r ∧
      runTermsA2 exCuba ((exEnv rt exKs).withKs [2, 8]) (blocks 5 0 0 [2]) exMem = .ok r' ∧
      SameRow clsA ["pk_lin", "sigmad2"] r.2 r'.2 3 1) ∧
    ∃ r r', runTerms2 exCuba (exEnv rt exKs) .delta .theta (blocks 7 0 0 [2, 0, 3]) exMem = .ok r ∧
      runTerms2 exCuba ((exEnv rt exKs).withKs [2, 8]) .delta .theta (blocks 7 0 0 [2]) exMem = .ok r' ∧
      SameRow cls2 ["pk_lin", "sigmad2"] r.2 r'.2 3 1 := by
  have w := exTable_physical.toWF
  have two : 2 ≤ exTable.nk := by norm_num [exTable]
  have ht : (exEnv rt exKs).t.Increasing := exTable_physical.toIncreasing
  have h1 : 1 ≤ (exEnv rt exKs).t.nk := by norm_num [exEnv, exTable]
  have hk : (exEnv rt exKs).ks.Pairwise (· ≤ ·) := by norm_num [exEnv, exKs]
  have hk' : ([2, 8] : List ℝ).Pairwise (· ≤ ·) := by norm_num
  have huv : ∀ o, 0 ≤ (exEnv rt exKs).cfg.uv o := fun o => by norm_num [exEnv, Cfg.default, Histo.lit]
  have hi : 3 < (exEnv rt exKs).ks.length := by simp [exEnv, exKs]
  have hj : 1 < ([2, 8] : List ℝ).length := by simp
  have f5 : RoomFlat 5 2 exMem := req_flat 2 (by decide) (by decide)
  have f9 : RoomFlat 9 2 exMem := req_flat 2 (by decide) (by decide)
  have f11 : Room 11 2 exMem := req_room 2 (by decide)
  have g5 := exRoomFlat 5 (by norm_num)
  obtain ⟨_, a⟩ := C59_bias (exEnv_ok rt exKs) (exSchedule 8) (exRoom 11)
  obtain ⟨_, a'⟩ := C59_bias (exEnv_ok rt [2, 8]) (req_sched 2) f11
  obtain ⟨_, b⟩ := C59_A_one_loop (exEnv_ok rt exKs) (exSchedule 5) g5
  obtain ⟨_, b'⟩ := C59_A_one_loop (exEnv_ok rt [2, 8]) (req_sched 2) f5
  obtain ⟨_, c⟩ := C59_B (exEnv_ok rt exKs) w two w two (exSchedule 9) (exRoomFlat 9 le_rfl)
  obtain ⟨_, c'⟩ := C59_B (exEnv_ok rt [2, 8]) w two w two (req_sched 2) f9
  obtain ⟨⟨_, _⟩, d⟩ := C59_A_two_loop (exEnv_ok rt exKs) exCuba_safe (exSchedule 5) g5
  obtain ⟨⟨_, _⟩, d'⟩ := C59_A_two_loop (exEnv_ok rt [2, 8]) exCuba_safe (req_sched 2) f5
  obtain ⟨⟨_, _⟩, q⟩ := C59_two_loop (exEnv_ok rt exKs) exCuba_safe .delta .theta (exSchedule 7) (exRoom 11)
  obtain ⟨⟨_, _⟩, q'⟩ := C59_two_loop (exEnv_ok rt [2, 8]) exCuba_safe .delta .theta (req_sched 2) f11
  exact ⟨⟨_, _, a, a', C94_linear_bias_partial ht h1 hk hk' hi hj rfl (exRoom 11) f11 (exSchedule 8) (req_sched 2) (huv _) a a'⟩,
    ⟨_, _, b, b', C94_linear_A_one_loop_partial ht h1 hk hk' hi hj rfl g5 f5 (exSchedule 5) (req_sched 2) (huv _) b b'⟩,
    ⟨_, _, c, c', C94_linear_B_partial ht h1 hk hk' hi hj rfl (exRoomFlat 9 le_rfl) f9 (exSchedule 9) (req_sched 2) (huv _) c c'⟩,
    ⟨_, _, d, d', C94_linear_A_two_loop_partial ht h1 hk hk' hi hj rfl g5 f5 (exSchedule 5) (req_sched 2) (huv _) d d'⟩,
    ⟨_, _, q, q', C94_linear_two_loop_partial ht h1 hk hk' hi hj rfl (exRoom 11) f11 (exSchedule 7) (req_sched 2) (huv _) q q'⟩⟩

end Verif
