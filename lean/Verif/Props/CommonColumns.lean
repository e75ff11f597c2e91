import Verif.Props.OwnSettings

/-!
# C96: quantities common to several calculations have the same value in each
-/

namespace Verif

open Res

/-- The column `s` of two classes has the same entry in row `i`. -/
def SameIn (cls cls' : PyClass) (s : String) (ν ν' : Mem) (i : ℕ) : Prop := ν.at (cellOf cls s i) = ν'.at (cellOf cls' s i)

section

variable {e : Env} {i : ℕ} (hi : i < e.ks.length)

include hi

/-- C96: the one-loop propagators and the tree-level mode coupling of the two-loop run are those of the one-loop run, for every cubature
routine, every pair of schedules and all previous contents of the arrays. -/
theorem C96_loop_columns {cuba : Cuba ℝ} {a b : Field} {es es' : List Event} {μ ν μ' ν' : Mem} {cfg : Cfg ℝ} (hμ : Room 6 e.ks.length μ)
    (hμ' : Room 11 e.ks.length μ') (hes : Schedule 3 e.ks.length es) (hes' : Schedule 7 e.ks.length es') (h : runTerms1 e a b es μ = .ok ν)
    (h' : runTerms2 cuba e a b es' μ' = .ok (cfg, ν')) :
    SameIn cls1 cls2 "gamma1a_1loop" ν ν' i ∧ SameIn cls1 cls2 "gamma1b_1loop" ν ν' i ∧ SameIn cls1 cls2 "pk_gamma2_tree_tree" ν ν' i := by
  obtain ⟨_, _, g1, g, gm, va, vb, s, v2, -, -, a1, a2, a3, a4, a5, a6, -, -, c1, c2, c3, -⟩ := C45_one_loop hμ hes h hi
  obtain ⟨_, _, g1', _, g', gm', _, _, x1, _, y1, _, s', r, _, _, -, -, b1, -, b2, b3, -, -, b4, b5, -, -, b6, -, -, -, -, -,
    d1, -, d2, -, d3, -⟩ := C45_two_loop hμ' hes' h' hi
  cases ok.inj (a1.symm.trans b1)
  cases ok.inj (a2.symm.trans b2)
  cases ok.inj (a3.symm.trans b3)
  cases ok.inj (a4.symm.trans b4)
  cases ok.inj (a5.symm.trans b5)
  have e6 := congrArg Prod.snd (ok.inj (a6.symm.trans b6))
  dsimp only at e6
  exact ⟨c1.trans d1.symm, c2.trans d2.symm, c3.trans (e6 ▸ d3.symm)⟩

end

/-- What every run stores in its columns `pk_lin` and `sigmad2`, for the interpolation and cut-off of the file `o`. -/
structure LinearColumns (e : Env) (o : IName) (cls : PyClass) (ν : Mem) (i : ℕ) : Prop where
  lin : ∃ pl, findPk e.t e.ks (e.cfg.interp o) = .ok pl ∧ ν.at (cellOf cls "pk_lin" i) = some (some (pl.getD i 0))
  disp : ∃ sg, runningSigmad2 e.t e.ks (e.cfg.uv o) = .ok sg ∧ ν.at (cellOf cls "sigmad2" i) = some (some (sg.getD i 0))

/-- C96: the linear spectrum and the displacement variance agree between any two runs with the same interpolation and cut-off. -/
theorem LinearColumns.same {e : Env} {o o' : IName} {cls cls' : PyClass} {ν ν' : Mem} {i : ℕ} (h : LinearColumns e o cls ν i)
    (h' : LinearColumns e o' cls' ν' i) :
    (e.cfg.interp o = e.cfg.interp o' → SameIn cls cls' "pk_lin" ν ν' i) ∧ (e.cfg.uv o = e.cfg.uv o' → SameIn cls cls' "sigmad2" ν ν' i) := by
  obtain ⟨⟨pl, a1, a2⟩, ⟨sg, a3, a4⟩⟩ := h
  obtain ⟨⟨pl', b1, b2⟩, ⟨sg', b3, b4⟩⟩ := h'
  refine ⟨fun he => ?_, fun he => ?_⟩
  · rw [he] at a1
    cases ok.inj (a1.symm.trans b1)
    exact a2.trans b2.symm
  · rw [he] at a3
    cases ok.inj (a3.symm.trans b3)
    exact a4.trans b4.symm

/-- A memory left by one of the six runs, with the file whose interpolation and cut-off it uses and the class of its columns. -/
inductive RanTo (e : Env) : IName → PyClass → Mem → Prop
  | one {a b es μ ν} (hμ : Room 6 e.ks.length μ) (hes : Schedule 3 e.ks.length es) (h : runTerms1 e a b es μ = .ok ν) : RanTo e .spectrum_1loop cls1 ν
  | two {cuba a b es μ ν cfg} (hμ : Room 11 e.ks.length μ) (hes : Schedule 7 e.ks.length es) (h : runTerms2 cuba e a b es μ = .ok (cfg, ν)) :
      RanTo e .spectrum_2loop cls2 ν
  | bias {es μ ν} (hμ : Room 11 e.ks.length μ) (hes : Schedule 8 e.ks.length es) (h : runTermsBias e es μ = .ok ν) : RanTo e .bias_1loop clsBias ν
  | A1 {es μ ν} (hμ : RoomFlat 5 e.ks.length μ) (hes : Schedule 5 e.ks.length es) (h : runTermsA1 e es μ = .ok ν) : RanTo e .A_1loop clsA ν
  | A2 {cuba es μ ν cfg} (hμ : RoomFlat 5 e.ks.length μ) (hes : Schedule 5 e.ks.length es) (h : runTermsA2 cuba e es μ = .ok (cfg, ν)) :
      RanTo e .A_2loop clsA ν
  | B {dt tt es μ ν} (hμ : RoomFlat 9 e.ks.length μ) (hes : Schedule 9 e.ks.length es) (h : runTermsB e dt tt es μ = .ok ν) : RanTo e .B clsB ν

theorem RanTo.columns {e : Env} {o : IName} {cls : PyClass} {ν : Mem} (h : RanTo e o cls ν) {i : ℕ} (hi : i < e.ks.length) :
    LinearColumns e o cls ν i := by
  cases h with
  | one hμ hes h =>
      obtain ⟨pl, sg, _, _, _, _, _, _, _, a1, a2, -, -, -, -, -, -, c1, c2, -⟩ := C45_one_loop hμ hes h hi
      exact ⟨⟨pl, a1, c1⟩, ⟨sg, a2, c2⟩⟩
  | two hμ hes h =>
      obtain ⟨pl, sg, _, _, _, _, _, _, _, _, _, _, _, _, _, _, a1, a2, -, -, -, -, -, -, -, -, -, -, -, -, -, -, c1, c2, -⟩ :=
        C45_two_loop hμ hes h hi
      exact ⟨⟨pl, a1, c1⟩, ⟨sg, a2, c2⟩⟩
  | bias hμ hes h =>
      obtain ⟨pl, sg, _, _, a1, a2, -, -, c1, c2, -⟩ := C45_bias hμ hes h hi
      exact ⟨⟨pl, a1, c1⟩, ⟨sg, a2, c2⟩⟩
  | A1 hμ hes h =>
      obtain ⟨pl, sg, _, _, _, _, a1, a2, -, -, -, c1, c2, -⟩ := C45_A_one_loop hμ hes h hi
      exact ⟨⟨pl, a1, c1⟩, ⟨sg, a2, c2⟩⟩
  | A2 hμ hes h =>
      obtain ⟨pl, sg, _, _, _, _, _, _, _, _, _, a1, a2, -, -, -, -, -, -, -, -, c1, c2, -⟩ := C45_A_two_loop hμ hes h hi
      exact ⟨⟨pl, a1, c1⟩, ⟨sg, a2, c2⟩⟩
  | B hμ hes h =>
      obtain ⟨pl, sg, _, _, _, _, a1, a2, -, -, -, c1, c2, -⟩ := C45_B hμ hes h hi
      exact ⟨⟨pl, a1, c1⟩, ⟨sg, a2, c2⟩⟩

/-- C96: any two of the six runs on the same spectrum and requests agree in the linear spectrum if their files have the same interpolation,
and in the displacement variance if they have the same cut-off.  Missing for C96: that the settings for all calculations keep these the
same, see `C96_cutoff_violation`. -/
theorem C96_linear_columns_partial {e : Env} {o o' : IName} {cls cls' : PyClass} {ν ν' : Mem} (h : RanTo e o cls ν) (h' : RanTo e o' cls' ν') {i : ℕ}
    (hi : i < e.ks.length) :
    (e.cfg.interp o = e.cfg.interp o' → SameIn cls cls' "pk_lin" ν ν' i) ∧ (e.cfg.uv o = e.cfg.uv o' → SameIn cls cls' "sigmad2" ν ν' i) :=
  (h.columns hi).same (h'.columns hi)

/-- C96 is violated: after `set_running_uvcutoff('all', 1)` on default settings the variance in the one-loop spectrum is four times the one
in the A and B terms, which keep the cut-off they had. -/
theorem C96_cutoff_violation (rt : ℕ → ℕ → ℝ × ℝ) (a b : Field) :
    ∃ c, pySetUv "all" 1 (Cfg.default : Cfg ℝ) = .done c ∧
      ∃ ν ν', runTerms1 ((reqEnv rt [3]).withCfg c) a b (blocks 3 0 0 [1]) exMem = .ok ν ∧
        runTermsA1 ((reqEnv rt [3]).withCfg c) (blocks 5 0 0 [1]) exMem = .ok ν' ∧
        ν.at (cellOf cls1 "sigmad2" 0) = some (some (4 / (12 * Real.pi * Real.pi))) ∧
        ν'.at (cellOf clsA "sigmad2" 0) = some (some (1 / (12 * Real.pi * Real.pi))) ∧ ¬ SameIn cls1 clsA "sigmad2" ν ν' 0 := by
  obtain ⟨c, hc, p1, p2, p3⟩ := C36_cutoff (1 : ℝ) (Cfg.default : Cfg ℝ)
  refine ⟨c, hc, ?_⟩
  have okr := reqEnv_ok rt [3]
  have ok' : ((reqEnv rt [3]).withCfg c).Ok :=
    ⟨okr.wf, okr.two, fun p => by simpa only [Env.withCfg, reqEnv, p1] using okr.size p, fun p => by simpa only [Env.withCfg, reqEnv, p1] using okr.poly p,
      fun o => by simpa only [Env.withCfg, reqEnv, p2] using okr.interp o⟩
  have f6 : Room 6 1 exMem := req_room 1 (by decide)
  have f5 : RoomFlat 5 1 exMem := req_flat 1 (by decide) (by decide)
  obtain ⟨ν, h⟩ := C59_one_loop ok' a b (req_sched 1) f6
  obtain ⟨ν', h'⟩ := C59_A_one_loop ok' (req_sched 1) f5
  obtain ⟨sg, a2, c2⟩ := ((RanTo.one (e := (reqEnv rt [3]).withCfg c) f6 (req_sched 1) h).columns (i := 0) (show 0 < 1 by decide)).disp
  obtain ⟨sg', b2, d2⟩ := ((RanTo.A1 (e := (reqEnv rt [3]).withCfg c) f5 (req_sched 1) h').columns (i := 0) (show 0 < 1 by decide)).disp
  have e1 : runningSigmad2 (⟨3, [1, 2, 3], [1, 1, 1]⟩ : Pk ℝ) [3] (1 / 2) = .ok [1 / (12 * Real.pi * Real.pi)] := by
    norm_num [runningSigmad2, sigmaLoop, sigmaInner, sigmaWritten, rd, subSize, sizeMod, Histo.lt, interpolLin]
  have e2 : runningSigmad2 (⟨3, [1, 2, 3], [1, 1, 1]⟩ : Pk ℝ) [3] 1 = .ok [4 / (12 * Real.pi * Real.pi)] := by
    norm_num [runningSigmad2, sigmaLoop, sigmaInner, sigmaWritten, rd, subSize, sizeMod, Histo.lt]
  have u1 : c.uv .spectrum_1loop = 1 := by rw [p3, if_pos (by decide)]
  have u2 : c.uv .A_1loop = 1 / 2 := by rw [p3, if_neg (by decide)]; norm_num [Cfg.default, Histo.lit]
  simp only [reqEnv, Env.withCfg, u1] at a2
  simp only [reqEnv, Env.withCfg, u2] at b2
  cases ok.inj (a2.symm.trans e2)
  cases ok.inj (b2.symm.trans e1)
  refine ⟨ν, ν', h, h', c2, d2, fun hs => ?_⟩
  exact C11_sigmad2_order_violation.2.2 (Option.some.inj (Option.some.inj ((c2.symm.trans hs).trans d2)))

/-! ## Non-vacuity -/

variable (rt : ℕ → ℕ → ℝ × ℝ)

/-- One-, two-loop and A runs with default settings, five requests. -/
example : ∃ ν r ν', runTerms1 (exEnv rt exKs) .delta .theta (blocks 3 0 0 [2, 0, 3]) exMem = .ok ν ∧
    runTerms2 exCuba (exEnv rt exKs) .delta .theta (blocks 7 0 0 [5]) exMem = .ok r ∧
    runTermsA1 (exEnv rt exKs) (blocks 5 0 0 [5]) exMem = .ok ν' ∧ SameIn cls1 cls2 "pk_gamma2_tree_tree" ν r.2 3 ∧
    SameIn cls1 cls2 "sigmad2" ν r.2 3 ∧ SameIn cls2 clsA "sigmad2" r.2 ν' 3 ∧ SameIn cls2 clsA "pk_lin" r.2 ν' 3 := by
  have f5 := exRoomFlat 5 (by norm_num)
  obtain ⟨ν, h⟩ := C59_one_loop (exEnv_ok rt exKs) .delta .theta (exSchedule 3) (exRoom 6)
  obtain ⟨⟨c, ρ⟩, g⟩ := C59_two_loop (exEnv_ok rt exKs) exCuba_safe .delta .theta (exSchedule' 7) (exRoom 11)
  obtain ⟨ν', q⟩ := C59_A_one_loop (exEnv_ok rt exKs) (exSchedule' 5) f5
  have hi : 3 < (exEnv rt exKs).ks.length := by simp [exEnv, exKs]
  have r1 := RanTo.one (e := exEnv rt exKs) (exRoom 6) (exSchedule 3) h
  have r2 := RanTo.two (e := exEnv rt exKs) (exRoom 11) (exSchedule' 7) g
  have r3 := RanTo.A1 (e := exEnv rt exKs) f5 (exSchedule' 5) q
  exact ⟨ν, _, ν', h, g, q, (C96_loop_columns hi (exRoom 6) (exRoom 11) (exSchedule 3) (exSchedule' 7) h g).2.2,
    (C96_linear_columns_partial r1 r2 hi).2 rfl, (C96_linear_columns_partial r2 r3 hi).2 rfl, (C96_linear_columns_partial r2 r3 hi).1 rfl⟩

end Verif
