import Verif.Model.Config
import Verif.Model.Parallel
import Verif.Model.Bispectrum
import Verif.Model.Python

/-!
# The runs: `run_terms_*` of `src/spectrum_*.c`

Over exact reals.  A run reads the settings, the linear spectrum and the requested modes, and stores into the arrays given to
`set_terms_*`.  An array is named by the position of the parameter of `set_terms_*` it was passed as.  The array `k` is not
written by any run, so its contents `ks` are given once and for all; `nk` is its length.  Everything about verbosity and timers is
left out here (see `Verif.Model.Library`).
-/

namespace Verif

noncomputable section

/-- What a run reads: settings, outcomes `rt n ii` of the root search of `nodes_weights_gauss_legendre` with `n` nodes, the
linear spectrum `pk_lin`, the requested modes. -/
structure Env where
  cfg : Cfg ℝ
  rt : ℕ → ℕ → ℝ × ℝ
  t : Pk ℝ
  ks : List ℝ

/-- `init_gauss_legendre_q(&gauss_legendre_q,&precision_q)` with the setting `p` of its file. -/
def Env.tabQ (e : Env) (p : PName) : Res (GLQ ℝ) := initGLQ (e.rt (e.cfg.prec p).n) e.t (e.cfg.prec p)

/-- `init_gauss_legendre_mu(&gauss_legendre_mu,&precision_mu)` with the setting `p` of its file. -/
def Env.tabMu (e : Env) (p : PName) : Res (GLMu ℝ) := initGLMu (e.rt (e.cfg.prec p).n) (e.cfg.prec p).n

/-- `for (ik=0;ik<n;ik++) array[ik] = f(ik);` on the shared memory. -/
def fillArr (id n : ℕ) (f : ℕ → Res ℝ) (μ : Mem) : Res Mem :=
  forRange 0 n μ fun ik μ => do
    let v ← f ik
    μ.wr (id, ik) v

/-- Position of a parameter. -/
def pos (params : List String) (name : String) : ℕ := params.idxOf name

/-- The calls of `find_pk_lin` and `calc_running_sigmad2` that open every run (`src/spectrum_1loop.c:80-81`,
`src/spectrum_2loop.c:74-75`, `src/spectrum_bias_1loop.c:90-91`, `src/spectrum_A_1loop.c:51-52`, `src/spectrum_A_2loop.c:50-51`,
`src/spectrum_B.c:109-110`); `o` is the file whose `interpol_pk_lin` and `uvcutoff` are used. -/
def columns12 (e : Env) (o : IName) (params : List String) (μ : Mem) : Res Mem := do
  let pl ← findPk e.t e.ks (e.cfg.interp o)
  let μ ← fillArr (pos params "pk_lin") e.ks.length (rd pl) μ
  let sg ← runningSigmad2 e.t e.ks (e.cfg.uv o)
  fillArr (pos params "sigmad2") e.ks.length (rd sg) μ

/-- Cells of iteration `ik` when every result goes to the array of its own parameter. -/
def layCols {m : ℕ} (params : List String) (names : Fin m → String) (ik : ℕ) (c : Fin m) : Cell := (pos params (names c), ik)

/-- Cells of iteration `ik` when the `m` results are consecutive in one array: `array[ik*NCOMP+c]`. -/
def layFlat (m : ℕ) (params : List String) (name : String) (ik : ℕ) (c : Fin m) : Cell := (pos params name, ik * m + c)

/-! ## One loop -/

/-- Parameters of `set_terms_spectrum_1loop` after `nk` (`src/spectrum_1loop.c:40`); each is stored in the field of that name
(`src/spectrum_1loop.c:42-48`). -/
def params1 : List String := ["k", "pk_lin", "sigmad2", "gamma1a_1loop", "gamma1b_1loop", "pk_gamma2_tree_tree"]

/-- Tables of a thread in the one-loop region. -/
structure Tab1 where
  g1 : GLQ ℝ
  g : GLQ ℝ
  gm : GLMu ℝ

/-- Body of the parallel region of `run_terms_spectrum_1loop` (`src/spectrum_1loop.c:84-93`); `init_gamma2_tree` is
`src/calc_pkcorr_from_gamma2.c:96-100`. -/
def work1 (e : Env) (a b : Field) : Work Tab1 3 where
  init := do
    let g1 ← e.tabQ .gamma1_1loop_q
    let g ← e.tabQ .gamma2_tree_q
    let gm ← e.tabMu .gamma2_tree_mu
    .ok ⟨g1, g, gm⟩
  body s ik := do
    let k ← rd e.ks ik
    let a1 ← gamma1OneLoop a s.g1 k
    let b1 ← other a b a1 (gamma1OneLoop b s.g1 k)
    let r ← calcGamma2Tree e.t (e.cfg.prec .gamma2_tree_mu).interpol a b s.g s.gm k
    .ok (⟨updateGLQ s.g1 k, r.1.1, r.1.2⟩, ![a1, b1, r.2])

/-- Names of the columns filled by `work1`, in the order they are stored. -/
def names1 : Fin 3 → String := ![("gamma1a_1loop"), "gamma1b_1loop", "pk_gamma2_tree_tree"]

/-- `run_terms_spectrum_1loop` (`src/spectrum_1loop.c:66-103`) under the schedule `es`. -/
def runTerms1 (e : Env) (a b : Field) (es : List Event) (μ : Mem) : Res Mem := do
  let μ ← columns12 e .spectrum_1loop params1 μ
  region (work1 e a b) (layCols params1 names1) es μ

/-- Arrays handed to `set_terms_spectrum_1loop` by `run_spectrum_1loop` (`src/spectrum_1loop.c:132`): `k` and five arrays from
`calloc`. -/
def callocTerms1 (ks : List ℝ) : Mem
  | 0 => ks.map some
  | _ + 1 => List.replicate ks.length (some 0)

/-- The arrays of the terms as seen by `spectrum_1loop`. -/
def cterms1 (ks : List ℝ) (μ : Mem) : Res CTerms1 := do
  let pl ← (μ (pos params1 "pk_lin")).contents
  let sg ← (μ (pos params1 "sigmad2")).contents
  let g1a ← (μ (pos params1 "gamma1a_1loop")).contents
  let g1b ← (μ (pos params1 "gamma1b_1loop")).contents
  let g2 ← (μ (pos params1 "pk_gamma2_tree_tree")).contents
  .ok ⟨ks.length, ks, pl, sg, g1a, g1b, g2⟩

/-- `run_spectrum_1loop` (`src/spectrum_1loop.c:127-136`): terms in temporary arrays, then `spectrum_1loop` into `out`. -/
def runSpectrum1 (e : Env) (a b : Field) (es : List Event) (out : Buf ℝ) : Res (Buf ℝ) := do
  let μ ← runTerms1 e a b es (callocTerms1 e.ks)
  let t ← cterms1 e.ks μ
  spectrum1C t out

/-! ## Two loops -/

/-- Parameters of `set_terms_spectrum_2loop` after `nk` (`src/spectrum_2loop.c:39`). -/
def params2 : List String := ["k", "pk_lin", "sigmad2", "gamma1a_1loop", "gamma1a_2loop", "gamma1b_1loop", "gamma1b_2loop",
  "pk_gamma2_tree_tree", "pk_gamma2_tree_1loop", "pk_gamma2_1loop_1loop", "pk_gamma3_tree"]

/-- Tables of a thread in the two-loop region. -/
structure Tab2 where
  g1 : GLQ ℝ
  g12 : GLQ ℝ
  g : GLQ ℝ
  gm : GLMu ℝ
  gd : GLQ ℝ
  gt : GLQ ℝ

/-- Body of the parallel region of `run_terms_spectrum_2loop` (`src/spectrum_2loop.c:78-88`). -/
def work2 (e : Env) (a b : Field) : Work Tab2 7 where
  init := do
    let g1 ← e.tabQ .gamma1_1loop_q
    let g12 ← e.tabQ .gamma1_2loop_q
    let g ← e.tabQ .gamma2_tree_q
    let gm ← e.tabMu .gamma2_tree_mu
    let gd ← e.tabQ .gamma2d_1loop_q
    let gt ← e.tabQ .gamma2t_1loop_q
    .ok ⟨g1, g12, g, gm, gd, gt⟩
  body s ik := do
    let k ← rd e.ks ik
    let r1 ← calcGamma1TwoLoop a b s.g1 s.g12 k
    let r ← calcGamma2Loop e.t (e.cfg.prec .gamma2_tree_mu).interpol s.gd s.gt a b s.g s.gm k
    .ok (⟨updateGLQ s.g1 k, updateGLQ s.g12 k, r.1.1, r.1.2, s.gd, s.gt⟩,
      ![r1.1, r1.2.1, r1.2.2.1, r1.2.2.2, r.2 0, r.2 1, r.2 2])

/-- Names of the columns filled by `work2`, in the order they are stored (`src/spectrum_2loop.c:87-88`). -/
def names2 : Fin 7 → String := ![("gamma1a_1loop"), "gamma1a_2loop", "gamma1b_1loop", "gamma1b_2loop", "pk_gamma2_tree_tree",
  "pk_gamma2_tree_1loop", "pk_gamma2_1loop_1loop"]

/-- The automatic range of `init_gamma3_tree` (`src/calc_pkcorr_from_gamma3.c:22-25`) and of `init_A_2loop_II_III`
(`src/calc_pkcorr_from_A_2loop_II_III.c:33-36`), which overwrites the setting. -/
def autoRange (t : Pk ℝ) (cfg : Cfg ℝ) (p : PName) : Res (Cfg ℝ) := do
  let r ← glqRange t (cfg.prec p)
  .ok { cfg with prec := Function.update cfg.prec p { cfg.prec p with min := r.1, max := r.2 } }

/-- A cubature routine for integrands on the unit cube with values in `β`. -/
abbrev Cuba (β : Type) := ((Fin 5 → ℝ) → Res β) → Res β

/-- `run_terms_spectrum_2loop` (`src/spectrum_2loop.c:61-107`) under the schedule `es`: settings and memory afterwards. -/
def runTerms2 (cuba : Cuba ℝ) (e : Env) (a b : Field) (es : List Event) (μ : Mem) : Res (Cfg ℝ × Mem) := do
  let μ ← columns12 e .spectrum_2loop params2 μ
  let μ ← region (work2 e a b) (layCols params2 names2) es μ
  let cfg ← autoRange e.t e.cfg .gamma3_tree_q
  let p := cfg.prec .gamma3_tree_q
  let μ ← fillArr (pos params2 "pk_gamma3_tree") e.ks.length (fun ik => do
    let k ← rd e.ks ik
    calcGamma3 cuba e.t p.interpol a b p.min p.max k) μ
  .ok (cfg, μ)

/-! ## Bias -/

/-- Parameters of `set_terms_bias_1loop` after `nk` (`src/spectrum_bias_1loop.c:61`). -/
def paramsBias : List String := ["k", "pk_lin", "sigmad2", "pk_b2d", "pk_bs2d", "pk_b2t", "pk_bs2t", "pk_b22", "pk_b2s2",
  "pk_bs22", "sigma3sq"]

/-- One call of `calc_pk_bias_1loop` on the tables of the thread. -/
def biasCall (e : Env) (a : Field) (kernel : BiasKernel) (runHalf : Bool) (s : GLQ ℝ × GLMu ℝ) (k : ℝ) :
    Res ((GLQ ℝ × GLMu ℝ) × ℝ) := calcBias e.t (e.cfg.prec .bias_1loop_mu).interpol a kernel runHalf s.1 s.2 k

/-- Body of the parallel region of `run_terms_bias_1loop` (`src/spectrum_bias_1loop.c:94-107`). -/
def workBias (e : Env) : Work (GLQ ℝ × GLMu ℝ) 8 where
  init := do
    let g ← e.tabQ .bias_1loop_q
    let gm ← e.tabMu .bias_1loop_mu
    .ok (g, gm)
  body s ik := do
    let k ← rd e.ks ik
    let r0 ← biasCall e .delta kernelB2 true s k
    let r1 ← biasCall e .delta kernelBs2 true r0.1 k
    let r2 ← biasCall e .theta kernelB2 true r1.1 k
    let r3 ← biasCall e .theta kernelBs2 true r2.1 k
    let r4 ← biasCall e .delta kernelB22 false r3.1 k
    let r5 ← biasCall e .delta kernelB2s2 false r4.1 k
    let r6 ← biasCall e .delta kernelBs22 false r5.1 k
    let r7 ← biasCall e .delta kernelSigma3sq false r6.1 k
    .ok (r7.1, ![r0.2, r1.2, r2.2, r3.2, r4.2, r5.2, r6.2, r7.2])

/-- Names of the columns filled by `workBias`, in the order they are stored. -/
def namesBias : Fin 8 → String := ![("pk_b2d"), "pk_bs2d", "pk_b2t", "pk_bs2t", "pk_b22", "pk_b2s2", "pk_bs22", "sigma3sq"]

/-- `run_terms_bias_1loop` (`src/spectrum_bias_1loop.c:82-115`) under the schedule `es`. -/
def runTermsBias (e : Env) (es : List Event) (μ : Mem) : Res Mem := do
  let μ ← columns12 e .bias_1loop paramsBias μ
  region (workBias e) (layCols paramsBias namesBias) es μ

/-! ## A -/

/-- Parameters of `set_terms_A_1loop` and `set_terms_A_2loop` after `nk` (`src/spectrum_A_1loop.c:29`,
`src/spectrum_A_2loop.c:27`). -/
def paramsA : List String := ["k", "pk_lin", "sigmad2", "A"]

/-- Body of the parallel region of `run_terms_A_1loop` (`src/spectrum_A_1loop.c:55-61`). -/
def workA1 (e : Env) : Work (GLQ ℝ × GLMu ℝ) 5 where
  init := do
    let g ← e.tabQ .A_1loop_q
    let gm ← e.tabMu .A_1loop_mu
    .ok (g, gm)
  body s ik := do
    let k ← rd e.ks ik
    let r ← calcA1 e.t (e.cfg.prec .A_1loop_q).interpol (e.cfg.prec .A_1loop_mu).interpol s.1 s.2 k
    .ok r

/-- `run_terms_A_1loop` (`src/spectrum_A_1loop.c:43-68`) under the schedule `es`. -/
def runTermsA1 (e : Env) (es : List Event) (μ : Mem) : Res Mem := do
  let μ ← columns12 e .A_1loop paramsA μ
  region (workA1 e) (layFlat 5 paramsA "A") es μ

/-- Tables of a thread in the region of the two-loop A term. -/
structure TabA2 where
  g : GLQ ℝ
  gm : GLMu ℝ
  g1 : GLQ ℝ
  gd : GLQ ℝ
  gt : GLQ ℝ

/-- `bispectrum_1loop_I` with the settings of its file and the tables of the thread. -/
def Env.biI (e : Env) (s : TabA2) : ℝ → ℝ → ℝ → Res BiOut :=
  bispectrumI e.t (e.cfg.interp .bispectrum_1loop) (e.cfg.uv .bispectrum_1loop) s.g1 s.gd s.gt

/-- Body of the parallel region of `run_terms_A_2loop` (`src/spectrum_A_2loop.c:54-65`).  The last wavenumber for which
`gamma1_1loop` was called within `bispectrum_1loop_I` is left in its table in C; every call of `gamma1_1loop` starts by
overwriting it, so the table is kept as it is here. -/
def workA2 (e : Env) : Work TabA2 5 where
  init := do
    let g ← e.tabQ .A_2loop_I_q
    let gm ← e.tabMu .A_2loop_I_mu
    let g1 ← e.tabQ .gamma1_1loop_q
    let gd ← e.tabQ .gamma2d_1loop_q
    let gt ← e.tabQ .gamma2t_1loop_q
    .ok ⟨g, gm, g1, gd, gt⟩
  body s ik := do
    let k ← rd e.ks ik
    let r ← calcA2I (e.biI s) s.g s.gm k
    .ok (⟨r.1.1, r.1.2, s.g1, s.gd, s.gt⟩, columnsA2 r.2)

/-- `array[i] += v;` -/
def Mem.add (μ : Mem) (c : Cell) (v : ℝ) : Res Mem := do
  let x ← (μ c.1).rd c.2
  μ.wr c (x + v)

/-- The serial loop of `run_terms_A_2loop` (`src/spectrum_A_2loop.c:75-84`). -/
def addRows (n : ℕ) (lay : ℕ → Fin 5 → Cell) (f : ℕ → Res (Fin 5 → ℝ)) (μ : Mem) : Res Mem :=
  forRange 0 n μ fun ik μ => do
    let p ← f ik
    let μ ← μ.add (lay ik 0) (p 0)
    let μ ← μ.add (lay ik 1) (p 1)
    let μ ← μ.add (lay ik 2) (p 2)
    let μ ← μ.add (lay ik 3) (p 3)
    μ.add (lay ik 4) (p 4)

/-- `run_terms_A_2loop` (`src/spectrum_A_2loop.c:41-87`) under the schedule `es`: settings and memory afterwards. -/
def runTermsA2 (cuba : Cuba (Fin 12 → ℝ)) (e : Env) (es : List Event) (μ : Mem) : Res (Cfg ℝ × Mem) := do
  let μ ← columns12 e .A_2loop paramsA μ
  let μ ← region (workA2 e) (layFlat 5 paramsA "A") es μ
  let cfg ← autoRange e.t e.cfg .A_2loop_II_III_q
  let p := cfg.prec .A_2loop_II_III_q
  let μ ← addRows e.ks.length (layFlat 5 paramsA "A") (fun ik => do
    let k ← rd e.ks ik
    let r ← calcA2II cuba e.t (e.cfg.interp .bispectrum_1loop) (e.cfg.uv .bispectrum_1loop) p.min p.max k
    .ok (columnsA2 r)) μ
  .ok (cfg, μ)

/-! ## B -/

/-- Parameters of `set_terms_B` after `nk` (`src/spectrum_B.c:43`). -/
def paramsB : List String := ["k", "pk_lin", "sigmad2", "B"]

/-- Body of the parallel region of `run_terms_B` (`src/spectrum_B.c:119-135`); `dt`, `tt` are `pk_dt`, `pk_tt`, which `init_B`
copies into file-scope variables shared by the threads: every thread stores the same values. -/
def workB (e : Env) (dt tt : Pk ℝ) : Work (GLQ ℝ × GLMu ℝ) 9 where
  init := do
    let g ← e.tabQ .B_q
    let gm ← e.tabMu .B_mu
    .ok (g, gm)
  body s ik := do
    let k ← rd e.ks ik
    let r ← calcB dt tt (e.cfg.prec .B_mu).interpol s.1 s.2 k
    .ok (r.1, columnsB r.2)

/-- `run_terms_B` (`src/spectrum_B.c:100-143`) under the schedule `es`, for the spectra `dt`, `tt` in force when the parallel
region is entered. -/
def runTermsB (e : Env) (dt tt : Pk ℝ) (es : List Event) (μ : Mem) : Res Mem := do
  let μ ← columns12 e .B paramsB μ
  region (workB e dt tt) (layFlat 9 paramsB "B") es μ

end

end Verif
