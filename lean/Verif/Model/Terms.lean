import Verif.Model.MuRange
import Verif.Model.Gamma1
import Verif.Model.Gamma2
import Verif.Model.Powers

/-!
# Term integrals (`src/calc_pkcorr_from_*.c`)

Over exact reals.  The thread-private quadrature tables are explicit state: a function receives the tables as the previous
call left them and returns the tables it leaves.  The linear spectrum `pk_lin` and the precision settings are arguments.
Arrays `histo_t kernel[NCOMP]` are functions of the component.
-/

namespace Verif

noncomputable section

/-- `find_pk_lin(&k,&pk,1,interpol)` (`src/common.c:207-210`) for one mode, and `find_pk` of another table. -/
def look (t : Pk ℝ) (interpol : Interpol) (k : ℝ) : Res ℝ := do
  let l ← findPk t [k] interpol
  rd l 0

/-- The two loops shared by `calc_pk_gamma2_1loop` (`src/calc_pkcorr_from_gamma2.c:124-149`), `calc_pk_gamma2_tree`
(`src/calc_pkcorr_from_gamma2.c:164-182`), `calc_pk_A_1loop` (`src/calc_pkcorr_from_A_1loop.c:128-149`), `calc_pk_A_2loop_I`
(`src/calc_pkcorr_from_A_2loop_I.c:109-126`), `calc_pk_B` (`src/calc_pkcorr_from_B.c:97-115`) and `calc_pk_bias_1loop`
(`src/calc_pkcorr_from_bias_1loop.c:75-90`).  `kern iq mu` is the angular integrand, `extra iq` what is added to the angular
integral (zero except for the one-loop A term), `wt x w` the radial weight.  `continue` leaves the state unchanged. -/
def quadLoop {ι : Type} (half : Bool) (g : GLQ ℝ) (gm : GLMu ℝ) (kern : ℕ → ℝ → Res (ι → ℝ)) (extra : ℕ → Res (ι → ℝ))
    (wt : ℝ → ℝ → ℝ) : Res (GLMu ℝ × (ι → ℝ)) :=
  forRange 0 g.nq (gm, fun _ : ι => (0 : ℝ)) fun iq s => do
    let x ← rd g.x iq
    let r ← muRange half g.x g.nq x
    match r with
    | none => .ok s
    | some (lo, hi) => do
        let gm := updateGLMu s.1 lo hi
        let integ ← forRange 0 gm.nmu (fun _ : ι => (0 : ℝ)) fun imu acc => do
          let mu ← rd gm.mu imu
          let kr ← kern iq mu
          let w ← rd gm.w imu
          .ok (fun i : ι => acc i + kr i * w)
        let ex ← extra iq
        let w ← rd g.w iq
        .ok (gm, fun i => s.2 i + (integ i + ex i) * wt x w)

/-- No addition to the angular integral. -/
def noExtra {ι : Type} : ℕ → Res (ι → ℝ) := fun _ => .ok fun _ => 0

/-! ## First order -/

/-- `calc_pk_gamma1_2loop` (`src/calc_pkcorr_from_gamma1.c:20-38`): one- and two-loop propagators of both fields.  `g1`, `g2`
are the tables of `gamma1_1loop` and `gamma1_2loop`; what the calls leave in them is not returned (see `updateGLQ`). -/
def calcGamma1TwoLoop (a b : Field) (g1 g2 : GLQ ℝ) (k : ℝ) : Res (ℝ × ℝ × ℝ × ℝ) :=
  if a = b then do
    let a1 ← gamma1OneLoop a g1 k
    let a2 ← gamma1TwoLoop a g2 k
    let a2 := a2 + a1 * a1 / 2
    .ok (a1, a2, a1, a2)
  else do
    let a1 ← gamma1OneLoop a g1 k
    let a2 ← gamma1TwoLoop a g2 k
    let b1 ← gamma1OneLoop b g1 k
    let b2 ← gamma1TwoLoop b g2 k
    let a2 := a2 + a1 * a1 / 2
    let b2 := b2 + b1 * b1 / 2
    .ok (a1, a2, b1, b2)

/-! ## Second order -/

/-- `gamma2_stdPT` (`src/calc_pkcorr_from_gamma2.c:25-33`); `gd`, `gt` are the tables of the two loop kernels. -/
def gamma2StdPT (gd gt : GLQ ℝ) (a : Field) (nloop : ℕ) (k1 k2 k3 : ℝ) : Res ℝ :=
  if nloop = 0 then .ok (gamma2Tree a k1 k2 k3)
  else if nloop = 1 then
    match a with
    | .delta => gamma2OneLoop .delta gd k1 k2 k3
    | .theta => gamma2OneLoop .theta gt k1 k2 k3
  else .ok 0

/-- `kernel_pk_gamma2_tree` (`src/calc_pkcorr_from_gamma2.c:63-83`). -/
def kernelGamma2Tree (t : Pk ℝ) (interpol : Interpol) (a b : Field) (g : GLQ ℝ) (iq : ℕ) (mu : ℝ) : Res (Unit → ℝ) := do
  let x ← rd g.x iq
  let k := g.k
  let q ← rd g.q iq
  let kq := g.k * Real.sqrt (1 + x * x - 2 * mu * x)
  let pk_q ← rd g.pk iq
  let pk_kq ← look t interpol kq
  let gamma2a_tree := gamma2Tree a kq q k
  let gamma2b_tree := if a = b then gamma2a_tree else gamma2Tree b kq q k
  .ok fun _ => 2 * pk_q * pk_kq * gamma2a_tree * gamma2b_tree

/-- `calc_pk_gamma2_tree` (`src/calc_pkcorr_from_gamma2.c:159-186`). -/
def calcGamma2Tree (t : Pk ℝ) (interpol : Interpol) (a b : Field) (g : GLQ ℝ) (gm : GLMu ℝ) (k : ℝ) :
    Res ((GLQ ℝ × GLMu ℝ) × ℝ) := do
  let g := updateGLQ g k
  let (gm, s) ← quadLoop true g gm (kernelGamma2Tree t interpol a b g) noExtra fun x w => x * x * x * w
  let factor := k * k * k / (2 * Real.pi * Real.pi)
  .ok ((g, gm), s () * factor)

/-- Value for the second field: copied when the fields are equal, computed otherwise (`src/calc_pkcorr_from_gamma2.c:47-54`,
`src/spectrum_1loop.c:90-91`). -/
def other (a b : Field) (va : ℝ) (vb : Res ℝ) : Res ℝ := if a = b then .ok va else vb

/-- `kernel_pk_gamma2_1loop` (`src/calc_pkcorr_from_gamma2.c:35-61`). -/
def kernelGamma2Loop (t : Pk ℝ) (interpol : Interpol) (gd gt : GLQ ℝ) (a b : Field) (g : GLQ ℝ) (iq : ℕ) (mu : ℝ) :
    Res (Fin 3 → ℝ) := do
  let x ← rd g.x iq
  let k := g.k
  let q ← rd g.q iq
  let kq := g.k * Real.sqrt (1 + x * x - 2 * mu * x)
  let pk_q ← rd g.pk iq
  let pk_kq ← look t interpol kq
  let at' ← gamma2StdPT gd gt a 0 kq q k
  let a1 ← gamma2StdPT gd gt a 1 kq q k
  let bt ← other a b at' (gamma2StdPT gd gt b 0 kq q k)
  let b1 ← other a b a1 (gamma2StdPT gd gt b 1 kq q k)
  .ok ![2 * pk_q * pk_kq * at' * bt, 2 * pk_q * pk_kq * (at' * b1 + a1 * bt), 2 * pk_q * pk_kq * a1 * b1]

/-- `calc_pk_gamma2_1loop` (`src/calc_pkcorr_from_gamma2.c:120-157`): tree-tree, tree-loop, loop-loop. -/
def calcGamma2Loop (t : Pk ℝ) (interpol : Interpol) (gd gt : GLQ ℝ) (a b : Field) (g : GLQ ℝ) (gm : GLMu ℝ) (k : ℝ) :
    Res ((GLQ ℝ × GLMu ℝ) × (Fin 3 → ℝ)) := do
  let g := updateGLQ g k
  let (gm, s) ← quadLoop true g gm (kernelGamma2Loop t interpol gd gt a b g) noExtra fun x w => x * x * x * w
  let factor := k * k * k / (2 * Real.pi * Real.pi)
  .ok ((g, gm), fun i => s i * factor)

/-! ## Third order -/

/-- The part of `kernel_pk_gamma3_tree` (`src/calc_pkcorr_from_gamma3.c:106-131`) that builds the wavevectors: `p`, `q` and the
third one, from a point of the unit cube. -/
structure G3Point where
  p : ℝ
  q : ℝ
  sintheta1 : ℝ
  sintheta2 : ℝ
  pp : Vec
  qq : Vec
  kpq : Vec
  kp : Vec

/-- See `G3Point` (`src/calc_pkcorr_from_gamma3.c:110-131`). -/
def g3Point (k logqmin logqmax : ℝ) (xx : Fin 5 → ℝ) : G3Point :=
  let p := Real.exp (logqmin + (logqmax - logqmin) * xx 0)
  let theta1 := xx 1 * Real.pi
  let phi1 := xx 2 * 2 * Real.pi
  let q := Real.exp (logqmin + (logqmax - logqmin) * xx 3)
  let theta2 := xx 4 * Real.pi
  let sintheta1 := Real.sin theta1
  let sintheta2 := Real.sin theta2
  let pp : Vec := ⟨p * sintheta1 * Real.cos phi1, p * sintheta1 * Real.sin phi1, p * Real.cos theta1⟩
  let qq : Vec := ⟨q * sintheta2, 0, q * Real.cos theta2⟩
  let kpq : Vec := ⟨-pp.x - qq.x, -pp.y - qq.y, k - pp.z - qq.z⟩
  let kp : Vec := ⟨-pp.x, -pp.y, k - pp.z⟩
  ⟨p, q, sintheta1, sintheta2, pp, qq, kpq, kp⟩

open Classical in
/-- The test and the integrand of `kernel_pk_gamma3_tree` (`src/calc_pkcorr_from_gamma3.c:126-147`).  `qmin`, `qmax` are
`precision_q.min`, `precision_q.max`. -/
def kernelGamma3 (t : Pk ℝ) (interpol : Interpol) (a b : Field) (k qmin qmax : ℝ) (xx : Fin 5 → ℝ) : Res ℝ :=
  let logqmin := Real.log qmin
  let logqmax := Real.log qmax
  let s := g3Point k logqmin logqmax xx
  let k_p_q := Real.sqrt (s.kpq.x * s.kpq.x + s.kpq.y * s.kpq.y + s.kpq.z * s.kpq.z)
  let k_p := Real.sqrt (s.kp.x * s.kp.x + s.kp.y * s.kp.y + s.kp.z * s.kp.z)
  let prod_q_kp := s.qq.x * s.kp.x + s.qq.y * s.kp.y + s.qq.z * s.kp.z
  if qmin ≤ k_p_q ∧ k_p_q ≤ qmax ∧ prod_q_kp ≤ 0.5 * k_p * k_p then do
    let pk_p ← look t interpol s.p
    let pk_q ← look t interpol s.q
    let pk_kpq ← look t interpol k_p_q
    let f := F3Sym a s.pp s.qq s.kpq * F3Sym b s.pp s.qq s.kpq * pk_p * pk_q * pk_kpq
    let jacobian := (logqmax - logqmin) * Real.pi * 2 * Real.pi
    let jacobian := jacobian * (jacobian * s.sintheta1 * s.sintheta2)
    let f := f * (s.p * s.p * s.p * s.q * s.q * s.q * jacobian)
    .ok (2 * f)
  else .ok 0

/-- `calc_pk_gamma3_tree` (`src/calc_pkcorr_from_gamma3.c:205-218`).  The cubature `Suave` is an arbitrary function `cuba` of
the integrand. -/
def calcGamma3 (cuba : ((Fin 5 → ℝ) → Res ℝ) → Res ℝ) (t : Pk ℝ) (interpol : Interpol) (a b : Field) (qmin qmax k : ℝ) :
    Res ℝ := do
  let integral ← cuba (kernelGamma3 t interpol a b k qmin qmax)
  .ok (6 * integral / power (2 * Real.pi) 6)

/-! ## Bias -/

/-- Type `kernel_bias_1loop` (`src/common.h`): field, `q`, `kq`, `mu`, `muqkq`, `pk_q`, `pk_kq`. -/
abbrev BiasKernel := Field → ℝ → ℝ → ℝ → ℝ → ℝ → ℝ → ℝ

/-- `kernel_b2` (`src/spectrum_bias_1loop.c:18-21`). -/
def kernelB2 : BiasKernel := fun a q kq _ muqkq pk_q pk_kq => pk_q * pk_kq * F2Fast a (q * q) (kq * kq) (muqkq * q * kq)

/-- `kernel_bs2` (`src/spectrum_bias_1loop.c:23-26`). -/
def kernelBs2 : BiasKernel := fun a q kq _ muqkq pk_q pk_kq =>
  pk_q * pk_kq * F2Fast a (q * q) (kq * kq) (muqkq * q * kq) * S2 muqkq

/-- `kernel_b22` (`src/spectrum_bias_1loop.c:28-31`). -/
def kernelB22 : BiasKernel := fun _ _ _ _ _ pk_q pk_kq => 0.5 * pk_q * (pk_kq - pk_q)

/-- `kernel_b2s2` (`src/spectrum_bias_1loop.c:33-36`). -/
def kernelB2s2 : BiasKernel := fun _ _ _ _ muqkq pk_q pk_kq => -0.5 * pk_q * (2 / 3 * pk_q - pk_kq * S2 muqkq)

/-- `kernel_bs22` (`src/spectrum_bias_1loop.c:38-42`). -/
def kernelBs22 : BiasKernel := fun _ _ _ _ muqkq pk_q pk_kq =>
  let s2 := S2 muqkq;
  -0.5 * pk_q * (4 / 9 * pk_q - pk_kq * s2 * s2)

/-- `kernel_sigma3sq` (`src/spectrum_bias_1loop.c:44-47`). -/
def kernelSigma3sq : BiasKernel := fun _ _ _ mu muqkq pk_q _ => 105 / 16 * pk_q * (D2 mu * S2 muqkq + 8 / 63)

/-- `kernel_pk_bias_1loop` (`src/calc_pkcorr_from_bias_1loop.c:16-30`). -/
def kernelPkBias (t : Pk ℝ) (interpol : Interpol) (kernel : BiasKernel) (a : Field) (g : GLQ ℝ) (iq : ℕ) (mu : ℝ) :
    Res (Unit → ℝ) := do
  let x ← rd g.x iq
  let k := g.k
  let q ← rd g.q iq
  let kq := g.k * Real.sqrt (1 + x * x - 2 * mu * x)
  let pk_q ← rd g.pk iq
  let pk_kq ← look t interpol kq
  let muqkq := (k * k - kq * kq - q * q) / 2 / q / kq
  .ok fun _ => kernel a q kq mu muqkq pk_q pk_kq

/-- `calc_pk_bias_1loop` (`src/calc_pkcorr_from_bias_1loop.c:70-94`). -/
def calcBias (t : Pk ℝ) (interpol : Interpol) (a : Field) (kernel : BiasKernel) (runHalf : Bool) (g : GLQ ℝ) (gm : GLMu ℝ)
    (k : ℝ) : Res ((GLQ ℝ × GLMu ℝ) × ℝ) := do
  let g := updateGLQ g k
  let (gm, s) ← quadLoop runHalf g gm (kernelPkBias t interpol kernel a g) noExtra fun x w =>
    let x3w := x * x * x * w
    if runHalf then x3w * 2 else x3w
  .ok ((g, gm), k * k * k / (4 * Real.pi * Real.pi) * s ())

/-! ## A at one loop -/

/-- The polynomials `kernel_A` of `kernel_A_tA_1loop` (`src/calc_pkcorr_from_A_1loop.c:34-38`). -/
def kA1 (x mu : ℕ → ℝ) : Fin 5 → ℝ :=
  let a1 := x 4 / 14 * (mu 2 - 1) * (-1 + 7 * x 1 * mu 1 - 6 * mu 2)
  ![-x 3 / 7 * (mu 1 + 6 * mu 3 + x 2 * mu 1 * (-3 + 10 * mu 2) + x 1 * (-3 + mu 2 - 12 * mu 4)),
    a1,
    x 3 / 14 * (x 2 * mu 1 * (13 - 41 * mu 2) - 4 * (mu 1 + 6 * mu 3) + x 1 * (5 + 9 * mu 2 + 42 * mu 4)),
    a1,
    x 3 / 14 * (1 - 7 * x 1 * mu 1 + 6 * mu 2) * (-2 * mu 1 + x 1 * (-1 + 3 * mu 2))]

/-- The polynomials `kernel_tA` of `kernel_A_tA_1loop` (`src/calc_pkcorr_from_A_1loop.c:40-44`). -/
def ktA1 (x mu : ℕ → ℝ) : Fin 5 → ℝ :=
  ![1 / 7 * (mu 1 + x 1 - 2 * x 1 * mu 2) * (3 * x 1 + 7 * mu 1 - 10 * x 1 * mu 2),
    x 1 / 14 * (mu 2 - 1) * (3 * x 1 + 7 * mu 1 - 10 * x 1 * mu 2),
    1 / 14 * (28 * mu 2 + x 1 * mu 1 * (25 - 81 * mu 2) + x 2 * (1 - 27 * mu 2 + 54 * mu 4)),
    x 1 / 14 * (1 - mu 2) * (x 1 - 7 * mu 1 + 6 * x 1 * mu 2),
    1 / 14 * (x 1 - 7 * mu 1 + 6 * x 1 * mu 2) * (-2 * mu 1 - x 1 + 3 * x 1 * mu 2)]

/-- `kernel_A_tA_1loop` (`src/calc_pkcorr_from_A_1loop.c:18-49`). -/
def kernelA1 (t : Pk ℝ) (interpol : Interpol) (g : GLQ ℝ) (pk_k : ℝ) (iq : ℕ) (mu_ : ℝ) : Res (Fin 5 → ℝ) := do
  let x_ ← rd g.x iq
  let x := pw x_
  let mu := pw mu_
  let xmu := 1 + x 2 - 2 * mu 1 * x 1
  let kq := g.k * Real.sqrt xmu
  let pk_q ← rd g.pk iq
  let pk_kq ← look t interpol kq
  let pk_kq := pk_kq / (xmu * xmu)
  .ok fun i => (kA1 x mu i * pk_k + ktA1 x mu i * pk_q) * pk_kq

open Classical in
/-- The polynomial part of `kernel_a_1loop` (`src/calc_pkcorr_from_A_1loop.c:59-79`). -/
def ka1 (x : ℕ → ℝ) : Fin 5 → ℝ :=
  if x 1 < 1 / 10000 then
    let k1 := -16 * x 8 / 8085 - 16 * x 6 / 735 + 48 * x 4 / 245 - 16 * x 2 / 35
    ![8 * x 8 / 735 + 24 * x 6 / 245 - 24 * x 4 / 35 + 8 * x 2 / 7 - 2 / 3,
      k1,
      32 * x 8 / 1617 + 128 * x 6 / 735 - 288 * x 4 / 245 + 64 * x 2 / 35 - 4 / 3,
      k1,
      24 * x 8 / 2695 + 8 * x 6 / 105 - 24 * x 4 / 49 + 24 * x 2 / 35 - 2 / 3]
  else if 100 < x 1 then
    let k1 := -16 / 35 + 48 / (245 * x 2) - 16 / (735 * x 4) - 16 / (8085 * x 6) - 16 / (35035 * x 8)
    ![2 / 105 - 24 / (245 * x 2) - 8 / (735 * x 4) - 8 / (2695 * x 6) - 8 / (7007 * x 8),
      k1,
      -44 / 105 - 32 / (735 * x 4) - 64 / (8085 * x 6) - 96 / (35035 * x 8),
      k1,
      -46 / 105 + 24 / (245 * x 2) - 8 / (245 * x 4) - 8 / (1617 * x 6) - 8 / (5005 * x 8)]
  else
    let logx := if eps < |x 1 - 1| then Real.log |(x 1 + 1) / (x 1 - 1)| else 0
    let k1 := 1 / 112 / x 3 * (2 * x 1 * (x 2 + 1) * (3 - 14 * x 2 + 3 * x 4) - 3 * power (x 2 - 1) 4 * logx)
    ![-1 / 84 / x 1 * (2 * x 1 * (19 - 24 * x 2 + 9 * x 4) - 9 * power (x 2 - 1) 3 * logx),
      k1,
      1 / 336 / x 3 * (2 * x 1 * (9 - 185 * x 2 + 159 * x 4 - 63 * x 6) + 9 * power (x 2 - 1) 3 * (7 * x 2 + 1) * logx),
      k1,
      1 / 336 / x 3 * (2 * x 1 * (9 - 109 * x 2 + 63 * x 4 - 27 * x 6) + 9 * power (x 2 - 1) 3 * (3 * x 2 + 1) * logx)]

/-- `kernel_a_1loop` (`src/calc_pkcorr_from_A_1loop.c:51-84`). -/
def kernelA1a (g : GLQ ℝ) (pk_k : ℝ) (iq : ℕ) : Res (Fin 5 → ℝ) := do
  let x_ ← rd g.x iq
  let pk_q ← rd g.pk iq
  let x := pw x_
  .ok fun i => ka1 x i * (pk_k * pk_q)

/-- `calc_pk_A_1loop` (`src/calc_pkcorr_from_A_1loop.c:122-155`). -/
def calcA1 (t : Pk ℝ) (interpolQ interpolMu : Interpol) (g : GLQ ℝ) (gm : GLMu ℝ) (k : ℝ) :
    Res ((GLQ ℝ × GLMu ℝ) × (Fin 5 → ℝ)) := do
  let g := updateGLQ g k
  let pk_k ← look t interpolQ k
  let (gm, s) ← quadLoop false g gm (kernelA1 t interpolMu g pk_k) (kernelA1a g pk_k) fun x w => x * w
  let factor := k * k * k / (4 * Real.pi * Real.pi)
  .ok ((g, gm), fun i => s i * factor)

/-! ## A at two loops, part I -/

/-- `kernel_projection_A_tA` (`src/calc_pkcorr_from_A_2loop_I.c:21-38`), array `kernel_A`. -/
def projA (x mu : ℝ) : Fin 6 → ℝ :=
  let xmu := 1 + x * x - 2 * mu * x
  let a0 := x * mu
  let a1 := -x * x * (3 * x * mu - 2) * (mu * mu - 1) / xmu / 2
  let a2 := x * (2 * mu + x * (2 - 6 * mu * mu) + x * x * mu * (-3 + 5 * mu * mu)) / xmu / 2
  ![a0, a1, a2, a0, a1, a2]

/-- `kernel_projection_A_tA` (`src/calc_pkcorr_from_A_2loop_I.c:21-38`), array `kernel_tA`. -/
def projtA (x mu : ℝ) : Fin 6 → ℝ :=
  let xmu := 1 + x * x - 2 * mu * x
  let a0 := -x * x * (x * mu - 1) / xmu
  let a1 := x * x * (3 * x * mu - 1) * (mu * mu - 1) / xmu / 2
  let a2 := x * x * (-1 + 3 * x * mu + 3 * mu * mu - 5 * x * mu * mu * mu) / xmu / 2
  ![a0, a1, a2, a0, a1, a2]

/-- The eight outputs of `bispectrum_1loop_I`: `(b211,b221,b212,b222)` for A and for tA. -/
structure BiOut where
  a : Fin 4 → ℝ
  t : Fin 4 → ℝ

/-- The assignments of `kernel_A_tA_2loop_I` (`src/calc_pkcorr_from_A_2loop_I.c:54-66`).  `b 0..3` are 211, 221, 212, 222. -/
def assembleA2 (x mu : ℝ) (b : BiOut) : Fin 12 → ℝ :=
  let pA := projA x mu
  let pT := projtA x mu
  ![pA 0 * b.a 0 * x, pA 1 * b.a 1 * x, pA 2 * b.a 1 * x, pA 3 * b.a 2 * x, pA 4 * b.a 3 * x, pA 5 * b.a 3 * x,
    pT 0 * b.t 0 * x, pT 1 * b.t 1 * x, pT 2 * b.t 1 * x, pT 3 * b.t 2 * x, pT 4 * b.t 3 * x, pT 5 * b.t 3 * x]

/-- `kernel_A_tA_2loop_I` (`src/calc_pkcorr_from_A_2loop_I.c:41-67`); `bi` is `bispectrum_1loop_I`. -/
def kernelA2I (bi : ℝ → ℝ → ℝ → Res BiOut) (g : GLQ ℝ) (iq : ℕ) (mu : ℝ) : Res (Fin 12 → ℝ) := do
  let x ← rd g.x iq
  let k := g.k
  let q ← rd g.q iq
  let kq := g.k * Real.sqrt (1 + x * x - 2 * mu * x)
  let b ← bi k q kq
  .ok (assembleA2 x mu b)

/-- `calc_pk_A_2loop_I` (`src/calc_pkcorr_from_A_2loop_I.c:105-132`). -/
def calcA2I (bi : ℝ → ℝ → ℝ → Res BiOut) (g : GLQ ℝ) (gm : GLMu ℝ) (k : ℝ) :
    Res ((GLQ ℝ × GLMu ℝ) × (Fin 12 → ℝ)) := do
  let g := updateGLQ g k
  let (gm, s) ← quadLoop true g gm (kernelA2I bi g) noExtra fun _ w => w
  let factor := k * k * k / (2 * Real.pi * Real.pi)
  .ok ((g, gm), fun i => s i * factor)

/-- The five sums stored by `run_terms_A_2loop` (`src/spectrum_A_2loop.c:61-65` and `77-81`). -/
def columnsA2 (p : Fin 12 → ℝ) : Fin 5 → ℝ :=
  ![p 0 + p 6, p 1 + p 7, p 2 + p 8 + p 3 + p 9, p 4 + p 10, p 5 + p 11]

/-! ## B -/

/-- The polynomials of `kernel_B` (`src/calc_pkcorr_from_B.c:35-52`) without the spectra, including the final division by
`xmu`. -/
def kB (x mu : ℕ → ℝ) : Fin 12 → ℝ :=
  let xmu := 1 + x 2 - 2 * mu 1 * x 1
  ![x 2 * (mu 2 - 1) / 2 / xmu,
    3 * x 2 * power (mu 2 - 1) 2 / 8 / xmu,
    3 * x 4 * power (mu 2 - 1) 2 / xmu / 8 / xmu,
    5 * x 4 * power (mu 2 - 1) 3 / xmu / 16 / xmu,
    x 1 * (x 1 + 2 * mu 1 - 3 * x 1 * mu 2) / 2 / xmu,
    -3 * x 1 * (mu 2 - 1) * (-x 1 - 2 * mu 1 + 5 * x 1 * mu 2) / 4 / xmu,
    3 * x 2 * (mu 2 - 1) * (-2 + x 2 + 6 * x 1 * mu 1 - 5 * x 2 * mu 2) / xmu / 4 / xmu,
    -3 * x 2 * power (mu 2 - 1) 2 * (6 - 5 * x 2 - 30 * x 1 * mu 1 + 35 * x 2 * mu 2) / xmu / 16 / xmu,
    x 1 * (4 * mu 1 * (3 - 5 * mu 2) + x 1 * (3 - 30 * mu 2 + 35 * mu 4)) / 8 / xmu,
    x 1 * (-8 * mu 1 + x 1 * (-12 + 36 * mu 2 + 12 * x 1 * mu 1 * (3 - 5 * mu 2) + x 2 * (3 - 30 * mu 2 + 35 * mu 4)))
      / xmu / 8 / xmu,
    3 * x 1 * (mu 2 - 1) * (-8 * mu 1 + x 1 * (-12 + 60 * mu 2 + 20 * x 1 * mu 1 * (3 - 7 * mu 2)
      + 5 * x 2 * (1 - 14 * mu 2 + 21 * mu 4))) / xmu / 16 / xmu,
    x 1 * (8 * mu 1 * (-3 + 5 * mu 2) - 6 * x 1 * (3 - 30 * mu 2 + 35 * mu 4) + 6 * x 2 * mu 1 * (15 - 70 * mu 2 + 63 * mu 4)
      + x 3 * (5 - 21 * mu 2 * (5 - 15 * mu 2 + 11 * mu 4))) / xmu / 16 / xmu]

/-- The products of spectra in `kernel_B` (`src/calc_pkcorr_from_B.c:35-52`). -/
def specB (dtQ ttQ dtR ttR : ℝ) : Fin 12 → ℝ :=
  ![dtR * dtQ, dtR * ttQ, ttR * dtQ, ttR * ttQ, dtR * dtQ, dtR * ttQ, ttR * dtQ, ttR * ttQ, dtR * ttQ, ttR * dtQ, ttR * ttQ,
    ttR * ttQ]

/-- `kernel_B` (`src/calc_pkcorr_from_B.c:22-55`); the order of the products with the spectra and of the last division is
immaterial in exact arithmetic. -/
def kernelB (dt tt : Pk ℝ) (interpol : Interpol) (g : GLQ ℝ) (iq : ℕ) (mu_ : ℝ) : Res (Fin 12 → ℝ) := do
  let x_ ← rd g.x iq
  let x := pw x_
  let mu := pw mu_
  let xmu := 1 + x 2 - 2 * mu 1 * x 1
  let q ← rd g.q iq
  let kq := g.k * Real.sqrt xmu
  let dtQ ← look dt interpol q
  let dtR ← look dt interpol kq
  let ttQ ← look tt interpol q
  let ttR ← look tt interpol kq
  .ok fun i => kB x mu i * specB dtQ ttQ dtR ttR i

/-- `calc_pk_B` (`src/calc_pkcorr_from_B.c:93-121`). -/
def calcB (dt tt : Pk ℝ) (interpol : Interpol) (g : GLQ ℝ) (gm : GLMu ℝ) (k : ℝ) :
    Res ((GLQ ℝ × GLMu ℝ) × (Fin 12 → ℝ)) := do
  let g := updateGLQ g k
  let (gm, s) ← quadLoop true g gm (kernelB dt tt interpol g) noExtra fun x w => x * w
  let factor := k * k * k / (2 * Real.pi * Real.pi)
  .ok ((g, gm), fun i => s i * factor)

/-- The nine sums stored by `run_terms_B` (`src/spectrum_B.c:126-134`). -/
def columnsB (p : Fin 12 → ℝ) : Fin 9 → ℝ :=
  ![p 0, -(p 1 + p 2), p 3, p 4, -(p 5 + p 6), p 7, -(p 8 + p 9), p 10, p 11]

end

end Verif
