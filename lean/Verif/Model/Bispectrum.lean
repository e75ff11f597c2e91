import Verif.Model.Terms

/-!
# `src/bispectrum_1loop.c` and the Monte-Carlo part of the two-loop A term

Over exact reals.  Every function receives the interpolation mode, the cutoff and the quadrature tables it reads.
-/

namespace Verif

noncomputable section

/-- `calc_running_sigmad2(&k,&sigmad2,1,uvcutoff)` (`src/common.c:212-233`) for one mode. -/
def sigma1 (t : Pk ℝ) (uvcutoff k : ℝ) : Res ℝ := do
  let l ← runningSigmad2 t [k] uvcutoff
  rd l 0

/-- The three pairs `(delta, theta)` set by `gamma1_reg_1loop`. -/
structure G1Reg where
  dk : ℝ
  tk : ℝ
  dp : ℝ
  tp : ℝ
  dkp : ℝ
  tkp : ℝ

/-- `1. + k*k*sigmad2/2. + gamma1_1loop(a,k)` for both fields, as in the three branches of `src/bispectrum_1loop.c:17-18,25-26,33-34`. -/
def g1RegOne (g1 : GLQ ℝ) (k sigmad2 : ℝ) : Res (ℝ × ℝ) := do
  let d ← gamma1OneLoop .delta g1 k
  let t ← gamma1OneLoop .theta g1 k
  .ok (1 + k * k * sigmad2 / 2 + d, 1 + k * k * sigmad2 / 2 + t)

open Classical in
/-- One `if`/`else` block of `gamma1_reg_1loop` (`src/bispectrum_1loop.c:16-23,24-31,32-39`). -/
def g1RegIf (cond : Prop) (g1 : GLQ ℝ) (k sigmad2 : ℝ) : Res (ℝ × ℝ) := if cond then g1RegOne g1 k sigmad2 else .ok (1, 1)

/-- `gamma1_reg_1loop` (`src/bispectrum_1loop.c:14-41`). -/
def gamma1Reg (g1 : GLQ ℝ) (k p kp sigmad2k sigmad2p sigmad2kp : ℝ) : Res G1Reg := do
  let rk ← g1RegIf (1 / 100 ≤ k) g1 k sigmad2k
  let rp ← g1RegIf (1 / 100 ≤ p ∧ 1 / 100 ≤ k) g1 p sigmad2p
  let rkp ← g1RegIf (3 / 100 ≤ kp ∧ 1 / 100 ≤ k) g1 kp sigmad2kp
  .ok ⟨rk.1, rk.2, rp.1, rp.2, rkp.1, rkp.2⟩

/-- The six values set by `gamma2_reg_1loop`. -/
structure G2Reg where
  dkpk : ℝ
  tkpk : ℝ
  dpk : ℝ
  tpk : ℝ
  dpkp : ℝ
  tpkp : ℝ

/-- `gamma2_tree(a,k1,k2,k3) * (1. + k3*k3*sigmad2/2.) + gamma2_1loop(k1,k2,k3)`, as in each line of
`src/bispectrum_1loop.c:46-51`; `g` is the table of the loop kernel of field `a`. -/
def g2RegOne (a : Field) (g : GLQ ℝ) (k1 k2 k3 sigmad2 : ℝ) : Res ℝ := do
  let l ← gamma2OneLoop a g k1 k2 k3
  .ok (gamma2Tree a k1 k2 k3 * (1 + k3 * k3 * sigmad2 / 2) + l)

open Classical in
/-- `gamma2_reg_1loop` (`src/bispectrum_1loop.c:43-61`). -/
def gamma2Reg (gd gt : GLQ ℝ) (k p kp sigmad2k sigmad2p sigmad2kp : ℝ) : Res G2Reg :=
  if 1 / 100 ≤ rMax3 kp k p ∧ 1 / 100 ≤ k then do
    let dkpk ← g2RegOne .delta gd kp k p sigmad2p
    let tkpk ← g2RegOne .theta gt kp k p sigmad2p
    let dpk ← g2RegOne .delta gd p k kp sigmad2kp
    let tpk ← g2RegOne .theta gt p k kp sigmad2kp
    let dpkp ← g2RegOne .delta gd p kp k sigmad2k
    let tpkp ← g2RegOne .theta gt p kp k sigmad2k
    .ok ⟨dkpk, tkpk, dpk, tpk, dpkp, tpkp⟩
  else .ok ⟨gamma2Tree .delta kp k p, gamma2Tree .theta kp k p, gamma2Tree .delta p k kp, gamma2Tree .theta p k kp,
    gamma2Tree .delta p kp k, gamma2Tree .theta p kp k⟩

/-- The eight assignments of `bispectrum_1loop_I` (`src/bispectrum_1loop.c:130-170`). -/
def biAssemble (g1 : G1Reg) (g2 : G2Reg) (pk_k pk_p pk_kp exp_factor : ℝ) : BiOut where
  a := ![
    2 * (g2.tkpk * g1.dkp * g1.dk * pk_kp * pk_k + g2.dpk * g1.tp * g1.dk * pk_p * pk_k + g2.dpkp * g1.tp * g1.dkp * pk_p * pk_kp)
      * exp_factor,
    2 * (g2.tkpk * g1.tkp * g1.dk * pk_kp * pk_k + g2.tpk * g1.tp * g1.dk * pk_p * pk_k + g2.dpkp * g1.tp * g1.tkp * pk_p * pk_kp)
      * exp_factor,
    2 * (g2.tkpk * g1.dkp * g1.tk * pk_kp * pk_k + g2.dpk * g1.tp * g1.tk * pk_p * pk_k + g2.tpkp * g1.tp * g1.dkp * pk_p * pk_kp)
      * exp_factor,
    2 * (g2.tkpk * g1.tkp * g1.tk * pk_kp * pk_k + g2.tpk * g1.tp * g1.tk * pk_p * pk_k + g2.tpkp * g1.tp * g1.tkp * pk_p * pk_kp)
      * exp_factor]
  t := ![
    2 * (g2.tpk * g1.dp * g1.dk * pk_p * pk_k + g2.dkpk * g1.tkp * g1.dk * pk_kp * pk_k + g2.dpkp * g1.tkp * g1.dp * pk_kp * pk_p)
      * exp_factor,
    2 * (g2.tpk * g1.tp * g1.dk * pk_p * pk_k + g2.tkpk * g1.tkp * g1.dk * pk_kp * pk_k + g2.dpkp * g1.tkp * g1.tp * pk_kp * pk_p)
      * exp_factor,
    2 * (g2.tpk * g1.dp * g1.tk * pk_p * pk_k + g2.dkpk * g1.tkp * g1.tk * pk_kp * pk_k + g2.tpkp * g1.tkp * g1.dp * pk_kp * pk_p)
      * exp_factor,
    2 * (g2.tpk * g1.tp * g1.tk * pk_p * pk_k + g2.tkpk * g1.tkp * g1.tk * pk_kp * pk_k + g2.tpkp * g1.tkp * g1.tp * pk_kp * pk_p)
      * exp_factor]

/-- `bispectrum_1loop_I` (`src/bispectrum_1loop.c:98-171`).  The assignments of zero when the exponent exceeds `1e2`
(`src/bispectrum_1loop.c:110-119`) are not followed by a return: all eight outputs are overwritten below, so they have no
effect and are left out. -/
def bispectrumI (t : Pk ℝ) (interpol : Interpol) (uvcutoff : ℝ) (g1 gd gt : GLQ ℝ) (k p kp : ℝ) : Res BiOut := do
  let sigmad2k ← sigma1 t uvcutoff k
  let sigmad2p ← sigma1 t uvcutoff p
  let sigmad2kp ← sigma1 t uvcutoff kp
  let exp_factor := (k * k * sigmad2k + p * p * sigmad2p + kp * kp * sigmad2kp) / 2
  let exp_factor := Real.exp (-exp_factor)
  let pk_k ← look t interpol k
  let pk_p ← look t interpol p
  let pk_kp ← look t interpol kp
  let r1 ← gamma1Reg g1 k p kp sigmad2k sigmad2p sigmad2kp
  let r2 ← gamma2Reg gd gt k p kp sigmad2k sigmad2p sigmad2kp
  .ok (biAssemble r1 r2 pk_k pk_p pk_kp exp_factor)

/-- Length of a wavevector, `my_sqrt(v[0]*v[0]+v[1]*v[1]+v[2]*v[2])`. -/
def Vec.norm (v : Vec) : ℝ := Real.sqrt (v.x * v.x + v.y * v.y + v.z * v.z)

/-- A (wavevector, field) pair with what `bispectrum_1loop_II_III` derives from it (`src/bispectrum_1loop.c:181-199`):
`pp = kk - qq`, `rr = kk + qq`, their lengths and the spectra at the three lengths. -/
structure BiLeg where
  f : Field
  kk : Vec
  pp : Vec
  rr : Vec
  p : ℝ
  r : ℝ
  pk_k : ℝ
  pk_p : ℝ
  pk_r : ℝ

/-- See `BiLeg`. -/
def biLeg (t : Pk ℝ) (interpol : Interpol) (f : Field) (kk qq : Vec) : Res BiLeg := do
  let pp := kk - qq
  let rr := kk + qq
  let p := pp.norm
  let r := rr.norm
  let pk_k ← look t interpol kk.norm
  let pk_p ← look t interpol p
  let pk_r ← look t interpol r
  .ok ⟨f, kk, pp, rr, p, r, pk_k, pk_p, pk_r⟩

open Classical in
/-- The six conditional sums into `bk222_abc` (`src/bispectrum_1loop.c:201-218`), in order; `A`, `B`, `C` are the legs of
fields `a`, `b`, `c` (indices 0, 1, 2). -/
def bk222 (A B C : BiLeg) (qq : Vec) (q pk_q : ℝ) : ℝ :=
  let oqq := -qq
  0
  + (if q < A.p ∧ q < B.r then F2Full A.f A.pp qq * F2Full B.f B.rr oqq * F2Full C.f B.rr A.pp * A.pk_p * pk_q * B.pk_r else 0)
  + (if q < A.r ∧ q < B.p then F2Full A.f A.rr oqq * F2Full B.f B.pp qq * F2Full C.f B.pp A.rr * A.pk_r * pk_q * B.pk_p else 0)
  + (if q < C.p ∧ q < B.r then F2Full C.f C.pp qq * F2Full B.f B.rr oqq * F2Full A.f B.rr C.pp * C.pk_p * pk_q * B.pk_r else 0)
  + (if q < C.r ∧ q < B.p then F2Full C.f C.rr oqq * F2Full B.f B.pp qq * F2Full A.f B.pp C.rr * C.pk_r * pk_q * B.pk_p else 0)
  + (if q < A.p ∧ q < C.r then F2Full A.f A.pp qq * F2Full C.f C.rr oqq * F2Full B.f C.rr A.pp * A.pk_p * pk_q * C.pk_r else 0)
  + (if q < A.r ∧ q < C.p then F2Full A.f A.rr oqq * F2Full C.f C.pp qq * F2Full B.f C.pp A.rr * A.pk_r * pk_q * C.pk_p else 0)

open Classical in
/-- The six conditional sums into `bk321_abc` (`src/bispectrum_1loop.c:220-243`), in order. -/
def bk321 (A B C : BiLeg) (qq : Vec) (q pk_q : ℝ) : ℝ :=
  let oqq := -qq
  0
  + (if q < B.p then F3Sym A.f C.kk B.pp qq * F2Full B.f B.pp qq * B.pk_p * pk_q * C.pk_k
      + F3Sym C.f A.kk B.pp qq * F2Full B.f B.pp qq * B.pk_p * pk_q * A.pk_k else 0)
  + (if q < B.r then F3Sym A.f C.kk B.rr oqq * F2Full B.f B.rr oqq * B.pk_r * pk_q * C.pk_k
      + F3Sym C.f A.kk B.rr oqq * F2Full B.f B.rr oqq * B.pk_r * pk_q * A.pk_k else 0)
  + (if q < C.p then F3Sym A.f B.kk C.pp qq * F2Full C.f C.pp qq * C.pk_p * pk_q * B.pk_k
      + F3Sym B.f A.kk C.pp qq * F2Full C.f C.pp qq * C.pk_p * pk_q * A.pk_k else 0)
  + (if q < C.r then F3Sym A.f B.kk C.rr oqq * F2Full C.f C.rr oqq * C.pk_r * pk_q * B.pk_k
      + F3Sym B.f A.kk C.rr oqq * F2Full C.f C.rr oqq * C.pk_r * pk_q * A.pk_k else 0)
  + (if q < A.p then F3Sym B.f C.kk A.pp qq * F2Full A.f A.pp qq * A.pk_p * pk_q * C.pk_k
      + F3Sym C.f B.kk A.pp qq * F2Full A.f A.pp qq * A.pk_p * pk_q * B.pk_k else 0)
  + (if q < A.r then F3Sym B.f C.kk A.rr oqq * F2Full A.f A.rr oqq * A.pk_r * pk_q * C.pk_k
      + F3Sym C.f B.kk A.rr oqq * F2Full A.f A.rr oqq * A.pk_r * pk_q * B.pk_k else 0)

/-- `bispectrum_1loop_II_III` (`src/bispectrum_1loop.c:173-248`): `(bk222_abc, bk321_abc)`. -/
def bispectrumII (t : Pk ℝ) (interpol : Interpol) (kk1 kk2 kk3 qq : Vec) (a b c : Field) : Res (ℝ × ℝ) := do
  let q := qq.norm
  let pk_q ← look t interpol q
  let A ← biLeg t interpol a kk1 qq
  let B ← biLeg t interpol b kk2 qq
  let C ← biLeg t interpol c kk3 qq
  .ok (bk222 A B C qq q pk_q * (4 / power (2 * Real.pi) 3), bk321 A B C qq q pk_q * (6 / power (2 * Real.pi) 3))

/-- Sum of the two parts for the fields `(a,b,c)`. -/
def biSum (t : Pk ℝ) (interpol : Interpol) (kk1 kk2 kk3 qq : Vec) (a b c : Field) : Res ℝ := do
  let r ← bispectrumII t interpol kk1 kk2 kk3 qq a b c
  .ok (r.1 + r.2)

open Classical in
/-- `kernel_A_tA_2loop_II_III` (`src/calc_pkcorr_from_A_2loop_II_III.c:165-249`; the Cuba 1.5 copy in lines 47-131 has the same
body).  `interpol`, `uvcutoff` are the values fetched by `init_A_2loop_II_III`. -/
def kernelA2II (t : Pk ℝ) (interpol : Interpol) (uvcutoff k qmin qmax : ℝ) (xx : Fin 5 → ℝ) : Res (Fin 12 → ℝ) :=
  let logqmin := Real.log qmin
  let logqmax := Real.log qmax
  let p := Real.exp (logqmin + (logqmax - logqmin) * xx 0)
  let x := p / k
  let mu := -1 + 2 * xx 1
  if 0.5 / x < mu then .ok fun _ => 0
  else
    let pp : Vec := ⟨p * Real.sqrt (1 - mu * mu), 0, p * mu⟩
    let q := Real.exp (logqmin + (logqmax - logqmin) * xx 2)
    let theta := xx 3 * Real.pi
    let sintheta := Real.sin theta
    let phi := xx 4 * 2 * Real.pi
    let qq : Vec := ⟨q * sintheta * Real.cos phi, q * sintheta * Real.sin phi, q * Real.cos theta⟩
    let okk : Vec := ⟨0, 0, -k⟩
    let kkpp := -okk - pp
    let kp := k * Real.sqrt (1 + x * x - 2 * x * mu)
    do
      let sigmad2k ← sigma1 t uvcutoff k
      let sigmad2p ← sigma1 t uvcutoff p
      let sigmad2kp ← sigma1 t uvcutoff kp
      let exp_factor := (k * k * sigmad2k + p * p * sigmad2p + kp * kp * sigmad2kp) / 2
      if 100 ≤ exp_factor then .ok fun _ => 0
      else do
        let a0 ← biSum t interpol pp kkpp okk qq .theta .delta .delta
        let a1 ← biSum t interpol pp kkpp okk qq .theta .theta .delta
        let a2 ← biSum t interpol pp kkpp okk qq .theta .delta .theta
        let a3 ← biSum t interpol pp kkpp okk qq .theta .theta .theta
        let t0 ← biSum t interpol kkpp pp okk qq .theta .delta .delta
        let t1 ← biSum t interpol kkpp pp okk qq .theta .theta .delta
        let t2 ← biSum t interpol kkpp pp okk qq .theta .delta .theta
        let t3 ← biSum t interpol kkpp pp okk qq .theta .theta .theta
        let jacobian := (logqmax - logqmin) * (logqmax - logqmin) * 4 * Real.pi * Real.pi
        let e := Real.exp (-exp_factor) * x * q * q * q * sintheta * jacobian
        let pA := projA x mu
        let pT := projtA x mu
        .ok ![pA 0 * e * a0, pA 1 * e * a1, pA 2 * e * a1, pA 3 * e * a2, pA 4 * e * a3, pA 5 * e * a3,
          pT 0 * e * t0, pT 1 * e * t1, pT 2 * e * t1, pT 3 * e * t2, pT 4 * e * t3, pT 5 * e * t3]

/-- `calc_pk_A_2loop_II_III` (`src/calc_pkcorr_from_A_2loop_II_III.c:267-280`); `cuba` is `Suave`. -/
def calcA2II (cuba : ((Fin 5 → ℝ) → Res (Fin 12 → ℝ)) → Res (Fin 12 → ℝ)) (t : Pk ℝ) (interpol : Interpol)
    (uvcutoff qmin qmax k : ℝ) : Res (Fin 12 → ℝ) := do
  let integral ← cuba (kernelA2II t interpol uvcutoff k qmin qmax)
  let factor := k * k * k / (2 * Real.pi * Real.pi)
  .ok fun i => integral i * factor

end

end Verif
