import Verif.Model.Common

/-!
# `src/kernels.c` and the tree kernel of `src/calc_pkcorr_from_gamma2.c`

Over exact reals.  Functions that can meet a domain error in C (division by zero, logarithm or square root outside the domain)
also have a checked transcription in `Res`, in which the error is the outcome `ub`.
-/

namespace Verif

noncomputable section

open Classical in
/-- `a/b`; division by zero is an error. -/
def chkDiv (a b : ℝ) : Res ℝ := if b = 0 then .ub "division by zero" else .ok (a / b)

open Classical in
/-- `my_log(a)` (`src/common.c:27-34`); a non-positive argument is an error. -/
def chkLog (a : ℝ) : Res ℝ := if a ≤ 0 then .ub "log domain" else .ok (Real.log a)

open Classical in
/-- `my_sqrt(a)` (`src/common.c:54-61`); a negative argument is an error. -/
def chkSqrt (a : ℝ) : Res ℝ := if a < 0 then .ub "sqrt domain" else .ok (Real.sqrt a)

/-- `FLAG` restricted to fields (`src/define.h`: `DELTA`, `THETA`). -/
inductive Field where
  | delta
  | theta
deriving DecidableEq

/-- A wavevector `histo_t[3]`. -/
structure Vec where
  x : ℝ
  y : ℝ
  z : ℝ

namespace Vec

instance : Add Vec := ⟨fun p q => ⟨p.x + q.x, p.y + q.y, p.z + q.z⟩⟩
instance : Sub Vec := ⟨fun p q => ⟨p.x - q.x, p.y - q.y, p.z - q.z⟩⟩
instance : Neg Vec := ⟨fun p => ⟨-p.x, -p.y, -p.z⟩⟩

/-- Componentwise sum of products as written out in the C sources (e.g. `src/kernels.c:16-18`). -/
def dot (p q : Vec) : ℝ := p.x * q.x + p.y * q.y + p.z * q.z

@[simp] theorem add_x (p q : Vec) : (p + q).x = p.x + q.x := rfl
@[simp] theorem add_y (p q : Vec) : (p + q).y = p.y + q.y := rfl
@[simp] theorem add_z (p q : Vec) : (p + q).z = p.z + q.z := rfl
@[simp] theorem sub_x (p q : Vec) : (p - q).x = p.x - q.x := rfl
@[simp] theorem sub_y (p q : Vec) : (p - q).y = p.y - q.y := rfl
@[simp] theorem sub_z (p q : Vec) : (p - q).z = p.z - q.z := rfl
@[simp] theorem neg_x (p : Vec) : (-p).x = -p.x := rfl
@[simp] theorem neg_y (p : Vec) : (-p).y = -p.y := rfl
@[simp] theorem neg_z (p : Vec) : (-p).z = -p.z := rfl

end Vec

/-- `F2_sym_fast` (`src/kernels.c:8-12`). -/
def F2Fast (a : Field) (p2 q2 pq : ℝ) : ℝ :=
  match a with
  | .delta => 5 / 7 + 1 / 2 * pq * (1 / p2 + 1 / q2) + 2 / 7 * pq * pq / p2 / q2
  | .theta => 3 / 7 + 1 / 2 * pq * (1 / p2 + 1 / q2) + 4 / 7 * pq * pq / p2 / q2

/-- `F2_sym_full` (`src/kernels.c:14-20`). -/
def F2Full (a : Field) (p q : Vec) : ℝ := F2Fast a (p.dot p) (q.dot q) (p.dot q)

/-- `F2_sym` (`src/kernels.c:22-26`). -/
def F2Mu (a : Field) (p q mu : ℝ) : ℝ :=
  match a with
  | .delta => 5 / 7 + 1 / 2 * mu * (q / p + p / q) + 2 / 7 * mu * mu
  | .theta => 3 / 7 + 1 / 2 * mu * (q / p + p / q) + 4 / 7 * mu * mu

/-- `S2` (`src/kernels.c:28-31`). -/
def S2 (mu : ℝ) : ℝ := mu * mu - 1 / 3

/-- `D2` (`src/kernels.c:33-36`). -/
def D2 (mu : ℝ) : ℝ := 2 / 7 * (S2 mu - 2 / 3)

/-- `gamma2_tree` (`src/calc_pkcorr_from_gamma2.c:16-23`). -/
def gamma2Tree (a : Field) (k1 k2 k3 : ℝ) : ℝ :=
  let k12 := k1 * k1
  let k22 := k2 * k2
  let k32 := k3 * k3
  let k1k2 := (k32 - k12 - k22) / 2
  F2Fast a k12 k22 k1k2

/-- `LFunc` (`src/kernels.c:38-42`). -/
def LFunc (k q : ℝ) : ℝ := 2 * Real.log |(k + q) / (k - q)|

/-- `LFunc` with errors (`src/kernels.c:38-42`). -/
def LFuncC (k q : ℝ) : Res ℝ := do
  let r ← chkDiv (k + q) (k - q)
  let l ← chkLog |r|
  .ok (2 * l)

/-- `WFunc` (`src/kernels.c:44-56`). -/
def WFunc (k1 k2 k3 q : ℝ) : ℝ :=
  let k12 := k1 * k1
  let k22 := k2 * k2
  let k32 := k3 * k3
  let q2 := q * q
  let aa := -4 * k32 * q2 - 2 * (k12 - q2) * (k22 - q2)
  let bb := 4 * k3 * q * Real.sqrt (k12 * k22 + (-k12 - k22 + k32) * q2 + q2 * q2)
  Real.log ((aa - bb) / (aa + bb))

/-- `WFunc` with errors (`src/kernels.c:44-56`). -/
def WFuncC (k1 k2 k3 q : ℝ) : Res ℝ := do
  let k12 := k1 * k1
  let k22 := k2 * k2
  let k32 := k3 * k3
  let q2 := q * q
  let aa := -4 * k32 * q2 - 2 * (k12 - q2) * (k22 - q2)
  let s ← chkSqrt (k12 * k22 + (-k12 - k22 + k32) * q2 + q2 * q2)
  let bb := 4 * k3 * q * s
  let r ← chkDiv (aa - bb) (aa + bb)
  chkLog r

open Classical in
/-- `betafunc` (`src/kernels.c:58-77`). -/
def betafunc (a : ℕ) (z : ℝ) : ℝ :=
  let z2 := z * z
  let z3 := z2 * z
  let z4 := z3 * z
  if z ≤ 1 / 10 then
    let fa := (a : ℝ)
    let z5 := z4 * z
    let z6 := z5 * z
    power z a * (1 / fa + z / (1 + fa) + z2 / (2 + fa) + z3 / (3 + fa) + z4 / (4 + fa) + z5 / (5 + fa) + z6 / (6 + fa))
  else if a = 2 then z2 * (-2 / z - 2 * Real.log (1 - z) / z2) / 2
  else if a = 4 then z4 * (-2 * (6 + 3 * z + 2 * z2) / (3 * z3) - 4 * Real.log (1 - z) / z4) / 4
  else if a = 6 then
    let z5 := z4 * z
    let z6 := z5 * z
    z6 * ((-60 - 30 * z - 20 * z2 - 15 * z3 - 12 * z4) / (10 * z5) - 6 * Real.log (1 - z) / z6) / 6
  else 0

open Classical in
/-- `betafunc` with errors (`src/kernels.c:58-77`): a division by zero can only come from `a=0` or from `z=0` in the closed
forms, and the logarithm is that of `1-z`. -/
def betafuncC (a : ℕ) (z : ℝ) : Res ℝ :=
  if z ≤ 1 / 10 then do
    let _ ← chkDiv 1 a
    .ok (betafunc a z)
  else if a = 2 ∨ a = 4 ∨ a = 6 then do
    let _ ← chkDiv 1 z
    let _ ← chkLog (1 - z)
    .ok (betafunc a z)
  else .ok 0

open Classical in
/-- `small_beta` (`src/kernels.c:79-85`). -/
def smallBeta (k q : ℝ) : ℝ :=
  let y := (k - q) / (k + q)
  if |y| ≤ 1 / 1000000 then 0 else y * betafunc 4 (1 - y * y)

open Classical in
/-- `small_beta` with errors (`src/kernels.c:79-85`). -/
def smallBetaC (k q : ℝ) : Res ℝ := do
  let y ← chkDiv (k - q) (k + q)
  if |y| ≤ 1 / 1000000 then .ok 0
  else do
    let b ← betafuncC 4 (1 - y * y)
    .ok (y * b)

open Classical in
/-- `big_beta` (`src/kernels.c:87-97`). -/
def bigBeta (k1 k2 k3 q : ℝ) : ℝ :=
  let x := (k1 * k1 - q * q) * (k2 * k2 - q * q)
  let a := k3 * q
  let y := Real.sqrt (x + a * a) / a
  let y1 := |y - 1|
  if y1 ≤ 1 / 100000 then 0
  else if y1 ≤ 1 / 100 then
    2 * a * (-1 + y) * (-1 + Real.log 4 - 2 * Real.log y1) + a * y1 * y1 * (3 - Real.log 4 + 2 * Real.log y1)
  else x * betafunc 2 (1 - y1 * y1 / (1 + y) / (1 + y)) / (a * y)

open Classical in
/-- `big_beta` with errors (`src/kernels.c:87-97`). -/
def bigBetaC (k1 k2 k3 q : ℝ) : Res ℝ := do
  let x := (k1 * k1 - q * q) * (k2 * k2 - q * q)
  let a := k3 * q
  let s ← chkSqrt (x + a * a)
  let y ← chkDiv s a
  let y1 := |y - 1|
  if y1 ≤ 1 / 100000 then .ok 0
  else if y1 ≤ 1 / 100 then do
    let l ← chkLog y1
    .ok (2 * a * (-1 + y) * (-1 + Real.log 4 - 2 * l) + a * y1 * y1 * (3 - Real.log 4 + 2 * l))
  else do
    let t ← chkDiv (y1 * y1) (1 + y)
    let t ← chkDiv t (1 + y)
    let b ← betafuncC 2 (1 - t)
    chkDiv (x * b) (a * y)

/-- `sigmaab` (`src/kernels.c:99-108`). -/
def sigmaab (n a b : ℕ) : ℝ :=
  let nf := (n : ℝ)
  let sab := if a = 1 ∧ b = 1 then 2 * nf + 1
    else if a = 1 ∧ b = 2 then 2
    else if a = 2 ∧ b = 1 then 3
    else if a = 2 ∧ b = 2 then 2 * nf
    else 0
  sab / (2 * nf + 3) / (nf - 1)

/-- All three components below `EPS` in absolute value (the test of `src/kernels.c:117-118`). -/
def tiny (p : Vec) : Prop := |p.x| < eps ∧ |p.y| < eps ∧ |p.z| < eps

open Classical in
/-- `F3` (`src/kernels.c:110-130`). -/
def F3 (a : Field) (p q r : Vec) : ℝ :=
  let a := match a with
    | .delta => 1
    | .theta => 2
  let qr := q + r
  if tiny qr ∨ tiny (p + qr) then 0
  else
    let pp := p.dot p
    let qrqr := qr.dot qr
    let pqr := p.dot qr
    let gam112 := (1 + pqr / qrqr) / 2
    let gam222 := pqr * (pp + qrqr + 2 * pqr) / (pp * qrqr) / 2
    let gam121 := (1 + pqr / pp) / 2
    let qq := q.dot q
    let rr := r.dot r
    let mu := q.dot r
    2 * ((sigmaab 3 a 1 * gam112 + sigmaab 3 a 2 * gam222) * F2Fast .theta qq rr mu + sigmaab 3 a 1 * gam121 * F2Fast .delta qq rr mu)

/-- `F3_sym` (`src/kernels.c:133-136`). -/
def F3Sym (a : Field) (p q r : Vec) : ℝ := (F3 a p q r + F3 a r p q + F3 a q r p) / 3

end

end Verif
