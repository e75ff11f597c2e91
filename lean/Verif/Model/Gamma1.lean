import Verif.Model.Kernels
import Verif.Model.Sum

/-!
# `src/gamma1_1loop.c` and `src/gamma1_2loop.c`

Over exact reals.  The per-thread quadrature state is an argument (`GLQ`, as left by `update_gauss_legendre_q`).
-/

namespace Verif

noncomputable section

open Classical in
/-- `kernel_ff` (`src/gamma1_1loop.c:12-32`). -/
def kernelFF (x : ℝ) : ℝ :=
  let diffx := x - 1
  let kernel :=
    if |diffx| < 0.01 then -(11 / 126) + diffx / 126 - 29 / 252 * diffx * diffx
    else if 10 < x then
      let x2 := x * x;
      -(61 / 630) + 2 / 105 / x2 - 10 / 1323 / x2 / x2
    else
      let x2 := x * x
      (6 / x2 - 79 + 50 * x2 - 21 * x2 * x2 + 0.75 * power (1 / x - x) 3 * (2 + 7 * x2) * 2 * Real.log |diffx / (1 + x)|) / 504
  kernel * x

open Classical in
/-- `kernel_gg` (`src/gamma1_1loop.c:35-52`). -/
def kernelGG (x : ℝ) : ℝ :=
  let diff := x - 1
  let kernel :=
    if |diff| < 0.01 then -(3 / 14) - 5 / 42 * diff + diff * diff / 84
    else if 10 < x then
      let x2 := x * x;
      -(3 / 10) + 26 / 245 / x2 - 38 / 2205 / x2 / x2
    else
      let x2 := x * x
      (6 / x2 - 41 + 2 * x2 - 3 * x2 * x2 + 0.75 * power (1 / x - x) 3 * (2 + x2) * 2 * Real.log |diff / (1 + x)|) / 168
  kernel * x

/-- The loop of `gamma1_1loop` (`src/gamma1_1loop.c:62-69`), after the update of the nodes. -/
def gamma1Loop1 (a : Field) (g : GLQ ℝ) (k : ℝ) : Res ℝ := do
  let integ ← sumLoop g.nq fun iq => do
    let x ← rd g.x iq
    let pk ← rd g.pk iq
    let w ← rd g.w iq
    match a with
    | .delta => .ok (kernelFF x * pk * w)
    | .theta => .ok (kernelGG x * pk * w)
  .ok (integ * k * k * k / (2 * Real.pi * Real.pi))

/-- `gamma1_1loop` (`src/gamma1_1loop.c:55-70`). -/
def gamma1OneLoop (a : Field) (g : GLQ ℝ) (k : ℝ) : Res ℝ := gamma1Loop1 a (updateGLQ g k) k

open Classical in
/-- `beta` (`src/gamma1_2loop.c:12-55`). -/
def beta2 (a : Field) (q1 q2 : ℝ) : ℝ :=
  let y := |(q1 - q2) / (q1 + q2)|
  let diffy := 1 - y
  match a with
  | .delta =>
    if |diffy| < 0.05 then
      let diffy2 := diffy * diffy
      let diffy3 := diffy2 * diffy
      let diffy4 := diffy3 * diffy
      120424 / 3009825 + 2792 * diffy2 / 429975 + 2792 * diffy3 / 429975 + 392606 * diffy4 / 9.9324225e7
    else if y < 0.01 then 22382 / 429975 - 57052 * y * y / 429975
    else
      let y2 := y * y
      let y4 := y2 * y2
      let y8 := y4 * y4
      let y10 := y2 * y8
      let y12 := y2 * y10
      2 * (1 + y2) * (-11191 + 118054 * y2 - 18215 * y4 + 18215 * y8 - 118054 * y10 + 11191 * y12
        + 60 * y4 * (3467 - 790 * y2 + 3467 * y4) * 2 * Real.log y) / (429975 * power (-1 + y2) 7)
  | .theta =>
    if |diffy| < 0.05 then
      let diffy2 := diffy * diffy
      let diffy3 := diffy2 * diffy
      let diffy4 := diffy3 * diffy
      594232 / 33108075 + 91912 * diffy2 / 33108075 - 91912 * diffy3 / 33108075 + 1818458 * diffy4 / 1092566475
    else if y < 0.01 then 9886 / 429975 - 254356 * y * y / 4729725
    else
      let y2 := y * y
      let y4 := y2 * y2
      let y8 := y4 * y4
      let y10 := y2 * y8
      let y12 := y2 * y10
      2 * (1 + y2) * (-54373 + 562162 * y2 - 408245 * y4 + 408245 * y8 - 562162 * y10 + 54373 * y12
        + 60 * y4 * (14561 - 10690 * y2 + 14561 * y4) * 2 * Real.log y) / (4.729725e6 * power (-1 + y2) 7)

/-- `cc` (`src/gamma1_2loop.c:57-73`). -/
def cc2 (a : Field) (qs : ℝ) : ℝ :=
  let qs2 := qs * qs
  let qs3 := qs * qs2
  let qs4 := qs * qs3
  match a with
  | .delta =>
    let qs6 := qs2 * qs4
    0.02088557981734545 / (35.09866396385646 * qs4 + 4.133811416743832 * qs2 + 1)
      - 0.076100391588544 * qs3 / (77.79670692480381 * qs6 + 1)
  | .theta =>
    let qs8 := qs4 * qs4;
    -0.008217140060512867 / (42.14072830553836 * qs4 + 1.367564560397748 * qs2 + 1)
      + 0.01099093588476197 * qs3 / (28.490424851390667 * qs8 + 1)

/-- `dd` (`src/gamma1_2loop.c:75-88`). -/
def dd2 (a : Field) (qr : ℝ) : ℝ :=
  let qr2 := qr * qr
  match a with
  | .delta =>
    let qr4 := qr2 * qr2
    let qr10 := qr2 * qr4 * qr4;
    -0.022168478217299517 / (7.030631093970638 * qr4 + 2.457866449142683 * qr2 + 1)
      + 0.009267495321465601 * qr2 / (4.11633699497035 * qr10 + 1)
  | .theta =>
    let qr5 := qr * qr2 * qr2
    0.008023147297149955 / (2.238261369090066 * qr5 + 1) - 0.006173880966928251 * qr2 / (0.4711737436482179 * qr5 + 1)

/-- `delta` (`src/gamma1_2loop.c:90-102`). -/
def delta2 (a : Field) (qs : ℝ) : ℝ :=
  let qs := qs * Real.sqrt 2
  let qs2 := qs * qs
  let qs4 := qs2 * qs2
  match a with
  | .delta =>
    0.3191221482038663 * qs4 / (1.3549058352752525 * qs4 + 1)
      + 1.2805575495849764 / (18.192939946270577 * qs4 + 3.98817716852858 * qs2 + 1) + 0.764469131436698
  | .theta =>
    1.528058751211026 * (2.4414566000839355 * qs4 + 1.8616263354608626 * qs2) / (2.4414566000839355 * qs4 + 1)
      + 2.5227965281961247 / (0.0028106312591877226 * qs4 + 1.0332351481570086 * qs2 + 1) - 0.528058751211026

/-- `alpha` (`src/gamma1_2loop.c:104-109`). -/
def alpha2 (a : Field) (q1 q2 : ℝ) : ℝ :=
  let qr := Real.sqrt (q1 * q1 + q2 * q2)
  let qs := q1 * q2 / qr
  (beta2 a q1 q2 - cc2 a qs - dd2 a qr) * delta2 a qs

/-- `integ_gamma1_2loop` (`src/gamma1_2loop.c:112-117`). -/
def integGamma12 (a : Field) (k q1 q2 : ℝ) : ℝ :=
  let x1 := q1 / k
  let x2 := q2 / k;
  -alpha2 a x1 x2 / (x1 * x1 + x2 * x2)

/-- `gamma1_2loop` (`src/gamma1_2loop.c:119-136`); `integ_gamma1_2loop` is called with the `k` of the updated nodes. -/
def gamma1TwoLoop (a : Field) (g : GLQ ℝ) (k : ℝ) : Res ℝ := do
  let g := updateGLQ g k
  let integ ← sumLoop g.nq fun iq1 => do
    let q1 ← rd g.q iq1
    let q13 := q1 * q1 * q1
    let integ2 ← sumLoop g.nq fun iq2 => do
      let q2 ← rd g.q iq2
      let w ← rd g.w iq2
      let pk ← rd g.pk iq2
      .ok (w * integGamma12 a g.k q1 q2 * pk * q13 * q2 * q2 * q2)
    let w ← rd g.w iq1
    let pk ← rd g.pk iq1
    .ok (w * integ2 * pk)
  .ok (integ / (4 * power Real.pi 4))

end

end Verif
