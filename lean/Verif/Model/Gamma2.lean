import Verif.Model.Gamma2d
import Verif.Model.Gamma2t
import Verif.Model.Sum

/-!
# Branch selection and loop integral of `src/gamma2d_1loop.c` and `src/gamma2t_1loop.c`
-/

namespace Verif

noncomputable section

open Classical in
/-- `MAX` (`src/define.h:4`). -/
def rMax (a b : ℝ) : ℝ := if b < a then a else b

open Classical in
/-- `MIN` (`src/define.h:5`). -/
def rMin (a b : ℝ) : ℝ := if a < b then a else b

/-- `MAX3` (`src/define.h:7`). -/
def rMax3 (a b c : ℝ) : ℝ := rMax (rMax a b) (rMax b c)

/-- `MIN3` (`src/define.h:8`). -/
def rMin3 (a b c : ℝ) : ℝ := rMin (rMin a b) (rMin b c)

/-- The six expressions a loop kernel can be evaluated with. -/
inductive G2Branch
  | reg3rd | lowk | highk | elongate | coll | exact
  deriving DecidableEq

open Classical in
/-- The sequence of tests of `kernel_gamma2d` (`src/gamma2d_1loop.c:1874-1890`) and of `kernel_gamma2t`
(`src/gamma2t_1loop.c:1853-1867`), which agree. -/
def g2Branch (k1 k2 k3 q : ℝ) : G2Branch :=
  if |k1 / q - 1| < 0.001 ∨ |k2 / q - 1| < 0.001 ∨ |k3 / q - 1| < 0.001 then .reg3rd
  else if |k2 / k1 - 1| < 0.02 then
    if 10 * rMax3 k1 k2 k3 < q then .lowk
    else if q < 0.1 * rMin3 k1 k2 k3 then .highk
    else .reg3rd
  else if q < 0.1 * rMin3 k1 k2 k3 then .highk
  else if 10 * rMax3 k1 k2 k3 < q then .lowk
  else if 50 * rMin k1 k2 < q ∧ |k1 * k1 - k3 * k3| < q * q then .elongate
  else if 100 * k3 < q ∧ k3 < 10 * rMin k1 k2 then .coll
  else .exact

/-- The expression of a branch, for either field (the six functions of each of the two files). -/
def g2Eval (a : Field) (b : G2Branch) (k1 k2 k3 q : ℝ) : ℝ :=
  match a, b with
  | .delta, .reg3rd => g2dReg3rd k1 k2 k3 q
  | .delta, .lowk => g2dLowk k1 k2 k3 q
  | .delta, .highk => g2dHighk k1 k2 k3 q
  | .delta, .elongate => g2dElongate k1 k2 k3 q
  | .delta, .coll => g2dColl k1 k2 k3 q
  | .delta, .exact => g2dExact k1 k2 k3 q
  | .theta, .reg3rd => g2tReg3rd k1 k2 k3 q
  | .theta, .lowk => g2tLowk k1 k2 k3 q
  | .theta, .highk => g2tHighk k1 k2 k3 q
  | .theta, .elongate => g2tElongate k1 k2 k3 q
  | .theta, .coll => g2tColl k1 k2 k3 q
  | .theta, .exact => g2tExact k1 k2 k3 q

/-- `kernel_gamma2d` (`src/gamma2d_1loop.c:1874-1890`) and `kernel_gamma2t` (`src/gamma2t_1loop.c:1853-1867`). -/
def kernelGamma2 (a : Field) (k1 k2 k3 q : ℝ) : ℝ := g2Eval a (g2Branch k1 k2 k3 q) k1 k2 k3 q

/-- `gamma2d_1loop` (`src/gamma2d_1loop.c:1912-1924`) and `gamma2t_1loop` (`src/gamma2t_1loop.c:1889-1898`).
The per-thread quadrature state is an argument. -/
def gamma2OneLoop (a : Field) (g : GLQ ℝ) (k1 k2 k3 : ℝ) : Res ℝ := do
  let integ ← sumLoop g.nq fun iq => do
    let q ← rd g.q iq
    let w ← rd g.w iq
    let pk ← rd g.pk iq
    .ok (w * kernelGamma2 a k1 k2 k3 q * q * q * q * pk)
  .ok (integ / (8 * Real.pi * Real.pi * Real.pi))

end

end Verif
