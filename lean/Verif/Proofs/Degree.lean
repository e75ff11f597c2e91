import Lean.Elab.Tactic.Basic
import Verif.Model.Gamma2
import Verif.Props.Powers
import Mathlib.Analysis.SpecialFunctions.Pow.Real

/-!
# Degrees in the unit of wavenumber

`Deg u d x y`: the quantity `x` becomes `y` when every wavenumber is multiplied by `u`, and it is of degree `d`.  The tactic `degree`
follows an expression term by term; it fails at a sum of terms of different degrees.
-/

namespace Verif

/-- The quantity `x`, of degree `d`, becomes `y` when every wavenumber is multiplied by `u`. -/
def Deg (u : ℝ) (d : ℤ) (x y : ℝ) : Prop := y = u ^ d * x

namespace Deg

variable {u : ℝ}

theorem const (u c : ℝ) : Deg u (Int.ofNat 0) c c := by simp [Deg]

theorem add (u : ℝ) (_ : 0 < u) (d : ℤ) (x y x' y' : ℝ) (h : Deg u d x y) (h' : Deg u d x' y') : Deg u d (x + x') (y + y') := by
  unfold Deg at *; rw [h, h']; ring

theorem sub (u : ℝ) (_ : 0 < u) (d : ℤ) (x y x' y' : ℝ) (h : Deg u d x y) (h' : Deg u d x' y') : Deg u d (x - x') (y - y') := by
  unfold Deg at *; rw [h, h']; ring

theorem neg (u : ℝ) (_ : 0 < u) (d : ℤ) (x y : ℝ) (h : Deg u d x y) : Deg u d (-x) (-y) := by
  unfold Deg at *; rw [h]; ring

theorem mul (u : ℝ) (hu : 0 < u) (d d' e : ℤ) (x y x' y' : ℝ) (h : Deg u d x y) (h' : Deg u d' x' y') (he : d + d' = e) :
    Deg u e (x * x') (y * y') := by
  unfold Deg at *; rw [h, h', ← he, zpow_add₀ hu.ne']; ring

theorem div (u : ℝ) (hu : 0 < u) (d d' e : ℤ) (x y x' y' : ℝ) (h : Deg u d x y) (h' : Deg u d' x' y') (he : d - d' = e) :
    Deg u e (x / x') (y / y') := by
  unfold Deg at *; rw [h, h', ← he, zpow_sub₀ hu.ne', div_mul_div_comm]

theorem abs (u : ℝ) (hu : 0 < u) (d : ℤ) (x y : ℝ) (h : Deg u d x y) : Deg u d |x| |y| := by
  unfold Deg at *; rw [h, abs_mul, abs_of_pos (zpow_pos hu d)]

theorem sqrt (u : ℝ) (hu : 0 < u) (d e : ℤ) (x y : ℝ) (h : Deg u d x y) (he : e + e = d) : Deg u e (Real.sqrt x) (Real.sqrt y) := by
  unfold Deg at *
  rw [h, ← he, zpow_add₀ hu.ne', Real.sqrt_mul (mul_self_nonneg _), Real.sqrt_mul_self (zpow_pos hu e).le]

theorem log (u : ℝ) (_ : 0 < u) (x y : ℝ) (h : Deg u (Int.ofNat 0) x y) : Deg u (Int.ofNat 0) (Real.log x) (Real.log y) := by
  unfold Deg at *; rw [h]; simp

theorem pow (u : ℝ) (_ : 0 < u) (d e : ℤ) (n : ℕ) (x y : ℝ) (h : Deg u d x y) (he : d * Int.ofNat n = e) :
    Deg u e (power x n) (power y n) := by
  rw [C01_power, C01_power]
  unfold Deg at *
  rw [h, ← he, mul_pow, zpow_mul, Int.ofNat_eq_natCast, zpow_natCast]

theorem npow (u : ℝ) (hu : 0 < u) (d e : ℤ) (n : ℕ) (x y : ℝ) (h : Deg u d x y) (he : d * Int.ofNat n = e) : Deg u e (x ^ n) (y ^ n) := by
  have := pow u hu d e n x y h he
  rwa [C01_power, C01_power] at this

theorem rpow_mul_pos {c : ℝ} (hc : 0 < c) (x r : ℝ) : (c * x) ^ r = c ^ r * x ^ r := by
  rcases le_or_gt 0 x with hx | hx
  · exact Real.mul_rpow hc.le hx
  · rw [Real.rpow_def_of_neg (mul_neg_of_pos_of_neg hc hx), Real.rpow_def_of_neg hx, Real.rpow_def_of_pos hc,
      Real.log_mul hc.ne' hx.ne, add_mul, Real.exp_add, mul_assoc]

theorem threeHalves (u : ℝ) (hu : 0 < u) (d m e : ℤ) (x y : ℝ) (h : Deg u d x y) (hd : m + m = d) (he : m + m + m = e) :
    Deg u e (x ^ (1.5 : ℝ)) (y ^ (1.5 : ℝ)) := by
  unfold Deg at *
  rw [h, rpow_mul_pos (zpow_pos hu d), ← he, ← hd, ← Real.rpow_intCast, ← Real.rpow_mul hu.le, ← Real.rpow_intCast]
  congr 2
  push_cast
  ring

theorem fourth (u : ℝ) (hu : 0 < u) (d e : ℤ) (x y : ℝ) (h : Deg u d x y) (he : d * Int.ofNat 4 = e) :
    Deg u e (x ^ (4 : ℝ)) (y ^ (4 : ℝ)) := by
  have := npow u hu d e 4 x y h he
  rwa [← Real.rpow_natCast, ← Real.rpow_natCast] at this

/-- Degree nought: unchanged. -/
theorem eq {x y : ℝ} (h : Deg u 0 x y) : y = x := by simpa [Deg] using h

theorem of_mul (u x : ℝ) : Deg u 1 x (u * x) := by simp [Deg]

end Deg

section Tactic

open Lean Meta Elab Tactic

/-- An integer as a constructor. -/
def degInt : Int → Expr
  | .ofNat n => mkApp (mkConst ``Int.ofNat) (mkRawNatLit n)
  | .negSucc n => mkApp (mkConst ``Int.negSucc) (mkRawNatLit n)

/-- What is known of the variables: the variable, what becomes of it, its degree as a function of the index, the proof. -/
structure DegCtx where
  u : Expr
  hu : Expr
  vars : List (FVarId × Expr × Expr)

/-- An expression, its degree, what becomes of it, the proof. -/
abbrev DegRes := Int × Expr × Expr

/-- The degree of an expression, followed term by term. -/
partial def degGo (c : DegCtx) (e : Expr) : MetaM DegRes := do
  if !(e.hasAnyFVar fun f => c.vars.any (·.1 == f)) then
    return (0, e, mkApp2 (mkConst ``Deg.const) c.u e)
  let pre := fun (n : Name) => mkApp2 (mkConst n) c.u c.hu
  let refl := fun (d : Int) => mkApp2 (mkConst ``Eq.refl [1]) (mkConst ``Int) (degInt d)
  let bin := fun (n : Name) (x x' : Expr) => do
    let (d, y, h) ← degGo c x
    let (d', y', h') ← degGo c x'
    let r := mkAppN e.getAppFn (e.getAppArgs.take 4 ++ #[y, y'])
    if n == ``HAdd.hAdd || n == ``HSub.hSub then
      unless d == d' do throwError "terms of degrees {d} and {d'}:{indentExpr x}\nand{indentExpr x'}"
      return (d, r, mkAppN (pre (if n == ``HAdd.hAdd then ``Deg.add else ``Deg.sub)) #[degInt d, x, y, x', y', h, h'])
    else if n == ``HMul.hMul then
      return (d + d', r, mkAppN (pre ``Deg.mul) #[degInt d, degInt d', degInt (d + d'), x, y, x', y', h, h', refl (d + d')])
    else
      return (d - d', r, mkAppN (pre ``Deg.div) #[degInt d, degInt d', degInt (d - d'), x, y, x', y', h, h', refl (d - d')])
  match e.getAppFn, e.getAppArgs with
  | .const n _, as =>
    if (n == ``HAdd.hAdd || n == ``HSub.hSub || n == ``HMul.hMul || n == ``HDiv.hDiv) && as.size == 6 then
      bin n as[4]! as[5]!
    else if n == ``Neg.neg && as.size == 3 then
      let (d, y, h) ← degGo c as[2]!
      return (d, mkAppN e.getAppFn (as.set! 2 y), mkAppN (pre ``Deg.neg) #[degInt d, as[2]!, y, h])
    else if n == ``_root_.abs then
      let x := as.back!
      let (d, y, h) ← degGo c x
      return (d, mkAppN e.getAppFn (as.set! (as.size - 1) y), mkAppN (pre ``Deg.abs) #[degInt d, x, y, h])
    else if n == ``Real.sqrt then
      let (d, y, h) ← degGo c as[0]!
      unless d % 2 == 0 do throwError "square root of degree {d}:{indentExpr e}"
      return (d / 2, mkApp e.getAppFn y, mkAppN (pre ``Deg.sqrt) #[degInt d, degInt (d / 2), as[0]!, y, h, refl d])
    else if n == ``Real.log then
      let (d, y, h) ← degGo c as[0]!
      unless d == 0 do throwError "logarithm of degree {d}:{indentExpr e}"
      return (0, mkApp e.getAppFn y, mkAppN (pre ``Deg.log) #[as[0]!, y, h])
    else if n == ``power then
      let x := as[as.size - 2]!
      let m := as.back!
      let some mv ← (evalNat m).run | throwError "exponent{indentExpr m}"
      let (d, y, h) ← degGo c x
      let D := d * mv
      return (D, mkAppN e.getAppFn (as.set! (as.size - 2) y), mkAppN (pre ``Deg.pow) #[degInt d, degInt D, m, x, y, h, refl D])
    else if n == ``HPow.hPow && as.size == 6 then
      let (d, y, h) ← degGo c as[4]!
      let r := mkAppN e.getAppFn (as.set! 4 y)
      if as[1]!.isConstOf ``Nat then
        let some mv ← (evalNat as[5]!).run | throwError "exponent{indentExpr as[5]!}"
        let D := d * mv
        return (D, r, mkAppN (pre ``Deg.npow) #[degInt d, degInt D, as[5]!, as[4]!, y, h, refl D])
      else if as[5]!.isAppOf ``OfNat.ofNat then
        return (4 * d, r, mkAppN (pre ``Deg.fourth) #[degInt d, degInt (4 * d), as[4]!, y, h, refl (4 * d)])
      else
        let m := d / 2
        unless d % 2 == 0 do throwError "power three halves of degree {d}:{indentExpr e}"
        return (3 * m, r, mkAppN (pre ``Deg.threeHalves)
          #[degInt d, degInt m, degInt (3 * m), as[4]!, y, h, refl d, refl (3 * m)])
    else
      -- a function with its own lemma `name_deg`, all arguments of degree one
      let lem := n ++ `deg
      let some info := (← getEnv).find? lem | throwError "no degree for{indentExpr e}"
      let rs ← as.mapM (degGo c)
      for r in rs do
        unless r.1 == 1 do throwError "argument of degree {r.1}:{indentExpr e}"
      let r := mkAppN e.getAppFn (rs.map (·.2.1))
      let pf := mkAppN (pre lem) (as ++ rs.map (·.2.1) ++ rs.map (·.2.2))
      let ty ← instantiateMVars (info.type.getForallBody)
      let some d := (← evalDeg (ty.getAppArgs[1]!)) | throwError "degree of {lem}"
      return (d, r, pf)
  | .fvar f, as =>
    let some (_, k', h) := c.vars.find? (·.1 == f) | throwError "variable{indentExpr e}"
    let some mv ← (evalNat as[0]!).run | throwError "index{indentExpr e}"
    return (mv, mkApp k' as[0]!, mkApp h as[0]!)
  | _, _ => throwError "no degree for{indentExpr e}"
where
  evalDeg (e : Expr) : MetaM (Option Int) := do
    let e ← whnf e
    match e.getAppFnArgs with
    | (``Int.ofNat, #[n]) => return (← (evalNat n).run).map Int.ofNat
    | (``Int.negSucc, #[n]) => return (← (evalNat n).run).map Int.negSucc
    | _ => return none

/-- Proves `Deg u d (f k1 k2 k3 q) (f k1' k2' k3' q')` for a transcribed expression `f` of arrays of powers, from
`hu : 0 < u` and `∀ n, Deg u n (k n) (k' n)` for every array `k`. -/
elab "degree" : tactic => withMainContext do
  let g ← getMainGoal
  let ty ← instantiateMVars (← g.getType)
  let (``Deg, #[u, _, x, _]) := ty.getAppFnArgs | throwError "not a degree"
  let mut hu := none
  let mut vars := []
  for d in ← getLCtx do
    if d.isImplementationDetail then continue
    let t ← instantiateMVars d.type
    if t.isAppOf ``LT.lt && t.appArg! == u then hu := some d.toExpr
    if let .forallE _ _ b _ := t then
      if let (``Deg, #[_, _, k, k']) := b.getAppFnArgs then
        if let (.app (.fvar f) _, .app k' _) := (k, k') then vars := (f, k', d.toExpr) :: vars
  let some pos := hu | throwError "no positivity"
  let some x ← unfoldDefinition? x | throwError "cannot unfold"
  let x := x.headBeta
  let (d, _, pf) ← degGo ⟨u, pos, vars⟩ x
  let dGoal := ty.getAppArgs[1]!
  unless ← isDefEq dGoal (degInt d) do throwError "the degree is {d}"
  g.assign pf

end Tactic

/-! ## The functions of `src/kernels.c` -/

theorem Deg.one {u x y : ℝ} (h : Deg u (Int.ofNat 1) x y) : y = u * x := by simpa [Deg] using h

theorem LFunc.deg (u : ℝ) (hu : 0 < u) (k q k' q' : ℝ) (hk : Deg u (Int.ofNat 1) k k') (hq : Deg u (Int.ofNat 1) q q') :
    Deg u (Int.ofNat 0) (LFunc k q) (LFunc k' q') := by
  rw [hk.one, hq.one]
  unfold LFunc
  rw [← mul_add, ← mul_sub, mul_div_mul_left _ _ hu.ne']
  exact Deg.const _ _

theorem WFunc.deg (u : ℝ) (hu : 0 < u) (k1 k2 k3 q k1' k2' k3' q' : ℝ) (h1 : Deg u (Int.ofNat 1) k1 k1')
    (h2 : Deg u (Int.ofNat 1) k2 k2') (h3 : Deg u (Int.ofNat 1) k3 k3') (hq : Deg u (Int.ofNat 1) q q') :
    Deg u (Int.ofNat 0) (WFunc k1 k2 k3 q) (WFunc k1' k2' k3' q') := by
  rw [h1.one, h2.one, h3.one, hq.one]
  unfold WFunc
  dsimp only
  rw [show u * k1 * (u * k1) * (u * k2 * (u * k2)) + (-(u * k1 * (u * k1)) - u * k2 * (u * k2) + u * k3 * (u * k3)) * (u * q * (u * q)) +
      u * q * (u * q) * (u * q * (u * q)) =
    u ^ 2 * u ^ 2 * (k1 * k1 * (k2 * k2) + (-(k1 * k1) - k2 * k2 + k3 * k3) * (q * q) + q * q * (q * q)) by ring,
    Real.sqrt_mul (by positivity), Real.sqrt_mul_self (by positivity)]
  generalize Real.sqrt _ = s
  rw [show -4 * (u * k3 * (u * k3)) * (u * q * (u * q)) - 2 * (u * k1 * (u * k1) - u * q * (u * q)) * (u * k2 * (u * k2) - u * q * (u * q)) -
      4 * (u * k3) * (u * q) * (u ^ 2 * s) =
    u ^ 4 * (-4 * (k3 * k3) * (q * q) - 2 * (k1 * k1 - q * q) * (k2 * k2 - q * q) - 4 * k3 * q * s) by ring,
    show -4 * (u * k3 * (u * k3)) * (u * q * (u * q)) - 2 * (u * k1 * (u * k1) - u * q * (u * q)) * (u * k2 * (u * k2) - u * q * (u * q)) +
      4 * (u * k3) * (u * q) * (u ^ 2 * s) =
    u ^ 4 * (-4 * (k3 * k3) * (q * q) - 2 * (k1 * k1 - q * q) * (k2 * k2 - q * q) + 4 * k3 * q * s) by ring,
    mul_div_mul_left _ _ (by positivity)]
  exact Deg.const _ _

theorem smallBeta.deg (u : ℝ) (hu : 0 < u) (k q k' q' : ℝ) (hk : Deg u (Int.ofNat 1) k k') (hq : Deg u (Int.ofNat 1) q q') :
    Deg u (Int.ofNat 0) (smallBeta k q) (smallBeta k' q') := by
  rw [hk.one, hq.one]
  unfold smallBeta
  rw [← mul_add, ← mul_sub, mul_div_mul_left _ _ hu.ne']
  exact Deg.const _ _

theorem bigBeta.deg (u : ℝ) (hu : 0 < u) (k1 k2 k3 q k1' k2' k3' q' : ℝ) (h1 : Deg u (Int.ofNat 1) k1 k1')
    (h2 : Deg u (Int.ofNat 1) k2 k2') (h3 : Deg u (Int.ofNat 1) k3 k3') (hq : Deg u (Int.ofNat 1) q q') :
    Deg u (Int.ofNat 2) (bigBeta k1 k2 k3 q) (bigBeta k1' k2' k3' q') := by
  rw [h1.one, h2.one, h3.one, hq.one]
  unfold bigBeta
  dsimp only
  rw [show (u * k1 * (u * k1) - u * q * (u * q)) * (u * k2 * (u * k2) - u * q * (u * q)) + u * k3 * (u * q) * (u * k3 * (u * q)) =
      u ^ 2 * u ^ 2 * ((k1 * k1 - q * q) * (k2 * k2 - q * q) + k3 * q * (k3 * q)) by ring,
    Real.sqrt_mul (by positivity), Real.sqrt_mul_self (by positivity),
    show u * k3 * (u * q) = u ^ 2 * (k3 * q) by ring, mul_div_mul_left _ _ (by positivity)]
  generalize Real.sqrt _ / (k3 * q) = y
  have e2 : ∀ x : ℝ, u ^ (Int.ofNat 2) * x = u ^ 2 * x := fun x => by rw [Int.ofNat_eq_natCast, zpow_natCast]
  unfold Deg
  rw [e2]
  by_cases c1 : |y - 1| ≤ 1 / 100000
  · rw [if_pos c1, if_pos c1, mul_zero]
  rw [if_neg c1, if_neg c1]
  by_cases c2 : |y - 1| ≤ 1 / 100
  · rw [if_pos c2, if_pos c2]; ring
  rw [if_neg c2, if_neg c2]
  generalize betafunc 2 _ = b
  rw [show (u * k1 * (u * k1) - u * q * (u * q)) * (u * k2 * (u * k2) - u * q * (u * q)) * b / (u ^ 2 * (k3 * q) * y) =
    u ^ 2 * (u ^ 2 * ((k1 * k1 - q * q) * (k2 * k2 - q * q) * b)) / (u ^ 2 * (k3 * q * y)) by ring,
    mul_div_mul_left _ _ (by positivity), mul_div_assoc]

theorem pw_deg {u : ℝ} (_ : 0 < u) (k : ℝ) (n : ℕ) : Deg u (n : ℤ) (pw k n) (pw (u * k) n) := by
  unfold Deg pw
  rw [zpow_natCast, mul_pow]

end Verif
