import Verif.Model.Base

/-!
# Model of `src/common.c`

Numeric code is generic in the type `α` of `histo_t`.
-/

namespace Verif

variable {α : Type} [Add α] [Sub α] [Mul α] [Div α] [Neg α] [Histo α]

open Histo (lit)

/-! ## Powers -/

/-- Loop of `power` (`src/common.c:81-91`): `result`, `base` and `exp` are the C variables.  Fuel `exp+1` bounds the number of
iterations (`exp` halves); the loop stops when `exp` is zero. -/
def powerLoop : ℕ → α → α → ℕ → α
  | 0, result, _, _ => result
  | fuel + 1, result, base, exp =>
      if exp = 0 then result
      else powerLoop fuel (if exp % 2 = 1 then result * base else result) (base * base) (exp / 2)

/-- `power` (`src/common.c:81-91`). -/
def power (base : α) (exp : ℕ) : α := powerLoop (exp + 1) (lit 1) base exp

/-- `powers` (`src/common.c:93-99`): cells 0 and 1 are written unconditionally, then cells `2..npowers-1`. -/
def powers (x : α) (tab : Buf α) (npowers : ℕ) : Res (Buf α) := do
  let tab ← tab.wr 0 (lit 1)
  let tab ← tab.wr 1 x
  forRange 2 npowers tab fun i tab => do
    let t ← tab.rd (i - 1)
    tab.wr i (t * x)

/-! ## Interpolation -/

/-- Recursion of `get_dichotomy_index` (`src/common.c:101-110`) with fuel.  `subSize` because `max-1` is unsigned. -/
def dichAux (x : α) (tab : List α) : ℕ → ℕ → ℕ → Res ℕ
  | 0, _, _ => .ub "unbounded recursion"
  | fuel + 1, min, max =>
      if min = subSize max 1 then .ok min
      else do
        let ind := (min + max) / 2
        let t ← rd tab ind
        if Histo.lt x t then dichAux x tab fuel min ind
        else if Histo.lt t x then dichAux x tab fuel ind max
        else .ok ind

/-- `get_dichotomy_index` (`src/common.c:101-110`).  For `min<max` the fuel is enough (`dich_ok`); for `min>=max` the C
recursion need not end. -/
def dichotomy (x : α) (tab : List α) (min max : ℕ) : Res ℕ := dichAux x tab (max - min + 1) min max

/-- `interpol_lin` (`src/common.c:112-115`). -/
def interpolLin (x xmin xmax ymin ymax : α) : α := (x - xmin) / (xmax - xmin) * (ymax - ymin) + ymin

/-- State of the first loop of `interpol_poly`. -/
structure PolyInit (α : Type) where
  ixclose : ℕ
  diff : α
  c : Buf α
  d : Buf α

/-- First loop of `interpol_poly` (`src/common.c:119-131`): closest node and the starting columns of the tableau. -/
def polyInit (x : α) (tabx taby : List α) (nx : ℕ) : Res (PolyInit α) := do
  let x0 ← rd tabx 0
  forRange 0 nx ⟨0, Histo.abs (x - x0), malloc α nx, malloc α nx⟩ fun ix s => do
    let xi ← rd tabx ix
    let tmpdiff := Histo.abs (x - xi)
    let yi ← rd taby ix
    let c ← s.c.wr ix yi
    let d ← s.d.wr ix yi
    if Histo.lt tmpdiff s.diff then .ok ⟨ix, tmpdiff, c, d⟩ else .ok ⟨s.ixclose, s.diff, c, d⟩

/-- Inner loop of `interpol_poly` (`src/common.c:136-142`): next column of the tableau, in place. -/
def polyColumn (x : α) (tabx : List α) (nx jx : ℕ) (c d : Buf α) : Res (Buf α × Buf α) :=
  forRange 0 (nx - jx) (c, d) fun ix s => do
    let c1 ← s.1.rd (ix + 1)
    let d0 ← s.2.rd ix
    let xi ← rd tabx ix
    let xj ← rd tabx (ix + jx)
    let den := (c1 - d0) / (xi - xj)
    let c ← s.1.wr ix ((xi - x) * den)
    let d ← s.2.wr ix ((xj - x) * den)
    .ok (c, d)

/-- State of the outer loop of `interpol_poly`. -/
structure PolyState (α : Type) where
  c : Buf α
  d : Buf α
  y : α
  ixclose : ℕ

/-- Body of the outer loop of `interpol_poly` (`src/common.c:135-151`); `ixclose` is unsigned and wraps. -/
def polyStep (x : α) (tabx : List α) (nx jx : ℕ) (s : PolyState α) : Res (PolyState α) := do
  let (c, d) ← polyColumn x tabx nx jx s.c s.d
  if mulSize 2 (addSize s.ixclose 1) < nx - jx then do
    let dy ← c.rd (addSize s.ixclose 1)
    .ok ⟨c, d, s.y + dy, s.ixclose⟩
  else do
    let dy ← d.rd s.ixclose
    .ok ⟨c, d, s.y + dy, subSize s.ixclose 1⟩

/-- `interpol_poly` (`src/common.c:117-154`). -/
def interpolPoly (x : α) (tabx taby : List α) (nx : ℕ) : Res α := do
  let s ← polyInit x tabx taby nx
  let y ← rd taby s.ixclose
  let s ← forRange 1 nx (⟨s.c, s.d, y, subSize s.ixclose 1⟩ : PolyState α) (polyStep x tabx nx)
  .ok s.y

/-! ## Power spectrum tables -/

/-- `INTERPOL` (`src/define.h:20`). -/
inductive Interpol | lin | poly
deriving DecidableEq, Repr

/-- `Pk` (`src/define.h:45-49`). -/
structure Pk (α : Type) where
  nk : ℕ
  k : List α
  pk : List α

/-- Conversion of a signed `long` to `size_t`. -/
def ofLong (z : ℤ) : ℕ := (z % (sizeMod : ℤ)).toNat

/-- Slope loop shared by the two extrapolations (`src/common.c:162-165`, `src/common.c:176-179`), `n` iterations from `ik`.
`none` is the early `return 0.`; `||` evaluates its right operand only if the left one is false. -/
def slopeLoop (t : Pk α) : ℕ → ℕ → α → Res (Option α)
  | 0, _, acc => .ok (some acc)
  | n + 1, ik, acc => do
      let pp ← rd t.pk (ik + 1)
      if Histo.le pp (lit 0) then .ok none
      else do
        let pm ← rd t.pk (ik - 1)
        if Histo.le pm (lit 0) then .ok none
        else do
          let kp ← rd t.k (ik + 1)
          let km ← rd t.k (ik - 1)
          slopeLoop t n (ik + 1) (acc + Histo.log (pp / pm) / Histo.log (kp / km))

/-- `extrapol_pk_lowk` (`src/common.c:156-168`). -/
def extrapolLowk (t : Pk α) (k : α) : Res α := do
  let «end» := ofLong (min 15 ((t.nk : ℤ) - 1))
  let start := 1
  match ← slopeLoop t («end» - start) start (lit 0) with
  | none => .ok (lit 0)
  | some s => do
      let neff := s / Histo.ofNat (subSize «end» start)
      let p ← rd t.pk start
      let k0 ← rd t.k start
      .ok (p * Histo.pow (k / k0) neff)

/-- `extrapol_pk_highk` (`src/common.c:170-182`). -/
def extrapolHighk (t : Pk α) (k : α) : Res α := do
  let «end» := subSize t.nk 1
  let start := ofLong (max 1 ((«end» : ℤ) - 15))
  match ← slopeLoop t («end» - start) start (lit 0) with
  | none => .ok (lit 0)
  | some s => do
      let neff := s / Histo.ofNat (subSize «end» start)
      let p ← rd t.pk «end»
      let k0 ← rd t.k «end»
      .ok (p * Histo.pow (k / k0) neff)

/-- One requested mode of `find_pk` (`src/common.c:191-203`); returns the new `start` and the value. -/
def findPkOne (t : Pk α) (interpol : Interpol) (kstart kend : α) (start : ℕ) (k : α) : Res (ℕ × α) := do
  let «end» := subSize t.nk 1
  if Histo.lt kend k then do
    let v ← extrapolHighk t k
    .ok (start, v)
  else if Histo.lt k kstart then do
    let v ← extrapolLowk t k
    .ok (start, v)
  else do
    let ind ← dichotomy k t.k start («end» + 1)
    match interpol with
    | .poly => do
        let ikmin := ofLong (max 0 ((ind : ℤ) - 2))
        let ikmax := min «end» (ind + 2)
        let v ← interpolPoly k (t.k.drop ikmin) (t.pk.drop ikmin) (ikmax - ikmin + 1)
        .ok (ind, v)
    | .lin => do
        let k0 ← rd t.k ind
        let k1 ← rd t.k (ind + 1)
        let p0 ← rd t.pk ind
        let p1 ← rd t.pk (ind + 1)
        .ok (ind, interpolLin k k0 k1 p0 p1)

/-- Loop over the requested modes of `find_pk` (`src/common.c:191-204`), carrying `start`. -/
def findPkLoop (t : Pk α) (interpol : Interpol) (kstart kend : α) : ℕ → List α → Res (List α)
  | _, [] => .ok []
  | start, k :: ks => do
      let (start, v) ← findPkOne t interpol kstart kend start k
      let vs ← findPkLoop t interpol kstart kend start ks
      .ok (v :: vs)

/-- `find_pk` (`src/common.c:184-205`).  The list of results stands for the cells `pk[0..nk-1]` of the output array, which are
written in order and not read. -/
def findPk (t : Pk α) (ks : List α) (interpol : Interpol) : Res (List α) := do
  let kstart ← rd t.k 0
  let kend ← rd t.k (subSize t.nk 1)
  findPkLoop t interpol kstart kend 0 ks

/-! ## Running displacement variance -/

/-- Inner loop of `calc_running_sigmad2` (`src/common.c:223-230`), `fuel` bounding the remaining table intervals.
Returns the new `iklin`, the new accumulator and the value written before `break` (if any). -/
def sigmaInner (t : Pk α) (kmax : α) : ℕ → ℕ → α → Res (ℕ × α × Option α)
  | 0, iklin, acc => .ok (iklin, acc, none)
  | fuel + 1, iklin, acc =>
      if iklin < subSize t.nk 1 then do
        let k1 ← rd t.k (iklin + 1)
        let k0 ← rd t.k iklin
        let p1 ← rd t.pk (iklin + 1)
        let p0 ← rd t.pk iklin
        if Histo.lt kmax k1 then
          .ok (iklin, acc, some ((acc + (interpolLin kmax k0 k1 p0 p1 + p0) * (kmax - k0)) /
            (lit 12 * Histo.pi * Histo.pi)))
        else sigmaInner t kmax fuel (iklin + 1) (acc + (p1 + p0) * (k1 - k0))
      else .ok (iklin, acc, none)

/-- Value of `sigmad2[ik]` after the inner loop (`src/common.c:226`, `src/common.c:231`). -/
def sigmaWritten (t : Pk α) (iklin : ℕ) (acc : α) (w : Option α) : Res α :=
  if iklin = subSize t.nk 1 then .ok (acc / (lit 12 * Histo.pi * Histo.pi))
  else match w with
    | some v => .ok v
    | none => .ub "unwritten output"

/-- Loop over the requested modes of `calc_running_sigmad2` (`src/common.c:217-232`).  A mode for which nothing is written
cannot occur (`C11_sigmad2_safe`); the model would report it as undefined. -/
def sigmaLoop (t : Pk α) (uvcutoff : α) : ℕ → α → List α → Res (List α)
  | _, _, [] => .ok []
  | iklin, acc, k :: ks => do
      let kmax := k * uvcutoff
      let k0 ← rd t.k 0
      if Histo.lt kmax k0 then do
        let vs ← sigmaLoop t uvcutoff iklin acc ks
        .ok (lit 0 :: vs)
      else do
        let (iklin', acc', w) ← sigmaInner t kmax (subSize t.nk 1 - iklin) iklin acc
        let v ← sigmaWritten t iklin' acc' w
        let vs ← sigmaLoop t uvcutoff iklin' acc' ks
        .ok (v :: vs)

/-- `calc_running_sigmad2` (`src/common.c:212-233`). -/
def runningSigmad2 (t : Pk α) (ks : List α) (uvcutoff : α) : Res (List α) := sigmaLoop t uvcutoff 0 (lit 0) ks

/-! ## Precision settings -/

/-- `Precision` (`src/define.h:21-26`). -/
structure Precision (α : Type) where
  n : ℕ
  min : α
  max : α
  interpol : Interpol
deriving DecidableEq

/-- `set_interpol` (`src/common.c:255-266`): new value and whether the name was recognised. -/
def setInterpol (current : Interpol) (new : String) : Interpol × Bool :=
  if new = "poly" then (.poly, true)
  else if new = "lin" then (.lin, true)
  else (current, false)

/-- `set_precision` (`src/common.c:235-252`). -/
def setPrecision (p : Precision α) (n : ℕ) (mn mx : α) (interpol : String) (dflt : Precision α) : Precision α × Bool :=
  let (p, change) := if 0 < n then ({ p with n := n }, true) else (p, false)
  let (p, change) := if Histo.le mn mx then ({ p with min := mn, max := mx }, true) else (p, change)
  let r := setInterpol p.interpol interpol
  let p := { p with interpol := r.1 }
  let change := change || r.2
  if change then (p, true) else (dflt, false)

/-! ## Gauss-Legendre quadrature -/

/-- Loop of the three-term recurrence (`src/common.c:288-292`): `m` iterations from counter `jj`, state `(p1,p2)`. -/
def legendreLoop (z : α) : ℕ → ℕ → α × α → α × α
  | 0, _, p => p
  | m + 1, jj, (p1, p2) =>
      let p3 := p2
      let p2 := p1
      let p1 := ((lit 2 * Histo.ofNat jj + lit 1) * z * p2 - Histo.ofNat jj * p3) / (Histo.ofNat jj + lit 1)
      legendreLoop z m (jj + 1) (p1, p2)

/-- `(p1,p2)` after the recurrence started from `p1=1,p2=0` (`src/common.c:286-292`). -/
def legendrePair (z : α) (n : ℕ) : α × α := legendreLoop z n 0 (lit 1, lit 0)

/-- `pp` (`src/common.c:293`). -/
def legendreDeriv (z : α) (n : ℕ) : α :=
  let p := legendrePair z n
  Histo.ofNat n * (z * p.1 - p.2) / (z * z - lit 1)

/-- `EPS` (`src/common.h:4`). -/
def eps : α := lit (3 / 100000000000000)

/-- `while (my_abs(z-z1)>EPS)` loop (`src/common.c:285-296`), state `(z,z1,pp)`; `none` if still running after `fuel`
iterations. -/
def newton (n : ℕ) : ℕ → α → α → α → Option (α × α)
  | 0, _, _, _ => none
  | fuel + 1, z, z1, pp =>
      if Histo.lt eps (Histo.abs (z - z1)) then
        let p := legendrePair z n
        let pp := legendreDeriv z n
        newton n fuel (z - p.1 / pp) z pp
      else some (z, pp)

/-- Root and derivative found for index `ii` (`src/common.c:283-296`). -/
def root (fuel n ii : ℕ) (pp : α) : Option (α × α) :=
  let z := Histo.cos (Histo.pi * (Histo.ofNat ii + lit (3 / 4)) / (Histo.ofNat n + lit (1 / 2)))
  newton n fuel z (z + eps + lit 1) pp

/-- `nodes_weights_gauss_legendre` (`src/common.c:268-305`) for a given outcome `rt ii` of the root search of index `ii`
(final `z` and `pp`). -/
def nodesWeights (rt : ℕ → α × α) (xmin xmax : α) (x w : Buf α) (n : ℕ) : Res (Buf α × Buf α) :=
  let mid := (n + 1) / 2
  let xmid := (xmax + xmin) / lit 2
  let xl := (xmax - xmin) / lit 2
  forRange 0 mid (x, w) fun ii s => do
    let z := (rt ii).1
    let pp := (rt ii).2
    let x ← s.1.wr ii (xmid - xl * z)
    let x ← x.wr (subSize (subSize n ii) 1) (xmid + xl * z)
    let w ← s.2.wr ii (lit 2 * xl / ((lit 1 - z * z) * pp * pp))
    let wi ← w.rd ii
    let w ← w.wr (subSize (subSize n ii) 1) wi
    .ok (x, w)

/-- `GaussLegendreQ` (`src/define.h:28-35`). -/
structure GLQ (α : Type) where
  nq : ℕ
  k : α
  x : List α
  q : List α
  w : List α
  pk : List α

/-- `GaussLegendreMu` (`src/define.h:37-43`). -/
structure GLMu (α : Type) where
  nmu : ℕ
  muref : List α
  wref : List α
  mu : List α
  w : List α

/-- Contents of a buffer all of whose cells are initialised (a read of any other cell would be undefined). -/
def Buf.contents (b : Buf α) : Res (List α) :=
  match b with
  | [] => .ok []
  | some v :: b => do
      let vs ← Buf.contents b
      .ok (v :: vs)
  | none :: _ => .ub "uninitialised read"

/-- The integration range used by `init_gauss_legendre_q` (`src/common.c:309-313`). -/
def glqRange (t : Pk α) (p : Precision α) : Res (α × α) :=
  if Histo.le p.min (lit 0) || Histo.le p.max (lit 0) then do
    let a ← rd t.k 0
    let b ← rd t.k (subSize t.nk 1)
    .ok (a, b)
  else .ok (p.min, p.max)

/-- `init_gauss_legendre_q` (`src/common.c:307-331`) for given root-search outcomes.  The loop `src/common.c:326-329` is a
map over all `nq` cells. `calloc` zeroes are never read before being written, the buffers are modelled as uninitialised. -/
def initGLQ (rt : ℕ → α × α) (t : Pk α) (p : Precision α) : Res (GLQ α) := do
  let (qmin, qmax) ← glqRange t p
  let nq := p.n
  let (x, w) ← nodesWeights rt (Histo.log qmin) (Histo.log qmax) (malloc α nq) (malloc α nq) nq
  let x ← x.contents
  let w ← w.contents
  let q := x.map Histo.exp
  let pk ← findPk t q p.interpol
  .ok ⟨nq, lit 1, q, q, w, pk⟩

/-- `update_gauss_legendre_q` (`src/common.c:333-338`). -/
def updateGLQ (g : GLQ α) (k : α) : GLQ α := { g with k := k, x := g.q.map (· / k) }

/-- `init_gauss_legendre_mu` (`src/common.c:350-368`). -/
def initGLMu (rt : ℕ → α × α) (n : ℕ) : Res (GLMu α) := do
  let (x, w) ← nodesWeights rt (lit (-1)) (lit 1) (malloc α n) (malloc α n) n
  let x ← x.contents
  let w ← w.contents
  .ok ⟨n, x, w, x, w⟩

/-- `update_gauss_legendre_mu` (`src/common.c:370-380`). -/
def updateGLMu (g : GLMu α) (mumin mumax : α) : GLMu α :=
  let jacobian := (mumax - mumin) / lit 2
  { g with mu := g.muref.map fun m => (m + lit 1) * jacobian + mumin, w := g.wref.map fun w => w * jacobian }

end Verif
