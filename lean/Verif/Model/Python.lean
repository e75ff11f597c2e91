import Verif.Model.Sum

/-!
# Term containers and assembly formulas of `pyregpt/pyregpt.py`

Column values are exact reals.  A container is the ordered dictionary `self.columns`; arrays are lists (multi-component columns
flattened row by row).  Elementwise NumPy formulas are written for one element `i`; a missing column or a shape mismatch
(exceptions in Python) is not modelled in the formulas, reads then give `0`.
-/

namespace Verif

noncomputable section

/-- The class attributes `FIELDS`, `SCALE`, `SHAPE` of a `Terms` subclass. -/
structure PyClass where
  name : String
  fields : List String
  scale : List (String × ℕ)
  shape : List (String × ℕ)

/-- `SpectrumLin` (`pyregpt/pyregpt.py:148-151`). -/
def clsLin : PyClass := ⟨"SpectrumLin", ["k", "pk"], [("k", 0), ("pk", 1)], []⟩

/-- `Spectrum1Loop` (`pyregpt/pyregpt.py:340-343`). -/
def cls1 : PyClass := ⟨"Spectrum1Loop",
  ["k", "pk_lin", "sigmad2", "gamma1a_1loop", "gamma1b_1loop", "pk_gamma2_tree_tree"],
  [("k", 0), ("pk_lin", 1), ("sigmad2", 1), ("gamma1a_1loop", 1), ("gamma1b_1loop", 1), ("pk_gamma2_tree_tree", 2)], []⟩

/-- `Spectrum2Loop` (`pyregpt/pyregpt.py:374-377`). -/
def cls2 : PyClass := ⟨"Spectrum2Loop",
  ["k", "pk_lin", "sigmad2", "gamma1a_1loop", "gamma1a_2loop", "gamma1b_1loop", "gamma1b_2loop", "pk_gamma2_tree_tree",
    "pk_gamma2_tree_1loop", "pk_gamma2_1loop_1loop", "pk_gamma3_tree"],
  [("k", 0), ("pk_lin", 1), ("sigmad2", 1), ("gamma1a_1loop", 1), ("gamma1a_2loop", 2), ("gamma1b_1loop", 1),
    ("gamma1b_2loop", 2), ("pk_gamma2_tree_tree", 2), ("pk_gamma2_tree_1loop", 3), ("pk_gamma2_1loop_1loop", 4),
    ("pk_gamma3_tree", 3)], []⟩

/-- `Bias1Loop` (`pyregpt/pyregpt.py:406-409`). -/
def clsBias : PyClass := ⟨"Bias1Loop",
  ["k", "pk_lin", "sigmad2", "pk_b2d", "pk_bs2d", "pk_b2t", "pk_bs2t", "pk_b22", "pk_b2s2", "pk_bs22", "sigma3sq"],
  [("k", 0), ("pk_lin", 1), ("sigmad2", 1), ("pk_b2d", 2), ("pk_bs2d", 2), ("pk_b2t", 2), ("pk_bs2t", 2), ("pk_b22", 2),
    ("pk_b2s2", 2), ("pk_bs22", 2), ("sigma3sq", 2)], []⟩

/-- `A1Loop`, inherited by `A2Loop` (`pyregpt/pyregpt.py:480-484`, `pyregpt/pyregpt.py:520`). -/
def clsA : PyClass := ⟨"A1Loop", ["k", "pk_lin", "sigmad2", "pk"], [("k", 0), ("pk_lin", 1), ("sigmad2", 1), ("pk", 2)],
  [("pk", 5)]⟩

/-- `B1Loop`, inherited by `B2Loop` (`pyregpt/pyregpt.py:536-540`, `pyregpt/pyregpt.py:586`). -/
def clsB : PyClass := ⟨"B1Loop", ["k", "pk_lin", "sigmad2", "pk"], [("k", 0), ("pk_lin", 1), ("sigmad2", 1), ("pk", 2)],
  [("pk", 9)]⟩

/-- The dictionary `self.columns` (`pyregpt/pyregpt.py:37-39`). -/
structure Terms where
  cols : List (String × List ℝ)

namespace Terms

/-- `self[key]` for a present key (`pyregpt/pyregpt.py:55-60`). -/
def get (t : Terms) (key : String) : List ℝ := (t.cols.lookup key).getD []

/-- Element `i` of `self[key]`. -/
def val (t : Terms) (key : String) (i : ℕ) : ℝ := (t.get key).getD i 0

/-- One pass of the loop of `rescale` (`pyregpt/pyregpt.py:114-115`); `none` is the `KeyError` for a column without scaling
power. -/
def scaleCol (c : PyClass) (s : ℝ) (kv : String × List ℝ) : Option (String × List ℝ) :=
  match c.scale.lookup kv.1 with
  | some n => some (kv.1, kv.2.map (· * s ^ (2 * n)))
  | none => none

/-- `rescale` (`pyregpt/pyregpt.py:114-115`). -/
def rescale (c : PyClass) (s : ℝ) (t : Terms) : Option Terms := (t.cols.mapM (scaleCol c s)).map Terms.mk

/-- `scale_factor` (`pyregpt/pyregpt.py:12-18`). -/
def scaleFactor (npk : ℕ) (func : Terms → ℕ → ℝ) (t : Terms) (D : ℝ) (i : ℕ) : ℝ := D ^ (2 * npk) * func t i

/-- `damping_factor` (`pyregpt/pyregpt.py:21-29`); `sig` is the optional argument `sigmad2`. -/
def dampingFactor (npk : ℕ) (func : Terms → ℕ → ℝ) (t : Terms) (D : ℝ) (sig : Option (ℕ → ℝ)) (i : ℕ) : ℝ :=
  let factor := 0.5 * (t.val "k" i * D) ^ 2 * (match sig with
    | none => t.val "sigmad2" i
    | some f => f i)
  let regfactor := Real.exp (-(npk : ℝ) * factor) * (1 + factor) ^ npk
  D ^ (2 * npk) * regfactor * func t i

/-- `SpectrumLin.pk` (`pyregpt/pyregpt.py:153-155`). -/
def pkOfLin : Terms → ℝ → ℕ → ℝ := scaleFactor 1 fun t i => t.val "pk" i

/-- `Spectrum1Loop.pk_lin`, `Bias1Loop.pk_lin`, `A1Loop.pk_lin`, `B1Loop.pk_lin`
(`pyregpt/pyregpt.py:357-359`, `411-413`, `486-488`, `542-544`). -/
def pkLin : Terms → ℝ → ℕ → ℝ := scaleFactor 1 fun t i => t.val "pk_lin" i

/-- `Spectrum1Loop.pk` (`pyregpt/pyregpt.py:361-371`). -/
def pk1 (t : Terms) (D : ℝ) (sig : Option (ℕ → ℝ)) (i : ℕ) : ℝ :=
  let factor := 0.5 * (t.val "k" i * D) ^ 2 * (match sig with
    | none => t.val "sigmad2" i
    | some f => f i)
  let gamma1a_reg := D * Real.exp (-factor) * (1 + factor + D ^ 2 * t.val "gamma1a_1loop" i)
  let gamma1b_reg := D * Real.exp (-factor) * (1 + factor + D ^ 2 * t.val "gamma1b_1loop" i)
  let pk_gamma1 := gamma1a_reg * gamma1b_reg * t.val "pk_lin" i
  let pk_gamma2 := D ^ 4 * Real.exp (-2 * factor) * t.val "pk_gamma2_tree_tree" i
  pk_gamma1 + pk_gamma2

/-- `Spectrum2Loop.pk` (`pyregpt/pyregpt.py:391-403`). -/
def pk2 (t : Terms) (D : ℝ) (sig : Option (ℕ → ℝ)) (i : ℕ) : ℝ :=
  let factor := 0.5 * (t.val "k" i * D) ^ 2 * (match sig with
    | none => t.val "sigmad2" i
    | some f => f i)
  let gamma1a_reg := D * Real.exp (-factor) * (1 + factor + 0.5 * factor ^ 2 + D ^ 2 * t.val "gamma1a_1loop" i * (1 + factor)
    + D ^ 4 * t.val "gamma1a_2loop" i)
  let gamma1b_reg := D * Real.exp (-factor) * (1 + factor + 0.5 * factor ^ 2 + D ^ 2 * t.val "gamma1b_1loop" i * (1 + factor)
    + D ^ 4 * t.val "gamma1b_2loop" i)
  let pk_gamma1 := gamma1a_reg * gamma1b_reg * t.val "pk_lin" i
  let pk_gamma2 := D ^ 4 * Real.exp (-2 * factor) * (t.val "pk_gamma2_tree_tree" i * (1 + factor) ^ 2
    + t.val "pk_gamma2_tree_1loop" i * D ^ 2 * (1 + factor) + t.val "pk_gamma2_1loop_1loop" i * D ^ 4)
  let pk_gamma3 := D ^ 6 * Real.exp (-2 * factor) * t.val "pk_gamma3_tree" i
  pk_gamma1 + pk_gamma2 + pk_gamma3

/-- `Bias1Loop.pk_b2d`, ..., `pk_bs22` (`pyregpt/pyregpt.py:415-441`): all are `scale_factor(2)` of the column `key`. -/
def pkBias (key : String) : Terms → ℝ → ℕ → ℝ := scaleFactor 2 fun t i => t.val key i

/-- `Bias1Loop.pk_sigma3sq` (`pyregpt/pyregpt.py:443-445`). -/
def pkSigma3sq : Terms → ℝ → ℕ → ℝ := scaleFactor 2 fun t i => t.val "pk_lin" i * t.val "sigma3sq" i

/-- `Bias1Loop.pk_b22_damp`, `pk_b2s2_damp`, `pk_bs22_damp` (`pyregpt/pyregpt.py:447-457`). -/
def pkBiasDamp (key : String) : Terms → ℝ → Option (ℕ → ℝ) → ℕ → ℝ := dampingFactor 2 fun t i => t.val key i

/-- `A1Loop.pk`, `B1Loop.pk` (`pyregpt/pyregpt.py:490-492`, `546-548`): the flattened two-dimensional column. -/
def pkAB : Terms → ℝ → ℕ → ℝ := scaleFactor 2 fun t i => t.val "pk" i

/-- `Bias1Loop.shotnoise` (`pyregpt/pyregpt.py:471-477`), one element. -/
def shotnoise (kmin kmax k : ℝ) : ℝ :=
  open Classical in
  let one := (1 : ℝ)
  let one := if kmax < k then one * Real.exp (-(k / kmax - 1) ^ 2) else one
  let one := if k < kmin then one * Real.exp (-(kmin / k - 1) ^ 2) else one
  one

end Terms

/-- Segment search of `np.interp` for a point not below the first abscissa. -/
def npInterpFrom (right x : ℝ) : List (ℝ × ℝ) → ℝ
  | [] => right
  | [(x0, y0)] => open Classical in if x0 < x then right else y0
  | (x0, y0) :: (x1, y1) :: l =>
      open Classical in
      if x < x1 then (y1 - y0) / (x1 - x0) * (x - x0) + y0 else npInterpFrom right x ((x1, y1) :: l)

/-- `np.interp(x, xp, fp, left=left, right=right)` for one point: `left` below the first abscissa, `right` above the last
one, linear interpolation in between (NumPy; used at `pyregpt/pyregpt.py:131-132`, `513-517`, `575-583`). -/
def npInterp (left right x : ℝ) (xp fp : List ℝ) : ℝ :=
  match xp.zip fp with
  | [] => left
  | (x0, y0) :: l => open Classical in if x < x0 then left else npInterpFrom right x ((x0, y0) :: l)

namespace Terms

/-- Column `j` of the two-dimensional array `pk` with `n` components: `self.pk(Dgrowth).T[j]`. -/
def comp (t : Terms) (n : ℕ) (D : ℝ) (j : ℕ) : List ℝ := (List.range (t.get "k").length).map fun i => pkAB t D (i * n + j)

/-- `A1Loop.pk_interp` (`pyregpt/pyregpt.py:507-517`), one requested `k`. -/
def pkInterpA (t : Terms) (k mu2 beta D left right : ℝ) : ℝ :=
  let pk := t.comp 5 D
  let mu4 := mu2 * mu2
  let mu6 := mu2 * mu4
  let beta2 := beta ^ 2
  let beta3 := beta2 * beta
  mu2 * beta * npInterp left right k (t.get "k") (pk 0)
    + mu2 * beta2 * npInterp left right k (t.get "k") (pk 1)
    + mu4 * beta2 * npInterp left right k (t.get "k") (pk 2)
    + mu4 * beta3 * npInterp left right k (t.get "k") (pk 3)
    + mu6 * beta3 * npInterp left right k (t.get "k") (pk 4)

/-- `B1Loop.pk_interp` (`pyregpt/pyregpt.py:566-583`), one requested `k`. -/
def pkInterpB (t : Terms) (k mu2 beta D _left _right : ℝ) : ℝ :=
  let pk := t.comp 9 D
  let mu4 := mu2 * mu2
  let mu6 := mu2 * mu4
  let mu8 := mu2 * mu6
  let beta2 := beta ^ 2
  let beta3 := beta2 * beta
  let beta4 := beta2 * beta2
  mu2 * beta2 * npInterp 0 0 k (t.get "k") (pk 0)
    + mu2 * beta3 * npInterp 0 0 k (t.get "k") (pk 1)
    + mu2 * beta4 * npInterp 0 0 k (t.get "k") (pk 2)
    + mu4 * beta2 * npInterp 0 0 k (t.get "k") (pk 3)
    + mu4 * beta3 * npInterp 0 0 k (t.get "k") (pk 4)
    + mu4 * beta4 * npInterp 0 0 k (t.get "k") (pk 5)
    + mu6 * beta3 * npInterp 0 0 k (t.get "k") (pk 6)
    + mu6 * beta4 * npInterp 0 0 k (t.get "k") (pk 7)
    + mu8 * beta4 * npInterp 0 0 k (t.get "k") (pk 8)

end Terms

/-! ## Assembly in C -/

/-- The arrays of `Terms1Loop` (`src/define.h:67-75`). -/
structure CTerms1 where
  nk : ℕ
  k : List ℝ
  pkLin : List ℝ
  sigmad2 : List ℝ
  gamma1a : List ℝ
  gamma1b : List ℝ
  gamma2tt : List ℝ

/-- The arrays of `Terms2Loop` (`src/define.h:52-65`). -/
structure CTerms2 where
  nk : ℕ
  k : List ℝ
  pkLin : List ℝ
  sigmad2 : List ℝ
  gamma1a1 : List ℝ
  gamma1a2 : List ℝ
  gamma1b1 : List ℝ
  gamma1b2 : List ℝ
  gamma2tt : List ℝ
  gamma2t1 : List ℝ
  gamma211 : List ℝ
  gamma3 : List ℝ

/-- `for (i=0;i<n;i++) out[i] = f(i);` -/
def fillLoop (n : ℕ) (out : Buf ℝ) (f : ℕ → Res ℝ) : Res (Buf ℝ) :=
  forRange 0 n out fun i out => do
    let v ← f i
    out.wr i v

/-- `spectrum_1loop` (`src/spectrum_1loop.c:105-118`); `out` is the array `pk_1loop`. -/
def spectrum1C (t : CTerms1) (out : Buf ℝ) : Res (Buf ℝ) :=
  fillLoop t.nk out fun ik => do
    let k ← rd t.k ik
    let sigmad2 ← rd t.sigmad2 ik
    let g1a ← rd t.gamma1a ik
    let g1b ← rd t.gamma1b ik
    let pl ← rd t.pkLin ik
    let g2 ← rd t.gamma2tt ik
    let factor := 0.5 * k * k * sigmad2
    let exp_factor := Real.exp (-factor)
    let gamma1a_reg := exp_factor * (1 + factor + g1a)
    let gamma1b_reg := exp_factor * (1 + factor + g1b)
    let pk_gamma1 := gamma1a_reg * gamma1b_reg * pl
    let pk_gamma2 := exp_factor * exp_factor * g2
    .ok (pk_gamma1 + pk_gamma2)

/-- `spectrum_2loop` (`src/spectrum_2loop.c:110-125`); `out` is the array `pk_2loop`. -/
def spectrum2C (t : CTerms2) (out : Buf ℝ) : Res (Buf ℝ) :=
  fillLoop t.nk out fun ik => do
    let k ← rd t.k ik
    let sigmad2 ← rd t.sigmad2 ik
    let g1a1 ← rd t.gamma1a1 ik
    let g1a2 ← rd t.gamma1a2 ik
    let g1b1 ← rd t.gamma1b1 ik
    let g1b2 ← rd t.gamma1b2 ik
    let pl ← rd t.pkLin ik
    let tt ← rd t.gamma2tt ik
    let t1 ← rd t.gamma2t1 ik
    let oo ← rd t.gamma211 ik
    let g3 ← rd t.gamma3 ik
    let factor := 0.5 * k * k * sigmad2
    let exp_factor := Real.exp (-factor)
    let gamma1a_reg := exp_factor * (1 + factor + 0.5 * factor * factor + g1a1 * (1 + factor) + g1a2)
    let gamma1b_reg := exp_factor * (1 + factor + 0.5 * factor * factor + g1b1 * (1 + factor) + g1b2)
    let pk_gamma1 := gamma1a_reg * gamma1b_reg * pl
    let pk_gamma2 := exp_factor * exp_factor * (tt * (1 + factor) * (1 + factor) + t1 * (1 + factor) + oo)
    let pk_gamma3 := exp_factor * exp_factor * g3
    .ok (pk_gamma1 + pk_gamma2 + pk_gamma3)

end

end Verif
