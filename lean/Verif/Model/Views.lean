import Verif.Model.Common
import Verif.Model.Settings

/-!
# Arrays as NumPy stores them, and the direct wrappers of the library

A one-dimensional NumPy array is a window on a block of memory: first element, step and number of elements.  Slicing makes another
window on the same block.  The library gets the address of the first element and steps by one element.
-/

namespace Verif

variable {α : Type}

/-- A one-dimensional NumPy array: the block it lies in, the index of its first element, its stride in elements, its length, and
whether its type is `double`.  Strides that are no multiple of the element size (fields of records) are not modelled. -/
structure View (α : Type) where
  buf : List α
  off : ℤ
  stride : ℤ
  n : ℕ
  double : Bool

namespace View

/-- The cell of the block at index `z`, if there is one. -/
def cell (v : View α) (z : ℤ) : Option α := if z < 0 then none else v.buf[z.toNat]?

/-- Element `i` as Python sees it. -/
def elem (v : View α) (i : ℕ) : Option α := v.cell (v.off + i * v.stride)

/-- The elements as Python sees them (all of them present for arrays made by NumPy, `View.WF`). -/
def vals (v : View α) : List α := (List.range v.n).filterMap v.elem

/-- Every element lies in the block. -/
def WF (v : View α) : Prop := ∀ i < v.n, (v.elem i).isSome

/-- A new array with contents `l`. -/
def fresh (l : List α) : View α := ⟨l, 0, 1, l.length, true⟩

/-- `np.asarray(a, dtype=double).flatten()` (`pyregpt/pyregpt.py:118`, `229`, `239`, `262-263`): a new block holding the elements in
order.  Elements of another type are taken to be converted without change. -/
def flatten (v : View α) : View α := fresh v.vals

/-- Start, step and number of elements of `a[start:stop:step]` for an array of length `n` (`slice.indices`, CPython
`Objects/sliceobject.c`; used by NumPy). -/
def sliceIndices (n : ℕ) (start stop : Option ℤ) (step : ℤ) : ℤ × ℕ :=
  let lower : ℤ := if step < 0 then -1 else 0
  let upper : ℤ := if step < 0 then n - 1 else n
  let clip (z : ℤ) : ℤ := if z < 0 then max (z + n) lower else min z upper
  let first := match start with
    | none => if step < 0 then upper else lower
    | some z => clip z
  let last := match stop with
    | none => if step < 0 then lower else upper
    | some z => clip z
  (first, if step < 0 then (if last < first then ((first - last - 1) / (-step) + 1).toNat else 0)
    else if first < last then ((last - first - 1) / step + 1).toNat else 0)

/-- `a[start:stop:step]`: a window on the same block; `none` is the `ValueError` for step zero. -/
def slice (start stop : Option ℤ) (step : ℤ) (v : View α) : Option (View α) :=
  if step = 0 then none
  else
    let r := sliceIndices v.n start stop step
    some { v with off := v.off + r.1 * v.stride, stride := v.stride * step, n := r.2 }

/-- `a[idx]` for an array of non-negative indices, or for a mask given by its true positions: a new block; `none` is the
`IndexError`. -/
def pick (idx : List ℕ) (v : View α) : Option (View α) := do
  let l ← idx.mapM fun i => if i < v.n then v.elem i else none
  some { fresh l with double := v.double }

/-- What C reads at `p[i]`, `p` the address of the first element. -/
def cread (v : View α) (i : ℕ) : Res α :=
  match v.cell (v.off + i) with
  | some x => .ok x
  | none => .ub "out of bounds read"

/-- The `n` elements from the address of the first one, as C sees them.  As in `CState.pkv` all of them are taken to be read. -/
def cseen (v : View α) (n : ℕ) : Res (List α) := (List.range n).mapM v.cread

/-- The test made by `ndpointer(dtype=double, shape=(n,))` when an argument is passed (`numpy/ctypeslib`, `from_param`): type and shape.
The layout is tested only if `flags` is given, which it is nowhere in `pyregpt/pyregpt.py`. -/
def accepted (v : View α) (n : ℕ) : Bool := v.double && v.n == n

end View

/-- A spectrum object: its columns `k` and `pk` (`SpectrumLin`, `pyregpt/pyregpt.py:148-155`). -/
structure SpecObj (α : Type) where
  k : View α
  pk : View α

/-- `spectrum[start:stop:step]` (`Terms.__getitem__`, `pyregpt/pyregpt.py:55-62`): every column is sliced. -/
def SpecObj.slice (start stop : Option ℤ) (step : ℤ) (s : SpecObj α) : Option (SpecObj α) := do
  let k ← s.k.slice start stop step
  let pk ← s.pk.slice start stop step
  some ⟨k, pk⟩

/-- `spectrum[idx]` for an array of indices or a mask (`Terms.__getitem__`, `pyregpt/pyregpt.py:55-62`). -/
def SpecObj.pick (idx : List ℕ) (s : SpecObj α) : Option (SpecObj α) := do
  let k ← s.k.pick idx
  let pk ← s.pk.pick idx
  some ⟨k, pk⟩

/-- `PyRegPT.set_spectrum_lin` (`pyregpt/pyregpt.py:252-257`) and `set_pk_lin` in C (`src/regpt.c:71-80`; its printing is left out, see
C56): the table the library has
afterwards.  The state `t` is kept when an argument is refused (`ctypes.ArgumentError`). -/
def setSpectrumView (s : SpecObj α) (t : Pk α) : PyRes (Pk α) :=
  if s.k.accepted s.k.n && s.pk.accepted s.k.n then
    match s.k.cseen s.k.n, s.pk.cseen s.k.n with
    | .ok k, .ok pk => .done ⟨s.k.n, k, pk⟩
    | .ub w, _ => .ub w
    | _, .ub w => .ub w
  else .raised "ArgumentError" t

/-- The table behind `set_spectra_B` as `B2Loop.run_terms` calls it (`pyregpt/pyregpt.py:598-605`, `src/spectrum_B.c:57-73`): the modes are
the column of the spectrum object, `pk` (`pk_dt` or `pk_tt`) is the result of array arithmetic, hence a new block. -/
def setSpectraBView (s : SpecObj α) (pk : List α) (t : Pk α) : PyRes (Pk α) := setSpectrumView ⟨s.k, .fresh pk⟩ t

/-- `PyRegPT.set_pk_lin` (`pyregpt/pyregpt.py:259-264`): both arrays are flattened first. -/
def setPkView (k pk : View α) (t : Pk α) : PyRes (Pk α) := setSpectrumView ⟨k.flatten, pk.flatten⟩ t

variable [Add α] [Sub α] [Mul α] [Div α] [Neg α] [Histo α]

/-- `PyRegPT.find_pk_lin` (`pyregpt/pyregpt.py:227-235`) with the library holding `t`: the request is flattened; `pk` is a new array of
the same length. -/
def findPkView (t : Pk α) (k : View α) (interpol : String) : Res (List α) := do
  let ks ← k.flatten.cseen k.flatten.n
  findPk t ks (if interpol = "poly" then .poly else .lin)

/-- `PyRegPT.interpol_poly` (`pyregpt/pyregpt.py:212-219`): the value, or the exception raised. -/
def interpolPolyView (x : α) (tabx taby : View α) : PyRes α :=
  if tabx.n = taby.n then
    if tabx.accepted tabx.n && taby.accepted tabx.n then
      match (do
        let a ← tabx.cseen tabx.n
        let b ← taby.cseen tabx.n
        interpolPoly x a b tabx.n) with
      | .ok y => .done y
      | .ub w => .ub w
    else .raised "ArgumentError" x
  else .raised "AssertionError" x

/-- `a[0]` and `a[-1]` in Python; `none` is the `IndexError`. -/
def View.ends (v : View α) : Option (α × α) :=
  match v.vals with
  | [] => none
  | y :: l => some (y, (y :: l).getLast (List.cons_ne_nil y l))

/-- `PyRegPT.interpol_lin` (`pyregpt/pyregpt.py:221-225`): only the first and the last entries are passed, by value. -/
def interpolLinView (x : α) (tabx taby : View α) : PyRes α :=
  match tabx.ends, taby.ends with
  | some (x0, x1), some (y0, y1) => .done (interpolLin x x0 x1 y0 y1)
  | _, _ => .raised "IndexError" x

end Verif
