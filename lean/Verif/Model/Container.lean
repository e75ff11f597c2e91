import Verif.Model.Settings
import Verif.Model.Variance

/-!
# The container operations of `Terms` (`pyregpt/pyregpt.py:32-126`)

The dictionary `self.columns` is an association list in the order of insertion with distinct keys; the columns are arrays with
one axis, with two axes, or numbers (after selecting one mode).  Which memory the arrays share is the subject of
`Model/Heap.lean` and `Model/Views.lean`; here only their contents count.  The contents are of any type, so that values which are
not numbers (NaN) can be told apart by a test `isnan`.
-/

namespace Verif

/-- A NumPy array with no axis, one axis, or two axes (rows of `w` entries each). -/
inductive NArr (α : Type)
  | num (a : α)
  | vec (l : List α)
  | mat (w : ℕ) (rows : List (List α))
  deriving DecidableEq

/-- An index that is not a string: an integer, a slice with positive step, a boolean mask or a list of integers (NumPy; the forms
that `self.columns[key][name]` takes at `pyregpt/pyregpt.py:62` and `69`).  Slices with negative step and indices with several
components are left out. -/
inductive Index
  | int (i : ℤ)
  | slice (start stop : Option ℤ) (step : ℕ)
  | mask (m : List Bool)
  | list (is : List ℤ)
  deriving DecidableEq

namespace Index

/-- An integer index on an axis of length `n`; negative ones count from the end. -/
def wrap (n : ℕ) (i : ℤ) : Except String ℕ :=
  let j := if i < 0 then i + n else i
  if 0 ≤ j ∧ j < n then .ok j.toNat else .error "IndexError"

/-- An end of a slice on an axis of length `n` is moved into `0..n`. -/
def clip (n : ℕ) (i : ℤ) : ℕ :=
  let j := if i < 0 then i + n else i
  (min (max j 0) n).toNat

/-- The positions where a mask is true. -/
def trues : ℕ → List Bool → List ℕ
  | _, [] => []
  | i, b :: m => if b then i :: trues (i + 1) m else trues (i + 1) m

/-- The positions that an index selects on an axis of length `n`. -/
def positions (n : ℕ) : Index → Except String (List ℕ)
  | int i => (wrap n i).map fun p => [p]
  | slice start stop step =>
      let a := (start.map (clip n)).getD 0
      let b := (stop.map (clip n)).getD n
      if step = 0 then .error "ValueError"
      else .ok ((List.range ((b - a + step - 1) / step)).map fun j => a + j * step)
  | mask m => if m.length = n then .ok (trues 0 m) else .error "IndexError"
  | list is => is.mapM (wrap n)

/-- Whether the index removes the axis. -/
def scalar : Index → Bool
  | int _ => true
  | _ => false

end Index

namespace NArr

variable {α : Type}

/-- `len(a)`. -/
def len : NArr α → Except String ℕ
  | num _ => .error "TypeError"
  | vec l => .ok l.length
  | mat _ rows => .ok rows.length

/-- `a.flatten()`. -/
def flat : NArr α → List α
  | num a => [a]
  | vec l => l
  | mat _ rows => rows.flatten

/-- `a[name]` (NumPy). -/
def sel [Inhabited α] (ix : Index) : NArr α → Except String (NArr α)
  | num _ => .error "IndexError"
  | vec l => do
      let ps ← ix.positions l.length
      match ix.scalar, ps with
      | true, p :: _ => .ok (num l[p]!)
      | _, ps => .ok (vec (ps.map fun p => l[p]!))
  | mat w rows => do
      let ps ← ix.positions rows.length
      match ix.scalar, ps with
      | true, p :: _ => .ok (vec rows[p]!)
      | _, ps => .ok (mat w (ps.map fun p => rows[p]!))

/-- `a[name] = item` with a number `item` (NumPy): all entries of the selected rows. -/
def put (ix : Index) (item : α) : NArr α → Except String (NArr α)
  | num _ => .error "TypeError"
  | vec l => do
      let ps ← ix.positions l.length
      .ok (vec (l.mapIdx fun i a => if i ∈ ps then item else a))
  | mat w rows => do
      let ps ← ix.positions rows.length
      .ok (mat w (rows.mapIdx fun i r => if i ∈ ps then List.replicate w item else r))

/-- `a.shape = (n, w)` (NumPy): rows of `w` successive entries. -/
def setShape (n w : ℕ) (a : NArr α) : Except String (NArr α) :=
  if a.flat.length = n * w then .ok (mat w ((List.range n).map fun i => (a.flat.drop (i * w)).take w)) else .error "ValueError"

/-- `a *= s` and, for arrays, `a[np.isnan(a)] = 0.`: a function applied to every entry. -/
def map (f : α → α) : NArr α → NArr α
  | num a => num (f a)
  | vec l => vec (l.map f)
  | mat w rows => mat w (rows.map (List.map f))

end NArr

/-- An object of a class below `Terms`: the class and `self.columns` (`pyregpt/pyregpt.py:37-39`). -/
structure Box (α : Type) where
  cls : PyClass
  cols : List (String × NArr α)

namespace Box

variable {α : Type}

/-- `self[name]` for a string (`pyregpt/pyregpt.py:56-60`). -/
def get (t : Box α) (name : String) : Except String (NArr α) :=
  match t.cols.lookup name with
  | some a => .ok a
  | none => .error "KeyError"

/-- Assignment in a dictionary: an existing key keeps its place, a new one goes to the end (Python). -/
def dictSet (name : String) (item : NArr α) : List (String × NArr α) → List (String × NArr α)
  | [] => [(name, item)]
  | (key, a) :: l => if key = name then (key, item) :: l else (key, a) :: dictSet name item l

/-- `self[name] = item` for a string (`pyregpt/pyregpt.py:65-66`). -/
def set (t : Box α) (name : String) (item : NArr α) : Box α := { t with cols := dictSet name item t.cols }

/-- `len(self)`, `self.size` (`pyregpt/pyregpt.py:45-50`). -/
def size (t : Box α) : Except String ℕ := do
  let k ← t.get "k"
  k.len

/-- `self[name]` for an index that is not a string (`pyregpt/pyregpt.py:61-62`): an object of the same class with the selection of
every column.  The constructor of the classes bound to the library also loads it and sets the verbosity (`Model/Library.lean`). -/
def sel [Inhabited α] (t : Box α) (ix : Index) : Except String (Box α) := do
  let cols ← t.cols.mapM fun kv => (kv.2.sel ix).map fun a => (kv.1, a)
  .ok ⟨t.cls, cols⟩

/-- A loop that changes column after column in place and stops at the first exception; the columns done before stay changed. -/
def eachCol (t : Box α) (f : String → NArr α → Except String (NArr α)) : List String → PyRes (Box α)
  | [] => .done t
  | key :: keys =>
      match t.get key with
      | .error w => .raised w t
      | .ok a =>
          match f key a with
          | .error w => .raised w t
          | .ok a => eachCol (t.set key a) f keys

/-- `self.fields` (`pyregpt/pyregpt.py:41-43`). -/
def keys (t : Box α) : List String := t.cols.map Prod.fst

/-- `self[name] = item` for an index that is not a string and a number `item` (`pyregpt/pyregpt.py:67-69`). -/
def put (t : Box α) (ix : Index) (item : α) : PyRes (Box α) := t.eachCol (fun _ a => a.put ix item) t.keys

/-- `name in self` (`pyregpt/pyregpt.py:71-72`). -/
def contains (t : Box α) (name : String) : Bool := (t.cols.lookup name).isSome

/-- `list(self)` (`pyregpt/pyregpt.py:74-76`). -/
def iter (t : Box α) : List String := t.cls.fields.filter fun field => t.keys.contains field

/-- `self.tolist()` (`pyregpt/pyregpt.py:78-79`). -/
def tolist (t : Box α) : Except String (List (NArr α)) := t.iter.mapM t.get

/-- `self.pop(key)` (`pyregpt/pyregpt.py:81-82`): the column and the object without it. -/
def pop (t : Box α) (key : String) : Except String (NArr α × Box α) :=
  match t.cols.lookup key with
  | some a => .ok (a, { t with cols := t.cols.filter fun kv => kv.1 ≠ key })
  | none => .error "KeyError"

/-- `self.as_dict(fields)` (`pyregpt/pyregpt.py:84-86`); the dictionary as association list. -/
def asDict (t : Box α) (fields : Option (List String)) : Except String (List (String × NArr α)) :=
  (fields.getD t.keys).mapM fun field => (t.get field).map fun a => (field, a)

/-- `self.nan_to_zero()` (`pyregpt/pyregpt.py:111-112`). -/
def nanToZero [Zero α] (isnan : α → Bool) (t : Box α) : PyRes (Box α) :=
  t.eachCol (fun _ a => match a with
    | .num _ => .error "TypeError"
    | a => .ok (a.map fun x => if isnan x then 0 else x)) t.cls.fields

/-- `self.rescale(scale)` (`pyregpt/pyregpt.py:114-115`): as `Terms.rescale`, with the columns that were changed when `SCALE` has no
entry for a column. -/
def rescale [Monoid α] (s : α) (t : Box α) : PyRes (Box α) :=
  t.eachCol (fun key a => match t.cls.scale.lookup key with
    | some n => .ok (a.map (· * s ^ (2 * n)))
    | none => .error "KeyError") t.keys

/-- The new value of a field other than `k` in `zeros` (`pyregpt/pyregpt.py:121-122`) for `n` modes: flat in both cases. -/
def zeroCol [Zero α] (c : PyClass) (n : ℕ) (key : String) : NArr α :=
  match c.shape.lookup key with
  | some w => .vec (List.replicate (n * w) 0)
  | none => .vec (List.replicate n 0)

/-- `self.zeros(k)` (`pyregpt/pyregpt.py:117-122`). -/
def zeros [Zero α] (t : Box α) (k : NArr α) : Box α :=
  t.cls.fields.foldl (fun t key => if key = "k" then t else t.set key (zeroCol t.cls k.flat.length key)) (t.set "k" (.vec k.flat))

/-- `self.reshape()` (`pyregpt/pyregpt.py:124-126`); the size is that before the loop, as `k` has no entry in any `SHAPE`. -/
def reshape (t : Box α) : PyRes (Box α) :=
  t.eachCol (fun key a => do
    let n ← t.size
    a.setShape n ((t.cls.shape.lookup key).getD 0)) (t.cls.fields.filter fun key => (t.cls.shape.lookup key).isSome)

/-- The columns of an object after `set_terms(k)` (`pyregpt/pyregpt.py:345-350`, `379-384`, `459-464`, `494-499`, `522-528`,
`550-556`): `zeros`, a call of the library that stores the addresses, and for `A2Loop`, `B1Loop` and `B2Loop` (`reshaped`) a
`reshape`. -/
def setTerms [Zero α] (reshaped : Bool) (t : Box α) (k : NArr α) : PyRes (Box α) :=
  if reshaped then (t.zeros k).reshape else .done (t.zeros k)

end Box

noncomputable section

/-- `pk_interp` (`pyregpt/pyregpt.py:132-133`) at one requested mode, for the values `pk` that `self.pk(**kwargs)` returned. -/
def Terms.pkInterp (t : Terms) (pk : ℕ → ℝ) (k left right : ℝ) : ℝ :=
  npInterp left right k (t.get "k") ((List.range (t.get "k").length).map pk)

/-- `integrate.trapz(y, x=x, axis=-1)` of a two-dimensional `y` with rows of `w` entries and a one-dimensional `x` (SciPy): the
differences of `x` have the shape `(1, len(x) - 1)` and multiply the sums of neighbours along the last axis, of shape
`(n, w - 1)`; shapes that do not fit raise, and a length of one is repeated (NumPy broadcasting). -/
def trapzRows (w : ℕ) (rows : List (List ℝ)) (x : List ℝ) : Except String (List ℝ) :=
  let m := x.length - 1
  if m = w - 1 ∨ m = 1 ∨ w - 1 = 1 then
    .ok (rows.map fun r => ∑ j ∈ Finset.range (if w - 1 = 1 then m else w - 1),
      let dj := if m = 1 then 0 else j
      let yj := if w - 1 = 1 then 0 else j
      (x.getD (dj + 1) 0 - x.getD dj 0) * (r.getD (yj + 1) 0 + r.getD yj 0) / 2)
  else .error "ValueError"

/-- `sigmav` (`pyregpt/pyregpt.py:135-136`) of the classes whose `pk` has two axes (`A1Loop`, `A2Loop`, `B1Loop`, `B2Loop`); the
square root of a negative number is a NaN in the program and zero here. -/
def sigmavRows (w : ℕ) (rows : List (List ℝ)) (k : List ℝ) : Except String (List ℝ) :=
  (trapzRows w rows k).map (List.map fun s => Real.sqrt (1 / 6 / Real.pi ^ 2 * s))

/-- `a * f` of a two-dimensional `a` with rows of `w` entries and a one-dimensional `f` (NumPy): entry `j` of every row is multiplied by
`f[j]`; shapes that do not fit raise, and a length of one is repeated. -/
def mulRows (w : ℕ) (rows : List (List ℝ)) (f : List ℝ) : Except String (ℕ × List (List ℝ)) :=
  if f.length = w then .ok (w, rows.map fun r => (List.range w).map fun j => r.getD j 0 * f.getD j 0)
  else if f.length = 1 then .ok (w, rows.map fun r => (List.range w).map fun j => r.getD j 0 * f.getD 0 0)
  else if w = 1 then .ok (f.length, rows.map fun r => f.map fun a => r.getD 0 0 * a)
  else .error "ValueError"

/-- `sigmar` (`pyregpt/pyregpt.py:138-142`) of the classes whose `pk` has two axes. -/
def sigmarRows (w : ℕ) (rows : List (List ℝ)) (k : List ℝ) (r : ℝ) : Except String (List ℝ) := do
  let p ← mulRows w rows (k.map fun k => (topHat (k * r) * k) ^ 2)
  let s ← trapzRows p.1 p.2 k
  .ok (s.map fun s => Real.sqrt (1 / 2 / Real.pi ^ 2 * s))

end

end Verif
