import Verif.Model.Common
import Verif.Model.Python
import Verif.Model.Settings

/-!
# Padding: `Terms.pad_k` and `PyRegPT.pad_k`

The NumPy operations used there are written out: `np.pad` with a flat `pad_width`, slices and slice assignment.  Exceptions keep the
columns reached so far (`PyRes.raised`).
-/

namespace Verif

variable {α : Type}

/-- A NumPy array of one or two dimensions (row by row). -/
inductive NdArr (α : Type)
  | vec (l : List α)
  | mat (rows : List (List α))

/-- `a.ndim`. -/
def NdArr.ndim : NdArr α → ℕ
  | vec _ => 1
  | mat _ => 2

/-- `len(a)`. -/
def NdArr.len : NdArr α → ℕ
  | vec l => l.length
  | mat r => r.length

/-- The dictionary `self.columns` (`pyregpt/pyregpt.py:37-39`) of a container whose columns may be two-dimensional. -/
abbrev Cols (α : Type) := List (String × NdArr α)

/-- `self[key] = a` (`pyregpt/pyregpt.py:64-66`): replaced in place when present, appended otherwise. -/
def Cols.put (d : Cols α) (key : String) (a : NdArr α) : Cols α :=
  if d.any (fun kv => kv.1 == key) then d.map (fun kv => if kv.1 == key then (key, a) else kv) else d ++ [(key, a)]

/-- `np.pad` turns a flat `pad_width` into one pair per axis: one or two numbers are used for every axis, anything else cannot be
broadcast to shape `(ndim, 2)` (`ValueError`). -/
def asPairs : List ℕ → Option (ℕ × ℕ)
  | [x] => some (x, x)
  | [x, y] => some (x, y)
  | _ => none

/-- One axis of `np.pad(..., mode='constant')`. -/
def padList {β : Type} (s e : ℕ) (c : β) (l : List β) : List β := List.replicate s c ++ l ++ List.replicate e c

/-- `np.pad(a, pad_width, mode=mode, constant_values=c)` (NumPy, called at `pyregpt/pyregpt.py:104`).  The keyword `constant_values`
is refused by every named mode but `'constant'` (`ValueError`); `mode` given as a function is not modelled. -/
def npPad (mode : String) (c : α) (width : List ℕ) (a : NdArr α) : Option (NdArr α) :=
  if mode = "constant" then
    match asPairs width, a with
    | none, _ => none
    | some (s, e), .vec l => some (.vec (padList s e c l))
    | some (s, e), .mat r =>
      some (.mat (padList s e (List.replicate ((r.headD []).length + s + e) c) (r.map (padList s e c))))
  else none

/-- `pad_width = ((0, 0)) * (ndim - 1) + ((pad_start, pad_end))` (`pyregpt/pyregpt.py:103`): the inner parentheses make no
tuple of tuples, so the result is a flat tuple. -/
def padWidth (ndim s e : ℕ) : List ℕ := (List.replicate (ndim - 1) [0, 0]).flatten ++ [s, e]

/-- First index of the slice `[-e:]` of an array of length `n`; `-0` is `0`. -/
def negStart (n e : ℕ) : ℕ := if e = 0 then 0 else n - e

/-- `v[-e:]`. -/
def lastSlice (v : List α) (e : ℕ) : List α := v.drop (negStart v.length e)

/-- Assignment to the slice from `lo` to `hi` (NumPy): the lengths have to agree, a single value is broadcast, anything else is a
`ValueError`. -/
def assignSlice (a : List α) (lo hi : ℕ) (v : List α) : Option (List α) :=
  if v.length = hi - lo then some (a.take lo ++ v ++ a.drop hi)
  else match v with
    | [x] => some (a.take lo ++ List.replicate (hi - lo) x ++ a.drop hi)
    | _ => none

/-- `a[:s] = v[:s]`. -/
def setFirst (a v : List α) (s : ℕ) : Option (List α) := assignSlice a 0 (min s a.length) (v.take s)

/-- `a[-e:] = v[-e:]`. -/
def setLast (a v : List α) (e : ℕ) : Option (List α) := assignSlice a (negStart a.length e) a.length (lastSlice v e)

/-- `self[key][:pad_start] = v[:pad_start]; self[key][-pad_end:] = v[-pad_end:]` (`pyregpt/pyregpt.py:105-109`), for
one-dimensional columns; a two-dimensional one has stopped the loop before. -/
def setEnds (key : String) (v : List α) (s e : ℕ) (d : Cols α) : PyRes (Cols α) :=
  match d.lookup key with
  | none => .raised "KeyError" d
  | some (.mat _) => .raised "two-dimensional column" d
  | some (.vec l) =>
    match setFirst l v s with
    | none => .raised "ValueError" d
    | some l' =>
      match setLast l' v e with
      | none => .raised "ValueError" (d.put key (.vec l'))
      | some l'' => .done (d.put key (.vec l''))

/-- One pass of the padding loop (`pyregpt/pyregpt.py:102-104`). -/
def padOne (mode : String) (c : α) (s e : ℕ) (key : String) (d : Cols α) : PyRes (Cols α) :=
  match d.lookup key with
  | none => .raised "KeyError" d
  | some a =>
    match npPad mode c (padWidth a.ndim s e) a with
    | none => .raised "ValueError" d
    | some b => .done (d.put key b)

/-- The loop over keyword arguments (`pyregpt/pyregpt.py:107-109`). -/
def setKwargs (s e : ℕ) : List (String × List α) → Cols α → PyRes (Cols α)
  | [], d => .done d
  | (key, v) :: l, d => (setEnds key v s e d).andThen (setKwargs s e l)

variable [Histo α]

/-- `np.sum(k < x)` (`pyregpt/pyregpt.py:100`). -/
def countBelow (k : List α) (x : α) : ℕ := k.countP fun y => Histo.lt y x

/-- `np.sum(k > x)` (`pyregpt/pyregpt.py:101`). -/
def countAbove (k : List α) (x : α) : ℕ := k.countP fun y => Histo.lt x y

/-- `Terms.pad_k` (`pyregpt/pyregpt.py:99-109`); `k` is a one-dimensional array. -/
def padTerms (fields : List String) (k : List α) (mode : String) (c : α) (kwargs : List (String × List α)) (d : Cols α) :
    PyRes (Cols α) :=
  match d.lookup "k" with
  | none => .raised "KeyError" d
  | some (.mat _) => .raised "two-dimensional k" d
  | some (.vec []) => .raised "IndexError" d
  | some (.vec (x :: l)) =>
    let s := countBelow k x
    let e := countAbove k ((x :: l).getLast (List.cons_ne_nil x l))
    ((pyEach (padOne mode c s e) fields d).andThen (setEnds "k" k s e)).andThen (setKwargs s e kwargs)

variable [Add α] [Sub α] [Mul α] [Div α] [Neg α]

/-- `self[key] = f(self.k)` for a library function `f`, if the class has the column (`pyregpt/pyregpt.py:330-331`). -/
def recompute (fields : List String) (key : String) (f : List α → Res (List α)) (d : Cols α) : PyRes (Cols α) :=
  if key ∈ fields then
    match d.lookup "k" with
    | some (.vec l) =>
      match f l with
      | .ok v => .done (d.put key (.vec v))
      | .ub w => .ub w
    | _ => .raised "KeyError" d
  else .done d

/-- `PyRegPT.pad_k` (`pyregpt/pyregpt.py:328-331`) with the library holding the linear spectrum `t`: `find_pk_lin` is called with
the mode named by `interpol` (`pyregpt/pyregpt.py:233`), `calc_running_sigmad2` with its default cutoff (`pyregpt/pyregpt.py:237`). -/
def padRegPT (t : Pk α) (fields : List String) (k : List α) (mode : String) (c : α) (interpol : String) (d : Cols α) :
    PyRes (Cols α) :=
  ((padTerms fields k mode c [] d).andThen
    (recompute fields "pk_lin" fun l => findPk t l (if interpol = "poly" then .poly else .lin))).andThen
    (recompute fields "sigmad2" fun l => runningSigmad2 t l (Histo.lit (1 / 2)))

end Verif
