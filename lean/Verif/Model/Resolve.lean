import Mathlib.Data.Nat.Notation
import Verif.Model.Attributes

/-!
# How Python finds the attributes that a method uses

Attribute lookup of CPython as far as `pyregpt/pyregpt.py` needs it: attributes of the object, then the class and its bases in turn (all
classes have one base).  `object` is left out except for its `__init__`.
-/

namespace Verif

namespace PyCls

/-- The class and its bases, nearest first, ending before `object`; no chain of bases in `pyregpt/pyregpt.py:32-608` has more than four. -/
def mro : ℕ → Option PyCls → List PyCls
  | 0, _ => []
  | _, none => []
  | n + 1, some c => c :: mro n c.base

/-- The class whose body defines `a`, looking from `start` along the bases, and what the definition takes from `self`. -/
def find (start : Option PyCls) (a : Attr) : Option (PyCls × List Use) :=
  (mro 11 start).findSome? fun d => (d.body.lookup a).map fun us => (d, us)

/-- `self.FIELDS`. -/
def fields (c : PyCls) : List Attr := ((mro 11 (some c)).findSome? fieldsHere).getD []

end PyCls

/-- Something that running a method asks for: an attribute looked up from a class, or a column. -/
inductive Node
  | attr (start : Option PyCls) (a : Attr)
  | col (a : Attr)
  deriving DecidableEq

/-- An object: its class and the names of the attributes it holds itself. -/
structure PyObj where
  cls : PyCls
  attrs : List Attr
  deriving DecidableEq

namespace PyObj

/-- What the definition behind a node asks for in turn; `super(C, self)` looks from the base of the class `C` of the definition. -/
def asks (o : PyObj) : Node → List Node
  | .col _ => []
  | .attr start a => match PyCls.find start a with
    | none => []
    | some (d, us) => us.map fun u => match u with
      | .own b => .attr (some o.cls) b
      | .sup b => .attr d.base b
      | .col b => .col b

/-- Is it there?  Columns are those of the class, as after `set_terms`. -/
def has (o : PyObj) : Node → Bool
  | .col a => o.cls.fields.contains a
  | .attr none a => a == .__init__
  | .attr (some c) a => o.attrs.contains a || (PyCls.find (some c) a).isSome

/-- Is the class bound to the library? -/
def bound (c : PyCls) : Bool := (PyCls.mro 11 (some c)).contains .PyRegPT

/-- A new object (`Terms.__init__`, `pyregpt/pyregpt.py:37-39`, and `PyRegPT.__init__` with `set_verbosity`, `pyregpt/pyregpt.py:196-200`,
`246-249`). -/
def new (c : PyCls) : PyObj := ⟨c, .columns :: if bound c then [.regpt, ._verbose] else []⟩

/-- After `set_spectrum_lin` or `set_pk_lin` (`pyregpt/pyregpt.py:252-264`). -/
def withSpectrum (o : PyObj) : PyObj := { o with attrs := .spectrum_lin :: o.attrs }

/-- `self[index]` (`pyregpt/pyregpt.py:61-62`): a new object of the class, with the columns selected. -/
def select (o : PyObj) : PyObj := new o.cls

/-- `self.copy()` (`pyregpt/pyregpt.py:88-91`): a new object, then all attributes. -/
def copy (o : PyObj) : PyObj := { new o.cls with attrs := o.attrs ++ (new o.cls).attrs }

/-- `self.deepcopy()` (`pyregpt/pyregpt.py:93-97`, `320-323`): a new object with copies of the columns; the classes bound to the library
also copy the spectrum, which is an `AttributeError` if there is none. -/
def deepcopy (o : PyObj) : Except String PyObj :=
  if bound o.cls then
    if o.attrs.contains .spectrum_lin then .ok (new o.cls).withSpectrum else .error "AttributeError"
  else .ok (new o.cls)

end PyObj

end Verif
