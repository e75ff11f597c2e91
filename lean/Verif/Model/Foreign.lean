import Verif.Model.Container

/-!
# Calls of the C library through ctypes

Types as in the default build: `histo_t` is `double` (`src/define.h:11-15`), `size_t` has 64 bits (LP64), enumerations are a C type of
their own.  The functions behind `set_precision` are in `Model/Settings.lean`.
-/

namespace Verif

/-- Types of parameters and results in the prototypes that Python calls. -/
inductive CTy
  | double | size | str | dbls | enum | void
  deriving DecidableEq

/-- The prototypes in `src`: name, parameters, result.  `src/common.c:112`, `117`, `207`, `212`, `268`, `src/regpt.c:25`, `71`,
`src/spectrum_1loop.c:22`, `40`, `66`, `src/spectrum_2loop.c:21`, `39`, `61`, `src/spectrum_bias_1loop.c:55`, `61`, `82`,
`src/bispectrum_1loop.c:68`, `src/spectrum_A_1loop.c:29`, `43`, `src/spectrum_A_2loop.c:27`, `41`, `src/spectrum_B.c:24`, `43`, `57`,
`100`. -/
def prototypes : List (String × List CTy × CTy) :=
  [("interpol_lin", [.double, .double, .double, .double, .double], .double),
   ("interpol_poly", [.double, .dbls, .dbls, .size], .double),
   ("find_pk_lin", [.dbls, .dbls, .size, .enum], .void),
   ("calc_running_sigmad2", [.dbls, .dbls, .size, .double], .void),
   ("nodes_weights_gauss_legendre", [.double, .double, .dbls, .dbls, .size], .void),
   ("set_verbosity", [.str], .void),
   ("set_pk_lin", [.dbls, .dbls, .size], .void),
   ("set_running_uvcutoff_spectrum_1loop", [.double], .void),
   ("set_terms_spectrum_1loop", [.size, .dbls, .dbls, .dbls, .dbls, .dbls, .dbls], .void),
   ("run_terms_spectrum_1loop", [.str, .str, .size], .void),
   ("set_running_uvcutoff_spectrum_2loop", [.double], .void),
   ("set_terms_spectrum_2loop", [.size, .dbls, .dbls, .dbls, .dbls, .dbls, .dbls, .dbls, .dbls, .dbls, .dbls, .dbls], .void),
   ("run_terms_spectrum_2loop", [.str, .str, .size], .void),
   ("set_running_uvcutoff_bias_1loop", [.double], .void),
   ("set_terms_bias_1loop", [.size, .dbls, .dbls, .dbls, .dbls, .dbls, .dbls, .dbls, .dbls, .dbls, .dbls, .dbls], .void),
   ("run_terms_bias_1loop", [.size], .void),
   ("set_running_uvcutoff_bispectrum_1loop", [.double], .void),
   ("set_terms_A_1loop", [.size, .dbls, .dbls, .dbls, .dbls], .void),
   ("run_terms_A_1loop", [.size], .void),
   ("set_terms_A_2loop", [.size, .dbls, .dbls, .dbls, .dbls], .void),
   ("run_terms_A_2loop", [.size], .void),
   ("set_running_uvcutoff_B", [.double], .void),
   ("set_terms_B", [.size, .dbls, .dbls, .dbls, .dbls], .void),
   ("set_spectra_B", [.str, .str, .size, .dbls, .dbls], .void),
   ("run_terms_B", [.size], .void)]

/-- The entries of `argtypes` that occur in `pyregpt/pyregpt.py`: `self.C_TYPE`, `ctypes.c_size_t`, `ctypes.c_char_p` and
`ctypeslib.ndpointer(dtype=self.C_TYPE, shape=(n,))`. -/
inductive ArgTy
  | cDouble | cSize | cChar | nd (n : ℕ)
  deriving DecidableEq

/-- Python values as far as the conversion looks at them. -/
inductive PyVal
  | float
  | int (z : ℤ)
  | bytes
  | array (double : Bool) (shape : List ℕ)

/-- What C gets: for integers the value, for arrays the number of elements behind the address. -/
inductive CArg
  | double
  | size (n : ℕ)
  | int (z : ℤ)
  | str
  | dbls (n : ℕ)
  deriving DecidableEq

/-- The C type of an argument; a Python integer without declared type is passed as `int`, which is not the type of any parameter. -/
def CArg.ty : CArg → Option CTy
  | .double => some .double
  | .size _ => some .size
  | .int _ => none
  | .str => some .str
  | .dbls _ => some .dbls

/-- `from_param` (CPython `_ctypes`, `numpy/ctypeslib`): integers are also taken for a `double`; an integer for a `size_t` is taken modulo
`2^64` without test; arrays are tested for type and shape. -/
def ArgTy.convert : ArgTy → PyVal → Except String CArg
  | .cDouble, .float => .ok .double
  | .cDouble, .int _ => .ok .double
  | .cSize, .int z => .ok (.size (z % 2 ^ 64).toNat)
  | .cChar, .bytes => .ok .str
  | .nd n, .array true shape => if shape = [n] then .ok (.dbls n) else .error "ArgumentError"
  | _, _ => .error "ArgumentError"

/-- Arguments beyond `argtypes` (CPython `_ctypes`, `ConvParam`). -/
def PyVal.extra : PyVal → Except String CArg
  | .int z => .ok (.int z)
  | .bytes => .ok .str
  | _ => .error "ArgumentError"

/-- The conversion of an argument list (CPython `_ctypes`, `_build_callargs` and `_ctypes_callproc`). -/
def convertAll : List ArgTy → List PyVal → Except String (List CArg)
  | [], l => l.mapM PyVal.extra
  | _ :: _, [] => .error "TypeError"
  | t :: ts, v :: vs => do
      let a ← t.convert v
      let as ← convertAll ts vs
      .ok (a :: as)

/-- A call of the library: the name, `argtypes`, `restype` (`void` where none is set: what C returns is not looked at) and the
arguments. -/
structure FCall where
  name : String
  argtypes : List ArgTy
  restype : CTy
  args : List PyVal

/-- The shape of an array. -/
def NArr.shape {α : Type} : NArr α → List ℕ
  | .num _ => []
  | .vec l => [l.length]
  | .mat w rows => [rows.length, w]

namespace FCall

/-- `nodes_weights_gauss_legendre` (`pyregpt/pyregpt.py:202-210`). -/
def nodes (nx : ℕ) : FCall :=
  ⟨"nodes_weights_gauss_legendre", [.cDouble, .cDouble, .nd nx, .nd nx, .cSize], .void,
    [.float, .float, .array true [nx], .array true [nx], .int nx]⟩

/-- `interpol_poly` (`pyregpt/pyregpt.py:212-219`) for two arrays of the user. -/
def poly (double double' : Bool) (nx nx' : ℕ) : FCall :=
  ⟨"interpol_poly", [.cDouble, .nd nx, .nd nx, .cSize], .double, [.float, .array double [nx], .array double' [nx'], .int nx]⟩

/-- `interpol_lin` (`pyregpt/pyregpt.py:221-225`). -/
def lin : FCall :=
  ⟨"interpol_lin", [.cDouble, .cDouble, .cDouble, .cDouble, .cDouble], .double, [.float, .float, .float, .float, .float]⟩

/-- `find_pk_lin` (`pyregpt/pyregpt.py:227-235`), where `k` is flattened and `pk` has its length. -/
def findPkLin (n : ℕ) (interpol : String) : FCall :=
  ⟨"find_pk_lin", [.nd n, .nd n, .cSize, .cSize], .void,
    [.array true [n], .array true [n], .int n, .int (if interpol = "poly" then 1 else 0)]⟩

/-- `calc_running_sigmad2` (`pyregpt/pyregpt.py:237-245`). -/
def sigmad2 (n : ℕ) : FCall :=
  ⟨"calc_running_sigmad2", [.nd n, .nd n, .cSize, .cDouble], .void, [.array true [n], .array true [n], .int n, .float]⟩

/-- `set_verbosity` (`pyregpt/pyregpt.py:247-250`). -/
def verbosity : FCall := ⟨"set_verbosity", [.cChar], .void, [.bytes]⟩

/-- `set_spectrum_lin` (`pyregpt/pyregpt.py:252-257`) with columns of the given types and lengths. -/
def setSpectrum (double double' : Bool) (n n' : ℕ) : FCall :=
  ⟨"set_pk_lin", [.nd n, .nd n, .cSize], .void, [.array double [n], .array double' [n'], .int n]⟩

/-- `set_running_uvcutoff` (`pyregpt/pyregpt.py:313-321`) for one name. -/
def uvcutoff (calculation : String) : FCall := ⟨"set_running_uvcutoff_" ++ calculation, [.cDouble], .void, [.float]⟩

/-- `argtypes` after the first entry in `set_terms` (`pyregpt/pyregpt.py:348-349`, `382-383`, `462-463`; with `perKey` the arrays may have
different lengths, `497-498`, `525-526`, `553-554`). -/
def termTypes {α : Type} (perKey : Bool) (t : Box α) (n : ℕ) : Except String (List ArgTy) :=
  if perKey then t.cls.fields.mapM fun key => (t.get key).map fun a => .nd a.flat.length
  else .ok (List.replicate t.cls.fields.length (.nd n))

/-- The call in `set_terms` for the columns after `zeros` (`pyregpt/pyregpt.py:345-350`, `379-384`, `459-464`, `494-499`, `522-527`,
`550-555`). -/
def setTerms {α : Type} (name : String) (perKey : Bool) (t : Box α) : Except String FCall := do
  let n ← t.size
  let types ← termTypes perKey t n
  let l ← t.tolist
  .ok ⟨name, .cSize :: types, .void, .int n :: l.map fun a => .array true a.shape⟩

/-- `run_terms` of `Spectrum1Loop` and `Spectrum2Loop` (`pyregpt/pyregpt.py:352-355`, `386-389`). -/
def runSpectrum (name : String) (nthreads : ℤ) : FCall := ⟨name, [.cChar, .cChar, .cSize], .void, [.bytes, .bytes, .int nthreads]⟩

/-- The last call in `run_terms` of the other classes (`pyregpt/pyregpt.py:466-469`, `501-505`, `530-533`, `564-565`, `607-608`). -/
def run (name : String) (nthreads : ℤ) : FCall := ⟨name, [.cSize], .void, [.int nthreads]⟩

/-- `set_spectra_B` in `run_terms` of `B1Loop` and `B2Loop` (`pyregpt/pyregpt.py:558-563`, `598-605`), for a spectrum of `n` modes and an
array of `n'` values. -/
def spectraB (n n' : ℕ) : FCall :=
  ⟨"set_spectra_B", [.cChar, .cChar, .cSize, .nd n, .nd n], .void, [.bytes, .bytes, .int n, .array true [n], .array true [n']]⟩

end FCall

end Verif
