import Mathlib.Logic.Relation

/-!
# The classes of `pyregpt/pyregpt.py` and what their methods take from `self`

Written by `tools/attrs.py` from the text of `pyregpt/pyregpt.py`.
-/

namespace Verif

/-- The classes of `pyregpt/pyregpt.py`. -/
inductive PyCls
  | Terms | SpectrumLin | SpectrumNoWiggle | PyRegPT | Spectrum1Loop | Spectrum2Loop | Bias1Loop | A1Loop | A2Loop | B1Loop
  | B2Loop
  deriving DecidableEq

/-- The names of methods, class attributes, attributes of objects and columns in `pyregpt/pyregpt.py`. -/
inductive Attr
  | FIELDS | SHAPE | __init__ | fields | columns | __len__ | __getitem__ | k | size | __str__ | __setitem__ | __contains__
  | __iter__ | tolist | pop | as_dict | copy | deepcopy | pad_k | nan_to_zero | rescale | SCALE | zeros | C_TYPE | reshape
  | pk_interp | pk | sigmav | sigmar | sigma8 | transfer | set_terms | run_terms | _path_lib | set_verbosity | _verbose
  | nodes_weights_gauss_legendre | regpt | interpol_poly | interpol_lin | find_pk_lin | calc_running_sigmad2
  | set_spectrum_lin | set_pk_lin | set_precision | set_running_uvcutoff | spectrum_lin | clear | pk_lin | sigmad2
  | gamma1a_1loop | gamma1b_1loop | pk_gamma2_tree_tree | gamma1a_2loop | gamma1b_2loop | pk_gamma2_tree_1loop
  | pk_gamma2_1loop_1loop | pk_gamma3_tree | pk_b2d | pk_bs2d | pk_b2t | pk_bs2t | pk_b22 | pk_b2s2 | pk_bs22 | pk_sigma3sq
  | sigma3sq | pk_b22_damp | pk_b2s2_damp | pk_bs22_damp | shotnoise
  deriving DecidableEq

/-- What a method takes from `self`: `self.a`, `super(...).a`, or the column `self['a']`. -/
inductive Use
  | own (a : Attr)
  | sup (a : Attr)
  | col (a : Attr)
  deriving DecidableEq

namespace PyCls

/-- The base of a class (`pyregpt/pyregpt.py:32, 148, 158, 191, 340, 374, 406, 480, 520, 536, 586`). -/
def base : PyCls → Option PyCls
  | .Terms => none
  | .SpectrumLin => some .Terms
  | .SpectrumNoWiggle => some .SpectrumLin
  | .PyRegPT => some .Terms
  | .Spectrum1Loop => some .PyRegPT
  | .Spectrum2Loop => some .Spectrum1Loop
  | .Bias1Loop => some .PyRegPT
  | .A1Loop => some .PyRegPT
  | .A2Loop => some .A1Loop
  | .B1Loop => some .PyRegPT
  | .B2Loop => some .B1Loop

/-- What the body of a class defines, with what each method takes from `self` (`pyregpt/pyregpt.py`, lines at the classes).  For methods
wrapped by `scale_factor` or `damping_factor` (`pyregpt/pyregpt.py:12-29`) what the wrapper takes is included.  `self[...]`, `self[...] =`,
`len(self)`, loops over `self` and `self.__class__()` take the methods behind them.  What a method has itself assigned before, and
`__dict__`, are left out; all branches of a method are counted. -/
def body : PyCls → List (Attr × List Use)
  | .Terms =>  -- lines 32-145
    [(.FIELDS, []),
     (.SHAPE, []),
     (.__init__, [.sup .__init__]),
     (.fields, [.own .columns]),
     (.__len__, [.own .__getitem__, .col .k]),
     (.size, [.own .__len__]),
     (.__str__, []),
     (.__getitem__, [.own .fields, .own .columns, .own .__init__]),
     (.__setitem__, [.own .columns, .own .fields]),
     (.__contains__, [.own .columns]),
     (.__iter__, [.own .FIELDS, .own .fields]),
     (.tolist, [.own .__getitem__, .own .__iter__]),
     (.pop, [.own .columns]),
     (.as_dict, [.own .fields, .own .__getitem__]),
     (.copy, [.own .__init__]),
     (.deepcopy, [.own .__init__, .own .fields, .own .columns]),
     (.pad_k, [.own .k, .own .FIELDS, .own .__getitem__, .own .__setitem__, .col .k]),
     (.nan_to_zero, [.own .FIELDS, .own .__getitem__]),
     (.rescale, [.own .fields, .own .__getitem__, .own .__setitem__, .own .SCALE]),
     (.zeros, [.own .__setitem__, .own .FIELDS, .own .SHAPE, .own .size, .own .C_TYPE]),
     (.reshape, [.own .FIELDS, .own .SHAPE, .own .size, .own .__getitem__]),
     (.k, [.own .__getitem__, .col .k]),
     (.pk_interp, [.own .k, .own .pk]),
     (.sigmav, [.own .pk, .own .k]),
     (.sigmar, [.own .k, .own .pk]),
     (.sigma8, [.own .sigmar])]
  | .SpectrumLin =>  -- lines 148-155
    [(.FIELDS, []),
     (.SCALE, []),
     (.pk, [.own .__getitem__, .col .pk])]
  | .SpectrumNoWiggle =>  -- lines 158-188
    [(.FIELDS, []),
     (.SCALE, []),
     (.transfer, [.own .k]),
     (.set_terms, [.own .zeros]),
     (.run_terms, [.own .k, .own .transfer, .own .__setitem__]),
     (.pk, [.own .__getitem__, .col .pk])]
  | .PyRegPT =>  -- lines 191-337
    [(.C_TYPE, []),
     (._path_lib, []),
     (.__init__, [.sup .__init__, .own ._path_lib, .own .set_verbosity, .own ._verbose]),
     (.nodes_weights_gauss_legendre, [.own .C_TYPE, .own .regpt]),
     (.interpol_poly, [.own .C_TYPE, .own .regpt]),
     (.interpol_lin, [.own .C_TYPE, .own .regpt]),
     (.find_pk_lin, [.own .C_TYPE, .own .regpt]),
     (.calc_running_sigmad2, [.own .C_TYPE, .own .regpt]),
     (.set_verbosity, [.own .regpt]),
     (.set_spectrum_lin, [.own .C_TYPE, .own .regpt]),
     (.set_pk_lin, [.own .C_TYPE, .own .set_spectrum_lin]),
     (.set_precision, [.own .set_precision, .own .regpt, .own .C_TYPE]),
     (.set_running_uvcutoff, [.own .set_running_uvcutoff, .own .regpt, .own .C_TYPE]),
     (.deepcopy, [.sup .deepcopy, .own .spectrum_lin]),
     (.pad_k, [.sup .pad_k, .own .FIELDS, .own .find_pk_lin, .own .k, .own .__setitem__, .own .calc_running_sigmad2]),
     (.clear, [.own .set_precision, .own .set_running_uvcutoff, .own .set_verbosity])]
  | .Spectrum1Loop =>  -- lines 340-371
    [(.FIELDS, []),
     (.SCALE, []),
     (.set_terms, [.own .zeros, .own .C_TYPE, .own .size, .own .FIELDS, .own .regpt, .own .tolist]),
     (.run_terms, [.own .regpt]),
     (.pk_lin, [.own .__getitem__, .col .pk_lin]),
     (.pk, [.own .__getitem__, .col .k, .col .sigmad2, .col .gamma1a_1loop, .col .gamma1b_1loop, .col .pk_lin, .col .pk_gamma2_tree_tree])]
  | .Spectrum2Loop =>  -- lines 374-403
    [(.FIELDS, []),
     (.SCALE, []),
     (.set_terms, [.own .zeros, .own .C_TYPE, .own .size, .own .FIELDS, .own .regpt, .own .tolist]),
     (.run_terms, [.own .regpt]),
     (.pk, [.own .__getitem__, .col .k, .col .sigmad2, .col .gamma1a_1loop, .col .gamma1a_2loop, .col .gamma1b_1loop, .col .gamma1b_2loop, .col .pk_lin, .col .pk_gamma2_tree_tree, .col .pk_gamma2_tree_1loop, .col .pk_gamma2_1loop_1loop, .col .pk_gamma3_tree])]
  | .Bias1Loop =>  -- lines 406-477
    [(.FIELDS, []),
     (.SCALE, []),
     (.pk_lin, [.own .__getitem__, .col .pk_lin]),
     (.pk_b2d, [.own .__getitem__, .col .pk_b2d]),
     (.pk_bs2d, [.own .__getitem__, .col .pk_bs2d]),
     (.pk_b2t, [.own .__getitem__, .col .pk_b2t]),
     (.pk_bs2t, [.own .__getitem__, .col .pk_bs2t]),
     (.pk_b22, [.own .__getitem__, .col .pk_b22]),
     (.pk_b2s2, [.own .__getitem__, .col .pk_b2s2]),
     (.pk_bs22, [.own .__getitem__, .col .pk_bs22]),
     (.pk_sigma3sq, [.own .__getitem__, .col .pk_lin, .col .sigma3sq]),
     (.pk_b22_damp, [.own .__getitem__, .col .k, .col .sigmad2, .col .pk_b22]),
     (.pk_b2s2_damp, [.own .__getitem__, .col .k, .col .sigmad2, .col .pk_b2s2]),
     (.pk_bs22_damp, [.own .__getitem__, .col .k, .col .sigmad2, .col .pk_bs22]),
     (.set_terms, [.own .zeros, .own .C_TYPE, .own .size, .own .FIELDS, .own .regpt, .own .tolist]),
     (.run_terms, [.own .regpt]),
     (.shotnoise, [.own .k])]
  | .A1Loop =>  -- lines 480-517
    [(.FIELDS, []),
     (.SCALE, []),
     (.SHAPE, []),
     (.pk_lin, [.own .__getitem__, .col .pk_lin]),
     (.pk, [.own .__getitem__, .col .pk]),
     (.set_terms, [.own .zeros, .own .C_TYPE, .own .__getitem__, .own .FIELDS, .own .regpt, .own .size, .own .tolist]),
     (.run_terms, [.own .regpt, .own .reshape]),
     (.pk_interp, [.own .pk, .own .k])]
  | .A2Loop =>  -- lines 520-533
    [(.set_terms, [.own .zeros, .own .C_TYPE, .own .__getitem__, .own .FIELDS, .own .regpt, .own .size, .own .tolist, .own .reshape]),
     (.run_terms, [.own .regpt])]
  | .B1Loop =>  -- lines 536-583
    [(.FIELDS, []),
     (.SCALE, []),
     (.SHAPE, []),
     (.pk_lin, [.own .__getitem__, .col .pk_lin]),
     (.pk, [.own .__getitem__, .col .pk]),
     (.set_terms, [.own .zeros, .own .C_TYPE, .own .__getitem__, .own .FIELDS, .own .regpt, .own .size, .own .tolist, .own .reshape]),
     (.run_terms, [.own .C_TYPE, .own .spectrum_lin, .own .regpt]),
     (.pk_interp, [.own .pk, .own .__getitem__, .col .k])]
  | .B2Loop =>  -- lines 586-608
    [(.run_terms, [.own .spectrum_lin, .own .C_TYPE, .own .regpt])]

/-- The columns of the class, where its body gives them (`FIELDS`). -/
def fieldsHere : PyCls → Option (List Attr)
  | .Terms => some []
  | .SpectrumLin => some [.k, .pk]
  | .SpectrumNoWiggle => some [.k, .pk]
  | .Spectrum1Loop => some [.k, .pk_lin, .sigmad2, .gamma1a_1loop, .gamma1b_1loop, .pk_gamma2_tree_tree]
  | .Spectrum2Loop => some [.k, .pk_lin, .sigmad2, .gamma1a_1loop, .gamma1a_2loop, .gamma1b_1loop, .gamma1b_2loop, .pk_gamma2_tree_tree, .pk_gamma2_tree_1loop, .pk_gamma2_1loop_1loop, .pk_gamma3_tree]
  | .Bias1Loop => some [.k, .pk_lin, .sigmad2, .pk_b2d, .pk_bs2d, .pk_b2t, .pk_bs2t, .pk_b22, .pk_b2s2, .pk_bs22, .sigma3sq]
  | .A1Loop => some [.k, .pk_lin, .sigmad2, .pk]
  | .B1Loop => some [.k, .pk_lin, .sigmad2, .pk]
  | _ => none

end PyCls

end Verif
