import Verif.Model.Common

/-!
# Global settings of the library

The file-scope variables of the C sources that hold settings.  Each has one owner file and one setter.
-/

namespace Verif

/-- The sixteen `static Precision` variables.  `src/gamma1_1loop.c:10`, `src/gamma1_2loop.c:10`,
`src/calc_pkcorr_from_gamma2.c:12,14`, `src/gamma2d_1loop.c:1895`, `src/gamma2t_1loop.c:1872`, `src/calc_pkcorr_from_gamma3.c:11`,
`src/calc_pkcorr_from_bias_1loop.c:12,14`, `src/calc_pkcorr_from_A_1loop.c:14,16`, `src/calc_pkcorr_from_A_2loop_I.c:17,19`,
`src/calc_pkcorr_from_A_2loop_II_III.c:21`, `src/calc_pkcorr_from_B.c:18,20`. -/
inductive PName
  | gamma1_1loop_q | gamma1_2loop_q | gamma2_tree_q | gamma2_tree_mu | gamma2d_1loop_q | gamma2t_1loop_q | gamma3_tree_q
  | bias_1loop_q | bias_1loop_mu | A_1loop_q | A_1loop_mu | A_2loop_I_q | A_2loop_I_mu | A_2loop_II_III_q | B_q | B_mu
deriving DecidableEq, Repr

/-- The owners of a `static INTERPOL interpol_pk_lin` and a `static histo_t uvcutoff` that have a setter:
`src/spectrum_1loop.c:12-13`, `src/spectrum_2loop.c:12-13`, `src/spectrum_bias_1loop.c:13-14`, `src/bispectrum_1loop.c:11-12`,
`src/spectrum_A_1loop.c:15-16`, `src/spectrum_A_2loop.c:13-14`, `src/spectrum_B.c:13-14`.  The copies in
`src/calc_pkcorr_from_A_2loop_II_III.c:22-23` are refreshed from those of `bispectrum_1loop.c` before each use (lines 39-40). -/
inductive IName
  | spectrum_1loop | spectrum_2loop | bias_1loop | bispectrum_1loop | A_1loop | A_2loop | B
deriving DecidableEq, Repr

/-- The settings. -/
structure Cfg (α : Type) where
  prec : PName → Precision α
  interp : IName → Interpol
  uv : IName → α

variable {α : Type} [Histo α]

open Histo (lit)

/-- The `static const Precision ..._default` values, same lines as `PName` (the line before each). -/
def defaultPrec : PName → Precision α
  | .gamma1_1loop_q => ⟨600, lit (1 / 2000), lit 10, .poly⟩
  | .gamma1_2loop_q => ⟨500, lit (1 / 2000), lit 10, .poly⟩
  | .gamma2_tree_q => ⟨200, lit (1 / 2000), lit 10, .poly⟩
  | .gamma2_tree_mu => ⟨10, lit (-1), lit 1, .poly⟩
  | .gamma2d_1loop_q => ⟨100, lit (1 / 2000), lit 10, .poly⟩
  | .gamma2t_1loop_q => ⟨100, lit (1 / 2000), lit 10, .poly⟩
  | .gamma3_tree_q => ⟨0, lit (1 / 2000), lit 10, .poly⟩
  | .bias_1loop_q => ⟨2000, lit (-1), lit (-1), .poly⟩
  | .bias_1loop_mu => ⟨20, lit (-1), lit 1, .poly⟩
  | .A_1loop_q => ⟨2000, lit (-1), lit (-1), .poly⟩
  | .A_1loop_mu => ⟨20, lit (-1), lit 1, .poly⟩
  | .A_2loop_I_q => ⟨300, lit (1 / 2000), lit 10, .poly⟩
  | .A_2loop_I_mu => ⟨10, lit (-1), lit 1, .poly⟩
  | .A_2loop_II_III_q => ⟨0, lit (1 / 2000), lit 10, .poly⟩
  | .B_q => ⟨600, lit (1 / 2000), lit 10, .poly⟩
  | .B_mu => ⟨10, lit (-1), lit 1, .poly⟩

/-- The settings at load time: every variable is initialised with its default (`PName`, `IName`). -/
def Cfg.default : Cfg α := ⟨defaultPrec, fun _ => .poly, fun _ => lit (1 / 2)⟩

end Verif
