import Verif.Model.Python

/-!
# `SpectrumNoWiggle` of `pyregpt/pyregpt.py` and the class attributes it relies on
-/

namespace Verif

noncomputable section

/-- Arguments of `SpectrumNoWiggle.transfer` (`pyregpt/pyregpt.py:163`). -/
structure Cosmo where
  h : ℝ := 0.676
  omega_b : ℝ := 0.022
  omega_m : ℝ := 0.21
  T_cmb : ℝ := 2.7255
  Omega_m : Option ℝ := none
  Omega_b : Option ℝ := none

/-- `omega_m` after line 165 of `pyregpt/pyregpt.py`. -/
def Cosmo.om (c : Cosmo) : ℝ := match c.Omega_m with
  | none => c.omega_m
  | some v => v * c.h ^ 2

/-- `omega_b` after line 166 of `pyregpt/pyregpt.py`. -/
def Cosmo.ob (c : Cosmo) : ℝ := match c.Omega_b with
  | none => c.omega_b
  | some v => v * c.h ^ 2

/-- `gamma_eff` of `SpectrumNoWiggle.transfer` (`pyregpt/pyregpt.py:167-172`), one mode. -/
def Cosmo.gammaEff (c : Cosmo) (k : ℝ) : ℝ :=
  let omega_m := c.om
  let omega_b := c.ob
  let frac_baryon := omega_b / omega_m
  let sound_horizon := 44.5 * c.h * Real.log (9.83 / omega_m) / Real.sqrt (1 + 10 * omega_b ^ (0.75 : ℝ))
  let alpha_gamma := 1 - 0.328 * Real.log (431 * omega_m) * frac_baryon + 0.38 * Real.log (22.3 * omega_m) * frac_baryon ^ 2
  let ks := k * sound_horizon
  omega_m / c.h * (alpha_gamma + (1 - alpha_gamma) / (1 + (0.43 * ks) ^ 4))

/-- `SpectrumNoWiggle.transfer` (`pyregpt/pyregpt.py:163-176`), one mode. -/
def Cosmo.transfer (c : Cosmo) (k : ℝ) : ℝ :=
  let theta_cmb := c.T_cmb / 2.7
  let q := k * theta_cmb ^ 2 / c.gammaEff k
  let L0 := Real.log (2 * Real.exp 1 + 1.8 * q)
  let C0 := 14.2 + 731.0 / (1 + 62.5 * q)
  L0 / (L0 + C0 * q ^ 2)

/-- `SpectrumNoWiggle.run_terms` (`pyregpt/pyregpt.py:181-184`): the new column `pk`.  `pk` and `A` are the optional arguments;
`none` is the exception raised for an empty `k`, or for neither `pk` nor `A`, or for an empty `pk`. -/
def Cosmo.runNoWiggle (c : Cosmo) (n_s : ℝ) (pk : Option (List ℝ)) (A : Option ℝ) (k : List ℝ) : Option (List ℝ) :=
  let pknowiggle := k.map fun k => k ^ n_s * c.transfer k ^ 2
  match A with
  | some A => some (pknowiggle.map (A * ·))
  | none =>
    match pk with
    | none => none
    | some pk =>
      match pk.head?, pknowiggle.head? with
      | some p0, some w0 => some (pknowiggle.map (p0 / w0 * ·))
      | _, _ => none

end

/-- Classes of `pyregpt/pyregpt.py` with their base and the attributes their bodies define, as far as used by `Terms.zeros`
(`pyregpt/pyregpt.py:32-35`, `148-151`, `158-161`, `191-194`, `340-343`, `374-377`, `406-409`, `480-484`, `520`, `536-540`, `586`). -/
def classTable : List (String × Option String × List String) :=
  [("Terms", none, ["FIELDS", "SHAPE"]),
   ("SpectrumLin", some "Terms", ["FIELDS", "SCALE"]),
   ("SpectrumNoWiggle", some "SpectrumLin", ["FIELDS", "SCALE"]),
   ("PyRegPT", some "Terms", ["C_TYPE", "_path_lib"]),
   ("Spectrum1Loop", some "PyRegPT", ["FIELDS", "SCALE"]),
   ("Spectrum2Loop", some "Spectrum1Loop", ["FIELDS", "SCALE"]),
   ("Bias1Loop", some "PyRegPT", ["FIELDS", "SCALE"]),
   ("A1Loop", some "PyRegPT", ["FIELDS", "SCALE", "SHAPE"]),
   ("A2Loop", some "A1Loop", []),
   ("B1Loop", some "PyRegPT", ["FIELDS", "SCALE", "SHAPE"]),
   ("B2Loop", some "B1Loop", [])]

/-- Attribute lookup along the bases; the table is acyclic, its length bounds the number of steps. -/
def hasAttrIn : ℕ → String → String → Bool
  | 0, _, _ => false
  | n + 1, cls, attr => match classTable.lookup cls with
    | none => false
    | some (base, own) => own.contains attr || (match base with
      | none => false
      | some b => hasAttrIn n b attr)

/-- `hasattr(cls, attr)` for class attributes. -/
def hasAttr (cls attr : String) : Bool := hasAttrIn classTable.length cls attr

/-- Does `Terms.zeros` (`pyregpt/pyregpt.py:116-121`), called by `set_terms` (`pyregpt/pyregpt.py:178-179` for the no-wiggle
spectrum), complete for an object of the class?  For every field other than `k` it evaluates `self.C_TYPE`; a missing attribute
raises `AttributeError`. -/
def zerosCompletes (cls : String) (fields : List String) : Bool := fields.all fun f => f == "k" || hasAttr cls "C_TYPE"

end Verif
