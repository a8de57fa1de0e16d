import Verif.Model.CatalogueData
import Verif.Model.Chromatic
import Verif.Model.Components

/-! # The objects of the catalogues: `thorlabs.py`, `eo.py`, `olympus.py`, `nikon.py` -/

namespace RT
open PyNum Ext

/-- A radius, or an infinite one. -/
def radius : Option ℚ → Ext ℝ
  | none => pinf
  | some r => fin (r : ℝ)

/-- a number of a data sheet -/
def num (q : ℚ) : Ext ℝ := fin (q : ℝ)

/-- `Material.n(wavelength)` as a function of Python numbers. `nan` passes the check of the range. A complex index is not a number of the
model: the error stands for it, no theorem is about such wavelengths. -/
noncomputable def Glass.index (g : Glass) : Ext ℝ → Except PyErr (Ext ℝ)
  | fin x => match g.n x with
    | .ok (.real n) => .ok (fin n)
    | .ok .complex => .error .typeError
    | .error e => .error e
  | nan => match g.formula with
    | .air => .ok 1
    | _ => .ok nan
  | _ => .error .valueError

/-- A material by its name in the module, an error if there is none. -/
noncomputable def indexOf (name : String) (w : Ext ℝ) : Except PyErr (Ext ℝ) :=
  match classNamed name with
  | .ok g => g.index w
  | .error e => .error e

/-- The classes whose focal length is written as a Python `int` (`fa=150`, `fa=250`): `thorlabs.py:486`, `548`. All other focal lengths and back focal
lengths of `thorlabs.py` and `eo.py` are written with a decimal point. -/
def intFocals : List String := ["AC254_150_A", "AC254_250_A"]

/-- `cls(wavelength)`: the call of the base class, e.g. `thorlabs.py:29-33`. -/
noncomputable def CatLens.make [PyTrig (Ext ℝ)] (l : CatLens) (wavelength : Option (Ext ℝ)) : Except PyErr (GlassLens (Ext ℝ) × List LensWarn) :=
  if wavelength.isSome && !l.takesWavelength then .error .typeError else
  match l.data with
  | .singlet f fb R1 R2 tc te d mat wref =>
    mkSinglet (num f) (num fb) (radius R1) (radius R2) (num tc) (num te) none (num d) (some (indexOf mat)) (some (num wref)) l.label wavelength
  | .doublet fa fb R1 R2 R3 tc1 tc2 te d (.given n1 n2) =>
    mkDoublet (num fa) (num fb) (radius R1) (radius R2) (radius R3) (num tc1) (num tc2) (num te) (num d) (some (num n1)) (some (num n2)) none
      none none l.label wavelength
  | .doublet fa fb R1 R2 R3 tc1 tc2 te d (.glasses mat1 mat2 wref) =>
    mkDoublet (num fa) (num fb) (radius R1) (radius R2) (radius R3) (num tc1) (num tc2) (num te) (num d) none none (some (indexOf mat1))
      (some (indexOf mat2)) (some (num wref)) l.label wavelength (intFocals.contains l.name)

/-- What `focalShifts` sees of an object of the class. -/
noncomputable def CatLens.cls [PyTrig (Ext ℝ)] (l : CatLens) : LensClass (Ext ℝ) :=
  ⟨some (num l.design), l.takesWavelength, fun w => (l.make w).map fun r => r.1.group⟩

/-- The arguments of an objective of the catalogues. -/
structure CatObjective where
  name : String
  f : ℚ
  NA : ℚ
  focusToFocusLength : ℚ
  backAperture : ℚ
  workingDistance : ℚ
  magnification : Option ℚ
  fieldNumber : Option ℚ
  label : String

/-- `olympus.py:3-202`, `nikon.py:3-26`. -/
def objectives : List CatObjective := [
  -- `olympus.py:26-34`
  ⟨"LUMPlanFL40X", 180 / 40, 0.8, 40, 7, 2, some 40, some 26.5, "LUMPlanFL40X"⟩,
  -- `olympus.py:98-106`
  ⟨"XLUMPlanFLN20X", 180 / 20, 1.0, 80, 22, 2, some 20, some 22, "XLUMPlanFLN20X"⟩,
  -- `olympus.py:129-137`
  ⟨"MVPlapo2XC", 90 / 2, 0.5, 137, 45, 20, some 2, some 17.6, "MVPlapo2XC"⟩,
  -- `olympus.py:161-170`
  ⟨"UMPLFN20XW", 180 / 20, 0.5, 45, 9, 3.5, some 20, some 26.5, "UMPLFN20XW"⟩,
  -- `olympus.py:194-202`
  ⟨"XLPLN25X", 180 / 25, 1.05, 75, 18, 2, some 25, some 18, "XLPLN25X"⟩,
  -- `nikon.py:19-26`
  ⟨"LWD16X", 200 / 16, 1.95 * 0.8, 75, 20, 3, none, none, "CFI75 LWD 16x W"⟩]

/-- `cls()`. -/
noncomputable def CatObjective.make (o : CatObjective) : Except PyErr (Group (Ext ℝ)) :=
  mkObjective (num o.f) (num o.NA) (num o.focusToFocusLength) (num o.backAperture) (num o.workingDistance) o.label

end RT
