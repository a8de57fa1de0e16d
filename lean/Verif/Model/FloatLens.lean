import Verif.Model.Catalogue
import Verif.Model.FloatIndex

/-! # The lenses of the catalogues, operation by operation: `thorlabs.py`, `eo.py`

The same calls as in `Model/Catalogue.lean`, on any numbers: the numbers of the data sheets are literals, the indices are computed as in
`Model/FloatIndex.lean`. -/

namespace RT
open PyNum

section
variable {F : Type} [PyNum F]

/-- A radius, or `float("+inf")`. -/
def radiusF : Option ℚ → F
  | none => inf
  | some r => lit r

variable [PyPow F]

/-- `Material.n(wavelength)` as a function of numbers. A complex index is not a number of the model: the error stands for it, as in `Glass.index`. -/
def Glass.indexF (g : Glass) (w : F) : Except PyErr F :=
  match g.nF w with
  | .ok (.real n) => .ok n
  | .ok .complex => .error .typeError
  | .error e => .error e

/-- A material by its name in the module, an error if there is none. -/
def indexOfF (name : String) (w : F) : Except PyErr F :=
  match classNamed name with
  | .ok g => g.indexF w
  | .error e => .error e

/-- `cls(wavelength)`: the call of the base class, e.g. `thorlabs.py:29-33`. -/
def CatLens.makeF [PyTrig F] (l : CatLens) (wavelength : Option F) : Except PyErr (GlassLens F × List LensWarn) :=
  if wavelength.isSome && !l.takesWavelength then .error .typeError else
  match l.data with
  | .singlet f fb R1 R2 tc te d mat wref =>
    mkSinglet (lit f) (lit fb) (radiusF R1) (radiusF R2) (lit tc) (lit te) none (lit d) (some (indexOfF mat)) (some (lit wref)) l.label wavelength
  | .doublet fa fb R1 R2 R3 tc1 tc2 te d (.given n1 n2) =>
    mkDoublet (lit fa) (lit fb) (radiusF R1) (radiusF R2) (radiusF R3) (lit tc1) (lit tc2) (lit te) (lit d) (some (lit n1)) (some (lit n2)) none
      none none l.label wavelength
  | .doublet fa fb R1 R2 R3 tc1 tc2 te d (.glasses mat1 mat2 wref) =>
    mkDoublet (lit fa) (lit fb) (radiusF R1) (radiusF R2) (radiusF R3) (lit tc1) (lit tc2) (lit te) (lit d) none none (some (indexOfF mat1))
      (some (indexOfF mat2)) (some (lit wref)) l.label wavelength (intFocals.contains l.name)

/-- What `focalShifts` (`specialtylenses.py:57-79`) sees of an object of the class. -/
def CatLens.clsF [PyTrig F] (l : CatLens) : LensClass F :=
  ⟨some (lit l.design), l.takesWavelength, fun w => (l.makeF w).map fun r => r.1.group⟩
end

end RT
