import Verif.Model.Lenses
import Verif.Model.Rays
import Verif.Model.Materials

/-! # Chromatic aberration and the search of materials by index: `specialtylenses.py:57-79`, `materials.py:114-123` -/

namespace RT
open PyNum
variable {F : Type} [PyNum F]

/-! ## Focal shifts -/

/-- The argument `wavelengths`: a numpy array or a Python list. -/
inductive Waves (F : Type) where
  | array (xs : List F)
  | list (xs : List F)
  deriving DecidableEq, Repr

/-- iteration -/
def Waves.values : Waves F → List F
  | .array xs => xs
  | .list xs => xs

/-- `wavelengths * 1000`: the product of each for an array, repetitions for a list. -/
def Waves.thousand : Waves F → List F
  | .array xs => xs.map (· * lit 1000)
  | .list xs => (List.replicate 1000 xs).flatten

/-- A lens as `focalShifts` sees it: its `designFocalLength`, whether its class accepts `type(self)(wavelength=l)` (the lenses of
`thorlabs.py` do; those of `eo.py` take no argument; `CompoundLens`, `SingletLens`, `AchromatDoubletLens` themselves need others), and the
lens the class makes. -/
structure LensClass (F : Type) where
  design : Option F
  takesWavelength : Bool
  make : Option F → Except PyErr (Group F)

/-- `specialtylenses.py:73-77`: the loop. `f,f = ...` keeps the second. -/
def shiftsLoop (c : LensClass F) (f0 : F) : List F → Except PyErr (List F)
  | [] => pure []
  | l :: ls => do
    if !c.takesWavelength then throw .typeError
    let lens ← c.make (some l)
    let f ← lens.mat.effectiveFocalLengths
    let rest ← shiftsLoop c f0 ls
    pure ((f.2 - f0) :: rest)

/-- `specialtylenses.py:57-79` `focalShifts(wavelengths)`. `raise("...")` of a string is a `TypeError`. -/
def focalShifts (c : LensClass F) (ws : Option (Waves F)) : Except PyErr (List F × List F) := do
  match c.design with
  | none => throw .typeError
  | some f0 =>
    let ws ← match ws with
      | some ws => pure ws
      | none => (linspace (lit (2/5)) (lit (4/5)) 100).map Waves.array
    let shifts ← shiftsLoop c f0 ws.values
    pure (ws.thousand, shifts)

/-- A catalogue singlet, e.g. `thorlabs.py:1037-1043`. -/
def singletClass [PyTrig F] (f fb R1 R2 tc te : F) (n : Option F) (diameter : F) (mat : Option (F → Except PyErr F)) (wavelengthRef : Option F)
    (label : String) : LensClass F :=
  ⟨some f, true, fun w => (mkSinglet f fb R1 R2 tc te n diameter mat wavelengthRef label w).map fun l => l.1.group⟩

/-- A catalogue doublet, e.g. `thorlabs.py:16-24`. `faInt`: `fa` is written as a Python `int` (`thorlabs.py:486`). -/
def doubletClass [PyTrig F] (fa fb R1 R2 R3 tc1 tc2 te diameter : F) (n1 n2 : Option F) (mat1 mat2 : Option (F → Except PyErr F))
    (wavelengthRef : Option F) (label : String) (faInt : Bool := false) : LensClass F :=
  ⟨some fa, true, fun w => (mkDoublet fa fb R1 R2 R3 tc1 tc2 te diameter n1 n2 mat1 mat2 wavelengthRef label w faInt).map fun l => l.1.group⟩

/-! ## Materials by index -/

/-- `abs(n - nmat) < tolerance`, `nmat` being the square root of `s`: for a negative `s` it is imaginary, and `abs` is the modulus. -/
noncomputable def indexClose (n s tolerance : ℝ) : Prop :=
  if 0 ≤ s then |n - Real.sqrt s| < tolerance else Real.sqrt (n ^ 2 - s) < tolerance

open Classical in
/-- The loop of `findByIndex` over the names of classes; a match is the name, what is under the square root of the index, and the Abbe number. -/
noncomputable def findLoop (n wavelength tolerance : ℝ) : List String → Except PyErr (List (String × ℝ × ℚ))
  | [] => .ok []
  | name :: names =>
    match classNamed name with
    | .error e => .error e
    | .ok g =>
      match g.square wavelength with
      | .error e => .error e
      | .ok s =>
        match findLoop n wavelength tolerance names with
        | .error e => .error e
        | .ok rest => .ok (if indexClose n s tolerance then (name, s, g.abbe) :: rest else rest)

/-- `materials.py:114-123` `findByIndex(n, wavelength, tolerance)`. `live` is what `cls.all()` returns: all the names for `Material`, where
`E_BAF11` is twice if the first class of that name has not been collected; none for a material. -/
noncomputable def findByIndex (live : List String) (n wavelength tolerance : ℝ) : Except PyErr (List (String × ℝ × ℚ)) :=
  findLoop n wavelength tolerance live

end RT
