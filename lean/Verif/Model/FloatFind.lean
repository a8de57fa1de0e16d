import Verif.Model.FloatIndex

/-! # The search of materials by index, operation by operation: `materials.py:114-123` -/

namespace RT
open PyNum

section
variable {F : Type} [PyNum F] [PyPow F]

/-- The loop of `findByIndex` on any numbers: a match is the name, the index and the Abbe number. A complex index is not a number of the model: the
error stands for it, no theorem is about such wavelengths (see `findLoop` for the exact search, with complex indices). -/
def findLoopF (n wavelength tolerance : F) : List String → Except PyErr (List (String × F × ℚ))
  | [] => .ok []
  | name :: names =>
    match classNamed name with
    | .error e => .error e
    | .ok g =>
      match g.nF wavelength with
      | .error e => .error e
      | .ok .complex => .error .typeError
      | .ok (.real nmat) =>
        match findLoopF n wavelength tolerance names with
        | .error e => .error e
        | .ok rest => .ok (if PyNum.abs (n - nmat) <. tolerance then (name, nmat, g.abbe) :: rest else rest)

/-- `materials.py:114-123` `findByIndex(n, wavelength, tolerance)`. `live` is what `cls.all()` returns. -/
def findByIndexF (live : List String) (n wavelength tolerance : F) : Except PyErr (List (String × F × ℚ)) :=
  findLoopF n wavelength tolerance live
end

end RT
