import Verif.Model.Figure
import Verif.Model.Graphics

/-! # Model of the fan angle that `ImagingPath.display` computes

`imagingpath.py:993-998` and `1056-1058`: `np.tan(self.figure.displayRange / 2 / self.L / 5)`, with `figure.py:341-359`. The half heights of the graphics of the
elements are a parameter, as in `Model/Images.lean`. -/

namespace RT
open PyNum
variable {F : Type} [PyNum F]

/-- `figure.py:352-357`, with whether the range is still the half height of a graphic, that is a number of numpy (`graphics.py:64`). -/
def imagesRangeNumpy (objectHeight length : F) : List (F × F) → F × Bool → F × Bool
  | [], r => r
  | (p, m) :: ps, r =>
    if (0 ≤. p) && (p ≤. length) then
      imagesRangeNumpy objectHeight length ps (if r.1 <. objectHeight * PyNum.abs m then (objectHeight * PyNum.abs m, false) else r)
    else imagesRangeNumpy objectHeight length ps r

/-- `figure.py:341-359` `imagingDisplayRange`, and whether it is a number of numpy: it is when the graphic of an element gives it. The height of the object and the magnifications
are Python numbers. -/
def Group.rangeNumpy (g : Group F) (halfHeights : List F) (objectHeight : F) : Except PyErr (F × Bool) :=
  let r := largestGraphic halfHeights 0
  let r := if (r ==. inf) || (r ≤. objectHeight) then (objectHeight, false) else (r, 0 <. r)
  match g.intermediateConjugates with
  | .error x => .error x
  | .ok planes => .ok (imagesRangeNumpy objectHeight g.mat.L planes r)

/-- `x / L` where `x` may be a number of numpy, which gives an infinite number for `L = 0` instead of raising; `x` is positive then. -/
def divideBy (numpy : Bool) (x L : F) : Except PyErr F := if numpy && (L ==. 0) then .ok inf else pyDiv x L

/-- `imagingpath.py:996`, `1057` `np.tan(self.figure.displayRange / 2 / self.L / 5)`. `np.tan` of an infinite number is `nan`. -/
def Group.defaultFan [PyTrig F] (g : Group F) (halfHeights : List F) (objectHeight : F) : Except PyErr F := do
  let r ← g.rangeNumpy halfHeights objectHeight
  let q ← divideBy r.2 (half r.1) g.mat.L
  pure (PyTrig.tan (PyNum.rawDiv q 5))

/-- `imagingpath.py:994-996` the angle of the default object: computed when none is set and no object is given. -/
def Shower.objectFan [PyTrig F] (halfHeights : List F) (s : Shower F) (l : List (Source F)) : Except PyErr F :=
  if hasObject l then .ok 0 else
    match s.fanAngle with
    | some a => .ok a
    | none => s.ip.path.defaultFan halfHeights s.ip.objectHeight

/-- `imagingpath.py:952-1008` `display(...)` with the angle that is computed. `halfHeights` are those of the graphics of the elements at that moment (nothing is drawn yet). -/
def Shower.displayFan [PyTrig F] (halfHeights : List F) (fuel : Nat) (s : Shower F) (rays : Option (Source F) := none)
    (raysList : Option (List (Source F)) := none) (removeBlocked : Bool := true)
    (onlyPrincipalAndAxialRays limitObjectToFieldOfView : Option Bool := none) :
    Prog F (Shown F × Shower F × List (Source F)) := do
  let u := displayArgs removeBlocked onlyPrincipalAndAxialRays limitObjectToFieldOfView
  let s0 : Shower F := { s with figure := s.figure.update u }
  let s1 ← s0.applyLimit fuel
  let s2 ← s1.applyOnly fuel
  let fan ← Prog.lift (s2.objectFan halfHeights (givenSources rays raysList))
  pure (s2.finish (fun _ => fan) (givenSources rays raysList))

/-- `imagingpath.py:1055-1062` `displayWithObject(...)` with the angle that is computed from the height just set, before anything is limited. -/
def Shower.displayWithObjectFan [PyTrig F] (halfHeights : List F) (fuel : Nat) (s : Shower F) (diameter : F) (fanAngle : Option F := none)
    (fanNumber rayNumber : Nat := 3) (removeBlocked : Bool := true) : Prog F (Shown F × Shower F × List (Source F)) := do
  let s1 : Shower F := { s with ip := { s.ip with objectHeight := diameter } }
  let fan ← Prog.lift (match fanAngle with
    | some a => .ok a
    | none => s1.ip.path.defaultFan halfHeights diameter)
  s1.displayFan halfHeights fuel (some (Source.object diameter fan 0 fanNumber rayNumber)) none removeBlocked (some false) (some false)

end RT
