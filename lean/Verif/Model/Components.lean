import Verif.Model.Group

/-! # Ready-made systems: `components.py`, `specialtylenses.py:340-445`, `matrix.py:207-214`, `1685-1710`, `axicon.py:55-78` -/

namespace RT
open PyNum
variable {F : Type} [PyNum F]

/-- `components.py:23-31` `System4f(f1, f2, diameter1, diameter2, label)`; `Telescope` (line 55) is another name for it. -/
def mkSystem4f (f1 f2 : F) (diameter1 : F := inf) (diameter2 : F := inf) (label : String := "") : Except PyErr (Group F) := do
  let s1 ← mkSpace f1
  let l1 ← mkLens f1 diameter1
  let s2 ← mkSpace f1
  let s3 ← mkSpace f2
  let l2 ← mkLens f2 diameter2
  let s4 ← mkSpace f2
  Group.new [.leaf s1, .leaf l1, .leaf s2, .leaf s3, .leaf l2, .leaf s4] label

/-- `components.py:48-53` `System2f(f, diameter, label)`. -/
def mkSystem2f (f : F) (diameter : F := inf) (label : String := "") : Except PyErr (Group F) := do
  let s1 ← mkSpace f
  let l ← mkLens f diameter
  let s2 ← mkSpace f
  Group.new [.leaf s1, .leaf l, .leaf s2] label

/-- `specialtylenses.py:362-406` `Objective(f, NA, focusToFocusLength, backAperture, workingDistance)`. The attributes
that only describe the objective (`magnification`, `fieldNumber`, `url`) are left out. The class of the object is
`Objective` from the beginning; no step of the constructor of the group depends on it. -/
def mkObjective (f NA focusToFocusLength backAperture workingDistance : F) (label : String := "") :
    Except PyErr (Group F) := do
  let frontAperture := 2 * (NA * workingDistance)
  let a1 ← mkAperture backAperture inf "backAperture"
  let s1 ← mkSpace f
  let m ← Mat.init { (Mat.one : Mat F) with A := 1, B := 0, C := 0, D := 1, L := focusToFocusLength - 2 * f }
  let l ← mkLens f
  let s2 ← mkSpace (f - workingDistance)
  let a2 ← mkAperture frontAperture inf "frontAperture"
  let s3 ← mkSpace workingDistance
  let g ← Group.new [.leaf a1, .leaf s1, .leaf m, .leaf l, .leaf s2, .leaf a2, .leaf s3] label
  pure { g with
    mat := { g.mat with frontVertex := some 0, backVertex := some (focusToFocusLength - workingDistance),
                        apertureDiameter := backAperture, kind := .objective } }

/-- `specialtylenses.py:408-413` `maximumOpticalInvariant()`; the three arguments are attributes of the objective. -/
def maximumOpticalInvariant (magnification fieldNumber : Option F) (NA : F) : Except PyErr F :=
  match magnification, fieldNumber with
  | some m, some fn => do
    let h ← pyDiv fn 2
    let q ← pyDiv h m
    pure (q * NA)
  | _, _ => .error .attributeError

/-- `matrix.py:1700-1710` `ToFocus(element)`. -/
def mkToFocus (m : Mat F) : Except PyErr (Mat F) := do
  match ← m.backFocalLength with
  | some d => mkSpace d
  | none => throw .valueError

/-- `matrix.py:1685-1698` `ToConjugate(element)`; `isfinite` is false for infinities and NaN. -/
def mkToConjugate (m : Mat F) : Except PyErr (Mat F) := do
  let c ← m.forwardConjugate
  if (-inf <. c.1) && (c.1 <. inf) then mkSpace c.1 else throw .valueError

/-- `matrix.py:207-214` `fromFocusToFocus()`. `Space(None)` is a `TypeError` (`float(None)`, `matrix.py:135`). -/
def Elem.fromFocusToFocus (e : Elem F) : Except PyErr (Group F) := do
  match ← e.mat.frontFocalLength with
  | none => throw .typeError
  | some ffl =>
    let s1 ← mkSpace ffl
    match ← e.mat.backFocalLength with
    | none => throw .typeError
    | some bfl =>
      let s2 ← mkSpace bfl
      Group.new [.leaf s1, e, .leaf s2]

/-- `axicon.py:55-78` `focalLineLength(yMax)` of an axicon of index `n`, angle `alpha`; `yMax=None` means half the
diameter. -/
def focalLineLength (m : Mat F) (n alpha : F) (yMax : Option F) : Except PyErr F := do
  let y := yMax.getD (half m.apertureDiameter)
  let q ← pyDiv (PyNum.abs y) (n - 1)
  pyDiv q alpha

end RT
