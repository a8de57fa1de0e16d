import Verif.Model.Figure

/-! # Model of what a figure adds to the rays: objects and their images, the vertical range, the marks on the axis

`figure.py:205-220`, `242-258`, `268-312`, `341-374`, and the `pointsOfInterest` of the elements. A graphic is reduced to its diameter and
its position. -/

namespace RT
open PyNum
variable {F : Type} [PyNum F]

/-! ## Objects and images -/

/-- `figure.py:250-251` `backConjugate[0] *= -1`. -/
def mirrorPlanes (planes : List (F × F)) : List (F × F) := planes.map fun p => (p.1 * (-1), p.2)

/-- `figure.py:245-254` the planes, relative to the object. -/
def Group.planesFrom (g : Group F) (x : F) : Except PyErr (List (F × F)) :=
  if x !=. 0 then do
    let s ← g.subPath x
    let planes ← s.intermediateConjugates
    let b ← g.subPath x true
    let back ← b.intermediateConjugates
    pure (planes ++ mirrorPlanes back)
  else g.intermediateConjugates

/-- `figure.py:242-258` `graphicsOfConjugatePlanes(objectDiameter, x=x)`: the diameters and positions of the images. -/
def Group.conjugateGraphics (g : Group F) (objectDiameter x : F) : Except PyErr (List (F × F)) := do
  let planes ← g.planesFrom x
  pure (planes.map fun p => (p.2 * objectDiameter, p.1 + x))

/-- `figure.py:208` the key of the group of an object: `none` is `"Object/Image"`, otherwise the formatted position
(`"Object/Image (z={0:.1f})"`; `fmt` is the formatting). -/
def objectKey (fmt : F → String) (z : F) : Option String := if z !=. 0 then some (fmt z) else none

/-- `figure.py:26` the groups of objects of a new figure. -/
def newObjectGroups : List (Option String × List (F × F)) := [(none, [])]

/-- the entry of a dictionary -/
def dictGet {α β : Type} [DecidableEq α] (d : List (α × β)) (k : α) : Option β := (d.find? fun e => e.1 == k).map Prod.snd

/-- `d[k] = v` -/
def dictSet {α β : Type} [DecidableEq α] (d : List (α × β)) (k : α) (v : β) : List (α × β) :=
  if d.any fun e => e.1 == k then d.map fun e => if e.1 == k then (k, v) else e else d ++ [(k, v)]

/-- `figure.py:204-217` `setGraphicsFromRaysList()`, for the `ObjectRays` of the list, each given by its diameter and position. -/
def Group.objectGroups (fmt : F → String) (showObject showImages : Bool) (g : Group F) :
    List (F × F) → List (Option String × List (F × F)) → Except PyErr (List (Option String × List (F × F)))
  | [], d => .ok d
  | (diameter, z) :: os, d =>
    let key := objectKey fmt z
    let d1 := if showObject then dictSet d key [(diameter, z)] else d
    if showImages then
      match dictGet d1 key with
      | none => .error .keyError
      | some l =>
        match g.conjugateGraphics diameter z with
        | .error x => .error x
        | .ok images => g.objectGroups fmt showObject showImages os (dictSet d1 key (l ++ images))
    else g.objectGroups fmt showObject showImages os d1

/-! ## The range -/

/-- `figure.py:343-346`, `364-367` the largest graphic. -/
def largestGraphic : List F → F → F
  | [], r => r
  | h :: hs, r => largestGraphic hs (if r <. h * 2 then h * 2 else r)

/-- `figure.py:352-357` the images inside of the path. -/
def imagesRange (objectHeight length : F) : List (F × F) → F → F
  | [], r => r
  | (p, m) :: ps, r =>
    if (0 ≤. p) && (p ≤. length) then
      imagesRange objectHeight length ps (if r <. objectHeight * PyNum.abs m then objectHeight * PyNum.abs m else r)
    else imagesRange objectHeight length ps r

/-- `figure.py:341-359` `imagingDisplayRange`; `halfHeights` are those of the graphics of the elements. -/
def Group.imagingDisplayRange (g : Group F) (halfHeights : List F) (objectHeight : F) : Except PyErr F :=
  let r := largestGraphic halfHeights 0
  let r := if (r ==. inf) || (r ≤. objectHeight) then objectHeight else r
  match g.intermediateConjugates with
  | .error x => .error x
  | .ok planes => .ok (imagesRange objectHeight g.mat.L planes r)

/-- `figure.py:361-374` `laserDisplayRange`; the beam is `inputBeam`. -/
def laserDisplayRange [PyMath F] (halfHeights : List F) (beam : Option (Beam F)) : Except PyErr F :=
  let r := largestGraphic halfHeights 0
  if (r ==. inf) || (r ==. 0) then
    match beam with
    | some b => b.w.map fun w => w * 3
    | none => .ok 100
  else .ok r

/-! ## Marks on the axis -/

/-- `matrix.py:1503-1511`, `1601-1609`, `1850-1858` the foci, when there are any. -/
def fociPoints (m : Mat F) (z : F) : Except PyErr (List (F × String)) := do
  match ← m.focusPositions z with
  | some (f1, f2) => pure [(f1, "$F_f$"), (f2, "$F_b$")]
  | none => pure []

/-- `pointsOfInterest(z)`: `matrix.py:948-959` (none), and `Lens`, `CurvedMirror`, `ThickLens` with its subclass `DielectricSlab`
(`matrix.py:1489-1511`, `1587-1609`, `1837-1858`). -/
def Mat.pointsOfInterest (m : Mat F) (z : F) : Except PyErr (List (F × String)) :=
  match m.kind with
  | .lens _ _ => fociPoints m z
  | .curvedMirror => fociPoints m z
  | .thickLens _ _ _ => fociPoints m z
  | .slab _ _ _ => fociPoints m z
  | _ => .ok []

/-- `specialtylenses.py:34-43` `CompoundLens.pointsOfInterest(z)`. Without foci the positions are `None`, which
`figure.py:296` cannot format: the error is raised here instead. -/
def compoundPoints (m : Mat F) (z : F) : Except PyErr (List (F × String)) := do
  match ← m.focusPositions z with
  | some (f1, f2) => pure [(f1, "$F_f$"), (f2, "$F_b$")]
  | none => throw .typeError

/-- `pointsOfInterest(z)` of an element which is a single element or a plain `MatrixGroup` (`matrix.py:948-959`). -/
def Elem.pointsOfInterest (e : Elem F) (z : F) : Except PyErr (List (F × String)) :=
  match e with
  | .leaf m => m.pointsOfInterest z
  | .group _ _ _ => .ok []

/-- `figure.py:278-283`, `296-305` a label is added at its formatted position. -/
def addLabel (fmt : F → String) (labels : List (String × String)) (p : F × String) : List (String × String) :=
  match dictGet labels (fmt p.1) with
  | some l => dictSet labels (fmt p.1) (l ++ ", " ++ p.2)
  | none => dictSet labels (fmt p.1) p.2

/-- `label.strip('$')` -/
def stripDollar (s : String) : String :=
  String.ofList ((s.toList.dropWhile (· == '$')).reverse.dropWhile (· == '$')).reverse

/-- `figure.py:299-300` the label with the number of the element. -/
def numbered (label : String) (i : Nat) : String := "${" ++ stripDollar label ++ "}_" ++ toString i ++ "$"

/-- the loop of `figure.py:290-306`; `i` is `groupIndex`, `several` is `len(physicalElements) > 1`, `poi` the method of the elements. -/
def pointsLoop (fmt : F → String) (poi : Elem F → F → Except PyErr (List (F × String))) (several : Bool) :
    List (Elem F) → F → Nat → List (String × String) → Except PyErr (List (String × String))
  | [], _, _, labels => .ok labels
  | e :: es, z, i, labels =>
    match poi e z with
    | .error x => .error x
    | .ok points =>
      let i := if points.isEmpty then i else i + 1
      let labels := points.foldl (fun d p => addLabel fmt d (p.1, if several then numbered p.2 i else p.2)) labels
      pointsLoop fmt poi several es (z + e.mat.L) i labels

/-- `figure.py:268-312` `pointsOfInterest`: the positions and texts; `val` is `float` of a formatted position. The path itself
has no point of interest (`matrix.py:948-959`). -/
def Group.marks (fmt : F → String) (val : String → F) (poi : Elem F → F → Except PyErr (List (F × String))) (g : Group F) :
    Except PyErr (List (F × String)) :=
  let several := 1 < (g.elems.filter fun e => !e.isSpace).length
  match pointsLoop fmt poi several g.elems 0 0 [] with
  | .error x => .error x
  | .ok labels => .ok (labels.map fun e => (val e.1, e.2))

/-- `graphics.py:180-194` `MatrixGraphic.pointsOfInterest`, for the graphic of an element at `x`: the positions and texts. -/
def Elem.graphicMarks (fmt : F → String) (val : String → F) (poi : Elem F → F → Except PyErr (List (F × String))) (e : Elem F) (x : F) :
    Except PyErr (List (F × String)) :=
  match poi e x with
  | .error err => .error err
  | .ok points => .ok ((points.foldl (addLabel fmt) []).map fun e => (val e.1, e.2))

/-- `graphics.py:370-410` `MatrixGroupGraphic.pointsOfInterest`, for the graphic of a group at `x`: the positions and texts. `own` is the method
`pointsOfInterest` of the group, called with `x`; the loop over the elements starts at 0. -/
def Group.graphicMarks (fmt : F → String) (val : String → F) (poi : Elem F → F → Except PyErr (List (F × String)))
    (own : F → Except PyErr (List (F × String))) (g : Group F) (x : F) : Except PyErr (List (F × String)) :=
  match own x with
  | .error err => .error err
  | .ok points =>
    match pointsLoop fmt poi false g.elems 0 0 (points.foldl (addLabel fmt) []) with
    | .error err => .error err
    | .ok labels => .ok (labels.map fun e => (val e.1, e.2))

end RT
