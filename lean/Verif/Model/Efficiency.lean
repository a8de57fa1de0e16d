import Verif.Model.Imaging

/-! # Model of `ImagingPath.reportEfficiency` (`imagingpath.py:819-926`)

What is computed: which rays of the source are counted as blocked, vignetted or transmitted, and the percentages. The source
rays are drawn at random (`RandomUniformRays`); here they are given as a list of heights and angles. The three methods that receive a
source ray (twice `opticalInvariant`, `traceThrough`) and the ones that receive the axial and principal rays get their own copies:
`opticalInvariant` traces through a product of matrices, which has no aperture and leaves the rays as they are. The
numerical aperture, f-number and field of view that are printed are the values of the methods (`Group.NA`, `Group.fieldOfView`, ...);
the text and the scatter plot are not modelled. -/

namespace RT
open PyNum
variable {F : Type} [PyNum F]

/-- `imagingpath.py:863-866`: the lists filled by the loop. -/
structure Sorted (F : Type) where
  expected : List (F × F) := []
  notBlocked : List (F × F) := []
  vignetted : List (F × F) := []
  positions : List F := []
deriving DecidableEq

namespace Group
variable (g : Group F)

/-- `imagingpath.py:872-881`: where a ray goes, given its two coefficients. -/
def sortRay (irp iar iap p q : F) (out : Ray F) (s : Sorted F) : Sorted F :=
  if (iap <. PyNum.abs irp) || (iap <. PyNum.abs iar) then { s with expected := s.expected ++ [(p, q)] }
  else if out.isBlocked then
    { s with vignetted := s.vignetted ++ [(p, q)], positions := s.positions ++ [out.z] }
  else { s with notBlocked := s.notBlocked ++ [(p, q)] }

/-- the loop of `imagingpath.py:867-881`. (The quotients are computed in every branch.) -/
def sortRays (iap : F) (principal axial : Ray F) : List (F × F) → Sorted F → Prog F (Sorted F)
  | [], s => pure s
  | (y, theta) :: rs, s => do
    let irp ← Prog.lift (g.toElem.opticalInvariantH 0 1 0 [Ray.new y theta, principal]).1
    let iar ← Prog.lift (g.toElem.opticalInvariantH 0 1 0 [axial, Ray.new y theta]).1
    let t ← Prog.ask y theta
    match t.getLast? with
    | none => Prog.raise .indexError
    | some out => do
      let p ← Prog.lift (pyDiv irp iap)
      let q ← Prog.lift (pyDiv iar iap)
      sortRays iap principal axial rs (sortRay irp iar iap p q out s)

end Group

/-- `imagingpath.py:883-907`: the percentages of the report; `loss` is `None` when "No losses to vignetting" is printed. -/
structure Report (F : Type) where
  sorted : Sorted F
  collection : F
  invariants : F
  relative : F
  loss : Option F
deriving DecidableEq

/-- a length as a number -/
def lenF {α : Type} (l : List α) : F := lit (l.length : Nat)

/-- `imagingpath.py:883-911`: the percentages, then the unpacking of `zip(*notBlocked)` (a `ValueError` when the list is empty).
`total` is `sourceRays.maxCount` and `iS` the invariant of the source. -/
def Sorted.report (s : Sorted F) (total : Nat) (iap iS : F) : Except PyErr (Report F) := do
  let collection ← pyDiv (100 * lenF s.notBlocked) (lit (total : Nat))
  let ratio ← pyDiv iap iS
  let relative ← pyDiv (100 * lenF s.notBlocked) (lit ((s.vignetted.length + s.notBlocked.length : Nat)))
  let loss ← pyDiv (100 * lenF s.vignetted) (lit ((s.vignetted.length + s.notBlocked.length : Nat)))
  if s.notBlocked.isEmpty then .error .valueError
  else .ok { sorted := s, collection := collection, invariants := ratio * 100, relative := relative,
             loss := if 2 ≤ s.vignetted.length then some loss else none }

namespace Group
variable (g : Group F)

/-- `imagingpath.py:849-861`: half of the height of the source. -/
def sourceHeight (objectDiameter : Option F) (principal : Ray F) : F :=
  match objectDiameter with
  | some d => half d
  | none => principal.y

/-- `imagingpath.py:819-926` `reportEfficiency(objectDiameter, emissionHalfAngle, nRays)`: `None` when a message says that
there is no field stop. `source` is what the generator of random rays gives for a half height and a half angle; `maxAngle` is
`emissionHalfAngle`, or pi/2. -/
def reportEfficiency (precision maxHeight : F) (fuel : Nat) (objectDiameter : Option F) (maxAngle : F)
    (source : F → F → List (F × F)) : Prog F (Option (Report F)) := do
  match ← g.principalRay precision maxHeight fuel with
  | none => pure none
  | some principal =>
    match ← g.axialRay with
    | none => Prog.raise .attributeError
    | some axial => do
      let i ← g.lagrangeInvariant precision maxHeight fuel
      let rays := source (sourceHeight objectDiameter principal) maxAngle
      let s ← g.sortRays (PyNum.abs i) principal axial rays {}
      let r ← Prog.lift (s.report rays.length (PyNum.abs i) (sourceHeight objectDiameter principal * maxAngle))
      pure (some r)

end Group

end RT
