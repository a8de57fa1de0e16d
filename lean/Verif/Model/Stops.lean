import Verif.Model.Imaging
import Verif.Model.Images
import Verif.Model.Outline

/-! # Stops, pupil, principal and axial rays in a figure

`figure.py` (`Figure.stopsLabels`, `graphicOfEntrancePupil`, `setPrincipalAndAxialRays`, `MplFigure.scalingOfGraphic`). -/

namespace RT
open PyNum
variable {F : Type} [PyNum F]

/-- `figure.py:315-328` `stopsLabels`: texts with their places. `range` is `displayRange`. -/
def Group.stopsLabels (g : Group F) (range precision maxHeight : F) (fuel : Nat) : Prog F (List (String × F × F)) := do
  let y := half range * lit (11 / 10)
  let a ← g.apertureStop
  let l1 := match a.1 with
    | none => []
    | some z => [("AS", z, y)]
  let f ← g.fieldStop precision maxHeight fuel
  let l2 := match f.1 with
    | none => []
    | some z => [("FS", z, y)]
  pure (l1 ++ l2)

/-- `figure.py:171-175`, `260-266` the graphic of the entrance pupil, `None` when there is none. -/
def Group.pupilGraphic (g : Group F) : Prog F (Option (Graphic F)) := do
  match ← g.entrancePupil with
  | none => pure none
  | some (position, diameter) => pure (some ⟨position, [.bars (half diameter) 0 0]⟩)

/-- `figure.py:822-828` `scalingOfGraphic`, up to the half height of the graphic (which may raise); the size of the axes and the power
3/4 are not modelled. `h` is the half height of its surfaces. -/
def Graphic.halfHeight (h : F) (g : Graphic F) : Except PyErr F := halfHeightOf (g.comps.map (Comp.curves h))

/-- `figure.py:149-168` `setPrincipalAndAxialRays`: the arrows (diameter and abscissa) of the object and its images, and the rays traced. -/
def Group.principalAndAxial (g : Group F) (precision maxHeight : F) (fuel : Nat) : Prog F (List (F × F) × List (Ray F)) := do
  let s ← g.apertureStop
  match s.1 with
  | none => pure ([], [])
  | some _ =>
    let p ← g.principalRay precision maxHeight fuel
    let a ← g.axialRay
    let arrows ← match p with
      | none => pure []
      | some r => do
        let images ← Prog.lift (g.conjugateGraphics (r.y * 2) 0)
        pure ((r.y * 2, 0) :: images)
    pure (arrows, p.toList ++ a.toList)

end RT
