import Verif.Model.Figure
import Verif.Model.Images

/-! # Displays of laser paths and cavities

`figure.py` (`Figure.displayGaussianBeam`), `laserpath.py` (`display`), `lasercavity.py` (`display`). -/

namespace RT
open PyNum
variable {F : Type} [PyNum F] [PyMath F]

/-- `figure.py:23-30` what the figure of a laser path keeps between displays: the lines of the beams (abscissas and ordinates) and the arrows
of the waists (abscissa, tail and tip). -/
structure LaserFigure (F : Type) where
  lines : List (List F × List F)
  arrows : List (F × F × F)
  deriving DecidableEq

/-- `figure.py:464-491` `beamWaistAnnotations(beam)`; `heights` gives the half heights of the graphics of the elements when these lines are
in the figure, `input` is `inputBeam`. -/
def Group.beamWaists (heights : List (List F) → Except PyErr (List F)) (g : Group F) (input : Option (Beam F)) (lines : List (List F × List F))
    (b : Beam F) : Except PyErr (List (F × F × F)) :=
  match heights (lines.map Prod.snd) with
  | .error x => .error x
  | .ok hs =>
    match laserDisplayRange hs input with
    | .error x => .error x
    | .ok r =>
      match g.toElem.traceBeam b with
      | .error x => .error x
      | .ok t => waistArrows g.mat.L (r * lit (1 / 10)) t

/-- the loop of `figure.py:565-567`; a beam may be `None`, which cannot be traced (`matrixgroup.py:430-431`). -/
def Group.beamsLoop (N : Nat) (heights : List (List F) → Except PyErr (List F)) (g : Group F) (input : Option (Beam F)) :
    List (Option (Beam F)) → LaserFigure F → Except PyErr Unit × LaserFigure F
  | [], f => (.ok (), f)
  | none :: _, f => (.error .typeError, f)
  | some b :: bs, f =>
    match g.beamTraceLines N b with
    | .error x => (.error x, f)
    | .ok (l1, l2) =>
      let lines := f.lines ++ [l1, l2]
      match g.beamWaists heights input lines b with
      | .error x => (.error x, { f with lines := lines })
      | .ok a => Group.beamsLoop N heights g input bs ⟨lines, f.arrows ++ a⟩

/-- `figure.py:561-577` `displayGaussianBeam(beams)`: the result and what is drawn. -/
def Group.displayBeams (N : Nat) (heights : List (List F) → Except PyErr (List F)) (g : Group F) (input : Option (Beam F))
    (beams : List (Option (Beam F))) (f : LaserFigure F) : Except PyErr Unit × LaserFigure F :=
  match heights [] with
  | .error x => (.error x, { f with lines := [] })
  | .ok _ => g.beamsLoop N heights input beams { f with lines := [] }

/-- `laserpath.py:59-77` `LaserPath.display(beams)`. -/
def Group.displayLaser (N : Nat) (heights : List (List F) → Except PyErr (List F)) (g : Group F) (input : Option (Beam F))
    (beams : Option (List (Beam F))) (f : LaserFigure F) : Except PyErr Unit × LaserFigure F :=
  g.displayBeams N heights input (match beams with | none => [input] | some bs => bs.map some) f

/-- `lasercavity.py:111-128` `LaserCavity.display()`: with the flag "a hint was given". `inputBeam` is `None` unless the user sets it. -/
def Group.displayCavity (N : Nat) (heights : List (List F) → Except PyErr (List F)) (g : Group F) (input : Option (Beam F)) (f : LaserFigure F) :
    Except PyErr Bool × LaserFigure F :=
  match g.mat.isStable with
  | .error x => (.error x, f)
  | .ok false =>
    let r := g.displayLaser N heights input (some []) f
    (r.1.map fun _ => true, r.2)
  | .ok true =>
    match g.mat.laserModes with
    | .error x => (.error x, f)
    | .ok modes =>
      let r := g.displayLaser N heights input (some modes) f
      (r.1.map fun _ => false, r.2)

end RT
