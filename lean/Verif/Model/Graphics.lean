import Verif.Model.Images
import Verif.Model.Lenses

/-! # Model of `graphics.py`: what is drawn for the elements of a path, and where

`graphics.py:9-86` (`Graphic`), `130-165` (`MatrixGraphic`), `283-381` (the graphics of the elements), `458-475` (`GraphicOf`),
`167-280` (the figure of one element; its `pointsOfInterest` as in `Model/Images.lean`), `graphicComponents.py:174-189`, `319-368` (the components), `figure.py:183-202` (`graphicsOfElements`), `721-736` (the position of a
graphic on the figure). Colours, widths of lines and labels are left out, and so are the graphics of `CompoundLens` (see C69 for its
outline) and `Objective`. -/

namespace RT
open PyNum
variable {F : Type} [PyNum F]

/-- The components of a graphic, with coordinates relative to the graphic. -/
inductive Comp (F : Type) where
  /-- `DoubleThinArrow`: a vertical arrow at 0 between `-dy` and `dy` -/
  | arrow (dy : F)
  /-- `ApertureBars(y, x, width)`: horizontal bars at `y` and `-y` -/
  | bars (y x width : F)
  /-- `Rectangle(xy=(x, y), width, height)` -/
  | box (x y width height : F)
  /-- `SurfacePair`, or `Surface` (twice the same) -/
  | outline (a b : Face F)
  deriving DecidableEq, Repr

/-- A `Graphic`: its position and its components. -/
structure Graphic (F : Type) where
  x : F
  comps : List (Comp F)
  deriving DecidableEq, Repr

/-- `graphicComponents.py:348-368`: the left and right ends of aperture bars. -/
def barEnds (x width : F) : F × F :=
  let w := if width ==. 0 then lit (1 / 100) else width
  if w ≤. lit (1 / 100) then (x - lit (5 / 1000), x + lit (5 / 1000)) else (x, x + w)

/-- The left and right ends of a component on the axis: of an outline, those of its surfaces on the axis. -/
def Comp.ends : Comp F → F × F
  | .arrow _ => (0, 0)
  | .bars _ x width => barEnds x width
  | .box x _ width _ => (x, x + width)
  | .outline a b => (a.vertex, b.vertex)

/-- `figure.py:725-733`: all the components are translated by the position of the graphic (those without a fixed width are scaled before,
from 0, which is not done here). -/
def Graphic.extents (g : Graphic F) : List (F × F) := g.comps.map fun c => (g.x + c.ends.1, g.x + c.ends.2)

/-- `graphics.py:159-165` `apertureComponents`. -/
def apertureBars (m : Mat F) : List (Comp F) :=
  if m.apertureDiameter !=. inf then [.bars (half m.apertureDiameter) 0 m.L] else []

/-- `graphics.py:143-157` `mainComponents` of a black box at `x`. -/
def blackBox (e : Elem F) (x : F) : Comp F :=
  let h := half e.largestDiameter
  let h := if h ==. inf then e.mat.displayHalfHeight.1 else h
  .box x (-h) e.mat.L (2 * h)

/-- `graphics.py:284-288` a lens without a diameter is made as large as `minSize`. -/
def Mat.enlarge (m : Mat F) (minSize : F) : Mat F :=
  match m.kind with
  | .lens f hh => if (m.apertureDiameter ==. inf) && (hh <. minSize) then { m with kind := .lens f minSize } else m
  | _ => m

variable [PyMath F] [PyTrig F]

/-- `graphics.py:303-338` `SurfacesGraphic`: the outlines and, for several surfaces, bars between the first and the last corner. -/
def surfaceComps (h : F) (ss : List (Surf F)) : Except PyErr (List (Comp F)) := do
  let ps ← drawSurfaces h ss
  let outlines := ps.map fun p => Comp.outline p.1 p.2
  match ss.length, ps.head?, ps.getLast? with
  | 1, _, _ => pure outlines
  | _, some p, some q => pure (outlines ++ [.bars h p.1.corner (q.2.corner - p.1.corner)])
  | _, _, _ => throw .indexError

/-- `graphics.py:458-475` `GraphicOf(element, x, minSize)` of a single element. An `Aperture` without a diameter has no component, and
the position of its label is the mean of nothing (`graphics.py:33-34`, `74-78`: `IndexError`). -/
def Mat.graphic (m : Mat F) (x minSize : F) : Except PyErr (Option (Graphic F)) :=
  match m.kind with
  | .lens _ _ => .ok (some ⟨x, .arrow (half ((m.enlarge minSize).displayHalfHeight.1 * 2)) :: apertureBars m⟩)
  | .space => .ok none
  | .aperture => if (apertureBars m).isEmpty then .error .indexError else .ok (some ⟨x, apertureBars m⟩)
  | _ => do
    let ss ← m.surfaces
    if ss.isEmpty then pure (some ⟨x, blackBox (.leaf m) x :: apertureBars m⟩)
    else do
      let cs ← surfaceComps m.displayHalfHeight.1 ss
      pure (some ⟨x, cs⟩)

/-- `graphics.py:458-475` `GraphicOf(element, x, minSize)` of any element; a group is one box (`graphics.py:353-357`). -/
def Elem.graphic (e : Elem F) (x minSize : F) : Except PyErr (Option (Graphic F)) :=
  match e with
  | .leaf m => m.graphic x minSize
  | .group _ _ _ => .ok (some ⟨x, [blackBox e x]⟩)

/-- `graphics.py:359-368` `standAloneGraphics` of a group at `x`; `z` is the running position. -/
def standAlone (x : F) : List (Elem F) → F → Except PyErr (List (Graphic F))
  | [], _ => .ok []
  | e :: es, z => do
    let g ← e.graphic (z + x) 0
    let rest ← standAlone x es (z + e.mat.L)
    pure (g.toList ++ rest)

/-- The graphics of one element of the path, `figure.py:193-197`. -/
def Elem.graphics (e : Elem F) (z minSize : F) : Except PyErr (List (Graphic F)) :=
  match e with
  | .leaf m => (m.graphic z minSize).map Option.toList
  | .group _ _ es => standAlone z es 0

/-- `figure.py:192-198` the loop over the elements of the path. -/
def graphicsLoop (minSize : F) : List (Elem F) → F → Except PyErr (List (Graphic F))
  | [], _ => .ok []
  | e :: es, z => do
    let g ← e.graphics z minSize
    let rest ← graphicsLoop minSize es (z + e.mat.L)
    pure (g ++ rest)

/-- `max(list)` -/
def pyMaxFrom : List F → F → F
  | [], m => m
  | y :: ys, m => pyMaxFrom ys (if m <. y then y else m)

/-- `figure.py:184-188`: the largest height of the lines; `max` of an empty line raises. -/
def maxRayHeight : List (List F) → F → Except PyErr F
  | [], r => .ok r
  | [] :: _, _ => .error .valueError
  | (y :: ys) :: ls, r =>
    let m := pyMaxFrom ys y
    maxRayHeight ls (if r <. m then m else r)

/-- `figure.py:183-202` `graphicsOfElements`; `lines` are the heights of the points of the rays drawn. -/
def Group.graphicsOfElements (g : Group F) (lines : List (List F)) : Except PyErr (List (Graphic F)) := do
  let h ← maxRayHeight lines 0
  graphicsLoop h g.elems 0

/-! ## The figure of one element -/

/-- An arrow with its text: `ArrowAnnotation(A=(start, _), B=(stop, _))`, and the point with the text `"... = value"` at the abscissa `at_`. -/
structure Measure (F : Type) where
  text : String
  start : F
  stop : F
  value : F
  at_ : F
  deriving DecidableEq, Repr

/-- What the figure of one element shows besides its graphic: `vertices` (points `$V_f$`, `$V_b$`), `planes` (dashed lines, points
`$P_f$`, `$P_b$`), `foci` (points), `measures`. -/
structure ElementFigure (F : Type) where
  foci : List F
  vertices : List F
  planes : List F
  measures : List (Measure F)
  deriving DecidableEq, Repr

/-- `graphics.py:167-173` `cardinalPoints` of an element at `x`: `None` is skipped. -/
def cardinalPoints (m : Mat F) (x : F) : Except PyErr (List F) := do
  match ← m.focusPositions x with
  | some (f1, f2) => pure [f1, f2]
  | none => pure []

/-- `graphics.py:175-178` `verticesPoints`: `self.x + None` is a `TypeError`. -/
def verticesPoints (m : Mat F) (x : F) : Except PyErr (List F) :=
  match m.frontVertex, m.backVertex with
  | some a, some b => .ok [x + a, x + b]
  | _, _ => .error .typeError

/-- `graphics.py:196-233` `addPrincipalPlanes` of an element at `x`; the vertices are not moved by `x` there. -/
def principalMeasures (m : Mat F) (x : F) : Except PyErr (List F × List (Measure F)) := do
  match ← m.principalPlanePositions x with
  | none => pure ([], [])
  | some (p1, p2) =>
    let f ← m.effectiveFocalLengths
    let ffl ← m.frontFocalLength
    let bfl ← m.backFocalLength
    match ← m.focusPositions x with
    | none => throw .typeError
    | some (F1, F2) =>
      match m.frontVertex, m.backVertex, ffl, bfl with
      | some fv, some bv, some ffl, some bfl =>
        pure ([p1, p2], [⟨"EFL", p1, F1, f.1, p1 - half f.1⟩, ⟨"EFL", p2, F2, f.2, p2 + half f.2⟩,
          ⟨"FFL", fv, F1, ffl, half (fv + F1)⟩, ⟨"BFL", bv, F2, bfl, half (bv + F2)⟩])
      | _, _, _, _ => throw .typeError

/-- `graphics.py:262-269`: the points, the planes and the arrows computed by the graphic of an element at `x`. This is what the figures of
single elements, `CompoundLens` and `Objective` show besides the graphic (`displayComponents` is False). -/
def Mat.measuresAt (m : Mat F) (x : F) : Except PyErr (ElementFigure F) := do
  let foci ← cardinalPoints m x
  let vertices ← if m.L !=. 0 then verticesPoints m x else pure []
  let pm ← principalMeasures m x
  pure ⟨foci, vertices, pm.1, pm.2⟩

/-- `graphics.py:262-280` `GraphicOf(element, x=x).createFigure()` of a single element or a plain `MatrixGroup`. `GraphicOf` of a space is `None`,
which cannot be displayed. For a group, `displayComponents` is True: `figure.py:172` replaces the graphic of the group, with its points, its
lines and its arrows, by the graphics of its elements, drawn from 0. (The marks of the elements and of the stops are those of `Model/Images.lean`
and `Model/Stops.lean`.) -/
def Elem.figureAt (e : Elem F) (x : F) : Except PyErr (ElementFigure F) := do
  match ← e.graphic x 0 with
  | none => throw .attributeError
  | some _ =>
    let fig ← e.mat.measuresAt x
    match e with
    | .leaf _ => pure fig
    | .group _ _ es => do
      let _ ← graphicsLoop 0 es 0
      pure ⟨[], [], [], []⟩

/-- `matrix.py:1420-1422` `display()`: the graphic is at 0. -/
def Elem.figure (e : Elem F) : Except PyErr (ElementFigure F) := e.figureAt 0

end RT
