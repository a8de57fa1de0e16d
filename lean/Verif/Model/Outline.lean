import Verif.Model.Graphics

/-! # Model of the components of a graphic: the lines a pen draws

`graphicComponents.py:10-125` (`BezierCurve`, `Component`), `128-171` (`Arrow`), `174-189` (`Rectangle`), `192-316` (`Surface`,
`SurfacePair`), `319-369` (`DoubleThinArrow`, `ApertureBars`), `371-378` (`Polygon`), `graphics.py:55-86` (`halfHeight`, `centroid` of a
graphic), `89-127` (the graphics of objects, images and lamps), `413-455` (objectives), `specialtylenses.py:434-445` (their points of interest). Colours, widths and styles of lines are left out. Two tuples that are the
same Python object are equal even when they contain `nan`; here they are compared by their numbers, as for all other numbers. -/

namespace RT
open PyNum
variable {F : Type} [PyNum F]

/-- `graphicComponents.py:10-36` a `BezierCurve` of two or three control points. -/
inductive Curve (F : Type) where
  | line (a b : F × F)
  | quad (a c b : F × F)
  deriving DecidableEq, Repr

/-- `controlPoints` -/
def Curve.points : Curve F → List (F × F)
  | .line a b => [a, b]
  | .quad a c b => [a, c, b]

/-- `graphicComponents.py:26-28` `xy`: the first and the last control point. -/
def Curve.xy : Curve F → List (F × F)
  | .line a b => [a, b]
  | .quad a _ b => [a, b]

/-- The codes of `matplotlib.path.Path`. -/
inductive Code where
  | moveTo
  | lineTo
  | curve3
  deriving DecidableEq, Repr

/-- `graphicComponents.py:82-87` the codes of one curve. -/
def Curve.codes : Curve F → List Code
  | .line _ _ => [.moveTo, .lineTo]
  | .quad _ _ _ => [.moveTo, .curve3, .curve3]

/-- equality of two tuples of coordinates -/
def ptEq (p q : F × F) : Bool := (p.1 ==. q.1) && (p.2 ==. q.2)

/-- `graphicComponents.py:89-92` `newCodes[0] = LINETO` when the curve begins where the line is. -/
def joinCodes (last : Option (F × F)) (c : Curve F) : List Code :=
  match last, c.points.head?, c.codes with
  | some p, some q, k :: ks => (if ptEq q p then .lineTo else k) :: ks
  | _, _, ks => ks

/-- `graphicComponents.py:80-95` the loop of `patch`; the coordinates and codes made so far. -/
def patchLoop : List (Curve F) → List (F × F) → List Code → List (F × F) × List Code
  | [], coords, codes => (coords, codes)
  | c :: cs, coords, codes => patchLoop cs (coords ++ c.points) (codes ++ joinCodes coords.getLast? c)

/-- `graphicComponents.py:75-98` `patch`: the coordinates and the codes of the path. -/
def patchOf (cs : List (Curve F)) : List (F × F) × List Code := patchLoop cs [] []

/-- `graphicComponents.py:111-125` `linearBezierCurvesFrom(controlPoints)`; also `Polygon`, `371-378`. -/
def linearCurves : List (F × F) → List (Curve F)
  | a :: b :: ps => .line a b :: linearCurves (b :: ps)
  | _ => []

/-- `graphicComponents.py:128-167` `Arrow(dy, y, width=0.002, headLengthRatio=0.1)`. -/
def arrowCurves (dy y : F) : List (Curve F) :=
  let width : F := lit (2 / 1000)
  let headWidth := width * lit 5
  let headLength := dy * lit (1 / 10)
  let dx0 := half width
  let dx1 := half headWidth
  let top := y + dy
  let dy1 := top - headLength
  linearCurves [(-dx0, y), (-dx0, dy1), (-dx1, dy1), (0, top), (dx1, dy1), (dx0, dy1), (dx0, y), (-dx0, y)]

/-- `graphicComponents.py:174-189` `Rectangle(xy=(x, y), width, height)`. -/
def boxCurves (x y width height : F) : List (Curve F) :=
  linearCurves [(x, y), (x, y + height), (x + width, y + height), (x + width, y), (x, y)]

/-- `graphicComponents.py:319-345` `DoubleThinArrow(height)`, `dy` is half of the height. -/
def thinArrowCurves (dy : F) : List (Curve F) :=
  let dx1 : F := half (lit (1 / 100))
  let dy1 := dy - dy * lit (12 / 100)
  .line (0, -dy) (0, dy) :: (linearCurves [(-dx1, dy1), (0, dy), (dx1, dy1)] ++ linearCurves [(-dx1, -dy1), (0, -dy), (dx1, -dy1)])

/-- `graphicComponents.py:348-368` `ApertureBars(y, x, width)`. -/
def barsCurves (y x width : F) : List (Curve F) :=
  let e := barEnds x width
  [.line (e.1, y) (e.2, y), .line (e.1, -y) (e.2, -y)]

/-- `graphicComponents.py:245-275` `getPathA`: the first surface, drawn upwards; also `Surface`, `192-222`. -/
def upCurves (h : F) : Face F → List (Curve F)
  | .line v => [.line (v, -h) (v, h)]
  | .curve v ctl c => [.quad (c, -h) (v, -ctl) (v, 0), .quad (v, 0) (v, ctl) (c, h)]
  | .cone v c => [.line (c, -h) (v, 0), .line (v, 0) (c, h)]

/-- `graphicComponents.py:277-316` `getPathB`: the upper edge from the corner `c0` of the first surface, the second surface drawn
downwards, the lower edge. -/
def downCurves (h c0 : F) : Face F → List (Curve F)
  | .line v => [.line (c0, h) (v, h), .line (v, h) (v, -h), .line (v, -h) (c0, -h)]
  | .curve v ctl c => [.line (c0, h) (c, h), .quad (c, h) (v, ctl) (v, 0), .quad (v, 0) (v, -ctl) (c, -h), .line (c, -h) (c0, -h)]
  | .cone v c => [.line (c0, h) (c, h), .line (c, h) (v, 0), .line (v, 0) (c, -h), .line (c, -h) (c0, -h)]

/-- `graphicComponents.py:238-243` the `bezierCurves` of a `SurfacePair`. -/
def pairCurves (h : F) (a b : Face F) : List (Curve F) := upCurves h a ++ downCurves h a.corner b

/-- one point of `set(xy)`: kept when it is not there yet -/
def insertPt (ps : List (F × F)) (p : F × F) : List (F × F) := if ps.any (ptEq p) then ps else ps ++ [p]

/-- `graphicComponents.py:60-67` `xy` of a component: the ends of its curves, without duplicates (the order of a set is not kept). -/
def cornersOf (cs : List (Curve F)) : List (F × F) := (cs.flatMap Curve.xy).foldl insertPt []

/-- `graphics.py:61-71` `halfHeight` of a graphic whose components have these curves; the maximum of no number raises. -/
def halfHeightLoop : List (List (Curve F)) → F → Except PyErr F
  | [], h => .ok h
  | c :: cs, h =>
    match (cornersOf c).map fun p => PyNum.abs p.2 with
    | [] => .error .valueError
    | y :: ys =>
      let m := pyMaxFrom ys y
      halfHeightLoop cs (if h <. m then m else h)

/-- `graphics.py:58-71` `halfHeight`. -/
def halfHeightOf (comps : List (List (Curve F))) : Except PyErr F := do
  let h ← halfHeightLoop comps 0
  if h ==. inf then throw .valueError else pure h

/-- `graphics.py:73-78` the abscissa of `centroid`: the mean of nothing is `nan`, which cannot be indexed. -/
def centroidX (comps : List (List (Curve F))) : Except PyErr F :=
  match (comps.flatMap cornersOf).map Prod.fst with
  | [] => .error .indexError
  | xs => pyDiv (xs.foldl (· + ·) 0) (lit xs.length)

/-- `graphics.py:33-34` the position of the label, before it is moved by the position of the graphic (`figure.py:735-736`). -/
def labelAt (comps : List (List (Curve F))) : Except PyErr (F × F) := do
  let x ← centroidX comps
  let h ← halfHeightOf comps
  pure (x, h * lit (13 / 10))

/-- `graphics.py:89-114` the components of an `ObjectGraphic` or an `ImageGraphic`. -/
def objectCurves (diameter : F) : List (List (Curve F)) := [arrowCurves diameter (half (-diameter))]

/-- `graphics.py:117-127` the components of a `LampGraphic`. -/
def lampCurves (diameter : F) : List (List (Curve F)) := [boxCurves (-lit (8 / 100)) (half (-diameter)) (lit (16 / 100)) diameter]

/-- The curves of a component; those of an outline need the half height of the surfaces, `h`. -/
def Comp.curves (h : F) : Comp F → List (Curve F)
  | .arrow dy => thinArrowCurves dy
  | .bars y x width => barsCurves y x width
  | .box x y width height => boxCurves x y width height
  | .outline a b => pairCurves h a b

/-! ## Objectives -/

/-- `specialtylenses.py:362-391` the attributes of an `Objective` used to draw it. -/
structure ObjectiveData (F : Type) where
  NA : F
  focusToFocusLength : F
  backAperture : F
  workingDistance : F
  frontAperture : F
  deriving DecidableEq, Repr

/-- `specialtylenses.py:434-445` `pointsOfInterest(z)`. -/
def ObjectiveData.pointsOfInterest (o : ObjectiveData F) (isFlipped : Bool) (z : F) : List (F × String) :=
  if isFlipped then [(z + o.focusToFocusLength, "$F_b$"), (z, "$F_f$")] else [(z, "$F_b$"), (z + o.focusToFocusLength, "$F_f$")]

/-- `graphics.py:428-442` the corners of the outline. -/
def ObjectiveData.corners (o : ObjectiveData F) (isFlipped : Bool) : Except PyErr (List (F × F)) := do
  let L := o.focusToFocusLength
  let h := half o.backAperture
  let shoulder ← pyDiv h o.NA
  let points := [(0, h), (L - shoulder, h), (L - o.workingDistance, half o.frontAperture),
    (L - o.workingDistance, half (-o.frontAperture)), (L - shoulder, -h), (0, -h), (0, h)]
  pure (if isFlipped then points.map fun p => (-p.1 + L, p.2) else points)

/-- `graphics.py:446-451` the bars of the apertures: their half height is that of `self.matrix`, the objective; `z` is the running position. -/
def objectiveBars (m : Mat F) : List (Elem F) → F → List (Comp F)
  | [], _ => []
  | e :: es, z =>
    (if e.mat.apertureDiameter !=. inf then [Comp.bars (half m.apertureDiameter) z e.mat.L] else []) ++ objectiveBars m es (z + e.mat.L)

end RT
