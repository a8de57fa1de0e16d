import Verif.Model.Trace

/-! # Drawing and comparing: `figure.py:493-510`, `768-803`, `graphicComponents.py:395-423`, `matrix.py:1439-1442`,
`imagingpath.py:928-950` -/

namespace RT
open PyNum
variable {F : Type} [PyNum F]

/-! ## Rays -/

/-- `figure.py:502-510` the loop of `rearrangeRayTraceForPlotting(rayList)`; `x`, `y` are the lists made so far. -/
def plotLoop (removeBlocked : Bool) (x y : List F) : List (Ray F) → List F × List F
  | [] => (x, y)
  | r :: rs =>
    if !r.isBlocked then plotLoop removeBlocked (x ++ [r.z]) (y ++ [r.y]) rs
    else if removeBlocked then ([], [])
    else plotLoop removeBlocked x y rs

/-- `figure.py:493-510` `rearrangeRayTraceForPlotting(rayList)`; the flag is `designParams['removeBlockedRaysCompletely']`. -/
def rearrangeForPlotting (removeBlocked : Bool) (rays : List (Ray F)) : List F × List F := plotLoop removeBlocked [] [] rays

/-! ## Labels -/

/-- `graphicComponents.py:383-397` the attributes of a `Label` that move. -/
structure Label (F : Type) where
  x : F
  y : F
  offset : F
  deriving DecidableEq, Repr

namespace Label

/-- `graphicComponents.py:383-397` a new label; `offset` is `0.0`. -/
def new (x y : F) : Label F := ⟨x, y, 0⟩

/-- `graphicComponents.py:407-416` `translate(dx)`. -/
def translate (l : Label F) (dx : F) : Label F := ⟨l.x + dx, l.y, l.offset + dx⟩

/-- `graphicComponents.py:418-423` `resetPosition()`. -/
def resetPosition (l : Label F) : Label F := ⟨l.x - l.offset, l.y, 0⟩

/-- `figure.py:795-803` `translateLabel(label, bbox, dx)`; `x0`, `x1` are the sides of the box, `xMin`, `xMax` the limits of the
display. -/
def translateInside (xMin xMax : F) (l : Label F) (x0 x1 dx : F) : Label F :=
  let l1 := l.translate dx
  if x0 + dx <. xMin then l1.translate (xMin - (x0 + dx))
  else if xMax <. x1 + dx then l1.translate (xMax - (x1 + dx))
  else l1

end Label

/-- A rendered box, `matplotlib.transforms.Bbox`, as used by `figure.py:768-793`. -/
structure Box (F : Type) where
  x0 : F
  x1 : F
  y0 : F
  y1 : F
  deriving DecidableEq, Repr

/-- `Bbox.overlaps`: the boxes meet in both directions (matplotlib's documentation; `x0 <= x1` as rendered). -/
def Box.overlaps (a b : Box F) : Bool :=
  (a.x0 ≤. b.x1) && (b.x0 ≤. a.x1) && (a.y0 ≤. b.y1) && (b.y0 ≤. a.y1)

/-- `figure.py:781-787` the spacing required between two overlapping boxes. -/
def requiredSpacing (a b : Box F) : F := if a.x1 <. b.x1 then a.x1 - b.x0 else a.x0 - b.x1

/-- `itertools.combinations(range(n), 2)`: the pairs `(a, b)` with `a < b`, in lexicographic order. -/
def pairs (n : Nat) : List (Nat × Nat) := (List.range n).flatMap fun a => (List.range n).filterMap fun b =>
  if a < b then some (a, b) else none

/-- `figure.py:778-789` the body of the loop for the pair `(a, b)`: the boxes are those of the beginning of the iteration. -/
def fixPair (xMin xMax : F) (boxes : List (Box F)) (st : List (Label F) × Bool) (ab : Nat × Nat) : List (Label F) × Bool :=
  match boxes[ab.1]?, boxes[ab.2]? with
  | some boxA, some boxB =>
    if boxA.overlaps boxB then
      let sp := requiredSpacing boxA boxB
      let ls := st.1.modify ab.1 fun l => l.translateInside xMin xMax boxA.x0 boxA.x1 (half (-sp))
      (ls.modify ab.2 fun l => l.translateInside xMin xMax boxB.x0 boxB.x1 (half sp), false)
    else st
  | _, _ => st

/-- `figure.py:776-793` the loop of `fixLabelOverlaps(maxIteration)`; `render` gives the box of the label number `i` once drawn
where it is. -/
def fixLoop (xMin xMax : F) (render : Nat → Label F → Box F) : Nat → List (Label F) → List (Label F)
  | 0, ls => ls
  | k + 1, ls =>
    let boxes := ls.mapIdx render
    let st := (pairs ls.length).foldl (fixPair xMin xMax boxes) (ls, true)
    if st.2 then st.1 else fixLoop xMin xMax render k st.1

/-- `figure.py:768-793` `fixLabelOverlaps(maxIteration)`. -/
def fixLabelOverlaps (xMin xMax : F) (render : Nat → Label F → Box F) (maxIteration : Nat) (ls : List (Label F)) :
    List (Label F) :=
  if ls.length < 2 then ls else fixLoop xMin xMax render maxIteration ls

/-! ## Equality of elements -/

/-- Python `==` between two optional floats (`None == None`). -/
def optEq (a b : Option F) : Bool :=
  match a, b with
  | none, none => true
  | some x, some y => x ==. y
  | _, _ => false

/-- no attribute of its own -/
def Kind.bare : Kind F → Bool
  | .matrix => true
  | .curvedMirror => true
  | .space => true
  | .aperture => true
  | _ => false

/-- The attributes of the subclasses, as compared by `__dict__ == __dict__`. The class itself is not compared: elements without
additional attribute are comparable whatever their class. -/
def Kind.dictEq (a b : Kind F) : Bool :=
  match a, b with
  | .lens f h, .lens f' h' => (f ==. f') && (h ==. h')
  | .dielectric n1 n2 R, .dielectric n1' n2' R' => (n1 ==. n1') && (n2 ==. n2') && (R ==. R')
  | .thickLens n R1 R2, .thickLens n' R1' R2' => (n ==. n') && (R1 ==. R1') && (R2 ==. R2')
  | .thickLens n R1 R2, .slab n' R1' R2' => (n ==. n') && (R1 ==. R1') && (R2 ==. R2')
  | .slab n R1 R2, .thickLens n' R1' R2' => (n ==. n') && (R1 ==. R1') && (R2 ==. R2')
  | .slab n R1 R2, .slab n' R1' R2' => (n ==. n') && (R1 ==. R1') && (R2 ==. R2')
  | .axicon n a, .axicon n' a' => (n ==. n') && (a ==. a')
  | .group, .group => true
  | .objective, .objective => true
  | .matrix, b => b.bare
  | .curvedMirror, b => b.bare
  | .space, b => b.bare
  | .aperture, b => b.bare
  | _, _ => false

/-- the attributes of a `Matrix`, compared one by one -/
def Mat.dictEq (m m' : Mat F) : Bool :=
  (m.A ==. m'.A) && (m.B ==. m'.B) && (m.C ==. m'.C) && (m.D ==. m'.D) && (m.L ==. m'.L) &&
  optEq m.frontVertex m'.frontVertex && optEq m.backVertex m'.backVertex &&
  (m.frontIndex ==. m'.frontIndex) && (m.backIndex ==. m'.backIndex) &&
  (m.apertureDiameter ==. m'.apertureDiameter) && (m.apertureNA ==. m'.apertureNA) &&
  (m.label == m'.label) && (m.isFlipped == m'.isFlipped) && Kind.dictEq m.kind m'.kind

/-- `_lastRayToBeTraced` and `_lastRayTrace` compared: rays by `Ray.__eq__`. -/
def cacheEq (h : Heap F) : Option (Nat × List Nat) → Option (Nat × List Nat) → Bool
  | none, none => true
  | some (a, t), some (b, u) => (h.get a).eq (h.get b) && listEq t u
  | _, _ => false
where
  /-- two lists of rays -/
  listEq : List Nat → List Nat → Bool
    | [], [] => true
    | a :: as, b :: bs => (h.get a).eq (h.get b) && listEq as bs
    | _, _ => false

mutual
/-- `matrix.py:1439-1442` `__eq__`: all the attributes are compared, so for a group also its elements and the trace it keeps. (The
position of the last iteration, `iteration`, is left out, and so is Python's shortcut for a NaN that is the same object.) -/
def Elem.dictEq (h : Heap F) : Elem F → Elem F → Bool
  | .leaf m, .leaf m' => m.dictEq m'
  | .group m c es, .group m' c' es' => m.dictEq m' && cacheEq h c c' && dictEqList h es es'
  | _, _ => false
/-- two lists of elements -/
def dictEqList (h : Heap F) : List (Elem F) → List (Elem F) → Bool
  | [], [] => true
  | e :: es, e' :: es' => e.dictEq h e' && dictEqList h es es'
  | _, _ => false
end

/-! ## Part of a path -/

/-- `imagingpath.py:933-950` the loop of `subPath`: `before` are the elements already passed (last first), `z` the running
position. The `Space` made has the default index. -/
def subPathElements (zStart : F) (backwards : Bool) (z : F) (before : List (Elem F)) :
    List (Elem F) → Except PyErr (List (Elem F))
  | [] => .error .valueError
  | e :: es =>
    if (z <. zStart) && (zStart <. z + e.mat.L) then
      if e.isSpace then
        if backwards then (mkSpace (zStart - z)).map fun s => .leaf s :: before
        else (mkSpace (z + e.mat.L - zStart)).map fun s => .leaf s :: es
      else .error .assertionError
    else subPathElements zStart backwards (z + e.mat.L) (e :: before) es

/-- `imagingpath.py:928-950` `subPath(zStart, backwards)`: the elements are put in a new path. (In Python they are the same
objects, and a `Space` whose index has to be changed is changed in the original path too.) -/
def Group.subPath (g : Group F) (zStart : F) (backwards : Bool := false) : Except PyErr (Group F) :=
  match subPathElements zStart backwards 0 [] g.elems with
  | .error x => .error x
  | .ok es => Group.new es

end RT
