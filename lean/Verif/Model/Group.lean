import Verif.Model.Matrix

/-! # Model of `raytracing/matrixgroup.py`: groups of elements

An optical element is a tree: a single element or a group of elements. Simplification: the tree does not represent
two positions holding the *same* Python object (`LaserCavity.appendElementsInReverse` and user code can do
that); editing one position never changes another one. Those objects are modelled in `Model/Store.lean`, and `C90_programs` shows that the
two models agree for programs that put every object at one place. -/

namespace RT
open PyNum
variable {F : Type}

/-- `matrixgroup.py:6-36` An element of a path. A `MatrixGroup` has the attributes of a `Matrix` (its header), the
cache `(_lastRayToBeTraced, _lastRayTrace)` and its elements. The cache holds references to ray
objects: they are addresses in the heap of `Model/Trace.lean`. -/
inductive Elem (F : Type) where
  | leaf (m : Mat F)
  | group (m : Mat F) (cache : Option (Nat × List Nat)) (es : List (Elem F))

/-- The attributes an element has as a `Matrix`. -/
def Elem.mat : Elem F → Mat F
  | .leaf m => m
  | .group m _ _ => m

/-- A `MatrixGroup` object (also `ImagingPath`, `LaserPath`, `CompoundLens`, `Objective`). -/
structure Group (F : Type) where
  mat : Mat F
  cache : Option (Nat × List Nat)
  elems : List (Elem F)

/-- A group used as an element of another group. -/
def Group.toElem (g : Group F) : Elem F := .group g.mat g.cache g.elems

variable [PyNum F]

/-- `isinstance(element, Space)`. -/
def Elem.isSpace (e : Elem F) : Bool :=
  match e.mat.kind with
  | .space => true
  | _ => false

/-- `matrixgroup.py:75-76`: both indices of a `Space` are overwritten. -/
def Elem.setIndices (e : Elem F) (n : F) : Elem F :=
  match e with
  | .leaf m => .leaf { m with frontIndex := n, backIndex := n }
  | .group m c es => .group { m with frontIndex := n, backIndex := n } c es

mutual
/-- `element.transferMatrix(upTo)`: `Mat.transferMatrix` for a single element, `matrixgroup.py:273-324` for a
group. -/
def Elem.transferMatrix : Elem F → F → Except PyErr (Mat F)
  | .leaf m, upTo => m.transferMatrix upTo
  | .group _ _ es, upTo => transferMatrixList es upTo Mat.one
/-- the loop of `matrixgroup.py:316-324`; `acc` is `transferMatrix`, the second argument `distance`. -/
def transferMatrixList : List (Elem F) → F → Mat F → Except PyErr (Mat F)
  | [], _, acc => .ok acc
  | e :: es, distance, acc =>
    if e.mat.L ≤. distance then
      match e.mat.mulMatrix acc with
      | .error x => .error x
      | .ok t => transferMatrixList es (distance - e.mat.L) t
    else
      match e.transferMatrix distance with
      | .error x => .error x
      | .ok p => p.mulMatrix acc
end

/-- `matrixgroup.py:83-91`: the header is refreshed from the transfer matrix. -/
def Mat.refresh (m t : Mat F) : Mat F :=
  { m with A := t.A, B := t.B, C := t.C, D := t.D, L := t.L, frontVertex := t.frontVertex,
           backVertex := t.backVertex, frontIndex := t.frontIndex, backIndex := t.backIndex }

/-- `matrixgroup.py:81-91`: the element is pushed, then the header refreshed. If the product is refused by the
constructor, the element stays in the list. -/
def Group.push (g : Group F) (e : Elem F) : Group F × Except PyErr Unit :=
  let g1 := { g with elems := g.elems ++ [e] }
  match transferMatrixList g1.elems inf Mat.one with
  | .error x => (g1, .error x)
  | .ok t => ({ g1 with mat := g1.mat.refresh t }, .ok ())

/-- `matrixgroup.py:38-91` `append(matrix)`. The check that `matrix` is a `Matrix` is left to the types. A `Space`
whose index differs is modified (in Python, the caller's object). -/
def Group.append (g : Group F) (e : Elem F) : Group F × Except PyErr Unit :=
  match g.elems.getLast? with
  | none => g.push e
  | some last =>
    if last.mat.backIndex !=. e.mat.frontIndex then
      if e.isSpace then g.push (e.setIndices last.mat.backIndex)
      else (g, .error .valueError)
    else g.push e

/-- `for element in elements: self.append(element)`; stops at the first exception. -/
def Group.appendAll (g : Group F) : List (Elem F) → Group F × Except PyErr Unit
  | [] => (g, .ok ())
  | e :: es =>
    match g.append e with
    | (g1, .ok ()) => g1.appendAll es
    | (g1, .error x) => (g1, .error x)

/-- `matrixgroup.py:20-23`, `35-36`: a group without elements. -/
def Group.empty (label : String := "") : Group F :=
  { mat := { (Mat.one : Mat F) with label := label, kind := .group }, cache := none, elems := [] }

/-- `matrixgroup.py:19-36` `MatrixGroup(elements, label)`. -/
def Group.new (es : List (Elem F)) (label : String := "") : Except PyErr (Group F) :=
  match (Group.empty label).appendAll es with
  | (g, .ok ()) => .ok g
  | (_, .error x) => .error x

/-! ## Python lists -/

/-- the bound of a Python slice: negative positions count from the end, then clamped to `[0, n]`. -/
def pyClamp (i : Int) (n : Nat) : Nat :=
  if i < 0 then (i + n).toNat else min i.toNat n

/-- a Python index: `none` when out of range. -/
def pyIndex (i : Int) (n : Nat) : Option Nat :=
  if 0 ≤ i then (if i < n then some i.toNat else none)
  else if 0 ≤ i + n then some (i + n).toNat else none

/-! ## Editing -/

/-- `matrixgroup.py:173-176`, `221-224`: clear the list and append everything again. The header keeps its old
value when there is nothing to append. -/
def Group.rebuild (g : Group F) (es : List (Elem F)) : Group F × Except PyErr Unit :=
  ({ g with elems := [] } : Group F).appendAll es

/-- `matrixgroup.py:147-177` `pop(index)`. -/
def Group.pop (g : Group F) (index : Int) : Group F × Except PyErr (Elem F) :=
  match pyIndex index g.elems.length with
  | none => (g, .error .indexError)
  | some k =>
    match g.elems[k]? with
    | none => (g, .error .indexError)
    | some popped =>
      match g.rebuild (g.elems.eraseIdx k) with
      | (g1, .ok ()) => (g1, .ok popped)
      | (g1, .error x) => (g1, .error x)

/-- `matrixgroup.py:179-224` `insert(index, element)`; `new` is the iterable (one element is `[e]`, a group is the
list of its elements). -/
def Group.insert (g : Group F) (index : Int) (new : List (Elem F)) : Group F × Except PyErr Unit :=
  match (Group.new new : Except PyErr (Group F)) with
  | .error x => (g, .error x)
  | .ok ng =>
    let n := g.elems.length
    g.rebuild (g.elems.take (pyClamp index n) ++ ng.elems ++ g.elems.drop (pyClamp index n))

/-- `matrixgroup.py:269-271` `group[key] = element` with an integer key. -/
def Group.setItem (g : Group F) (key : Int) (new : List (Elem F)) : Group F × Except PyErr Unit :=
  match g.pop key with
  | (g1, .error x) => (g1, .error x)
  | (g1, .ok _) => g1.insert key new

/-- `matrixgroup.py:260-268` `group[start:stop] = element`; the step is ignored by the code. -/
def Group.setSlice (g : Group F) (start stop : Option Int) (new : List (Elem F)) :
    Group F × Except PyErr Unit :=
  let n := g.elems.length
  let s : Int := start.getD 0
  let e : Int := stop.getD n
  let g1 : Group F := { g with elems := g.elems.take (pyClamp s n) ++ g.elems.drop (pyClamp e n) }
  g1.insert s new

/-- `matrixgroup.py:145` `group[key]` with an integer key. -/
def Group.getItem (g : Group F) (key : Int) : Except PyErr (Elem F) :=
  match pyIndex key g.elems.length with
  | none => .error .indexError
  | some k => match g.elems[k]? with
    | none => .error .indexError
    | some e => .ok e

/-- `matrixgroup.py:142-143` `group[start:stop]` (no step): a new group. -/
def Group.getSlice (g : Group F) (start stop : Option Int) : Except PyErr (Group F) :=
  let n := g.elems.length
  let s := pyClamp (start.getD 0) n
  let e := pyClamp (stop.getD n) n
  Group.new ((g.elems.take e).drop s)

/-- `matrixgroup.py:533-557` `load(filePath, append)`, given the list of elements read from the file. -/
def Group.load (g : Group F) (loaded : List (Elem F)) (append : Bool := false) :
    Group F × Except PyErr Unit :=
  if append then g.appendAll loaded
  else ({ g with elems := [] } : Group F).appendAll loaded

/-- `lasercavity.py:46-58` `appendElementsInReverse`: the elements are added to the list directly. -/
def Group.appendElementsInReverse (g : Group F) (skipFirst : Bool := false) (skipLast : Bool := false) : Group F :=
  let fwd := if skipFirst then g.elems.drop 1 else g.elems
  let fwd := if skipLast then fwd.dropLast else fwd
  { g with elems := g.elems ++ fwd.reverse }

/-! ## Flipping -/

/-- `specialtylenses.py:418-431`: the loop setting the vertices of a flipped objective; `z` is the running
position. -/
def objectiveVertices (m : Mat F) (z : F) : List (Elem F) → Mat F
  | [] => m
  | e :: es =>
    let m1 : Mat F :=
      if e.mat.label = "frontAperture" then
        if m.isFlipped then { m with frontVertex := some z } else { m with backVertex := some z }
      else if e.mat.label = "backAperture" then
        if m.isFlipped then { m with backVertex := some z } else { m with frontVertex := some z }
      else m
    objectiveVertices m1 (z + e.mat.L) es

/-- `matrixgroup.py:479-481`: the flipped elements are appended one by one; stops at the first exception. -/
def Group.appendFlipped (g : Group F) : List (Elem F × Except PyErr Unit) → Group F × Except PyErr Unit
  | [] => (g, .ok ())
  | (_, .error x) :: _ => (g, .error x)
  | (e, .ok ()) :: es =>
    match g.append e with
    | (g1, .ok ()) => g1.appendFlipped es
    | (g1, .error x) => (g1, .error x)

/-- `specialtylenses.py:415-432`: what `Objective.flipOrientation` adds after `MatrixGroup.flipOrientation`. -/
def Group.finishFlip (r : Group F × Except PyErr Unit) : Group F × Except PyErr Unit :=
  match r with
  | (g, .error x) => (g, .error x)
  | (g, .ok ()) =>
    match g.mat.kind with
    | .objective => ({ g with mat := objectiveVertices g.mat 0 g.elems }, .ok ())
    | _ => (g, .ok ())

mutual
/-- `element.flipOrientation()`: `Mat.flip` for a single element, `matrixgroup.py:470-483` for a group, where every
element is flipped and appended again in reverse order. -/
def Elem.flip : Elem F → Elem F × Except PyErr Unit
  | .leaf m => (.leaf m.flip.1, m.flip.2)
  | .group m c es =>
    let r := Group.finishFlip
      (Group.appendFlipped { mat := { m with isFlipped := !m.isFlipped }, cache := c, elems := [] }
        (flipList es).reverse)
    (r.1.toElem, r.2)
/-- the elements of a group, each flipped. -/
def flipList : List (Elem F) → List (Elem F × Except PyErr Unit)
  | [] => []
  | e :: es => e.flip :: flipList es
end

/-- `group.flipOrientation()`: `matrixgroup.py:470-483`. -/
def Group.flip (g : Group F) : Group F × Except PyErr Unit :=
  Group.finishFlip
    (Group.appendFlipped { mat := { g.mat with isFlipped := !g.mat.isFlipped }, cache := g.cache, elems := [] }
      (flipList g.elems).reverse)

/-! ## Queries -/

mutual
/-- `transferMatrices()`: `matrix.py:537-544` for a single element, `matrixgroup.py:326-363` for a group. -/
def Elem.transferMatrices : Elem F → List (Mat F)
  | .leaf m => [m]
  | .group _ _ es => transferMatricesList es
/-- the loop of `matrixgroup.py:359-363`. -/
def transferMatricesList : List (Elem F) → List (Mat F)
  | [] => []
  | e :: es => e.transferMatrices ++ transferMatricesList es
end

/-- `matrixgroup.py:398`: is the plane already listed? (default tolerance 1e-3 of `utils.py:121`) -/
def planeKnown (planes : List (F × F)) (position magnification : F) : Bool :=
  planes.any fun p => areAbsolutelyAlmostEqual p.1 position (lit (1 / 1000)) &&
    areAbsolutelyAlmostEqual p.2 magnification (lit (1 / 1000))

/-- the loop of `matrixgroup.py:391-402`. -/
def conjugatesLoop : List (Mat F) → Mat F → List (F × F) → Except PyErr (List (F × F))
  | [], _, planes => .ok planes
  | m :: ms, acc, planes => do
    let t ← m.mulMatrix acc
    let (distance, conjugate) ← t.forwardConjugate
    let planePosition := t.L + distance
    match conjugate with
    | some c =>
      if planePosition !=. 0 then
        if planeKnown planes planePosition c.A then conjugatesLoop ms t planes
        else conjugatesLoop ms t (planes ++ [(planePosition, c.A)])
      else conjugatesLoop ms t planes
    | none => conjugatesLoop ms t planes

/-- `matrixgroup.py:365-402` `intermediateConjugates()`. -/
def Group.intermediateConjugates (g : Group F) : Except PyErr (List (F × F)) :=
  conjugatesLoop (transferMatricesList g.elems) Mat.one []

mutual
/-- `hasFiniteApertureDiameter()`: `matrix.py:481-489` and `matrixgroup.py:446-451`. -/
def Elem.hasFiniteApertureDiameter : Elem F → Bool
  | .leaf m => m.hasFiniteApertureDiameter
  | .group _ _ es => hasFiniteApertureList es
/-- the loop of `matrixgroup.py:448-451`. -/
def hasFiniteApertureList : List (Elem F) → Bool
  | [] => false
  | e :: es => if e.hasFiniteApertureDiameter then true else hasFiniteApertureList es
end

mutual
/-- `largestDiameter`: `matrix.py:469-479`, `1529-1539` (`Lens`) and `matrixgroup.py:453-468`. -/
def Elem.largestDiameter : Elem F → F
  | .leaf m => m.largestDiameter
  | .group _ _ es =>
    if hasFiniteApertureList es then largestDiameterList es 0
    else match es with
      | e :: _ => e.mat.displayHalfHeight.1 * 2
      | [] => inf
/-- the loop of `matrixgroup.py:459-462`. -/
def largestDiameterList : List (Elem F) → F → F
  | [], maxDiameter => maxDiameter
  | e :: es, maxDiameter =>
    let diameter := e.largestDiameter
    if (diameter !=. inf) && (maxDiameter <. diameter) then largestDiameterList es diameter
    else largestDiameterList es maxDiameter
end

end RT
