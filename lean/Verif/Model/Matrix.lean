import Verif.Model.Ray

/-! # Model of `raytracing/matrix.py` (and `raytracing/axicon.py`): single elements -/

namespace RT
open PyNum
variable {F : Type} [PyNum F]

/-- The Python class of an element, with the attributes that only that class has.
* `lens f halfHeight`: `matrix.py:1445-1539`, `_physicalHalfHeight`;
* `dielectric n1 n2 R`: `matrix.py:1712-1773`;
* `thickLens n R1 R2`: `matrix.py:1776-1904`; `slab` is `DielectricSlab`, `matrix.py:1907-1965`;
* `axicon n alpha`: `axicon.py:30-35`;
* `group` is a `MatrixGroup`, `objective` the subclass `Objective` (`specialtylenses.py:340-445`), whose
  `flipOrientation` differs. -/
inductive Kind (F : Type) where
  | matrix
  | lens (f halfHeight : F)
  | curvedMirror
  | space
  | dielectric (n1 n2 R : F)
  | thickLens (n R1 R2 : F)
  | slab (n R1 R2 : F)
  | aperture
  | axicon (n alpha : F)
  | group
  | objective
  deriving DecidableEq, Repr

/-- `matrix.py:118-163` the attributes of a `Matrix`. -/
structure Mat (F : Type) where
  A : F
  B : F
  C : F
  D : F
  L : F
  frontVertex : Option F
  backVertex : Option F
  frontIndex : F
  backIndex : F
  apertureDiameter : F
  apertureNA : F
  label : String
  isFlipped : Bool
  kind : Kind F
  deriving DecidableEq, Repr

/-- `matrix.py:116` `Matrix.__epsilon__ = 1e-5`. -/
def eps : F := lit (1 / 100000)

/-- `matrix.py:118-132` the default arguments of `Matrix.__init__`: also the value of
`Matrix(A=1, B=0, C=0, D=1)`. -/
def Mat.one : Mat F :=
  { A := 1, B := 0, C := 0, D := 1, L := 0, frontVertex := none, backVertex := none,
    frontIndex := 1, backIndex := 1, apertureDiameter := inf, apertureNA := inf, label := "",
    isFlipped := false, kind := .matrix }

/-- `matrix.py:169-182` `determinant`. -/
def Mat.determinant (m : Mat F) : F :=
  if m.C ==. 0 then m.A * m.D else m.A * m.D - m.B * m.C

/-- `matrix.py:118-163` `Matrix.__init__` called with the attributes of `m`: same checks in the same order. -/
def Mat.init (m : Mat F) : Except PyErr (Mat F) := do
  if m.apertureDiameter ≤. 0 then throw .valueError
  if m.apertureNA ≤. 0 then throw .valueError
  let ratio ← pyDiv m.frontIndex m.backIndex
  if areAbsolutelyNotEqual m.determinant ratio eps then throw .valueError
  pure { m with isFlipped := false }

/-- `matrix.py:165-167` `isIdentity`. -/
def Mat.isIdentity (m : Mat F) : Bool :=
  (m.A ==. 1) && (m.D ==. 1) && (m.B ==. 0) && (m.C ==. 0)

/-- `matrix.py:325-327`: the front vertex of the product. -/
def Mat.mulFrontVertex (self r : Mat F) : Option F :=
  match r.frontVertex, self.frontVertex with
  | some v, _ => some v
  | none, some v => some (r.L + v)
  | none, none => none

/-- `matrix.py:329-332`: the back vertex of the product. -/
def Mat.mulBackVertex (self r : Mat F) : Option F :=
  match self.backVertex with
  | some v => some (r.L + v)
  | none => r.backVertex

/-- `matrix.py:334-342`: front index of the product. -/
def Mat.mulFrontIndex (self r : Mat F) : F :=
  if self.isIdentity then r.frontIndex
  else if r.isIdentity then self.frontIndex
  else r.frontIndex

/-- `matrix.py:334-342`: back index of the product. -/
def Mat.mulBackIndex (self r : Mat F) : F :=
  if self.isIdentity then r.backIndex
  else if r.isIdentity then self.backIndex
  else self.backIndex

/-- the arguments passed to the constructor at `matrix.py:307-344`. -/
def Mat.mulRaw (self r : Mat F) : Mat F :=
  { (Mat.one : Mat F) with
    A := self.A * r.A + self.B * r.C
    B := self.A * r.B + self.B * r.D
    C := self.C * r.A + self.D * r.C
    D := self.C * r.B + self.D * r.D
    L := self.L + r.L
    frontVertex := self.mulFrontVertex r
    backVertex := self.mulBackVertex r
    frontIndex := self.mulFrontIndex r
    backIndex := self.mulBackIndex r }

/-- `matrix.py:249-344` `mul_matrix`: `self * r`. -/
def Mat.mulMatrix (self r : Mat F) : Except PyErr (Mat F) := Mat.init (self.mulRaw r)

/-- `x / 2` with a literal divisor. -/
def half (x : F) : F := rawDiv x 2

/-- `matrix.py:410`: the test on the incoming ray in `mul_ray`. -/
def Mat.stops (m : Mat F) (r : Ray F) : Bool :=
  (half m.apertureDiameter <. PyNum.abs r.y) || (m.apertureNA <. PyNum.abs r.theta)

/-- `matrix.py:346-415` `Matrix.mul_ray` on values (a blocked ray is returned as is; the output `Ray()` has no
wavelength). -/
def Mat.mulRayBase (m : Mat F) (r : Ray F) : Ray F :=
  if r.isBlocked then r
  else
    { y := m.A * r.y + m.B * r.theta
      theta := m.C * r.y + m.D * r.theta
      z := m.L + r.z
      isBlocked := if m.stops r then true else r.isBlocked
      apertureDiameter := m.apertureDiameter
      wavelength := none }

/-- `axicon.py:37-53` `deviationAngle`. -/
def deviationAngle (n alpha : F) : F := (n - 1) * alpha

/-- `axicon.py:102-106`: the change of angle applied to the output ray; `y` is the height of the input ray. -/
def axiconTurn (n alpha y theta : F) : F :=
  if 0 <. y then theta + -(deviationAngle n alpha)
  else if y <. 0 then theta + deviationAngle n alpha
  else theta

/-- `element * ray` on values: `matrix.py:346-415`, overridden by `axicon.py:80-108`. -/
def Mat.mulRay (m : Mat F) (r : Ray F) : Ray F :=
  match m.kind with
  | .axicon n alpha => { m.mulRayBase r with theta := axiconTurn n alpha r.y (m.mulRayBase r).theta }
  | _ => m.mulRayBase r

/-! ## Constructors of the subclasses -/

/-- `matrix.py:1651-1662` `Space(d, n, diameter)`. -/
def mkSpace (d : F) (n : F := 1) (diameter : F := inf) : Except PyErr (Mat F) :=
  Mat.init { (Mat.one : Mat F) with
    A := 1, B := d, C := 0, D := 1, L := d, frontIndex := n, backIndex := n,
    apertureDiameter := diameter, kind := .space }

/-- `matrix.py:1469-1477` `Lens(f, diameter)`. -/
def mkLens (f : F) (diameter : F := inf) : Except PyErr (Mat F) := do
  let c ← pyDiv (-1) f
  Mat.init { (Mat.one : Mat F) with
    A := 1, B := 0, C := c, D := 1, L := 0, frontVertex := some 0, backVertex := some 0,
    apertureDiameter := diameter, kind := .lens f 4 }

/-- `matrix.py:1573-1579` `CurvedMirror(R, diameter)`. -/
def mkCurvedMirror (R : F) (diameter : F := inf) : Except PyErr (Mat F) := do
  let c ← pyDiv 2 R
  Mat.init { (Mat.one : Mat F) with
    A := 1, B := 0, C := c, D := 1, L := 0, frontVertex := some 0, backVertex := some 0,
    apertureDiameter := diameter, kind := .curvedMirror }

/-- `matrix.py:1737`, `1770` the power of an interface. -/
def dielectricC (n1 n2 R : F) : Except PyErr F := pyDiv (-(n2 - n1)) (n2 * R)

/-- `matrix.py:1730-1747` `DielectricInterface(n1, n2, R, diameter)`. -/
def mkDielectric (n1 n2 : F) (R : F := inf) (diameter : F := inf) : Except PyErr (Mat F) := do
  let c ← dielectricC n1 n2 R
  let d ← pyDiv n1 n2
  Mat.init { (Mat.one : Mat F) with
    A := 1, B := 0, C := c, D := d, L := 0, frontVertex := some 0, backVertex := some 0,
    frontIndex := n1, backIndex := n2, apertureDiameter := diameter, kind := .dielectric n1 n2 R }

/-- `matrix.py:1819`, `1900` -/
def thickA (n R1 t : F) : Except PyErr F := do
  let q ← pyDiv (t * (1 - n)) (n * R1)
  pure (q + 1)

/-- `matrix.py:1820`, `1901` -/
def thickB (n t : F) : Except PyErr F := pyDiv t n

/-- `matrix.py:1821`, `1902` -/
def thickC (n R1 R2 t : F) : Except PyErr F := do
  let i1 ← pyDiv 1 R1
  let i2 ← pyDiv 1 R2
  let q ← pyDiv (t * (n - 1)) (n * R1 * R2)
  pure (-(n - 1) * (i1 - i2 + q))

/-- `matrix.py:1822`, `1903` -/
def thickD (n R2 t : F) : Except PyErr F := do
  let q ← pyDiv (t * (n - 1)) (n * R2)
  pure (q + 1)

/-- `matrix.py:1812-1828` with the class as a parameter (`ThickLens` or `DielectricSlab`). -/
def mkThickOf (kind : Kind F) (n R1 R2 t : F) (diameter : F) : Except PyErr (Mat F) := do
  let a ← thickA n R1 t
  let b ← thickB n t
  let c ← thickC n R1 R2 t
  let d ← thickD n R2 t
  Mat.init { (Mat.one : Mat F) with
    A := a, B := b, C := c, D := d, L := t, frontVertex := some 0, backVertex := some t,
    apertureDiameter := diameter, kind := kind }

/-- `matrix.py:1812-1828` `ThickLens(n, R1, R2, thickness, diameter)`. -/
def mkThickLens (n R1 R2 t : F) (diameter : F := inf) : Except PyErr (Mat F) :=
  mkThickOf (.thickLens n R1 R2) n R1 R2 t diameter

/-- `matrix.py:1934-1939` `DielectricSlab(n, thickness, diameter)`. -/
def mkSlab (n t : F) (diameter : F := inf) : Except PyErr (Mat F) :=
  mkThickOf (.slab n inf inf) n inf inf t diameter

/-- `matrix.py:1995-2006` `Aperture(diameter, NA, label)`. -/
def mkAperture (diameter : F) (NA : F := inf) (label : String := "") : Except PyErr (Mat F) :=
  Mat.init { (Mat.one : Mat F) with
    apertureDiameter := diameter, apertureNA := NA, label := label, kind := .aperture }

/-- `axicon.py:30-35` `Axicon(alpha, n, diameter)`. -/
def mkAxicon (alpha n : F) (diameter : F := inf) : Except PyErr (Mat F) :=
  Mat.init { (Mat.one : Mat F) with apertureDiameter := diameter, kind := .axicon n alpha }

/-! ## Queries -/

/-- `matrix.py:899-926` `isImaging`. -/
def Mat.isImaging (m : Mat F) : Bool := isAlmostZero m.B eps

/-- `matrix.py:928-946` `hasPower`. -/
def Mat.hasPower (m : Mat F) : Bool := isNotZero m.C eps

/-- `matrix.py:987-1031` `effectiveFocalLengths()`: `(f1, f2)`. -/
def Mat.effectiveFocalLengths (m : Mat F) : Except PyErr (F × F) :=
  if m.hasPower then do
    let f2 ← pyDiv (-1) m.C
    let ratio ← pyDiv m.frontIndex m.backIndex
    let f1 ← pyDiv (-ratio) m.C
    pure (f1, f2)
  else pure (inf, inf)

/-- `matrix.py:1180-1214` `principalPlanePositions(z)`. -/
def Mat.principalPlanePositions (m : Mat F) (z : F) : Except PyErr (Option (F × F)) :=
  if m.hasPower then do
    let ratio ← pyDiv m.frontIndex m.backIndex
    let q1 ← pyDiv (ratio - m.D) m.C
    let q2 ← pyDiv (1 - m.A) m.C
    pure (some (z - q1, z + m.L + q2))
  else pure none

/-- `matrix.py:1136-1178` `focusPositions(z)`. (`principalPlanePositions` is not `None` when the element has
power.) -/
def Mat.focusPositions (m : Mat F) (z : F) : Except PyErr (Option (F × F)) :=
  if m.hasPower then do
    let f ← m.effectiveFocalLengths
    match ← m.principalPlanePositions z with
    | some p => pure (some (p.1 - f.1, p.2 + f.2))
    | none => throw .typeError
  else pure none

/-- `matrix.py:1033-1082` `backFocalLength()`. -/
def Mat.backFocalLength (m : Mat F) : Except PyErr (Option F) :=
  match m.backVertex with
  | some v =>
    if m.hasPower then do
      let f ← m.effectiveFocalLengths
      match ← m.principalPlanePositions 0 with
      | some p => pure (some (p.2 + f.2 - v))
      | none => throw .typeError
    else pure none
  | none => pure none

/-- `matrix.py:1084-1134` `frontFocalLength()`. -/
def Mat.frontFocalLength (m : Mat F) : Except PyErr (Option F) :=
  match m.frontVertex with
  | some v =>
    if m.hasPower then do
      let f ← m.effectiveFocalLengths
      match ← m.principalPlanePositions 0 with
      | some p => pure (some (-(p.1 - f.1 - v)))
      | none => throw .typeError
    else pure none
  | none => pure none

/-- `matrix.py:1216-1262` `forwardConjugate()`: distance and matrix. -/
def Mat.forwardConjugate (m : Mat F) : Except PyErr (F × Option (Mat F)) :=
  if m.D ==. 0 then pure (inf, none)
  else do
    let distance ← pyDiv (-m.B) m.D
    let space ← mkSpace distance m.backIndex
    let conjugate ← space.mulMatrix m
    pure (distance, some conjugate)

/-- `matrix.py:1264-1311` `backwardConjugate()`: the space has the default index 1; `B` is then set to 0. -/
def Mat.backwardConjugate (m : Mat F) : Except PyErr (F × Mat F) := do
  let distance ← if m.A !=. 0 then pyDiv (-m.B) m.A else pure inf
  let space ← mkSpace distance
  let conjugate ← m.mulMatrix space
  pure (distance, { conjugate with B := 0 })

/-- `matrix.py:1313-1346` `magnification()`: transverse and angular. -/
def Mat.magnification (m : Mat F) : Option (F × F) :=
  if m.isImaging then some (m.A, m.D) else none

/-- `matrix.py:481-489` `Matrix.hasFiniteApertureDiameter()`. -/
def Mat.hasFiniteApertureDiameter (m : Mat F) : Bool := m.apertureDiameter !=. inf

/-- `matrix.py:1399-1418` and `1513-1527` `displayHalfHeight()`; for a `Lens` the call also updates
`_physicalHalfHeight`, hence the element returned. -/
def Mat.displayHalfHeight (m : Mat F) : F × Mat F :=
  match m.kind with
  | .lens f hh =>
    if m.apertureDiameter !=. inf then (half m.apertureDiameter, { m with kind := .lens f (half m.apertureDiameter) })
    else (hh, m)
  | _ => (if m.apertureDiameter !=. inf then half m.apertureDiameter else 4, m)

/-- `matrix.py:469-479`, overridden for `Lens` at `1529-1539`. -/
def Mat.largestDiameter (m : Mat F) : F :=
  match m.kind with
  | .lens _ hh => hh
  | _ => m.apertureDiameter

/-! ## Partial transfer matrix of one element -/

/-- `transferMatrix(upTo)`: `matrix.py:491-535`, overridden by `Space` (`1664-1683`), `ThickLens` (`1860-1879`)
and `DielectricSlab` (`1946-1965`). -/
def Mat.transferMatrix (m : Mat F) (upTo : F) : Except PyErr (Mat F) :=
  match m.kind with
  | .space => if upTo <. m.L then mkSpace upTo m.frontIndex else pure m
  | .thickLens n R1 _ =>
    if m.L ≤. upTo then pure m
    else do
      let s ← mkSpace upTo n m.apertureDiameter
      let i ← mkDielectric 1 n R1 m.apertureDiameter
      s.mulMatrix i
  | .slab n _ _ =>
    if m.L ≤. upTo then pure m
    else do
      let s ← mkSpace upTo n m.apertureDiameter
      let i ← mkDielectric 1 n inf m.apertureDiameter
      s.mulMatrix i
  | _ => if m.L ==. 0 then pure m else if m.L ≤. upTo then pure m else throw .typeError

/-! ## Flipping one element -/

/-- `matrix.py:1386-1395` `Matrix.flipOrientation()`: flag, vertices and indices are exchanged. -/
def Mat.flipBase (m : Mat F) : Mat F :=
  { m with isFlipped := !m.isFlipped, frontVertex := m.backVertex, backVertex := m.frontVertex,
           frontIndex := m.backIndex, backIndex := m.frontIndex }

/-- `flipOrientation()` of a single element: `matrix.py:1348-1397`, overridden by `CurvedMirror` (`1611-1622`),
`DielectricInterface` (`1755-1773`) and `ThickLens` (`1881-1904`). The element is modified in place: the first
component is the state left behind, also when an exception is raised half-way. -/
def Mat.flip (m : Mat F) : Mat F × Except PyErr Unit :=
  match m.kind with
  | .curvedMirror => ({ m.flipBase with C := -m.C }, .ok ())
  | .dielectric n1 n2 R =>
    let m1 := { m.flipBase with kind := .dielectric n2 n1 (-R) }
    match dielectricC n2 n1 (-R) with
    | .error e => (m1, .error e)
    | .ok c =>
      match pyDiv n2 n1 with
      | .error e => ({ m1 with C := c }, .error e)
      | .ok d => ({ m1 with C := c, D := d }, .ok ())
  | .thickLens n R1 R2 => flipThick (.thickLens n (-R2) (-R1)) m.flipBase n (-R2) (-R1)
  | .slab n R1 R2 => flipThick (.slab n (-R2) (-R1)) m.flipBase n (-R2) (-R1)
  | _ => (m.flipBase, .ok ())
where
  /-- `matrix.py:1895-1904`; `R1`, `R2` are the new radii. -/
  flipThick (kind : Kind F) (m : Mat F) (n R1 R2 : F) : Mat F × Except PyErr Unit :=
    let m := { m with kind := kind }
    match thickA n R1 m.L with
    | .error e => (m, .error e)
    | .ok a =>
      let m := { m with A := a }
      match thickB n m.L with
      | .error e => (m, .error e)
      | .ok b =>
        let m := { m with B := b }
        match thickC n R1 R2 m.L with
        | .error e => (m, .error e)
        | .ok c =>
          let m := { m with C := c }
          match thickD n R2 m.L with
          | .error e => (m, .error e)
          | .ok d => ({ m with D := d }, .ok ())

end RT
