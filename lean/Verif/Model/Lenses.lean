import Verif.Model.Group
import Verif.Model.Beam

/-! # Lenses made of glasses, and the surfaces drawn

`specialtylenses.py:24-337` (`CompoundLens`, `AchromatDoubletLens`, `SingletLens`), `interface.py`, `matrix.py:184-205` (`surfaces`) and
`forwardSurfaces` of every class, `graphicComponents.py:190-316` (`Surface`, `SurfacePair`), `graphics.py:303-338` (`SurfacesGraphic`).

Left out: `url`, `designFocalLength` and `wavelengthRef` are stored and read only by `focalShifts` and `showChromaticAberrations`
(matplotlib); the texts of the warnings; colours. -/

namespace RT
open PyNum
variable {F : Type} [PyNum F]

/-- `math.asin`, `math.cos`, `math.sin` and `np.tan`: operations only, no law. `asin` is only used on `[-1, 1]` and `nan`, see `pyAsin`. -/
class PyTrig (F : Type) where
  asin : F → F
  cos : F → F
  sin : F → F
  tan : F → F

/-- `math.asin(x)` raises `ValueError` outside of `[-1, 1]`. -/
def pyAsin [PyTrig F] (x : F) : Except PyErr F :=
  if (1 <. x) || (x <. -1) then .error .valueError else .ok (PyTrig.asin x)

/-! ## Surfaces -/

/-- `interface.py`: the class of a surface and what it holds. A `FlatInterface` is a `SphericalInterface` of radius `+inf`. -/
inductive Shape (F : Type) where
  | spherical (R : F)
  | flat
  | conical (alpha : F)
  deriving DecidableEq, Repr

/-- `interface.py:1-4` a surface, with the index `n` and the distance `L` up to the next surface. -/
structure Surf (F : Type) where
  shape : Shape F
  L : F
  n : F
  deriving DecidableEq, Repr

/-- `matrix.py:196-197`: only the class `SphericalInterface` itself has its radius negated. -/
def Shape.flip : Shape F → Shape F
  | .spherical R => .spherical (R * -1)
  | sh => sh

/-- `matrix.py:195-203`: the loop over the reversed surfaces; index and
distance are those of the next surface, which has not been changed yet. -/
def flipLoop : List (Surf F) → List (Surf F)
  | [] => []
  | s :: ss =>
    let next : F × F := match ss with
      | [] => (0, 1)
      | t :: _ => (t.L, t.n)
    ⟨s.shape.flip, next.1, next.2⟩ :: flipLoop ss

/-- `matrix.py:189-205` `surfaces`, given `forwardSurfaces` and `isFlipped`. -/
def orient (isFlipped : Bool) (ss : List (Surf F)) : List (Surf F) :=
  if isFlipped then flipLoop ss.reverse else ss

/-- `forwardSurfaces` of a single element: `matrix.py:185-187`, `1480-1487`, `1582-1585`, `1750-1753`, `1831-1835`, `1942-1944`,
`axicon.py:134-140`. -/
def Mat.forwardSurfaces [PyTrig F] (m : Mat F) : Except PyErr (List (Surf F)) :=
  match m.kind with
  | .lens _ _ => .ok [⟨.spherical 100, 0, 1⟩, ⟨.spherical (-100), 0, 1⟩]
  | .curvedMirror => do
    let R ← pyDiv 2 m.C
    pure [⟨.spherical R, 0, 1⟩]
  | .dielectric _ n2 R => .ok [⟨.spherical R, 0, n2⟩]
  | .thickLens n R1 R2 => .ok [⟨.spherical R1, m.L, n⟩, ⟨.spherical R2, 0, 1⟩]
  | .slab n _ _ => .ok [⟨.flat, m.L, n⟩, ⟨.flat, 0, 1⟩]
  | .axicon n alpha => .ok [⟨.flat, -PyTrig.tan alpha * m.displayHalfHeight.1, n⟩, ⟨.conical alpha, 0, 1⟩]
  | _ => .ok []

/-- `element.surfaces` of a single element: `matrix.py:189-205`. -/
def Mat.surfaces [PyTrig F] (m : Mat F) : Except PyErr (List (Surf F)) := do
  let ss ← m.forwardSurfaces
  pure (orient m.isFlipped ss)

/-! ## Lenses made of glasses -/

/-- `CompoundLens` and its subclasses, with what they keep of their arguments. -/
inductive Glasses (F : Type) where
  | compound
  | doublet (R1 R2 R3 tc1 tc2 n1 n2 : F)
  | singlet (R1 R2 tc n : F)
  deriving DecidableEq, Repr

/-- A `CompoundLens` object. -/
structure GlassLens (F : Type) where
  group : Group F
  glasses : Glasses F

/-- the loop of `specialtylenses.py:49-53` over the reversed elements; `len` is `spaceLength`. -/
def compoundLoop : List (Elem F) → F → List (Surf F)
  | [], _ => []
  | e :: es, len =>
    match e.mat.kind with
    | .space => compoundLoop es e.mat.L
    | .dielectric _ n2 R => ⟨.spherical R, len, n2⟩ :: compoundLoop es len
    | _ => compoundLoop es len

/-- `forwardSurfaces`: `specialtylenses.py:45-55`, `222-226`, `334-337`. -/
def GlassLens.forwardSurfaces (l : GlassLens F) : List (Surf F) :=
  match l.glasses with
  | .compound => (compoundLoop l.group.elems.reverse 0).reverse
  | .doublet R1 R2 R3 tc1 tc2 n1 n2 => [⟨.spherical R1, tc1, n1⟩, ⟨.spherical R2, tc2, n2⟩, ⟨.spherical R3, 0, 1⟩]
  | .singlet R1 R2 tc n => [⟨.spherical R1, tc, n⟩, ⟨.spherical R2, 0, 1⟩]

/-- `lens.surfaces`: `matrix.py:189-205`. -/
def GlassLens.surfaces (l : GlassLens F) : List (Surf F) := orient l.group.mat.isFlipped l.forwardSurfaces

/-- `lens.flipOrientation()`: inherited from `MatrixGroup`. -/
def GlassLens.flip (l : GlassLens F) : GlassLens F × Except PyErr Unit :=
  ({ l with group := l.group.flip.1 }, l.group.flip.2)

/-- `specialtylenses.py:28-30` `CompoundLens.__init__`. -/
def compoundGroup (es : List (Elem F)) (diameter : F) (label : String) : Except PyErr (Group F) := do
  let g ← Group.new es label
  pure { g with mat := { g.mat with apertureDiameter := diameter } }

/-- The warnings of `specialtylenses.py:190-218`, `302-332`. -/
inductive LensWarn where
  | thickness | focal | backFocal | edge
  deriving DecidableEq, Repr

/-- `if test: warnings.warn(...)`. -/
def warnIf (b : Bool) (w : LensWarn) : List LensWarn := if b then [w] else []

/-- `specialtylenses.py:209-213`, `321-325`: the position of the edge of a surface of radius `R` whose vertex is at `vertex`. -/
def edgeCorner [PyTrig F] (h R : F) (vertex : Option F) : Except PyErr F := do
  let q ← pyDiv h (PyNum.abs R)
  let phi ← pyAsin q
  match vertex with
  | none => throw .typeError
  | some v => pure (v + R * (1 - PyTrig.cos phi))

/-- `"{:.4}".format(x)` in the text of a warning: a Python `int` raises `ValueError` ("Precision not allowed in integer format specifier"), a float
does not. -/
def textOf (isInt : Bool) : Except PyErr Unit := if isInt then .error .valueError else .ok ()

/-- The checks at the end of both constructors, `specialtylenses.py:190-218` and `302-332`: `tc` is the expected thickness, `fa` and `fb` the
expected focal lengths, `R` and `R'` the first and last radius, `te` the expected thickness at the edge. `onThickness` is what happens when
the text of the first warning is prepared: in `SingletLens` it reads `self.tc1`, which does not exist. `pick` is the focal length compared:
the second one for a doublet (`(f, f) = ...`), the first one for a singlet. `intF` and `intB` say whether the expected values written in the texts of
the second and third warnings are Python `int`s: those texts use `{:.4}`, the last one `{:.1f}`. -/
def lensChecks [PyTrig F] (onThickness : Except PyErr Unit) (pick : F × F → F) (g : Group F) (tc fa fb R R' te : F) (intF intB : Bool) :
    Except PyErr (List LensWarn) := do
  let m := g.mat
  let q ← pyDiv (PyNum.abs (tc - m.L)) m.L
  let w1 := warnIf (lit (2 / 100) <. q) .thickness
  if lit (2 / 100) <. q then onThickness
  let f ← m.effectiveFocalLengths
  let q ← pyDiv (pick f - fa) fa
  let w2 := warnIf (lit (1 / 100) <. PyNum.abs q) .focal
  textOf (intF && (lit (1 / 100) <. PyNum.abs q))
  match ← m.backFocalLength with
  | none => throw .typeError
  | some bfl =>
    let q ← pyDiv (bfl - fb) fb
    let w3 := warnIf (lit (1 / 100) <. PyNum.abs q) .backFocal
    textOf (intB && (lit (1 / 100) <. PyNum.abs q))
    let h := half g.toElem.largestDiameter
    let c1 ← edgeCorner h R m.frontVertex
    let c2 ← edgeCorner h R' m.backVertex
    let q ← pyDiv (c2 - c1) te
    let w4 := warnIf (lit (5 / 100) <. PyNum.abs (q - 1)) .edge
    pure (w1 ++ w2 ++ w3 ++ w4)

/-- `specialtylenses.py:290-294`: the index of one glass: `mat.n` is a function that may raise. -/
def glassIndex (n : Option F) (mat : Option (F → Except PyErr F)) (wavelength wavelengthRef : Option F) : Except PyErr (Option F) :=
  match mat with
  | none => .ok n
  | some index =>
    match wavelength, wavelengthRef with
    | some w, _ => (index w).map some
    | none, some w => (index w).map some
    | none, none => .ok n

/-- `specialtylenses.py:168-174`: the indices of the two glasses; the materials are used only when both are given. -/
def glassIndices (n1 n2 : Option F) (mat1 mat2 : Option (F → Except PyErr F)) (wavelength wavelengthRef : Option F) :
    Except PyErr (Option F × Option F) :=
  match mat1, mat2 with
  | some _, some _ => do
    let a ← glassIndex n1 mat1 wavelength wavelengthRef
    let b ← glassIndex n2 mat2 wavelength wavelengthRef
    pure (a, b)
  | _, _ => .ok (n1, n2)

/-- `specialtylenses.py:299-308` the elements of a singlet, then `CompoundLens.__init__`. -/
def singletGroup (R1 R2 tc n diameter : F) (label : String) : Except PyErr (Group F) := do
  let i1 ← mkDielectric 1 n R1 diameter
  let s ← mkSpace tc n
  let i2 ← mkDielectric n 1 R2 diameter
  compoundGroup [.leaf i1, .leaf s, .leaf i2] diameter label

/-- `specialtylenses.py:274-332` `SingletLens(f, fb, R1, R2, tc, te, n, diameter, mat, wavelengthRef, url, label, wavelength)`: the lens and
the warnings. `focalDistances` is `effectiveFocalLengths` (`matrix.py:960-985`). `fbInt`: `fb` is a Python `int`; it is `fb` that is written in both
texts (`314-315`, `319-320`). -/
def mkSinglet [PyTrig F] (f fb R1 R2 tc te : F) (n : Option F) (diameter : F) (mat : Option (F → Except PyErr F))
    (wavelengthRef : Option F) (label : String) (wavelength : Option F) (fbInt : Bool := false) : Except PyErr (GlassLens F × List LensWarn) := do
  match ← glassIndex n mat wavelength wavelengthRef with
  | none => throw .valueError
  | some n =>
    let g ← singletGroup R1 R2 tc n diameter label
    let ws ← lensChecks (.error .attributeError) Prod.fst g tc f fb R1 R2 te fbInt fbInt
    pure (⟨g, .singlet R1 R2 tc n⟩, ws)

/-- `specialtylenses.py:179-188` the elements of a doublet, then `CompoundLens.__init__`. -/
def doubletGroup (R1 R2 R3 tc1 tc2 n1 n2 diameter : F) (label : String) : Except PyErr (Group F) := do
  let i1 ← mkDielectric 1 n1 R1 diameter
  let s1 ← mkSpace tc1 n1
  let i2 ← mkDielectric n1 n2 R2 diameter
  let s2 ← mkSpace tc2 n2
  let i3 ← mkDielectric n2 1 R3 diameter
  compoundGroup [.leaf i1, .leaf s1, .leaf i2, .leaf s2, .leaf i3] diameter label

/-- `specialtylenses.py:152-218` `AchromatDoubletLens(fa, fb, R1, R2, R3, tc1, tc2, te, diameter, n1, n2, mat1, mat2, wavelengthRef, url,
label, wavelength)`. `faInt`, `fbInt`: `fa`, `fb` are Python `int`s. -/
def mkDoublet [PyTrig F] (fa fb R1 R2 R3 tc1 tc2 te diameter : F) (n1 n2 : Option F) (mat1 mat2 : Option (F → Except PyErr F))
    (wavelengthRef : Option F) (label : String) (wavelength : Option F) (faInt : Bool := false) (fbInt : Bool := false) :
    Except PyErr (GlassLens F × List LensWarn) := do
  match ← glassIndices n1 n2 mat1 mat2 wavelength wavelengthRef with
  | (some n1, some n2) =>
    let g ← doubletGroup R1 R2 R3 tc1 tc2 n1 n2 diameter label
    let ws ← lensChecks (.ok ()) Prod.snd g (tc1 + tc2) fa fb R1 R3 te faInt fbInt
    pure (⟨g, .doublet R1 R2 R3 tc1 tc2 n1 n2⟩, ws)
  | _ => throw .valueError

/-! ## Drawing surfaces -/

/-- One side of an outline as drawn: a straight line at `v`, a curve through the vertex `v` with the control points at heights `±ctl` and
the ends at `corner`, or two segments from `v` to `corner`. -/
inductive Face (F : Type) where
  | line (v : F)
  | curve (v ctl corner : F)
  | cone (v corner : F)
  deriving DecidableEq, Repr

/-- The abscissa of the ends, `corners` of `graphicComponents.py:245-316`. -/
def Face.corner : Face F → F
  | .line v => v
  | .curve _ _ c => c
  | .cone _ c => c

/-- The abscissa on the axis. -/
def Face.vertex : Face F → F
  | .line v => v
  | .curve v _ _ => v
  | .cone v _ => v

variable [PyMath F] [PyTrig F]

/-- `graphicComponents.py:208-211`, `261-264`, `299-302`: the angle of the end of the arc. -/
def arcAngle (q : F) : Except PyErr F := if q ≤. 1 then pyAsin q else .ok (half PyMath.pi)

/-- `graphicComponents.py:208-217`, `261-269`, `299-306`: the shift `delta` of the ends and the height of the control points. -/
def arc (h R : F) : Except PyErr (F × F) := do
  let q ← pyDiv h (PyNum.abs R)
  let phi ← arcAngle q
  let t ← pyDiv (1 - PyTrig.cos phi) (PyTrig.sin phi)
  pure (R * (1 - PyTrig.cos phi), PyNum.abs (t * R))

/-- `graphicComponents.py:245-275` `getPathA`, and the distance to the second surface: a curved surface with `L == 0` has its `L` changed. -/
def faceA (h x : F) (s : Surf F) : Except PyErr (Face F × F) :=
  let curved (R : F) : Except PyErr (Face F × F) := do
    let a ← arc h R
    pure (.curve x a.2 (x + a.1), if s.L ==. 0 then a.1 * 2 else s.L)
  match s.shape with
  | .conical alpha => .ok (.cone x (x - PyTrig.tan alpha * h), s.L)
  | .flat => .ok (.line x, s.L)
  | .spherical R => if R ==. inf then .ok (.line x, s.L) else curved R

/-- `graphicComponents.py:277-316` `getPathB`; `v` is `self.x + self.surfaceA.L`. -/
def faceB (h v : F) (s : Surf F) : Except PyErr (Face F) :=
  let curved (R : F) : Except PyErr (Face F) := do
    let a ← arc h R
    pure (.curve v a.2 (v + a.1))
  match s.shape with
  | .conical alpha => .ok (.cone v (v + PyTrig.tan alpha * h))
  | .flat => .ok (.line v)
  | .spherical R => if R ==. inf then .ok (.line v) else curved R

/-- `graphics.py:318-324`: the loop over consecutive surfaces; `z` is the running position. -/
def drawPairs (h z : F) : List (Surf F) → Except PyErr (List (Face F × Face F))
  | a :: b :: ss => do
    let p ← faceA h z a
    let q ← faceB h (z + p.2) b
    let rest ← drawPairs h (z + p.2) (b :: ss)
    pure ((p.1, q) :: rest)
  | _ => .ok []

/-- `graphics.py:311-327` `mainComponents`: one surface alone is drawn alone (`graphicComponents.py:192-222`, a conical surface has no `R`). -/
def drawSurfaces (h : F) (ss : List (Surf F)) : Except PyErr (List (Face F × Face F)) :=
  match ss with
  | [s] =>
    match s.shape with
    | .conical _ => .error .attributeError
    | _ => do
      let f ← faceB h 0 s
      pure [(f, f)]
  | _ => drawPairs h 0 ss

end RT
