import Verif.Model.Group

/-! # Model of `raytracing/gaussianbeam.py`, `raytracing/lasercavity.py` and of the beams in `matrix.py`, `matrixgroup.py`

The position of a beam object in memory is not modelled: nothing modifies a beam that was given to an element. A group
recognises the last object it traced by identity (`GaussianBeam` has no `__eq__`), so the trace of a beam object that was
not the last one is always computed; that is what is modelled here, `Model/BeamObjects.lean` has the objects. -/

namespace RT
open PyNum
variable {F : Type} [PyNum F]

/-- The operations of the modules `math` and `cmath` used on beams. `sqrt` is only used on arguments that are not
negative, see `pySqrt`. -/
class PyMath (F : Type) where
  sqrt : F → F
  pi : F

/-- A Python `complex`. -/
structure Cx (F : Type) where
  re : F
  im : F
  deriving DecidableEq, Repr

namespace Cx

/-- `complex(x)`; also the conversion of a float operand. -/
def ofReal (x : F) : Cx F := ⟨x, 0⟩
/-- `a + b` -/
def add (a b : Cx F) : Cx F := ⟨a.re + b.re, a.im + b.im⟩
/-- `a - b` -/
def sub (a b : Cx F) : Cx F := ⟨a.re - b.re, a.im - b.im⟩
/-- `a * b` -/
def mul (a b : Cx F) : Cx F := ⟨a.re * b.re - a.im * b.im, a.re * b.im + a.im * b.re⟩
/-- `a == 0` -/
def isZero (a : Cx F) : Bool := (a.re ==. 0) && (a.im ==. 0)
/-- `a / b`, which raises `ZeroDivisionError`: the method of CPython (`_Py_c_quot`), which divides both by the larger part of `b`. A real
operand is converted with `ofReal` first. The last case is only for `nan`. -/
def div (a b : Cx F) : Except PyErr (Cx F) :=
  if PyNum.abs b.im ≤. PyNum.abs b.re then
    if b.re ==. 0 then .error .zeroDivisionError
    else
      let ratio := rawDiv b.im b.re
      let denom := b.re + b.im * ratio
      .ok ⟨rawDiv (a.re + a.im * ratio) denom, rawDiv (a.im - a.re * ratio) denom⟩
  else if PyNum.abs b.re ≤. PyNum.abs b.im then
    let ratio := rawDiv b.re b.im
    let denom := b.re * ratio + b.im
    .ok ⟨rawDiv (a.re * ratio + a.im) denom, rawDiv (a.im * ratio - a.re) denom⟩
  else .ok ⟨inf - inf, inf - inf⟩
/-- `abs(a)` -/
def abs [PyMath F] (a : Cx F) : F := PyMath.sqrt (a.re * a.re + a.im * a.im)

end Cx

/-- `math.sqrt(x)`: `ValueError` on negative numbers. -/
def pySqrt [PyMath F] (x : F) : Except PyErr F :=
  if x <. 0 then .error .valueError else .ok (PyMath.sqrt x)

/-- `cmath.sqrt(x)` of a real number. -/
def cmathSqrt [PyMath F] (x : F) : Cx F :=
  if x <. 0 then ⟨0, PyMath.sqrt (-x)⟩ else ⟨PyMath.sqrt x, 0⟩

/-- `gaussianbeam.py:36-57` the attributes of a `GaussianBeam`. -/
structure Beam (F : Type) where
  q : Cx F
  wavelength : F
  z : F
  n : F
  isClipped : Bool
  deriving DecidableEq, Repr

namespace Beam

/-- `gaussianbeam.py:37`: the default wavelength. -/
def defaultWavelength : F := lit (6328 / 10000000)

/-- `gaussianbeam.py:43`: the complex radius computed from `w` and `R`. -/
def qOf [PyMath F] (w R n wavelength : F) : Except PyErr (Cx F) := do
  let invR ← pyDiv 1 R
  let i1 := Cx.mul ⟨0, 1⟩ (Cx.ofReal wavelength)
  let i2 ← Cx.div i1 (Cx.ofReal n)
  let i3 ← Cx.div i2 (Cx.ofReal (PyMath.pi * w * w))
  Cx.div (Cx.ofReal 1) (Cx.sub (Cx.ofReal invR) i3)

/-- `utils.py:143-172` `areRelativelyNotEqual(left, right, epsilon)` on complex numbers. -/
def relativelyNotEqual [PyMath F] (left right : Cx F) (epsilon : F) : Except PyErr Bool := do
  let absDiff := Cx.abs (Cx.sub left right)
  let relTol1 ← pyDiv absDiff (Cx.abs left)
  let relTol2 ← pyDiv absDiff (Cx.abs right)
  pure (!((relTol1 <. epsilon) || (relTol2 <. epsilon)))

/-- `gaussianbeam.py:36-57` `GaussianBeam(q, w, R, n, wavelength, z)`; `none` stands for `None`. -/
def new [PyMath F] (q : Option (Cx F)) (w : Option F) (R : F := inf) (n : F := 1)
    (wavelength : F := defaultWavelength) (z : F := 0) : Except PyErr (Beam F) :=
  match q, w with
  | none, none => .error .valueError
  | some q, none => .ok ⟨q, wavelength, z, n, false⟩
  | none, some w => do
    let q ← qOf w R n wavelength
    pure ⟨q, wavelength, z, n, false⟩
  | some q0, some w => do
    let q ← qOf w R n wavelength
    if ← relativelyNotEqual q q0 (lit (5 / 1000)) then throw .valueError
    pure ⟨q, wavelength, z, n, false⟩

/-- `gaussianbeam.py:59-71` `R`. -/
def R (b : Beam F) : Except PyErr F :=
  if b.q.isZero then .ok inf
  else do
    let inv ← Cx.div (Cx.ofReal 1) b.q
    if inv.re ==. 0 then pure inf else pyDiv 1 inv.re

/-- `gaussianbeam.py:73-85` `isFinite`. The division cannot fail. -/
def isFinite (b : Beam F) : Bool :=
  if b.q.isZero then false
  else
    match Cx.div (Cx.ofReal (-1)) b.q with
    | .ok inv => 0 <. inv.im
    | .error _ => false

/-- `gaussianbeam.py:87-96` `w`. -/
def w [PyMath F] (b : Beam F) : Except PyErr F :=
  if !b.isFinite then .ok inf
  else do
    let inv ← Cx.div (Cx.ofReal (-1)) b.q
    let x ← pyDiv b.wavelength b.n
    let y ← pyDiv x (PyMath.pi * inv.im)
    pySqrt y

/-- `gaussianbeam.py:120-125` `zo`; `confocalParameter` and `rayleighRange` are the same, `127-139`. -/
def zo (b : Beam F) : F := b.q.im

/-- `gaussianbeam.py:98-106` `wo`, also `waist` (`108-113`). -/
def wo [PyMath F] (b : Beam F) : Except PyErr (Option F) :=
  if 0 <. b.zo then do
    let x ← pyDiv (b.zo * b.wavelength) PyMath.pi
    let s ← pySqrt x
    pure (some s)
  else pure none

/-- `gaussianbeam.py:115-118` `waistPosition`. -/
def waistPosition (b : Beam F) : F := -b.q.re

end Beam

variable [PyMath F]

/-- `matrix.py:417-467` `Matrix.mul_beam`. -/
def Mat.mulBeamBase (m : Mat F) (b : Beam F) : Except PyErr (Beam F) :=
  if b.n !=. m.frontIndex then .error .runtimeError
  else do
    let q ← Cx.div (Cx.add (Cx.mul (Cx.ofReal m.A) b.q) (Cx.ofReal m.B))
      (Cx.add (Cx.mul (Cx.ofReal m.C) b.q) (Cx.ofReal m.D))
    let out : Beam F := ⟨q, b.wavelength, m.L + b.z, m.backIndex, false⟩
    let w ← out.w
    pure { out with isClipped := if half m.apertureDiameter <. PyNum.abs w then true else b.isClipped }

/-- `element * beam`: `matrix.py:417-467`, overridden by `axicon.py:110-132` which refuses beams. -/
def Mat.mulBeam (m : Mat F) (b : Beam F) : Except PyErr (Beam F) :=
  match m.kind with
  | .axicon _ _ => .error .typeError
  | _ => m.mulBeamBase b

mutual
/-- `element.trace(beam)`: `matrix.py:655-666` (the input is not part of the trace of a single element) and
`matrixgroup.py:429-444`. -/
def Elem.traceBeam : Elem F → Beam F → Except PyErr (List (Beam F))
  | .leaf m, b =>
    match m.mulBeam b with
    | .error x => .error x
    | .ok b1 => .ok [b1]
  | .group _ _ es, b =>
    match traceBeamList es b with
    | .error x => .error x
    | .ok t => .ok (b :: t)
/-- the loop of `matrixgroup.py:435-438` -/
def traceBeamList : List (Elem F) → Beam F → Except PyErr (List (Beam F))
  | [], _ => .ok []
  | e :: es, b =>
    match e.traceBeam b with
    | .error x => .error x
    | .ok t =>
      match traceBeamList es (t.getLast?.getD b) with
      | .error x => .error x
      | .ok ts => .ok (t ++ ts)
end

/-- `matrix.py:668-707` `traceThrough(beam)` -/
def Elem.traceThroughBeam (e : Elem F) (b : Beam F) : Except PyErr (Beam F) :=
  match e.traceBeam b with
  | .error x => .error x
  | .ok t => .ok (t.getLast?.getD b)

/-! ## Cavities -/

/-- `lasercavity.py:61-85` `eigenModes()`; `none` stands for `(None, None)`. -/
def Mat.eigenModes (m : Mat F) : Except PyErr (Option (Beam F × Beam F)) :=
  if !m.hasPower then .ok none
  else do
    let b := m.D - m.A
    let sqrtDelta := cmathSqrt (b * b - 4 * m.C * (-m.B))
    let q1 ← Cx.div (Cx.add (Cx.ofReal (-b)) sqrtDelta) (Cx.ofReal (2 * m.C))
    let q2 ← Cx.div (Cx.sub (Cx.ofReal (-b)) sqrtDelta) (Cx.ofReal (2 * m.C))
    let b1 ← Beam.new (some q1) none
    let b2 ← Beam.new (some q2) none
    pure (some (b1, b2))

/-- `lasercavity.py:87-101` `laserModes()`. -/
def Mat.laserModes (m : Mat F) : Except PyErr (List (Beam F)) := do
  match ← m.eigenModes with
  | none => pure []
  | some (b1, b2) => pure ((if b1.isFinite then [b1] else []) ++ (if b2.isFinite then [b2] else []))

/-- `lasercavity.py:103-109` `isStable`. -/
def Mat.isStable (m : Mat F) : Except PyErr Bool := do
  let beams ← m.laserModes
  pure (decide (0 < beams.length))

end RT
