import Verif.Model.Trace

/-! # Model of `raytracing/imagingpath.py`: stops, pupils, chief and marginal rays, fields

These methods ask `self.trace(...)` about rays they create, and otherwise only read the path. Traces go through the
caches of the path, so a method is written as a program that asks for traces (`Prog`); `Prog.runH` runs it on a
path with its caches and the heap of ray objects, `Prog.run` on a function giving the trace of each ray. The drawing
attributes (`imagingpath.py:98-106`) are in `Model/Figure.lean` and `reportEfficiency` (819-926) in `Model/Efficiency.lean`. -/

namespace RT
open PyNum
variable {F : Type}

/-- A program that asks for traces of rays `Ray(y, theta)` it creates, and then answers or raises. -/
inductive Prog (F : Type) (α : Type) where
  | done (r : Except PyErr α)
  | trace (y theta : F) (k : List (Ray F) → Prog F α)

namespace Prog
variable {α β : Type}

/-- one program after the other -/
def bind : Prog F α → (α → Prog F β) → Prog F β
  | done (.ok a), f => f a
  | done (.error x), _ => done (.error x)
  | trace y theta k, f => trace y theta fun t => (k t).bind f

instance : Monad (Prog F) where
  pure a := done (.ok a)
  bind := bind

/-- a computation without traces -/
def lift (r : Except PyErr α) : Prog F α := done r

/-- `self.trace(Ray(y, theta))` -/
def ask (y theta : F) : Prog F (List (Ray F)) := trace y theta fun t => done (.ok t)

/-- `raise` -/
def raise (x : PyErr) : Prog F α := done (.error x)

/-- Run with the traces given by a function. -/
def run (tr : F → F → List (Ray F)) : Prog F α → Except PyErr α
  | done r => r
  | trace y theta k => run tr (k (tr y theta))

/-- Run on a path, with its caches and the ray objects. -/
def runH [PyNum F] : Prog F α → Group F → Heap F → Except PyErr α × Group F × Heap F
  | done r, g, h => (r, g, h)
  | trace y theta k, g, h =>
    let (t, h1, g1) := g.traceNew (Ray.new y theta) h
    runH (k (h1.deref t)) g1 h1

end Prog

variable [PyNum F]

/-- `imagingpath.py:86-107` the attributes used in calculations. -/
structure ImagingPath (F : Type) where
  path : Group F
  precision : F
  maxHeight : F
  objectHeight : F

/-- `imagingpath.py:86-107` `ImagingPath(elements, label)`. -/
def ImagingPath.new (es : List (Elem F)) (label : String := "") : Except PyErr (ImagingPath F) := do
  let g ← Group.new es label
  pure { path := g, precision := lit (1 / 1000000), maxHeight := 10000, objectHeight := 10 }

/-- `imagingpath.py:115-122` `path.objectHeight = value`. -/
def ImagingPath.setObjectHeight (p : ImagingPath F) (value : F) : ImagingPath F × Except PyErr Unit :=
  if value <. 0 then (p, .error .valueError) else ({ p with objectHeight := value }, .ok ())

namespace Group
variable (g : Group F)

/-- the loop of `imagingpath.py:475-480`. -/
def stopLoop : List (Ray F) → (maxRatio position diameter : F) → Except PyErr (F × F)
  | [], _, position, diameter => .ok (position, diameter)
  | r :: rs, maxRatio, position, diameter => do
    let q ← pyDiv r.y r.apertureDiameter
    if maxRatio <. PyNum.abs q then stopLoop rs (PyNum.abs q) r.z r.apertureDiameter
    else stopLoop rs maxRatio position diameter

/-- `imagingpath.py:409-482` `apertureStop()`: position (`None` when there is no stop) and diameter. -/
def apertureStop : Prog F (Option F × F) :=
  if hasFiniteApertureList g.elems then do
    let t ← Prog.ask 0 (lit (1 / 10))
    let s ← Prog.lift (stopLoop t 0 0 inf)
    pure (some s.1, s.2)
  else pure (none, inf)

/-- `imagingpath.py:484-492` `hasApertureStop()`. -/
def hasApertureStop : Prog F Bool := do
  let s ← g.apertureStop
  pure s.1.isSome

/-- `self.transferMatrix(upTo)`, `matrixgroup.py:273-324`. -/
def transferMatrix (upTo : F) : Except PyErr (Mat F) := transferMatrixList g.elems upTo Mat.one

/-- `imagingpath.py:199-208`, `309-318`: the transfer matrix to the stop and the diameter of the stop, `None` when
there is no stop or when the stop is an image of the object. -/
def toStop : Prog F (Option (Mat F × F)) := do
  let s ← g.apertureStop
  match s.1 with
  | none => pure none
  | some z =>
    let m ← Prog.lift (g.transferMatrix z)
    if m.isImaging then pure none else pure (some (m, s.2))

/-- `imagingpath.py:151-215` `chiefRay(y)` for a given `y`. -/
def chiefRay (y : F) : Prog F (Option (Ray F)) := do
  match ← g.toStop with
  | none => pure none
  | some (m, _) =>
    let theta ← Prog.lift (pyDiv (-m.A * y) m.B)
    pure (some (Ray.new y theta))

/-- `imagingpath.py:247-326` `marginalRays(y)`: up and down. -/
def marginalRays (y : F) : Prog F (Option (Ray F × Ray F)) := do
  match ← g.toStop with
  | none => pure none
  | some (m, diameter) =>
    let up ← Prog.lift (pyDiv (half diameter - m.A * y) m.B)
    let down ← Prog.lift (pyDiv (half (-diameter) - m.A * y) m.B)
    if up <. down then pure (some (Ray.new y down, Ray.new y up))
    else pure (some (Ray.new y up, Ray.new y down))

/-- `imagingpath.py:328-345` `axialRay()`. -/
def axialRay : Prog F (Option (Ray F)) := do
  match ← g.marginalRays 0 with
  | none => pure none
  | some (up, _) => pure (some up)

/-- `imagingpath.py:494-539` `entrancePupil()`: position and diameter, both `None` when there is none. (`magnification()`
is never `None` here, since `backwardConjugate` sets `B = 0`.) -/
def entrancePupil : Prog F (Option (F × F)) :=
  if hasFiniteApertureList g.elems then do
    let s ← g.apertureStop
    match s.1 with
    | none => Prog.raise .typeError
    | some z =>
      let m ← Prog.lift (g.transferMatrix z)
      let (distance, toPupil) ← Prog.lift m.backwardConjugate
      match toPupil.magnification with
      | none => Prog.raise .typeError
      | some (mt, _) =>
        if mt !=. 0 then do
          let diameter ← Prog.lift (pyDiv s.2 (PyNum.abs mt))
          pure (some (-distance, diameter))
        else pure (some (-distance, inf))
  else pure none

/-- `imagingpath.py:347-378` `fNumber()`. -/
def fNumber : Prog F (Option F) := do
  let pupil ← g.entrancePupil
  let f ← Prog.lift g.mat.effectiveFocalLengths
  match pupil with
  | none => pure none
  | some (_, diameter) =>
    let q ← Prog.lift (pyDiv f.1 diameter)
    pure (some q)

/-- `imagingpath.py:380-407` `NA()`; the function sine of numpy is a parameter. Without axial ray, `None.theta` raises
`AttributeError`. -/
def NA (sin : F → F) : Prog F F := do
  match ← g.axialRay with
  | none => Prog.raise .attributeError
  | some r => pure (g.mat.frontIndex * sin r.theta)

/-- `imagingpath.py:630-634`: the first blocked ray of the trace. -/
def firstBlocked : List (Ray F) → Option F × F
  | [] => (none, inf)
  | r :: rs => if r.isBlocked then (some r.z, r.apertureDiameter) else firstBlocked rs

/-- One turn of the search for the edge of the field, `imagingpath.py:616-626` and `734-744`: the trace of the chief
ray at `y`, whether it is blocked at the end, and the next step. `self.trace(None)` raises `TypeError`
(`matrixgroup.py:430-431`). The chief ray is a `Ray(y, theta)` used nowhere else. -/
def searchStep (y dy : F) (wasBlocked : Bool) : Prog F (List (Ray F) × Bool × F) := do
  match ← g.chiefRay y with
  | none => Prog.raise .typeError
  | some r =>
    let t ← Prog.ask r.y r.theta
    match t.getLast? with
    | none => Prog.raise .indexError
    | some out =>
      pure (t, out.isBlocked, if out.isBlocked != wasBlocked then half (-dy) else dy * lit (3 / 2))

/-- the loop of `imagingpath.py:615-628`; `fuel` bounds the number of turns (`nonTermination` when it is exhausted). The
result is the trace of the last chief ray, or `none` when the search goes beyond `maxHeight`. -/
def fieldStopLoop (precision maxHeight : F) :
    Nat → (y dy : F) → Bool → List (Ray F) → Prog F (Option (List (Ray F)))
  | fuel, y, dy, wasBlocked, last =>
    if (precision <. PyNum.abs dy) || !wasBlocked then
      match fuel with
      | 0 => Prog.raise .nonTermination
      | fuel + 1 => do
        let (t, blocked, dy1) ← g.searchStep y dy wasBlocked
        if (maxHeight <. PyNum.abs (y + dy1)) && !blocked then pure none
        else fieldStopLoop precision maxHeight fuel (y + dy1) dy1 blocked t
    else pure (some last)

/-- `imagingpath.py:541-636` `fieldStop()`: position (`None` when there is no field stop) and diameter. -/
def fieldStop (precision maxHeight : F) (fuel : Nat) : Prog F (Option F × F) := do
  let s ← g.apertureStop
  if hasFiniteApertureList g.elems && (match s.1 with | none => true | some z => z !=. 0) then
    match ← g.fieldStopLoop precision maxHeight fuel 0 (precision * 100) false [] with
    | none => pure (none, inf)
    | some t => pure (firstBlocked t)
  else pure (none, inf)

/-- `imagingpath.py:638-650` `hasFieldStop()`. -/
def hasFieldStop (precision maxHeight : F) (fuel : Nat) : Prog F Bool := do
  let s ← g.fieldStop precision maxHeight fuel
  pure s.1.isSome

/-- the loop of `imagingpath.py:733-746`; `last` is `chiefRay.y`. -/
def fieldOfViewLoop (precision maxHeight : F) : Nat → (y dy : F) → Bool → (last : F) → Prog F F
  | fuel, y, dy, wasBlocked, last =>
    if (precision <. PyNum.abs dy) || wasBlocked then
      match fuel with
      | 0 => Prog.raise .nonTermination
      | fuel + 1 => do
        let (_, blocked, dy1) ← g.searchStep y dy wasBlocked
        if (maxHeight <. PyNum.abs (y + dy1)) && !blocked then pure inf
        else fieldOfViewLoop precision maxHeight fuel (y + dy1) dy1 blocked y
    else pure last

/-- `imagingpath.py:688-748` `halfFieldOfView()`. -/
def halfFieldOfView (precision maxHeight : F) (fuel : Nat) : Prog F F := do
  let s ← g.fieldStop precision maxHeight fuel
  match s.1 with
  | none => pure inf
  | some z =>
    let _ ← Prog.lift (g.transferMatrix z)
    g.fieldOfViewLoop precision maxHeight fuel 0 (precision * 100) false 0

/-- `imagingpath.py:652-686` `fieldOfView()`. -/
def fieldOfView (precision maxHeight : F) (fuel : Nat) : Prog F F := do
  let h ← g.halfFieldOfView precision maxHeight fuel
  pure (2 * h)

/-- `imagingpath.py:210-215` `chiefRay()` without height. -/
def chiefRayOfField (precision maxHeight : F) (fuel : Nat) : Prog F (Option (Ray F)) := do
  match ← g.toStop with
  | none => pure none
  | some (m, _) =>
    let y ← g.halfFieldOfView precision maxHeight fuel
    if PyNum.abs y ==. inf then Prog.raise .valueError
    else do
      let theta ← Prog.lift (pyDiv (-m.A * y) m.B)
      pure (some (Ray.new y theta))

/-- `imagingpath.py:217-245` `principalRay()`. -/
def principalRay (precision maxHeight : F) (fuel : Nat) : Prog F (Option (Ray F)) := do
  let y ← g.halfFieldOfView precision maxHeight fuel
  if y ==. inf then pure none else g.chiefRay y

/-- `imagingpath.py:750-796` `imageSize(useObject)`. The conjugate is that of the header of the path (`self`). -/
def imageSize (precision maxHeight objectHeight : F) (fuel : Nat) (useObject : Bool) : Prog F F := do
  let (_, conjugate) ← Prog.lift g.mat.forwardConjugate
  match conjugate with
  | none => pure inf
  | some c =>
    if useObject then pure (PyNum.abs (objectHeight * c.A))
    else do
      let fov ← g.fieldOfView precision maxHeight fuel
      pure (PyNum.abs (fov * c.A))

/-- `imagingpath.py:798-817` `lagrangeInvariant()`; the two rays are not shared with anything else. -/
def lagrangeInvariant (precision maxHeight : F) (fuel : Nat) : Prog F F := do
  let ray1 ← g.axialRay
  let ray2 ← g.principalRay precision maxHeight fuel
  match ray1, ray2 with
  | some r1, some r2 => Prog.lift (g.toElem.opticalInvariantH 0 1 0 [r1, r2]).1
  | _, _ => pure inf

end Group

end RT
