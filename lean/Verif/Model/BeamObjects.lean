import Verif.Model.Beam

/-! # Beam objects: `matrixgroup.py:404-444` for beams

`Model/Beam.lean` gives the trace of a beam that the group has not just traced. Here beams are objects: a group remembers the last object it traced, with its trace, and gives
this trace again when it gets the same object (`GaussianBeam` has no `__eq__`, so `ray != self._lastRayToBeTraced` compares identities). Nothing modifies a beam object, so the
beams that exist are a list that only grows; an address is a position in it. The cache of `Elem` holds addresses of beams here. Rays traced in between, which replace what is
remembered, are not described. -/

namespace RT
open PyNum
variable {F : Type} [PyNum F] [PyMath F]

mutual
/-- `element.trace(beam)` on objects, `matrix.py:655-666` and `matrixgroup.py:429-444`: the addresses of the trace or the exception, the beams that exist, and the element with
what it remembers. -/
def Elem.traceBeamH : Elem F → Nat → List (Beam F) → Except PyErr (List Nat) × List (Beam F) × Elem F
  | .leaf m, a, h =>
    match h[a]? with
    | none => (.error .typeError, h, .leaf m)
    | some b =>
      match m.mulBeam b with
      | .error x => (.error x, h, .leaf m)
      | .ok b1 => (.ok [h.length], h ++ [b1], .leaf m)
  | .group m none es, a, h =>
    match traceBeamListH es a h with
    | (.error x, h1, es1) => (.error x, h1, .group m none es1)
    | (.ok t, h1, es1) => (.ok (a :: t), h1, .group m (some (a, a :: t)) es1)
  | .group m (some (last, t0)) es, a, h =>
    if a = last then (.ok t0, h, .group m (some (last, t0)) es)
    else
      match traceBeamListH es a h with
      | (.error x, h1, es1) => (.error x, h1, .group m (some (last, t0)) es1)
      | (.ok t, h1, es1) => (.ok (a :: t), h1, .group m (some (a, a :: t)) es1)
/-- the loop of `matrixgroup.py:435-438` -/
def traceBeamListH : List (Elem F) → Nat → List (Beam F) → Except PyErr (List Nat) × List (Beam F) × List (Elem F)
  | [], _, h => (.ok [], h, [])
  | e :: es, a, h =>
    match e.traceBeamH a h with
    | (.error x, h1, e1) => (.error x, h1, e1 :: es)
    | (.ok t, h1, e1) =>
      match traceBeamListH es (t.getLast?.getD a) h1 with
      | (.error x, h2, es1) => (.error x, h2, e1 :: es1)
      | (.ok ts, h2, es1) => (.ok (t ++ ts), h2, e1 :: es1)
end

end RT
