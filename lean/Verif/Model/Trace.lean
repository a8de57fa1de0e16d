import Verif.Model.Group

/-! # Tracing rays: `matrix.py:346-415`, `605-897`, `matrixgroup.py:404-444`, `axicon.py:80-108`

Ray objects are mutable and shared: a blocked ray is returned as the *same* object, tracing through an element with a
length marks the ray it received, an axicon changes the angle of a ray it returns, and a group keeps a reference to the
last ray and the last trace. So tracing is modelled over a heap of ray objects; an address is a position in
the heap. -/

namespace RT
open PyNum
variable {F : Type} [PyNum F]

/-- The ray objects that exist. -/
abbrev Heap (F : Type) := List (Ray F)

/-- Read an object. Addresses used by the model always exist (`Lemmas/Trace.lean`); `Ray()` otherwise. -/
def Heap.get (h : Heap F) (a : Nat) : Ray F := (h[a]?).getD (Ray.new 0 0)

/-- `ray.isBlocked = True`. -/
def Heap.block (h : Heap F) (a : Nat) : Heap F := h.set a { h.get a with isBlocked := true }

/-- `Matrix.mul_ray`, `matrix.py:346-415`: a blocked ray is returned itself, else a new ray is created. -/
def Mat.mulRayBaseH (m : Mat F) (a : Nat) (h : Heap F) : Nat × Heap F :=
  if (h.get a).isBlocked then (a, h)
  else (h.length, h ++ [m.mulRayBase (h.get a)])

/-- `element * ray` on objects: `matrix.py:346-415` and `axicon.py:80-108`, where the angle of the output object is
changed (it is the input object when that one is blocked). -/
def Mat.mulRayH (m : Mat F) (a : Nat) (h : Heap F) : Nat × Heap F :=
  match m.kind with
  | .axicon n alpha =>
    let (b, h1) := m.mulRayBaseH a h
    (b, h1.set b { h1.get b with theta := axiconTurn n alpha (h1.get a).y (h1.get b).theta })
  | _ => m.mulRayBaseH a h

/-- `matrix.py:660-661` -/
def Mat.markEntry (m : Mat F) (a : Nat) (h : Heap F) : Heap F :=
  if half m.apertureDiameter <. PyNum.abs (h.get a).y then h.block a else h

/-- `matrix.py:605-666` `Matrix.trace(ray)`: addresses of the trace and the new heap. -/
def Mat.traceH (m : Mat F) (a : Nat) (h : Heap F) : List Nat × Heap F :=
  if 0 <. m.L then
    let h1 := m.markEntry a h
    let (b, h2) := m.mulRayH a h1
    ([a, b], h2)
  else
    let (b, h2) := m.mulRayH a h
    ([b], h2)

/-- `matrixgroup.py:433`: is the cached trace used? (`ray != None` is true) -/
def cacheHit (cache : Option (Nat × List Nat)) (a : Nat) (h : Heap F) : Option (List Nat) :=
  match cache with
  | none => none
  | some (last, t) => if (h.get a).eq (h.get last) then some t else none

mutual
/-- `element.trace(ray)`: addresses of the trace, the new heap, and the element with its updated caches. -/
def Elem.traceH : Elem F → Nat → Heap F → List Nat × Heap F × Elem F
  | .leaf m, a, h =>
    let (t, h1) := m.traceH a h
    (t, h1, .leaf m)
  | .group m c es, a, h =>
    match cacheHit c a h with
    | some t => (t, h, .group m c es)
    | none =>
      let (t, h1, es1) := traceListH es a h
      (a :: t, h1, .group m (some (a, a :: t)) es1)
/-- the loop of `matrixgroup.py:435-438`. -/
def traceListH : List (Elem F) → Nat → Heap F → List Nat × Heap F × List (Elem F)
  | [], _, h => ([], h, [])
  | e :: es, a, h =>
    let (t, h1, e1) := e.traceH a h
    let (ts, h2, es1) := traceListH es (t.getLast?.getD a) h1
    (t ++ ts, h2, e1 :: es1)
end

/-- `group.trace(ray)` for a group kept by the caller: `matrixgroup.py:404-444`. -/
def Group.traceH (g : Group F) (a : Nat) (h : Heap F) : List Nat × Heap F × Group F :=
  match cacheHit g.cache a h with
  | some t => (t, h, g)
  | none =>
    let (t, h1, es1) := traceListH g.elems a h
    (a :: t, h1, { g with cache := some (a, a :: t), elems := es1 })

/-- The rays designated by a list of addresses. -/
def Heap.deref (h : Heap F) (t : List Nat) : List (Ray F) := t.map h.get

/-- `group.trace(Ray(...))` with a ray object just created. -/
def Group.traceNew (g : Group F) (r : Ray F) (h : Heap F) : List Nat × Heap F × Group F :=
  g.traceH h.length (h ++ [r])

/-- `element.trace(Ray(...))` with a ray object just created. -/
def Elem.traceNew (e : Elem F) (r : Ray F) (h : Heap F) : List Nat × Heap F × Elem F :=
  e.traceH h.length (h ++ [r])

/-- `matrix.py:668-707` `traceThrough(inputRay)`: the last ray of the trace. -/
def Elem.traceThroughH (e : Elem F) (a : Nat) (h : Heap F) : Nat × Heap F × Elem F :=
  ((e.traceH a h).1.getLast?.getD a, (e.traceH a h).2)

/-- `matrix.py:709-763` `traceMany(inputRays)`. -/
def Elem.traceManyH (e : Elem F) : List Nat → Heap F → List (List Nat) × Heap F × Elem F
  | [], h => ([], h, e)
  | a :: as, h =>
    let (t, h1, e1) := e.traceH a h
    let (ts, h2, e2) := Elem.traceManyH e1 as h1
    (t :: ts, h2, e2)

/-- `matrix.py:765-831` `traceManyThrough(inputRays)` for an iterable of `Ray` objects: the addresses of the rays kept.
(The progress bar is not modelled.) -/
def Elem.traceManyThroughH (e : Elem F) : List Nat → Heap F → List Nat × Heap F × Elem F
  | [], h => ([], h, e)
  | a :: as, h =>
    let (last, h1, e1) := e.traceThroughH a h
    let (ts, h2, e2) := Elem.traceManyThroughH e1 as h1
    (if (h1.get last).isNotBlocked then last :: ts else ts, h2, e2)

/-- Python's `l[i::p]` for `0 ≤ i`, `0 < p`. -/
def pyStride {α : Type} (l : List α) (i p : Nat) : List α :=
  (List.range l.length).filterMap fun k => if i ≤ k ∧ (k - i) % p = 0 then l[k]? else none

/-- `matrix.py:833-888` `traceManyThroughInParallel(inputRays, processes)`, for a list of rays: the values of the rays
returned. Each process works on its own copies of the element and of the rays (they are pickled), and so are the
rays it returns. `poolWorks` says whether the pool of processes works; when it does not, or when `processes < 1`
(`multiprocessing.Pool` raises `ValueError`), the rays are traced sequentially (lines 884-888). -/
def Elem.traceManyThroughInParallel (e : Elem F) (as : List Nat) (h : Heap F) (processes : Int) (poolWorks : Bool) :
    List (Ray F) :=
  if 1 ≤ processes ∧ poolWorks = true then
    (List.range processes.toNat).flatMap fun i =>
      let out := e.traceManyThroughH (pyStride as i processes.toNat) h
      out.2.1.deref out.1
  else
    let out := e.traceManyThroughH as h
    out.2.1.deref out.1

/-- `matrix.traceThrough(ray)` for a single element, `matrix.py:668-707`: address of the last ray, new heap. -/
def Mat.traceThroughH (m : Mat F) (a : Nat) (h : Heap F) : Nat × Heap F :=
  let (t, h1) := m.traceH a h
  (t.getLast?.getD a, h1)

/-- `matrix.py:546-603` `opticalInvariant(ray1, ray2, z)`; the rays are the objects at `a1` and `a2`. -/
def Elem.opticalInvariantH (e : Elem F) (a1 a2 : Nat) (z : F) (h : Heap F) : Except PyErr F × Heap F :=
  match e.transferMatrix z with
  | .error x => (.error x, h)
  | .ok m =>
    let (b1, h1) := m.traceThroughH a1 h
    let (b2, h2) := m.traceThroughH a2 h1
    (.ok (m.backIndex * ((h2.get b1).theta * (h2.get b2).y - (h2.get b1).y * (h2.get b2).theta)), h2)

end RT
