import Verif.Model.Trace

/-! # Element objects that are at several places

In Python a group holds references to its elements: the same object can be at two positions of a group or in two groups (a slice of a
group, `LaserCavity.appendElementsInReverse`, user code). Here the element objects are in a store, an address is a position in it, and a
group is a list of addresses. `fuel` bounds the depth of the calls: Python raises `RecursionError` (a `RuntimeError`) when it is exceeded, for
instance for a group that contains itself. -/

namespace RT
open PyNum
variable {F : Type}

/-- `matrixgroup.py:6-36` An element object: a group refers to its elements by address. -/
inductive Obj (F : Type) where
  | leaf (m : Mat F)
  | group (m : Mat F) (cache : Option (Nat × List Nat)) (as : List Nat)

/-- The attributes an object has as a `Matrix`. -/
def Obj.mat : Obj F → Mat F
  | .leaf m => m
  | .group m _ _ => m

/-- The same object with other attributes. -/
def Obj.withMat (m : Mat F) : Obj F → Obj F
  | .leaf _ => .leaf m
  | .group _ c as => .group m c as

/-- `isinstance(element, Space)`. -/
def Obj.isSpace (o : Obj F) : Bool :=
  match o.mat.kind with
  | .space => true
  | _ => false

/-- The element objects that exist. -/
abbrev Store (F : Type) := List (Obj F)

/-- The attributes of the object at an address. -/
def Store.mat? (s : Store F) (a : Nat) : Option (Mat F) := s[a]?.map Obj.mat

/-- An object gets another content. -/
def Store.write (s : Store F) (a : Nat) (o : Obj F) : Store F := List.set s a o

variable [PyNum F]

/-- The loop of `matrixgroup.py:316-324`: `hdr` reads the attributes of an element, `part` is `element.transferMatrix(upTo=distance)`. -/
def transferLoop (hdr : Nat → Option (Mat F)) (part : Nat → F → Except PyErr (Mat F)) :
    List Nat → F → Mat F → Except PyErr (Mat F)
  | [], _, acc => .ok acc
  | a :: as, distance, acc =>
    match hdr a with
    | none => .error .runtimeError
    | some m =>
      if m.L ≤. distance then
        match m.mulMatrix acc with
        | .error x => .error x
        | .ok t => transferLoop hdr part as (distance - m.L) t
      else
        match part a distance with
        | .error x => .error x
        | .ok p => p.mulMatrix acc

/-- `element.transferMatrix(upTo)`: `Mat.transferMatrix` for a single element, `matrixgroup.py:273-324` for a group. -/
def Store.transferMatrix (s : Store F) : Nat → Nat → F → Except PyErr (Mat F)
  | 0, _, _ => .error .runtimeError
  | fuel + 1, a, upTo =>
    match s[a]? with
    | none => .error .runtimeError
    | some (.leaf m) => m.transferMatrix upTo
    | some (.group _ _ as) => transferLoop s.mat? (s.transferMatrix fuel) as upTo Mat.one

/-- `matrixgroup.py:81-91`: the reference is pushed, then the attributes of the group are refreshed. -/
def Store.push (fuel : Nat) (s : Store F) (g a : Nat) : Store F × Except PyErr Unit :=
  match s[g]? with
  | some (.group m c as) =>
    let s1 := s.write g (.group m c (as ++ [a]))
    match transferLoop s1.mat? (s1.transferMatrix fuel) (as ++ [a]) inf Mat.one with
    | .error x => (s1, .error x)
    | .ok t => (s1.write g (.group (m.refresh t) c (as ++ [a])), .ok ())
  | _ => (s, .error .attributeError)

/-- `matrixgroup.py:38-91` `append(matrix)`: a `Space` of another index is modified itself (lines 73-76). -/
def Store.append (fuel : Nat) (s : Store F) (g a : Nat) : Store F × Except PyErr Unit :=
  match s[g]?, s[a]? with
  | some (.group _ _ as), some o =>
    match as.getLast? with
    | none => s.push fuel g a
    | some l =>
      match s.mat? l with
      | none => (s, .error .runtimeError)
      | some last =>
        if last.backIndex !=. o.mat.frontIndex then
          if o.isSpace then (s.write a (o.withMat { o.mat with frontIndex := last.backIndex, backIndex := last.backIndex })).push fuel g a
          else (s, .error .valueError)
        else s.push fuel g a
  | _, _ => (s, .error .attributeError)

/-- `for element in elements: self.append(element)`. -/
def Store.appendAll (fuel : Nat) (s : Store F) (g : Nat) : List Nat → Store F × Except PyErr Unit
  | [] => (s, .ok ())
  | a :: as =>
    match s.append fuel g a with
    | (s1, .ok ()) => s1.appendAll fuel g as
    | (s1, .error x) => (s1, .error x)

/-- `matrixgroup.py:19-36` `MatrixGroup(elements, label)`: a new object; its address. -/
def Store.newGroup (fuel : Nat) (s : Store F) (as : List Nat) (label : String := "") : Store F × Except PyErr Nat :=
  match (s ++ [.group { (Mat.one : Mat F) with label := label, kind := .group } none []] : Store F).appendAll fuel s.length as with
  | (s1, .ok ()) => (s1, .ok s.length)
  | (s1, .error x) => (s1, .error x)

/-- `self.elements = ...`: the list of references is replaced. -/
def Store.setElems (s : Store F) (g : Nat) (as : List Nat) : Store F :=
  match s[g]? with
  | some (.group m c _) => s.write g (.group m c as)
  | _ => s

/-- `matrixgroup.py:173-176`, `221-224`: clear the list and append everything again. -/
def Store.rebuild (fuel : Nat) (s : Store F) (g : Nat) (as : List Nat) : Store F × Except PyErr Unit :=
  (s.setElems g []).appendAll fuel g as

/-- `matrixgroup.py:147-177` `pop(index)`: the object removed is returned, it is not copied. -/
def Store.pop (fuel : Nat) (s : Store F) (g : Nat) (index : Int) : Store F × Except PyErr Nat :=
  match s[g]? with
  | some (.group _ _ as) =>
    match pyIndex index as.length with
    | none => (s, .error .indexError)
    | some k =>
      match as[k]? with
      | none => (s, .error .indexError)
      | some popped =>
        match s.rebuild fuel g (as.eraseIdx k) with
        | (s1, .ok ()) => (s1, .ok popped)
        | (s1, .error x) => (s1, .error x)
  | _ => (s, .error .attributeError)

/-- `matrixgroup.py:179-224` `insert(index, element)`: `new` are the objects in the iterable (one element is `[a]`, a group is the list of
its elements). A temporary group is made of them first (lines 217-220). -/
def Store.insert (fuel : Nat) (s : Store F) (g : Nat) (index : Int) (new : List Nat) : Store F × Except PyErr Unit :=
  match s[g]? with
  | some (.group _ _ as) =>
    match s.newGroup fuel new with
    | (s1, .error x) => (s1, .error x)
    | (s1, .ok _) => s1.rebuild fuel g (as.take (pyClamp index as.length) ++ new ++ as.drop (pyClamp index as.length))
  | _ => (s, .error .attributeError)

/-- `matrixgroup.py:142-143` `group[start:stop]`: a new group of the same objects. -/
def Store.getSlice (fuel : Nat) (s : Store F) (g : Nat) (start stop : Option Int) : Store F × Except PyErr Nat :=
  match s[g]? with
  | some (.group _ _ as) =>
    let n := as.length
    s.newGroup fuel ((as.take (pyClamp (stop.getD n) n)).drop (pyClamp (start.getD 0) n))
  | _ => (s, .error .attributeError)

/-- `lasercavity.py:46-58` `appendElementsInReverse`: the same objects are added again to the list. -/
def Store.appendElementsInReverse (s : Store F) (g : Nat) (skipFirst : Bool := false) (skipLast : Bool := false) : Store F :=
  match s[g]? with
  | some (.group _ _ as) =>
    let fwd := if skipFirst then as.drop 1 else as
    let fwd := if skipLast then fwd.dropLast else fwd
    s.setElems g (as ++ fwd.reverse)
  | _ => s

/-! ## Flipping -/

/-- `matrixgroup.py:479-481`: each object is flipped, then appended again. -/
def flipObjs (flip app : Store F → Nat → Store F × Except PyErr Unit) : List Nat → Store F → Store F × Except PyErr Unit
  | [], s => (s, .ok ())
  | a :: as, s =>
    match flip s a with
    | (s1, .error x) => (s1, .error x)
    | (s1, .ok ()) =>
      match app s1 a with
      | (s2, .error x) => (s2, .error x)
      | (s2, .ok ()) => flipObjs flip app as s2

/-- `specialtylenses.py:415-432`: what `Objective.flipOrientation` does after `MatrixGroup.flipOrientation`. -/
def Store.finishFlip (g : Nat) (r : Store F × Except PyErr Unit) : Store F × Except PyErr Unit :=
  match r with
  | (s, .error x) => (s, .error x)
  | (s, .ok ()) =>
    match s[g]? with
    | some (.group m c as) =>
      match m.kind with
      | .objective => (s.write g (.group (objectiveVertices m 0 ((as.filterMap s.mat?).map .leaf)) c as), .ok ())
      | _ => (s, .ok ())
    | _ => (s, .ok ())

/-- `element.flipOrientation()`: `Mat.flip` for a single element, `matrixgroup.py:470-483` for a group. -/
def Store.flip : Nat → Store F → Nat → Store F × Except PyErr Unit
  | 0, s, _ => (s, .error .runtimeError)
  | fuel + 1, s, a =>
    match s[a]? with
    | none => (s, .error .runtimeError)
    | some (.leaf m) => (s.write a (.leaf m.flip.1), m.flip.2)
    | some (.group m c as) =>
      Store.finishFlip a
        (flipObjs (Store.flip fuel) (fun s b => s.append fuel a b) as.reverse
          (s.write a (.group { m with isFlipped := !m.isFlipped } c [])))

/-! ## Tracing -/

/-- The loop of `matrixgroup.py:435-438`. -/
def traceLoop (trace : Store F → Nat → Nat → Heap F → List Nat × Heap F × Store F) :
    List Nat → Store F → Nat → Heap F → List Nat × Heap F × Store F
  | [], s, _, h => ([], h, s)
  | e :: es, s, a, h =>
    let (t, h1, s1) := trace s e a h
    let (ts, h2, s2) := traceLoop trace es s1 (t.getLast?.getD a) h1
    (t ++ ts, h2, s2)

/-- `element.trace(ray)`: `matrix.py:605-666`, `matrixgroup.py:404-444`. The element is the object at `e`, the ray the one at `a`. (Beyond the
depth of calls: no rays.) -/
def Store.trace : Nat → Store F → Nat → Nat → Heap F → List Nat × Heap F × Store F
  | 0, s, _, _, h => ([], h, s)
  | fuel + 1, s, e, a, h =>
    match s[e]? with
    | none => ([], h, s)
    | some (.leaf m) =>
      let (t, h1) := m.traceH a h
      (t, h1, s)
    | some (.group _ c es) =>
      match cacheHit c a h with
      | some t => (t, h, s)
      | none =>
        let (t, h1, s1) := traceLoop (Store.trace fuel) es s a h
        match s1[e]? with
        | some (.group m1 _ es1) => (a :: t, h1, s1.write e (.group m1 (some (a, a :: t)) es1))
        | _ => (a :: t, h1, s1)

end RT
