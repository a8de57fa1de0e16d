import Verif.Model.Rays
import Verif.Model.Display

/-! # Model of what Python does with the iterator of a group

`matrixgroup.py:485-496`: a group is its own iterator, with one position, the attribute `iteration`. `element in group` (no `__contains__` is defined), `zip(group, group)`
and `==` (`matrix.py:1439-1442`, all the attributes) use it. -/

namespace RT
open PyNum
variable {F : Type} [PyNum F]

/-- the loop of `x in group` from the current position: `eq` is `is` or `==`; at most `fuel` turns -/
def GroupLoop.search (eq : Elem F → Elem F → Bool) (x : Elem F) : Nat → GroupLoop F → Bool × GroupLoop F
  | 0, s => (false, s)
  | fuel + 1, s =>
    match s.next with
    | (none, s1) => (false, s1)
    | (some e, s1) => if eq e x then (true, s1) else GroupLoop.search eq x fuel s1

/-- `x in group`: `matrixgroup.py:485-496`, through `iter` and `next`. The number of turns is enough, see `C49_contains`. -/
def GroupLoop.contains (eq : Elem F → Elem F → Bool) (x : Elem F) (s : GroupLoop F) : Bool × GroupLoop F :=
  GroupLoop.search eq x (s.group.elems.length + 1) s.iter

/-- `zip(group, group)` once the two iterators are made: `next` is called for the left item, then for the right one -/
def GroupLoop.zipLoop : Nat → GroupLoop F → List (Elem F × Elem F) × GroupLoop F
  | 0, s => ([], s)
  | fuel + 1, s =>
    match s.next with
    | (none, s1) => ([], s1)
    | (some a, s1) =>
      match s1.next with
      | (none, s2) => ([], s2)
      | (some b, s2) => ((a, b) :: (GroupLoop.zipLoop fuel s2).1, (GroupLoop.zipLoop fuel s2).2)

/-- `list(zip(group, group))`: `iter` is called twice, on the same object -/
def GroupLoop.zipSelf (s : GroupLoop F) : List (Elem F × Elem F) × GroupLoop F :=
  GroupLoop.zipLoop (s.group.elems.length + 1) s.iter.iter

/-- `list(group)` -/
def GroupLoop.toList (s : GroupLoop F) : List (Elem F) × GroupLoop F :=
  GroupLoop.forLoop (fun _ t => t) (s.group.elems.length + 1) s

/-- `matrix.py:1439-1442` `==` of two groups, with the position of the iteration. -/
def GroupLoop.dictEq (h : Heap F) (s t : GroupLoop F) : Bool :=
  s.group.toElem.dictEq h t.group.toElem && s.iteration == t.iteration

end RT
