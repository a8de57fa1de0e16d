import Verif.Model.Store

/-! # Specification: objects that are at one place only

`Rep s e a fp`: the object at the address `a` of the store `s` is the tree `e`, and `fp` lists the addresses of all the objects it is made of,
with repetitions when an object is at several places. Nothing is shared when `fp` has no repetition. -/

namespace RT
variable {F : Type}

mutual
/-- The object at `a` is the element `e`, made of the objects `fp`. -/
def Rep (s : Store F) : Elem F → Nat → List Nat → Prop
  | .leaf m, a, fp => s[a]? = some (.leaf m) ∧ fp = [a]
  | .group m c es, a, fp => ∃ as fps, s[a]? = some (.group m c as) ∧ RepList s es as fps ∧ fp = a :: fps
/-- The same for a list of objects. -/
def RepList (s : Store F) : List (Elem F) → List Nat → List Nat → Prop
  | [], as, fp => as = [] ∧ fp = []
  | e :: es, as, fp => ∃ a as' f fs, as = a :: as' ∧ Rep s e a f ∧ RepList s es as' fs ∧ fp = f ++ fs
end

mutual
/-- How deep groups are nested in an element: 0 for a single element. -/
def Elem.depth : Elem F → Nat
  | .leaf _ => 0
  | .group _ _ es => depthList es + 1
/-- The largest depth of a list of elements. -/
def depthList : List (Elem F) → Nat
  | [] => 0
  | e :: es => max e.depth (depthList es)
end

end RT
