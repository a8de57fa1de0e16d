import Verif.Spec.Stage

/-! # What is drawn of a ray, as a specification -/

set_option linter.unusedSectionVars false

namespace RT
variable {K : Type} [Field K] [LinearOrder K]

/-- A ray is shown where it enters stage number `i` (or at the end, when `i` is the number of stages): no stage before stops it, and it is
not outside of the opening of stage `i` when this stage has a thickness. -/
def ShownAt (ss : List (Stage K)) (i : Nat) (r : K × K) : Prop :=
  i ≤ ss.length ∧ (∀ j < i, ∀ s, ss[j]? = some s → ¬ s.Stops (rayBefore ss j r)) ∧
    ∀ s, ss[i]? = some s → 0 < s.len → ¬ ∃ D, s.diam = some D ∧ D / 2 < |(rayBefore ss i r).1|

/-- The points of a ray starting at `x` and going in the direction `dir` (1 or -1) through `ss`: one (or several times the same) for each
place where it is shown, in the order in which the ray meets them, and no other; none, when the rays that do not get through are
removed and this one does not. -/
def Drawn (ss : List (Stage K)) (removeBlocked : Bool) (dir x : K) (r : K × K) (pts : List (K × K)) : Prop :=
  ∃ is : List Nat, is.Pairwise (· ≤ ·) ∧ (∀ i, i ∈ is ↔ ShownAt ss i r ∧ (removeBlocked = true → ¬ Blocked ss r)) ∧
    pts = is.map fun i => (x + dir * zBefore ss i, (rayBefore ss i r).1)

end RT
