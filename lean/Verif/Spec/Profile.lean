import Verif.Spec.Stage

/-! # Where a ray is stopped, as a specification -/

set_option linter.unusedSectionVars false

namespace RT
variable {K : Type} [Field K] [LinearOrder K]

/-- The ray is stopped by an element that starts before the distance `x`. -/
def StoppedBefore : List (Stage K) → K × K → K → Prop
  | [], _, _ => False
  | s :: ss, r, x => 0 < x ∧ (s.Stops r ∨ StoppedBefore ss (s.out r) (x - s.len))

/-- The ray is stopped by an element that starts at the distance `x` or before. -/
def StoppedUpTo : List (Stage K) → K × K → K → Prop
  | [], _, _ => False
  | s :: ss, r, x => 0 ≤ x ∧ (s.Stops r ∨ StoppedUpTo ss (s.out r) (x - s.len))

theorem StoppedBefore.upTo {ss : List (Stage K)} {r : K × K} {x : K} (h : StoppedBefore ss r x) : StoppedUpTo ss r x := by
  induction ss generalizing r x with
  | nil => exact h
  | cons s ss ih => exact ⟨h.1.le, h.2.imp id ih⟩

theorem StoppedUpTo.blocked {ss : List (Stage K)} {r : K × K} {x : K} (h : StoppedUpTo ss r x) : Blocked ss r := by
  induction ss generalizing r x with
  | nil => exact h
  | cons s ss ih => exact h.2.imp id ih

/-- Acceptance angles belong to elements without length. -/
def ThinNA (ss : List (Stage K)) : Prop := ∀ s ∈ ss, s.na ≠ none → s.len = 0

end RT
