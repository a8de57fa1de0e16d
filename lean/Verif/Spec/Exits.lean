import Verif.Spec.Stage

/-! # Openings with a length, as a specification: at which end a ray is stopped -/

set_option linter.unusedSectionVars false

namespace RT
variable {K : Type} [Field K] [LinearOrder K]

/-- A stage with a length stops a ray at its entrance, because of its diameter. -/
def Stage.StopsEntry (s : Stage K) (r : K × K) : Prop := 0 < s.len ∧ ∃ D, s.diam = some D ∧ D / 2 < |r.1|

open Classical in
/-- The places where a ray leaves the openings: position, height, diameter. A ray stopped at the entrance of an opening with a length does
not leave it; a ray stopped otherwise leaves this opening and nothing more. -/
noncomputable def exits : List (Stage K) → K → K × K → List (K × K × Option K)
  | [], _, _ => []
  | s :: ss, z, r => if s.StopsEntry r then [] else
      (z + s.len, (s.out r).1, s.diam) :: (if s.Stops r then [] else exits ss (z + s.len) (s.out r))

/-- the diameter of the stage before the stage number `i`, none for the first -/
def diamBefore (ss : List (Stage K)) : Nat → Option K
  | 0 => none
  | i + 1 => (ss[i]?).bind Stage.diam

end RT
