import Verif.Spec.Rounded
import Verif.Spec.Exits

/-! # The aperture stop found with rounding, as a specification -/

set_option linter.unusedSectionVars false

namespace RT
variable {K : Type} [Field K] [LinearOrder K]

/-- At each opening it reaches, the exact ray `r` of majorant `m` is inside with room for the errors made after `k` roundings, or outside by more
than these errors. -/
def Decided (u : K) : ℕ → List (RStage K) → K × K → K × K → Prop
  | _, [], _, _ => True
  | k, s :: ss, r, m =>
    (∃ D, s.exact.diam = some D ∧ (1 + u) * (D / 2) < |r.1| - relErr u k * m.1) ∨
    (∀ D, s.exact.diam = some D → |r.1| + relErr u k * m.1 ≤ (1 - u) * (D / 2)) ∧
      ((∃ N, s.exact.na = some N ∧ N < |r.2| - relErr u k * m.2) ∨
       (∀ N, s.exact.na = some N → |r.2| + relErr u k * m.2 ≤ N) ∧ Decided u (k + s.ops + 2) ss (s.exact.out r) (s.maj.out m))

/-- A place where the exact ray leaves an opening: position and height with their majorants, diameter, and the number of roundings up to there. -/
structure RExit (K : Type) where
  roundings : ℕ
  z : K
  zMaj : K
  y : K
  yMaj : K
  diam : Option K

namespace RExit

/-- height over diameter, 0 for an infinite diameter -/
def ratio (o : RExit K) : K := match o.diam with | some D => |o.y| / D | none => 0

/-- what rounding may change in this ratio: one more rounding for the division -/
def err (u : K) (o : RExit K) : K := match o.diam with | some D => relErr u (o.roundings + 1) * (o.yMaj / D) | none => 0

end RExit

open Classical in
/-- The places where the exact ray leaves the openings, as `exits`, with the majorants. -/
noncomputable def rexits : List (RStage K) → ℕ → K → K → K × K → K × K → List (RExit K)
  | [], _, _, _, _, _ => []
  | s :: ss, k, z, Z, r, m => if s.exact.StopsEntry r then [] else
      ⟨k + s.ops + 2, z + s.exact.len, Z + s.maj.len, (s.exact.out r).1, (s.maj.out m).1, s.exact.diam⟩ ::
        (if s.exact.Stops r then [] else rexits ss (k + s.ops + 2) (z + s.exact.len) (Z + s.maj.len) (s.exact.out r) (s.maj.out m))

end RT
