import Verif.Spec.RoundedChief

/-! # The edge of the field, known up to rounding errors -/

set_option linter.unusedSectionVars false

namespace RT
variable {K : Type} [Field K] [LinearOrder K]

/-- A ray that enters at height 1 with the angle `s` crosses the end of `t` at its centre, up to errors `eA` and `eB` on the heights there of the rays
(1, 0) and (0, 1), and two roundings. -/
def ChiefSlope (u : K) (t : List (RStage K)) (eA eB s : K) : Prop :=
  |(exactOut t (1, 0)).1 + s * (exactOut t (0, 1)).1| ≤ relErr u 2 * (|(exactOut t (1, 0)).1| + eA) + eA + eB * |s|

/-- Whatever the errors, the chief ray of height `Y1` clears all the openings of `ss`, and the one of height `Y2` does not. -/
structure EdgeBetween (u : K) (ss t : List (RStage K)) (eA eB Y1 Y2 : K) : Prop where
  clear : ∀ s, ChiefSlope u t eA eB s → Clears u 0 ss (Y1, s * Y1) (absRay (Y1, s * Y1))
  hit : ∀ s, ChiefSlope u t eA eB s → Hits u 0 ss (Y2, s * Y2) (absRay (Y2, s * Y2))

end RT
