import Verif.Spec.Rounded
import Verif.Spec.Beam

/-! # Errors on complex radii -/

namespace RT

/-- the error on `a q + b` when `a`, `b` and `q` have errors `εa`, `εb` and `ε`, and three roundings follow -/
noncomputable def linErr (u a εa b εb : ℝ) (q : ℂ) (ε : ℝ) : ℝ :=
  |a| * ε + εa * (‖q‖ + ε) + εb + relErr u 3 * ((|a| + εa) * (‖q‖ + ε) + (|b| + εb))

/-- the error on the numerator of the law ABCD -/
noncomputable def RStage.topErr (u : ℝ) (s : RStage ℝ) (q : ℂ) (ε : ℝ) : ℝ :=
  linErr u s.exact.a (relErr u s.ops * s.maj.a) s.exact.b (relErr u s.ops * s.maj.b) q ε

/-- the error on its denominator -/
noncomputable def RStage.bottomErr (u : ℝ) (s : RStage ℝ) (q : ℂ) (ε : ℝ) : ℝ :=
  linErr u s.exact.c (relErr u s.ops * s.maj.c) s.exact.d (relErr u s.ops * s.maj.d) q ε

/-- the error on a complex radius after an element, when it was `ε` before: those on the numerator and the denominator, and the ten roundings of the
division of complex numbers -/
noncomputable def RStage.bendErr (u : ℝ) (s : RStage ℝ) (q : ℂ) (ε : ℝ) : ℝ :=
  (s.topErr u q ε + ‖s.exact.bend q‖ * s.bottomErr u q ε + 2 * relErr u 10 * (‖s.exact.a * q + s.exact.b‖ + s.topErr u q ε)) /
    (‖s.exact.c * q + s.exact.d‖ - s.bottomErr u q ε)

/-- the error after successive elements -/
noncomputable def beamErr (u : ℝ) : List (RStage ℝ) → ℂ → ℝ → ℝ
  | [], _, ε => ε
  | s :: ss, q, ε => beamErr u ss (s.exact.bend q) (s.bendErr u q ε)

/-- no denominator is within its error of 0 -/
def BeamClear (u : ℝ) : List (RStage ℝ) → ℂ → ℝ → Prop
  | [], _, _ => True
  | s :: ss, q, ε => s.bottomErr u q ε < ‖s.exact.c * q + s.exact.d‖ ∧ BeamClear u ss (s.exact.bend q) (s.bendErr u q ε)

end RT
