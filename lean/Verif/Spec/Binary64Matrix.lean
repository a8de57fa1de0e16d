import Verif.Spec.RoundedMatrix
import Verif.Spec.Binary64

/-! # The matrix of a system when exponents are bounded, as a specification

As Spec/RoundedMatrix.lean, where each product and each sum is moreover known only within `u w`. -/

set_option linter.unusedSectionVars false

namespace RT
variable {K : Type} [Field K] [LinearOrder K]

/-- the majorants of a product, with what underflow may add -/
def Stage.andThenW (w : K) (s t : Stage K) : Stage K :=
  ⟨t.a * s.a + t.b * s.c + 2 * w, t.a * s.b + t.b * s.d + 2 * w, t.c * s.a + t.d * s.c + 2 * w, t.c * s.b + t.d * s.d + 2 * w,
    t.len + s.len + w, none, none⟩

/-- `s` first, then `t` -/
def RStage.andThenW (w : K) (s t : RStage K) : RStage K := ⟨s.exact.andThen t.exact, s.maj.andThenW w t.maj, s.ops + t.ops + 2⟩

mutual
/-- the matrix of a system, its majorant and its roundings -/
def Part.rmatW (w : K) : Part K → RStage K
  | .group _ ps => Part.rmatListW w RStage.one ps
  | p => p.rstages.headD RStage.one
/-- of the parts of a list, after `acc` -/
def Part.rmatListW (w : K) : RStage K → List (Part K) → RStage K
  | acc, [] => acc
  | acc, p :: ps => Part.rmatListW w (acc.andThenW w (p.rmatW w)) ps
end

mutual
/-- All the matrices made to obtain the one of a system: those of the elements, and the successive products. -/
def Part.madeW (w : K) : Part K → List (RStage K)
  | .group _ ps => Part.madeListW w RStage.one ps
  | p => p.rstages
/-- to obtain the one of a list, after `acc` -/
def Part.madeListW (w : K) : RStage K → List (Part K) → List (RStage K)
  | _, [] => []
  | acc, p :: ps => p.madeW w ++ acc.andThenW w (p.rmatW w) :: Part.madeListW w (acc.andThenW w (p.rmatW w)) ps
end

/-- No coefficient of the matrix, nor the terms of its determinant, exceed `top`, and there are less than `1 / (4 u)` roundings. -/
structure RStage.Fits (w u top : K) (s : RStage K) : Prop where
  a : s.maj.a ≤ top
  b : s.maj.b ≤ top
  c : s.maj.c ≤ top
  d : s.maj.d ≤ top
  len : s.maj.len ≤ top
  det : s.maj.a * s.maj.d + s.maj.b * s.maj.c + 2 * w ≤ top
  ops : ((2 * s.ops + 2 : ℕ) : K) * u ≤ 1 / 2

/-- The error on the determinant is below the tolerance of 10⁻⁵. -/
def RStage.RoomW (w u : K) (s : RStage K) : Prop :=
  (1 + u) * (relErr u (2 * s.ops + 2) * (s.maj.a * s.maj.d + s.maj.b * s.maj.c + 2 * w)) ≤ (1 - u) * (1 / 100000)

end RT
