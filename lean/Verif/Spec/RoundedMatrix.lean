import Verif.Spec.Rounded

/-! # The matrix of a system computed with rounding, as a specification

A group keeps the product of the matrices of its elements, computed from the left, the matrix of a group inside being computed
first. The number of roundings and the majorants follow this order. -/

set_option linter.unusedSectionVars false

namespace RT
variable {K : Type} [Field K] [LinearOrder K]

/-- `s` first, then `t` -/
def Stage.andThen (s t : Stage K) : Stage K :=
  ⟨t.a * s.a + t.b * s.c, t.a * s.b + t.b * s.d, t.c * s.a + t.d * s.c, t.c * s.b + t.d * s.d, s.len + t.len, none, none⟩

/-- each coefficient of the product is a sum of two products: two roundings more -/
def RStage.andThen (s t : RStage K) : RStage K := ⟨s.exact.andThen t.exact, s.maj.andThen t.maj, s.ops + t.ops + 2⟩

/-- nothing -/
def RStage.one : RStage K := ⟨⟨1, 0, 0, 1, 0, none, none⟩, ⟨1, 0, 0, 1, 0, none, none⟩, 0⟩

mutual
/-- the matrix of a system, its majorant and its roundings -/
def Part.rmat : Part K → RStage K
  | .group _ ps => Part.rmatList RStage.one ps
  | p => p.rstages.headD RStage.one
/-- of the parts of a list, after `acc` -/
def Part.rmatList : RStage K → List (Part K) → RStage K
  | acc, [] => acc
  | acc, p :: ps => Part.rmatList (acc.andThen p.rmat) ps
end

mutual
/-- All the matrices made to obtain the one of a system: those of the elements, and the successive products. -/
def Part.made : Part K → List (RStage K)
  | .group _ ps => Part.madeList RStage.one ps
  | p => p.rstages
/-- to obtain the one of a list, after `acc` -/
def Part.madeList : RStage K → List (Part K) → List (RStage K)
  | _, [] => []
  | acc, p :: ps => p.made ++ acc.andThen p.rmat :: Part.madeList (acc.andThen p.rmat) ps
end

/-- The error on the determinant, computed from these coefficients, is below the tolerance of 10⁻⁵. -/
def RStage.Room (u : K) (s : RStage K) : Prop :=
  (1 + u) * (relErr u (2 * s.ops + 2) * (s.maj.a * s.maj.d + s.maj.b * s.maj.c)) ≤ (1 - u) * (1 / 100000)

/-- a positive diameter, or none -/
def OpenDiam (o : Option K) : Prop := ∀ D, o = some D → 0 < D

mutual
/-- A system in air, with legal parameters. -/
def Part.InAir : Part K → Prop
  | .space _ n diam => n = 1 ∧ OpenDiam diam
  | .lens f diam => f ≠ 0 ∧ OpenDiam diam
  | .mirror R diam => R ≠ 0 ∧ OpenDiam diam
  | .interface _ _ _ _ => False
  | .thickLens n R1 R2 _ diam => n ≠ 0 ∧ R1 ≠ some 0 ∧ R2 ≠ some 0 ∧ OpenDiam diam
  | .slab n _ diam => n ≠ 0 ∧ OpenDiam diam
  | .aperture diam na _ => OpenDiam diam ∧ OpenDiam na
  | .matrix s _ _ diam => s.nf = 1 ∧ s.nb = 1 ∧ s.det = 1 ∧ OpenDiam diam
  | .group _ ps => Part.InAirList ps
/-- each part is -/
def Part.InAirList : List (Part K) → Prop
  | [] => True
  | p :: ps => p.InAir ∧ Part.InAirList ps
end

end RT
