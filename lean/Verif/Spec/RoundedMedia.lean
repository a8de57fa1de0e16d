import Verif.Spec.RoundedMatrix

/-! # Systems with interfaces and media, computed with rounding, as a specification

Each part goes from a medium of index `n` to one of index `n'`; the parts of a group follow each other. -/

set_option linter.unusedSectionVars false

namespace RT
variable {K : Type} [Field K] [LinearOrder K]

/-- Room for the error on the determinant, from index `n` to index `n'`: the error is below the tolerance of 10⁻⁵, and a change of index
is larger than the error. -/
structure RStage.RoomFor (u : K) (s : RStage K) (n n' : K) : Prop where
  tol : (1 + u) * (relErr u (2 * s.ops + 2) * (s.maj.a * s.maj.d + s.maj.b * s.maj.c) + u * |n / n'|) ≤ (1 - u) * (1 / 100000)
  apart : n = n' ∨ relErr u (2 * s.ops + 2) * (s.maj.a * s.maj.d + s.maj.b * s.maj.c) < |n / n' - 1|

/-- A coefficient differs from the one of the identity by more than its error. -/
def RStage.NotIdentity (u : K) (s : RStage K) : Prop :=
  relErr u s.ops * s.maj.a < |s.exact.a - 1| ∨ relErr u s.ops * s.maj.b < |s.exact.b| ∨
  relErr u s.ops * s.maj.c < |s.exact.c| ∨ relErr u s.ops * s.maj.d < |s.exact.d - 1|

/-- The part reports that it begins in a medium of index `n`: a space does if it was given this index; a group that does nothing reports
index 1. -/
def Part.Tells (u : K) : Part K → K → Prop
  | .space _ m _, n => m = n
  | .group label ps, n => n = 1 ∨ (Part.group label ps).rmat.NotIdentity u
  | _, _ => True

/-- a free space -/
def Part.IsSpace : Part K → Prop
  | .space .. => True
  | _ => False

mutual
/-- A legal system from a medium of index `n` to one of index `n'`, with room for the errors on the determinant of every matrix made. -/
def Part.Between (u : K) : Part K → K → K → Prop
  | .space _ m diam, n, n' => n' = n ∧ n ≠ 0 ∧ m ≠ 0 ∧ OpenDiam diam
  | .lens f diam, n, n' => f ≠ 0 ∧ n = 1 ∧ n' = 1 ∧ OpenDiam diam
  | .mirror R diam, n, n' => R ≠ 0 ∧ n = 1 ∧ n' = 1 ∧ OpenDiam diam
  | .interface n1 n2 R diam, n, n' => n = n1 ∧ n' = n2 ∧ n1 ≠ 0 ∧ n2 ≠ 0 ∧ R ≠ some 0 ∧ OpenDiam diam ∧
    (Part.interface n1 n2 R diam).rmat.RoomFor u n n'
  | .thickLens m R1 R2 t diam, n, n' => m ≠ 0 ∧ R1 ≠ some 0 ∧ R2 ≠ some 0 ∧ n = 1 ∧ n' = 1 ∧ OpenDiam diam ∧
    (Part.thickLens m R1 R2 t diam).rmat.Room u
  | .slab m t diam, n, n' => m ≠ 0 ∧ n = 1 ∧ n' = 1 ∧ OpenDiam diam ∧ (Part.slab m t diam).rmat.Room u
  | .aperture diam na _, n, n' => n = 1 ∧ n' = 1 ∧ OpenDiam diam ∧ OpenDiam na
  | .matrix s fv bv diam, n, n' => n = s.nf ∧ n' = s.nb ∧ s.nf ≠ 0 ∧ s.nb ≠ 0 ∧ s.det = s.nf / s.nb ∧ OpenDiam diam ∧
    (Part.matrix s fv bv diam).rmat.RoomFor u n n'
  | .group _ ps, n, n' => n ≠ 0 ∧ Part.BetweenList u true RStage.one n n ps n'
/-- The parts of a list follow each other, from `n` to `n'`, after `acc` that goes from `n0` to `n`. A space that is not the first takes
the index of the medium it is in. -/
def Part.BetweenList (u : K) : Bool → RStage K → K → K → List (Part K) → K → Prop
  | _, _, _, n, [], n' => n' = n
  | first, acc, n0, n, p :: ps, n' => ∃ m, p.Between u n m ∧ (p.Tells u n ∨ (first = false ∧ p.IsSpace)) ∧
    (acc.andThen p.rmat).RoomFor u n0 m ∧ Part.BetweenList u false (acc.andThen p.rmat) n0 m ps n'
end

end RT
