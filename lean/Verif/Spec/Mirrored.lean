import Verif.Spec.RoundedMatrix

/-! # The system seen from the other side, as a specification

What one would write to set up a system the other way round: the parts in reverse order, each turned round. A generic `Matrix` is written with its media and vertices
exchanged and the same four coefficients, which describes the same element seen from the other side when `A = D` only. -/

set_option linter.unusedSectionVars false

namespace RT
variable {K : Type} [Field K] [LinearOrder K]

mutual
/-- The program of the same system seen from the other side. -/
def Part.mirrored : Part K → Part K
  | .space d n diam => .space d n diam
  | .lens f diam => .lens f diam
  | .mirror R diam => .mirror (-R) diam
  | .interface n1 n2 R diam => .interface n2 n1 (R.map (-·)) diam
  | .thickLens n R1 R2 t diam => .thickLens n (R2.map (-·)) (R1.map (-·)) t diam
  | .slab n t diam => .slab n t diam
  | .aperture diam na label => .aperture diam na label
  | .matrix s fv bv diam => .matrix { s with nf := s.nb, nb := s.nf } bv fv diam
  | .group label ps => .group label (Part.mirroredList ps)
/-- the parts in reverse order, each seen from the other side -/
def Part.mirroredList : List (Part K) → List (Part K)
  | [] => []
  | p :: ps => Part.mirroredList ps ++ [p.mirrored]
end

end RT
