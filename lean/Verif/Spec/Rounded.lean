import Verif.Spec.Stage

/-! # What rounding may change, as a specification

Forward error analysis of paraxial optics. Next to each element are the same element with the absolute values of its coefficients
(its majorant) and the number of roundings made to obtain its coefficients. A quantity computed with `k` successive roundings and of majorant
`X` is known within `((1 + u)^k - 1) X`, where `u` is the relative error of one operation (2⁻⁵³ for Python floats). -/

set_option linter.unusedSectionVars false

namespace RT
variable {K : Type} [Field K] [LinearOrder K]

/-- A way of rounding with a relative error at most `u`; 1 and 2 are represented exactly. -/
structure Rounding (rnd : K → K) (u : K) : Prop where
  nonneg : 0 ≤ u
  small : u ≤ 1 / 8
  rel : ∀ x, |rnd x - x| ≤ u * |x|
  one : rnd 1 = 1
  two : rnd 2 = 2

/-- the error after `k` roundings, relative to the majorant -/
def relErr (u : K) (k : ℕ) : K := (1 + u) ^ k - 1

/-- A stage, its majorant, and the number of roundings in its coefficients. -/
structure RStage (K : Type) where
  exact : Stage K
  maj : Stage K
  ops : ℕ

/-- a stage with the absolute values of its coefficients -/
def Stage.abs (s : Stage K) : Stage K := { s with a := |s.a|, b := |s.b|, c := |s.c|, d := |s.d|, len := |s.len| }

/-- a stage whose coefficients are not sums -/
def Stage.withOps (s : Stage K) (k : ℕ) : RStage K := ⟨s, s.abs, k⟩

/-- The coefficients of a thick lens with every term counted positively. -/
def thickMaj (n k1 k2 t : K) (diam : Option K) : Stage K :=
  ⟨|t| * |1 - n| * |k1 / n| + 1, |t / n|, |n - 1| * (|k1| + |k2| + |t| * |n - 1| * |k1 * k2 / n|),
    |t| * |n - 1| * |k2 / n| + 1, |t|, diam, none⟩

mutual
/-- the stages of a system, with their majorants and roundings -/
def Part.rstages : Part K → List (RStage K)
  | .space d n diam => [((Sys.space d n).stage diam none).withOps 0]
  | .lens f diam => [((Sys.lens f).stage diam none).withOps 1]
  | .mirror R diam => [((Sys.mirror R).stage diam none).withOps 1]
  | .interface n1 n2 R diam => [((Sys.interface n1 n2 (curvature R)).stage diam none).withOps 4]
  | .thickLens n R1 R2 t diam =>
    [⟨(Sys.thick n (curvature R1) (curvature R2) t).stage diam none, thickMaj n (curvature R1) (curvature R2) t diam, 10⟩]
  | .slab n t diam => [⟨(Sys.thick n 0 0 t).stage diam none, thickMaj n 0 0 t diam, 10⟩]
  | .aperture diam na _ => [((Sys.one 1).stage diam na).withOps 0]
  | .matrix s _ _ diam => [(s.stage diam none).withOps 0]
  | .group _ ps => Part.rstagesList ps
/-- of successive parts -/
def Part.rstagesList : List (Part K) → List (RStage K)
  | [] => []
  | p :: ps => p.rstages ++ Part.rstagesList ps
end

/-- number of roundings up to the end of the stages: those of the coefficients, and two for the propagation through each of them -/
def roundings (rs : List (RStage K)) : ℕ := (rs.map fun s => s.ops + 2).sum

/-- the exact ray after the stages -/
def exactOut (rs : List (RStage K)) (r : K × K) : K × K := rs.foldl (fun r s => s.exact.out r) r

/-- The ray after the stages when nothing ever cancels. -/
def majOut (rs : List (RStage K)) (r : K × K) : K × K := rs.foldl (fun r s => s.maj.out r) r

/-- exact position at the end of the stages -/
def exactLen (rs : List (RStage K)) : K := (rs.map fun s => s.exact.len).sum

/-- and its majorant -/
def majLen (rs : List (RStage K)) : K := (rs.map fun s => s.maj.len).sum

/-- The exact ray `r`, of majorant `m`, passes inside every opening with room for the errors made after `k` roundings. -/
def Clears (u : K) : ℕ → List (RStage K) → K × K → K × K → Prop
  | _, [], _, _ => True
  | k, s :: ss, r, m =>
    (∀ D, s.exact.diam = some D → |r.1| + relErr u k * m.1 ≤ (1 - u) * (D / 2)) ∧
    (∀ N, s.exact.na = some N → |r.2| + relErr u k * m.2 ≤ N) ∧
    Clears u (k + s.ops + 2) ss (s.exact.out r) (s.maj.out m)

/-- The exact ray `r` passes outside some opening, further than the errors made after `k` roundings. -/
def Hits (u : K) : ℕ → List (RStage K) → K × K → K × K → Prop
  | _, [], _, _ => False
  | k, s :: ss, r, m =>
    (∃ D, s.exact.diam = some D ∧ (1 + u) * (D / 2) < |r.1| - relErr u k * m.1) ∨
    (∃ N, s.exact.na = some N ∧ N < |r.2| - relErr u k * m.2) ∨
    Hits u (k + s.ops + 2) ss (s.exact.out r) (s.maj.out m)

/-- the majorant of the absolute values of a ray -/
def absRay (r : K × K) : K × K := (|r.1|, |r.2|)

end RT
