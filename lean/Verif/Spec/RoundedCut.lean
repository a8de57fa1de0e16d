import Verif.Spec.RoundedMatrix

/-! # The beginning of a system, cut at a position, as a specification -/

set_option linter.unusedSectionVars false

namespace RT
variable {K : Type} [Field K] [LinearOrder K]

/-- the beginning of a thick lens or slab of index `n`: the front surface, then `w` of glass -/
def cutThick (n : K) (R : Option K) (w : K) (diam : Option K) : RStage K :=
  (((Sys.interface 1 n (curvature R)).stage diam none).withOps 4).andThen (((Sys.space w n).stage diam none).withOps 0)

mutual
/-- `s` is the beginning of the system up to the position `w`: inside an element with a length, or at the end of an element of a group. Where
elements without length stand at the same place, the cut may be before or after any of them. -/
def Part.CutAt : Part K → K → RStage K → Prop
  | .space d n _, w, s => 0 ≤ w ∧ w ≤ d ∧ s = ((Sys.space w n).stage none none).withOps 0
  | .thickLens n R1 _ t diam, w, s => 0 ≤ w ∧ w ≤ t ∧ s = cutThick n R1 w diam
  | .slab n t diam, w, s => 0 ≤ w ∧ w ≤ t ∧ s = cutThick n none w diam
  | .group _ ps, w, s => Part.CutList RStage.one ps w s
  | _, _, _ => False
/-- of successive parts, after `acc` -/
def Part.CutList : RStage K → List (Part K) → K → RStage K → Prop
  | acc, [], w, s => w = 0 ∧ s = acc
  | acc, p :: ps, w, s => (w = 0 ∧ s = acc) ∨ (∃ c, p.CutAt w c ∧ s = acc.andThen c) ∨
      ∃ v, w = p.rmat.exact.len + v ∧ Part.CutList (acc.andThen p.rmat) ps v s
end

mutual
/-- number of roundings made on the distance left to go -/
def Part.cutOps : Part K → ℕ
  | .group _ ps => Part.cutOpsList ps
  | _ => 0
/-- in successive parts -/
def Part.cutOpsList : List (Part K) → ℕ
  | [] => 0
  | p :: ps => p.rmat.ops + 1 + p.cutOps + Part.cutOpsList ps
end

/-- length of successive parts -/
def lenList (ps : List (Part K)) : K := (ps.map fun p => p.rmat.exact.len).sum

/-- and its majorant -/
def majLenList (ps : List (Part K)) : K := (ps.map fun p => p.rmat.maj.len).sum

mutual
/-- No element changes the height of a ray at one place, and the slope of the ray that enters with height and angle `r` stays below `S` in every
element with a length. -/
def Part.Slope (S : K) : Part K → K × K → Prop
  | .space d _ _, r => 0 ≤ d ∧ |r.2| ≤ S
  | .thickLens n R1 _ t _, r => 0 ≤ t ∧ |(((Sys.interface 1 n (curvature R1)).stage none none).out r).2| ≤ S
  | .slab n t _, r => 0 ≤ t ∧ |(((Sys.interface 1 n 0).stage none none).out r).2| ≤ S
  | .matrix s _ _ _, _ => s.a = 1 ∧ s.b = 0 ∧ s.len = 0
  | .group _ ps, r => Part.SlopeList S ps r
  | _, _ => True
/-- in successive parts -/
def Part.SlopeList (S : K) : List (Part K) → K × K → Prop
  | [], _ => True
  | p :: ps, r => p.Slope S r ∧ Part.SlopeList S ps (p.rmat.exact.out r)
end

end RT
