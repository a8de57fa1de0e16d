import Verif.Spec.Path

/-! # Optical systems as a user describes them, as a specification

A `Part` is the text of a program that builds a system: calls to the constructors of the library, possibly nested in
groups. What light meets in it is read directly from the parameters. -/

set_option linter.unusedSectionVars false

namespace RT

/-- A system described by the calls that build it. Diameters and radii are finite (`some`) or infinite (`none`). -/
inductive Part (K : Type) where
  /-- `Space(d, n, diameter)` -/
  | space (d n : K) (diam : Option K)
  /-- `Lens(f, diameter)` -/
  | lens (f : K) (diam : Option K)
  /-- `CurvedMirror(R, diameter)` -/
  | mirror (R : K) (diam : Option K)
  /-- `DielectricInterface(n1, n2, R, diameter)` -/
  | interface (n1 n2 : K) (R : Option K) (diam : Option K)
  /-- `ThickLens(n, R1, R2, thickness, diameter)` -/
  | thickLens (n : K) (R1 R2 : Option K) (t : K) (diam : Option K)
  /-- `DielectricSlab(n, thickness, diameter)` -/
  | slab (n t : K) (diam : Option K)
  /-- `Aperture(diameter, NA, label)` -/
  | aperture (diam na : Option K) (label : String)
  /-- `Matrix(A, B, C, D, physicalLength, frontVertex, backVertex, frontIndex, backIndex, apertureDiameter)` -/
  | matrix (s : Sys K) (fv bv : Option K) (diam : Option K)
  /-- `MatrixGroup([...], label)` -/
  | group (label : String) (ps : List (Part K))

variable {K : Type} [Field K] [LinearOrder K]

/-- curvature of a radius: its inverse, 0 for a flat surface -/
def curvature : Option K → K
  | none => 0
  | some R => R⁻¹

mutual
/-- What light meets, in order. A generic matrix with a length is a black box. -/
def Part.prims : Part K → List (Prim K)
  | .space d _ _ => [.gap d]
  | .lens f _ => [.surf (Sys.lens f)]
  | .mirror R _ => [.surf (Sys.mirror R)]
  | .interface n1 n2 R _ => [.surf (Sys.interface n1 n2 (curvature R))]
  | .thickLens n R1 R2 t _ =>
    [.surf (Sys.interface 1 n (curvature R1)), .gap t, .surf (Sys.interface n 1 (curvature R2))]
  | .slab n t _ => [.surf (Sys.interface 1 n 0), .gap t, .surf (Sys.interface n 1 0)]
  | .aperture _ _ _ => [.surf (Sys.one 1)]
  | .matrix s _ _ _ => if s.len = 0 then [.surf s] else [.block s]
  | .group _ ps => Part.primsList ps
/-- in successive parts -/
def Part.primsList : List (Part K) → List (Prim K)
  | [] => []
  | p :: ps => p.prims ++ Part.primsList ps
end

/-- total length -/
def Part.length (p : Part K) : K := extent p.prims

mutual
/-- Physically meaningful parameters: the first index of an interface is not zero, and a generic matrix has the determinant of
its indices. (Other impossible values, such as a zero radius, are refused by the constructors.) -/
def Part.Valid : Part K → Prop
  | .interface n1 _ _ _ => n1 ≠ 0
  | .matrix s _ _ _ => s.Lawful
  | .group _ ps => Part.ValidList ps
  | _ => True
/-- every part is valid -/
def Part.ValidList : List (Part K) → Prop
  | [] => True
  | p :: ps => p.Valid ∧ Part.ValidList ps
end

mutual
/-- no length is negative -/
def Part.NonNeg : Part K → Prop
  | .space d _ _ => 0 ≤ d
  | .thickLens _ _ _ t _ => 0 ≤ t
  | .slab _ t _ => 0 ≤ t
  | .matrix s _ _ _ => 0 ≤ s.len
  | .group _ ps => Part.NonNegList ps
  | _ => True
/-- in every part -/
def Part.NonNegList : List (Part K) → Prop
  | [] => True
  | p :: ps => p.NonNeg ∧ Part.NonNegList ps
end

theorem Part.NonNeg.nonneg : ∀ {p : Part K}, p.NonNeg → ∀ q ∈ p.prims, 0 ≤ q.len
  | .space d _ _, h, q, hq => by
    simp only [Part.prims, List.mem_singleton] at hq; subst hq; simpa [Part.NonNeg, Prim.len] using h
  | .lens f _, _, q, hq => by simp only [Part.prims, List.mem_singleton] at hq; subst hq; exact le_refl _
  | .mirror f _, _, q, hq => by simp only [Part.prims, List.mem_singleton] at hq; subst hq; exact le_refl _
  | .interface _ _ _ _, _, q, hq => by simp only [Part.prims, List.mem_singleton] at hq; subst hq; exact le_refl _
  | .thickLens _ _ _ t _, h, q, hq => by
    simp only [Part.prims, List.mem_cons, List.not_mem_nil, or_false] at hq
    rcases hq with rfl | rfl | rfl
    · exact le_refl _
    · simpa [Part.NonNeg, Prim.len] using h
    · exact le_refl _
  | .slab _ t _, h, q, hq => by
    simp only [Part.prims, List.mem_cons, List.not_mem_nil, or_false] at hq
    rcases hq with rfl | rfl | rfl
    · exact le_refl _
    · simpa [Part.NonNeg, Prim.len] using h
    · exact le_refl _
  | .aperture _ _ _, _, q, hq => by simp only [Part.prims, List.mem_singleton] at hq; subst hq; exact le_refl _
  | .matrix s _ _ _, h, q, hq => by
    simp only [Part.prims] at hq
    split_ifs at hq
    · simp only [List.mem_singleton] at hq; subst hq; exact le_refl _
    · simp only [List.mem_singleton] at hq; subst hq; simpa [Part.NonNeg, Prim.len] using h
  | .group _ ps, h, q, hq => by
    simp only [Part.prims] at hq
    simp only [Part.NonNeg] at h
    exact nonnegList h q hq
where
  nonnegList : ∀ {ps : List (Part K)}, Part.NonNegList ps → ∀ q ∈ Part.primsList ps, 0 ≤ q.len
  | [], _, q, hq => by simp [Part.primsList] at hq
  | p :: ps, h, q, hq => by
    simp only [Part.primsList, List.mem_append] at hq
    simp only [Part.NonNegList] at h
    rcases hq with hq | hq
    · exact Part.NonNeg.nonneg h.1 q hq
    · exact nonnegList h.2 q hq

mutual
/-- Systems whose orientation can be flipped: with `air = false`, no curved mirrors, and generic matrices that are the same
from both sides; with `air = true`, anything that starts and ends in air. (`flipOrientation` leaves the coefficients of a
generic matrix alone and only exchanges its indices; for a mirror it changes the sign of `C`.) -/
def Part.Flippable (air : Bool) : Part K → Prop
  | .space _ n _ => air = true → n = 1
  | .mirror _ _ => air = true
  | .interface n1 n2 _ _ => air = true → n1 = 1 ∧ n2 = 1
  | .matrix s _ _ _ => s.nf = s.nb ∧ (air = true → s.nf = 1) ∧ (air = false → s.a = s.d)
  | .group _ ps => Part.FlippableList air ps
  | _ => True
/-- every part can be flipped -/
def Part.FlippableList (air : Bool) : List (Part K) → Prop
  | [] => True
  | p :: ps => p.Flippable air ∧ Part.FlippableList air ps
end

mutual
/-- Systems whose vertices, if any, are in the middle of the elements they belong to (thin elements, gaps). -/
def Part.Centered : Part K → Prop
  | .thickLens _ _ _ t _ => t = 0
  | .slab _ t _ => t = 0
  | .matrix s fv bv _ => (∀ v ∈ fv, v + v = s.len) ∧ (∀ v ∈ bv, v + v = s.len)
  | .group _ ps => Part.CenteredList ps
  | _ => True
/-- in every part -/
def Part.CenteredList : List (Part K) → Prop
  | [] => True
  | p :: ps => p.Centered ∧ Part.CenteredList ps
end

end RT
