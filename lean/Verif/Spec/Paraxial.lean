import Mathlib.Algebra.Order.Field.Basic
import Mathlib.Data.Matrix.Mul
import Mathlib.LinearAlgebra.Matrix.Notation
import Mathlib.Tactic.FieldSimp
import Mathlib.Tactic.Ring

/-! # Paraxial optics, as a specification

This file does not refer to the model of the code. A system is a 2×2 matrix acting on `(height, angle)` together with
its length and the refractive indices in front of it and behind it. -/

namespace RT

/-- A paraxial system over the field `K`. -/
structure Sys (K : Type) where
  a : K
  b : K
  c : K
  d : K
  len : K
  nf : K
  nb : K

namespace Sys
variable {K : Type} [Field K]

/-- height of the ray leaving the system -/
def outY (s : Sys K) (y θ : K) : K := s.a * y + s.b * θ
/-- angle of the ray leaving the system -/
def outθ (s : Sys K) (y θ : K) : K := s.c * y + s.d * θ

/-- the ray transfer matrix -/
def toMatrix (s : Sys K) : Matrix (Fin 2) (Fin 2) K := !![s.a, s.b; s.c, s.d]

/-- determinant of the ray transfer matrix -/
def det (s : Sys K) : K := s.a * s.d - s.b * s.c

/-- Physically consistent: the determinant is the ratio of the indices, which are not zero. -/
def Lawful (s : Sys K) : Prop := s.nf ≠ 0 ∧ s.nb ≠ 0 ∧ s.det = s.nf / s.nb

/-- Nothing at all, in a medium of index `n`. -/
def one (n : K) : Sys K := ⟨1, 0, 0, 1, 0, n, n⟩

/-- Free propagation over `x` in a medium of index `n`. -/
def space (x n : K) : Sys K := ⟨1, x, 0, 1, x, n, n⟩

/-- `s` first, then `t`. -/
def andThen (s t : Sys K) : Sys K where
  a := t.a * s.a + t.b * s.c
  b := t.a * s.b + t.b * s.d
  c := t.c * s.a + t.d * s.c
  d := t.c * s.b + t.d * s.d
  len := s.len + t.len
  nf := s.nf
  nb := t.nb

/-- The ray matrix is the identity. -/
def IsId (s : Sys K) : Prop := s.a = 1 ∧ s.b = 0 ∧ s.c = 0 ∧ s.d = 1

theorem andThen_outY (s t : Sys K) (y θ : K) :
    (s.andThen t).outY y θ = t.outY (s.outY y θ) (s.outθ y θ) := by
  simp only [andThen, outY, outθ]; ring

theorem andThen_outθ (s t : Sys K) (y θ : K) :
    (s.andThen t).outθ y θ = t.outθ (s.outY y θ) (s.outθ y θ) := by
  simp only [andThen, outY, outθ]; ring

theorem andThen_assoc (s t u : Sys K) : (s.andThen t).andThen u = s.andThen (t.andThen u) := by
  simp only [andThen, Sys.mk.injEq, and_true]
  refine ⟨?_, ?_, ?_, ?_, ?_⟩ <;> ring

theorem andThen_det (s t : Sys K) : (s.andThen t).det = s.det * t.det := by
  simp only [andThen, det]; ring

theorem andThen_toMatrix (s t : Sys K) : (s.andThen t).toMatrix = t.toMatrix * s.toMatrix := by
  simp only [toMatrix, andThen, Matrix.mul_fin_two]

theorem Lawful.andThen {s t : Sys K} (hs : s.Lawful) (ht : t.Lawful) (h : s.nb = t.nf) :
    (s.andThen t).Lawful := by
  obtain ⟨h1, h2, h3⟩ := hs
  obtain ⟨h4, h5, h6⟩ := ht
  refine ⟨h1, h5, ?_⟩
  rw [andThen_det, h3, h6, ← h]
  simp only [Sys.andThen]
  field_simp

theorem one_lawful {n : K} (h : n ≠ 0) : (one n).Lawful := by
  refine ⟨h, h, ?_⟩; simp [one, det, h]

theorem Lawful.nf_eq_nb {s : Sys K} (hs : s.Lawful) (h : s.IsId) : s.nf = s.nb := by
  obtain ⟨h1, h2, h3⟩ := hs
  obtain ⟨h4, h5, h6, h7⟩ := h
  rw [det, h4, h5, h6, h7, eq_div_iff h2] at h3
  simpa using h3.symm

/-- The whole chain of systems, the first one of the list met first, in front of it the system `s`. -/
def chain (s : Sys K) (l : List (Sys K)) : Sys K := l.foldl andThen s

/-- Adjacent media match along the chain, starting in the medium behind `s`. -/
def Matched : K → List (Sys K) → Prop
  | _, [] => True
  | n, s :: l => s.nf = n ∧ Matched s.nb l

/-- The medium at the end of the chain, starting in the medium `n`. -/
def endIndex : K → List (Sys K) → K
  | n, [] => n
  | _, s :: l => endIndex s.nb l

/-- Same ray matrix and same length. -/
def SameABCD (s t : Sys K) : Prop := s.a = t.a ∧ s.b = t.b ∧ s.c = t.c ∧ s.d = t.d ∧ s.len = t.len

end Sys
end RT

/-! ## The usual elements -/
namespace RT.Sys
variable {K : Type} [Field K]

/-- Thin lens of focal length `f` in air. -/
def lens (f : K) : Sys K := ⟨1, 0, -1 / f, 1, 0, 1, 1⟩

/-- Spherical interface of curvature `k` (inverse of the radius, 0 when flat) between indices `n1` and `n2`. -/
def interface (n1 n2 k : K) : Sys K := ⟨1, 0, -((n2 - n1) * k / n2), n1 / n2, 0, n1, n2⟩

/-- Thick lens in air: two interfaces separated by `t` of a medium of index `n`. -/
def thick (n k1 k2 t : K) : Sys K := ((interface 1 n k1).andThen (space t n)).andThen (interface n 1 k2)

/-- Mirror of radius `R`, unfolded. -/
def mirror (R : K) : Sys K := ⟨1, 0, 2 / R, 1, 0, 1, 1⟩

theorem space_lawful (x : K) {n : K} (h : n ≠ 0) : (space x n).Lawful := by
  refine ⟨h, h, ?_⟩; simp [space, det, h]

theorem lens_lawful (f : K) : (lens f).Lawful := by
  refine ⟨one_ne_zero, one_ne_zero, ?_⟩; simp [lens, det]

theorem mirror_lawful (f : K) : (mirror f).Lawful := by
  refine ⟨one_ne_zero, one_ne_zero, ?_⟩; simp [mirror, det]

theorem interface_lawful {n1 n2 : K} (k : K) (h1 : n1 ≠ 0) (h2 : n2 ≠ 0) : (interface n1 n2 k).Lawful := by
  refine ⟨h1, h2, ?_⟩; simp [interface, det]

theorem thick_lawful {n : K} (k1 k2 t : K) (h : n ≠ 0) : (thick n k1 k2 t).Lawful :=
  ((interface_lawful k1 one_ne_zero h).andThen (space_lawful t h) rfl).andThen
    (interface_lawful k2 h one_ne_zero) rfl

theorem thick_eq {n : K} (k1 k2 t : K) (h : n ≠ 0) :
    thick n k1 k2 t = ⟨t * (1 - n) * (k1 / n) + 1, t / n,
      -(n - 1) * (k1 - k2 + t * (n - 1) * (k1 * k2 / n)), t * (n - 1) * (k2 / n) + 1, t, 1, 1⟩ := by
  simp only [thick, interface, space, andThen, Sys.mk.injEq]
  refine ⟨?_, ?_, ?_, ?_, by ring, trivial, trivial⟩ <;> field_simp <;> ring

end RT.Sys

namespace RT
variable {K : Type} [Field K]

/-! ## Vertices -/

/-- An element along the axis, for the specification of vertices: length, first and last vertex (from its front
edge). -/
abbrev Vtx (K : Type) := K × Option K × Option K

/-- Position of the first front vertex met by the light, starting at `z`. -/
def firstVertex : K → List (Vtx K) → Option K
  | _, [] => none
  | z, (_, some v, _) :: _ => some (z + v)
  | z, (l, none, _) :: es => firstVertex (z + l) es

/-- Position of the last back vertex met by the light, starting at `z`. -/
def lastVertex : K → List (Vtx K) → Option K
  | _, [] => none
  | z, (l, _, bv) :: es =>
    match lastVertex (z + l) es with
    | some v => some v
    | none => bv.map (z + ·)

end RT
