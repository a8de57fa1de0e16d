import Verif.Spec.Stage
import Mathlib.Analysis.SpecialFunctions.Trigonometric.Basic
import Mathlib.Analysis.Real.Sqrt

/-! # Gaussian beams, as a specification

The complex radius of curvature `q` of a beam: `1/q = 1/R - i λ / (n π w²)`, where `R` is the radius of curvature and `w` the
size of the beam, `λ` the wavelength (in vacuum) and `n` the index. -/

namespace RT

/-- The law ABCD: a system transforms `q` as it transforms the ratio of height to angle. -/
noncomputable def Stage.bend (s : Stage ℝ) (q : ℂ) : ℂ := (s.a * q + s.b) / (s.c * q + s.d)

/-- the complex radius after successive elements -/
noncomputable def beamAfter (ss : List (Stage ℝ)) (q : ℂ) : ℂ := ss.foldl (fun q s => s.bend q) q

/-- the size of a beam -/
noncomputable def beamSize (wavelength n : ℝ) (q : ℂ) : ℝ := Real.sqrt (wavelength / (n * Real.pi * (-1 / q).im))

mutual
/-- All indices are positive. -/
def Part.PosMedia : Part ℝ → Prop
  | .space _ n _ => 0 < n
  | .interface n1 n2 _ _ => 0 < n1 ∧ 0 < n2
  | .thickLens n _ _ _ _ => 0 < n
  | .slab n _ _ => 0 < n
  | .matrix s _ _ _ => 0 < s.nf ∧ 0 < s.nb
  | .group _ ps => Part.PosMediaList ps
  | _ => True
/-- in every part -/
def Part.PosMediaList : List (Part ℝ) → Prop
  | [] => True
  | p :: ps => p.PosMedia ∧ Part.PosMediaList ps
end

end RT
