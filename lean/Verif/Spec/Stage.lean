import Verif.Spec.Part

/-! # What stops a ray, as a specification

A system is crossed in stages, one per element; each has an opening (finite or not) and an acceptance angle (finite or
not) that the ray must meet where it enters. -/

set_option linter.unusedSectionVars false

namespace RT
variable {K : Type} [Field K]

/-- An element: its ray matrix, its length, its diameter and its numerical aperture (`none` when infinite). -/
structure Stage (K : Type) where
  a : K
  b : K
  c : K
  d : K
  len : K
  diam : Option K
  na : Option K

/-- the ray after the stage -/
def Stage.out (s : Stage K) (r : K × K) : K × K := (s.a * r.1 + s.b * r.2, s.c * r.1 + s.d * r.2)

/-- an element given by its paraxial system -/
def Sys.stage (s : Sys K) (diam na : Option K) : Stage K := ⟨s.a, s.b, s.c, s.d, s.len, diam, na⟩

mutual
/-- the stages of a system -/
def Part.stages : Part K → List (Stage K)
  | .space d n diam => [(Sys.space d n).stage diam none]
  | .lens f diam => [(Sys.lens f).stage diam none]
  | .mirror R diam => [(Sys.mirror R).stage diam none]
  | .interface n1 n2 R diam => [(Sys.interface n1 n2 (curvature R)).stage diam none]
  | .thickLens n R1 R2 t diam => [(Sys.thick n (curvature R1) (curvature R2) t).stage diam none]
  | .slab n t diam => [(Sys.thick n 0 0 t).stage diam none]
  | .aperture diam na _ => [(Sys.one 1).stage diam na]
  | .matrix s _ _ diam => [s.stage diam none]
  | .group _ ps => Part.stagesList ps
/-- of successive parts -/
def Part.stagesList : List (Part K) → List (Stage K)
  | [] => []
  | p :: ps => p.stages ++ Part.stagesList ps
end

/-- the ray as it enters stage number `i` -/
def rayBefore (ss : List (Stage K)) (i : Nat) (r : K × K) : K × K := (ss.take i).foldl (fun r s => s.out r) r

/-- where stage number `i` starts -/
def zBefore (ss : List (Stage K)) (i : Nat) : K := ((ss.take i).map Stage.len).sum

variable [LinearOrder K]

/-- The stage stops a ray entering with this height and angle. -/
def Stage.Stops (s : Stage K) (r : K × K) : Prop :=
  (∃ D, s.diam = some D ∧ D / 2 < |r.1|) ∨ (∃ N, s.na = some N ∧ N < |r.2|)

/-- The ray is stopped somewhere. -/
def Blocked : List (Stage K) → K × K → Prop
  | [], _ => False
  | s :: ss, r => s.Stops r ∨ Blocked ss (s.out r)

theorem blocked_iff {ss : List (Stage K)} {r : K × K} :
    Blocked ss r ↔ ∃ (i : Nat) (s : Stage K), ss[i]? = some s ∧ s.Stops (rayBefore ss i r) := by
  induction ss generalizing r with
  | nil => simp [Blocked]
  | cons s ss ih =>
    simp only [Blocked, ih]
    constructor
    · rintro (h | ⟨i, t, h1, h2⟩)
      · exact ⟨0, s, rfl, h⟩
      · exact ⟨i + 1, t, h1, h2⟩
    · rintro ⟨i, t, h1, h2⟩
      cases i with
      | zero =>
        simp only [List.getElem?_cons_zero, Option.some.injEq] at h1
        subst h1; exact .inl h2
      | succ i => exact .inr ⟨i, t, h1, h2⟩

open Classical in
/-- The stages that a ray meets: up to the one that stops it, included. -/
noncomputable def crossed : List (Stage K) → K × K → List (Stage K)
  | [], _ => []
  | s :: ss, r => s :: (if s.Stops r then [] else crossed ss (s.out r))

theorem crossed_prefix (ss : List (Stage K)) (r : K × K) : crossed ss r <+: ss := by
  induction ss generalizing r with
  | nil => simp [crossed]
  | cons s ss ih =>
    unfold crossed
    split_ifs
    · exact ⟨ss, rfl⟩
    · exact List.cons_prefix_cons.2 ⟨rfl, ih _⟩

theorem crossed_of_not_blocked {ss : List (Stage K)} {r : K × K} (h : ¬ Blocked ss r) : crossed ss r = ss := by
  induction ss generalizing r with
  | nil => rfl
  | cons s ss ih =>
    unfold Blocked at h
    push Not at h
    unfold crossed
    rw [if_neg h.1, ih h.2]

/-- No acceptance angle is finite. -/
def NoNA (ss : List (Stage K)) : Prop := ∀ s ∈ ss, s.na = none

/-- Everything with a finite diameter is thin: the ray leaves it where it enters. -/
def ThinOpenings (ss : List (Stage K)) : Prop := ∀ s ∈ ss, s.diam ≠ none → s.a = 1 ∧ s.b = 0 ∧ s.len = 0

/-- free propagation -/
def Stage.Gap (s : Stage K) : Prop := s.a = 1 ∧ s.b = s.len ∧ s.c = 0 ∧ s.d = 1

/-- `p` is the ray (height, angle) at the distance `x` along its path: at the entrance of an element, at the end, or inside a
gap, on a straight line. -/
def OnPath : List (Stage K) → K × K → K → K × K → Prop
  | [], r, x, p => x = 0 ∧ p = r
  | s :: ss, r, x, p => (x = 0 ∧ p = r) ∨ (s.Gap ∧ 0 ≤ x ∧ x ≤ s.len ∧ p = (r.1 + x * r.2, r.2)) ∨
      OnPath ss (s.out r) (x - s.len) p

/-- The distance `x` is strictly inside an element that is not a gap. -/
def Inside : List (Stage K) → K → Prop
  | [], _ => False
  | s :: ss, x => (¬ s.Gap ∧ 0 < x ∧ x < s.len) ∨ Inside ss (x - s.len)

end RT
