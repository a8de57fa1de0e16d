import Verif.Spec.Paraxial
import Mathlib.Tactic.Linarith

/-! # The path of a ray through a sequence of surfaces, gaps and black boxes, as a specification -/

set_option linter.unusedSectionVars false

namespace RT
variable {K : Type} [Field K]

/-- What light meets along the axis. -/
inductive Prim (K : Type) where
  /-- something without thickness -/
  | surf (s : Sys K)
  /-- free propagation -/
  | gap (x : K)
  /-- something with a thickness whose inside is not known -/
  | block (s : Sys K)

/-- extent along the axis -/
def Prim.len : Prim K → K
  | .surf _ => 0
  | .gap x => x
  | .block s => s.len

/-- effect on a ray `(height, angle)` -/
def Prim.out : Prim K → K × K → K × K
  | .surf s, r => (s.outY r.1 r.2, s.outθ r.1 r.2)
  | .gap x, r => (r.1 + x * r.2, r.2)
  | .block s, r => (s.outY r.1 r.2, s.outθ r.1 r.2)

/-- the ray after everything -/
def through (ps : List (Prim K)) (r : K × K) : K × K := ps.foldl (fun r p => p.out r) r

/-- total extent -/
def extent (ps : List (Prim K)) : K := (ps.map Prim.len).sum

variable [LinearOrder K]

/-- The ray at the distance `z` from the start, after any surface located there; nothing strictly inside a
black box. -/
def rayAt : List (Prim K) → K → K × K → Option (K × K)
  | [], _, r => some r
  | .surf s :: ps, z, r => rayAt ps z ((Prim.surf s).out r)
  | .gap x :: ps, z, r => if x ≤ z then rayAt ps (z - x) ((Prim.gap x).out r) else some (r.1 + z * r.2, r.2)
  | .block s :: ps, z, r => if s.len ≤ z then rayAt ps (z - s.len) ((Prim.block s).out r) else none

/-- There is something to see at `z`: it is not strictly inside a black box. -/
def Visible : List (Prim K) → K → Prop
  | [], _ => True
  | .surf _ :: ps, z => Visible ps z
  | .gap x :: ps, z => if x ≤ z then Visible ps (z - x) else True
  | .block s :: ps, z => if s.len ≤ z then Visible ps (z - s.len) else False

theorem rayAt_isSome (ps : List (Prim K)) (z : K) (r : K × K) : (rayAt ps z r).isSome ↔ Visible ps z := by
  induction ps generalizing z r with
  | nil => simp [rayAt, Visible]
  | cons p ps ih =>
    cases p with
    | surf s => simp [rayAt, Visible, ih]
    | gap x => simp only [rayAt, Visible]; split_ifs <;> simp [ih]
    | block s => simp only [rayAt, Visible]; split_ifs <;> simp [ih]

theorem through_append (ps qs : List (Prim K)) (r : K × K) :
    through (ps ++ qs) r = through qs (through ps r) := by simp [through]

theorem extent_append (ps qs : List (Prim K)) : extent (ps ++ qs) = extent ps + extent qs := by
  simp [extent]

variable [IsStrictOrderedRing K]

theorem extent_nonneg {ps : List (Prim K)} (h : ∀ p ∈ ps, 0 ≤ p.len) : 0 ≤ extent ps :=
  List.sum_nonneg (by simpa using h)

/-- past the end of the first part -/
theorem rayAt_append_ge {ps : List (Prim K)} (h : ∀ p ∈ ps, 0 ≤ p.len) (qs : List (Prim K)) {z : K}
    (hz : extent ps ≤ z) (r : K × K) : rayAt (ps ++ qs) z r = rayAt qs (z - extent ps) (through ps r) := by
  induction ps generalizing z r with
  | nil => simp [extent, through]
  | cons p ps ih =>
    have h' : ∀ p ∈ ps, 0 ≤ p.len := fun q hq => h q (by simp [hq])
    have hn := extent_nonneg h'
    have e : extent (p :: ps) = p.len + extent ps := by simp [extent]
    rw [e] at hz ⊢
    have e2 : through (p :: ps) r = through ps (p.out r) := rfl
    have hp : p.len ≤ z := by linarith
    have hz' : extent ps ≤ z - p.len := by linarith
    have e3 : z - (p.len + extent ps) = (z - p.len) - extent ps := by ring
    rw [e2, e3, ← ih h' hz']
    cases p with
    | surf s => simp [rayAt, Prim.len]
    | gap x => simp only [Prim.len] at hp ⊢; simp [rayAt, hp]
    | block s => simp only [Prim.len] at hp ⊢; simp [rayAt, hp]

/-- before the end of the first part -/
theorem rayAt_append_lt {ps : List (Prim K)} (qs : List (Prim K)) {z : K} (h0 : 0 ≤ z)
    (hz : z < extent ps) (r : K × K) : rayAt (ps ++ qs) z r = rayAt ps z r := by
  induction ps generalizing z r with
  | nil => simp [extent] at hz; exact absurd hz (not_lt.2 h0)
  | cons p ps ih =>
    have e : extent (p :: ps) = p.len + extent ps := by simp [extent]
    rw [e] at hz
    have hz' : z - p.len < extent ps := by linarith
    cases p with
    | surf s => simp only [Prim.len, sub_zero] at hz'; simp [rayAt, ih h0 hz']
    | gap x =>
      simp only [Prim.len] at hz'
      simp only [List.cons_append, rayAt]
      split_ifs with hc
      · exact ih (sub_nonneg.2 hc) hz' _
      · rfl
    | block s =>
      simp only [Prim.len] at hz'
      simp only [List.cons_append, rayAt]
      split_ifs with hc
      · exact ih (sub_nonneg.2 hc) hz' _
      · rfl

theorem rayAt_end {ps : List (Prim K)} (h : ∀ p ∈ ps, 0 ≤ p.len) {z : K} (hz : extent ps ≤ z) (r : K × K) :
    rayAt ps z r = some (through ps r) := by
  have := rayAt_append_ge h [] hz r
  simpa [rayAt] using this

end RT
