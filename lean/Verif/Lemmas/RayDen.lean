import Verif.Lemmas.Chain

/-! # Finite rays and vertices -/

set_option linter.unusedSectionVars false

namespace RT
open PyNum Ext
variable {K : Type} [Field K] [LinearOrder K] [IsStrictOrderedRing K]

/-- The ray has ordinary finite height, angle and position. -/
structure FinRay (r : Ray (Ext K)) (y θ z : K) : Prop where
  y : r.y = fin y
  theta : r.theta = fin θ
  z : r.z = fin z

/-- The element acts on rays through its matrix (every class but `Axicon`). -/
def Mat.Linear {F : Type} (m : Mat F) : Prop := ∀ n alpha, m.kind ≠ .axicon n alpha

theorem Mat.Linear.mulRay {F : Type} [PyNum F] {m : Mat F} (h : m.Linear) (r : Ray F) :
    m.mulRay r = m.mulRayBase r := by
  unfold Mat.mulRay
  cases hk : m.kind <;> simp
  exact absurd hk (h _ _)

/-- What an element does to an unblocked finite ray, in terms of the system it stands for. -/
theorem mulRay_den {m : Mat (Ext K)} {s : Sys K} (h : Den m s) (hl : m.Linear) {r : Ray (Ext K)} {y θ z : K}
    (hr : FinRay r y θ z) (hb : r.isBlocked = false) :
    FinRay (m.mulRay r) (s.outY y θ) (s.outθ y θ) (s.len + z) := by
  rw [hl.mulRay]
  constructor <;> simp [Mat.mulRayBase, hb, h.A, h.B, h.C, h.D, h.L, hr.y, hr.theta, hr.z, Sys.outY, Sys.outθ]

/-- The element has the given length and vertices. -/
structure DenV (m : Mat (Ext K)) (v : Vtx K) : Prop where
  L : m.L = fin v.1
  fv : m.frontVertex = v.2.1.map fin
  bv : m.backVertex = v.2.2.map fin

theorem mulRaw_denV {m r : Mat (Ext K)} {v w : Vtx K} (hm : DenV m v) (hr : DenV r w) :
    DenV (m.mulRaw r) (w.1 + v.1, firstVertex 0 [w, v], lastVertex 0 [w, v]) := by
  obtain ⟨l, fv, bv⟩ := v
  obtain ⟨l', fv', bv'⟩ := w
  constructor
  · simp [Mat.mulRaw, hm.L, hr.L, add_comm]
  · simp only [Mat.mulRaw, Mat.mulFrontVertex, hm.fv, hr.fv, hr.L]
    cases fv' <;> cases fv <;> simp [firstVertex]
  · simp only [Mat.mulRaw, Mat.mulBackVertex, hm.bv, hr.bv, hr.L]
    cases bv' <;> cases bv <;> simp [lastVertex]

theorem firstVertex_shift (z : K) (l : List (Vtx K)) :
    firstVertex z l = (firstVertex 0 l).map (z + ·) := by
  induction l generalizing z with
  | nil => rfl
  | cons v l ih =>
    obtain ⟨len, fv, bv⟩ := v
    cases fv with
    | some v => simp [firstVertex]
    | none =>
      simp only [firstVertex]
      rw [ih, ih (0 + len)]
      cases firstVertex 0 l <;> simp [add_assoc]

theorem lastVertex_shift (z : K) (l : List (Vtx K)) :
    lastVertex z l = (lastVertex 0 l).map (z + ·) := by
  induction l generalizing z with
  | nil => rfl
  | cons v l ih =>
    obtain ⟨len, fv, bv⟩ := v
    simp only [lastVertex]
    rw [ih, ih (0 + len)]
    cases lastVertex 0 l <;> cases bv <;> simp [add_assoc]


/-- the loop computing the product, on the lengths and vertices -/
theorem transferMatrixList_denV {es : List (Elem (Ext K))} {vs : List (Vtx K)}
    (hd : List.Forall₂ (fun e v => DenV e.mat v) es vs) {acc t : Mat (Ext K)} {v0 : Vtx K} (ha : DenV acc v0)
    (ht : transferMatrixList es pinf acc = .ok t) :
    DenV t (v0.1 + (vs.map (·.1)).sum, firstVertex 0 (v0 :: vs), lastVertex 0 (v0 :: vs)) := by
  induction hd generalizing acc v0 with
  | nil =>
    simp only [transferMatrixList, Except.ok.injEq] at ht
    subst ht
    obtain ⟨l, fv, bv⟩ := v0
    have e1 : firstVertex 0 [(l, fv, bv)] = fv := by cases fv <;> simp [firstVertex]
    have e2 : lastVertex 0 [(l, fv, bv)] = bv := by cases bv <;> simp [lastVertex]
    rw [e1, e2]
    simpa using ha
  | @cons e v es vs he _ ih =>
    unfold transferMatrixList at ht
    rw [he.L] at ht
    simp only [le_fin_pinf, if_true, pinf_sub_fin] at ht
    cases hm : e.mat.mulMatrix acc with
    | error x => simp [hm] at ht
    | ok p =>
      simp only [hm] at ht
      have hp := mulRaw_denV he ha
      rw [← mulMatrix_ok hm] at hp
      have := ih hp ht
      obtain ⟨l, fv, bv⟩ := v0
      obtain ⟨l', fv', bv'⟩ := v
      convert this using 2
      · simp [add_assoc]
      · congr 1
        · cases fv <;> cases fv' <;> simp [firstVertex]
        · simp only [lastVertex]
          rw [lastVertex_shift (0 + l + l'), lastVertex_shift (0 + (l + l'))]
          cases lastVertex 0 vs <;> cases bv <;> cases bv' <;> simp [add_assoc]

end RT
