import Verif.Model.Group
import Verif.Spec.Paraxial

/-! # Finite elements of the model and the paraxial systems they stand for -/

set_option linter.unusedSectionVars false

namespace RT
open PyNum Ext
variable {K : Type} [Field K] [LinearOrder K] [IsStrictOrderedRing K]

/-- The element has finite entries, which are those of the paraxial system `s`. -/
structure Den (m : Mat (Ext K)) (s : Sys K) : Prop where
  A : m.A = fin s.a
  B : m.B = fin s.b
  C : m.C = fin s.c
  D : m.D = fin s.d
  L : m.L = fin s.len
  nf : m.frontIndex = fin s.nf
  nb : m.backIndex = fin s.nb

theorem Den.unique {m : Mat (Ext K)} {s t : Sys K} (h : Den m s) (h' : Den m t) : s = t := by
  obtain ⟨a, b, c, d, l, nf, nb⟩ := s
  obtain ⟨a', b', c', d', l', nf', nb'⟩ := t
  have := h.A.symm.trans h'.A; have := h.B.symm.trans h'.B; have := h.C.symm.trans h'.C
  have := h.D.symm.trans h'.D; have := h.L.symm.trans h'.L; have := h.nf.symm.trans h'.nf
  have := h.nb.symm.trans h'.nb
  simp_all

theorem eps_eq : (eps : Ext K) = fin ((1 / 100000 : ℚ) : K) := rfl

theorem eps_pos : (0 : K) < ((1 / 100000 : ℚ) : K) := by
  exact_mod_cast (by norm_num : (0 : ℚ) < 1 / 100000)

theorem determinant_den {m : Mat (Ext K)} {s : Sys K} (h : Den m s) : m.determinant = fin s.det := by
  unfold Mat.determinant Sys.det
  rw [h.A, h.B, h.C, h.D]
  by_cases hc : s.c = 0 <;> simp [hc]

theorem isIdentity_den {m : Mat (Ext K)} {s : Sys K} (h : Den m s) :
    m.isIdentity = true ↔ s.IsId := by
  unfold Mat.isIdentity Sys.IsId
  rw [h.A, h.B, h.C, h.D]
  simp; tauto

/-- What the constructor answers on finite entries. -/
theorem init_den {m : Mat (Ext K)} {s : Sys K} (h : Den m s) :
    Mat.init m =
      if (m.apertureDiameter ≤. 0) = true ∨ (m.apertureNA ≤. 0) = true then .error .valueError
      else if s.nb = 0 then .error .zeroDivisionError
      else if ((1 / 100000 : ℚ) : K) < |s.det - s.nf / s.nb| then .error .valueError
      else .ok { m with isFlipped := false } := by
  unfold Mat.init
  rw [determinant_den h, h.nf, h.nb]
  unfold pyDiv areAbsolutelyNotEqual
  rw [eps_eq]
  by_cases h1 : (m.apertureDiameter ≤. 0) = true <;> by_cases h2 : (m.apertureNA ≤. 0) = true <;>
    by_cases h3 : s.nb = 0 <;>
    by_cases h4 : ((1 / 100000 : ℚ) : K) < |s.det - s.nf / s.nb| <;>
    simp_all [bind, Except.bind, throw, throwThe, MonadExceptOf.throw, pure, Except.pure]

theorem init_lawful {m : Mat (Ext K)} {s : Sys K} (h : Den m s) (hs : s.Lawful)
    (h1 : m.apertureDiameter = pinf) (h2 : m.apertureNA = pinf) :
    Mat.init m = .ok { m with isFlipped := false } := by
  rw [init_den h, h1, h2, hs.2.2]
  simp [hs.2.1]

theorem init_ok {m p : Mat (Ext K)} (h : Mat.init m = .ok p) : p = { m with isFlipped := false } := by
  unfold Mat.init at h
  simp only [bind, Except.bind, throw, throwThe, MonadExceptOf.throw, pure, Except.pure] at h
  repeat' split at h
  all_goals simp_all

/-- The system of the constructor arguments built by `mulRaw`, whatever the indices chosen. -/
theorem mulRaw_den {m r : Mat (Ext K)} {s t : Sys K} (hm : Den m s) (hr : Den r t) :
    Den (m.mulRaw r)
      { (t.andThen s) with
        nf := open Classical in if s.IsId then t.nf else if t.IsId then s.nf else t.nf
        nb := open Classical in if s.IsId then t.nb else if t.IsId then s.nb else s.nb } := by
  have h1 := isIdentity_den hm
  have h2 := isIdentity_den hr
  constructor <;> simp only [Mat.mulRaw, Sys.andThen, hm.A, hm.B, hm.C, hm.D, hm.L, hr.A, hr.B, hr.C, hr.D,
    hr.L, fin_mul_fin, fin_add_fin]
  · simp [add_comm]
  · unfold Mat.mulFrontIndex
    by_cases a : s.IsId <;> by_cases b : t.IsId <;> simp_all [hm.nf, hr.nf]
  · unfold Mat.mulBackIndex
    by_cases a : s.IsId <;> by_cases b : t.IsId <;> simp_all [hm.nb, hr.nb]

/-- Matching indices: the indices of the product are those of the combined system. -/
theorem mulRaw_den_matched {m r : Mat (Ext K)} {s t : Sys K} (hm : Den m s) (hr : Den r t)
    (hs : s.Lawful) (ht : t.Lawful) (h : t.nb = s.nf) : Den (m.mulRaw r) (t.andThen s) := by
  have := mulRaw_den hm hr
  convert this using 1
  unfold Sys.andThen
  congr 1
  · by_cases a : s.IsId <;> by_cases b : t.IsId <;> simp [a, b]
    rw [ht.nf_eq_nb b, h]
  · by_cases a : s.IsId <;> by_cases b : t.IsId <;> simp [a, b]
    · rw [h, hs.nf_eq_nb a]
    · rw [h, hs.nf_eq_nb a]

theorem mulRaw_aperture {F : Type} [PyNum F] (m r : Mat F) : (m.mulRaw r).apertureDiameter = inf := rfl

theorem mulMatrix_matched {m r : Mat (Ext K)} {s t : Sys K} (hm : Den m s) (hr : Den r t)
    (hs : s.Lawful) (ht : t.Lawful) (h : t.nb = s.nf) :
    m.mulMatrix r = .ok (m.mulRaw r) := by
  unfold Mat.mulMatrix
  rw [init_lawful (mulRaw_den_matched hm hr hs ht h) (Sys.Lawful.andThen ht hs h) rfl rfl]
  rfl

theorem mulMatrix_ok {m r p : Mat (Ext K)} (h : m.mulMatrix r = .ok p) : p = m.mulRaw r := by
  have := init_ok h
  rw [this]; rfl

end RT
