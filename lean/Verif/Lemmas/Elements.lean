import Verif.Lemmas.Den

/-! # The constructors of the usual elements on finite parameters (radii and diameters may be infinite) -/

set_option linter.unusedSectionVars false

namespace RT
open PyNum Ext
variable {K : Type} [Field K] [LinearOrder K] [IsStrictOrderedRing K]

/-- A usable radius: not zero, not `nan`; may be infinite. -/
def RadiusOk (R : Ext K) : Prop := R ≠ fin 0 ∧ R ≠ nan

/-- Curvature of a radius: the inverse, 0 for an infinite radius. -/
def curv : Ext K → K
  | fin x => x⁻¹
  | _ => 0

@[simp] theorem curv_fin (x : K) : curv (fin x) = x⁻¹ := rfl
@[simp] theorem curv_pinf : curv (pinf : Ext K) = 0 := rfl
@[simp] theorem curv_ninf : curv (ninf : Ext K) = 0 := rfl

/-- Usable diameter (`diameter <= 0` is False). -/
def DiamOk (d : Ext K) : Prop := (d ≤. fin 0) = false

theorem diamOk_pinf : DiamOk (pinf : Ext K) := rfl
theorem diamOk_fin {d : K} : DiamOk (fin d) ↔ 0 < d := by simp [DiamOk]

theorem infOf_ne_zero (x : K) : infOf x ≠ fin 0 := by unfold infOf; split_ifs <;> simp
theorem infOf_ne_nan {x : K} (h : x ≠ 0) : infOf x ≠ nan := by
  unfold infOf
  rcases lt_or_gt_of_ne h with h | h
  · simp [h, h.not_gt]
  · simp [h]
theorem curv_infOf (x : K) : curv (infOf x) = 0 := by unfold infOf; split_ifs <;> rfl

theorem radiusOk_fin {x : K} : RadiusOk (fin x) ↔ x ≠ 0 := by simp [RadiusOk]
theorem radiusOk_pinf : RadiusOk (pinf : Ext K) := by simp [RadiusOk]
theorem radiusOk_ninf : RadiusOk (ninf : Ext K) := by simp [RadiusOk]

theorem RadiusOk.neg {R : Ext K} (h : RadiusOk R) : RadiusOk (-R) ∧ curv (-R) = -curv R := by
  cases R <;> simp_all [RadiusOk, curv, inv_neg]

theorem RadiusOk.mul {R S : Ext K} (h : RadiusOk R) (h' : RadiusOk S) :
    RadiusOk (R * S) ∧ curv (R * S) = curv R * curv S := by
  have e1 : (ninf : Ext K) * pinf = ninf := rfl
  have e2 : (pinf : Ext K) * ninf = ninf := rfl
  have e3 : (ninf : Ext K) * ninf = pinf := rfl
  have e4 : (pinf : Ext K) * pinf = pinf := rfl
  have e5 : ∀ x : K, (ninf : Ext K) * fin x = infOf (-x) := fun _ => rfl
  cases R <;> cases S <;>
    simp_all [RadiusOk, infOf_ne_zero, infOf_ne_nan, curv_infOf, mul_comm]

theorem pyDiv_radius (x : K) {R : Ext K} (h : RadiusOk R) : pyDiv (fin x) R = .ok (fin (x * curv R)) := by
  cases R
  · rw [radiusOk_fin] at h
    rw [pyDiv_fin _ _ h]; simp [curv, div_eq_mul_inv]
  · simp [pyDiv_pinf, curv]
  · simp [pyDiv_ninf, curv]
  · simp [RadiusOk] at h

theorem pyDiv_radius_bad (x : Ext K) : pyDiv x (fin 0 : Ext K) = .error .zeroDivisionError := pyDiv_zero x

/-- the constructor on lawful finite entries: only the aperture is checked. -/
theorem init_lawful' {m : Mat (Ext K)} {s : Sys K} (h : Den m s) (hs : s.Lawful)
    (h2 : m.apertureNA = pinf) :
    Mat.init m = if (m.apertureDiameter ≤. fin 0) = true then .error .valueError
      else .ok { m with isFlipped := false } := by
  rw [init_den h, h2, hs.2.2]
  have h100 : ¬ (100000 : K) < 0 := not_lt.2 (by norm_num)
  simp [hs.2.1, h100]

/-! ## Space -/

/-- the object `Space(d, n, diameter)` -/
def spaceMat (d n diam : Ext K) : Mat (Ext K) :=
  { (Mat.one : Mat (Ext K)) with
    A := 1, B := d, C := 0, D := 1, L := d, frontIndex := n, backIndex := n,
    apertureDiameter := diam, kind := .space }

theorem spaceMat_den (d n : K) (diam : Ext K) : Den (spaceMat (fin d) (fin n) diam) (Sys.space d n) := by
  constructor <;> simp [spaceMat, Sys.space]

theorem init_eq {m : Mat (Ext K)} {s : Sys K} (h : Den m s) (hs : s.Lawful)
    (h2 : m.apertureNA = pinf) (hd : DiamOk m.apertureDiameter) (h3 : m.isFlipped = false) :
    Mat.init m = .ok m := by
  rw [init_lawful' h hs h2]
  unfold DiamOk at hd
  simp only [hd, Bool.false_eq_true, if_false]
  rw [← h3]

theorem mkSpace_eq (d : K) {n : K} {diam : Ext K} (hn : n ≠ 0) (hd : DiamOk diam) :
    mkSpace (fin d) (fin n) diam = .ok (spaceMat (fin d) (fin n) diam) := by
  unfold mkSpace
  exact init_eq (spaceMat_den d n diam) (Sys.space_lawful d hn) rfl hd rfl

/-! ## Lens -/

/-- the object `Lens(f, diameter)` -/
def lensMat (f : K) (diam : Ext K) : Mat (Ext K) :=
  { (Mat.one : Mat (Ext K)) with
    A := 1, B := 0, C := fin (-1 / f), D := 1, L := 0, frontVertex := some 0, backVertex := some 0,
    apertureDiameter := diam, kind := .lens (fin f) 4 }

theorem lensMat_den (f : K) (diam : Ext K) : Den (lensMat f diam) (Sys.lens f) := by
  constructor <;> simp [lensMat, Sys.lens, Mat.one]

theorem mkLens_eq {f : K} {diam : Ext K} (hf : f ≠ 0) (hd : DiamOk diam) :
    mkLens (fin f) diam = .ok (lensMat f diam) := by
  unfold mkLens
  have e : pyDiv (-1) (fin f) = .ok (fin (-1 / f)) := by rw [one_eq, neg_fin, pyDiv_fin _ _ hf]
  simp only [e, bind, Except.bind]
  exact init_eq (lensMat_den f diam) (Sys.lens_lawful f) rfl hd rfl

/-! ## Curved mirror -/

/-- the object `CurvedMirror(R, diameter)` -/
def mirrorMat (R : K) (diam : Ext K) : Mat (Ext K) :=
  { (Mat.one : Mat (Ext K)) with
    A := 1, B := 0, C := fin (2 / R), D := 1, L := 0, frontVertex := some 0, backVertex := some 0,
    apertureDiameter := diam, kind := .curvedMirror }

theorem mirrorMat_den (R : K) (diam : Ext K) : Den (mirrorMat R diam) (Sys.mirror R) := by
  constructor <;> simp [mirrorMat, Sys.mirror, Mat.one]

theorem mkCurvedMirror_eq {R : K} {diam : Ext K} (hR : R ≠ 0) (hd : DiamOk diam) :
    mkCurvedMirror (fin R) diam = .ok (mirrorMat R diam) := by
  unfold mkCurvedMirror
  have e : pyDiv 2 (fin R) = .ok (fin (2 / R)) := by rw [ofNat_eq, pyDiv_fin _ _ hR]
  simp only [e, bind, Except.bind]
  exact init_eq (mirrorMat_den R diam) (Sys.mirror_lawful R) rfl hd rfl

/-! ## Dielectric interface -/

/-- the object `DielectricInterface(n1, n2, R, diameter)` -/
def interfaceMat (n1 n2 : K) (R diam : Ext K) : Mat (Ext K) :=
  { (Mat.one : Mat (Ext K)) with
    A := 1, B := 0, C := fin (-((n2 - n1) * curv R / n2)), D := fin (n1 / n2), L := 0,
    frontVertex := some 0, backVertex := some 0, frontIndex := fin n1, backIndex := fin n2,
    apertureDiameter := diam, kind := .dielectric (fin n1) (fin n2) R }

theorem interfaceMat_den (n1 n2 : K) (R diam : Ext K) :
    Den (interfaceMat n1 n2 R diam) (Sys.interface n1 n2 (curv R)) := by
  constructor <;> simp [interfaceMat, Sys.interface, Mat.one]

theorem dielectricC_eq (n1 : K) {n2 : K} {R : Ext K} (h2 : n2 ≠ 0) (hR : RadiusOk R) :
    dielectricC (fin n1) (fin n2) R = .ok (fin (-((n2 - n1) * curv R / n2))) := by
  unfold dielectricC
  obtain ⟨h, h'⟩ := (radiusOk_fin.2 h2).mul hR
  simp only [fin_sub_fin, neg_fin, pyDiv_radius _ h, h', curv_fin]
  congr 2
  field_simp

theorem mkDielectric_eq {n1 n2 : K} {R diam : Ext K} (h1 : n1 ≠ 0) (h2 : n2 ≠ 0) (hR : RadiusOk R)
    (hd : DiamOk diam) :
    mkDielectric (fin n1) (fin n2) R diam = .ok (interfaceMat n1 n2 R diam) := by
  unfold mkDielectric
  simp only [dielectricC_eq _ h2 hR, pyDiv_fin _ _ h2, bind, Except.bind]
  exact init_eq (interfaceMat_den n1 n2 R diam) (Sys.interface_lawful _ h1 h2) rfl hd rfl

/-! ## Thick lens and slab -/

/-- the object built by `ThickLens(n, R1, R2, t, diameter)` (or the slab) -/
def thickMat (kind : Kind (Ext K)) (n : K) (R1 R2 : Ext K) (t : K) (diam : Ext K) : Mat (Ext K) :=
  { (Mat.one : Mat (Ext K)) with
    A := fin (t * (1 - n) * (curv R1 / n) + 1), B := fin (t / n),
    C := fin (-(n - 1) * (curv R1 - curv R2 + t * (n - 1) * (curv R1 * curv R2 / n))),
    D := fin (t * (n - 1) * (curv R2 / n) + 1), L := fin t,
    frontVertex := some 0, backVertex := some (fin t), apertureDiameter := diam, kind := kind }

theorem thickMat_den (kind : Kind (Ext K)) {n : K} (R1 R2 : Ext K) (t : K) (diam : Ext K) (hn : n ≠ 0) :
    Den (thickMat kind n R1 R2 t diam) (Sys.thick n (curv R1) (curv R2) t) := by
  rw [Sys.thick_eq _ _ _ hn]
  constructor <;> simp [thickMat, Mat.one]

theorem thickA_eq {n : K} {R1 : Ext K} (t : K) (hn : n ≠ 0) (h1 : RadiusOk R1) :
    thickA (fin n) R1 (fin t) = .ok (fin (t * (1 - n) * (curv R1 / n) + 1)) := by
  obtain ⟨h, h'⟩ := (radiusOk_fin.2 hn).mul h1
  simp only [thickA, one_eq, fin_sub_fin, fin_mul_fin, pyDiv_radius _ h, h', bind, Except.bind, pure,
    Except.pure, fin_add_fin, curv_fin]
  congr 3; field_simp

theorem thickB_eq {n : K} (t : K) (hn : n ≠ 0) : thickB (fin n) (fin t) = .ok (fin (t / n)) := by
  simp [thickB, pyDiv_fin _ _ hn]

theorem thickC_eq {n : K} {R1 R2 : Ext K} (t : K) (hn : n ≠ 0) (h1 : RadiusOk R1) (h2 : RadiusOk R2) :
    thickC (fin n) R1 R2 (fin t) =
      .ok (fin (-(n - 1) * (curv R1 - curv R2 + t * (n - 1) * (curv R1 * curv R2 / n)))) := by
  obtain ⟨h, h'⟩ := (radiusOk_fin.2 hn).mul h1
  obtain ⟨h3, h3'⟩ := h.mul h2
  simp only [thickC, one_eq, fin_sub_fin, fin_mul_fin, pyDiv_radius _ h3, pyDiv_radius _ h1,
    pyDiv_radius _ h2, h', h3', bind, Except.bind, pure, Except.pure, fin_add_fin, neg_fin, curv_fin]
  congr 2; field_simp

theorem thickD_eq {n : K} {R2 : Ext K} (t : K) (hn : n ≠ 0) (h2 : RadiusOk R2) :
    thickD (fin n) R2 (fin t) = .ok (fin (t * (n - 1) * (curv R2 / n) + 1)) := by
  obtain ⟨h, h'⟩ := (radiusOk_fin.2 hn).mul h2
  simp only [thickD, one_eq, fin_sub_fin, fin_mul_fin, pyDiv_radius _ h, h', bind, Except.bind, pure,
    Except.pure, fin_add_fin, curv_fin]
  congr 3; field_simp

theorem mkThickOf_eq (kind : Kind (Ext K)) {n : K} {R1 R2 : Ext K} (t : K) {diam : Ext K} (hn : n ≠ 0)
    (h1 : RadiusOk R1) (h2 : RadiusOk R2) (hd : DiamOk diam) :
    mkThickOf kind (fin n) R1 R2 (fin t) diam = .ok (thickMat kind n R1 R2 t diam) := by
  unfold mkThickOf
  simp only [thickA_eq t hn h1, thickB_eq t hn, thickC_eq t hn h1 h2, thickD_eq t hn h2, bind, Except.bind]
  exact init_eq (thickMat_den kind R1 R2 t diam hn) (Sys.thick_lawful _ _ _ hn) rfl hd rfl

/-! ## Aperture -/

/-- the object `Aperture(diameter, NA, label)` -/
def apertureMat (diam na : Ext K) (label : String) : Mat (Ext K) :=
  { (Mat.one : Mat (Ext K)) with
    apertureDiameter := diam, apertureNA := na, label := label, kind := .aperture }

theorem apertureMat_den (diam na : Ext K) (label : String) :
    Den (apertureMat diam na label) (Sys.one 1) := by
  constructor <;> simp [apertureMat, Sys.one, Mat.one]

theorem mkAperture_eq {diam na : Ext K} (label : String) (hd : DiamOk diam) (hn : DiamOk na) :
    mkAperture diam na label = .ok (apertureMat diam na label) := by
  unfold mkAperture
  refine (init_den (apertureMat_den diam na label)).trans ?_
  unfold DiamOk at hd hn
  simp only [apertureMat, zero_eq, hd, hn]
  simp [Mat.one, Sys.one, Sys.det]

end RT
