import Verif.Props.Outline
import Verif.Props.Components

/-! # C84: objectives are drawn with their foci, their cone of light and their apertures -/

set_option linter.unusedSectionVars false

namespace RT
open PyNum Ext
variable {K : Type} [Field K] [LinearOrder K] [IsStrictOrderedRing K]

/-- the attributes of an objective made with these parameters, `specialtylenses.py:379-388` -/
def objectiveData (NA ftf wd ba : K) : ObjectiveData (Ext K) := ⟨fin NA, fin ftf, fin ba, fin wd, 2 * (fin NA * fin wd)⟩

theorem focusPositions_objective {m : Mat (Ext K)} {f ftf : K} (hf : f ≠ 0) (hf' : |f| < 100000)
    (hm : Den m ⟨0, f, -1 / f, 0, ftf, 1, 1⟩) (z : K) : m.focusPositions (fin z) = .ok (some (fin z, fin (z + ftf))) := by
  have hc : 1 / 100000 < |(-1 / f : K)| := by
    simp only [abs_div, abs_neg, abs_one]
    exact one_div_lt_one_div_of_lt (abs_pos.2 hf) hf'
  rw [focusPositions_eq hm one_ne_zero hc z]
  simp

/-- **C84** (foci): an objective of any valid parameters, as it is or flipped, is marked at its two focal points: the one on the side of its
back aperture is called `F_b`, the other `F_f`. -/
theorem C84_points {f NA ftf wd ba : K} {label : String} {g : Group (Ext K)} (hf' : |f| < 100000)
    (h : mkObjective (fin f) (fin NA) (fin ftf) (fin ba) (fin wd) label = .ok g) (z : K) :
    g.mat.focusPositions (fin z) = .ok (some (fin z, fin (z + ftf))) ∧
    (objectiveData NA ftf wd ba).pointsOfInterest g.mat.isFlipped (fin z) = [(fin z, "$F_b$"), (fin (z + ftf), "$F_f$")] ∧
    ∃ e', g.toElem.flip = (e', .ok ()) ∧ e'.mat.focusPositions (fin z) = .ok (some (fin z, fin (z + ftf))) ∧
      (objectiveData NA ftf wd ba).pointsOfInterest e'.mat.isFlipped (fin z) = [(fin (z + ftf), "$F_b$"), (fin z, "$F_f$")] := by
  have h' : mkObjective (fin f) (fin NA) (fin ftf) (optInf (some ba)) (fin wd) label = .ok g := h
  obtain ⟨hf, hba, hna⟩ := C58_refused h'
  obtain ⟨m, hm1, hm2, hm3⟩ := objective_eq hf NA ftf wd (ba := fin ba) (diamOk_fin.2 (hba ba rfl)) hna label
  rw [h] at hm1
  cases hm1
  obtain ⟨e', h1, h2, h3, -⟩ := C58_flip h'
  refine ⟨focusPositions_objective hf hf' ⟨hm2.A, hm2.B, hm2.C, hm2.D, hm2.L, hm2.nf, hm2.nb⟩ z, ?_, e', h1,
    focusPositions_objective hf hf' h2 z, ?_⟩
  · simp [ObjectiveData.pointsOfInterest, hm3, objectiveData]
  · simp [ObjectiveData.pointsOfInterest, h3, objectiveData]

/-- Specification of the outline of an objective whose front focus is on the right: it is symmetric about the optical axis, the upper half
goes from the back aperture at 0, of half height `a`, to the front aperture at the working distance before the focus, of half height
`b`; between them is one corner. The front and that corner are on the cone of light of slope `NA` converging to the focus at `L`. -/
structure ObjectiveOutline (a b L wd NA : K) (ps : List (K × K)) : Prop where
  sym : ∀ p ∈ ps, (p.1, -p.2) ∈ ps
  shape : ∃ s, ps = [(0, a), (s, a), (L - wd, b), (L - wd, -b), (s, -a), (0, -a), (0, a)] ∧ NA * (L - s) = a
  front : NA * wd = b

theorem objectiveCorners_eq {NA : K} (hna : NA ≠ 0) (ftf wd ba : K) :
    ∃ ps, (objectiveData NA ftf wd ba).corners false = .ok (ps.map pt) ∧
      ps = [(0, ba / 2), (ftf - ba / 2 / NA, ba / 2), (ftf - wd, NA * wd), (ftf - wd, -(NA * wd)), (ftf - ba / 2 / NA, -(ba / 2)), (0, -(ba / 2)), (0, ba / 2)] ∧
      (objectiveData NA ftf wd ba).corners true = .ok ((ps.map fun p => (ftf - p.1, p.2)).map pt) := by
  refine ⟨_, ?_, rfl, ?_⟩ <;>
  · simp only [ObjectiveData.corners, objectiveData, half_num, pyDiv_fin _ _ hna, bind, Except.bind, pure, Except.pure, ofNat_eq, fin_mul_fin,
      neg_fin, fin_sub_fin, fin_add_fin, zero_eq, List.map_cons, List.map_nil, pt, if_true, Bool.false_eq_true, if_false]
    simp [sub_eq_neg_add]
    ring

/-- **C84** (outline): for all parameters (the NA not 0) the outline of an objective is a closed line: the barrel at the height of the back
aperture, then the cone of light of the numerical aperture down to the front aperture. The flipped objective is the mirror image. -/
theorem C84_outline {NA : K} (hna : NA ≠ 0) (ftf wd ba : K) :
    ∃ ps, (objectiveData NA ftf wd ba).corners false = .ok (ps.map pt) ∧ ObjectiveOutline (ba / 2) (NA * wd) ftf wd NA ps ∧
      (objectiveData NA ftf wd ba).corners true = .ok ((ps.map fun p => (ftf - p.1, p.2)).map pt) ∧
      ClosedLine (linearCurves ps) ∧ ClosedLine (linearCurves (ps.map fun p => (ftf - p.1, p.2))) := by
  obtain ⟨ps, h1, rfl, h2⟩ := objectiveCorners_eq hna ftf wd ba
  refine ⟨_, h1, ⟨by simp, ⟨ftf - ba / 2 / NA, rfl, by field_simp; ring⟩, rfl⟩, h2, polygon_closed (by simp), polygon_closed (by simp)⟩

/-- **C84** is violated by the bars of the apertures: the front aperture is drawn at the height of the back aperture. -/
theorem C84_violated_bars {f NA ftf wd ba : K} {label : String} {g : Group (Ext K)}
    (h : mkObjective (fin f) (fin NA) (fin ftf) (fin ba) (fin wd) label = .ok g) :
    objectiveBars g.mat g.elems 0 = [.bars (fin (ba / 2)) (fin 0) (fin 0), .bars (fin (ba / 2)) (fin (ftf - wd)) (fin 0)] ∧
    ∃ e ∈ g.elems, e.mat.label = "frontAperture" ∧ e.mat.apertureDiameter = fin (2 * (NA * wd)) := by
  have h' : mkObjective (fin f) (fin NA) (fin ftf) (optInf (some ba)) (fin wd) label = .ok g := h
  obtain ⟨hf, hba, hna⟩ := C58_refused h'
  obtain ⟨m, hm1, hm2, hm3⟩ := objective_eq hf NA ftf wd (ba := fin ba) (diamOk_fin.2 (hba ba rfl)) hna label
  rw [h] at hm1
  cases hm1
  refine ⟨?_, .leaf (apertureMat (fin (2 * (NA * wd))) pinf "frontAperture"), by simp [singles, objectiveMats], rfl, rfl⟩
  simp [objectiveBars, singles, objectiveMats, Elem.mat, apertureMat, spaceMat, blankMat, lensMat, Mat.one, half_num]
  ring

/-- An objective whose front aperture, 3.2 wide, is drawn 8 wide. -/
example : ((mkObjective (fin (5 : ℚ)) (fin (4/5)) (fin 45) (fin 8) (fin 2) "obj").map fun g => objectiveBars g.mat g.elems 0) =
    .ok [.bars (fin 4) (fin 0) (fin 0), .bars (fin 4) (fin 43) (fin 0)] := by decide +kernel

end RT
