import Verif.Lemmas.Components
import Verif.Props.Cardinal
import Verif.Props.Trace
import Verif.Props.Beam
import Verif.Props.Compose

/-! # C57–C60: 2f and 4f systems, objectives, spaces leading to foci and conjugates, axicons -/

set_option linter.unusedSectionVars false

namespace RT
open PyNum Ext
variable {K : Type} [Field K] [LinearOrder K] [IsStrictOrderedRing K]

theorem inAir_space (d : K) : InAir (spaceMat (fin d) (fin 1) pinf) (Sys.space d 1) :=
  ⟨spaceMat_den d 1 pinf, Sys.space_lawful d one_ne_zero, rfl, rfl⟩

theorem inAir_lens (f : K) (diam : Ext K) : InAir (lensMat f diam) (Sys.lens f) :=
  ⟨lensMat_den f diam, Sys.lens_lawful f, rfl, rfl⟩

theorem inAir_aperture (diam : Ext K) (label : String) : InAir (apertureMat diam pinf label) (Sys.one 1) :=
  ⟨apertureMat_den diam pinf label, Sys.one_lawful one_ne_zero, rfl, rfl⟩

theorem space_air (d : K) : mkSpace (fin d : Ext K) = .ok (spaceMat (fin d) (fin 1) pinf) := by
  rw [one_eq]; exact mkSpace_eq d one_ne_zero diamOk_pinf

theorem space_air' (d : K) : mkSpace (fin d : Ext K) 1 pinf = .ok (spaceMat (fin d) (fin 1) pinf) := space_air d

/-! ## C57 -/

/-- the 4f system, as a list of objects -/
theorem system4f_eq {f1 f2 : K} (h1 : f1 ≠ 0) (h2 : f2 ≠ 0) {d1 d2 : Ext K} (hd1 : DiamOk d1) (hd2 : DiamOk d2)
    (label : String) :
    ∃ m, mkSystem4f (fin f1) (fin f2) d1 d2 label = .ok ⟨m, none, singles [spaceMat (fin f1) (fin 1) pinf, lensMat f1 d1,
        spaceMat (fin f1) (fin 1) pinf, spaceMat (fin f2) (fin 1) pinf, lensMat f2 d2, spaceMat (fin f2) (fin 1) pinf]⟩ ∧
      Den m ⟨-f2 / f1, 0, 0, -f1 / f2, 2 * (f1 + f2), 1, 1⟩ := by
  obtain ⟨m, hm1, hm2, -⟩ := inAir_new (.cons (inAir_space f1) (.cons (inAir_lens f1 d1) (.cons (inAir_space f1)
    (.cons (inAir_space f2) (.cons (inAir_lens f2 d2) (.cons (inAir_space f2) .nil)))))) label
  refine ⟨m, ?_, ?_⟩
  · unfold mkSystem4f
    simp only [space_air, mkLens_eq h1 hd1, mkLens_eq h2 hd2, bind, Except.bind]
    exact hm1
  · convert hm2 using 1
    simp only [Sys.chain, List.foldl_cons, List.foldl_nil, Sys.andThen, Sys.one, Sys.space, Sys.lens, Sys.mk.injEq]
    refine ⟨?_, ?_, ?_, ?_, ?_, trivial, trivial⟩ <;> (field_simp; try ring)

/-- **C57.** A 4f system can be made for all focal lengths that are not zero and all diameters that are positive or
infinite. It images with magnification `-f2/f1`, angular magnification `-f1/f2`, has no power, and its length is
`2(f1+f2)`. -/
theorem C57_4f {f1 f2 : K} (h1 : f1 ≠ 0) (h2 : f2 ≠ 0) {d1 d2 : Option K} (hd1 : ∀ d ∈ d1, 0 < d) (hd2 : ∀ d ∈ d2, 0 < d)
    (label : String) :
    ∃ g, mkSystem4f (fin f1) (fin f2) (optInf d1) (optInf d2) label = .ok g ∧ g.mat.isImaging = true ∧
      g.mat.magnification = some (fin (-f2 / f1), fin (-f1 / f2)) ∧ g.mat.B = fin 0 ∧ g.mat.C = fin 0 ∧
      g.mat.hasPower = false ∧ g.mat.L = fin (2 * (f1 + f2)) ∧ g.mat.frontIndex = fin 1 ∧ g.mat.backIndex = fin 1 := by
  obtain ⟨m, hm1, hm2⟩ := system4f_eq h1 h2 (d1 := optInf d1) (d2 := optInf d2)
    (by cases d1 with | none => rfl | some d => exact diamOk_fin.2 (hd1 d rfl))
    (by cases d2 with | none => rfl | some d => exact diamOk_fin.2 (hd2 d rfl)) label
  have hi : m.isImaging = true := by
    have : (fin 0 : Ext K) = m.B := hm2.B.symm
    unfold Mat.isImaging isAlmostZero
    rw [← this]
    simp [eps, lit_eq]
  refine ⟨_, hm1, hi, ?_, hm2.B, hm2.C, ?_, hm2.L, hm2.nf, hm2.nb⟩
  · unfold Mat.magnification
    rw [if_pos hi, hm2.A, hm2.D]
  · rw [hasPower_den hm2]
    simp

/-- **C57.** It is refused for every other focal length and every other diameter. -/
theorem C57_4f_refused {f1 f2 : K} {d1 d2 : Option K} {label : String} {g : Group (Ext K)}
    (h : mkSystem4f (fin f1) (fin f2) (optInf d1) (optInf d2) label = .ok g) :
    f1 ≠ 0 ∧ f2 ≠ 0 ∧ (∀ d ∈ d1, 0 < d) ∧ (∀ d ∈ d2, 0 < d) := by
  unfold mkSystem4f at h
  obtain ⟨a, -, h⟩ := bind_ok h
  obtain ⟨l1, hl1, h⟩ := bind_ok h
  obtain ⟨b, -, h⟩ := bind_ok h
  obtain ⟨c, -, h⟩ := bind_ok h
  obtain ⟨l2, hl2, -⟩ := bind_ok h
  obtain ⟨e1, e2, -⟩ := mkLens_ok hl1
  obtain ⟨e3, e4, -⟩ := mkLens_ok hl2
  refine ⟨e1, e3, ?_, ?_⟩
  · rintro d hd; cases hd; exact diamOk_fin.1 e2
  · rintro d hd; cases hd; exact diamOk_fin.1 e4

/-- **C57.** A 2f system can be made for all focal lengths that are not zero and all diameters that are positive or
infinite. It exchanges height and angle: the height at the exit is `f` times the angle at the entrance, the angle at the exit
is `-1/f` times the height. Its length is `2f`. -/
theorem C57_2f {f : K} (h1 : f ≠ 0) {d1 : Option K} (hd1 : ∀ d ∈ d1, 0 < d) (label : String) :
    ∃ g, mkSystem2f (fin f) (optInf d1) label = .ok g ∧ g.mat.A = fin 0 ∧ g.mat.D = fin 0 ∧ g.mat.B = fin f ∧
      g.mat.C = fin (-1 / f) ∧ g.mat.L = fin (2 * f) ∧ g.mat.frontIndex = fin 1 ∧ g.mat.backIndex = fin 1 := by
  have hd : DiamOk (optInf d1 : Ext K) := by cases d1 with | none => rfl | some d => exact diamOk_fin.2 (hd1 d rfl)
  obtain ⟨m, hm1, hm2, -⟩ := inAir_new (.cons (inAir_space f) (.cons (inAir_lens f (optInf d1)) (.cons (inAir_space f)
    .nil))) label
  have hm3 : Den m ⟨0, f, -1 / f, 0, 2 * f, 1, 1⟩ := by
    convert hm2 using 1
    simp only [Sys.chain, List.foldl_cons, List.foldl_nil, Sys.andThen, Sys.one, Sys.space, Sys.lens, Sys.mk.injEq]
    refine ⟨?_, ?_, ?_, ?_, ?_, trivial, trivial⟩ <;> (field_simp; try ring)
  have hm4 : mkSystem2f (fin f) (optInf d1) label = .ok ⟨m, none, singles [spaceMat (fin f) (fin 1) pinf,
      lensMat f (optInf d1), spaceMat (fin f) (fin 1) pinf]⟩ := by
    unfold mkSystem2f
    simp only [space_air, mkLens_eq h1 hd, bind, Except.bind]
    exact hm1
  exact ⟨_, hm4, hm3.A, hm3.D, hm3.B, hm3.C, hm3.L, hm3.nf, hm3.nb⟩

/-- **C57.** It is refused for every other focal length and every other diameter. -/
theorem C57_2f_refused {f : K} {d1 : Option K} {label : String} {g : Group (Ext K)}
    (h : mkSystem2f (fin f) (optInf d1) label = .ok g) : f ≠ 0 ∧ ∀ d ∈ d1, 0 < d := by
  unfold mkSystem2f at h
  obtain ⟨a, -, h⟩ := bind_ok h
  obtain ⟨l1, hl1, -⟩ := bind_ok h
  obtain ⟨e1, e2, -⟩ := mkLens_ok hl1
  exact ⟨e1, by rintro d hd; cases hd; exact diamOk_fin.1 e2⟩

example : ((mkSystem4f (fin (50 : ℚ)) (fin 200) (fin 25) pinf "4f").map fun g => (g.mat.magnification, g.mat.L)) =
    .ok (some (fin (-4), fin (-1/4)), fin 500) := by decide +kernel

/-! ## C58 -/

/-- `Matrix(1, 0, 0, 1, physicalLength=L)` -/
def blankMat (L : Ext K) : Mat (Ext K) := { (Mat.one : Mat (Ext K)) with A := 1, B := 0, C := 0, D := 1, L := L }

theorem inAir_blank (L : K) : InAir (blankMat (fin L)) ⟨1, 0, 0, 1, L, 1, 1⟩ := by
  refine ⟨?_, ?_, rfl, rfl⟩
  · constructor <;> simp [blankMat, Mat.one]
  · exact ⟨one_ne_zero, one_ne_zero, by simp [Sys.det]⟩

/-- the elements of an objective -/
def objectiveMats (f NA ftf wd : K) (ba : Ext K) : List (Mat (Ext K)) :=
  [apertureMat ba pinf "backAperture", spaceMat (fin f) (fin 1) pinf, blankMat (fin (ftf - 2 * f)), lensMat f pinf,
   spaceMat (fin (f - wd)) (fin 1) pinf, apertureMat (fin (2 * (NA * wd))) pinf "frontAperture",
   spaceMat (fin wd) (fin 1) pinf]

/-- the systems they denote -/
def objectiveSys (f ftf wd : K) : List (Sys K) :=
  [Sys.one 1, Sys.space f 1, ⟨1, 0, 0, 1, ftf - 2 * f, 1, 1⟩, Sys.lens f, Sys.space (f - wd) 1, Sys.one 1, Sys.space wd 1]

theorem objective_inAir (f NA ftf wd : K) (ba : Ext K) :
    List.Forall₂ InAir (objectiveMats f NA ftf wd ba) (objectiveSys f ftf wd) :=
  .cons (inAir_aperture _ _) (.cons (inAir_space _) (.cons (inAir_blank _) (.cons (inAir_lens _ _) (.cons (inAir_space _)
    (.cons (inAir_aperture _ _) (.cons (inAir_space _) .nil))))))

theorem objective_chain {f : K} (hf : f ≠ 0) (ftf wd : K) :
    ({ Sys.chain (Sys.one 1) (objectiveSys f ftf wd) with nf := 1, nb := 1 } : Sys K) = ⟨0, f, -1 / f, 0, ftf, 1, 1⟩ := by
  simp only [objectiveSys, Sys.chain, List.foldl_cons, List.foldl_nil, Sys.andThen, Sys.one, Sys.space, Sys.lens,
    Sys.mk.injEq]
  refine ⟨?_, ?_, ?_, ?_, ?_, trivial, trivial⟩ <;> (field_simp; try ring)

theorem objective_chain_rev {f : K} (hf : f ≠ 0) (ftf wd : K) :
    ({ Sys.chain (Sys.one 1) (objectiveSys f ftf wd).reverse with nf := 1, nb := 1 } : Sys K) =
      ⟨0, f, -1 / f, 0, ftf, 1, 1⟩ := by
  simp only [objectiveSys, Sys.chain, List.reverse_cons, List.reverse_nil, List.nil_append, List.cons_append,
    List.foldl_cons, List.foldl_nil, Sys.andThen, Sys.one, Sys.space, Sys.lens, Sys.mk.injEq]
  refine ⟨?_, ?_, ?_, ?_, ?_, trivial, trivial⟩ <;> (field_simp; try ring)

theorem objective_eq {f : K} (hf : f ≠ 0) (NA ftf wd : K) {ba : Ext K} (hba : DiamOk ba) (hna : 0 < NA * wd) (label : String) :
    ∃ m, mkObjective (fin f) (fin NA) (fin ftf) ba (fin wd) label =
        .ok ⟨{ m with frontVertex := some 0, backVertex := some (fin (ftf - wd)), apertureDiameter := ba, kind := .objective },
          none, singles (objectiveMats f NA ftf wd ba)⟩ ∧ Den m ⟨0, f, -1 / f, 0, ftf, 1, 1⟩ ∧ m.isFlipped = false := by
  obtain ⟨m, hm1, hm2, hm3⟩ := inAir_new (objective_inAir f NA ftf wd ba) label
  rw [objective_chain hf] at hm2
  refine ⟨m, ?_, hm2, hm3⟩
  have h2 : DiamOk (fin (2 * (NA * wd)) : Ext K) := diamOk_fin.2 (by linarith)
  have hb : Mat.init (blankMat (fin (ftf - 2 * f))) = .ok (blankMat (fin (ftf - 2 * f)) : Mat (Ext K)) :=
    init_eq (inAir_blank _).den (inAir_blank _).lawful rfl rfl rfl
  unfold blankMat at hb
  unfold mkObjective
  simp only [inf_eq, ofNat_eq, fin_mul_fin, fin_sub_fin, space_air', mkLens_eq hf diamOk_pinf, mkAperture_eq _ hba diamOk_pinf,
    mkAperture_eq _ h2 diamOk_pinf, hb, bind, Except.bind, pure, Except.pure]
  simp only [singles, objectiveMats, List.map_cons, List.map_nil, blankMat] at hm1 ⊢
  rw [hm1]

/-- what the foci of an objective are -/
theorem objective_focal {m : Mat (Ext K)} {f ftf : K} (hf : f ≠ 0) (hf' : |f| < 100000)
    (hm : Den m ⟨0, f, -1 / f, 0, ftf, 1, 1⟩) {v w : K} (h1 : m.frontVertex = some (fin v)) (h2 : m.backVertex = some (fin w)) :
    m.effectiveFocalLengths = .ok (fin f, fin f) ∧ m.frontFocalLength = .ok (some (fin v)) ∧
    m.backFocalLength = .ok (some (fin (ftf - w))) := by
  have hc : 1 / 100000 < |(-1 / f : K)| := by
    simp only [abs_div, abs_neg, abs_one]
    exact one_div_lt_one_div_of_lt (abs_pos.2 hf) hf'
  have hb : (⟨0, f, -1 / f, 0, ftf, 1, 1⟩ : Sys K).nb ≠ 0 := one_ne_zero
  have e1 := effectiveFocalLengths_eq hm hb hc
  have e2 := principalPlanePositions_eq hm hb hc 0
  have e3 := hasPower_den hm
  simp only [hc, decide_true] at e3
  have e4 : (-((1 : K) / 1) / (-1 / f)) = f := by field_simp
  have e5 : (-(1 : K) / (-1 / f)) = f := by field_simp
  refine ⟨?_, ?_, ?_⟩
  · rw [e1]; simp only [e4, e5]
  · unfold Mat.frontFocalLength
    rw [e3, e1, zero_eq, e2, h1]
    simp only [if_true, bind, Except.bind, pure, Except.pure, fin_sub_fin, neg_fin]
    congr 3
    field_simp
    ring
  · unfold Mat.backFocalLength
    rw [e3, e1, zero_eq, e2, h2]
    simp only [if_true, bind, Except.bind, pure, Except.pure, fin_sub_fin, fin_add_fin]
    congr 3
    field_simp
    ring

/-- **C58.** For all parameters with `f ≠ 0`, a positive (or infinite) back aperture and `NA * workingDistance` positive, an
objective can be made. Its matrix goes from back focus to front focus, with power `1/f` and the length
announced; for a focal length below 100000, its effective focal lengths are `f`, the light comes to a focus at the working
distance after the last vertex and the other focus is at the first vertex. -/
theorem C58_objective {f : K} (hf : f ≠ 0) (NA ftf wd : K) {ba : Option K} (hba : ∀ d ∈ ba, 0 < d) (hna : 0 < NA * wd)
    (label : String) :
    ∃ g, mkObjective (fin f) (fin NA) (fin ftf) (optInf ba) (fin wd) label = .ok g ∧
      Den g.mat ⟨0, f, -1 / f, 0, ftf, 1, 1⟩ ∧ g.mat.apertureDiameter = optInf ba ∧
      g.mat.frontVertex = some (fin 0) ∧ g.mat.backVertex = some (fin (ftf - wd)) ∧
      (|f| < 100000 → g.mat.effectiveFocalLengths = .ok (fin f, fin f) ∧ g.mat.frontFocalLength = .ok (some (fin 0)) ∧
        g.mat.backFocalLength = .ok (some (fin wd))) := by
  have hd : DiamOk (optInf ba : Ext K) := by cases ba with | none => rfl | some d => exact diamOk_fin.2 (hba d rfl)
  obtain ⟨m, hm1, hm2, -⟩ := objective_eq hf NA ftf wd hd hna label
  refine ⟨_, hm1, ⟨hm2.A, hm2.B, hm2.C, hm2.D, hm2.L, hm2.nf, hm2.nb⟩, rfl, by simp, rfl, fun hf' => ?_⟩
  have := objective_focal (ftf := ftf) (v := 0) (w := ftf - wd) hf hf' (m := { m with
      frontVertex := some 0, backVertex := some (fin (ftf - wd)), apertureDiameter := optInf ba, kind := .objective })
    ⟨hm2.A, hm2.B, hm2.C, hm2.D, hm2.L, hm2.nf, hm2.nb⟩ (by simp) rfl
  simpa using this

/-- **C58.** Any other parameters are refused. -/
theorem C58_refused {f NA ftf wd : K} {ba : Option K} {label : String} {g : Group (Ext K)}
    (h : mkObjective (fin f) (fin NA) (fin ftf) (optInf ba) (fin wd) label = .ok g) :
    f ≠ 0 ∧ (∀ d ∈ ba, 0 < d) ∧ 0 < NA * wd := by
  unfold mkObjective at h
  dsimp only at h
  obtain ⟨a1, h1, h⟩ := bind_ok h
  obtain ⟨b, -, h⟩ := bind_ok h
  obtain ⟨c, -, h⟩ := bind_ok h
  obtain ⟨l, h2, h⟩ := bind_ok h
  obtain ⟨d, -, h⟩ := bind_ok h
  obtain ⟨a2, h3, -⟩ := bind_ok h
  obtain ⟨e1, -⟩ := mkLens_ok h2
  obtain ⟨e2, -⟩ := mkAperture_ok h1
  obtain ⟨e3, -⟩ := mkAperture_ok h3
  refine ⟨e1, ?_, ?_⟩
  · rintro d hd; cases hd; exact diamOk_fin.1 e2
  · simp only [ofNat_eq, fin_mul_fin] at e3
    have := diamOk_fin.1 e3
    linarith

theorem objectiveVertices_flipped {M : Mat (Ext K)} (hM : M.isFlipped = true) (f NA ftf wd : K) (ba : Ext K) :
    objectiveVertices M 0 (singles ((objectiveMats f NA ftf wd ba).map Mat.flipBase).reverse) =
      { M with frontVertex := some (fin wd), backVertex := some (fin ftf) } := by
  simp [objectiveVertices, singles, objectiveMats, Elem.mat, Mat.flipBase, spaceMat, lensMat, apertureMat, blankMat, Mat.one,
    hM]
  ring

theorem objectiveVertices_plain {M : Mat (Ext K)} (hM : M.isFlipped = false) (f NA ftf wd : K) (ba : Ext K) :
    objectiveVertices M 0 (singles (objectiveMats f NA ftf wd ba)) =
      { M with frontVertex := some (fin 0), backVertex := some (fin (ftf - wd)) } := by
  simp [objectiveVertices, singles, objectiveMats, Elem.mat, spaceMat, lensMat, apertureMat, blankMat, Mat.one,
    hM]
  ring

theorem flipBase_flipBase (m : Mat (Ext K)) : m.flipBase.flipBase = m := by simp [Mat.flipBase]

/-- **C58.** The largest optical invariant of an objective is the radius of its field, the field number divided by the magnification, times its
NA; without field number or magnification it raises `AttributeError`. -/
theorem C58_invariant {M : K} (hM : M ≠ 0) (FN NA : K) : maximumOpticalInvariant (some (fin M)) (some (fin FN)) (fin NA) = .ok (fin (FN / M / 2 * NA)) ∧
    maximumOpticalInvariant none (some (fin FN)) (fin NA) = .error .attributeError ∧
    maximumOpticalInvariant (some (fin M)) none (fin NA) = .error .attributeError := by
  refine ⟨?_, rfl, rfl⟩
  simp only [maximumOpticalInvariant, ofNat_eq, pyDiv_fin _ _ (two_ne_zero' K), pyDiv_fin _ _ hM, bind, Except.bind, pure, Except.pure, fin_mul_fin]
  congr 3
  field_simp

/-- **C58.** Flipping an objective exchanges its two sides: the flipped objective has the same matrix, its first vertex is at
the working distance after the first focus and its last vertex is at the last focus; flipping again gives the original
objective back. -/
theorem C58_flip {f NA ftf wd : K} {ba : Option K} {label : String} {g : Group (Ext K)}
    (h : mkObjective (fin f) (fin NA) (fin ftf) (optInf ba) (fin wd) label = .ok g) :
    ∃ e', g.toElem.flip = (e', .ok ()) ∧ Den e'.mat ⟨0, f, -1 / f, 0, ftf, 1, 1⟩ ∧ e'.mat.isFlipped = true ∧
      e'.mat.frontVertex = some (fin wd) ∧ e'.mat.backVertex = some (fin ftf) ∧
      (|f| < 100000 → e'.mat.effectiveFocalLengths = .ok (fin f, fin f) ∧ e'.mat.frontFocalLength = .ok (some (fin wd)) ∧
        e'.mat.backFocalLength = .ok (some (fin 0))) ∧
      e'.flip = (g.toElem, .ok ()) := by
  obtain ⟨hf, hba, hna⟩ := C58_refused h
  have hd : DiamOk (optInf ba : Ext K) := by cases ba with | none => rfl | some d => exact diamOk_fin.2 (hba d rfl)
  obtain ⟨m, hm1, hm2, hm3⟩ := objective_eq hf NA ftf wd hd hna label
  rw [h] at hm1
  cases hm1
  obtain ⟨t, ht1, ht2⟩ := objective_flip (m := { m with
      frontVertex := some 0, backVertex := some (fin (ftf - wd)), apertureDiameter := optInf ba, kind := .objective }) rfl
    (c := none) (objective_inAir f NA ftf wd (optInf ba)) (by
      simp only [objectiveMats, List.mem_cons, List.not_mem_nil, or_false]
      rintro x (rfl | rfl | rfl | rfl | rfl | rfl | rfl) <;> rfl) (by simp [objectiveMats])
  rw [objective_chain_rev hf] at ht2
  rw [objectiveVertices_flipped (by simp [Mat.refresh, hm3])] at ht1
  set M : Mat (Ext K) := { m with
    frontVertex := some 0, backVertex := some (fin (ftf - wd)), apertureDiameter := optInf ba, kind := .objective } with hM
  set M1 : Mat (Ext K) := ({ M with isFlipped := !M.isFlipped } : Mat (Ext K)).refresh t with hM1
  set M2 : Mat (Ext K) := { M1 with frontVertex := some (fin wd), backVertex := some (fin ftf) } with hM2
  have hden : Den M2 ⟨0, f, -1 / f, 0, ftf, 1, 1⟩ := ⟨ht2.A, ht2.B, ht2.C, ht2.D, ht2.L, ht2.nf, ht2.nb⟩
  refine ⟨_, ht1, hden, by simp [Elem.mat, hM2, hM1, hM, Mat.refresh, hm3], rfl, rfl, fun hf' => ?_, ?_⟩
  · have := objective_focal hf hf' hden rfl rfl
    rw [sub_self] at this
    exact this
  · obtain ⟨t', ht1', ht2'⟩ := objective_flip (m := M2) rfl (c := none)
      (ms := ((objectiveMats f NA ftf wd (optInf ba)).map Mat.flipBase).reverse) (ss := (objectiveSys f ftf wd).reverse)
      (by
        refine List.rel_reverse ?_
        have := objective_inAir f NA ftf wd (optInf ba)
        generalize objectiveMats f NA ftf wd (optInf ba) = l1 at this
        generalize objectiveSys f ftf wd = l2 at this
        induction this with
        | nil => exact .nil
        | cons h1 _ ih => exact .cons h1.flip ih)
      (by
        simp only [objectiveMats, List.map_cons, List.map_nil, List.mem_reverse, List.mem_cons, List.not_mem_nil, or_false]
        rintro x (rfl | rfl | rfl | rfl | rfl | rfl | rfl) <;> rfl)
      (by simp [objectiveMats])
    have hback : ((((objectiveMats f NA ftf wd (optInf ba)).map Mat.flipBase).reverse).map Mat.flipBase).reverse =
        objectiveMats f NA ftf wd (optInf ba) := by
      rw [List.map_reverse, List.reverse_reverse, List.map_map]
      conv_rhs => rw [← List.map_id (objectiveMats f NA ftf wd (optInf ba))]
      exact List.map_congr_left fun x _ => flipBase_flipBase x
    rw [hback, objectiveVertices_plain (by simp [hM2, hM1, hM, Mat.refresh, hm3])] at ht1'
    rw [List.reverse_reverse, objective_chain hf] at ht2'
    rw [ht1']
    simp only [Group.toElem, Prod.mk.injEq, and_true, Elem.group.injEq, true_and, hM2, hM1, hM, Mat.refresh, zero_eq, hm2.A, hm2.B, hm2.C,
      hm2.D, hm2.L, hm2.nf, hm2.nb, ht2'.A, ht2'.B, ht2'.C, ht2'.D, ht2'.L, ht2'.nf, ht2'.nb, Bool.not_not]

example : ((mkObjective (fin (5 : ℚ)) (fin (4/5)) (fin 45) (fin 8) (fin 2) "obj").map fun g =>
    (g.mat.A, g.mat.D, g.mat.L, g.mat.backVertex)) = .ok (fin 0, fin 0, fin 45, some (fin 43)) := by decide +kernel

/-! ## C59 -/

/-- `x` after the back edge of the system, the light that came parallel to the axis crosses it. -/
def Sys.FocusAfter (s : Sys K) (x : K) : Prop := ∀ y, (Sys.space x s.nb).outY (s.outY y 0) (s.outθ y 0) = 0

/-- `x` after the back edge of the system is the image of its front edge: the height there does not depend on the angle. -/
def Sys.ImageAfter (s : Sys K) (x : K) : Prop := ∀ y θ, (Sys.space x s.nb).outY (s.outY y θ) (s.outθ y θ) =
  (Sys.space x s.nb).outY (s.outY y 0) (s.outθ y 0)

theorem bfl_eq {m : Mat (Ext K)} {s : Sys K} (h : Den m s) (hb : s.nb ≠ 0) (hc : 1 / 100000 < |s.c|) {bv : K}
    (hbv : m.backVertex = some (fin bv)) : m.backFocalLength = .ok (some (fin (s.len - s.a / s.c - bv))) := by
  have h0 := power_ne hc
  have e1 := effectiveFocalLengths_eq h hb hc
  have e2 := principalPlanePositions_eq h hb hc 0
  have e3 := hasPower_den h
  simp only [hc, decide_true] at e3
  unfold Mat.backFocalLength
  rw [e3, e1, zero_eq, e2, hbv]
  simp only [if_true, bind, Except.bind, pure, Except.pure, fin_sub_fin, fin_add_fin]
  congr 3
  field_simp
  ring

theorem ffl_eq {m : Mat (Ext K)} {s : Sys K} (h : Den m s) (hb : s.nb ≠ 0) (hc : 1 / 100000 < |s.c|) {fv : K}
    (hfv : m.frontVertex = some (fin fv)) : m.frontFocalLength = .ok (some (fin (fv - s.d / s.c))) := by
  have h0 := power_ne hc
  have e1 := effectiveFocalLengths_eq h hb hc
  have e2 := principalPlanePositions_eq h hb hc 0
  have e3 := hasPower_den h
  simp only [hc, decide_true] at e3
  unfold Mat.frontFocalLength
  rw [e3, e1, zero_eq, e2, hfv]
  simp only [if_true, bind, Except.bind, pure, Except.pure, fin_sub_fin, neg_fin]
  congr 3
  field_simp
  ring

/-- **C59**, for every element with power above the tolerance and a back vertex at `bv`: `ToFocus(element)` is a space, of the
length reported as back focal length, and it leads from the back edge of the element to the focus exactly when the back vertex is
at that edge. -/
theorem C59_toFocus_iff {m : Mat (Ext K)} {s : Sys K} (h : Den m s) (hb : s.nb ≠ 0) (hc : 1 / 100000 < |s.c|) {bv : K}
    (hbv : m.backVertex = some (fin bv)) :
    ∃ x sp, mkToFocus m = .ok sp ∧ Den sp (Sys.space x 1) ∧ (s.FocusAfter x ↔ bv = s.len) := by
  have h0 := power_ne hc
  refine ⟨s.len - s.a / s.c - bv, _, ?_, spaceMat_den _ 1 pinf, ?_⟩
  · unfold mkToFocus
    simp only [bfl_eq h hb hc hbv, bind, Except.bind, space_air]
  · simp only [Sys.FocusAfter, Sys.outY, Sys.outθ, Sys.space]
    constructor
    · intro h1
      have h2 := h1 1
      have h3 : s.c * (s.len - bv) = 0 := by
        have h4 : (s.len - s.a / s.c - bv) * s.c = s.len * s.c - s.a - bv * s.c := by field_simp
        linear_combination h2 - h4
      have := (mul_eq_zero.1 h3).resolve_left h0
      linarith
    · rintro rfl y
      field_simp
      ring

/-- **C59**: the same, when the vertex is at the edge, as for thin and thick lenses and interfaces. Missing: groups that end
with a space or other elements without vertex, which violate it (`C59_toFocus_violated`). -/
theorem C59_toFocus_partial {m : Mat (Ext K)} {s : Sys K} (h : Den m s) (hb : s.nb ≠ 0) {sp : Mat (Ext K)}
    (hbv : m.backVertex = some (fin s.len)) (ho : mkToFocus m = .ok sp) :
    ∃ x, Den sp (Sys.space x 1) ∧ s.FocusAfter x := by
  by_cases hc : 1 / 100000 < |s.c|
  · obtain ⟨x, sp', h1, h2, h3⟩ := C59_toFocus_iff h hb hc hbv
    rw [ho] at h1; cases h1
    exact ⟨x, h2, h3.2 rfl⟩
  · have hnone := ((C25_none_iff h hb).1).2 (.inr (not_lt.1 hc))
    unfold mkToFocus at ho
    simp [hnone, bind, Except.bind, throw, throwThe, MonadExceptOf.throw] at ho

/-- **C59**: without a back vertex or without power above the tolerance, `ToFocus` is refused. -/
theorem C59_toFocus_refused {m : Mat (Ext K)} {s : Sys K} (h : Den m s) (hb : s.nb ≠ 0)
    (hn : m.backVertex = none ∨ |s.c| ≤ 1 / 100000) : mkToFocus m = .error .valueError := by
  unfold mkToFocus
  simp [((C25_none_iff h hb).1).2 hn, bind, Except.bind, throw, throwThe, MonadExceptOf.throw]

/-- **C59** is violated by a 2f system, a lens between two spaces: the focus is at its back edge (`A = 0`), and `ToFocus` is a
space of length `f`, not 0. -/
theorem C59_toFocus_violated :
    ((mkSystem2f (fin (10 : ℚ))).bind fun g => (mkToFocus g.mat).map fun sp => (g.mat.A, sp.L)) = .ok (fin 0, fin 10) ∧
    (⟨0, 10, -1 / 10, 0, 20, 1, 1⟩ : Sys ℚ).FocusAfter 0 ∧ ¬ (⟨0, 10, -1 / 10, 0, 20, 1, 1⟩ : Sys ℚ).FocusAfter 10 := by
  refine ⟨by decide +kernel, ?_, ?_⟩
  · intro y; simp [Sys.outY, Sys.outθ, Sys.space]
  · intro h
    have := h 1
    norm_num [Sys.outY, Sys.outθ, Sys.space] at this

/-- **C59.** Whenever `ToConjugate(element)` succeeds, it is a space that leads from the back edge of the element to the image of
its front edge. It is refused exactly when that image is at infinity. -/
theorem C59_toConjugate {m : Mat (Ext K)} {s : Sys K} (h : Den m s) (hs : s.Accepted) :
    (s.d ≠ 0 ∧ ∃ x sp, mkToConjugate m = .ok sp ∧ Den sp (Sys.space x 1) ∧ s.ImageAfter x) ∨
    (s.d = 0 ∧ mkToConjugate m = .error .valueError) := by
  by_cases hd : s.d = 0
  · refine .inr ⟨hd, ?_⟩
    unfold mkToConjugate Mat.forwardConjugate
    simp [h.D, hd, bind, Except.bind, throw, throwThe, MonadExceptOf.throw, pure, Except.pure]
  · obtain ⟨c, h1, -⟩ := forwardConjugate_eq h hs hd
    refine .inl ⟨hd, -s.b / s.d, _, ?_, spaceMat_den _ 1 pinf, ?_⟩
    · unfold mkToConjugate
      rw [h1]
      simp only [bind, Except.bind]
      have hf : ((-inf <. (fin (-s.b / s.d) : Ext K)) && ((fin (-s.b / s.d) : Ext K) <. inf)) = true := by simp
      simp only [hf, if_true]
      exact space_air _
    · intro y θ
      simp only [Sys.outY, Sys.outθ, Sys.space]
      field_simp
      ring

/-- the group `[Space(x), e, Space(x')]` -/
theorem between_spaces {e : Elem (Ext K)} {s : Sys K} (h : Den e.mat s) (hs : s.Lawful) (hsp : e.isSpace = false) {x x' : K}
    {g : Group (Ext K)}
    (hg : Group.new [.leaf (spaceMat (fin x) (fin 1) pinf), e, .leaf (spaceMat (fin x') (fin 1) pinf)] = .ok g) :
    s.nf = 1 ∧ ∃ u : Sys K, Den g.mat u ∧ u.SameABCD (((Sys.space x 1).andThen s).andThen (Sys.space x' s.nb)) := by
  have hnew := hg
  have h1 := Group.new_eq hg
  obtain ⟨g1, a1, h2⟩ := Group.appendAll_cons_ok h1
  obtain ⟨g2, a2, h3⟩ := Group.appendAll_cons_ok h2
  obtain ⟨g3, a3, h4⟩ := Group.appendAll_cons_ok h3
  simp only [Group.appendAll, Prod.mk.injEq, and_true] at h4
  subst h4
  have e1 : g1.elems = [.leaf (spaceMat (fin x) (fin 1) pinf)] := by
    have : (Group.empty "" : Group (Ext K)).append (.leaf (spaceMat (fin x) (fin 1) pinf)) =
        (Group.empty "" : Group (Ext K)).push (.leaf (spaceMat (fin x) (fin 1) pinf)) := rfl
    rw [this] at a1
    have := Group.push_elems (Group.empty "" : Group (Ext K)) (.leaf (spaceMat (fin x) (fin 1) pinf))
    rw [a1] at this
    simpa [Group.empty] using this
  have e2 : g2.elems = [.leaf (spaceMat (fin x) (fin 1) pinf), e] ∧ s.nf = 1 := by
    rcases g1.append_cases e with ⟨h', -⟩ | ⟨e', h', -, hl⟩
    · rw [a2] at h'; simp at h'
    · rcases hl _ (by rw [e1]; rfl) with ⟨rfl, h5⟩ | ⟨h5, -⟩
      · refine ⟨?_, ?_⟩
        · have := Group.push_elems g1 e'
          rw [← h', a2, e1] at this
          simpa using this
        · rw [h.nf] at h5
          simp only [Elem.mat, spaceMat] at h5
          have : (1 : K) = s.nf := by simpa using h5
          exact this.symm
      · rw [hsp] at h5; simp at h5
  have e3 : g3.elems = [.leaf (spaceMat (fin x) (fin 1) pinf), e, .leaf (spaceMat (fin x') (fin s.nb) pinf)] := by
    rcases g2.append_cases (.leaf (spaceMat (fin x') (fin 1) pinf)) with ⟨h', -⟩ | ⟨e', h', -, hl⟩
    · rw [a3] at h'; simp at h'
    · have he' : e' = .leaf (spaceMat (fin x') (fin s.nb) pinf) := by
        rcases hl e (by rw [e2.1]; rfl) with ⟨rfl, h5⟩ | ⟨-, rfl⟩
        · rw [h.nb] at h5
          simp only [Elem.mat, spaceMat] at h5
          have : s.nb = 1 := by simpa using h5
          rw [this]
        · rw [h.nb]; rfl
      have := Group.push_elems g2 e'
      rw [← h', a3, e2.1, he'] at this
      simpa using this
  refine ⟨e2.2, g3.mat.sys, ?_⟩
  have hok : OkList g3.elems := by
    rw [e3]
    intro f hf
    simp only [List.mem_cons, List.not_mem_nil, or_false] at hf
    rcases hf with rfl | rfl | rfl
    · have hd := spaceMat_den x 1 (pinf : Ext K)
      exact ⟨by simp only [Elem.mat]; rw [hd.sys]; exact hd,
        by simp only [Elem.mat]; rw [hd.sys]; exact Sys.space_lawful x one_ne_zero⟩
    · exact ⟨by rw [h.sys]; exact h, by rw [h.sys]; exact hs⟩
    · have hd := spaceMat_den x' s.nb (pinf : Ext K)
      exact ⟨by simp only [Elem.mat]; rw [hd.sys]; exact hd,
        by simp only [Elem.mat]; rw [hd.sys]; exact Sys.space_lawful x' hs.2.1⟩
  have hch : g3.elems.IsChain Adjacent := by
    have := appendAll_adjacent (g := (Group.empty "" : Group (Ext K)))
      [.leaf (spaceMat (fin x) (fin 1) pinf), e, .leaf (spaceMat (fin x') (fin 1) pinf)] (by simp [Group.empty])
    rw [h1] at this
    exact this
  obtain ⟨gm, gc, ge⟩ := g3
  have hh := (Group.new_fresh hnew).header hok hch
  refine ⟨hh.den, ?_⟩
  have hsame := hh.same
  dsimp only at e3
  have hsys : sysList ge = [Sys.space x 1, s, Sys.space x' s.nb] := by
    rw [e3]
    simp only [sysList, List.map_cons, List.map_nil, Elem.mat, (spaceMat_den x 1 (pinf : Ext K)).sys, h.sys,
      (spaceMat_den x' s.nb (pinf : Ext K)).sys]
    congr 2
    cases e <;> exact h.sys
  rw [hsys] at hsame
  obtain ⟨k1, k2, k3, k4, k5⟩ := hsame
  simp only [Sys.chain, List.foldl_cons, List.foldl_nil, Sys.andThen, Sys.one] at k1 k2 k3 k4 k5
  refine ⟨?_, ?_, ?_, ?_, ?_⟩ <;> simp only [Sys.andThen]
  · linear_combination k1
  · linear_combination k2
  · linear_combination k3
  · linear_combination k4
  · linear_combination k5

/-- **C59**, for every element or group with power above the tolerance and vertices at `fv`, `bv`: if `fromFocusToFocus()`
succeeds, the element starts in air, and the group returned goes to the back focus (`A = 0`: parallel light meets on the axis at
the end) exactly when the back vertex is at the back edge, and starts at the front focus (`D = 0`: the light of an axial
point at the beginning singles parallel) exactly when the front vertex is at the front edge. -/
theorem C59_fromFocusToFocus_iff {e : Elem (Ext K)} {s : Sys K} (h : Den e.mat s) (hs : s.Lawful) (hsp : e.isSpace = false)
    (hc : 1 / 100000 < |s.c|) {fv bv : K} (hfv : e.mat.frontVertex = some (fin fv)) (hbv : e.mat.backVertex = some (fin bv))
    {g : Group (Ext K)} (hg : e.fromFocusToFocus = .ok g) :
    s.nf = 1 ∧ ∃ u, Den g.mat u ∧ (u.a = 0 ↔ bv = s.len) ∧ (u.d = 0 ↔ fv = 0) ∧ u.c = s.c := by
  have h0 := power_ne hc
  unfold Elem.fromFocusToFocus at hg
  simp only [ffl_eq h hs.2.1 hc hfv, bfl_eq h hs.2.1 hc hbv, bind, Except.bind, space_air] at hg
  obtain ⟨h1, u, h2, h3, h4, h5, h6, -⟩ := between_spaces h hs hsp hg
  refine ⟨h1, u, h2, ?_, ?_, ?_⟩
  · rw [h3]
    simp only [Sys.andThen, Sys.space]
    have : 1 * (s.a * 1 + s.b * 0) + (s.len - s.a / s.c - bv) * (s.c * 1 + s.d * 0) = s.c * (s.len - bv) := by
      field_simp; ring
    rw [this, mul_eq_zero, or_iff_right h0, sub_eq_zero, eq_comm]
  · rw [h6]
    simp only [Sys.andThen, Sys.space]
    have : 0 * (s.a * (fv - s.d / s.c) + s.b * 1) + 1 * (s.c * (fv - s.d / s.c) + s.d * 1) = s.c * fv := by
      field_simp; ring
    rw [this, mul_eq_zero, or_iff_right h0]
  · rw [h5]; simp only [Sys.andThen, Sys.space]; ring

/-- **C59** for a lens: from front focus to back focus. -/
theorem C59_lens {f : K} (hf : f ≠ 0) (hf' : |f| < 100000) (diam : Option K) :
    ∃ g, (Elem.leaf (lensMat f (optInf diam))).fromFocusToFocus = .ok g ∧ Den g.mat ⟨0, f, -1 / f, 0, 2 * f, 1, 1⟩ := by
  obtain ⟨-, h1, h2⟩ := C23_lens hf hf' (optInf diam)
  obtain ⟨m, hm1, hm2, -⟩ := inAir_new (.cons (inAir_space f) (.cons (inAir_lens f (optInf diam)) (.cons (inAir_space f)
    .nil))) ""
  have hm3 : Den m ⟨0, f, -1 / f, 0, 2 * f, 1, 1⟩ := by
    convert hm2 using 1
    simp only [Sys.chain, List.foldl_cons, List.foldl_nil, Sys.andThen, Sys.one, Sys.space, Sys.lens, Sys.mk.injEq]
    refine ⟨?_, ?_, ?_, ?_, ?_, trivial, trivial⟩ <;> (field_simp; try ring)
  refine ⟨⟨m, none, singles [spaceMat (fin f) (fin 1) pinf, lensMat f (optInf diam), spaceMat (fin f) (fin 1) pinf]⟩, ?_, hm3⟩
  unfold Elem.fromFocusToFocus
  simp only [Elem.mat, h1, h2, bind, Except.bind, space_air]
  exact hm1

/-- **C59** is violated by a lens with a space on each side (a 2f system): the "group from focus to focus" has neither
`A = 0` nor `D = 0`. -/
theorem C59_fromFocusToFocus_violated :
    ((mkSystem2f (fin (10 : ℚ))).bind fun g => g.toElem.fromFocusToFocus.map fun g' => (g'.mat.A, g'.mat.D)) =
      .ok (fin (-1), fin (-1)) := by decide +kernel

/-- the hypotheses are met by a thick lens in air, between its own vertices -/
example : ((mkThickLens (fin (3/2 : ℚ)) (fin 20) (fin (-20)) (fin 3)).bind fun m =>
    (Elem.leaf m).fromFocusToFocus.map fun g => (m.frontVertex, m.backVertex, g.mat.A, g.mat.D)) =
      .ok (some (fin 0), some (fin 3), fin 0, fin 0) := by decide +kernel
example : ((mkLens (fin (10 : ℚ))).bind fun m => (mkToFocus m).map fun s => s.L) = .ok (fin 10) := by decide +kernel
example : ((mkSystem2f (fin (10 : ℚ))).bind fun g => mkToConjugate g.mat) = .error .valueError := by decide +kernel

/-! ## C60 -/

theorem axicon_kind {alpha n : K} {diam : Ext K} {m : Mat (Ext K)} (h : mkAxicon (fin alpha) (fin n) diam = .ok m) :
    m = { (Mat.one : Mat (Ext K)) with apertureDiameter := diam, kind := .axicon (fin n) (fin alpha) } := init_ok h

/-- **C60.** An axicon can be made with any index and angle; the diameter must be positive (or infinite). -/
theorem C60_made (alpha n : K) (diam : Option K) :
    (∃ m, mkAxicon (fin alpha) (fin n) (optInf diam) = .ok m) ↔ ∀ d ∈ diam, 0 < d := by
  have hden : Den ({ (Mat.one : Mat (Ext K)) with
      apertureDiameter := optInf diam, kind := .axicon (fin n) (fin alpha) } : Mat (Ext K)) (Sys.one 1) := by
    constructor <;> simp [Sys.one, Mat.one]
  constructor
  · rintro ⟨m, hm⟩ d hd
    cases hd
    exact diamOk_fin.1 (init_ok_facts hden hm).1
  · intro h
    exact ⟨_, init_eq hden (Sys.one_lawful one_ne_zero) rfl
      (by cases diam with | none => exact diamOk_pinf | some d => exact diamOk_fin.2 (h d rfl)) rfl⟩

/-- **C60.** A ray `(y, θ)` that is not blocked comes out of an axicon at the same height and position; its angle is changed by
`(n-1)α`, downwards above the axis and upwards below it; a ray on the axis keeps its angle. It is blocked exactly when it is
outside the aperture. -/
theorem C60_ray {alpha n : K} {diam : Option K} {m : Mat (Ext K)} (h : mkAxicon (fin alpha) (fin n) (optInf diam) = .ok m)
    {r : Ray (Ext K)} {y θ z : K} (hr : FinRay r y θ z) (hb : r.isBlocked = false) :
    (m.mulRay r).y = fin y ∧ (m.mulRay r).z = fin z ∧
    (0 < y → (m.mulRay r).theta = fin (θ - (n - 1) * alpha)) ∧
    (y < 0 → (m.mulRay r).theta = fin (θ + (n - 1) * alpha)) ∧
    (y = 0 → (m.mulRay r).theta = fin θ) ∧
    ((m.mulRay r).isBlocked = true ↔ ∃ d, diam = some d ∧ d / 2 < |y|) := by
  have hm := axicon_kind h
  have hbl := C05_blocked_iff_exact (m := m) (d := diam) (na := none) (by rw [hm]) (by rw [hm]; rfl) hr
  refine ⟨?_, ?_, ?_, ?_, ?_, ?_⟩
  · rw [hm]; simp [Mat.mulRay, Mat.mulRayBase, hb, hr.y, hr.theta, Mat.one]
  · rw [hm]; simp [Mat.mulRay, Mat.mulRayBase, hb, hr.z, Mat.one]
  · intro hy
    rw [hm]
    simp [Mat.mulRay, Mat.mulRayBase, hb, hr.y, hr.theta, Mat.one, axiconTurn, deviationAngle, hy, sub_eq_add_neg]
  · intro hy
    rw [hm]
    simp [Mat.mulRay, Mat.mulRayBase, hb, hr.y, hr.theta, Mat.one, axiconTurn, deviationAngle, hy, not_lt.2 hy.le,
      sub_eq_add_neg]
  · intro hy
    rw [hm]
    simp [Mat.mulRay, Mat.mulRayBase, hb, hr.y, hr.theta, Mat.one, axiconTurn, hy]
  · rw [hbl]; simp [hb]

/-- **C60.** Towards the axis: for an index above 1 and a positive angle, a parallel ray at height `y ≠ 0` that gets through crosses
the axis at the distance `focalLineLength(y)` after the axicon, and there only. -/
theorem C60_focal_line {alpha n : K} {diam : Option K} {m : Mat (Ext K)}
    (h : mkAxicon (fin alpha) (fin n) (optInf diam) = .ok m) (hn : 1 < n) (ha : 0 < alpha)
    {r : Ray (Ext K)} {y z : K} (hr : FinRay r y 0 z) (hb : r.isBlocked = false) (hy : y ≠ 0) :
    ∃ l θ', focalLineLength m (fin n) (fin alpha) (some (fin y)) = .ok (fin l) ∧ 0 < l ∧ (m.mulRay r).theta = fin θ' ∧
      ∀ x, y + x * θ' = 0 ↔ x = l := by
  obtain ⟨-, -, h1, h2, -⟩ := C60_ray h hr hb
  have hd : 0 < (n - 1) * alpha := mul_pos (by linarith) ha
  have hn' : n - 1 ≠ 0 := by intro h0; rw [h0] at hd; simp at hd
  have hl : focalLineLength m (fin n) (fin alpha) (some (fin y)) = .ok (fin (|y| / (n - 1) / alpha)) := by
    unfold focalLineLength
    simp [pyDiv_fin, hn', ha.ne', bind, Except.bind]
  have hlp : 0 < |y| / (n - 1) / alpha := div_pos (div_pos (abs_pos.2 hy) (by linarith)) ha
  have hln : |y| / (n - 1) / alpha * ((n - 1) * alpha) = |y| := by field_simp
  rcases lt_or_gt_of_ne hy with hy' | hy'
  · refine ⟨_, _, hl, hlp, h2 hy', fun x => ?_⟩
    rw [abs_of_neg hy'] at hln ⊢
    constructor
    · intro hx
      exact mul_right_cancel₀ hd.ne' (by linear_combination hx - hln)
    · rintro rfl
      linear_combination hln
  · refine ⟨_, _, hl, hlp, h1 hy', fun x => ?_⟩
    rw [abs_of_pos hy'] at hln ⊢
    constructor
    · intro hx
      exact mul_right_cancel₀ hd.ne' (by linear_combination -hx - hln)
    · rintro rfl
      linear_combination -hln

/-- **C60.** By default the focal line is that of the ray at the edge of the aperture. -/
theorem C60_default_height {F : Type} [PyNum F] (m : Mat F) (n alpha : F) :
    focalLineLength m n alpha none = focalLineLength m n alpha (some (half m.apertureDiameter)) := rfl

/-- **C60.** Beams are refused (see also `C42_axicon`). -/
theorem C60_beam {F : Type} [PyNum F] [PyMath F] {alpha n diam : F} {m : Mat F} (h : mkAxicon alpha n diam = .ok m) (b : Beam F) :
    m.mulBeam b = .error .typeError := by
  unfold mkAxicon Mat.init at h
  simp only [bind, Except.bind, throw, throwThe, MonadExceptOf.throw, pure, Except.pure] at h
  refine C42_axicon (n := n) (alpha := alpha) ?_ b
  repeat' split at h
  all_goals simp_all
  all_goals (rw [← h])

/-- **C60** is violated for blocked rays: every axicon with a deviation changes the angle of every blocked ray off the
axis. The ray is the caller's object (`C10_violated_axicon`). -/
theorem C60_blocked_violated {alpha n : K} {diam : Option K} {m : Mat (Ext K)}
    (h : mkAxicon (fin alpha) (fin n) (optInf diam) = .ok m) (hd : (n - 1) * alpha ≠ 0)
    {r : Ray (Ext K)} {y θ z : K} (hr : FinRay r y θ z) (hb : r.isBlocked = true) (hy : y ≠ 0) : m.mulRay r ≠ r := by
  have hm := axicon_kind h
  intro heq
  have : (m.mulRay r).theta = fin θ := by rw [heq, hr.theta]
  rw [hm] at this
  rcases lt_or_gt_of_ne hy with hy' | hy'
  · simp [Mat.mulRay, Mat.mulRayBase, hb, hr.y, hr.theta, axiconTurn, deviationAngle, hy', not_lt.2 hy'.le] at this
    exact hd (by rcases this with h1 | h1 <;> simp [h1])
  · simp [Mat.mulRay, Mat.mulRayBase, hb, hr.y, hr.theta, axiconTurn, deviationAngle, hy'] at this
    exact hd (by rcases this with h1 | h1 <;> simp [h1])

/-- an axicon of 0.1 rad and index 3/2; the deviation is 0.05 -/
example : ((mkAxicon (fin (1/10 : ℚ)) (fin (3/2)) (fin 25)).map fun m =>
    ((m.mulRay { Ray.new 0 0 with y := fin 2, theta := fin 0 }).theta,
     (m.mulRay { Ray.new 0 0 with y := fin (-2), theta := fin 0 }).theta)) = .ok (fin (-1/20), fin (1/20)) := by decide +kernel
example : ((mkAxicon (fin (1/10 : ℚ)) (fin (3/2)) (fin 25)).bind fun m => focalLineLength m (fin (3/2)) (fin (1/10)) none) =
    .ok (fin 250) := by decide +kernel

end RT
