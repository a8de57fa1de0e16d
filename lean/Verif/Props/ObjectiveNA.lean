import Verif.Props.Catalogue
import Verif.Lemmas.Through
import Verif.Lemmas.FlipVertex

/-! # C94: the light that goes through an objective -/

set_option linter.unusedSectionVars false

namespace RT
open PyNum Ext
variable {K : Type} [Field K] [LinearOrder K] [IsStrictOrderedRing K]

/-- The stages of an objective: from its back aperture to its front focus. -/
def objectiveStages (f NA ftf wd : K) (ba : Option K) : List (Stage K) :=
  [⟨1, 0, 0, 1, 0, ba, none⟩, ⟨1, f, 0, 1, f, none, none⟩, ⟨1, 0, 0, 1, ftf - 2 * f, none, none⟩, ⟨1, 0, -1 / f, 1, 0, none, none⟩,
   ⟨1, f - wd, 0, 1, f - wd, none, none⟩, ⟨1, 0, 0, 1, 0, some (2 * (NA * wd)), none⟩, ⟨1, wd, 0, 1, wd, none, none⟩]

theorem objectiveMats_stages {f NA ftf wd : K} {ba : Option K} (hba : ∀ d ∈ ba, 0 < d) (hna : 0 < NA * wd) :
    List.Forall₂ StageOf (objectiveMats f NA ftf wd (optInf ba)) (objectiveStages f NA ftf wd ba) := by
  have hpos : ∀ D, some (2 * (NA * wd)) = some D → 0 < D := by rintro D ⟨⟩; linarith
  refine .cons ?_ (.cons ?_ (.cons ?_ (.cons ?_ (.cons ?_ (.cons ?_ (.cons ?_ .nil)))))) <;>
    refine ⟨?_, ?_, ?_, ?_, ?_, ?_, ?_, ?_, ?_, ?_⟩ <;>
    first
    | exact hba
    | exact hpos
    | simp [apertureMat, spaceMat, blankMat, lensMat, Mat.one, Mat.Linear, optInf]

theorem objectiveMats_stages_flipped {f NA ftf wd : K} {ba : Option K} (hba : ∀ d ∈ ba, 0 < d) (hna : 0 < NA * wd) :
    List.Forall₂ StageOf ((objectiveMats f NA ftf wd (optInf ba)).map Mat.flipBase).reverse (objectiveStages f NA ftf wd ba).reverse := by
  have hpos : ∀ D, some (2 * (NA * wd)) = some D → 0 < D := by rintro D ⟨⟩; linarith
  refine List.rel_reverse (.cons ?_ (.cons ?_ (.cons ?_ (.cons ?_ (.cons ?_ (.cons ?_ (.cons ?_ .nil))))))) <;>
    refine ⟨?_, ?_, ?_, ?_, ?_, ?_, ?_, ?_, ?_, ?_⟩ <;>
    first
    | exact hba
    | exact hpos
    | simp [apertureMat, spaceMat, blankMat, lensMat, Mat.one, Mat.flipBase, Mat.Linear, optInf]

theorem leaves_singles (ms : List (Mat (Ext K))) (m : Mat (Ext K)) (c) : leaves (Elem.group m c (singles ms)).items = ms := by
  unfold Elem.items singles
  simp only [leaves]
  induction ms with
  | nil => rfl
  | cons m ms ih => simp only [List.map_cons, itemsList, leaves_append, ih, Elem.items, leaves, List.singleton_append]

theorem singles_noCache (ms : List (Mat (Ext K))) (m : Mat (Ext K)) : (Elem.group m none (singles ms)).NoCache := by
  unfold Elem.NoCache
  refine ⟨rfl, NoCacheList_iff.2 ?_⟩
  intro e he
  obtain ⟨m, -, rfl⟩ := List.mem_map.1 he
  trivial

/-- What a user sees of the ray `y`, `θ` going through an element: nothing when it is blocked, otherwise its height, angle and position. -/
def Goes (e : Elem (Ext K)) (a : Nat) (h : Heap (Ext K)) (lost : Prop) (y θ z : K) : Prop :=
  (((e.traceH a h).2.1.get (e.traceThroughH a h).1).isBlocked = true ↔ lost) ∧
  (¬ lost → FinRay ((e.traceH a h).2.1.get (e.traceThroughH a h).1) y θ z)

theorem objectiveStages_eq {f : K} (hf : f ≠ 0) (NA ftf wd : K) (ba : Option K) (y θ : K) :
    (Blocked (objectiveStages f NA ftf wd ba) (y, θ) ↔ ((∃ D ∈ ba, D / 2 < |y|) ∨ NA * wd < |f * θ + wd * (y / f)|)) ∧
    outStages (objectiveStages f NA ftf wd ba) (y, θ) = (f * θ, -(y / f)) ∧ stagesLen (objectiveStages f NA ftf wd ba) = ftf := by
  have e1 : Blocked (objectiveStages f NA ftf wd ba) (y, θ) ↔ ((∃ D ∈ ba, D / 2 < |y|) ∨ NA * wd < |f * θ + wd * (y / f)|) := by
    have e : y + f * θ + (f - wd) * (-1 / f * (y + f * θ) + θ) = f * θ + wd * (y / f) := by field_simp; ring
    simp only [objectiveStages, Blocked, Stage.Stops, Stage.out, one_mul, zero_mul, add_zero, zero_add, reduceCtorEq, false_and, exists_false,
      false_or, or_false, Option.some.injEq, exists_eq_left', e, Option.mem_def]
    rw [mul_div_cancel_left₀ _ (two_ne_zero (α := K))]
  have e2 : outStages (objectiveStages f NA ftf wd ba) (y, θ) = (f * θ, -(y / f)) := by
    simp only [objectiveStages, outStages, List.foldl_cons, List.foldl_nil, Stage.out, Prod.mk.injEq]
    constructor <;> (field_simp; ring)
  have e3 : stagesLen (objectiveStages f NA ftf wd ba) = ftf := by
    simp only [objectiveStages, stagesLen, List.map_cons, List.map_nil, List.sum_cons, List.sum_nil]
    ring
  exact ⟨e1, e2, e3⟩

theorem objective_goes {f NA ftf wd : K} {ba : Option K} (hf : f ≠ 0) (hba : ∀ d ∈ ba, 0 < d) (hna : 0 < NA * wd) (M : Mat (Ext K))
    {a : Nat} {h : Heap (Ext K)} (ha : a < h.length) {y θ z : K} (hr : FinRay (h.get a) y θ z) (hb : (h.get a).isBlocked = false) :
    Goes (Elem.group M none (singles (objectiveMats f NA ftf wd (optInf ba)))) a h
      ((∃ D ∈ ba, D / 2 < |y|) ∨ NA * wd < |f * θ + wd * (y / f)|) (f * θ) (-(y / f)) (z + ftf) := by
  have hs : ItemStages (Elem.group M none (singles (objectiveMats f NA ftf wd (optInf ba)))).items (objectiveStages f NA ftf wd ba) := by
    unfold ItemStages
    rw [leaves_singles]
    exact objectiveMats_stages hba hna
  obtain ⟨h1, h2⟩ := through_stages hs (singles_noCache _ _) ha hr hb
  obtain ⟨e1, e2, e3⟩ := objectiveStages_eq hf NA ftf wd ba y θ
  rw [e1, e2, e3] at h2
  exact ⟨h1.trans e1, h2⟩

/-- **C94.** A ray goes through an objective of any valid parameters when, and only when, it enters within the back aperture and is then within
the cone of the NA at the working distance before the focus. It leaves at the front focal plane at the height `f θ` with the angle
`-y / f`. -/
theorem C94_through {f NA ftf wd : K} {ba : Option K} {label : String} {g : Group (Ext K)}
    (hg : mkObjective (fin f) (fin NA) (fin ftf) (optInf ba) (fin wd) label = .ok g) {a : Nat} {h : Heap (Ext K)} (ha : a < h.length)
    {y θ z : K} (hr : FinRay (h.get a) y θ z) (hb : (h.get a).isBlocked = false) :
    Goes g.toElem a h ((∃ D ∈ ba, D / 2 < |y|) ∨ NA * wd < |f * θ + wd * (y / f)|) (f * θ) (-(y / f)) (z + ftf) := by
  obtain ⟨hf, hba, hna⟩ := C58_refused hg
  have hd : DiamOk (optInf ba : Ext K) := by cases ba with | none => rfl | some d => exact diamOk_fin.2 (hba d rfl)
  obtain ⟨m, hm1, -, -⟩ := objective_eq hf NA ftf wd hd hna label
  rw [hg] at hm1
  have e := Except.ok.inj hm1
  have e' : g.toElem = .group g.mat none (singles (objectiveMats f NA ftf wd (optInf ba))) := by rw [e]; rfl
  rw [e']
  exact objective_goes hf hba hna _ ha hr hb

/-- **C94.** The same for the flipped objective, the ray starting at the front focal plane. -/
theorem C94_flipped {f NA ftf wd : K} {ba : Option K} {label : String} {g : Group (Ext K)}
    (hg : mkObjective (fin f) (fin NA) (fin ftf) (optInf ba) (fin wd) label = .ok g) :
    ∃ e, g.toElem.flip = (e, .ok ()) ∧ ∀ {a : Nat} {h : Heap (Ext K)}, a < h.length → ∀ {y θ z : K}, FinRay (h.get a) y θ z →
      (h.get a).isBlocked = false →
      Goes e a h ((∃ D ∈ ba, D / 2 < |f * θ|) ∨ NA * wd < |y + wd * θ|) (f * θ) (-(y / f)) (z + ftf) := by
  obtain ⟨hf, hba, hna⟩ := C58_refused hg
  have hd : DiamOk (optInf ba : Ext K) := by cases ba with | none => rfl | some d => exact diamOk_fin.2 (hba d rfl)
  obtain ⟨m, hm1, -, -⟩ := objective_eq hf NA ftf wd hd hna label
  rw [hg] at hm1
  cases hm1
  obtain ⟨t, ht1, -⟩ := objective_flip (m := { m with
      frontVertex := some 0, backVertex := some (fin (ftf - wd)), apertureDiameter := optInf ba, kind := .objective }) rfl
    (c := none) (objective_inAir f NA ftf wd (optInf ba)) (by
      simp only [objectiveMats, List.mem_cons, List.not_mem_nil, or_false]
      rintro x (rfl | rfl | rfl | rfl | rfl | rfl | rfl) <;> rfl) (by simp [objectiveMats])
  refine ⟨_, ht1, ?_⟩
  intro a h ha y θ z hr hb
  have hs : ∀ M : Mat (Ext K), ItemStages (Elem.group M none
      (singles ((objectiveMats f NA ftf wd (optInf ba)).map Mat.flipBase).reverse)).items (objectiveStages f NA ftf wd ba).reverse := by
    intro M
    unfold ItemStages
    rw [leaves_singles]
    exact objectiveMats_stages_flipped hba hna
  obtain ⟨h1, h2⟩ := through_stages (hs _) (singles_noCache _ _) ha hr hb
  have e1 : Blocked (objectiveStages f NA ftf wd ba).reverse (y, θ) ↔ ((∃ D ∈ ba, D / 2 < |f * θ|) ∨ NA * wd < |y + wd * θ|) := by
    have e : y + wd * θ + (f - wd) * θ + f * (-1 / f * (y + wd * θ + (f - wd) * θ) + θ) = f * θ := by field_simp; ring
    simp only [objectiveStages, List.reverse_cons, List.reverse_nil, List.nil_append, List.cons_append, Blocked, Stage.Stops, Stage.out,
      one_mul, zero_mul, add_zero, zero_add, reduceCtorEq, false_and, exists_false,
      false_or, or_false, Option.some.injEq, exists_eq_left', e, Option.mem_def]
    rw [mul_div_cancel_left₀ _ (two_ne_zero (α := K)), or_comm]
  have e2 : outStages (objectiveStages f NA ftf wd ba).reverse (y, θ) = (f * θ, -(y / f)) := by
    simp only [objectiveStages, List.reverse_cons, List.reverse_nil, List.nil_append, List.cons_append, outStages, List.foldl_cons,
      List.foldl_nil, Stage.out, Prod.mk.injEq]
    constructor <;> (field_simp; ring)
  have e3 : stagesLen (objectiveStages f NA ftf wd ba).reverse = ftf := by
    simp only [objectiveStages, List.reverse_cons, List.reverse_nil, List.nil_append, List.cons_append, stagesLen, List.map_cons,
      List.map_nil, List.sum_cons, List.sum_nil]
    ring
  rw [e1, e2, e3] at h2
  exact ⟨h1.trans e1, h2⟩

/-- The half angle of the cone of light that an objective accepts at its focus: what its two apertures let through. -/
def cone (f NA ba : K) : K := min (ba / 2 / |f|) |NA|

theorem cone_iff {f NA wd ba x : K} (hf : f ≠ 0) (hna : 0 < NA * wd) :
    (¬ (ba / 2 < |f * x| ∨ NA * wd < |wd * x|)) ↔ |x| ≤ cone f NA ba := by
  have hwd : wd ≠ 0 := by rintro rfl; simp at hna
  have e : NA * wd = |wd| * |NA| := by rw [← abs_mul, mul_comm wd, abs_of_pos hna]
  unfold cone
  rw [le_min_iff, le_div_iff₀ (abs_pos.2 hf), e, abs_mul, abs_mul, not_or, not_lt, not_lt, mul_le_mul_iff_right₀ (abs_pos.2 hwd), mul_comm |f|]

/-- **C94.** A ray parallel to the axis comes to the focus when its angle there is within the cone of the objective: the smallest of the NA and
the back aperture over twice the focal length. -/
theorem C94_focus {f NA ftf wd ba : K} {label : String} {g : Group (Ext K)}
    (hg : mkObjective (fin f) (fin NA) (fin ftf) (fin ba) (fin wd) label = .ok g) {a : Nat} {h : Heap (Ext K)} (ha : a < h.length)
    {y z : K} (hr : FinRay (h.get a) y 0 z) (hb : (h.get a).isBlocked = false) :
    Goes g.toElem a h (¬ |y / f| ≤ cone f NA ba) 0 (-(y / f)) (z + ftf) := by
  obtain ⟨hf, -, hna⟩ := C58_refused (ba := some ba) hg
  have := C94_through (ba := some ba) hg ha hr hb
  simp only [Option.mem_def, Option.some.injEq, exists_eq_left', mul_zero, zero_add] at this
  rw [← cone_iff hf hna (wd := wd), not_not, mul_div_cancel₀ _ hf]
  exact this

/-- **C94.** Of the light of the point on the axis at the focus, the flipped objective collects the same cone, and makes it parallel. -/
theorem C94_collects {f NA ftf wd ba : K} {label : String} {g : Group (Ext K)}
    (hg : mkObjective (fin f) (fin NA) (fin ftf) (fin ba) (fin wd) label = .ok g) :
    ∃ e, g.toElem.flip = (e, .ok ()) ∧ ∀ {a : Nat} {h : Heap (Ext K)}, a < h.length → ∀ {θ z : K}, FinRay (h.get a) 0 θ z →
      (h.get a).isBlocked = false → Goes e a h (¬ |θ| ≤ cone f NA ba) (f * θ) 0 (z + ftf) := by
  obtain ⟨hf, -, hna⟩ := C58_refused (ba := some ba) hg
  obtain ⟨e, h1, h2⟩ := C94_flipped (ba := some ba) hg
  refine ⟨e, h1, ?_⟩
  intro a h ha θ z hr hb
  have := h2 ha hr hb
  simp only [Option.mem_def, Option.some.injEq, exists_eq_left', zero_add, zero_div, neg_zero] at this
  rw [← cone_iff hf hna (wd := wd), not_not]
  exact this

/-- **C94.** Each objective of the catalogues but `nikon.LWD16X` accepts the NA announced, to 3%: all the rays within 97% of the NA come from
the focus, none beyond the NA. -/
theorem C94_catalogue {o : CatObjective} (ho : o ∈ objectives) (hn : o.name ≠ "LWD16X") :
    97 / 100 * (o.NA : ℝ) ≤ cone (o.f : ℝ) (o.NA : ℝ) (o.backAperture : ℝ) ∧ cone (o.f : ℝ) (o.NA : ℝ) (o.backAperture : ℝ) ≤ (o.NA : ℝ) := by
  have h := List.all_eq_true.1 (show objectives.all (fun o => o.name == "LWD16X" || (decide (97 / 100 * o.NA ≤ o.backAperture / 2 / |o.f|) &&
    decide (0 < o.NA))) = true by decide +kernel) o ho
  simp only [Bool.or_eq_true, beq_iff_eq, hn, false_or, Bool.and_eq_true, decide_eq_true_eq] at h
  have h1 := (Rat.cast_le (K := ℝ)).2 h.1
  have h2 : (0 : ℝ) < (o.NA : ℝ) := by exact_mod_cast h.2
  push_cast at h1
  unfold cone
  rw [abs_of_pos h2]
  exact ⟨le_min h1 (by linarith), min_le_right _ _⟩

/-- **C94.** The sizes of the objectives of the catalogues but `nikon.LWD16X` fit: the working distance is inside the objective, and the back
aperture is the beam of the NA announced, from 3% less to 23% more. -/
theorem C94_sizes {o : CatObjective} (ho : o ∈ objectives) (hn : o.name ≠ "LWD16X") :
    0 < o.workingDistance ∧ o.workingDistance < o.f ∧ 3 * o.f ≤ o.focusToFocusLength ∧
      97 / 100 * (2 * o.f * o.NA) ≤ o.backAperture ∧ o.backAperture ≤ 123 / 100 * (2 * o.f * o.NA) := by
  have h := List.all_eq_true.1 (show objectives.all (fun o => o.name == "LWD16X" || decide (0 < o.workingDistance ∧
    o.workingDistance < o.f ∧ 3 * o.f ≤ o.focusToFocusLength ∧ 97 / 100 * (2 * o.f * o.NA) ≤ o.backAperture ∧
    o.backAperture ≤ 123 / 100 * (2 * o.f * o.NA))) = true by decide +kernel) o ho
  simp only [Bool.or_eq_true, beq_iff_eq, hn, false_or, decide_eq_true_eq] at h
  exact h

/-- **C94.** The rays parallel to the axis from all the points of the field that the objective announces, `fieldNumber / magnification` wide, go
through. -/
theorem C94_field {o : CatObjective} (ho : o ∈ objectives) {M FN : ℚ} (hM : o.magnification = some M) (hFN : o.fieldNumber = some FN) :
    ∃ g e, o.make = .ok g ∧ g.toElem.flip = (e, .ok ()) ∧ ∀ {a : Nat} {h : Heap (Ext ℝ)}, a < h.length → ∀ {y z : ℝ}, FinRay (h.get a) y 0 z →
      (h.get a).isBlocked = false → |y| ≤ (FN : ℝ) / (M : ℝ) / 2 →
      Goes e a h False 0 (-(y / (o.f : ℝ))) (z + (o.focusToFocusLength : ℝ)) := by
  obtain ⟨g, hg, -⟩ := C92_objectives ho
  have hg' : mkObjective (fin (o.f : ℝ)) (fin (o.NA : ℝ)) (fin (o.focusToFocusLength : ℝ)) (fin (o.backAperture : ℝ))
    (fin (o.workingDistance : ℝ)) o.label = .ok g := hg
  obtain ⟨e, h1, h2⟩ := C94_flipped (ba := some (o.backAperture : ℝ)) hg'
  refine ⟨g, e, hg, h1, ?_⟩
  intro a h ha y z hr hb hy
  have hq := List.all_eq_true.1 (show objectives.all (fun o => decide (0 < o.backAperture) && (match o.magnification, o.fieldNumber with
    | some M, some FN => decide (FN / M / 2 ≤ o.NA * o.workingDistance) | _, _ => true)) = true by decide +kernel) o ho
  simp only [hM, hFN, Bool.and_eq_true, decide_eq_true_eq] at hq
  have q1 : (0 : ℝ) < (o.backAperture : ℝ) := by exact_mod_cast hq.1
  have q2 := (Rat.cast_le (K := ℝ)).2 hq.2
  push_cast at q2
  have := h2 ha hr hb
  have hnot : ¬ ((∃ D ∈ some (o.backAperture : ℝ), D / 2 < |(o.f : ℝ) * 0|) ∨
      (o.NA : ℝ) * (o.workingDistance : ℝ) < |y + (o.workingDistance : ℝ) * 0|) := by
    simp only [Option.mem_def, Option.some.injEq, exists_eq_left', mul_zero, abs_zero, add_zero, not_or, not_lt]
    exact ⟨by linarith, hy.trans q2⟩
  obtain ⟨t1, t2⟩ := this
  refine ⟨⟨fun hx => hnot (t1.1 hx), False.elim⟩, fun _ => ?_⟩
  have := t2 hnot
  rwa [mul_zero] at this

/-- **C94** is violated by `nikon.LWD16X`: it announces an NA of 1.56, but accepts 0.8 only: a ray parallel to the axis that would come to the
focus with an angle between the two is blocked by its back aperture. -/
theorem C94_violated {o : CatObjective} (ho : o ∈ objectives) (hn : o.name = "LWD16X") :
    (o.NA : ℝ) = 156 / 100 ∧ cone (o.f : ℝ) (o.NA : ℝ) (o.backAperture : ℝ) = 8 / 10 ∧
    ∃ g, o.make = .ok g ∧ ∀ {a : Nat} {h : Heap (Ext ℝ)}, a < h.length → ∀ {y z : ℝ}, FinRay (h.get a) y 0 z →
      8 / 10 < |y / (o.f : ℝ)| → (h.get a).isBlocked = false →
      ((g.toElem.traceH a h).2.1.get (g.toElem.traceThroughH a h).1).isBlocked = true := by
  have hq := List.all_eq_true.1 (show objectives.all (fun o => !(o.name == "LWD16X") || (decide (o.NA = 156 / 100) &&
    decide (o.backAperture / 2 / |o.f| = 8 / 10))) = true by decide +kernel) o ho
  simp only [hn, beq_self_eq_true, Bool.not_true, Bool.false_or, Bool.and_eq_true, decide_eq_true_eq] at hq
  have q1 : (o.NA : ℝ) = 156 / 100 := by rw [hq.1]; norm_num
  have q2 : (o.backAperture : ℝ) / 2 / |(o.f : ℝ)| = 8 / 10 := by
    have := congrArg (Rat.cast (K := ℝ)) hq.2
    push_cast at this
    exact this
  have q3 : cone (o.f : ℝ) (o.NA : ℝ) (o.backAperture : ℝ) = 8 / 10 := by
    unfold cone
    rw [q2, q1, abs_of_pos (by norm_num), min_eq_left (by norm_num)]
  obtain ⟨g, hg, -⟩ := C92_objectives ho
  refine ⟨q1, q3, g, hg, ?_⟩
  intro a h ha y z hr hy hb
  have hg' : mkObjective (fin (o.f : ℝ)) (fin (o.NA : ℝ)) (fin (o.focusToFocusLength : ℝ)) (fin (o.backAperture : ℝ))
    (fin (o.workingDistance : ℝ)) o.label = .ok g := hg
  have := C94_focus hg' ha hr hb
  rw [q3] at this
  exact this.1.2 (not_le.2 hy)

/-- Of the objective of the catalogue `UMPLFN20XW`, a ray within the back aperture and one outside, in the model: the first leaves at the front
focus, the second is blocked. -/
example : ((mkObjective (fin (9 : ℚ)) (fin (1 / 2)) (fin 45) (fin 9) (fin (7 / 2)) "UMPLFN20XW").map fun g =>
      ([4, 5] : List ℚ).map fun y =>
        ((g.toElem.traceH 0 [Ray.new (fin y) (fin 0)]).2.1.get (g.toElem.traceThroughH 0 [Ray.new (fin y) (fin 0)]).1).isBlocked) =
    .ok [false, true] := by decide +kernel

end RT
