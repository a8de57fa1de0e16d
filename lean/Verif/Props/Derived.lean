import Verif.Props.Imaging
import Verif.Lemmas.Conjugates

/-! # C35–C37: derived imaging quantities, intermediate images, aperture queries -/

set_option linter.unusedSectionVars false

namespace RT
open PyNum Ext
variable {K : Type} [Field K] [LinearOrder K] [IsStrictOrderedRing K]

/-! ## C35 -/

/-- **C35**, axial ray, for paths whose stop, at a visible position `z`, has the finite diameter `D`: `B θ` being the height at the
stop of the ray that leaves the axial point of the object with the angle `θ`, `axialRay()` is the ray of the axial
point of angle `D / (2 |B|) > 0`, which reaches the edge of the stop (`None` when `|B| < 1e-5`). -/
theorem C35_axialRay {label : String} {ps : List (Part K)} (hv : (Part.group label ps).Valid)
    (hn : (Part.group label ps).NonNeg) {g : Group (Ext K)} (hb : (Part.group label ps).build = .ok g.toElem)
    (hc : g.toElem.Clean) {z D : K} (hs : g.apertureStop.run (newTrace g) = .ok (some (fin z), fin D))
    (hvis : Visible (Part.group label ps).prims z) :
    ∃ B : K, (∀ θ, ∃ θ', rayAt (Part.group label ps).prims z (0, θ) = some (B * θ, θ')) ∧
      (|B| < 1 / 100000 → g.axialRay.run (newTrace g) = .ok none) ∧
      (1 / 100000 ≤ |B| → g.axialRay.run (newTrace g) = .ok (some (Ray.new (fin 0) (fin (D / (2 * |B|))))) ∧
        0 < D / (2 * |B|) ∧ |B * (D / (2 * |B|))| = D / 2) := by
  obtain ⟨-, hD⟩ := apertureStop_pos hn hb hs
  obtain ⟨c1, -⟩ := C31_rays_partial hv hn hb hc hs
  obtain ⟨A, B, h1, h2, h3⟩ := c1 hvis
  refine ⟨B, fun θ => ?_, fun hB => ?_, fun hB => ?_⟩
  · obtain ⟨θ', h⟩ := h1 0 θ
    exact ⟨θ', by simpa using h⟩
  · unfold Group.axialRay
    rw [Prog.run_bind, congrArg g.marginalRays (zero_eq (K := K)), (h2 hB 0).2]
    rfl
  · obtain ⟨-, θ1, θ2, e1, e2, e3⟩ := h3 hB 0
    have hpos : 0 < |B| := lt_of_lt_of_le (by norm_num) hB
    have hB0 : B ≠ 0 := abs_pos.1 hpos
    have hθ : θ1 = D / (2 * |B|) := by
      simp only [mul_zero, zero_add] at e3
      rcases e3 with ⟨e4, e5⟩ | ⟨e4, e5⟩
      · have hB1 : 0 < B := by
          by_contra hneg
          have : B < 0 := lt_of_le_of_ne (not_lt.1 hneg) hB0
          have : B * θ1 < B * θ2 := mul_lt_mul_of_neg_left e2 this
          linarith
        rw [abs_of_pos hB1]; field_simp; linarith
      · have hB1 : B < 0 := by
          by_contra hneg
          have : 0 < B := lt_of_le_of_ne (not_lt.1 hneg) (Ne.symm hB0)
          have : B * θ2 < B * θ1 := mul_lt_mul_of_pos_left e2 this
          linarith
        rw [abs_of_neg hB1]; field_simp; linarith
    refine ⟨?_, by positivity, ?_⟩
    · unfold Group.axialRay
      rw [Prog.run_bind, congrArg g.marginalRays (zero_eq (K := K)), e1, hθ]
      rfl
    · rw [abs_mul, abs_of_pos (show 0 < D / (2 * |B|) by positivity)]
      field_simp

/-- **C35**: `NA()` is the front index times the sine of the angle of the axial ray, for any function "sine". -/
theorem C35_NA (sin : Ext K → Ext K) {g : Group (Ext K)} {r : Ray (Ext K)}
    (h : g.axialRay.run (newTrace g) = .ok (some r)) :
    (g.NA sin).run (newTrace g) = .ok (g.mat.frontIndex * sin r.theta) := by
  unfold Group.NA
  rw [Prog.run_bind, h]
  rfl

/-- **C35** is violated by `NA()` without axial ray: every path without finite diameter raises `AttributeError`. -/
theorem C35_NA_violated (sin : Ext K → Ext K) {label : String} {ps : List (Part K)} {g : Group (Ext K)}
    (hb : (Part.group label ps).build = .ok g.toElem) (hfin : ∀ s ∈ (Part.group label ps).stages, s.diam = none) :
    (g.NA sin).run (newTrace g) = .error .attributeError := by
  unfold Group.NA Group.axialRay
  rw [Prog.run_bind, Prog.run_bind, (C31_no_stop hb hfin 0).2]
  rfl

/-- **C35**: the field of view is twice the half field of view, also when infinite; exceptions are the same. -/
theorem C35_fieldOfView (g : Group (Ext K)) (p H : Ext K) (fuel : Nat) :
    (g.fieldOfView p H fuel).run (newTrace g) =
      ((g.halfFieldOfView p H fuel).run (newTrace g)).map fun h => 2 * h := by
  unfold Group.fieldOfView
  rw [Prog.run_bind]
  cases (g.halfFieldOfView p H fuel).run (newTrace g) <;> rfl

/-- **C35**: the principal ray is the chief ray of the half field of view; there is none when the field is infinite. -/
theorem C35_principalRay (g : Group (Ext K)) (p H : Ext K) (fuel : Nat) :
    (∀ h : K, (g.halfFieldOfView p H fuel).run (newTrace g) = .ok (fin h) →
      (g.principalRay p H fuel).run (newTrace g) = (g.chiefRay (fin h)).run (newTrace g)) ∧
    ((g.halfFieldOfView p H fuel).run (newTrace g) = .ok pinf →
      (g.principalRay p H fuel).run (newTrace g) = .ok none) := by
  unfold Group.principalRay
  rw [Prog.run_bind]
  constructor
  · intro h hh
    rw [hh]
    simp
  · intro hh
    rw [hh]
    simp [Prog.run_pure]

/-- **C35**, image size, for all paths built by a program, `x` being the position of the image behind the path: with the
object, it is how far from the axis all the rays of the edge of the object (height `h`) meet; with the field of
view, it is the distance between the points where the rays of both edges of the field meet. Infinite when there is
no image. -/
theorem C35_imageSize {label : String} {ps : List (Part K)} (hv : (Part.group label ps).Valid)
    {g : Group (Ext K)} (hb : (Part.group label ps).build = .ok g.toElem)
    (hc : g.toElem.Clean) (p H : Ext K) (h : K) (fuel : Nat) :
    (∃ x M : K, (∀ y θ, (through (Part.group label ps).prims (y, θ)).1 +
        x * (through (Part.group label ps).prims (y, θ)).2 = M * y) ∧
      (g.imageSize p H (fin h) fuel true).run (newTrace g) = .ok (fin |M * h|) ∧
      (∀ v : K, (g.halfFieldOfView p H fuel).run (newTrace g) = .ok (fin v) →
        (g.imageSize p H (fin h) fuel false).run (newTrace g) = .ok (fin |M * v - M * (-v)|))) ∨
    ((∀ x M : K, ∃ y θ, (through (Part.group label ps).prims (y, θ)).1 +
        x * (through (Part.group label ps).prims (y, θ)).2 ≠ M * y) ∧
      ∀ useObject, (g.imageSize p H (fin h) fuel useObject).run (newTrace g) = .ok pinf) := by
  obtain ⟨hg, hp⟩ := build_good hv hb hc
  obtain ⟨h1, -⟩ := hg.prims
  have hden := hg.den
  have hl := hg.lawful
  have e : g.toElem.mat = g.mat := rfl
  rw [e] at hden hl h1
  rw [← hp]
  by_cases hd : g.mat.sys.d = 0
  · right
    constructor
    · intro x M
      by_contra hcon
      push Not at hcon
      have := (conjugate_unique hl (x := x) (M := M)).1 (fun y θ => by
        have := hcon y θ
        rw [h1] at this
        simpa [Sys.out] using this)
      exact this.1 hd
    · intro u
      unfold Group.imageSize
      rw [Prog.run_bind, Prog.run_lift]
      unfold Mat.forwardConjugate
      rw [hden.D, hd]
      simp [pure, Except.pure, Prog.run]
  · left
    obtain ⟨c, q1, q2⟩ := forwardConjugate_eq hden hl.accepted hd
    have hA : (g.mat.sys.andThen (Sys.space (-g.mat.sys.b / g.mat.sys.d) g.mat.sys.nb)).a =
        g.mat.sys.a + (-g.mat.sys.b / g.mat.sys.d) * g.mat.sys.c := by
      simp [Sys.andThen, Sys.space]
    have hcA := q2.A
    rw [hA] at hcA
    refine ⟨-g.mat.sys.b / g.mat.sys.d, g.mat.sys.a + (-g.mat.sys.b / g.mat.sys.d) * g.mat.sys.c, ?_, ?_, ?_⟩
    · intro y θ
      rw [h1]
      exact (conjugate_unique hl).2 ⟨hd, rfl, rfl⟩ y θ
    · unfold Group.imageSize
      rw [Prog.run_bind, Prog.run_lift, q1]
      simp only [if_true, Prog.run_pure, hcA, fin_mul_fin, abs_fin]
      rw [mul_comm]
    · intro v hv
      unfold Group.imageSize
      rw [Prog.run_bind, Prog.run_lift, q1]
      simp only [Bool.false_eq_true, if_false, Prog.run_bind, C35_fieldOfView, hv, Except.map, Prog.run_pure, hcA,
        ofNat_eq, fin_mul_fin, abs_fin]
      congr 2
      congr 1
      ring

/-- **C35**: the f-number is the front effective focal length over the diameter of the entrance pupil; `None` without pupil. -/
theorem C35_fNumber {g : Group (Ext K)} {f1 f2 : K} (hf : g.mat.effectiveFocalLengths = .ok (fin f1, fin f2)) :
    (∀ P E : K, E ≠ 0 → g.entrancePupil.run (newTrace g) = .ok (some (fin P, fin E)) →
      g.fNumber.run (newTrace g) = .ok (some (fin (f1 / E)))) ∧
    (g.entrancePupil.run (newTrace g) = .ok none → g.fNumber.run (newTrace g) = .ok none) := by
  unfold Group.fNumber
  rw [Prog.run_bind]
  constructor
  · intro P E hE h
    rw [h]
    simp only [Prog.run_bind, Prog.run_lift, hf, pyDiv_fin _ _ hE, Prog.run_pure]
  · intro h
    rw [h]
    simp only [Prog.run_bind, Prog.run_lift, hf, Prog.run_pure]

/-- **C35** is violated by the f-number of a lens by itself: `ImagingPath([Lens(f=50, diameter=25)]).fNumber()` is 0, and not 2 as with a space in front, because
the lens in the plane of the object is not found to be the stop. -/
theorem C35_fNumber_violated :
    withPath [.lens (50 : ℚ) (some 25)] (fun g => g.apertureStop.run (newTrace g)) = .ok (.ok (some (fin 0), pinf)) ∧
    withPath [.lens (50 : ℚ) (some 25)] (fun g => g.fNumber.run (newTrace g)) = .ok (.ok (some (fin 0))) ∧
    withPath [.space (1 : ℚ) 1 none, .lens 50 (some 25)] (fun g => g.fNumber.run (newTrace g)) = .ok (.ok (some (fin 2))) := by
  refine ⟨?_, ?_, ?_⟩ <;> decide +kernel

/-- **C35**, Lagrange invariant, for paths that start in air: the angle `θ` of the axial ray times the half field of
view `v`. -/
theorem C35_lagrangeInvariant_partial {label : String} {ps : List (Part K)} (hv : (Part.group label ps).Valid)
    (hn : (Part.group label ps).NonNeg) {g : Group (Ext K)} (hb : (Part.group label ps).build = .ok g.toElem)
    (hc : g.toElem.Clean) (hair : g.mat.frontIndex = fin 1) (hvis : Visible (Part.group label ps).prims 0)
    {p H : Ext K} {fuel : Nat} {θ v φ : K} (h1 : g.axialRay.run (newTrace g) = .ok (some (Ray.new (fin 0) (fin θ))))
    (h2 : (g.halfFieldOfView p H fuel).run (newTrace g) = .ok (fin v)) (h3 : IsChief g v φ) :
    (g.lagrangeInvariant p H fuel).run (newTrace g) = .ok (fin (θ * v)) := by
  unfold Group.lagrangeInvariant
  rw [Prog.run_bind, h1]
  simp only [Prog.run_bind]
  rw [(C35_principalRay g p H fuel).1 v h2]
  unfold IsChief at h3
  rw [h3]
  simp only [Prog.run_lift]
  have key := (C19_air_partial hv hn hb hc hair le_rfl le_rfl hvis hvis
    (h := [Ray.new (fin 0) (fin θ), Ray.new (fin v) (fin φ)]) (a1 := 0) (a2 := 1) (by simp)
    (finRay_new 0 θ) (finRay_new v φ) rfl rfl).2
  have e := congrArg (fun z => (g.toElem.opticalInvariantH 0 1 z [Ray.new (fin 0) (fin θ), Ray.new (fin v) (fin φ)]).1)
    (zero_eq (K := K))
  refine e.trans (key.trans ?_)
  simp

/-- **C35**, Lagrange invariant, for paths that start in any medium: the angle `θ` of the axial ray times the half field of view `v`, times the index of the
first medium unless the system up to 0 is the identity, where the code takes the index to be 1. -/
theorem C35_lagrangeInvariant {label : String} {ps : List (Part K)} (hv : (Part.group label ps).Valid)
    (hn : (Part.group label ps).NonNeg) {g : Group (Ext K)} (hb : (Part.group label ps).build = .ok g.toElem)
    (hc : g.toElem.Clean) (hvis : Visible (Part.group label ps).prims 0)
    {p H : Ext K} {fuel : Nat} {θ v φ : K} (h1 : g.axialRay.run (newTrace g) = .ok (some (Ray.new (fin 0) (fin θ))))
    (h2 : (g.halfFieldOfView p H fuel).run (newTrace g) = .ok (fin v)) (h3 : IsChief g v φ) :
    ∃ t n, g.toElem.transferMatrix (fin 0) = .ok t ∧ g.mat.frontIndex = fin n ∧
      ((g.lagrangeInvariant p H fuel).run (newTrace g) = .ok (fin (n * (θ * v))) ∨
       (t.isIdentity = true ∧ (g.lagrangeInvariant p H fuel).run (newTrace g) = .ok (fin (θ * v)))) := by
  unfold Group.lagrangeInvariant
  rw [Prog.run_bind, h1]
  simp only [Prog.run_bind]
  rw [(C35_principalRay g p H fuel).1 v h2]
  unfold IsChief at h3
  rw [h3]
  simp only [Prog.run_lift]
  obtain ⟨t, n, e1, e2, e3⟩ := C19_value_partial hv hn hb hc le_rfl hvis
    (h := [Ray.new (fin 0) (fin θ), Ray.new (fin v) (fin φ)]) (a1 := 0) (a2 := 1) (by simp)
    (finRay_new 0 θ) (finRay_new v φ) rfl rfl
  have e := congrArg (fun z => (g.toElem.opticalInvariantH 0 1 z [Ray.new (fin 0) (fin θ), Ray.new (fin v) (fin φ)]).1)
    (zero_eq (K := K))
  refine ⟨t, n, e1, e2, ?_⟩
  rcases e3 with e3 | ⟨e3, e4⟩
  · left
    refine e.trans (e3.trans ?_)
    simp
  · right
    refine ⟨e3, e.trans (e4.trans ?_)⟩
    simp

/-- **C35** is violated by paths that start in water (index 4/3): the axial ray has the angle 1/4, but the Lagrange invariant is reported as a quarter of the
half field of view, without the index. -/
theorem C35_lagrangeInvariant_violated :
    let path : List (Part ℚ) :=
      [.space 20 (4 / 3) none, .interface (4 / 3) 1 none none, .lens 10 (some 10), .space 20 1 none, .aperture (some 20) none ""]
    withPath path (fun g => g.axialRay.run (newTrace g)) = .ok (.ok (some (Ray.new (fin 0) (fin (1 / 4))))) ∧
    withPath path (fun g => g.mat.frontIndex) = .ok (fin (4 / 3)) ∧
    withPath path (fun g => (g.halfFieldOfView (fin (1 / 100)) (fin 10000) 60).run (newTrace g)) = .ok (.ok (fin (128723473383 / 17179869184))) ∧
    withPath path (fun g => (g.lagrangeInvariant (fin (1 / 100)) (fin 10000) 60).run (newTrace g)) =
      .ok (.ok (fin (1 / 4 * (128723473383 / 17179869184)))) := by
  refine ⟨?_, ?_, ?_, ?_⟩ <;> decide +kernel

/-- **C35**: the object height refuses negative values and is otherwise what was set; nothing else changes. -/
theorem C35_objectHeight (p : ImagingPath (Ext K)) (h : K) :
    (h < 0 → p.setObjectHeight (fin h) = (p, .error .valueError)) ∧
    (0 ≤ h → p.setObjectHeight (fin h) = ({ p with objectHeight := fin h }, .ok ())) := by
  unfold ImagingPath.setObjectHeight
  constructor
  · intro hh; simp [hh]
  · intro hh; simp [not_lt.2 hh]

/-- A path that meets the hypotheses of the theorems of C35 : a lens which is the stop, imaging 2f to 2f, and a detector
of diameter 20 in its image plane; the precision is 1/100. The field is about 20, its image too, the axial ray has the angle 1/4. -/
example :
    withPath [.space (20 : ℚ) 1 none, .lens 10 (some 10), .space 20 1 none, .aperture (some 20) none ""]
      (fun g => g.axialRay.run (newTrace g)) = .ok (.ok (some (Ray.new (fin 0) (fin (1 / 4))))) ∧
    withPath [.space (20 : ℚ) 1 none, .lens 10 (some 10), .space 20 1 none, .aperture (some 20) none ""]
      (fun g => (g.halfFieldOfView (fin (1 / 100)) (fin 10000) 60).run (newTrace g)) = .ok (.ok (fin (10729944231 / 1073741824))) ∧
    withPath [.space (20 : ℚ) 1 none, .lens 10 (some 10), .space 20 1 none, .aperture (some 20) none ""]
      (fun g => (g.imageSize (fin (1 / 100)) (fin 10000) (fin 5) 60 false).run (newTrace g)) = .ok (.ok (fin (10729944231 / 536870912))) ∧
    withPath [.space (20 : ℚ) 1 none, .lens 10 (some 10), .space 20 1 none, .aperture (some 20) none ""]
      (fun g => (g.imageSize (fin (1 / 100)) (fin 10000) (fin 5) 60 true).run (newTrace g)) = .ok (.ok (fin 5)) ∧
    withPath [.space (20 : ℚ) 1 none, .lens 10 (some 10), .space 20 1 none, .aperture (some 20) none ""]
      (fun g => (g.lagrangeInvariant (fin (1 / 100)) (fin 10000) 60).run (newTrace g)) = .ok (.ok (fin (10729944231 / 4294967296))) := by
  refine ⟨?_, ?_, ?_, ?_, ?_⟩ <;> decide +kernel

/-! ## C36 -/

/-- **C36** for every system described by a `Part`: `intermediateConjugates()` returns a list of planes `(P, M)` such that each is an
image of the entrance plane through the first elements (at any depth of nesting), not at 0; every such image is listed, up to
the tolerance 1e-3 under which the code takes two planes to be the same; and no two of them are within that tolerance. -/
theorem C36_intermediateConjugates {label : String} {ps : List (Part K)} (hv : (Part.group label ps).Valid)
    {g : Group (Ext K)} (hb : (Part.group label ps).build = .ok g.toElem) (hc : g.toElem.Clean) :
    ∃ planes : List (K × K), g.intermediateConjugates = .ok (planes.map fun q => (fin q.1, fin q.2)) ∧
      (∀ q ∈ planes, q.1 ≠ 0 ∧ ∃ i, 0 < i ∧ i ≤ (Part.group label ps).stages.length ∧
        ConjugateAfter (Part.group label ps).stages i q.1 q.2) ∧
      (∀ i P M, 0 < i → i ≤ (Part.group label ps).stages.length → P ≠ 0 →
        ConjugateAfter (Part.group label ps).stages i P M → ∃ q ∈ planes, |q.1 - P| < 1 / 1000 ∧ |q.2 - M| < 1 / 1000) ∧
      planes.Pairwise (fun p q => ¬ (|p.1 - q.1| < 1 / 1000 ∧ |p.2 - q.2| < 1 / 1000)) := by
  obtain ⟨hg, -⟩ := build_good hv hb hc
  have hst := build_stages hb
  obtain ⟨f1, f2, -⟩ := hg.flat
  have hl : leaves g.toElem.items = leaves (itemsList g.elems) := by simp [Group.toElem, Elem.items, leaves]
  unfold ItemStages at hst
  rw [hl] at hst f1 f2
  obtain ⟨new, n1, n2, n3, n4⟩ := conjugatesLoop_spec hst f1 f2 one_den
    (n := g.toElem.mat.sys.nf) ⟨Sys.one_lawful one_ne_zero, .inl ⟨one_isId 1, rfl, rfl, rfl⟩⟩ []
  have e : ∀ i P M, (∀ r, (rayBefore (Part.group label ps).stages i ((Sys.one 1).out r)).1 +
      (P - ((Sys.one (1 : K)).len + zBefore (Part.group label ps).stages i)) *
        (rayBefore (Part.group label ps).stages i ((Sys.one 1).out r)).2 = M * r.1) ↔
      ConjugateAfter (Part.group label ps).stages i P M := by
    intro i P M
    have : (Sys.one (1 : K)).len = 0 := rfl
    simp only [Sys.one_out, this, zero_add, ConjugateAfter, Prod.forall]
  refine ⟨new, ?_, ?_, ?_, ?_⟩
  · unfold Group.intermediateConjugates
    rw [transferMatricesList_leaves]
    exact n1
  · intro q hq
    obtain ⟨a, i, b, c, d⟩ := n2 q hq
    exact ⟨a, i, b, c, (e _ _ _).1 d⟩
  · intro i P M h1 h2 h3 h4
    obtain ⟨q, hq, hq'⟩ := n3 i P M h1 h2 h3 ((e _ _ _).2 h4)
    refine ⟨q, hq, ?_⟩
    rcases hq' with rfl | hq'
    · norm_num
    · exact hq'
  · exact n4 .nil

/-- The documentation example of the method: one plane, at 90 with magnification -2. -/
example : withPath [.lens 10 none, .space 30 1 none, .lens 20 none] (fun g => g.intermediateConjugates) =
    .ok (.ok [(fin 90, fin (-2))]) := by decide +kernel

/-! ## C37 -/

/-- **C37**, for every system described by a `Part`: `hasFiniteApertureDiameter()` is True iff some element, at any depth, has a finite
diameter. -/
theorem C37_hasFinite {p : Part K} {e : Elem (Ext K)} (hb : p.build = .ok e) :
    e.hasFiniteApertureDiameter = true ↔ ∃ s ∈ p.stages, s.diam ≠ none :=
  hasFinite_stages (build_stages hb)

theorem forall₂_left {α β : Type} {R : α → β → Prop} {as : List α} {bs : List β} (h : List.Forall₂ R as bs) {a : α}
    (ha : a ∈ as) : ∃ b ∈ bs, R a b := by
  induction h with
  | nil => simp at ha
  | cons h _ ih =>
    rcases List.mem_cons.1 ha with rfl | ha
    · exact ⟨_, by simp, h⟩
    · obtain ⟨b, hb, hr⟩ := ih ha
      exact ⟨b, by simp [hb], hr⟩

theorem forall₂_right {α β : Type} {R : α → β → Prop} {as : List α} {bs : List β} (h : List.Forall₂ R as bs) {b : β}
    (hb : b ∈ bs) : ∃ a ∈ as, R a b := by
  induction h with
  | nil => simp at hb
  | cons h _ ih =>
    rcases List.mem_cons.1 hb with rfl | hb
    · exact ⟨_, by simp, h⟩
    · obtain ⟨b, hb, hr⟩ := ih hb
      exact ⟨b, by simp [hb], hr⟩

/-- **C37**: `largestDiameter` is the largest finite diameter of the elements, when none of them is a `Lens` and no group is
without finite diameter. -/
theorem C37_largestDiameter_partial {p : Part K} {e : Elem (Ext K)} (hb : p.build = .ok e)
    (hl : ∀ m ∈ leaves e.items, m.NotLens) (hf : e.InnerFinite) :
    (e.largestDiameter = pinf ∧ ∀ s ∈ p.stages, s.diam = none) ∨
    ∃ M, e.largestDiameter = fin M ∧ (∃ s ∈ p.stages, s.diam = some M) ∧
      ∀ s ∈ p.stages, ∀ D, s.diam = some D → D ≤ M := by
  have hst := build_stages hb
  have hform : ∀ m ∈ leaves e.items, DiamForm m.apertureDiameter := by
    intro m hm
    obtain ⟨s, -, h⟩ := forall₂_left hst hm
    rw [DiamForm, h.diam]
    cases hd : s.diam with
    | none => exact .inl rfl
    | some D => exact .inr ⟨D, rfl, h.diam_pos D hd⟩
  rcases largest_spec e (fun m hm => ⟨hl m hm, hform m hm⟩) hf with ⟨h1, h2⟩ | ⟨M, h1, ⟨m, hm, hd⟩, h3⟩
  · left
    refine ⟨h1, fun s hs => ?_⟩
    obtain ⟨m, hm, h⟩ := forall₂_right hst hs
    have := h2 m hm
    rw [h.diam] at this
    cases hd : s.diam with
    | none => rfl
    | some D => rw [hd] at this; simp [optInf] at this
  · right
    refine ⟨M, h1, ?_, fun s hs D hD => ?_⟩
    · obtain ⟨s, hs, h⟩ := forall₂_left hst hm
      refine ⟨s, hs, ?_⟩
      rw [h.diam] at hd
      cases hd' : s.diam with
      | none => rw [hd'] at hd; simp [optInf] at hd
      | some D => rw [hd'] at hd; simpa [optInf] using hd
    · obtain ⟨m, hm, h⟩ := forall₂_right hst hs
      exact h3 m hm D (by rw [h.diam, hD]; rfl)

/-- **C37** is violated by every new `Lens`: its largest diameter is 4 whatever its diameter, and half of its diameter once it
has been displayed. -/
theorem C37_lens_violated {f D : K} {m : Mat (Ext K)} (h : mkLens (fin f) (fin D) = .ok m) :
    m.apertureDiameter = fin D ∧ m.largestDiameter = fin 4 ∧
    m.displayHalfHeight.2.largestDiameter = fin (D / 2) := by
  obtain ⟨-, -, rfl⟩ := mkLens_ok h
  refine ⟨rfl, by simp [lensMat, Mat.largestDiameter], ?_⟩
  simp [Mat.displayHalfHeight, lensMat, Mat.largestDiameter, half]

/-- **C37**: `displayHalfHeight()` is half of the diameter for every element with a finite diameter; for the others it is 4, or for a `Lens` the
height that it was last displayed with. -/
theorem C37_halfHeight (m : Mat (Ext K)) :
    (∀ D : K, m.apertureDiameter = fin D → m.displayHalfHeight.1 = fin (D / 2)) ∧
    (m.apertureDiameter = pinf → (∀ f hh, m.kind = .lens f hh → m.displayHalfHeight.1 = hh) ∧
      ((∀ f hh, m.kind ≠ .lens f hh) → m.displayHalfHeight.1 = fin 4)) := by
  have h4 : (4 : Ext K) = fin 4 := by simp
  unfold Mat.displayHalfHeight
  cases hk : m.kind <;>
    exact ⟨fun D h => by simp [h, half], fun h => ⟨fun f hh e => by simp_all, fun hn => by simp_all⟩⟩

/-- **C37** is violated by groups that contain a group without finite diameter: it counts as an element of diameter 8. -/
theorem C37_nested_violated :
    (Part.group "" [.aperture (some (5 : ℚ)) none "", .group "" [.space 10 1 none]]).build.map Elem.largestDiameter =
      .ok (fin 8) := by decide +kernel

/-- Elements that meet the hypotheses of `C37_largestDiameter_partial`. -/
example : (Part.group "" [.aperture (some (5 : ℚ)) none "", .group "" [.space 10 1 (some 7), .slab 2 3 none]]).build.map
    Elem.largestDiameter = .ok (fin 7) := by decide +kernel

end RT
