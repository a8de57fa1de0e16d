import Verif.Model.Stops
import Verif.Props.Imaging
import Verif.Props.Derived
import Verif.Props.Outline

/-! # C85: the stops, the entrance pupil, the principal and axial rays of a figure -/

set_option linter.unusedSectionVars false

namespace RT
open PyNum Ext
variable {K : Type} [Field K] [LinearOrder K] [IsStrictOrderedRing K]

theorem stopsLabels_run {g : Group (Ext K)} {tr : Ext K → Ext K → List (Ray (Ext K))} {R p H : Ext K} {fuel : Nat}
    {ls : List (String × Ext K × Ext K)} (h : (g.stopsLabels R p H fuel).run tr = .ok ls) :
    ∃ a f, g.apertureStop.run tr = .ok a ∧ (g.fieldStop p H fuel).run tr = .ok f ∧
      ls = (a.1.toList.map fun z => ("AS", z, half R * lit (11 / 10))) ++ f.1.toList.map fun z => ("FS", z, half R * lit (11 / 10)) := by
  unfold Group.stopsLabels at h
  rw [Prog.run_bind] at h
  cases ha : g.apertureStop.run tr with
  | error x => rw [ha] at h; simp at h
  | ok a =>
    rw [ha] at h
    dsimp only at h
    rw [Prog.run_bind] at h
    cases hf : (g.fieldStop p H fuel).run tr with
    | error x => rw [hf] at h; simp at h
    | ok f =>
      rw [hf] at h
      simp only [Prog.run_pure, Except.ok.injEq] at h
      refine ⟨a, f, rfl, rfl, ?_⟩
      rw [← h]
      cases a.1 <;> cases f.1 <;> rfl

/-- What a text says of a figure: it is written once at most, at `x`, at the height `y`. -/
def WrittenAt (ls : List (String × Ext K × Ext K)) (text : String) (x y : K) : Prop :=
  ls.filter (fun l => l.1 == text) = [(text, fin x, fin y)]

/-- **C85** (aperture stop): in the figure of a path whose finite openings are thin, without acceptance angles, "AS" is written once, 10 % above
the half range, at the opening that limits the light of the axial point of the object: a ray from there is blocked by the path if and only if
it is higher than that opening. (Or no ray from there is ever blocked and it is written at the object.) -/
theorem C85_aperture {label : String} {ps : List (Part K)} {g : Group (Ext K)}
    (hb : (Part.group label ps).build = .ok g.toElem) {ss : List (Stage K)} (hss : ss = (Part.group label ps).stages)
    (hfin : ∃ s ∈ ss, s.diam ≠ none) (ht : ThinOpenings ss) (hna : NoNA ss) (hopen : ¬ Blocked ss (0, 1 / 10))
    {R : K} {p H : Ext K} {fuel : Nat} {ls : List (String × Ext K × Ext K)}
    (h : (g.stopsLabels (fin R) p H fuel).run (newTrace g) = .ok ls) :
    (WrittenAt ls "AS" 0 (R / 2 * (11 / 10)) ∧ ∀ θ, ¬ Blocked ss (0, θ)) ∨
    ∃ (i : Nat) (s : Stage K) (D : K), ss[i]? = some s ∧ s.diam = some D ∧
      WrittenAt ls "AS" (zBefore ss i) (R / 2 * (11 / 10)) ∧
      ∀ θ, Blocked ss (0, θ) ↔ D / 2 < |(rayBefore ss i (0, θ)).1| := by
  obtain ⟨a, f, h1, -, rfl⟩ := stopsLabels_run h
  have e : (half (fin R) * lit (11 / 10) : Ext K) = fin (R / 2 * (11 / 10)) := by rw [half_num, lit_eq]; simp
  rw [e]
  have hw : ∀ z : K, a.1 = some (fin z) → WrittenAt
      ((a.1.toList.map fun z => ("AS", z, fin (R / 2 * (11 / 10)))) ++ f.1.toList.map fun z => ("FS", z, fin (R / 2 * (11 / 10)))) "AS" z
      (R / 2 * (11 / 10)) := by
    intro z hz
    unfold WrittenAt
    rw [hz]
    cases f.1 <;> simp
  rcases C30_apertureStop_open_partial hb hss hfin ht hna hopen with ⟨h2, h3⟩ | ⟨i, s, D, h2, h3, h4, h5⟩
  · rw [h1] at h2
    refine .inl ⟨hw 0 ?_, h3⟩
    injection h2 with h2; rw [h2]
  · rw [h1] at h4
    refine .inr ⟨i, s, D, h2, h3, hw _ ?_, h5⟩
    injection h4 with h4; rw [h4]

/-- **C85** (field stop): in the figure of a path with thin openings whose chief rays exist and are blocked beyond the height `Y`, not smaller than
37.5 times the precision `p`: "FS" is written once, 10 % above the half range, at the element that is the first to block a chief ray starting less
than `2 p` above `Y`; or it is not written and `Y` is more than about 2/3 of the largest height. -/
theorem C85_field [Archimedean K] {label : String} {ps : List (Part K)} {g : Group (Ext K)}
    (h : HasChiefs label ps g) (ht : ThinOpenings (Part.group label ps).stages) {p H Y R : K} (hp : 0 < p)
    (hY : ∀ y θ, IsChief g y θ → (Blocked (Part.group label ps).stages (y, θ) ↔ Y < |y|)) (hYp : 75 / 2 * p ≤ Y) :
    ∃ N, ∀ fuel, N ≤ fuel → ∃ ls, (g.stopsLabels (fin R) (fin p) (fin H) fuel).run (newTrace g) = .ok ls ∧
      ((2 / 3 * H - 100 * p < Y ∧ ∀ l ∈ ls, l.1 ≠ "FS") ∨
      ∃ y θ i s, IsChief g y θ ∧ Y < y ∧ y ≤ Y + 2 * p ∧ StopsFirst (Part.group label ps).stages (y, θ) i s ∧
        WrittenAt ls "FS" (zBefore (Part.group label ps).stages i + s.len) (R / 2 * (11 / 10))) := by
  obtain ⟨κ, z, D, -, -, -, hs, -, -, -⟩ := h.facts
  obtain ⟨N, hN⟩ := C34_fieldStop_partial (H := H) h ht hp hY hYp
  have e : (half (fin R) * lit (11 / 10) : Ext K) = fin (R / 2 * (11 / 10)) := by rw [half_num, lit_eq]; simp
  refine ⟨N, fun fuel hfuel => ?_⟩
  rcases hN fuel hfuel with ⟨h1, h2⟩ | ⟨y, θ, i, s, h1, h2, h3, h4, h5⟩
  · refine ⟨[("AS", fin z, fin (R / 2 * (11 / 10)))], ?_, .inl ⟨h1, by simp⟩⟩
    unfold Group.stopsLabels
    simp only [Prog.run_bind, hs, h2, e, Prog.run_pure, List.append_nil]
  · refine ⟨[("AS", fin z, fin (R / 2 * (11 / 10))),
      ("FS", fin (zBefore (Part.group label ps).stages i + s.len), fin (R / 2 * (11 / 10)))], ?_, .inr ⟨y, θ, i, s, h1, h2, h3, h4, ?_⟩⟩
    · unfold Group.stopsLabels
      simp only [Prog.run_bind, hs, h5, e, Prog.run_pure]
      rfl
    · unfold WrittenAt; simp

/-- **C85** (no stop): the figure of a path without finite diameter has no label, no pupil, no arrows and no principal or axial rays. -/
theorem C85_no_stop {label : String} {ps : List (Part K)} {g : Group (Ext K)}
    (hb : (Part.group label ps).build = .ok g.toElem) (hfin : ∀ s ∈ (Part.group label ps).stages, s.diam = none) (R p H : Ext K) (fuel : Nat) :
    (g.stopsLabels R p H fuel).run (newTrace g) = .ok [] ∧ g.pupilGraphic.run (newTrace g) = .ok none ∧
    (g.principalAndAxial p H fuel).run (newTrace g) = .ok ([], []) := by
  have h1 := C30_no_stop hb hfin (newTrace g)
  have h2 := C32_no_stop hb hfin
  have hf : ¬ hasFiniteApertureList g.elems = true := by
    have := (hasFinite_stages (build_stages hb)).not.2 (by push Not; exact hfin)
    exact this
  refine ⟨?_, ?_, ?_⟩
  · unfold Group.stopsLabels Group.fieldStop
    simp only [Prog.run_bind, h1, hf, Bool.false_and, Bool.false_eq_true, if_false, Prog.run_pure]
    rfl
  · unfold Group.pupilGraphic
    simp only [Prog.run_bind, h2, Prog.run_pure]
  · unfold Group.principalAndAxial
    simp only [Prog.run_bind, h1, Prog.run_pure]

theorem bars_height {E : K} (hE : 0 ≤ E) (x h : Ext K) : Graphic.halfHeight h ⟨x, [.bars (fin E) 0 0]⟩ = .ok (fin E) := by
  obtain ⟨w, hw⟩ : ∃ w : K, (barEnds 0 0 : Ext K × Ext K) = (fin (-w), fin w) := by
    refine ⟨5 / 1000, ?_⟩
    unfold barEnds
    simp only [lit_eq, zero_eq]
    simp
  have e : barsCurves (fin E) 0 0 = ([.line (-w, E) (w, E), .line (-w, -E) (w, -E)] : List (Curve K)).map Curve.lift := by
    unfold barsCurves
    rw [hw]
    simp [Curve.lift, pt]
  obtain ⟨s, h1, h2, h3, h4⟩ := C83_halfHeight (K := K) (comps := [[.line (-w, E) (w, E), .line (-w, -E) (w, -E)]]) (by simp)
  have : s = E := by
    have a := h3 _ List.mem_cons_self _ List.mem_cons_self (-w, E) (by simp [Curve.ends, Curve.start, Curve.stop])
    rw [abs_of_nonneg hE] at a
    rcases h4 with h4 | ⟨c, hc, k, hk, p, hp, h4⟩
    · linarith
    · simp only [List.mem_cons, List.not_mem_nil, or_false] at hc
      subst hc
      simp only [List.mem_cons, List.not_mem_nil, or_false] at hk
      rcases hk with rfl | rfl <;> simp only [Curve.ends, Curve.start, Curve.stop, List.mem_cons, List.not_mem_nil, or_false] at hp <;>
        rcases hp with rfl | rfl <;> simp [abs_of_nonneg hE] at h4 <;> exact h4
  unfold Graphic.halfHeight
  simp only [List.map_cons, List.map_nil, Comp.curves, e]
  rw [this] at h1
  exact h1

theorem half_pinf : half (pinf : Ext K) = pinf := by
  unfold half
  rw [ofNat_eq]
  show Ext.div pinf (fin _) = pinf
  simp [Ext.div, infOf]

theorem bars_infinite (x h : Ext K) : Graphic.halfHeight h ⟨x, [.bars pinf 0 0]⟩ = .error .valueError := by
  obtain ⟨w, hw0, hw⟩ : ∃ w : K, w ≠ 0 ∧ (barEnds 0 0 : Ext K × Ext K) = (fin (-w), fin w) := by
    refine ⟨5 / 1000, by norm_num, ?_⟩
    unfold barEnds
    simp only [lit_eq, zero_eq]
    simp
  have hw1 : ¬ (w = -w) := by intro h; apply hw0; linarith
  have hw2 : ¬ (-w = w) := by intro h; apply hw0; linarith
  have e : barsCurves (pinf : Ext K) 0 0 = [.line (fin (-w), pinf) (fin w, pinf), .line (fin (-w), ninf) (fin w, ninf)] := by
    unfold barsCurves
    rw [hw]
    rfl
  unfold Graphic.halfHeight halfHeightOf
  simp only [List.map_cons, List.map_nil, Comp.curves, e]
  simp [halfHeightLoop, cornersOf, Curve.xy, insertPt, ptEq, hw1, hw2, pyMaxFrom, bind, Except.bind, throw, throwThe, MonadExceptOf.throw]

/-- **C85** (entrance pupil) for systems described by a `Part` whose stop, at `z`, has the finite diameter `D` and is not inside a black box, in front
index 1: `A y + B θ` being the height at the stop of the ray that starts at `(y, θ)`, with `A ≠ 0`: the pupil is drawn as two bars, such that a ray gets
inside the stop if and only if it is aimed between the bars, and the graphic is as high as they are. -/
theorem C85_pupil {label : String} {ps : List (Part K)} (hv : (Part.group label ps).Valid)
    (hn : (Part.group label ps).NonNeg) {g : Group (Ext K)} (hb : (Part.group label ps).build = .ok g.toElem)
    (hc : g.toElem.Clean) {z D : K} (hs : g.apertureStop.run (newTrace g) = .ok (some (fin z), fin D))
    (hvis : Visible (Part.group label ps).prims z)
    (hair : ∀ t, g.transferMatrix (fin z) = .ok t → t.frontIndex = fin 1) :
    ∃ A B : K, (∀ y θ, ∃ θ', rayAt (Part.group label ps).prims z (y, θ) = some (A * y + B * θ, θ')) ∧
      (A ≠ 0 → ∃ P E : K, 0 < E ∧ g.pupilGraphic.run (newTrace g) = .ok (some ⟨fin P, [.bars (fin E) 0 0]⟩) ∧
        (∀ y θ, |A * y + B * θ| ≤ D / 2 ↔ |y + P * θ| ≤ E) ∧
        ∀ h, Graphic.halfHeight h ⟨fin P, [.bars (fin E) 0 0]⟩ = .ok (fin E)) := by
  obtain ⟨A, B, h1, h2, -⟩ := C32_entrancePupil_partial hv hn hb hc hs hvis hair
  refine ⟨A, B, h1, fun hA => ?_⟩
  obtain ⟨P, E, h3, h4, -, h5⟩ := h2 hA
  refine ⟨P, E / 2, by linarith, ?_, h5, fun h => ?_⟩
  · unfold Group.pupilGraphic
    simp only [Prog.run_bind, h3, Prog.run_pure, half_num]
  · exact bars_height (by linarith) _ _

/-- **C85** is violated by object-space telecentric systems (the stop at the back focal plane of what precedes it, `A = 0`): with
`showEntrancePupil` the figure cannot be drawn, `ValueError`. -/
theorem C85_violated_pupil {label : String} {ps : List (Part K)} (hv : (Part.group label ps).Valid)
    (hn : (Part.group label ps).NonNeg) {g : Group (Ext K)} (hb : (Part.group label ps).build = .ok g.toElem)
    (hc : g.toElem.Clean) {z D : K} (hs : g.apertureStop.run (newTrace g) = .ok (some (fin z), fin D))
    (hvis : Visible (Part.group label ps).prims z)
    (hair : ∀ t, g.transferMatrix (fin z) = .ok t → t.frontIndex = fin 1)
    (hA : ∀ y, ∃ θ', rayAt (Part.group label ps).prims z (y, 0) = some (0, θ')) :
    ∃ p : Graphic (Ext K), g.pupilGraphic.run (newTrace g) = .ok (some p) ∧ ∀ h, p.halfHeight h = .error .valueError := by
  obtain ⟨A, B, h1, -, h2⟩ := C32_entrancePupil_partial hv hn hb hc hs hvis hair
  have h0 : A = 0 := by
    obtain ⟨θ1, e1⟩ := h1 1 0
    obtain ⟨θ2, e2⟩ := hA 1
    rw [e1] at e2
    simp at e2
    exact e2.1
  refine ⟨⟨ninf, [.bars pinf 0 0]⟩, ?_, fun h => ?_⟩
  · unfold Group.pupilGraphic
    simp only [Prog.run_bind, h2 h0, Prog.run_pure]
    rw [half_pinf]
  · exact bars_infinite _ _

/-- **C85** (principal and axial rays) for paths of valid parts whose stop, at a visible position `z`, has the finite diameter `D`: `A y + B θ` being the
height at the stop of the ray that starts at `(y, θ)`. If the rays of an object point do not all meet at the stop (`|B| ≥ 1e-5`), and the half field of
view is the finite `h`, two rays are shown: the principal ray starts at `h` and crosses the axis at the stop, the axial ray starts on the axis and touches
the edge of the stop. The arrow of the object ends where the principal ray starts, and the arrow of each image ends where the principal ray is. -/
theorem C85_principal {label : String} {ps : List (Part K)} (hv : (Part.group label ps).Valid)
    (hn : (Part.group label ps).NonNeg) {g : Group (Ext K)} (hb : (Part.group label ps).build = .ok g.toElem)
    (hc : g.toElem.Clean) {z D : K} (hs : g.apertureStop.run (newTrace g) = .ok (some (fin z), fin D))
    (hvis : Visible (Part.group label ps).prims z) :
    ∃ A B : K, (∀ y θ, ∃ θ', rayAt (Part.group label ps).prims z (y, θ) = some (A * y + B * θ, θ')) ∧
      (1 / 100000 ≤ |B| → ∀ (p H : Ext K) (fuel : Nat) (h : K), (g.halfFieldOfView p H fuel).run (newTrace g) = .ok (fin h) →
        ∃ (θ α : K) (images : List (K × K)), (g.principalAndAxial p H fuel).run (newTrace g) =
          .ok ((fin (2 * h), fin 0) :: images.map (fun q => (fin q.1, fin q.2)), [Ray.new (fin h) (fin θ), Ray.new (fin 0) (fin α)]) ∧
        A * h + B * θ = 0 ∧ 0 < α ∧ |B * α| = D / 2 ∧
        ∀ q ∈ images, ∃ i, 0 < i ∧ i ≤ (Part.group label ps).stages.length ∧
          (rayBefore (Part.group label ps).stages i (h, θ)).1 +
            (q.2 - zBefore (Part.group label ps).stages i) * (rayBefore (Part.group label ps).stages i (h, θ)).2 = q.1 / 2) := by
  obtain ⟨c1, -⟩ := C31_rays_partial hv hn hb hc hs
  obtain ⟨A, B, h1, -, h3⟩ := c1 hvis
  obtain ⟨B', k1, -, k3⟩ := C35_axialRay hv hn hb hc hs hvis
  have hBB : B' = B := by
    obtain ⟨θ1, e1⟩ := h1 0 1
    obtain ⟨θ2, e2⟩ := k1 1
    rw [e1] at e2
    simp at e2
    exact e2.1.symm
  subst hBB
  refine ⟨A, B', h1, fun hB p H fuel h hh => ?_⟩
  obtain ⟨⟨θ, e1, e2⟩, -⟩ := h3 hB h
  obtain ⟨e3, e4, e5⟩ := k3 hB
  obtain ⟨images, i1, i2⟩ := C83_tips hv hb hc (2 * h)
  rw [zero_eq] at i1
  refine ⟨θ, _, images, ?_, e2, e4, e5, ?_⟩
  · have hp := (C35_principalRay g p H fuel).1 h hh
    have h2 : (fin h * 2 : Ext K) = fin (2 * h) := by rw [ofNat_eq, fin_mul_fin]; congr 1; ring
    unfold Group.principalAndAxial
    simp only [Prog.run_bind, hs, hp, e1, e3, Prog.run_lift]
    simp only [Ray.new, h2, i1, Prog.run_pure, zero_eq, Option.toList, List.cons_append, List.nil_append]
  · intro q hq
    obtain ⟨i, a1, a2, a3⟩ := i2 q hq
    refine ⟨i, a1, a2, ?_⟩
    have := a3 θ
    rwa [mul_div_cancel_left₀ h (two_ne_zero)] at this

/-- A 4f system with an iris between the lenses, telecentric on both sides. -/
def fourF : List (Part ℚ) :=
  [.space 100 1 none, .lens 100 (some 50), .space 100 1 none, .aperture (some 10) none "", .space 100 1 none, .lens 100 (some 50), .space 100 1 none]

/-- The figure of a 4f system, which meets the hypotheses of the theorems above: the stops are the iris and the first lens; the principal ray, near the edge of
the first lens, and the axial ray are shown, with the object and its inverted image; the pupil is at infinity, so that the figure cannot show it. -/
example : ThinOpenings (Part.group "" fourF).stages ∧ NoNA (Part.group "" fourF).stages ∧ (Part.group "" fourF).Valid ∧ (Part.group "" fourF).NonNeg ∧
    Visible (Part.group "" fourF).prims 200 ∧ withPath fourF (fun g => g.toElem.cleanB) = .ok true ∧
    (∀ y, ∃ θ', rayAt (Part.group "" fourF).prims 200 (y, 0) = some (0, θ')) ∧
    withPath fourF (fun g => g.apertureStop.run (newTrace g)) = .ok (.ok (some (fin 200), fin 10)) ∧
    withPath fourF (fun g => (g.stopsLabels (fin 60) (fin (1/10)) (fin 1000) 60).run (newTrace g)) =
      .ok (.ok [("AS", fin 200, fin 33), ("FS", fin 100, fin 33)]) ∧
    withPath fourF (fun g => (g.pupilGraphic).run (newTrace g)) = .ok (.ok (some ⟨ninf, [.bars pinf 0 0]⟩)) ∧
    withPath fourF (fun g => ((g.principalAndAxial (fin (1/10)) (fin 1000) 60).run (newTrace g)).map fun r =>
      (r.1, r.2.map fun x => (x.y, x.theta))) =
      .ok (.ok ([(fin (13394494155 / 268435456), fin 0), (fin (-13394494155 / 268435456), fin 400)],
        [(fin (13394494155 / 536870912), fin 0), (fin 0, fin (1 / 20))])) := by
  refine ⟨?_, ?_, ?_, ?_, ?_, by decide +kernel, ?_, by decide +kernel, by decide +kernel, by decide +kernel, by decide +kernel⟩
  · simp [fourF, ThinOpenings, Part.stages, Part.stagesList, Sys.stage, Sys.space, Sys.lens, Sys.one]
  · simp [fourF, NoNA, Part.stages, Part.stagesList, Sys.stage]
  · simp [fourF, Part.Valid, Part.ValidList]
  · simp [fourF, Part.NonNeg, Part.NonNegList]
  · norm_num [fourF, Part.prims, Part.primsList, Visible]
  · intro y
    refine ⟨-y / 100, ?_⟩
    norm_num [fourF, Part.prims, Part.primsList, rayAt, Sys.one, Sys.outY, Sys.outθ, Prim.out]
    simp only [Sys.lens]
    constructor <;> ring

/-- With the iris nearer, the pupil is virtual, twice as large, and drawn. -/
example : withPath [.space 100 1 none, .lens 100 (some 50), .space 50 1 none, .aperture (some 5) none ""]
    (fun g => (g.pupilGraphic).run (newTrace g)) = .ok (.ok (some ⟨fin 200, [.bars (fin 5) 0 0]⟩)) := by decide +kernel

end RT
