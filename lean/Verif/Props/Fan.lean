import Verif.Model.Fan
import Verif.Props.Shows
import Verif.Props.Marks
import Verif.Props.Lenses
import Mathlib.Analysis.SpecialFunctions.Trigonometric.Arctan
import Mathlib.Analysis.SpecialFunctions.Trigonometric.Bounds

/-! # C110 the fan of rays shown by default -/

set_option linter.unusedSectionVars false

namespace RT
open PyNum Ext

section generic
variable {F : Type} [PyNum F]

theorem imagesRangeNumpy_fst (H L : F) (ps : List (F × F)) (r : F × Bool) : (imagesRangeNumpy H L ps r).1 = imagesRange H L ps r.1 := by
  induction ps generalizing r with
  | nil => rfl
  | cons p ps ih =>
    obtain ⟨p, m⟩ := p
    simp only [imagesRangeNumpy, imagesRange]
    split_ifs with h1 h2
    · exact ih _
    · exact ih _
    · exact ih _

/-- The range is that of the display. -/
theorem rangeNumpy_fst (g : Group F) (hs : List F) (H : F) : (g.rangeNumpy hs H).map Prod.fst = g.imagingDisplayRange hs H := by
  unfold Group.rangeNumpy Group.imagingDisplayRange
  cases g.intermediateConjugates with
  | error x => rfl
  | ok planes =>
    simp only [Except.map, imagesRangeNumpy_fst]
    congr 2
    split_ifs <;> rfl

theorem imagesRangeNumpy_true {H L : F} {ps : List (F × F)} {r : F × Bool} (h : (imagesRangeNumpy H L ps r).2 = true) : imagesRangeNumpy H L ps r = r := by
  have stays : ∀ (ps : List (F × F)) (r : F × Bool), r.2 = false → (imagesRangeNumpy H L ps r).2 = false := by
    intro ps
    induction ps with
    | nil => exact fun _ h => h
    | cons p ps ih =>
      intro r h
      simp only [imagesRangeNumpy]
      split_ifs
      · exact ih _ rfl
      · exact ih _ h
      · exact ih _ h
  induction ps generalizing r with
  | nil => rfl
  | cons p ps ih =>
    obtain ⟨p, m⟩ := p
    simp only [imagesRangeNumpy] at h ⊢
    split_ifs at h ⊢ with h1 h2
    · rw [stays _ _ rfl] at h; cases h
    · exact ih h
    · exact ih h

/-- The range is a number of numpy only when it is the size of the largest graphic, larger than the object. -/
theorem rangeNumpy_true {g : Group F} {hs : List F} {H R : F} (h : g.rangeNumpy hs H = .ok (R, true)) :
    R = largestGraphic hs 0 ∧ (R ≤. H) = false ∧ (0 <. R) = true := by
  unfold Group.rangeNumpy at h
  cases hg : g.intermediateConjugates with
  | error x => rw [hg] at h; cases h
  | ok planes =>
    rw [hg] at h
    simp only [Except.ok.injEq] at h
    have h1 := imagesRangeNumpy_true (by rw [h])
    rw [h] at h1
    split_ifs at h1 with h2
    · cases h1
    · simp only [Prod.mk.injEq] at h1
      simp only [Bool.or_eq_true, not_or, Bool.not_eq_true] at h2
      rw [h1.1]
      exact ⟨rfl, h2.2, h1.2.symm⟩

theorem rangeNumpy_ok {g : Group F} {hs : List F} {H R : F} (h : g.imagingDisplayRange hs H = .ok R) : ∃ b, g.rangeNumpy hs H = .ok (R, b) := by
  rw [← rangeNumpy_fst] at h
  cases hr : g.rangeNumpy hs H with
  | error x => rw [hr] at h; cases h
  | ok p =>
    rw [hr] at h
    simp only [Except.map, Except.ok.injEq] at h
    subst h
    exact ⟨p.2, rfl⟩

variable [PyTrig F]

/-- **C110**: a display that succeeds is one of C72 with an angle: the one of the path when there is one, else the one computed from the height of the object that is shown. -/
theorem C110_display {hs : List F} {fuel : Nat} {s : Shower F} {rays raysList removeBlocked only limit}
    {tr : F → F → List (Ray F)} {shown s' l} (h : (s.displayFan hs fuel rays raysList removeBlocked only limit).run tr = .ok (shown, s', l)) :
    ∃ fan, (s.display (fun _ => fan) fuel rays raysList removeBlocked only limit).run tr = .ok (shown, s', l) ∧
      (hasObject (givenSources rays raysList) = false → s.fanAngle = none → s.ip.path.defaultFan hs shown.objectHeight = .ok fan) := by
  unfold Shower.displayFan at h
  unfold Shower.display
  simp only [Prog.run_bind] at h ⊢
  cases h1 : (Shower.applyLimit fuel { s with figure := s.figure.update (displayArgs removeBlocked only limit) }).run tr with
  | error x => rw [h1] at h; cases h
  | ok s1 =>
    rw [h1] at h
    dsimp only at h ⊢
    cases h2 : (s1.applyOnly fuel).run tr with
    | error x => rw [h2] at h; cases h
    | ok s2 =>
      rw [h2] at h
      simp only [Prog.run_lift, Prog.run_pure] at h ⊢
      cases h3 : s2.objectFan hs (givenSources rays raysList) with
      | error x => rw [h3] at h; cases h
      | ok fan =>
        rw [h3] at h
        simp only [Except.ok.injEq] at h
        refine ⟨fan, by rw [h], fun hno hnone => ?_⟩
        obtain ⟨-, -, -, f4⟩ := finish_figure (fun _ => fan) s2 (givenSources rays raysList)
        rw [h] at f4
        dsimp only at f4
        have e1 : s1.fanAngle = s.fanAngle ∧ s1.ip.path = s.ip.path := by
          by_cases hl : (s.figure.update (displayArgs removeBlocked only limit)).params.limitObjectToFieldOfView = true
          · obtain ⟨fov, -, a, -, b, -⟩ := applyLimit_true hl h1
            exact ⟨b, by rw [a]; split <;> rfl⟩
          · rw [applyLimit_false (by simpa using hl)] at h1
            simp only [Except.ok.injEq] at h1
            subst h1
            exact ⟨rfl, rfl⟩
        obtain ⟨e2, e3, -⟩ := applyOnly_ip h2
        unfold Shower.objectFan at h3
        rw [hno, e3, e1.1, hnone] at h3
        simp only [Bool.false_eq_true, if_false] at h3
        rw [f4, ← e1.2, ← e2]
        exact h3

/-- **C110**: `displayWithObject` shows one object of the diameter asked for, at the entrance of the path, and its rays open by the angle asked for, or by the one computed
from that diameter when none is. -/
theorem C110_with_object {hs : List F} (fuel : Nat) (s : Shower F) {v : F} {angle : Option F} {fan : F}
    (hf : (∃ a, angle = some a ∧ fan = a) ∨ (angle = none ∧ s.ip.path.defaultFan hs v = .ok fan)) (H T : Nat) (rb : Bool) (tr : F → F → List (Ray F)) :
    ∃ shown s' o, (s.displayWithObjectFan hs fuel v angle H T rb).run tr = .ok (shown, s', shown.sources) ∧ shown.sources = [o] ∧ o.cls = "ObjectRays" ∧
      o.diameter = v ∧ o.halfAngle = fan ∧ o.z = 0 ∧ o.H = H ∧ o.T = T ∧ shown.objectHeight = v ∧ s'.ip.objectHeight = v := by
  have h2 : ∀ x : Shower F, x.figure.params.onlyPrincipalAndAxialRays = false → (x.applyOnly fuel).run tr = .ok x := by
    intro x hx
    unfold Shower.applyOnly
    rw [hx]
    rfl
  have h3 : ∀ x : Shower F, x.objectFan hs (givenSources (some (Source.object v fan 0 H T)) none) = .ok 0 := fun x => rfl
  unfold Shower.displayWithObjectFan Shower.displayFan
  simp only [Prog.run_bind, Prog.run_lift]
  rcases hf with ⟨a, rfl, rfl⟩ | ⟨rfl, h⟩
  · dsimp only
    rw [applyLimit_false (by rw [params_update]; rfl)]
    dsimp only
    rw [h2 _ (by rw [params_update]; rfl)]
    dsimp only
    rw [h3]
    exact ⟨_, _, _, rfl, rfl, rfl, rfl, rfl, rfl, rfl, rfl, rfl, rfl⟩
  · dsimp only
    rw [h]
    dsimp only
    rw [applyLimit_false (by rw [params_update]; rfl)]
    dsimp only
    rw [h2 _ (by rw [params_update]; rfl)]
    dsimp only
    rw [h3]
    exact ⟨_, _, _, rfl, rfl, rfl, rfl, rfl, rfl, rfl, rfl, rfl, rfl⟩

/-- **C110** is violated: `displayWithObject` raises what the computation of the angle raises. -/
theorem C110_violated_raises {hs : List F} {s : Shower F} {x : PyErr} {v : F} (h : s.ip.path.defaultFan hs v = .error x) (fuel : Nat)
    (H T : Nat) (rb : Bool) (tr : F → F → List (Ray F)) :
    (s.displayWithObjectFan hs fuel v none H T rb).run tr = .error x := by
  unfold Shower.displayWithObjectFan
  simp only [Prog.run_bind, Prog.run_lift, h]

end generic

section exact
variable {K : Type} [Field K] [LinearOrder K] [IsStrictOrderedRing K] [PyTrig (Ext K)]

/-- The angle, for a path of any length but 0. -/
theorem defaultFan_eq {g : Group (Ext K)} {hs : List (Ext K)} {H : Ext K} {R L : K} (hL : g.mat.L = fin L) (hL0 : L ≠ 0) (hR : g.imagingDisplayRange hs H = .ok (fin R)) :
    g.defaultFan hs H = .ok (PyTrig.tan (fin (R / (10 * L)))) := by
  obtain ⟨b, hb⟩ := rangeNumpy_ok hR
  unfold Group.defaultFan
  rw [hb, hL]
  have h0 : ((fin L : Ext K) ==. 0) = false := by simpa using hL0
  have h5 : (5 : Ext K) = fin 5 := by change fin _ = _; norm_num
  have hh : half (fin R : Ext K) = fin (R / 2) := by simp [half]
  simp only [bind, Except.bind, divideBy, h0, Bool.and_false, pyDiv, Bool.false_eq_true, if_false, pure, Except.pure, hh, h5, rawDiv_fin]
  rw [show R / 2 / L / 5 = R / (10 * L) by field_simp; ring]

/-- **C110** is violated: when the path has no length, the computation raises `ZeroDivisionError` unless the graphic of an element gives the range. -/
theorem C110_violated_zero {g : Group (Ext K)} {hs : List (Ext K)} {H : Ext K} (hL : g.mat.L = fin 0) {R : Ext K} (hR : g.rangeNumpy hs H = .ok (R, false)) :
    g.defaultFan hs H = .error .zeroDivisionError := by
  unfold Group.defaultFan
  rw [hR, hL]
  simp [bind, Except.bind, divideBy, pyDiv]

/-- **C110** is violated: when the path has no length and the range is that of the object or of an image, larger than all graphics, `ZeroDivisionError` is raised. -/
theorem C110_violated_large {g : Group (Ext K)} {hs : List (Ext K)} {H R : Ext K} (hL : g.mat.L = fin 0) (hR : g.imagingDisplayRange hs H = .ok R)
    (h : R ≠ largestGraphic hs 0) : g.defaultFan hs H = .error .zeroDivisionError := by
  obtain ⟨b, hb⟩ := rangeNumpy_ok hR
  cases b with
  | false => exact C110_violated_zero hL hb
  | true => exact absurd (rangeNumpy_true hb).1 h

/-- When the graphic of an element gives the range, the angle is the tangent of an infinite number. -/
theorem defaultFan_numpy {g : Group (Ext K)} {hs : List (Ext K)} {H : Ext K} (hL : g.mat.L = fin 0) {R : Ext K} (hR : g.rangeNumpy hs H = .ok (R, true)) :
    g.defaultFan hs H = .ok (PyTrig.tan pinf) := by
  have h5 : (5 : Ext K) = fin 5 := by change fin _ = _; norm_num
  unfold Group.defaultFan
  rw [hR, hL]
  simp [bind, Except.bind, divideBy, pure, Except.pure, h5, infOf]

end exact

section real

theorem tan_le_two_mul {x : ℝ} (h0 : 0 ≤ x) (h1 : x ≤ 1) : Real.tan x ≤ 2 * x := by
  have hc : 1 / 2 ≤ Real.cos x := by
    have := Real.one_sub_sq_div_two_le_cos (x := x)
    nlinarith
  rw [Real.tan_eq_sin_div_cos, div_le_iff₀ (by linarith)]
  have := Real.sin_le h0
  nlinarith

/-- **C110**: for a path of length `L` and a display of range `R`: when `0 < R < 5πL`, the angle is positive and a ray rises by more than a tenth of the range over the length of the
path; when `R ≤ 10 L`, by no more than a fifth. -/
theorem C110_angle_partial {g : Group (Ext ℝ)} {hs : List (Ext ℝ)} {H : Ext ℝ} {R L : ℝ} (hL : g.mat.L = fin L) (hL0 : 0 < L)
    (hR : g.imagingDisplayRange hs H = .ok (fin R)) (hR0 : 0 < R) (hR1 : R < 5 * Real.pi * L) :
    ∃ a, g.defaultFan hs H = .ok (fin a) ∧ 0 < a ∧ R / 10 < L * a ∧ (R ≤ 10 * L → L * a ≤ R / 5) := by
  refine ⟨Real.tan (R / (10 * L)), defaultFan_eq hL hL0.ne' hR, ?_, ?_, fun h => ?_⟩
  · refine Real.tan_pos_of_pos_of_lt_pi_div_two (by positivity) ?_
    rw [div_lt_iff₀ (by positivity)]; linarith
  · have := Real.lt_tan (x := R / (10 * L)) (by positivity) (by rw [div_lt_iff₀ (by positivity)]; linarith)
    have h2 : R / 10 = L * (R / (10 * L)) := by field_simp
    rw [h2]
    exact mul_lt_mul_of_pos_left this hL0
  · have := tan_le_two_mul (x := R / (10 * L)) (by positivity) (by rw [div_le_iff₀ (by positivity)]; linarith)
    have h2 : R / 5 = L * (2 * (R / (10 * L))) := by field_simp; norm_num
    rw [h2]
    exact mul_le_mul_of_nonneg_left this hL0.le

/-- A largest magnification, or 1. -/
theorem largest_plane (L : ℝ) (planes : List (ℝ × ℝ)) : ∃ c : ℝ, 1 ≤ c ∧ (∀ q ∈ planes, 0 ≤ q.1 → q.1 ≤ L → |q.2| ≤ c) ∧
    (c = 1 ∨ ∃ q ∈ planes, 0 ≤ q.1 ∧ q.1 ≤ L ∧ c = |q.2|) := by
  induction planes with
  | nil => exact ⟨1, le_refl _, by simp, .inl rfl⟩
  | cons q qs ih =>
    obtain ⟨c, h1, h2, h3⟩ := ih
    by_cases hq : (0 ≤ q.1 ∧ q.1 ≤ L) ∧ c < |q.2|
    · refine ⟨|q.2|, h1.trans hq.2.le, fun x hx a b => ?_, .inr ⟨q, by simp, hq.1.1, hq.1.2, rfl⟩⟩
      rcases List.mem_cons.1 hx with rfl | hx
      · exact le_refl _
      · exact (h2 x hx a b).trans hq.2.le
    · refine ⟨c, h1, fun x hx a b => ?_, h3.imp id fun ⟨x, hx, hy⟩ => ⟨x, by simp [hx], hy⟩⟩
      rcases List.mem_cons.1 hx with rfl | hx
      · by_contra hlt
        exact hq ⟨⟨a, b⟩, not_le.1 hlt⟩
      · exact h2 x hx a b

theorem map_fin_inj {l l' : List (ℝ × ℝ)} (h : l.map (fun q => ((fin q.1 : Ext ℝ), (fin q.2 : Ext ℝ))) = l'.map fun q => (fin q.1, fin q.2)) : l = l' := by
  refine List.map_injective_iff.2 (fun a b hab => ?_) h
  simp only [Prod.mk.injEq, fin.injEq] at hab
  exact Prod.ext hab.1 hab.2

/-- **C110** is violated by every path with a length: whatever the angle, negative or as large as one likes, it is the one of the default fan for some height of the object. -/
theorem C110_violated_any {label : String} {ps : List (Part ℝ)} (hv : (Part.group label ps).Valid) {g : Group (Ext ℝ)}
    (hb : (Part.group label ps).build = .ok g.toElem) (hc : g.toElem.Clean) (hL : 0 < totalLength (Part.group label ps).stages) (hs : List ℝ) (a : ℝ) :
    ∃ H : ℝ, 0 < H ∧ g.defaultFan (hs.map fin) (fin H) = .ok (fin a) := by
  obtain ⟨hg, -⟩ := build_good hv hb hc
  set L := totalLength (Part.group label ps).stages with hLdef
  have hLe : g.mat.L = fin L := by
    rw [hLdef, ← hg.total (build_stages hb)]; exact hg.den.L
  obtain ⟨planes, R0, p1, -⟩ := C75_range hv hb hc hs (le_refl (0 : ℝ))
  obtain ⟨c, c1, c2, c3⟩ := largest_plane L planes
  obtain ⟨m, hm⟩ : ∃ m : ℝ, ∀ h ∈ hs, 2 * h ≤ m := by
    clear p1 c1 c2 c3
    induction hs with
    | nil => exact ⟨0, by simp⟩
    | cons h hs ih =>
      obtain ⟨m, hm⟩ := ih
      refine ⟨max m (2 * h), fun x hx => ?_⟩
      rcases List.mem_cons.1 hx with rfl | hx
      · exact le_max_right _ _
      · exact (hm x hx).trans (le_max_left _ _)
  obtain ⟨k, hk⟩ := exists_nat_gt ((max m 0 / (10 * L) - Real.arctan a) / Real.pi)
  have hpi := Real.pi_pos
  rw [div_lt_iff₀ hpi] at hk
  set x := Real.arctan a + k * Real.pi with hx
  have hxm : max m 0 < 10 * L * x := by
    have : max m 0 / (10 * L) < x := by rw [hx]; linarith
    rwa [div_lt_iff₀ (by positivity), mul_comm] at this
  have hT : 0 < 10 * L * x := lt_of_le_of_lt (le_max_right m 0) hxm
  have hc0 : 0 < c := lt_of_lt_of_le one_pos c1
  refine ⟨10 * L * x / c, by positivity, ?_⟩
  obtain ⟨planes', R, q1, q2, q3, q4, q5, q6⟩ := C75_range hv hb hc hs (H := 10 * L * x / c) (by positivity)
  have hpl : planes' = planes := map_fin_inj (by rw [p1] at q1; simpa using q1.symm)
  subst hpl
  have hH : 0 ≤ 10 * L * x / c := by positivity
  have hRT : R = 10 * L * x := by
    refine le_antisymm (q6 _ (fun h hh => (hm h hh).trans ((le_max_left m 0).trans hxm.le)) ?_ fun q hq a b => ?_) ?_
    · rw [div_le_iff₀ hc0]; nlinarith
    · rw [abs_mul, abs_of_nonneg hH]
      calc |q.2| * (10 * L * x / c) ≤ c * (10 * L * x / c) := mul_le_mul_of_nonneg_right (c2 q hq a b) hH
        _ = 10 * L * x := by field_simp
    · rcases c3 with c3 | ⟨q, hq, a, b, c3⟩
      · rw [c3, div_one] at q4; exact q4
      · have := q5 q hq a b
        rw [abs_mul, abs_of_nonneg hH, ← c3] at this
        calc 10 * L * x = c * (10 * L * x / c) := by field_simp
          _ ≤ R := this
  rw [defaultFan_eq hLe hL.ne' q2, tan_fin, hRT]
  have : 10 * L * x / (10 * L) = x := by field_simp
  rw [this, hx, Real.tan_add_nat_mul_pi, Real.tan_arctan]

/-- **C110** is violated by every path without a length when the graphic of an element gives the range: the angle is not a number. -/
theorem C110_violated_nan {g : Group (Ext ℝ)} {hs : List (Ext ℝ)} {H : Ext ℝ} (hL : g.mat.L = fin 0) {R : Ext ℝ} (hR : g.rangeNumpy hs H = .ok (R, true)) :
    g.defaultFan hs H = .ok nan := defaultFan_numpy hL hR

end real

section examples

local instance fanTrig : PyTrig (Ext ℚ) := ⟨id, id, id, id⟩

/-- A lens alone, 8 high, and an object of height 10, then of height 5: the range is that of the object, then that of the lens. -/
example : withPath [.lens (5 : ℚ) none] (fun g => (g.mat.L, g.rangeNumpy [fin 4] (fin 10), g.rangeNumpy [fin 4] (fin 5))) =
    .ok (fin 0, .ok (fin 10, false), .ok (fin 8, true)) := by decide +kernel

/-- The first cannot be displayed. -/
example : withPath [.lens (5 : ℚ) none] (fun g => g.defaultFan [fin 4] (fin 10)) = .ok (.error .zeroDivisionError) := by decide +kernel

/-- Two lenses 10 apart: the range is 10, a tenth of which is less than the length. -/
example : withPath [.lens (5 : ℚ) none, .space 10 1 none, .lens 5 none] (fun g => (g.mat.L, g.imagingDisplayRange [fin 4, fin 4] (fin 10))) =
    .ok (fin 10, .ok (fin 10)) := by decide +kernel

end examples

/-- The hypotheses of `C110_violated_any` are met by a space, a lens with a diameter and a space. -/
example : ∃ e, (Part.group "" [.space (10 : ℝ) 1 none, .lens 20 (some 5), .space 3 1 none]).build = .ok e ∧ e.Clean ∧
    (Part.group "" [.space (10 : ℝ) 1 none, .lens 20 (some 5), .space 3 1 none]).Valid := by
  refine simple_group (K := ℝ) (fun p hp => ?_) ""
  simp only [List.mem_cons, List.not_mem_nil, or_false] at hp
  rcases hp with rfl | rfl | rfl
  · exact .space _ _ diamOk_pinf
  · exact .lens _ (by norm_num) (by simp [DiamOk, optInf])
  · exact .space _ _ diamOk_pinf

end RT
