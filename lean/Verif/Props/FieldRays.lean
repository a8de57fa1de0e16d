import Verif.Props.StopsThick
import Verif.Props.Derived
import Verif.Props.Beam

/-! # C34, C35, C40: whether a path has a field stop, the chief ray without a height, and beams made from both a complex radius and a size -/

set_option linter.unusedSectionVars false

namespace RT
open PyNum Ext
variable {K : Type} [Field K] [LinearOrder K] [IsStrictOrderedRing K]

/-- `hasFieldStop()`, when chief rays are blocked beyond the height `Y`, answers yes only when a chief ray is blocked less than twice the precision above `Y`, and no only when `Y` is
more than about 2/3 of the largest height searched; when no chief ray is blocked it answers no. -/
theorem C34_has [Archimedean K] {label : String} {ps : List (Part K)} {g : Group (Ext K)} (h : HasChiefs label ps g) {ss : List (Stage K)}
    (hss : ss = (Part.group label ps).stages) {p H : K} (hp : 0 < p) :
    (∀ Y, (∀ y θ, IsChief g y θ → (Blocked ss (y, θ) ↔ Y < |y|)) → 75 / 2 * p ≤ Y →
      ∃ N, ∀ fuel, N ≤ fuel → ∃ b, (g.hasFieldStop (fin p) (fin H) fuel).run (newTrace g) = .ok b ∧
        (b = true → ∃ y θ, IsChief g y θ ∧ Blocked ss (y, θ) ∧ y ≤ Y + 2 * p) ∧ (b = false → 2 / 3 * H - 100 * p < Y)) ∧
    ((∀ y θ, IsChief g y θ → ¬ Blocked ss (y, θ)) →
      ∃ N, ∀ fuel, N ≤ fuel → (g.hasFieldStop (fin p) (fin H) fuel).run (newTrace g) = .ok false) := by
  refine ⟨fun Y hY hYp => ?_, fun hY => ?_⟩
  · obtain ⟨N, hN⟩ := C34_fieldStop_all h hss (H := H) hp hY hYp
    refine ⟨N, fun fuel hf => ?_⟩
    unfold Group.hasFieldStop
    simp only [Prog.run_bind]
    rcases hN fuel hf with ⟨h1, h2⟩ | ⟨y, θ, i, s, h1, h2, h3, -, h4⟩
    · rw [h2]
      exact ⟨false, rfl, by simp, fun _ => h1⟩
    · rw [h4]
      refine ⟨true, ?_, fun _ => ⟨y, θ, h1, (hY y θ h1).2 (h2.trans_le (le_abs_self y)), h3⟩, by simp⟩
      split_ifs <;> rfl
  · subst hss
    obtain ⟨N, hN⟩ := C34_open h (H := H) hp hY
    refine ⟨N, fun fuel hf => ?_⟩
    unfold Group.hasFieldStop
    simp only [Prog.run_bind]
    rw [(hN fuel hf).1]
    rfl

/-- `chiefRay()` without a height is the chief ray from the half field of view; when this is infinite it raises `ValueError`. -/
theorem C35_noHeight {label : String} {ps : List (Part K)} {g : Group (Ext K)} (h : HasChiefs label ps g) (p H : Ext K) (fuel : Nat) :
    (∀ v, (g.halfFieldOfView p H fuel).run (newTrace g) = .ok (fin v) →
      ∃ θ, IsChief g v θ ∧ (g.chiefRayOfField p H fuel).run (newTrace g) = .ok (some (Ray.new (fin v) (fin θ)))) ∧
    ((g.halfFieldOfView p H fuel).run (newTrace g) = .ok pinf → (g.chiefRayOfField p H fuel).run (newTrace g) = .error .valueError) ∧
    (∀ x, (g.halfFieldOfView p H fuel).run (newTrace g) = .error x → (g.chiefRayOfField p H fuel).run (newTrace g) = .error x) := by
  have key : ∃ m d, g.toStop.run (newTrace g) = .ok (some (m, d)) := by
    obtain ⟨θ, hθ⟩ := h.chief 0
    unfold IsChief Group.chiefRay at hθ
    simp only [Prog.run_bind] at hθ
    rcases hs : g.toStop.run (newTrace g) with x | _ | ⟨m, d⟩
    · rw [hs] at hθ; simp [bind, Except.bind] at hθ
    · rw [hs] at hθ; simp [bind, Except.bind] at hθ
    · exact ⟨m, d, rfl⟩
  obtain ⟨m, d, hs⟩ := key
  have key : (g.chiefRayOfField p H fuel).run (newTrace g) = ((g.halfFieldOfView p H fuel).run (newTrace g)).bind fun y =>
      Prog.run (newTrace g) (if PyNum.abs y ==. inf then Prog.raise .valueError else do
        let theta ← Prog.lift (pyDiv (-m.A * y) m.B)
        pure (some (Ray.new y theta))) := by
    unfold Group.chiefRayOfField
    rw [Prog.run_bind, hs]
    change Prog.run _ (Bind.bind (g.halfFieldOfView p H fuel) _) = _
    rw [Prog.run_bind]
    cases (g.halfFieldOfView p H fuel).run (newTrace g) <;> rfl
  refine ⟨fun v hv => ?_, fun hv => ?_, fun x hv => ?_⟩
  · obtain ⟨θ, hθ⟩ := h.chief v
    refine ⟨θ, hθ, ?_⟩
    unfold IsChief Group.chiefRay at hθ
    rw [Prog.run_bind, hs] at hθ
    rw [key, hv]
    dsimp only [Except.bind] at hθ ⊢
    rw [if_neg (by simp)]
    exact hθ
  · rw [key, hv]
    dsimp only [Except.bind]
    rw [if_pos (by simp)]
    rfl
  · rw [key, hv]
    rfl

theorem Cx.abs_of (z : ℂ) : Cx.abs (Cx.of z) = fin ‖z‖ := by
  unfold Cx.abs Cx.of
  simp only [fin_mul_fin, fin_add_fin, sqrt_fin]
  rw [Complex.norm_def, Complex.normSq_apply]

/-- **C40**: the radius of curvature of any beam is the inverse of the real part of 1/q, and infinite when this is 0 or when q is 0. -/
theorem C40_curvature (q : ℂ) (wl z n : Ext ℝ) (c : Bool) :
    (⟨Cx.of q, wl, z, n, c⟩ : Beam (Ext ℝ)).R = .ok (if q.re = 0 then inf else fin (Complex.normSq q / q.re)) := by
  by_cases h : q = 0
  · have : (⟨Cx.of q, wl, z, n, c⟩ : Beam (Ext ℝ)).q.isZero = true := (Cx.isZero_of q).2 h
    rw [Beam.R, if_pos this, h]; simp
  · have : ¬ (⟨Cx.of q, wl, z, n, c⟩ : Beam (Ext ℝ)).q.isZero = true := fun hz => h ((Cx.isZero_of q).1 hz)
    have hn : Complex.normSq q ≠ 0 := fun e => h (Complex.normSq_eq_zero.1 e)
    have h1 : (1 / q).re = q.re / Complex.normSq q := by simp
    have e1 : Cx.div (Cx.ofReal (1 : Ext ℝ)) (Cx.of q) = .ok (Cx.of (1 / q)) := by
      rw [← Cx.div_of 1 h]; congr 1; simp [Cx.ofReal, Cx.of]
    have e2 : (Cx.of (1 / q)).re = fin (q.re / Complex.normSq q) := by rw [← h1]; rfl
    rw [Beam.R, if_neg this, e1]
    simp only [bind, Except.bind, e2]
    by_cases h2 : q.re = 0
    · simp [h2, pure, Except.pure]
    · have h3 : q.re / Complex.normSq q ≠ 0 := div_ne_zero h2 hn
      have h4 : ((fin (q.re / Complex.normSq q) : Ext ℝ) ==. 0) = false := by rw [zero_eq, eq_fin]; simpa using h3
      rw [h4, one_eq, pyDiv_fin _ _ h3, if_neg h2, one_div_div]
      simp

/-- A beam made from both a complex radius and a size is accepted exactly when the complex radius of the size is within half a percent of the one given, of either of them; the beam
then has the complex radius of the size. A complex radius of 0 is a `ZeroDivisionError`. -/
theorem C40_both {w n wl : ℝ} (hw : 0 < w) (hn : 0 < n) (hl : 0 < wl) (R : Option ℝ) (hR : ∀ r ∈ R, r ≠ 0) (z : Ext ℝ) (q0 : ℂ) :
    ∃ b, Beam.new none (some (fin w)) (optInf R) (fin n) (fin wl) z = .ok b ∧ ∃ q : ℂ, b.q = Cx.of q ∧
      Beam.new (some (Cx.of q0)) (some (fin w)) (optInf R) (fin n) (fin wl) z =
        if q0 = 0 then .error .zeroDivisionError
        else if ‖q - q0‖ < 1 / 200 * ‖q‖ ∨ ‖q - q0‖ < 1 / 200 * ‖q0‖ then .ok b else .error .valueError := by
  have hp := Real.pi_pos
  obtain ⟨k, hk⟩ : ∃ k, pyDiv (1 : Ext ℝ) (optInf R) = .ok (fin k) := by
    cases R with
    | none => exact ⟨0, by rw [one_eq]; exact pyDiv_pinf 1⟩
    | some r => exact ⟨r⁻¹, by rw [one_eq, optInf, pyDiv_fin _ _ (hR r rfl)]; simp⟩
  set v : ℝ := wl / n / (Real.pi * w * w) with hv
  have hv0 : 0 < v := by positivity
  have hne : (k - (v : ℂ) * Complex.I : ℂ) ≠ 0 := by
    intro h0
    have := congrArg Complex.im h0
    simp at this
    linarith
  have hq := qOf_eq hw hn hl hk
  rw [← hv] at hq
  set q : ℂ := 1 / (k - (v : ℂ) * Complex.I) with hqd
  have hq0 : q ≠ 0 := by rw [hqd]; exact one_div_ne_zero hne
  refine ⟨⟨Cx.of q, fin wl, z, fin n, false⟩, ?_, q, rfl, ?_⟩
  · simp only [Beam.new]
    rw [hq]
    rfl
  · simp only [Beam.new]
    rw [hq]
    simp only [bind, Except.bind, Beam.relativelyNotEqual, Cx.sub_of, Cx.abs_of]
    rw [pyDiv_fin _ _ (norm_ne_zero_iff.2 hq0)]
    by_cases h0 : q0 = 0
    · subst h0
      rw [if_pos rfl]
      simp [pyDiv_zero]
    · rw [if_neg h0]
      dsimp only
      rw [pyDiv_fin _ _ (norm_ne_zero_iff.2 h0)]
      have e1 : ‖q - q0‖ / ‖q‖ < 1 / 200 ↔ ‖q - q0‖ < 1 / 200 * ‖q‖ := div_lt_iff₀ (norm_pos_iff.2 hq0)
      have e2 : ‖q - q0‖ / ‖q0‖ < 1 / 200 ↔ ‖q - q0‖ < 1 / 200 * ‖q0‖ := div_lt_iff₀ (norm_pos_iff.2 h0)
      have e3 : (!((fin (‖q - q0‖ / ‖q‖) <. (lit (5 / 1000) : Ext ℝ)) || (fin (‖q - q0‖ / ‖q0‖) <. lit (5 / 1000)))) =
          !decide (‖q - q0‖ < 1 / 200 * ‖q‖ ∨ ‖q - q0‖ < 1 / 200 * ‖q0‖) := by
        have e4 : (lit (5 / 1000) : Ext ℝ) = fin (1 / 200) := by rw [lit_eq]; norm_num
        rw [e4, lt_fin, lt_fin, Bool.decide_or, decide_eq_decide.2 e1, decide_eq_decide.2 e2]
      dsimp only [pure, Except.pure]
      rw [e3]
      by_cases h : ‖q - q0‖ < 1 / 200 * ‖q‖ ∨ ‖q - q0‖ < 1 / 200 * ‖q0‖
      · rw [decide_eq_true h, if_pos h]; rfl
      · rw [decide_eq_false h, if_neg h]; rfl

/-- Both cases of `C40_both` occur for every size: the complex radius of the size itself, and twice it. -/
example {q : ℂ} (hq : q ≠ 0) : ‖q - q‖ < 1 / 200 * ‖q‖ ∧ ¬ (‖q - 2 * q‖ < 1 / 200 * ‖q‖ ∨ ‖q - 2 * q‖ < 1 / 200 * ‖2 * q‖) := by
  have h := norm_pos_iff.2 hq
  have e : q - 2 * q = -q := by ring
  rw [sub_self, norm_zero, e, norm_neg, norm_mul]
  refine ⟨by positivity, not_or.2 ⟨by linarith, ?_⟩⟩
  rw [Complex.norm_two]
  linarith

end RT
