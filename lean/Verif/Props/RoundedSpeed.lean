import Verif.Props.RoundedChief
import Verif.Props.RoundedCardinal
import Verif.Props.RoundedInvariant
import Verif.Props.RoundedField
import Mathlib.Analysis.SpecialFunctions.Trigonometric.Bounds

/-! # C119: f-number, numerical aperture and Lagrange invariant in floats -/

set_option linter.unusedSectionVars false

namespace RT
open PyNum Ext Fl
variable {K : Type} [Field K] [LinearOrder K] [IsStrictOrderedRing K]
variable {rnd : K → K} {u : K}

/-- **C119.** The f-number `x` computed in floats: `x` times the diameter `D` of the stop is the focal length times the size of the stop seen from the object
(the height at the stop of a ray parallel to the axis of height 1, in exact numbers), up to the errors; and the focal length used is the exact one up to the errors. -/
theorem C119_fNumber (hr : Rounding rnd u) {label : String} {ps : List (Part K)} {p : Part K} (hp : p = Part.group label ps) {g : Group (Fl K rnd)}
    (hb : p.buildR rnd = .ok g.toElem) {e' : Elem (Ext K)} (hb' : p.build = .ok e') {S : K} (hS : 0 ≤ S) (hS1 : p.Slope S (1, 0)) (hS2 : p.Slope S (0, 1))
    (hfin : ∃ s ∈ p.rstages, s.exact.diam ≠ none) (hd : Decided u 1 p.rstages (0, 1 / 10) (0, 1 / 10))
    (hsome : ∃ o ∈ probeExits p.rstages, o.err u < o.ratio) (hpow : g.mat.hasPower = true) {n1 n2 : K} (hn1 : g.mat.frontIndex = num n1)
    (hn2 : g.mat.backIndex = num n2) (hn : n2 ≠ 0) {N : Fl K rnd} (h : g.fNumber.run (newTrace g) = .ok (some N)) :
    ∃ t D eA eB, StopAt u S p t D eA eB ∧ (|(exactOut t (1, 0)).1| ≤ eA ∨ ∃ x f c, N = num x ∧ e'.mat.C = fin c ∧
      |f * c + n1 / n2| ≤ relErr u 2 * |n1 / n2| + |f| * p.err u p.rmat.maj.c ∧
      |x * D - |(exactOut t (1, 0)).1| * f| ≤ relErr u 1 * (|(exactOut t (1, 0)).1| * |f| + |x| * D) +
        (relErr u 2 * (|(exactOut t (1, 0)).1| + eA) + eA) * ((1 + relErr u 1) * |f|)) := by
  unfold Group.fNumber at h
  simp only [Prog.run_bind, Prog.run_lift] at h
  cases hpu : g.entrancePupil.run (newTrace g) with
  | error x => rw [hpu] at h; cases h
  | ok o =>
    rw [hpu] at h
    dsimp only at h
    obtain ⟨⟨a', a, hA, hA', ea⟩, -, ⟨c', c, hC, hC', ec⟩, ⟨d', d, hD, hD', ed⟩, ⟨l', l, hL, hL', el⟩⟩ := C96_matrix hr hb hb'
    have hC2 : g.mat.C = num c' := hC
    have hc := power_ne_zero hr hC2 hpow
    obtain ⟨f1, f2, hf, ⟨f, rfl, -, hf1⟩, -⟩ := focal_near hr (m := g.mat) ⟨hA, hC, hD, hL, hn1, hn2⟩ hpow hn
    rw [hf] at h
    dsimp only at h
    cases o with
    | none => simp only [Prog.run_pure, Except.ok.injEq, reduceCtorEq] at h
    | some pd =>
      obtain ⟨pos, diam⟩ := pd
      obtain ⟨t, D, eA, eB, hst, heA, hcase⟩ := C108_pupil hr hp hb hS hS1 hS2 hfin hd hsome hpu
      refine ⟨t, D, eA, eB, hst, hcase.imp_right ?_⟩
      rintro ⟨x0, d0, rfl, rfl, -, hdiam⟩
      simp only [Prog.run_bind, Prog.run_lift, Prog.run_pure] at h
      cases hq : pyDiv (num f : Fl K rnd) (num d0) with
      | error x => rw [hq] at h; cases h
      | ok q =>
        rw [hq] at h
        obtain ⟨hd0, rfl⟩ := pyDiv_back hr hq
        simp only [Except.ok.injEq, Option.some.injEq] at h
        have k1 := quot_back hr (x := f) (x' := f) (y := d0) hd0 (k := 0) le_rfl (by simp [relErr])
        rw [Nat.zero_add] at k1
        refine ⟨_, f, c, h.symm, hC', ?_, ?_⟩
        · change |c' - c| ≤ p.err u p.rmat.maj.c at ec
          have e1 : f * c + n1 / n2 = (f - -(n1 / n2) / c') * c' + -(f * (c' - c)) := by field_simp; ring
          rw [e1]
          refine (abs_add_le _ _).trans (add_le_add ?_ ?_)
          · rw [abs_mul]
            refine (mul_le_mul_of_nonneg_right hf1 (abs_nonneg _)).trans (le_of_eq ?_)
            have := abs_pos.2 hc
            field_simp
          · rw [abs_neg, abs_mul]
            exact mul_le_mul_of_nonneg_left ec (abs_nonneg _)
        · set x := rnd (f / d0) with hx
          set A0 := |(exactOut t (1, 0)).1| with hA0
          set κ := relErr u 2 * (A0 + eA) + eA with hκ
          have e1 : x * D - A0 * f = A0 * (d0 * x - f) - x * (A0 * d0 - D) := by ring
          have k2 : |x| * |d0| ≤ (1 + relErr u 1) * |f| := by
            rw [← abs_mul, mul_comm x d0]
            have := abs_sub_abs_le_abs_sub (d0 * x) f
            linarith
          have hA0n : 0 ≤ A0 := abs_nonneg _
          have k3 : |A0 * (d0 * x - f)| ≤ A0 * (relErr u 1 * |f|) := by
            rw [abs_mul, abs_of_nonneg hA0n]; exact mul_le_mul_of_nonneg_left k1 hA0n
          have k4 : |x * (A0 * d0 - D)| ≤ |x| * (relErr u 1 * D + κ * |d0|) := by
            rw [abs_mul]; exact mul_le_mul_of_nonneg_left hdiam (abs_nonneg _)
          have hκ0 : 0 ≤ κ := add_nonneg (mul_nonneg (relErr_nonneg hr.nonneg 2) (add_nonneg hA0n heA)) heA
          have k5 : κ * (|x| * |d0|) ≤ κ * ((1 + relErr u 1) * |f|) := mul_le_mul_of_nonneg_left k2 hκ0
          rw [e1]
          refine (abs_sub _ _).trans ?_
          have : |x| * (relErr u 1 * D + κ * |d0|) = relErr u 1 * (|x| * D) + κ * (|x| * |d0|) := by ring
          linarith

/-- the angle of the axial ray of a path with a stop -/
theorem axial_angle (hr : Rounding rnd u) {label : String} {ps : List (Part K)} {p : Part K} (hp : p = Part.group label ps) {g : Group (Fl K rnd)}
    (hb : p.buildR rnd = .ok g.toElem) {S : K} (hS : 0 ≤ S) (hS1 : p.Slope S (1, 0)) (hS2 : p.Slope S (0, 1))
    (hfin : ∃ s ∈ p.rstages, s.exact.diam ≠ none) (hd : Decided u 1 p.rstages (0, 1 / 10) (0, 1 / 10))
    (hsome : ∃ o ∈ probeExits p.rstages, o.err u < o.ratio) {r : Ray (Fl K rnd)} (h : g.axialRay.run (newTrace g) = .ok (some r)) :
    ∃ t D eA eB θ θ', StopAt u S p t D eA eB ∧ r = Ray.new 0 (num θ) ∧ θ' ≤ θ ∧
      |(|(exactOut t (0, 1)).1|) * θ - D / 2| ≤ 3 * (relErr u 3 * (D / 2)) + eB * (2 * |θ| + |θ'|) := by
  unfold Group.axialRay at h
  simp only [Prog.run_bind] at h
  cases hm : (g.marginalRays 0).run (newTrace g) with
  | error x => rw [hm] at h; cases h
  | ok o =>
    rw [hm] at h
    cases o with
    | none => simp only [Prog.run_pure, Except.ok.injEq, reduceCtorEq] at h
    | some rr =>
      obtain ⟨r1, r2⟩ := rr
      simp only [Prog.run_pure, Except.ok.injEq, Option.some.injEq] at h
      rw [zero_num hr] at hm
      obtain ⟨t, D, eA, eB, θ1, θ2, hst, rfl, rfl, hle, e, he, k1, k2⟩ := C108_marginal hr hp hb hS hS1 hS2 hfin hd hsome hm
      refine ⟨t, D, eA, eB, θ1, θ2, hst, by rw [← zero_num hr] at h; exact h.symm, hle, ?_⟩
      have hD : 0 < D := by
        obtain ⟨o, ho, -, h1, -⟩ := hst
        exact rexits_pos (buildR_stages hr hb).2 o ho D h1
      rw [(exactOut_linear t 0 θ1).1] at k1
      rw [(exactOut_linear t 0 θ2).1] at k2
      simp only [abs_zero, mul_zero, add_zero, zero_mul, zero_add] at k1 k2
      set B0 := (exactOut t (0, 1)).1
      obtain ⟨k1a, k1b⟩ := abs_le.1 k1
      obtain ⟨k2a, k2b⟩ := abs_le.1 k2
      have key : ∀ b : K, b * θ2 ≤ b * θ1 → (b = |B0|) → ∀ e1 : K, (e1 = D / 2 ∨ e1 = -(D / 2)) → |b * θ1 - e1| ≤ relErr u 3 * (D / 2) + eB * |θ1| →
          |b * θ2 - -e1| ≤ relErr u 3 * (D / 2) + eB * |θ2| → |b * θ1 - D / 2| ≤ 3 * (relErr u 3 * (D / 2)) + eB * (2 * |θ1| + |θ2|) := by
        intro b hb1 _ e1 he1 j1 j2
        have n1 := (abs_nonneg _).trans j1
        have n2 := (abs_nonneg _).trans j2
        obtain ⟨j1a, j1b⟩ := abs_le.1 j1
        obtain ⟨j2a, j2b⟩ := abs_le.1 j2
        rw [abs_le]
        rcases he1 with rfl | rfl
        · constructor <;> linarith
        · constructor <;> linarith
      rcases le_total 0 B0 with h0 | h0
      · rw [abs_of_nonneg h0] at key ⊢
        refine key B0 (mul_le_mul_of_nonneg_left hle h0) rfl e he ?_ ?_
        · rw [mul_comm]; exact k1
        · rw [mul_comm]; exact k2
      · rw [abs_of_nonpos h0] at key ⊢
        refine key (-B0) (mul_le_mul_of_nonneg_left hle (by linarith)) rfl (-e) (by rcases he with rfl | rfl <;> simp) ?_ ?_
        · rw [← abs_neg]
          have : -(-B0 * θ1 - -e) = θ1 * B0 - e := by ring
          rw [this]; exact k1
        · rw [← abs_neg]
          have : -(-B0 * θ2 - - -e) = θ2 * B0 - -e := by ring
          rw [this]; exact k2

/-- **C119.** The numerical aperture in floats is the index times the sine of the half angle under which the stop is seen from the axis of the object, up to the errors.
The function sine used has an error of at most `es`. -/
theorem C119_NA {rnd : ℝ → ℝ} {u : ℝ} (hr : Rounding rnd u) {label : String} {ps : List (Part ℝ)} {p : Part ℝ} (hp : p = Part.group label ps)
    {g : Group (Fl ℝ rnd)} (hb : p.buildR rnd = .ok g.toElem) {S : ℝ} (hS : 0 ≤ S) (hS1 : p.Slope S (1, 0)) (hS2 : p.Slope S (0, 1))
    (hfin : ∃ s ∈ p.rstages, s.exact.diam ≠ none) (hd : Decided u 1 p.rstages (0, 1 / 10) (0, 1 / 10))
    (hsome : ∃ o ∈ probeExits p.rstages, o.err u < o.ratio) {n : ℝ} (hn : g.mat.frontIndex = num n) {sinF : Fl ℝ rnd → Fl ℝ rnd} {es : ℝ}
    (hsin : ∀ x, ∃ s, sinF (num x) = num s ∧ |s - Real.sin x| ≤ es) {N : Fl ℝ rnd} (h : (g.NA sinF).run (newTrace g) = .ok N) :
    ∃ t D eA eB θ θ' x, StopAt u S p t D eA eB ∧ N = num x ∧ g.axialRay.run (newTrace g) = .ok (some (Ray.new 0 (num θ))) ∧ θ' ≤ θ ∧
      ((exactOut t (0, 1)).1 ≠ 0 → |x - n * Real.sin (D / (2 * |(exactOut t (0, 1)).1|))| ≤
        |n| * (u * (1 + es) + es + (3 * (relErr u 3 * (D / 2)) + eB * (2 * |θ| + |θ'|)) / |(exactOut t (0, 1)).1|)) := by
  unfold Group.NA at h
  simp only [Prog.run_bind] at h
  cases hm : g.axialRay.run (newTrace g) with
  | error x => rw [hm] at h; cases h
  | ok o =>
    rw [hm] at h
    cases o with
    | none => simp only [Prog.run_raise, reduceCtorEq] at h
    | some r =>
      obtain ⟨t, D, eA, eB, θ, θ', hst, rfl, hle, k⟩ := axial_angle hr hp hb hS hS1 hS2 hfin hd hsome hm
      obtain ⟨s, hs, hse⟩ := hsin θ
      have hθ : (Ray.new 0 (num θ) : Ray (Fl ℝ rnd)).theta = num θ := rfl
      simp only [Prog.run_pure, Except.ok.injEq, hn, hθ, hs, num_mul] at h
      refine ⟨t, D, eA, eB, θ, θ', _, hst, h.symm, rfl, hle, fun hB => ?_⟩
      have hBp : 0 < |(exactOut t (0, 1)).1| := abs_pos.2 hB
      generalize |(exactOut t (0, 1)).1| = B0 at *
      have k1 : |θ - D / (2 * B0)| ≤ (3 * (relErr u 3 * (D / 2)) + eB * (2 * |θ| + |θ'|)) / B0 := by
        rw [le_div_iff₀ hBp]
        have e1 : |θ - D / (2 * B0)| * B0 = |B0 * θ - D / 2| := by
          have h1 : (θ - D / (2 * B0)) * B0 = B0 * θ - D / 2 := by field_simp
          rw [← h1, abs_mul, abs_of_pos hBp]
        rw [e1]; exact k
      have k2 := Real.abs_sin_sub_sin_le θ (D / (2 * B0))
      have k3 := hr.rel (n * s)
      have k4 : |s| ≤ 1 + es := by
        have h1 := abs_sub_abs_le_abs_sub s (Real.sin θ)
        have h2 := Real.abs_sin_le_one θ
        linarith
      have k5 : |n * s - n * Real.sin (D / (2 * B0))| ≤ |n| * (es + (3 * (relErr u 3 * (D / 2)) + eB * (2 * |θ| + |θ'|)) / B0) := by
        rw [← mul_sub, abs_mul]
        refine mul_le_mul_of_nonneg_left ?_ (abs_nonneg _)
        have := abs_sub_le s (Real.sin θ) (Real.sin (D / (2 * B0)))
        linarith
      have k6 : u * |n * s| ≤ |n| * (u * (1 + es)) := by
        rw [abs_mul]
        have := mul_le_mul_of_nonneg_left k4 (mul_nonneg hr.nonneg (abs_nonneg n))
        linarith
      have := abs_sub_le (rnd (n * s)) (n * s) (n * Real.sin (D / (2 * B0)))
      linarith

/-- **C119.** The Lagrange invariant in floats of a path in air is the product of the angle of the axial ray and the half field of view, up to the errors. -/
theorem C119_lagrange (hr : Rounding rnd u) {label : String} {ps : List (Part K)} (ha : (Part.group label ps).InAir) {g : Group (Fl K rnd)}
    (hb : (Part.group label ps).buildR rnd = .ok g.toElem) {θ y : K} {precision maxHeight : Fl K rnd} {fuel : ℕ} {r2 : Ray (Fl K rnd)}
    (h1 : g.axialRay.run (newTrace g) = .ok (some (Ray.new 0 (num θ))))
    (h2 : (g.halfFieldOfView precision maxHeight fuel).run (newTrace g) = .ok (num y))
    (h3 : (g.chiefRay (num y)).run (newTrace g) = .ok (some r2)) {φ : K} (h4 : r2 = Ray.new (num y) (num φ))
    {m : Mat (Fl K rnd)} (hm : g.transferMatrix (num 0) = .ok m) :
    ∃ x v s n, (g.lagrangeInvariant precision maxHeight fuel).run (newTrace g) = .ok (num x) ∧ (Part.group label ps).UpTo v s ∧
      (n * s.exact.dt = 1 ∨ n = 1) ∧ |x - θ * y| ≤ 2 * relErr u (2 * s.ops + 7) * (|n| * s.invMaj 0 θ y φ) := by
  subst h4
  obtain ⟨x, v, s, n, k1, k2, -, k3, k4⟩ := C116_value hr ha hb (z := 0) le_rfl (m := m) hm
    (h := [Ray.new 0 (num θ), Ray.new (num y) (num φ)]) (a1 := 0) (a2 := 1) (by simp) (y1 := 0) (θ1 := θ) (y2 := y) (θ2 := φ)
    (by rw [← zero_num hr]; rfl) rfl rfl rfl rfl rfl
  refine ⟨x, v, s, n, ?_, k2, k3, ?_⟩
  · have hp : (g.principalRay precision maxHeight fuel).run (newTrace g) = .ok (some (Ray.new (num y) (num φ))) := by
      unfold Group.principalRay
      simp only [Prog.run_bind, h2]
      have : ((num y : Fl K rnd) ==. inf) = false := rfl
      rw [this]
      exact h3
    unfold Group.lagrangeInvariant
    simp only [Prog.run_bind, h1, hp, Prog.run_lift]
    rw [zero_num hr] at *
    rw [k1]
  · simpa using k4

/-- what is computed from a path, for examples -/
def speedOf (p : Part ℚ) : Except PyErr (Except PyErr (Option Double) × Except PyErr (Option Double)) :=
  withFloats p fun g => (g.fNumber.run (newTrace g), (g.axialRay.run (newTrace g)).map fun r => r.map (·.theta))

/-- `[Space(10), Lens(f=10, diameter=3)]` -/
def oneLens (K : Type) [Field K] : Part K := .group "" [.space 10 1 none, .lens 10 (some 3)]

theorem oneLens_meets {v : K} (h0 : 0 ≤ v) (h1 : v ≤ 1 / 1000) : (oneLens K).Slope 1 (1, 0) ∧ (oneLens K).Slope 1 (0, 1) ∧
    (∃ s ∈ (oneLens K).rstages, s.exact.diam ≠ none) ∧ Decided v 1 (oneLens K).rstages (0, 1 / 10) (0, 1 / 10) ∧
    (∃ o ∈ probeExits (oneLens K).rstages, o.err v < o.ratio) := by
  have r3 := relErr_small h0 h1 (k := 3) (by norm_num)
  have r7 := relErr_small h0 h1 (k := 7) (by norm_num)
  refine ⟨?_, ?_, ?_, ?_, ?_⟩
  · simp [oneLens, Part.Slope, Part.SlopeList]
  · simp [oneLens, Part.Slope, Part.SlopeList]
  · simp [oneLens, Part.rstages, Part.rstagesList, Stage.withOps, Sys.stage]
  · simp [oneLens, Part.rstages, Part.rstagesList, Decided, Stage.withOps, Stage.abs, Stage.out, Sys.stage, Sys.space]
    generalize relErr v 3 = x at r3
    right; linarith [r3.2]
  · simp [oneLens, Part.rstages, Part.rstagesList, probeExits, rexits, RExit.ratio, RExit.err, Stage.StopsEntry, Stage.Stops, Stage.withOps, Stage.abs, Stage.out, Sys.stage, Sys.space, Sys.lens]
    generalize relErr v 7 = x at r7
    linarith [r7.2]

/-- a sine that is the exact one, rounded -/
noncomputable def roundedSin (rnd : ℝ → ℝ) (x : Fl ℝ rnd) : Fl ℝ rnd :=
  match x.val with
  | .fin q => num (rnd (Real.sin q))
  | y => ⟨y⟩

/-- its error is at most `u` -/
theorem C119_sine {rnd : ℝ → ℝ} {u : ℝ} (hr : Rounding rnd u) (x : ℝ) : ∃ s, roundedSin rnd (num x) = num s ∧ |s - Real.sin x| ≤ u :=
  ⟨_, rfl, (hr.rel _).trans (mul_le_of_le_one_right hr.nonneg (Real.abs_sin_le_one x))⟩

/-- Violated to the last digit: the f-number of `[Space(10), Lens(f=49, diameter=49)]` is not 1. -/
theorem C119_violated : (speedOf (.group "" [.space 10 1 none, .lens 49 (some 49)])).map (·.1) = .ok (.ok (some (num (1 + 1 / 2 ^ 52)))) := by
  decide +kernel

/-- The hypotheses are met by `[Space(10), Lens(f=10, diameter=3)]` for all roundings with an error less than 1/1000; in Python floats its f-number is 10/3 and the
angle of its axial ray 3/20, to the last digit; and the hypotheses of `C119_lagrange` by a path with two irises. -/
theorem C119_example : (∀ {v : K}, 0 ≤ v → v ≤ 1 / 1000 → (oneLens K).Slope 1 (1, 0) ∧ (oneLens K).Slope 1 (0, 1) ∧
      (∃ s ∈ (oneLens K).rstages, s.exact.diam ≠ none) ∧ Decided v 1 (oneLens K).rstages (0, 1 / 10) (0, 1 / 10) ∧
      (∃ o ∈ probeExits (oneLens K).rstages, o.err v < o.ratio)) ∧
    withFloats (oneLens ℚ) (fun g => (g.mat.hasPower, g.mat.frontIndex, g.mat.backIndex)) = .ok (true, num 1, num 1) ∧
    speedOf (oneLens ℚ) = .ok (.ok (some (num (double (10 / 3)))), .ok (some (num (double (3 / 20))))) ∧
    (oneLens ℚ).build.toOption.isSome ∧ (twoStops 10 4 10 20).InAir ∧
    withFloats (twoStops 10 4 10 20) (fun g => ((g.axialRay.run (newTrace g)).map fun r => r.map (·.theta),
      (g.halfFieldOfView (lit (1 / 10 ^ 6)) 10000 200).run (newTrace g), (g.lagrangeInvariant (lit (1 / 10 ^ 6)) 10000 200).run (newTrace g),
      (g.transferMatrix (num 0)).isOk)) = .ok (.ok (some (num (double (1 / 5)))), .ok (num (1407374821905925 / 140737488355328)), .ok (num (281474964381185 / 140737488355328)), true) := by
  refine ⟨fun h0 h1 => oneLens_meets h0 h1, by decide +kernel, by decide +kernel, by decide +kernel, ?_, by decide +kernel⟩
  simp [twoStops, Part.InAir, Part.InAirList, OpenDiam]

end RT
