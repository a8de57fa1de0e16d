import Verif.Lemmas.RoundedSize
import Verif.Props.RoundedBend

/-! # C120: the sizes of beams in floats -/

set_option linter.unusedSectionVars false

namespace RT
open PyNum Ext Fl

variable {rnd : ℝ → ℝ} {u : ℝ}

/-! ## What is measured on a beam -/

/-- the radius of curvature of a beam, when it is finite: `R = |q|² / Re q` -/
noncomputable def beamCurve (q : ℂ) : ℝ := ‖q‖ ^ 2 / q.re

/-- the size at the waist: `w₀² = λ Im q / π` -/
noncomputable def waistSize (wl : ℝ) (q : ℂ) : ℝ := Real.sqrt (wl * q.im / Real.pi)

/-- the relative error after `k` roundings without cancellation -/
noncomputable def roundErr (u : ℝ) (k : ℕ) : ℝ := 1 / (1 - u) ^ k - 1

theorem normSq_parts (q : ℂ) : ‖q‖ ^ 2 = q.re ^ 2 + q.im ^ 2 := by
  rw [← Complex.normSq_eq_norm_sq, Complex.normSq_apply]; ring

theorem beamSize_parts {wl n : ℝ} (hn : 0 < n) {q : ℂ} (h : 0 < q.im) :
    Real.sqrt (wl / n / (Real.pi * (q.im / (q.re ^ 2 + q.im ^ 2)))) = beamSize wl n q := by
  have := Real.pi_pos
  have hs : q.re ^ 2 + q.im ^ 2 ≠ 0 := by positivity
  unfold beamSize
  have e : (-1 / q).im = q.im / (q.re ^ 2 + q.im ^ 2) := by
    rw [Complex.div_im, Complex.normSq_apply]
    simp
    ring
  rw [e, div_div, mul_assoc]

section
variable (hr : Rounding rnd u) [PyMath (Fl ℝ rnd)] (hm : FloatMath rnd)
include hr hm

/-- **C120**, the size: for every confined complex radius, wavelength and index, `w` is the exact size up to 7 roundings. -/
theorem C120_size {q : ℂ} (h : 0 < q.im) {wl n : ℝ} (hl : 0 < wl) (hn : 0 < n) (z : Fl ℝ rnd) (c : Bool) :
    ∃ w : ℝ, (Beam.mk ⟨num q.re, num q.im⟩ (num wl) z (num n) c : Beam (Fl ℝ rnd)).w = .ok (num w) ∧ 0 < w ∧
      |w - beamSize wl n q| ≤ roundErr u 7 * beamSize wl n q := by
  obtain ⟨w, h1, h2⟩ := w_tight hr hm q.re q.im h hl hn z c
  rw [beamSize_parts hn h] at h2
  have hp : 0 < beamSize wl n q := by
    rw [← beamSize_parts hn h]
    have := Real.pi_pos
    positivity
  refine ⟨w, h1, (h2.pos_iff hr).2 hp, ?_⟩
  have := h2.error hr
  rwa [abs_of_pos hp] at this

/-- **C120**, the waist: its size is exact up to 3 roundings, its position and the Rayleigh range are exact. -/
theorem C120_waist {q : ℂ} (h : 0 < q.im) {wl : ℝ} (hl : 0 < wl) (z n : Fl ℝ rnd) (c : Bool) :
    ∃ w : ℝ, (Beam.mk ⟨num q.re, num q.im⟩ (num wl) z n c : Beam (Fl ℝ rnd)).wo = .ok (some (num w)) ∧
      |w - waistSize wl q| ≤ roundErr u 3 * waistSize wl q ∧
      (Beam.mk ⟨num q.re, num q.im⟩ (num wl) z n c : Beam (Fl ℝ rnd)).waistPosition = num (-q.re) ∧
      (Beam.mk ⟨num q.re, num q.im⟩ (num wl) z n c : Beam (Fl ℝ rnd)).zo = num q.im := by
  obtain ⟨w, h1, h2⟩ := wo_tight hr hm (num q.re) q.im h hl z n c
  refine ⟨w, h1, ?_, neg_num _, rfl⟩
  have := h2.error hr
  rwa [abs_of_nonneg (Real.sqrt_nonneg _), mul_comm q.im] at this

omit hm [PyMath (Fl ℝ rnd)] in
/-- **C120**, the radius of curvature: infinite exactly when the exact one is, otherwise exact up to 8 roundings. -/
theorem C120_curvature {q : ℂ} (h : q ≠ 0) (wl z n : Fl ℝ rnd) (c : Bool) :
    (q.re = 0 → (Beam.mk ⟨num q.re, num q.im⟩ wl z n c : Beam (Fl ℝ rnd)).R = .ok inf) ∧
    (q.re ≠ 0 → ∃ r : ℝ, (Beam.mk ⟨num q.re, num q.im⟩ wl z n c : Beam (Fl ℝ rnd)).R = .ok (num r) ∧
      |r - beamCurve q| ≤ roundErr u 8 * |beamCurve q|) := by
  have h' : q.re ≠ 0 ∨ q.im ≠ 0 := by
    by_contra hh
    push Not at hh
    exact h (Complex.ext hh.1 hh.2)
  obtain ⟨h1, h2⟩ := R_tight hr q.re q.im h' wl z n c
  refine ⟨h1, fun hx => ?_⟩
  obtain ⟨r, e1, e2⟩ := h2 hx
  refine ⟨r, e1, ?_⟩
  unfold beamCurve
  rw [normSq_parts]
  exact e2.error hr

/-- **C120**, the constructor: a beam made from its size and its radius of curvature, finite or infinite, reports that size up to 24 roundings and that
radius up to 31; an infinite radius is reported exactly. -/
theorem C120_roundTrip {w n wl : ℝ} (hw : 0 < w) (hn : 0 < n) (hl : 0 < wl) (R : Option ℝ) (hR : ∀ r ∈ R, r ≠ 0) (z : Fl ℝ rnd) :
    ∃ b : Beam (Fl ℝ rnd), Beam.new none (some (num w)) ⟨optInf R⟩ (num n) (num wl) z = .ok b ∧
      (∃ w' : ℝ, b.w = .ok (num w') ∧ |w' - w| ≤ roundErr u 24 * w) ∧
      (R = none → b.R = .ok inf) ∧
      (∀ r ∈ R, ∃ r' : ℝ, b.R = .ok (num r') ∧ |r' - r| ≤ roundErr u 31 * |r|) := by
  have hpi := Real.pi_pos
  obtain ⟨a, b, X, Y, h1, ta, tb, hb, tX, tY⟩ := qOf_tight hr hm hw hn hl R hR
  have hs : 0 < a ^ 2 + b ^ 2 := by positivity
  have hY : 0 < Y := (tY.pos_iff hr).2 (by positivity)
  have hS : Tight u 14 (X ^ 2 + Y ^ 2) (1 / (a ^ 2 + b ^ 2)) := by
    rw [show 1 / (a ^ 2 + b ^ 2) = a / (a ^ 2 + b ^ 2) * (a / (a ^ 2 + b ^ 2)) + b / (a ^ 2 + b ^ 2) * (b / (a ^ 2 + b ^ 2)) by field_simp, sq, sq]
    exact (tX.mul hr tX).add hr (tY.mul hr tY) (mul_nonneg (mul_self_nonneg _) (mul_self_nonneg _))
  refine ⟨⟨⟨num X, num Y⟩, num wl, z, num n, false⟩, ?_, ?_, ?_, ?_⟩
  · unfold Beam.new
    simp only [bind, Except.bind]
    rw [h1]; rfl
  · obtain ⟨w', e1, e2⟩ := w_tight hr hm X Y hY hl hn z false
    refine ⟨w', e1, ?_⟩
    have t1 : Tight u 21 (Y / (X ^ 2 + Y ^ 2)) b := by
      have := tY.div hr hS
      rwa [show b / (a ^ 2 + b ^ 2) / (1 / (a ^ 2 + b ^ 2)) = b by field_simp] at this
    have t2 : Tight u 33 (Y / (X ^ 2 + Y ^ 2)) (wl / n / (Real.pi * w * w)) := t1.trans hr tb
    have t3 : Tight u (2 * 17) (wl / n / (Real.pi * (Y / (X ^ 2 + Y ^ 2)))) (w ^ 2) := by
      have := ((Tight.refl (u := u) (wl / n)).div hr ((Tight.refl (u := u) Real.pi).mul hr t2)).mono hr (l := 2 * 17) (by omega)
      rwa [show wl / n / (Real.pi * (wl / n / (Real.pi * w * w))) = w ^ 2 by field_simp] at this
    have t4 := e2.trans hr (t3.sqrt hr)
    rw [Real.sqrt_sq hw.le] at t4
    have := t4.error hr
    rwa [abs_of_pos hw] at this
  · intro hn'
    subst hn'
    have ha : a = 0 := (ta.eq_zero_iff hr).2 rfl
    have hX : X = 0 := (tX.eq_zero_iff hr).2 (by rw [ha]; simp)
    exact (R_tight hr X Y (.inr hY.ne') (num wl) z (num n) false).1 hX
  · intro r hr'
    obtain rfl : R = some r := hr'
    have hr0 : r ≠ 0 := hR r rfl
    have ha : a ≠ 0 := fun e => inv_ne_zero hr0 ((ta.eq_zero_iff hr).1 e)
    have hX : X ≠ 0 := fun e => by
      have := (tX.eq_zero_iff hr).1 e
      rw [div_eq_zero_iff] at this
      rcases this with h | h
      · exact ha h
      · exact hs.ne' h
    obtain ⟨r', e1, e2⟩ := (R_tight hr X Y (.inr hY.ne') (num wl) z (num n) false).2 hX
    refine ⟨r', e1, ?_⟩
    have t1 : Tight u 21 ((X ^ 2 + Y ^ 2) / X) (1 / a) := by
      have := hS.div hr tX
      rwa [show 1 / (a ^ 2 + b ^ 2) / (a / (a ^ 2 + b ^ 2)) = 1 / a by field_simp] at this
    have t2 : Tight u 2 (1 / a) r := by
      have := ((Tight.refl (u := u) 1).div hr ta).mono hr (l := 2) (by omega)
      rwa [show (1 : ℝ) / curvature (some r) = r by rw [curvature]; simp] at this
    exact (e2.trans hr (t1.trans hr t2)).error hr

omit hm in
/-- in air, the medium and the wavelength of a beam do not change -/
theorem runBeam_medium (hp : PiOk rnd) {ms : List (Mat (Fl ℝ rnd))} {ss : List (RStage ℝ)} (hs : List.Forall₂ (RStageOf u) ms ss)
    (hair : ∀ m ∈ ms, AirMat m) {w q : ℂ} {ε : ℝ} (hq : ‖w - q‖ ≤ ε) (hc : BeamClear u ss q ε) {wl : ℝ} (hl : 0 < wl) {b b' : Beam (Fl ℝ rnd)}
    (hb : b.q = cnum w) (hn : b.n = num 1) (hw : b.wavelength = num wl) (h : runBeam ms b = .ok b') : b'.n = num 1 ∧ b'.wavelength = num wl := by
  induction hs generalizing w q ε b with
  | nil =>
    simp only [runBeam, Except.ok.injEq] at h
    subst h
    exact ⟨hn, hw⟩
  | @cons m s ms ss h1 _ ih =>
    obtain ⟨b1, e1, e2, e3⟩ := mulBeam_air hr hp h1 (hair m (by simp)) hq hc.1 hl hb hn hw
    obtain ⟨v, e4, e5⟩ := mulBeam_close hr h1 hq hc.1 hb e1
    unfold runBeam at h
    rw [e1] at h
    exact ih (fun m hm => hair m (List.mem_cons_of_mem _ hm)) e5 hc.2 e4 e2 e3 h

/-- **C120**, after a system in air: `q` is the exact complex radius after the system and `ε` the error on it (C114). If the exact beam is confined by more
than that error, tracing it succeeds, and the size of the beam, of its waist, the position of the waist and the Rayleigh range are those of `q` up to
`ε` and to 7, 3, 0 and 0 roundings. -/
theorem C120_after {p : Part ℝ} (hair : p.InAir) {e : Elem (Fl ℝ rnd)} (hb : p.buildR rnd = .ok e) {q₀ : ℂ} (hc : BeamClear u p.rstages q₀ 0) {wl : ℝ}
    (hl : 0 < wl) {b : Beam (Fl ℝ rnd)} (hq : b.q = ⟨num q₀.re, num q₀.im⟩) (hn : b.n = num 1) (hw : b.wavelength = num wl) {q : ℂ}
    (hq' : beamAfter p.stages q₀ = q) {ε : ℝ} (hε : beamErr u p.rstages q₀ 0 ≤ ε) (hfar : ε < q.im) :
    ∃ b' : Beam (Fl ℝ rnd), ∃ w w₀ z zr : ℝ, e.traceThroughBeam b = .ok b' ∧
      b'.w = .ok (num w) ∧ (1 - u) ^ 7 * Real.sqrt (wl / Real.pi * ((‖q‖ - ε) ^ 2 / (q.im + ε))) ≤ w ∧
        (1 - u) ^ 7 * w ≤ Real.sqrt (wl / Real.pi * ((‖q‖ + ε) ^ 2 / (q.im - ε))) ∧
      b'.wo = .ok (some (num w₀)) ∧ (1 - u) ^ 3 * Real.sqrt (wl * (q.im - ε) / Real.pi) ≤ w₀ ∧ (1 - u) ^ 3 * w₀ ≤ Real.sqrt (wl * (q.im + ε) / Real.pi) ∧
      b'.waistPosition = num z ∧ |z - -q.re| ≤ ε ∧ b'.zo = num zr ∧ |zr - q.im| ≤ ε := by
  have hpi := Real.pi_pos
  have hp : PiOk rnd := ⟨_, hm.pi, hr.pos hpi⟩
  obtain ⟨b', v, h1, h2, h3⟩ := C114_air hr hp hair hb hc hl hq hn hw
  rw [hq'] at h3
  replace h3 := h3.trans hε
  have h1' := h1
  rw [traceThroughBeam_run] at h1'
  obtain ⟨m1, m2⟩ := runBeam_medium hr hp (buildR_stages hr hb).1 (buildR_airy hr hair hb).2 (w := q₀) (q := q₀) (ε := 0) (by simp) hc hl hq hn hw h1'
  obtain ⟨Q, W, Z, N, c⟩ := b'
  dsimp only at h2 m1 m2
  subst h2 m1 m2
  have i1 : |v.im - q.im| ≤ ε := by
    have := Complex.abs_im_le_norm (v - q)
    rw [Complex.sub_im] at this
    exact this.trans h3
  have i2 : |v.re - q.re| ≤ ε := by
    have := Complex.abs_re_le_norm (v - q)
    rw [Complex.sub_re] at this
    exact this.trans h3
  have hε0 : 0 ≤ ε := (abs_nonneg _).trans i1
  obtain ⟨j1, j2⟩ := abs_le.1 i1
  have hv : 0 < v.im := by linarith
  have n1 : ‖v‖ ≤ ‖q‖ + ε := by
    have := norm_add_le q (v - q)
    rw [add_sub_cancel] at this
    linarith
  have n2 : ‖q‖ - ε ≤ ‖v‖ := by
    have := norm_sub_norm_le q v
    rw [norm_sub_rev] at this
    linarith
  have n3 : 0 ≤ ‖q‖ - ε := by
    have := Complex.abs_im_le_norm q
    have := le_abs_self q.im
    linarith
  obtain ⟨w, w1, tw, w2, w3, w4⟩ := w_tight hr hm v.re v.im hv hl one_pos Z c
  obtain ⟨w₀, x1, tx, x2, x3, x4⟩ := wo_tight hr hm (num v.re) v.im hv hl Z (num 1) c
  have es : wl / 1 / (Real.pi * (v.im / (v.re ^ 2 + v.im ^ 2))) = wl / Real.pi * (‖v‖ ^ 2 / v.im) := by
    have : v.re ^ 2 + v.im ^ 2 ≠ 0 := by positivity
    rw [normSq_parts]; field_simp
  rw [es] at w2
  have k7 := pow_pos (Tight.base hr).1 7
  have k3 := pow_pos (Tight.base hr).1 3
  refine ⟨_, w, w₀, -v.re, v.im, h1, w1, ?_, ?_, x1, ?_, ?_, neg_num _, ?_, rfl, i1⟩
  · rw [w2]
    refine mul_le_mul w3 (Real.sqrt_le_sqrt (mul_le_mul_of_nonneg_left ?_ (by positivity))) (Real.sqrt_nonneg _) (k7.le.trans w3)
    exact div_le_div₀ (by positivity) (pow_le_pow_left₀ n3 n2 2) hv (by linarith)
  · rw [w2, ← mul_assoc]
    refine (mul_le_of_le_one_left (Real.sqrt_nonneg _) w4).trans (Real.sqrt_le_sqrt (mul_le_mul_of_nonneg_left ?_ (by positivity)))
    exact div_le_div₀ (by positivity) (pow_le_pow_left₀ (norm_nonneg _) n1 2) (by linarith) (by linarith)
  · rw [x2]
    refine mul_le_mul x3 (Real.sqrt_le_sqrt ?_) (Real.sqrt_nonneg _) (k3.le.trans x3)
    rw [mul_comm v.im]
    gcongr; linarith
  · rw [x2, ← mul_assoc]
    refine (mul_le_of_le_one_left (Real.sqrt_nonneg _) x4).trans (Real.sqrt_le_sqrt ?_)
    rw [mul_comm v.im]
    gcongr; linarith
  · rw [abs_sub_comm] at i2
    rwa [show -v.re - -q.re = q.re - v.re by ring]

end

/-! ## Python floats -/

theorem doubleRMath_float : @FloatMath doubleR doubleRMath := @FloatMath.mk doubleR doubleRMath (fun _ _ => rfl) rfl

/-- In Python floats, among real numbers, 3, 7 and 8 roundings are less than 10⁻¹⁵, 24 and 31 less than 4·10⁻¹⁵. -/
theorem C120_python : roundErr (1 / 2 ^ 53) 8 < 1 / 10 ^ 15 ∧ roundErr (1 / 2 ^ 53) 31 < 4 / 10 ^ 15 ∧
    (∀ k ≤ 8, roundErr (1 / 2 ^ 53) k ≤ roundErr (1 / 2 ^ 53) 8) ∧ (∀ k ≤ 31, roundErr (1 / 2 ^ 53) k ≤ roundErr (1 / 2 ^ 53) 31) := by
  have mono : ∀ k l : ℕ, k ≤ l → roundErr (1 / 2 ^ 53) k ≤ roundErr (1 / 2 ^ 53) l := by
    intro k l h
    unfold roundErr
    have : (1 - 1 / 2 ^ 53 : ℝ) ^ l ≤ (1 - 1 / 2 ^ 53 : ℝ) ^ k := pow_le_pow_of_le_one (by norm_num) (by norm_num) h
    have p := pow_pos (show (0 : ℝ) < 1 - 1 / 2 ^ 53 by norm_num) l
    linarith [one_div_le_one_div_of_le p this]
  refine ⟨?_, ?_, fun k h => mono k 8 h, fun k h => mono k 31 h⟩ <;> norm_num [roundErr]

/-- In Python floats, a beam of 1 mm with a radius of curvature of 1 m in air, at any wavelength: `w` and `R` are 1 and 1000 to 4·10⁻¹⁵. -/
theorem C120_roundTrip_example (wl z : ℝ) (hl : 0 < wl) : ∃ b : Beam (Fl ℝ doubleR), ∃ w R : ℝ,
    @Beam.new _ _ doubleRMath none (some (num 1)) (num 1000) (num 1) (num wl) (num z) = .ok b ∧
    @Beam.w _ _ doubleRMath b = .ok (num w) ∧ |w - 1| < 4 / 10 ^ 15 ∧ b.R = .ok (num R) ∧ |R - 1000| < 4 / 10 ^ 12 := by
  let _ := doubleRMath
  obtain ⟨p1, p2, p3, p4⟩ := C120_python
  obtain ⟨b, h1, ⟨w, h2, h3⟩, -, h4⟩ := C120_roundTrip doubleR_rounding doubleRMath_float one_pos one_pos hl (some 1000) (by rintro r ⟨⟩; norm_num) (num z)
  obtain ⟨r, h5, h6⟩ := h4 1000 rfl
  refine ⟨b, w, r, h1, h2, ?_, h5, ?_⟩
  · have := p4 24 (by omega)
    linarith
  · rw [abs_of_pos (by norm_num : (0 : ℝ) < 1000)] at h6
    linarith

/-- In Python floats, a beam of complex radius 30 i sent through a lens of focal length 40 and 28.8 of air: the size of the beam at the end is that of the
start, `√(30 λ / π)`, to 10⁻¹¹. -/
theorem C120_after_example (wl z : ℝ) (hl : 0 < wl) (c : Bool) : ∃ e b', ∃ w : ℝ,
    focusing.buildR doubleR = .ok e ∧ @Elem.traceThroughBeam _ _ doubleRMath e ⟨⟨num 0, num 30⟩, num wl, num z, num 1, c⟩ = .ok b' ∧
    @Beam.w _ _ doubleRMath b' = .ok (num w) ∧ |w - Real.sqrt (wl / Real.pi * 30)| ≤ 1 / 10 ^ 11 * Real.sqrt (wl / Real.pi * 30) := by
  let _ := doubleRMath
  have hpi := Real.pi_pos
  obtain ⟨e, hb, -⟩ := buildR_accepts doubleR_rounding focusing_air focusing_room
  obtain ⟨h1, h2⟩ := focusing_clear
  have ha : beamAfter focusing.stages ⟨0, 30⟩ = ⟨72 / 5, 96 / 5⟩ := by
    rw [← rstages_exact]
    simp only [focusing, Part.rstages, Part.rstagesList, List.cons_append, List.nil_append, List.map_cons, List.map_nil, beamAfter, List.foldl]
    exact (congrArg _ focusing_bend).trans focusing_bend2
  obtain ⟨b', w, -, -, -, h3, h4, h5, h6, -⟩ := C120_after doubleR_rounding doubleRMath_float focusing_air hb h1 hl
    (b := ⟨⟨num 0, num 30⟩, num wl, num z, num 1, c⟩) rfl rfl rfl ha h2 (by norm_num)
  refine ⟨e, b', w, hb, h3, h4, ?_⟩
  have n4 : ‖(⟨72 / 5, 96 / 5⟩ : ℂ)‖ = 24 := norm_eq_of (by norm_num) (by norm_num)
  rw [n4] at h5 h6
  dsimp only at h5 h6
  set s := Real.sqrt (wl / Real.pi * 30) with hs
  have s0 : 0 ≤ s := Real.sqrt_nonneg _
  have l1 : (1 - 7 / 10 ^ 12) * s ≤ Real.sqrt (wl / Real.pi * ((24 - 1 / 10 ^ 10) ^ 2 / (96 / 5 + 1 / 10 ^ 10))) := by
    refine Real.le_sqrt_of_sq_le ?_
    rw [mul_pow, hs, Real.sq_sqrt (by positivity), show ((1 : ℝ) - 7 / 10 ^ 12) ^ 2 * (wl / Real.pi * 30) = wl / Real.pi * (30 * (1 - 7 / 10 ^ 12) ^ 2) by ring]
    exact mul_le_mul_of_nonneg_left (by norm_num) (by positivity)
  have l2 : Real.sqrt (wl / Real.pi * ((24 + 1 / 10 ^ 10) ^ 2 / (96 / 5 - 1 / 10 ^ 10))) ≤ (1 + 7 / 10 ^ 12) * s := by
    refine Real.sqrt_le_iff.2 ⟨by positivity, ?_⟩
    rw [mul_pow, hs, Real.sq_sqrt (by positivity), show ((1 : ℝ) + 7 / 10 ^ 12) ^ 2 * (wl / Real.pi * 30) = wl / Real.pi * (30 * (1 + 7 / 10 ^ 12) ^ 2) by ring]
    exact mul_le_mul_of_nonneg_left (by norm_num) (by positivity)
  have k : (1 - 1 / 10 ^ 15 : ℝ) ≤ (1 - 1 / 2 ^ 53 : ℝ) ^ 7 := by norm_num
  have w0 : 0 ≤ w := le_trans (by positivity) h5
  rw [abs_le]
  constructor
  · nlinarith [mul_le_mul k l1 (by positivity) (by positivity)]
  · nlinarith [mul_le_mul_of_nonneg_right k w0]

end RT
