import Verif.Props.RoundedCavity
import Verif.Props.RoundedSize

/-! # C125: the modes of cavities in floats -/

set_option linter.unusedSectionVars false

namespace RT
open PyNum Ext Fl

variable {rnd : ℝ → ℝ} {u : ℝ}

section
variable (hr : Rounding rnd u) [PyMath (Fl ℝ rnd)] (hm : FloatMath rnd)
include hr hm

/-- The mode of a round trip in floats whose computed discriminant is negative: both parts are right, for the computed coefficients, up to 6 roundings. -/
theorem mode_tight {m : Mat (Fl ℝ rnd)} {b c δ : ℝ} (hp : m.hasPower = true) (hb : m.D - m.A = num b)
    (hc : m.C = num c) (hc0 : c ≠ 0) (hδ : (m.D - m.A) * (m.D - m.A) - 4 * m.C * (-m.B) = num δ) (hneg : δ < 0) :
    ∃ X Y : ℝ, m.laserModes = .ok [⟨⟨num X, num Y⟩, Beam.defaultWavelength, 0, 1, false⟩] ∧ 0 < Y ∧
      Tight u 6 X (-b / (2 * c)) ∧ Tight u 6 Y (Real.sqrt (-δ) / (2 * |c|)) := by
  have h2c : rnd (2 * c) ≠ 0 := hr.ne_zero (by simpa using hc0)
  have e2c : (2 : Fl ℝ rnd) * m.C = num (rnd (2 * c)) := by rw [two_num hr, hc, num_mul]
  set s := Real.sqrt (-δ) with hs
  have hs0 : 0 < s := Real.sqrt_pos.2 (by linarith)
  have e1 : cmathSqrt (num δ : Fl ℝ rnd) = ⟨num 0, num (rnd s)⟩ := by
    unfold cmathSqrt
    rw [zero_num hr, lt_num, if_pos (decide_eq_true hneg), neg_num, hm.sqrt _ (by linarith)]
  obtain ⟨x1, y1, d1, r1, s1⟩ := div_real hr (rnd (-b + 0)) (rnd (0 + rnd s)) (rnd (2 * c)) h2c
  obtain ⟨x2, y2, d2, r2, s2⟩ := div_real hr (rnd (-b - 0)) (rnd (0 - rnd s)) (rnd (2 * c)) h2c
  have e3 : m.eigenModes = .ok (some (⟨⟨num x1, num y1⟩, Beam.defaultWavelength, 0, 1, false⟩, ⟨⟨num x2, num y2⟩, Beam.defaultWavelength, 0, 1, false⟩)) := by
    unfold Mat.eigenModes
    rw [hp]
    dsimp only
    rw [hδ, hb, e2c, e1]
    simp only [Bool.not_true, Bool.false_eq_true, if_false, bind, Except.bind, Cx.add, Cx.sub, neg_num, num_add, num_sub]
    have o : (Cx.ofReal (num (-b)) : Cx (Fl ℝ rnd)) = ⟨num (-b), num 0⟩ := by unfold Cx.ofReal; rw [zero_num hr]
    rw [o]
    simp only [num_add, num_sub]
    rw [d1, d2]
    rfl
  have e4 : m.laserModes = .ok ((if 0 < y1 then [⟨⟨num x1, num y1⟩, Beam.defaultWavelength, 0, 1, false⟩] else []) ++
      (if 0 < y2 then [⟨⟨num x2, num y2⟩, Beam.defaultWavelength, 0, 1, false⟩] else [])) := by
    unfold Mat.laserModes
    rw [e3]
    simp only [bind, Except.bind, isFinite_num hr, decide_eq_true_eq]
    rfl
  rw [add_zero] at r1
  rw [sub_zero] at r2
  rw [zero_add] at s1
  rw [zero_sub] at s2
  have tc : Tight u 2 (rnd (rnd (2 * c))) (2 * c) := ((Tight.refl _).round hr).round hr
  have tx : Tight u 6 (rnd (rnd (rnd (-b)) / rnd (rnd (2 * c)))) (-b / (2 * c)) :=
    (((((Tight.refl (-b)).round hr).round hr).div hr tc).round hr).mono hr (by omega)
  have ty1 : Tight u 6 y1 (s / (2 * c)) := by
    rw [s1]; exact ((((Tight.refl s).round hr).round hr).round hr |>.div hr tc).round hr
  have ty2 : Tight u 6 y2 (-s / (2 * c)) := by
    rw [s2]; exact (((((Tight.refl s).round hr).neg).round hr).round hr |>.div hr tc).round hr
  rcases lt_or_gt_of_ne hc0 with h | h
  · have p1 : ¬ 0 < y1 := by rw [ty1.pos_iff hr, not_lt]; exact div_nonpos_of_nonneg_of_nonpos hs0.le (by linarith)
    have p2 : 0 < y2 := by rw [ty2.pos_iff hr]; exact div_pos_of_neg_of_neg (by linarith) (by linarith)
    rw [if_neg p1, if_pos p2] at e4
    refine ⟨x2, y2, e4, p2, r2 ▸ tx, ?_⟩
    rw [abs_of_neg h]
    rwa [show -s / (2 * c) = s / (2 * -c) by rw [mul_neg, div_neg, neg_div]] at ty2
  · have p1 : 0 < y1 := by rw [ty1.pos_iff hr]; positivity
    have p2 : ¬ 0 < y2 := by
      rw [ty2.pos_iff hr, not_lt, neg_div, neg_nonpos]; positivity
    rw [if_pos p1, if_neg p2] at e4
    refine ⟨x1, y1, e4, p1, r1 ▸ tx, ?_⟩
    rw [abs_of_pos h]
    exact ty1

end

/-- the error of a quotient `t / (2 c)`, known to be `v`, when `t` and `c` have errors `e` and `f` and the division is rounded 6 times -/
noncomputable def modeErr (u e f c v : ℝ) : ℝ :=
  (e + 2 * |v| * f) / |c| + roundErr u 6 * (|v| + (e + 2 * |v| * f) / |c|)

theorem roundErr_nonneg (hr : Rounding rnd u) (k : ℕ) : 0 ≤ roundErr u k := by
  unfold roundErr
  have b := Tight.base hr
  have p := pow_pos b.1 k
  rw [sub_nonneg, le_div_iff₀ p, one_mul]
  exact pow_le_one₀ b.1.le b.2

theorem quotient_close (hr : Rounding rnd u) {t t' c c' e f X : ℝ} (ht : |t' - t| ≤ e) (hc : |c' - c| ≤ f) (hc0 : c ≠ 0) (hf : f ≤ |c| / 2)
    (hX : Tight u 6 X (t' / (2 * c'))) : |X - t / (2 * c)| ≤ modeErr u e f c (t / (2 * c)) := by
  have pc := abs_pos.2 hc0
  have hc' : |c| / 2 ≤ |c'| := by
    have := abs_sub_abs_le_abs_sub c c'
    rw [abs_sub_comm] at this
    linarith
  have pc' : 0 < |c'| := by linarith
  have hc0' : c' ≠ 0 := abs_pos.1 pc'
  have key : |t' / (2 * c') - t / (2 * c)| ≤ (e + 2 * |t / (2 * c)| * f) / |c| := by
    have e1 : t' / (2 * c') - t / (2 * c) = ((t' - t) + 2 * (t / (2 * c)) * (c - c')) / (2 * c') := by field_simp; ring
    rw [e1, abs_div, abs_mul, abs_two]
    have e2 : |t' - t + 2 * (t / (2 * c)) * (c - c')| ≤ e + 2 * |t / (2 * c)| * f := by
      refine (abs_add_le _ _).trans (add_le_add ht ?_)
      rw [abs_mul, abs_mul, abs_two, abs_sub_comm]
      gcongr
    exact div_le_div₀ ((abs_nonneg _).trans e2) e2 pc (by linarith)
  have h1 := hX.error hr
  have h0 := roundErr_nonneg hr 6
  have h2 : |t' / (2 * c')| ≤ |t / (2 * c)| + (e + 2 * |t / (2 * c)| * f) / |c| := by
    have := abs_sub_abs_le_abs_sub (t' / (2 * c')) (t / (2 * c))
    linarith
  unfold modeErr
  calc |X - t / (2 * c)| ≤ |X - t' / (2 * c')| + |t' / (2 * c') - t / (2 * c)| := abs_sub_le _ _ _
    _ ≤ roundErr u 6 * |t' / (2 * c')| + (e + 2 * |t / (2 * c)| * f) / |c| := add_le_add h1 key
    _ ≤ _ := by
      have := mul_le_mul_of_nonneg_left h2 h0
      linarith

/-- The square roots of two numbers that differ by at most `η`. -/
theorem sqrt_close {x y η : ℝ} (hx : 0 < x) (hy : 0 ≤ y) (h : |y - x| ≤ η) : |Real.sqrt y - Real.sqrt x| ≤ η / Real.sqrt x := by
  have p := Real.sqrt_pos.2 hx
  rw [le_div_iff₀ p]
  have e : y - x = (Real.sqrt y - Real.sqrt x) * (Real.sqrt y + Real.sqrt x) := by
    have h1 := Real.mul_self_sqrt hy
    have h2 := Real.mul_self_sqrt hx.le
    linear_combination h2 - h1
  rw [e, abs_mul, abs_of_nonneg (by positivity : 0 ≤ Real.sqrt y + Real.sqrt x)] at h
  refine le_trans ?_ h
  gcongr
  linarith [Real.sqrt_nonneg y]

/-- A complex radius is reproduced by the round trip of coefficients `a b c d` when `q = (a q + b) / (c q + d)`. -/
def Reproduced (a b c d : ℝ) (q : ℂ) : Prop := (c : ℂ) * q + d ≠ 0 ∧ ((a : ℂ) * q + b) / (c * q + d) = q

/-- What is reproduced, in coordinates. -/
theorem Reproduced.parts {a b c d : ℝ} {q : ℂ} (h : Reproduced a b c d q) (hq : 0 < q.im) (hc : c ≠ 0) :
    q.re = -(d - a) / (2 * c) ∧ (d - a) ^ 2 + 4 * c * b = -(2 * |c| * q.im) ^ 2 ∧ q.im = Real.sqrt (-((d - a) ^ 2 + 4 * c * b)) / (2 * |c|) := by
  obtain ⟨h0, h⟩ := h
  rw [div_eq_iff h0] at h
  have hi := congrArg Complex.im h
  have hre := congrArg Complex.re h
  simp at hi hre
  have e1 : d - a = -(2 * c * q.re) := by
    have : q.im * (d - a + 2 * c * q.re) = 0 := by linear_combination -hi
    rcases mul_eq_zero.1 this with h | h
    · exact absurd h hq.ne'
    · linarith
  have e2 : (d - a) ^ 2 + 4 * c * b = -(2 * |c| * q.im) ^ 2 := by
    have : (2 * |c| * q.im) ^ 2 = 4 * c ^ 2 * q.im ^ 2 := by rw [mul_pow, mul_pow, sq_abs]; ring
    rw [this]
    have hb : b = q.re * (c * q.re + d) - q.im * (c * q.im) - a * q.re := by linear_combination hre
    have hd : d = a - 2 * c * q.re := by linarith
    rw [hb, hd]; ring
  refine ⟨by rw [e1]; field_simp, e2, ?_⟩
  have pc := abs_pos.2 hc
  rw [e2, neg_neg, Real.sqrt_sq (by positivity)]
  field_simp

/-- What is within `ε` of what is reproduced is moved by at most `5 ε`. -/
theorem Reproduced.moved {a b c d : ℝ} {q v : ℂ} (h : Reproduced a b c d q) (hq : 0 < q.im) (hc : c ≠ 0) {ε : ℝ} (hv : ‖v - q‖ ≤ ε) (hε : ε ≤ q.im / 2) :
    ‖((a : ℂ) * v + b) / (c * v + d) - v‖ ≤ 5 * ε := by
  obtain ⟨p1, p2, -⟩ := h.parts hq hc
  have pc := abs_pos.2 hc
  have e0 : 0 ≤ ε := (norm_nonneg _).trans hv
  have him : q.im / 2 ≤ v.im := by
    have := (Complex.abs_im_le_norm (v - q)).trans hv
    rw [Complex.sub_im, abs_le] at this
    linarith [this.1]
  have hvi : 0 < v.im := by linarith
  have hbot : |c| * v.im ≤ ‖(c : ℂ) * v + d‖ := by
    have := Complex.abs_im_le_norm ((c : ℂ) * v + d)
    simp only [Complex.add_im, Complex.mul_im, Complex.ofReal_re, Complex.ofReal_im, zero_mul, add_zero, abs_mul, abs_of_pos hvi] at this
    exact this
  have hbp : 0 < ‖(c : ℂ) * v + d‖ := lt_of_lt_of_le (by positivity) hbot
  have hb0 : (c : ℂ) * v + d ≠ 0 := norm_pos_iff.1 hbp
  have hd : d - a = -(2 * c * q.re) := by rw [p1]; field_simp
  have hb : b = -c * (q.re ^ 2 + q.im ^ 2) := by
    have e : (2 * |c| * q.im) ^ 2 = 4 * c ^ 2 * q.im ^ 2 := by rw [mul_pow, mul_pow, sq_abs]; ring
    rw [e, hd] at p2
    have : (4 * c) * b = (4 * c) * (-c * (q.re ^ 2 + q.im ^ 2)) := by linear_combination p2
    exact mul_left_cancel₀ (by simpa using hc) this
  have key : ((a : ℂ) * v + b) / (c * v + d) - v = -(c * ((v - q) * (v - (starRingEnd ℂ) q))) / (c * v + d) := by
    rw [div_sub' hb0]
    congr 1
    have ed : (d : ℂ) = a - 2 * c * q.re := by
      have : d = a - 2 * c * q.re := by linarith
      rw [this]; push_cast; ring
    have eb : (b : ℂ) = -c * (q * (starRingEnd ℂ) q) := by
      rw [Complex.mul_conj, Complex.normSq_apply, hb]; push_cast; ring
    have es : (2 : ℂ) * q.re = q + (starRingEnd ℂ) q := by rw [Complex.add_conj]; push_cast; ring
    rw [ed, eb]
    linear_combination (c * v) * es
  have hconj : ‖v - (starRingEnd ℂ) q‖ ≤ ε + 2 * q.im := by
    have e : v - (starRingEnd ℂ) q = (v - q) + (q - (starRingEnd ℂ) q) := by ring
    rw [e, Complex.sub_conj]
    refine (norm_add_le _ _).trans (add_le_add hv ?_)
    rw [norm_mul, Complex.norm_I, mul_one, Complex.norm_real, Real.norm_of_nonneg (by positivity)]
  rw [key, norm_div, norm_neg, norm_mul, norm_mul, Complex.norm_real, Real.norm_eq_abs, div_le_iff₀ hbp]
  calc |c| * (‖v - q‖ * ‖v - (starRingEnd ℂ) q‖) ≤ |c| * (ε * (ε + 2 * q.im)) := by gcongr
    _ ≤ |c| * (ε * (5 * v.im)) := by gcongr; linarith
    _ = 5 * ε * (|c| * v.im) := by ring
    _ ≤ 5 * ε * ‖(c : ℂ) * v + d‖ := by gcongr

/-- the errors on the coefficients of which a mode is made: on `D - A`, on `C`, and on the square root of the discriminant -/
noncomputable def Part.reErr (u : ℝ) (p : Part ℝ) (c : ℝ) (q : ℂ) : ℝ :=
  modeErr u (relErr u (p.rmat.ops + 1) * (p.rmat.maj.d + p.rmat.maj.a)) (p.err u p.rmat.maj.c) c q.re

/-- the same for the imaginary part, of which the error grows near the limit of stability -/
noncomputable def Part.imErr (u : ℝ) (p : Part ℝ) (c : ℝ) (q : ℂ) : ℝ :=
  modeErr u (p.stabilityErr u / (2 * |c| * q.im)) (p.err u p.rmat.maj.c) c q.im

section
variable (hr : Rounding rnd u) [PyMath (Fl ℝ rnd)] (hm : FloatMath rnd)
include hr hm

/-- **C125**, for every cavity that can be built (any nesting): when a confined complex radius is reproduced by the exact round trip, and the cavity is
not within rounding errors of the limits of power and of stability, `laserModes()` in floats is one mode, confined, in air, at the default wavelength, of
which both parts are those of the exact mode up to explicit rounding errors. -/
theorem C125_mode {p : Part ℝ} {e : Elem (Fl ℝ rnd)} {e' : Elem (Ext ℝ)} (hb : p.buildR rnd = .ok e) (hb' : p.build = .ok e') {a b c d : ℝ}
    (ha : e'.mat.A = fin a) (hB : e'.mat.B = fin b) (hc : e'.mat.C = fin c) (hd : e'.mat.D = fin d) {q : ℂ} (hq : Reproduced a b c d q) (him : 0 < q.im)
    (hpow : (1 + u) * (1 / 100000) < |c| - p.err u p.rmat.maj.c) (hrel : p.err u p.rmat.maj.c ≤ |c| / 2)
    (hfar : p.stabilityErr u < (2 * |c| * q.im) ^ 2) :
    ∃ v : ℂ, e.mat.laserModes = .ok [⟨⟨num v.re, num v.im⟩, Beam.defaultWavelength, 0, 1, false⟩] ∧ 0 < v.im ∧
      |v.re - q.re| ≤ p.reErr u c q ∧ |v.im - q.im| ≤ p.imErr u c q := by
  have hM := buildR_mat hr hb
  have hx := build_exactMat hb'
  have ea : p.rmat.exact.a = a := by have := hx.A; rw [ha] at this; exact (Ext.fin.inj this).symm
  have eb : p.rmat.exact.b = b := by have := hx.B; rw [hB] at this; exact (Ext.fin.inj this).symm
  have ec : p.rmat.exact.c = c := by have := hx.C; rw [hc] at this; exact (Ext.fin.inj this).symm
  have ed : p.rmat.exact.d = d := by have := hx.D; rw [hd] at this; exact (Ext.fin.inj this).symm
  have hp := (C98_focal hr hb hb' hc le_rfl hpow).1
  obtain ⟨δ, h1, -, h2⟩ := near_delta hr hM
  obtain ⟨b', h3, -, h3'⟩ := hM.D.sub hr hM.A
  obtain ⟨c', h4, -, h4'⟩ := hM.C
  have hc0 : c ≠ 0 := by
    rintro rfl
    have h0 : 0 ≤ p.err u p.rmat.maj.c := mul_nonneg (relErr_nonneg hr.nonneg _) hM.C.nonneg
    rw [abs_zero] at hpow
    have := hr.nonneg
    nlinarith
  rw [ed, ea] at h3'
  rw [ec] at h4'
  obtain ⟨q1, q2, q3⟩ := hq.parts him hc0
  have e0 : p.rmat.delta = (d - a) ^ 2 + 4 * c * b := by unfold RStage.delta; rw [ea, eb, ec, ed]
  rw [e0] at h2
  have h2' : |δ - ((d - a) ^ 2 + 4 * c * b)| ≤ p.stabilityErr u := h2
  have hneg : δ < 0 := by
    rw [q2] at h2'
    have := (abs_le.1 h2').2
    linarith
  have pc := abs_pos.2 hc0
  have hc0' : c' ≠ 0 := by
    rintro rfl
    rw [zero_sub, abs_neg] at h4'
    change |c| ≤ p.err u p.rmat.maj.c at h4'
    linarith
  obtain ⟨X, Y, g1, g2, g3, g4⟩ := mode_tight hr hm hp h3 h4 hc0' h1 hneg
  refine ⟨⟨X, Y⟩, g1, g2, ?_, ?_⟩
  · have := quotient_close hr (t := -(d - a)) (t' := -b') (c := c) (c' := c')
      (e := relErr u (p.rmat.ops + 1) * (p.rmat.maj.d + p.rmat.maj.a)) (by rw [← neg_sub', abs_neg]; exact h3') h4' hc0 hrel g3
    rw [← q1] at this
    exact this
  · have ps : 0 < -((d - a) ^ 2 + 4 * c * b) := by rw [q2, neg_neg]; positivity
    have es : Real.sqrt (-((d - a) ^ 2 + 4 * c * b)) = 2 * |c| * q.im := by rw [q2, neg_neg, Real.sqrt_sq (by positivity)]
    have t1 := sqrt_close (y := -δ) (η := p.stabilityErr u) ps (by linarith) (by rw [← neg_sub', abs_neg]; exact h2')
    have h4'' : abs (|c'| - |c|) ≤ p.err u p.rmat.maj.c := (abs_abs_sub_abs_le _ _).trans h4'
    have := quotient_close hr (c := |c|) (c' := |c'|) t1 h4'' pc.ne' (by rwa [abs_abs]) g4
    rw [← q3, es] at this
    unfold modeErr at this
    rw [abs_abs] at this
    exact this

/-- **C125**, the round trip: under the same hypotheses, with errors below half of the Rayleigh range of the exact mode, the mode returned in floats comes
out of the exact round trip as it entered, up to five times these errors; and out of the round trip in floats with the error of the law ABCD added. -/
theorem C125_trip {p : Part ℝ} {e : Elem (Fl ℝ rnd)} {e' : Elem (Ext ℝ)} (hb : p.buildR rnd = .ok e) (hb' : p.build = .ok e') {a b c d : ℝ}
    (ha : e'.mat.A = fin a) (hB : e'.mat.B = fin b) (hc : e'.mat.C = fin c) (hd : e'.mat.D = fin d) {q : ℂ} (hq : Reproduced a b c d q) (him : 0 < q.im)
    (hpow : (1 + u) * (1 / 100000) < |c| - p.err u p.rmat.maj.c) (hrel : p.err u p.rmat.maj.c ≤ |c| / 2)
    (hfar : p.stabilityErr u < (2 * |c| * q.im) ^ 2) (hsmall : p.reErr u c q + p.imErr u c q ≤ q.im / 2) :
    ∃ v : ℂ, ∃ mode : Beam (Fl ℝ rnd), e.mat.laserModes = .ok [mode] ∧ mode.q = ⟨num v.re, num v.im⟩ ∧
      ‖v - q‖ ≤ p.reErr u c q + p.imErr u c q ∧
      ‖(a * v + b) / (c * v + d) - v‖ ≤ 5 * (p.reErr u c q + p.imErr u c q) ∧
      ∀ out : Beam (Fl ℝ rnd), e.mat.mulBeam mode = .ok out → p.rmat.bottomErr u v 0 < ‖c * v + d‖ →
        ∃ w : ℂ, out.q = ⟨num w.re, num w.im⟩ ∧ ‖w - v‖ ≤ p.rmat.bendErr u v 0 + 5 * (p.reErr u c q + p.imErr u c q) := by
  obtain ⟨v, h1, h2, h3, h4⟩ := C125_mode hr hm hb hb' ha hB hc hd hq him hpow hrel hfar
  have hn : ‖v - q‖ ≤ p.reErr u c q + p.imErr u c q := by
    refine (Complex.norm_le_abs_re_add_abs_im _).trans ?_
    rw [Complex.sub_re, Complex.sub_im]
    exact add_le_add h3 h4
  have hc0 : c ≠ 0 := by
    rintro rfl
    have h0 : 0 ≤ p.err u p.rmat.maj.c := mul_nonneg (relErr_nonneg hr.nonneg _) (buildR_mat hr hb).C.nonneg
    rw [abs_zero] at hpow
    have := hr.nonneg
    nlinarith
  have h5 := hq.moved him hc0 hn hsmall
  refine ⟨v, _, h1, rfl, hn, h5, fun out ho hbot => ?_⟩
  obtain ⟨w, e1, e2⟩ := C114_matrix hr hb hb' ha hB hc hd hbot rfl ho
  refine ⟨w, e1, ?_⟩
  calc ‖w - v‖ = ‖(w - (a * v + b) / (c * v + d)) + ((a * v + b) / (c * v + d) - v)‖ := by ring_nf
    _ ≤ _ := (norm_add_le _ _).trans (add_le_add e2 h5)

end

/-! ## An example -/

/-- a ring of length 40 closed by a lens of focal length 50 -/
noncomputable def ring40 : Part ℝ := .group "" [.space 40 1 none, .lens 50 none]

theorem ring40_air : ring40.InAir := by
  simp [ring40, Part.InAir, Part.InAirList, OpenDiam]

theorem ring40_room : ∀ s ∈ ring40.made, s.Room ((1 : ℝ) / 2 ^ 53) := by
  intro s hs
  simp only [ring40, Part.made, Part.madeList, Part.rmat, Part.rstages, List.headD_cons, List.mem_append, List.mem_cons, List.not_mem_nil, or_false,
    List.cons_append, List.nil_append] at hs
  rcases hs with rfl | rfl | rfl | rfl <;>
    norm_num [RStage.Room, relErr, RStage.andThen, RStage.one, Stage.withOps, Sys.stage, Sys.lens, Sys.space, Stage.andThen, Stage.abs, Sys.one]

/-- its round trip -/
theorem ring40_rmat : ring40.rmat.exact.a = 1 ∧ ring40.rmat.exact.b = 40 ∧ ring40.rmat.exact.c = -1 / 50 ∧ ring40.rmat.exact.d = 1 / 5 ∧
    ring40.rmat.maj.a = 1 ∧ ring40.rmat.maj.b = 40 ∧ ring40.rmat.maj.c = 1 / 50 ∧ ring40.rmat.maj.d = 9 / 5 ∧ ring40.rmat.ops = 5 := by
  norm_num [ring40, Part.rmat, Part.rmatList, Part.rstages, RStage.andThen, RStage.one, Stage.withOps, Sys.stage, Sys.lens, Sys.space, Stage.andThen, Stage.abs,
    Sys.one, abs_of_pos, abs_of_neg]

/-- its exact mode -/
theorem ring40_mode : Reproduced 1 40 (-1 / 50) (1 / 5) ⟨-20, 40⟩ := by
  have h0 : ((-1 / 50 : ℝ) : ℂ) * ⟨-20, 40⟩ + ((1 / 5 : ℝ) : ℂ) ≠ 0 := by
    intro h
    have := congrArg Complex.re h
    norm_num at this
  refine ⟨h0, ?_⟩
  rw [div_eq_iff h0]
  apply Complex.ext <;> simp <;> norm_num

/-- In Python floats, the ring of length 40 closed by a lens of focal length 50 has one laser mode, of which the complex radius is -20 + 40 i to 10⁻¹⁰: the
errors are below half of the Rayleigh range. -/
theorem C125_example : ∃ e, ∃ v : ℂ, ∃ mode : Beam (Fl ℝ doubleR), ring40.buildR doubleR = .ok e ∧
    @Mat.laserModes _ _ doubleRMath e.mat = .ok [mode] ∧ mode.q = ⟨num v.re, num v.im⟩ ∧ ‖v - ⟨-20, 40⟩‖ ≤ 1 / 10 ^ 10 := by
  let _ := doubleRMath
  obtain ⟨e, hb, -⟩ := buildR_accepts doubleR_rounding ring40_air ring40_room
  obtain ⟨e', hb', -, -⟩ := simple_group (K := ℝ) (ps := [.space 40 1 none, .lens 50 none]) (by
    intro p hp
    simp only [List.mem_cons, List.not_mem_nil, or_false] at hp
    rcases hp with rfl | rfl
    · exact .space _ _ diamOk_pinf
    · exact .lens _ (by norm_num) diamOk_pinf) ""
  have hb'' : ring40.build = .ok e' := hb'
  have hx := build_exactMat hb''
  obtain ⟨r1, r2, r3, r4, r5, r6, r7, r8, r9⟩ := ring40_rmat
  have k1 : ring40.err (1 / 2 ^ 53) ring40.rmat.maj.c ≤ 1 / 10 ^ 15 ∧ 0 ≤ ring40.err (1 / 2 ^ 53) ring40.rmat.maj.c := by
    unfold Part.err; rw [r7, r9]; norm_num [relErr]
  have k2 : ring40.stabilityErr (1 / 2 ^ 53) ≤ 1 / 10 ^ 13 ∧ 0 ≤ ring40.stabilityErr (1 / 2 ^ 53) := by
    unfold Part.stabilityErr RStage.deltaMaj; rw [r5, r6, r7, r8, r9]; norm_num [relErr]
  have k3 : roundErr (1 / 2 ^ 53) 6 ≤ 1 / 10 ^ 15 ∧ 0 ≤ roundErr (1 / 2 ^ 53) 6 := by norm_num [roundErr]
  have hre : ring40.reErr (1 / 2 ^ 53) (-1 / 50) ⟨-20, 40⟩ ≤ 1 / 10 ^ 11 := by
    unfold Part.reErr modeErr
    generalize ring40.err (1 / 2 ^ 53) ring40.rmat.maj.c = f at k1
    generalize roundErr (1 / 2 ^ 53) 6 = g at k3
    rw [r5, r8, r9]
    norm_num [relErr]
    nlinarith [k1.1, k1.2, k3.1, k3.2]
  have him : ring40.imErr (1 / 2 ^ 53) (-1 / 50) ⟨-20, 40⟩ ≤ 1 / 10 ^ 11 := by
    unfold Part.imErr modeErr
    generalize ring40.err (1 / 2 ^ 53) ring40.rmat.maj.c = f at k1
    generalize roundErr (1 / 2 ^ 53) 6 = g at k3
    generalize ring40.stabilityErr (1 / 2 ^ 53) = h at k2
    norm_num
    nlinarith [k1.1, k1.2, k3.1, k3.2, k2.1, k2.2]
  obtain ⟨v, mode, h1, h2, h3, -⟩ := C125_trip doubleR_rounding doubleRMath_float hb hb'' (r1 ▸ hx.A) (r2 ▸ hx.B) (r3 ▸ hx.C) (r4 ▸ hx.D) ring40_mode
    (by norm_num) (by norm_num; linarith [k1.1]) (by norm_num; linarith [k1.1]) (by norm_num; linarith [k2.1]) (by norm_num; linarith)
  exact ⟨e, v, mode, hb, h1, h2, h3.trans (by linarith)⟩

end RT
