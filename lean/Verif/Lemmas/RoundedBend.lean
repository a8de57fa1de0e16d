import Verif.Lemmas.RoundedBeam
import Verif.Lemmas.Beam
import Verif.Spec.RoundedBeam

/-! # The law ABCD in floats -/

set_option linter.unusedSectionVars false

namespace RT
open PyNum Ext Fl
variable {rnd : ℝ → ℝ} {u : ℝ}

/-- the Python value of a complex number of floats -/
def cnum (z : ℂ) : Cx (Fl ℝ rnd) := ⟨num z.re, num z.im⟩

theorem norm_le_parts (z : ℂ) {P Q : ℝ} (h1 : |z.re| ≤ P) (h2 : |z.im| ≤ Q) : ‖z‖ ≤ ‖(⟨P, Q⟩ : ℂ)‖ := by
  rw [Complex.norm_def, Complex.norm_def]
  apply Real.sqrt_le_sqrt
  rw [Complex.normSq_apply, Complex.normSq_apply]
  have e1 : z.re * z.re ≤ P * P := by rw [← abs_mul_abs_self]; exact mul_self_le_mul_self (abs_nonneg _) h1
  have e2 : z.im * z.im ≤ Q * Q := by rw [← abs_mul_abs_self]; exact mul_self_le_mul_self (abs_nonneg _) h2
  exact add_le_add e1 e2

theorem norm_parts (z : ℂ) : ‖(⟨|z.re|, |z.im|⟩ : ℂ)‖ = ‖z‖ := by
  rw [Complex.norm_def, Complex.norm_def, Complex.normSq_apply, Complex.normSq_apply, abs_mul_abs_self, abs_mul_abs_self]

/-- `a * q + b` in floats -/
theorem lin_num (hr : Rounding rnd u) (a b : ℝ) (w : ℂ) :
    ∃ v : ℂ, Cx.add (Cx.mul (Cx.ofReal (num a)) (cnum w)) (Cx.ofReal (num b)) = (cnum v : Cx (Fl ℝ rnd)) ∧
      ‖v - (a * w + b)‖ ≤ relErr u 3 * (|a| * ‖w‖ + |b|) := by
  refine ⟨⟨rnd (rnd (rnd (a * w.re)) + b), rnd (rnd (rnd (a * w.im)))⟩, ?_, ?_⟩
  · simp only [Cx.add, Cx.mul, Cx.ofReal, cnum, zero_num hr, num_mul, num_add, num_sub, zero_mul, hr.zero, sub_zero, add_zero]
  · have n1 : Fl.Near u 2 (num (rnd (rnd (a * w.re))) : Fl ℝ rnd) (a * w.re) |a * w.re| := ((near_num u (a * w.re)).round hr).round hr
    have n2 : Fl.Near u 2 (num (rnd (rnd (a * w.im))) : Fl ℝ rnd) (a * w.im) |a * w.im| := ((near_num u (a * w.im)).round hr).round hr
    have n3 := (near_add_exact n1 ((near_num u b).mono hr.nonneg (l := 2) (by omega) le_rfl)).round hr
    have n4 := n2.round hr
    obtain ⟨x, e1, -, g1⟩ := n3
    obtain ⟨y, e2, -, g2⟩ := n4
    obtain rfl := num_inj e1
    obtain rfl := num_inj e2
    have hk : 0 ≤ relErr u 3 := relErr_nonneg hr.nonneg 3
    have h1 : ‖(⟨rnd (rnd (rnd (a * w.re)) + b), rnd (rnd (rnd (a * w.im)))⟩ : ℂ) - (a * w + b)‖ ≤
        ‖(⟨relErr u 3 * (|a * w.re| + |b|), relErr u 3 * |a * w.im|⟩ : ℂ)‖ := by
      apply norm_le_parts
      · simpa using g1
      · simpa using g2
    refine h1.trans ?_
    have e : (⟨relErr u 3 * (|a * w.re| + |b|), relErr u 3 * |a * w.im|⟩ : ℂ) = ((relErr u 3 : ℝ) : ℂ) * (((|a| : ℝ) : ℂ) * ⟨|w.re|, |w.im|⟩ + ((|b| : ℝ) : ℂ)) := by
      apply Complex.ext <;> simp [abs_mul]
    rw [e, norm_mul, Complex.norm_real, Real.norm_of_nonneg hk]
    refine mul_le_mul_of_nonneg_left ?_ hk
    refine (norm_add_le _ _).trans ?_
    rw [norm_mul, norm_parts, Complex.norm_real, Complex.norm_real, Real.norm_of_nonneg (abs_nonneg a), Real.norm_of_nonneg (abs_nonneg b)]

theorem inv_bound {f g : ℝ} (a3 : 1 ≤ g) (lo : 1 ≤ f * g) : -(g * g - 1) ≤ f - 1 := by
  have a5 : (2 - g * g) * g ≤ 1 := by nlinarith [mul_nonneg (sub_nonneg.2 a3) (show 0 ≤ g * g + g - 1 by nlinarith)]
  by_contra h
  rw [not_le] at h
  have a6 : f * g < (2 - g * g) * g := mul_lt_mul_of_pos_right (by linarith) (by linarith)
  linarith

/-- a divisor all of whose terms have the same sign -/
theorem smith_denom (hr : Rounding rnd u) {x y : ℝ} (hx : x ≠ 0) :
    RelD u 6 (num (rnd (x + rnd (y * rnd (y / x)))) : Fl ℝ rnd) (x + y * (y / x)) := by
  have hu := hr.nonneg
  have hs := hr.small
  have hxx : 0 < x * x := mul_self_pos.2 hx
  have hval : ∀ t : ℝ, x + t * (y * (y / x)) = (x * x + t * (y * y)) / x := by intro t; field_simp
  obtain ⟨δ1, d1, e1⟩ := hr.factor (y / x)
  obtain ⟨δ2, d2, e2⟩ := hr.factor (y * rnd (y / x))
  obtain ⟨δ3, d3, e3⟩ := hr.factor (x + rnd (y * rnd (y / x)))
  rw [abs_le] at d1 d2 d3
  have ef : rnd (x + rnd (y * rnd (y / x))) = (x * x + ((1 + δ1) * (1 + δ2)) * (y * y)) / x * (1 + δ3) := by
    rw [e3, e2, e1, ← hval]; ring
  have e0 : x + y * (y / x) = (x * x + y * y) / x := by field_simp
  set t := (1 + δ1) * (1 + δ2) with ht
  have hyy : 0 ≤ y * y := mul_self_nonneg y
  have p1 : 0 < 1 - u := by linarith
  have t1 : (1 - u) ^ 2 ≤ t := by rw [ht, sq]; exact mul_le_mul (by linarith) (by linarith) p1.le (by linarith)
  have t2 : t ≤ (1 + u) ^ 2 := by rw [ht, sq]; exact mul_le_mul (by linarith) (by linarith) (by linarith) (by linarith)
  have hpos : 0 < x * x + y * y := by linarith
  have hpos' : 0 < x * x + t * (y * y) := by
    have : 0 ≤ t * (y * y) := mul_nonneg ((sq_nonneg _).trans t1) hyy
    linarith
  have h3 : 0 < 1 + δ3 := by linarith
  refine ⟨_, rfl, ?_, ?_, ?_⟩
  · rw [e0]; exact div_ne_zero hpos.ne' hx
  · rw [ef]; exact mul_ne_zero (div_ne_zero hpos'.ne' hx) h3.ne'
  · rw [ef, e0]
    have e4 : (x * x + y * y) / x / ((x * x + t * (y * y)) / x * (1 + δ3)) = (x * x + y * y) / ((x * x + t * (y * y)) * (1 + δ3)) := by
      field_simp
    rw [e4]
    have hd : 0 < (x * x + t * (y * y)) * (1 + δ3) := mul_pos hpos' h3
    have k1 : (1 : ℝ) ≤ (1 - u) * (1 + u) ^ 2 := by nlinarith [mul_nonneg hu hu, mul_nonneg (mul_nonneg hu hu) hu]
    have hup : x * x + t * (y * y) ≤ (1 + u) ^ 2 * (x * x + y * y) := by
      have : t * (y * y) ≤ (1 + u) ^ 2 * (y * y) := mul_le_mul_of_nonneg_right t2 hyy
      have : x * x ≤ (1 + u) ^ 2 * (x * x) := by nlinarith
      linarith
    have hlo : (1 - u) ^ 2 * (x * x + y * y) ≤ x * x + t * (y * y) := by
      have : (1 - u) ^ 2 * (y * y) ≤ t * (y * y) := mul_le_mul_of_nonneg_right t1 hyy
      have : (1 - u) ^ 2 * (x * x) ≤ x * x := by nlinarith
      linarith
    have up : (x * x + y * y) / ((x * x + t * (y * y)) * (1 + δ3)) ≤ (1 + u) ^ 6 := by
      rw [div_le_iff₀ hd]
      have a1 : (1 - u) ^ 3 * (x * x + y * y) ≤ (x * x + t * (y * y)) * (1 + δ3) := by
        calc (1 - u) ^ 3 * (x * x + y * y) = ((1 - u) ^ 2 * (x * x + y * y)) * (1 - u) := by ring
          _ ≤ (x * x + t * (y * y)) * (1 + δ3) := mul_le_mul hlo (by linarith) p1.le hpos'.le
      have a2 : (1 : ℝ) ≤ (1 + u) ^ 6 * (1 - u) ^ 3 := by
        have : (1 + u) ^ 6 * (1 - u) ^ 3 = ((1 - u) * (1 + u) ^ 2) ^ 3 := by ring
        rw [this]; exact one_le_pow₀ k1
      calc x * x + y * y ≤ ((1 + u) ^ 6 * (1 - u) ^ 3) * (x * x + y * y) := by nlinarith
        _ = (1 + u) ^ 6 * ((1 - u) ^ 3 * (x * x + y * y)) := by ring
        _ ≤ _ := by gcongr
    have lo : 1 ≤ (x * x + y * y) / ((x * x + t * (y * y)) * (1 + δ3)) * (1 + u) ^ 3 := by
      rw [div_mul_eq_mul_div, le_div_iff₀ hd, one_mul]
      calc (x * x + t * (y * y)) * (1 + δ3) ≤ ((1 + u) ^ 2 * (x * x + y * y)) * (1 + u) := mul_le_mul hup (by linarith) h3.le (by positivity)
        _ = (x * x + y * y) * (1 + u) ^ 3 := by ring
    set f := (x * x + y * y) / ((x * x + t * (y * y)) * (1 + δ3)) with hf
    have f0 : 0 < f := div_pos hpos hd
    unfold relErr
    rw [abs_le]
    refine ⟨?_, by linarith⟩
    have a3 : (1 : ℝ) ≤ (1 + u) ^ 3 := one_le_pow₀ (by linarith)
    have a4 : (1 + u) ^ 6 = (1 + u) ^ 3 * (1 + u) ^ 3 := by ring
    rw [a4]
    generalize (1 + u) ^ 3 = g at lo a3 ⊢
    exact inv_bound a3 lo

theorem parts_le (z w : ℂ) : (|z.re| + |z.im|) * (|w.re| + |w.im|) ≤ 2 * (‖z‖ * ‖w‖) := by
  have key : ∀ z : ℂ, |z.re| + |z.im| ≤ Real.sqrt 2 * ‖z‖ := by
    intro z
    rw [Complex.norm_def, ← Real.sqrt_mul (by norm_num)]
    apply Real.le_sqrt_of_sq_le
    rw [Complex.normSq_apply]
    nlinarith [sq_nonneg (|z.re| - |z.im|), sq_abs z.re, sq_abs z.im]
  have h1 := key z
  have h2 := key w
  have h3 : Real.sqrt 2 * Real.sqrt 2 = 2 := Real.mul_self_sqrt (by norm_num)
  calc (|z.re| + |z.im|) * (|w.re| + |w.im|) ≤ (Real.sqrt 2 * ‖z‖) * (Real.sqrt 2 * ‖w‖) := mul_le_mul h1 h2 (by positivity) (by positivity)
    _ = Real.sqrt 2 * Real.sqrt 2 * (‖z‖ * ‖w‖) := by ring
    _ = _ := by rw [h3]

/-- The division of complex numbers, by the method of CPython. -/
theorem smith_num (hr : Rounding rnd u) (N : ℂ) {M : ℂ} (hM : M ≠ 0) :
    ∃ v : ℂ, Cx.div (cnum N) (cnum M) = .ok (cnum v : Cx (Fl ℝ rnd)) ∧ ‖v - N / M‖ ≤ 2 * relErr u 10 * (‖N‖ / ‖M‖) := by
  have hn : 0 < M.re * M.re + M.im * M.im := by
    rw [← Complex.normSq_apply]; exact Complex.normSq_pos.2 hM
  have hk : 0 ≤ relErr u 10 := relErr_nonneg hr.nonneg 10
  have hM0 : 0 < ‖M‖ := norm_pos_iff.2 hM
  have hsq : ‖M‖ * ‖M‖ = M.re * M.re + M.im * M.im := by rw [← Complex.normSq_apply, Complex.normSq_eq_norm_sq, sq]
  -- from the parts to the norm
  have fin : ∀ {v : ℂ} {P Q : ℝ}, |v.re - (N / M).re| ≤ relErr u 10 * P → |v.im - (N / M).im| ≤ relErr u 10 * Q →
      P + Q = (|N.re| + |N.im|) * (|M.re| + |M.im|) / (‖M‖ * ‖M‖) → ‖v - N / M‖ ≤ 2 * relErr u 10 * (‖N‖ / ‖M‖) := by
    intro v P Q h1 h2 h3
    have h4 := Complex.norm_le_abs_re_add_abs_im (v - N / M)
    rw [Complex.sub_re, Complex.sub_im] at h4
    have h5 : P + Q ≤ 2 * (‖N‖ / ‖M‖) := by
      rw [h3, div_le_iff₀ (mul_pos hM0 hM0)]
      refine (parts_le N M).trans (le_of_eq ?_)
      field_simp
    have h6 := mul_le_mul_of_nonneg_left h5 hk
    nlinarith
  unfold Cx.div cnum
  simp only [zero_num hr, abs_num, le_num, eq_num, decide_eq_true_eq, rawDiv_num, num_mul, num_add, num_sub]
  by_cases hle : |M.im| ≤ |M.re|
  · have hre : M.re ≠ 0 := by
      intro e
      rw [e, abs_zero] at hle
      exact hM (Complex.ext e (abs_nonpos_iff.1 hle))
    rw [if_pos hle, if_neg hre]
    have hden := smith_denom hr (y := M.im) hre
    have r1 : Fl.Near u 1 (num (rnd (M.im / M.re)) : Fl ℝ rnd) (M.im / M.re) |M.im / M.re| := (near_num u _).round hr
    have m1 := ((near_mul_exact hr.nonneg (near_num u N.im) r1).round hr)
    have m2 := ((near_mul_exact hr.nonneg (near_num u N.re) r1).round hr)
    have a1 := (near_add_exact ((near_num u N.re).mono hr.nonneg (l := 2) (by omega) le_rfl) m1).round hr
    have a2 := (near_add_exact ((near_num u N.im).mono hr.nonneg (l := 2) (by omega) le_rfl) m2.neg).round hr
    rw [← sub_eq_add_neg, ← sub_eq_add_neg] at a2
    obtain ⟨q1, c1, x1, f1, -, b1⟩ := a1.div hr hden
    obtain ⟨q2, c2, x2, f2, -, b2⟩ := a2.div hr hden
    rw [pyDiv_num hr _ _ (by obtain ⟨x', e1, -, e2, -⟩ := hden; rwa [num_inj e1])] at c1 c2
    cases c1; cases c2
    obtain rfl := num_inj f1
    obtain rfl := num_inj f2
    refine ⟨⟨_, _⟩, rfl, fin (P := (|N.re| + |N.im| * |M.im / M.re|) / |M.re + M.im * (M.im / M.re)|)
      (Q := (|N.im| + |N.re| * |M.im / M.re|) / |M.re + M.im * (M.im / M.re)|) ?_ ?_ ?_⟩
    · have e : (N.re + N.im * (M.im / M.re)) / (M.re + M.im * (M.im / M.re)) = (N / M).re := by
        rw [Complex.div_re, Complex.normSq_apply]
        have : M.re + M.im * (M.im / M.re) ≠ 0 := by obtain ⟨_, _, e1, _⟩ := hden; exact e1
        field_simp
      rw [← e]; exact b1
    · have e : (N.im - N.re * (M.im / M.re)) / (M.re + M.im * (M.im / M.re)) = (N / M).im := by
        rw [Complex.div_im, Complex.normSq_apply]
        have : M.re + M.im * (M.im / M.re) ≠ 0 := by obtain ⟨_, _, e1, _⟩ := hden; exact e1
        field_simp
      rw [← e]; exact b2
    · have e : |M.re + M.im * (M.im / M.re)| = ‖M‖ * ‖M‖ / |M.re| := by
        rw [hsq]; conv_rhs => rw [← abs_of_pos hn, ← abs_div]
        congr 1; field_simp
      have h0 : |M.re| ≠ 0 := abs_ne_zero.2 hre
      rw [e, abs_div]
      have := hM0.ne'
      field_simp
      ring
  · have him : M.im ≠ 0 := by
      intro e
      rw [e, abs_zero] at hle
      exact hle (abs_nonneg _)
    rw [if_neg hle, if_pos (le_of_not_ge hle)]
    have hden := smith_denom hr (y := M.re) him
    rw [add_comm] at hden
    rw [add_comm M.im] at hden
    have r1 : Fl.Near u 1 (num (rnd (M.re / M.im)) : Fl ℝ rnd) (M.re / M.im) |M.re / M.im| := (near_num u _).round hr
    have m1 := ((near_mul_exact hr.nonneg (near_num u N.re) r1).round hr)
    have m2 := ((near_mul_exact hr.nonneg (near_num u N.im) r1).round hr)
    have a1 := (near_add_exact m1 ((near_num u N.im).mono hr.nonneg (l := 2) (by omega) le_rfl)).round hr
    have a2 := (near_add_exact m2 ((near_num u N.re).neg.mono hr.nonneg (l := 2) (by omega) le_rfl)).round hr
    rw [← sub_eq_add_neg, ← sub_eq_add_neg] at a2
    obtain ⟨q1, c1, x1, f1, -, b1⟩ := a1.div hr hden
    obtain ⟨q2, c2, x2, f2, -, b2⟩ := a2.div hr hden
    rw [pyDiv_num hr _ _ (by obtain ⟨x', e1, -, e2, -⟩ := hden; rwa [num_inj e1])] at c1 c2
    cases c1; cases c2
    obtain rfl := num_inj f1
    obtain rfl := num_inj f2
    have hd0 : M.re * (M.re / M.im) + M.im ≠ 0 := by obtain ⟨_, _, e1, _⟩ := hden; exact e1
    refine ⟨⟨_, _⟩, rfl, fin (P := (|N.re| * |M.re / M.im| + |N.im|) / |M.re * (M.re / M.im) + M.im|)
      (Q := (|N.im| * |M.re / M.im| + |N.re|) / |M.re * (M.re / M.im) + M.im|) ?_ ?_ ?_⟩
    · have e : (N.re * (M.re / M.im) + N.im) / (M.re * (M.re / M.im) + M.im) = (N / M).re := by
        rw [Complex.div_re, Complex.normSq_apply]
        field_simp
      rw [← e]; exact b1
    · have e : (N.im * (M.re / M.im) - N.re) / (M.re * (M.re / M.im) + M.im) = (N / M).im := by
        rw [Complex.div_im, Complex.normSq_apply]
        field_simp
      rw [← e]; exact b2
    · have e : |M.re * (M.re / M.im) + M.im| = ‖M‖ * ‖M‖ / |M.im| := by
        rw [hsq]; conv_rhs => rw [← abs_of_pos hn, ← abs_div]
        congr 1; field_simp
      have h0 : |M.im| ≠ 0 := abs_ne_zero.2 him
      rw [e, abs_div]
      have := hM0.ne'
      field_simp
      ring

/-- `a * q + b` in floats, when `a`, `b` and `q` have errors -/
theorem lin_close (hr : Rounding rnd u) {a a' εa b b' εb : ℝ} {q w : ℂ} {ε : ℝ} (ha : |a' - a| ≤ εa) (hb : |b' - b| ≤ εb) (hq : ‖w - q‖ ≤ ε) :
    ∃ v : ℂ, Cx.add (Cx.mul (Cx.ofReal (num a')) (cnum w)) (Cx.ofReal (num b')) = (cnum v : Cx (Fl ℝ rnd)) ∧
      ‖v - (a * q + b)‖ ≤ linErr u a εa b εb q ε := by
  obtain ⟨v, h1, h2⟩ := lin_num hr a' b' w
  refine ⟨v, h1, ?_⟩
  have hk := relErr_nonneg hr.nonneg 3
  have hw : ‖w‖ ≤ ‖q‖ + ε := by
    have := norm_add_le q (w - q)
    rw [add_sub_cancel] at this
    linarith
  have ha1 : |a'| ≤ |a| + εa := by
    have := abs_sub_abs_le_abs_sub a' a; linarith
  have hb1 : |b'| ≤ |b| + εb := by
    have := abs_sub_abs_le_abs_sub b' b; linarith
  have hεa : 0 ≤ εa := (abs_nonneg _).trans ha
  have h3 : ‖(a' * w + b' : ℂ) - (a * q + b)‖ ≤ |a| * ε + εa * (‖q‖ + ε) + εb := by
    have e : (a' * w + b' : ℂ) - (a * q + b) = (a : ℂ) * (w - q) + ((a' - a : ℝ) : ℂ) * w + ((b' - b : ℝ) : ℂ) := by push_cast; ring
    rw [e]
    refine (norm_add_le _ _).trans (add_le_add ((norm_add_le _ _).trans (add_le_add ?_ ?_)) ?_)
    · rw [norm_mul, Complex.norm_real]; exact mul_le_mul_of_nonneg_left hq (norm_nonneg _)
    · rw [norm_mul, Complex.norm_real]; exact mul_le_mul ha hw (norm_nonneg _) hεa
    · rw [Complex.norm_real]; exact hb
  have h4 : |a'| * ‖w‖ + |b'| ≤ (|a| + εa) * (‖q‖ + ε) + (|b| + εb) :=
    add_le_add (mul_le_mul ha1 hw (norm_nonneg _) (by positivity)) hb1
  have h5 := mul_le_mul_of_nonneg_left h4 hk
  have h6 : v - (a * q + b) = (v - (a' * w + b')) + ((a' * w + b' : ℂ) - (a * q + b)) := by ring
  rw [h6]
  refine (norm_add_le _ _).trans ?_
  unfold linErr
  linarith

/-- A quotient in floats, when both terms have errors. -/
theorem div_close (hr : Rounding rnd u) {N M N' M' : ℂ} {eN eM : ℝ} (hN : ‖N' - N‖ ≤ eN) (hM : ‖M' - M‖ ≤ eM) (hlt : eM < ‖M‖) :
    ∃ v : ℂ, Cx.div (cnum N') (cnum M') = .ok (cnum v : Cx (Fl ℝ rnd)) ∧
      ‖v - N / M‖ ≤ (eN + ‖N / M‖ * eM + 2 * relErr u 10 * (‖N‖ + eN)) / (‖M‖ - eM) := by
  have hM1 : ‖M‖ - eM ≤ ‖M'‖ := by
    have := norm_sub_norm_le M M'
    rw [norm_sub_rev] at this
    linarith
  have hd : 0 < ‖M‖ - eM := by linarith
  have hM0 : 0 < ‖M'‖ := lt_of_lt_of_le hd hM1
  have hM' : M' ≠ 0 := norm_pos_iff.1 hM0
  have hMne : M ≠ 0 := by
    rintro rfl
    rw [norm_zero] at hlt
    linarith [(norm_nonneg _).trans hM]
  obtain ⟨v, h1, h2⟩ := smith_num hr N' hM'
  refine ⟨v, h1, ?_⟩
  have hk := relErr_nonneg hr.nonneg 10
  have hN1 : ‖N'‖ ≤ ‖N‖ + eN := by
    have := norm_add_le N (N' - N)
    rw [add_sub_cancel] at this
    linarith
  have h3 : ‖N' / M' - N / M‖ ≤ (eN + ‖N / M‖ * eM) / (‖M‖ - eM) := by
    have e : N' / M' - N / M = ((N' - N) - N / M * (M' - M)) / M' := by field_simp; ring
    rw [e, norm_div]
    have h4 : ‖(N' - N) - N / M * (M' - M)‖ ≤ eN + ‖N / M‖ * eM := by
      refine (norm_sub_le _ _).trans (add_le_add hN ?_)
      rw [norm_mul]; exact mul_le_mul_of_nonneg_left hM (norm_nonneg _)
    exact div_le_div₀ ((norm_nonneg _).trans h4) h4 hd hM1
  have h5 : 2 * relErr u 10 * (‖N'‖ / ‖M'‖) ≤ 2 * relErr u 10 * (‖N‖ + eN) / (‖M‖ - eM) := by
    rw [mul_div_assoc]
    refine mul_le_mul_of_nonneg_left ?_ (by positivity)
    exact div_le_div₀ ((norm_nonneg _).trans hN1) hN1 hd hM1
  have h6 : v - N / M = (v - N' / M') + (N' / M' - N / M) := by ring
  rw [h6, add_div]
  refine (norm_add_le _ _).trans ?_
  linarith

/-- the complex radius after an element, in floats -/
theorem bend_close (hr : Rounding rnd u) {m : Mat (Fl ℝ rnd)} {s : RStage ℝ} (hm : NearMat u m s) {w q : ℂ} {ε : ℝ} (hq : ‖w - q‖ ≤ ε)
    (hc : s.bottomErr u q ε < ‖s.exact.c * q + s.exact.d‖) :
    ∃ v : ℂ, Cx.div (Cx.add (Cx.mul (Cx.ofReal m.A) (cnum w)) (Cx.ofReal m.B)) (Cx.add (Cx.mul (Cx.ofReal m.C) (cnum w)) (Cx.ofReal m.D)) =
      .ok (cnum v : Cx (Fl ℝ rnd)) ∧ ‖v - s.exact.bend q‖ ≤ s.bendErr u q ε := by
  obtain ⟨a', ea, -, ha⟩ := hm.A
  obtain ⟨b', eb, -, hb⟩ := hm.B
  obtain ⟨c', ec, -, hc'⟩ := hm.C
  obtain ⟨d', ed, -, hd⟩ := hm.D
  obtain ⟨N', h1, h2⟩ := lin_close hr ha hb hq
  obtain ⟨M', h3, h4⟩ := lin_close hr hc' hd hq
  rw [ea, eb, ec, ed, h1, h3]
  exact div_close hr h2 h4 hc

section
variable [PyMath (Fl ℝ rnd)]

/-- An element that does not refuse a beam. -/
theorem mulBeam_close (hr : Rounding rnd u) {m : Mat (Fl ℝ rnd)} {s : RStage ℝ} (hm : RStageOf u m s) {w q : ℂ} {ε : ℝ} (hq : ‖w - q‖ ≤ ε)
    (hc : s.bottomErr u q ε < ‖s.exact.c * q + s.exact.d‖) {b b' : Beam (Fl ℝ rnd)} (hb : b.q = cnum w) (h : m.mulBeam b = .ok b') :
    ∃ v : ℂ, b'.q = cnum v ∧ ‖v - s.exact.bend q‖ ≤ s.bendErr u q ε := by
  rw [mulBeam_linear hm.linear] at h
  obtain ⟨v, h1, h2⟩ := bend_close hr (hm.nearMat hr.nonneg) hq hc
  unfold Mat.mulBeamBase at h
  split_ifs at h
  rw [hb, h1] at h
  simp only [bind, Except.bind] at h
  split at h
  · cases h
  · cases h
    exact ⟨v, rfl, h2⟩

theorem runBeam_close (hr : Rounding rnd u) {ms : List (Mat (Fl ℝ rnd))} {ss : List (RStage ℝ)} (hs : List.Forall₂ (RStageOf u) ms ss) {w q : ℂ} {ε : ℝ}
    (hq : ‖w - q‖ ≤ ε) (hc : BeamClear u ss q ε) {b b' : Beam (Fl ℝ rnd)} (hb : b.q = cnum w) (h : runBeam ms b = .ok b') :
    ∃ v : ℂ, b'.q = cnum v ∧ ‖v - beamAfter (ss.map RStage.exact) q‖ ≤ beamErr u ss q ε := by
  induction hs generalizing w q ε b with
  | nil =>
    simp only [runBeam, Except.ok.injEq] at h
    subst h
    exact ⟨w, hb, by simpa [beamAfter, beamErr] using hq⟩
  | @cons m s ms ss h1 _ ih =>
    unfold runBeam at h
    split at h
    · cases h
    · next b1 hb1 =>
      obtain ⟨v, e1, e2⟩ := mulBeam_close hr h1 hq hc.1 hb hb1
      exact ih e2 hc.2 e1 h

/-- the number pi of the module `math`: a positive number -/
def PiOk (rnd : ℝ → ℝ) [PyMath (Fl ℝ rnd)] : Prop := ∃ π' : ℝ, (PyMath.pi : Fl ℝ rnd) = num π' ∧ 0 < π'

/-- the size of a beam can be computed -/
theorem w_num (hr : Rounding rnd u) (hp : PiOk rnd) (v : ℂ) {wl n : ℝ} (hl : 0 < wl) (hn : 0 < n) (z : Fl ℝ rnd) (c : Bool) :
    ∃ x, (Beam.mk (cnum v) (num wl) z (num n) c : Beam (Fl ℝ rnd)).w = .ok x := by
  unfold Beam.w
  have hf := isFinite_num hr v.re v.im (num wl) z (num n) c
  change (Beam.mk (cnum v) (num wl) z (num n) c : Beam (Fl ℝ rnd)).isFinite = _ at hf
  rw [hf]
  by_cases h : 0 < v.im
  · obtain ⟨x, y, h1, h2⟩ := div_sign hr v.re v.im (fun h' => h.ne' h'.2)
    change Cx.div (Cx.ofReal (-1)) (cnum v) = _ at h1
    obtain ⟨π', e1, e2⟩ := hp
    have hy : 0 < y := by
      rw [sign_pos h] at h2; exact sign_eq_one_iff.1 h2
    simp only [h, decide_true, Bool.not_true, Bool.false_eq_true, if_false, bind, Except.bind]
    rw [h1]
    dsimp only
    rw [pyDiv_num hr _ _ hn.ne', e1, num_mul]
    dsimp only
    have h3 : 0 < rnd (π' * y) := hr.pos (mul_pos e2 hy)
    rw [pyDiv_num hr _ _ h3.ne']
    dsimp only
    unfold pySqrt
    rw [zero_num hr, lt_num, decide_eq_false (not_lt.2 (hr.pos (div_pos (hr.pos (div_pos hl hn)) h3)).le)]
    exact ⟨_, rfl⟩
  · simp only [h, decide_false, Bool.not_false, if_true]
    exact ⟨_, rfl⟩

/-- An element in air accepts a beam. -/
theorem mulBeam_air (hr : Rounding rnd u) (hp : PiOk rnd) {m : Mat (Fl ℝ rnd)} {s : RStage ℝ} (hm : RStageOf u m s) (hair : AirMat m) {w q : ℂ} {ε : ℝ}
    (hq : ‖w - q‖ ≤ ε) (hc : s.bottomErr u q ε < ‖s.exact.c * q + s.exact.d‖) {wl : ℝ} (hl : 0 < wl) {b : Beam (Fl ℝ rnd)} (hb : b.q = cnum w)
    (hn : b.n = num 1) (hw : b.wavelength = num wl) :
    ∃ b', m.mulBeam b = .ok b' ∧ b'.n = num 1 ∧ b'.wavelength = num wl := by
  rw [mulBeam_linear hm.linear]
  obtain ⟨v, h1, -⟩ := bend_close hr (hm.nearMat hr.nonneg) hq hc
  unfold Mat.mulBeamBase
  have e : (b.n !=. m.frontIndex) = false := by
    rw [hn, hair.1]
    show (!((num 1 : Fl ℝ rnd) ==. num 1)) = false
    rw [eq_num]; simp
  rw [e, hb, h1]
  obtain ⟨x, hx⟩ := w_num hr hp v hl one_pos (m.L + b.z) false
  simp only [Bool.false_eq_true, if_false, bind, Except.bind, hair.2, hw]
  rw [hx]
  exact ⟨_, rfl, rfl, rfl⟩

theorem runBeam_air (hr : Rounding rnd u) (hp : PiOk rnd) {ms : List (Mat (Fl ℝ rnd))} {ss : List (RStage ℝ)} (hs : List.Forall₂ (RStageOf u) ms ss)
    (hair : ∀ m ∈ ms, AirMat m) {w q : ℂ} {ε : ℝ} (hq : ‖w - q‖ ≤ ε) (hc : BeamClear u ss q ε) {wl : ℝ} (hl : 0 < wl) {b : Beam (Fl ℝ rnd)}
    (hb : b.q = cnum w) (hn : b.n = num 1) (hw : b.wavelength = num wl) : ∃ b', runBeam ms b = .ok b' := by
  induction hs generalizing w q ε b with
  | nil => exact ⟨b, rfl⟩
  | @cons m s ms ss h1 _ ih =>
    obtain ⟨b1, e1, e2, e3⟩ := mulBeam_air hr hp h1 (hair m (by simp)) hq hc.1 hl hb hn hw
    obtain ⟨v, e4, e5⟩ := mulBeam_close hr h1 hq hc.1 hb e1
    obtain ⟨b', e6⟩ := ih (fun m hm => hair m (List.mem_cons_of_mem _ hm)) e5 hc.2 e4 e2 e3
    refine ⟨b', ?_⟩
    unfold runBeam
    rw [e1]
    exact e6

end

/-! ## Systems in air -/

section
variable {K : Type} [Field K] [LinearOrder K] [IsStrictOrderedRing K] {rnd : K → K} {u : K}

/-- every matrix of the element is in air -/
def Elem.Airy (e : Elem (Fl K rnd)) : Prop := AirMat e.mat ∧ ∀ m ∈ leaves e.items, AirMat m

theorem transferMatrixList_air {es : List (Elem (Fl K rnd))} (hes : ∀ e ∈ es, AirMat e.mat) {up : Fl K rnd} {acc t : Mat (Fl K rnd)} (ha : AirMat acc)
    (hL : ∀ e ∈ es, ∃ l, e.mat.L = num l) (hup : up = inf) (h : transferMatrixList es up acc = .ok t) : AirMat t := by
  induction es generalizing acc up with
  | nil => simp only [transferMatrixList, Except.ok.injEq] at h; exact h ▸ ha
  | cons e es ih =>
    obtain ⟨l, hl⟩ := hL e (by simp)
    subst hup
    unfold transferMatrixList at h
    rw [if_pos (by rw [hl]; rfl)] at h
    cases hm : e.mat.mulMatrix acc with
    | error x => simp [hm] at h
    | ok p =>
      simp only [hm] at h
      rw [mulMatrix_okF hm] at h
      exact ih (fun e he => hes e (List.mem_cons_of_mem _ he)) (mulRaw_air (hes e (by simp)) ha) (fun e he => hL e (List.mem_cons_of_mem _ he))
        (by rw [hl]; rfl) h

theorem appendAll_air (hr : Rounding rnd u) {es : List (Elem (Fl K rnd))} (hes : ∀ e ∈ es, AirMat e.mat ∧ ∃ l, e.mat.L = num l) {g g' : Group (Fl K rnd)}
    (hg : ∀ e ∈ g.elems, AirMat e.mat ∧ ∃ l, e.mat.L = num l) (hga : AirMat g.mat) (h : g.appendAll es = (g', .ok ())) :
    g'.elems = g.elems ++ es ∧ AirMat g'.mat := by
  induction es generalizing g with
  | nil =>
    simp only [Group.appendAll, Prod.mk.injEq, and_true] at h
    subst h
    exact ⟨by simp, hga⟩
  | cons e es ih =>
    have he := hes e (by simp)
    have h1 : g.append e = g.push e := by
      unfold Group.append
      cases hl : g.elems.getLast? with
      | none => rfl
      | some last =>
        have hs' := hg last (List.mem_of_getLast? hl)
        simp only [hs'.1.2, he.1.1]
        have : ((num 1 : Fl K rnd) !=. num 1) = false := by
          show (!((num 1 : Fl K rnd) ==. num 1)) = false
          rw [eq_num]; simp
        rw [this]; rfl
    unfold Group.appendAll at h
    rw [h1] at h
    unfold Group.push at h
    dsimp only at h
    have hg' : ∀ x ∈ g.elems ++ [e], AirMat x.mat ∧ ∃ l, x.mat.L = num l := by
      intro x hx
      rcases List.mem_append.1 hx with hx | hx
      · exact hg x hx
      · rw [List.mem_singleton.1 hx]; exact he
    cases ht : transferMatrixList (g.elems ++ [e]) inf Mat.one with
    | error x => simp [ht] at h
    | ok t =>
      simp only [ht] at h
      have hta := transferMatrixList_air (fun x hx => (hg' x hx).1) ⟨one_num hr, one_num hr⟩ (fun x hx => (hg' x hx).2) rfl ht
      obtain ⟨h2, h3⟩ := ih (fun e he => hes e (List.mem_cons_of_mem _ he)) (g := { g with elems := g.elems ++ [e], mat := g.mat.refresh t }) hg' hta h
      exact ⟨by rw [h2]; simp, h3⟩

theorem leaf_airy {m : Mat (Fl K rnd)} (h : AirMat m) : (Elem.leaf m).Airy := ⟨h, by simpa [Elem.items, leaves] using h⟩

theorem mkThickOf_air (hr : Rounding rnd u) {kind : Kind (Fl K rnd)} {n R1 R2 t d : Fl K rnd} {m : Mat (Fl K rnd)}
    (h : mkThickOf kind n R1 R2 t d = .ok m) : AirMat m := by
  unfold mkThickOf at h
  obtain ⟨a, -, h⟩ := bind_ok h
  obtain ⟨b, -, h⟩ := bind_ok h
  obtain ⟨c, -, h⟩ := bind_ok h
  obtain ⟨d, -, h⟩ := bind_ok h
  obtain ⟨rfl, -⟩ := init_okF h
  exact ⟨one_num hr, one_num hr⟩

mutual
theorem buildR_airy (hr : Rounding rnd u) : ∀ {p : Part K} {e : Elem (Fl K rnd)}, p.InAir → p.buildR rnd = .ok e → e.Airy
  | .space d n diam, e, ha, hb => by
    unfold Part.buildR Part.buildWith at hb; obtain ⟨m, h, rfl⟩ := Except.map_ok hb
    unfold mkSpace at h; obtain ⟨rfl, -⟩ := init_okF h
    exact leaf_airy ⟨by rw [← ha.1], by rw [← ha.1]⟩
  | .lens f diam, e, ha, hb => by
    unfold Part.buildR Part.buildWith mkLens at hb; obtain ⟨m, h, rfl⟩ := Except.map_ok hb
    obtain ⟨c, -, h⟩ := bind_ok h
    obtain ⟨rfl, -⟩ := init_okF h
    exact leaf_airy ⟨one_num hr, one_num hr⟩
  | .mirror R diam, e, ha, hb => by
    unfold Part.buildR Part.buildWith mkCurvedMirror at hb; obtain ⟨m, h, rfl⟩ := Except.map_ok hb
    obtain ⟨c, -, h⟩ := bind_ok h
    obtain ⟨rfl, -⟩ := init_okF h
    exact leaf_airy ⟨one_num hr, one_num hr⟩
  | .interface .., e, ha, hb => ha.elim
  | .thickLens n R1 R2 t diam, e, ha, hb => by
    unfold Part.buildR Part.buildWith mkThickLens at hb; obtain ⟨m, h, rfl⟩ := Except.map_ok hb
    exact leaf_airy (mkThickOf_air hr h)
  | .slab n t diam, e, ha, hb => by
    unfold Part.buildR Part.buildWith mkSlab at hb; obtain ⟨m, h, rfl⟩ := Except.map_ok hb
    exact leaf_airy (mkThickOf_air hr h)
  | .aperture diam na label, e, ha, hb => by
    unfold Part.buildR Part.buildWith mkAperture at hb; obtain ⟨m, h, rfl⟩ := Except.map_ok hb
    obtain ⟨rfl, -⟩ := init_okF h
    exact leaf_airy ⟨one_num hr, one_num hr⟩
  | .matrix s fv bv diam, e, ha, hb => by
    unfold Part.buildR Part.buildWith at hb; obtain ⟨m, h, rfl⟩ := Except.map_ok hb
    obtain ⟨rfl, -⟩ := init_okF h
    exact leaf_airy ⟨by simp [genericMatWith, ha.1], by simp [genericMatWith, ha.2.1]⟩
  | .group label ps, e, ha, hb => by
    unfold Part.buildR Part.buildWith at hb
    split at hb
    · simp at hb
    · next es hes =>
      obtain ⟨g, hnew, rfl⟩ := Except.map_ok hb
      have h1 := buildListR_airy hr ha hes
      unfold Group.new at hnew
      split at hnew
      · next g1 hg1 =>
        cases hnew
        obtain ⟨q1, q2⟩ := appendAll_air hr (fun e he => ⟨(h1 e he).1.1, (h1 e he).2⟩) (g := Group.empty label) (by simp [Group.empty])
          ⟨one_num hr, one_num hr⟩ hg1
        refine ⟨q2, ?_⟩
        have hi : leaves (g.toElem).items = leaves (itemsList es) := by
          have : g.elems = es := by rw [q1]; simp [Group.empty]
          simp [Group.toElem, Elem.items, leaves, this]
        rw [hi]
        have key : ∀ l : List (Elem (Fl K rnd)), (∀ e ∈ l, e.Airy) → ∀ m ∈ leaves (itemsList l), AirMat m := by
          intro l
          induction l with
          | nil => simp [itemsList, leaves]
          | cons x xs ih =>
            intro hx m hm
            simp only [itemsList, leaves_append, List.mem_append] at hm
            rcases hm with hm | hm
            · exact (hx x (by simp)).2 m hm
            · exact ih (fun e he => hx e (List.mem_cons_of_mem _ he)) m hm
        exact key es (fun e he => (h1 e he).1)
      · cases hnew
theorem buildListR_airy (hr : Rounding rnd u) : ∀ {ps : List (Part K)} {es : List (Elem (Fl K rnd))}, Part.InAirList ps →
    Part.buildListWith num optNum ps = .ok es → ∀ e ∈ es, e.Airy ∧ ∃ l, e.mat.L = num l
  | [], es, _, hb => by simp only [Part.buildListWith, Except.ok.injEq] at hb; subst hb; simp
  | p :: ps, es, ha, hb => by
    unfold Part.InAirList at ha
    unfold Part.buildListWith at hb
    split at hb
    · simp at hb
    · next e he =>
      split at hb
      · simp at hb
      · next es' hes =>
        simp only [Except.ok.injEq] at hb; subst hb
        intro x hx
        rcases List.mem_cons.1 hx with rfl | hx
        · refine ⟨buildR_airy hr ha.1 he, ?_⟩
          obtain ⟨l, hl, -⟩ := (buildR_mat hr he).L
          exact ⟨l, hl⟩
        · exact buildListR_airy hr ha.2 hes x hx
end

theorem append_kind {F : Type} [PyNum F] (g : Group F) (e : Elem F) : (g.append e).1.mat.kind = g.mat.kind := by
  have h : ∀ e, (g.push e).1.mat.kind = g.mat.kind := by
    intro e
    unfold Group.push
    dsimp only
    split <;> rfl
  unfold Group.append
  split
  · exact h e
  · split_ifs
    · exact h _
    · rfl
    · exact h e

theorem appendAll_kind {F : Type} [PyNum F] (es : List (Elem F)) (g : Group F) : (g.appendAll es).1.mat.kind = g.mat.kind := by
  induction es generalizing g with
  | nil => rfl
  | cons e es ih =>
    have h := append_kind g e
    unfold Group.appendAll
    split
    · next g1 hg => rw [hg] at h; rw [ih]; exact h
    · next g1 x hg => rw [hg] at h; exact h

/-- The matrix of a system is not an axicon. -/
theorem buildR_linear (hr : Rounding rnd u) {p : Part K} {e : Elem (Fl K rnd)} (hb : p.buildR rnd = .ok e) : e.mat.Linear := by
  have hs := (buildR_stages hr hb).1
  cases e with
  | leaf m =>
    unfold ItemRStages at hs
    simp only [Elem.items, leaves] at hs
    generalize p.rstages = ss at hs
    cases hs with
    | cons h1 _ => exact h1.linear
  | group m c es0 =>
    cases p with
    | group label ps =>
      unfold Part.buildR Part.buildWith at hb
      split at hb
      · simp at hb
      · next es hes =>
        obtain ⟨g, hnew, he⟩ := Except.map_ok hb
        unfold Group.new at hnew
        split at hnew
        · next g1 hg1 =>
          cases hnew
          have hk := appendAll_kind es (Group.empty label : Group (Fl K rnd))
          rw [hg1] at hk
          intro n a
          have : (Elem.group m c es0).mat.kind = .group := by
            rw [← he]; exact hk
          rw [this]
          simp
        · cases hnew
    | _ =>
      unfold Part.buildR Part.buildWith at hb
      obtain ⟨m', -, h⟩ := Except.map_ok hb
      cases h

end

end RT
