import Verif.Lemmas.RoundedBend
import Verif.Lemmas.RoundedStop

/-! # Numbers computed without cancellation, and the sizes of Gaussian beams in floats -/

set_option linter.unusedSectionVars false

namespace RT
open PyNum Ext Fl

/-- `x` is `a` up to a factor between `(1-u)^k` and its inverse: what remains of `a` after `k` roundings when nothing cancels. -/
def Tight (u : ℝ) (k : ℕ) (x a : ℝ) : Prop := ∃ t, x = t * a ∧ (1 - u) ^ k ≤ t ∧ (1 - u) ^ k * t ≤ 1

variable {rnd : ℝ → ℝ} {u : ℝ}

namespace Tight

theorem refl (x : ℝ) : Tight u 0 x x := ⟨1, by ring, by simp, by simp⟩

section
variable (hr : Rounding rnd u)
include hr

theorem base : 0 < 1 - u ∧ 1 - u ≤ 1 := ⟨by linarith [hr.small], by linarith [hr.nonneg]⟩

theorem mono {k l : ℕ} {x a : ℝ} (h : Tight u k x a) (hkl : k ≤ l) : Tight u l x a := by
  obtain ⟨t, h1, h2, h3⟩ := h
  obtain ⟨b1, b2⟩ := base hr
  have h4 : (1 - u) ^ l ≤ (1 - u) ^ k := pow_le_pow_of_le_one b1.le b2 hkl
  have ht : 0 ≤ t := (pow_pos b1 k).le.trans h2
  exact ⟨t, h1, h4.trans h2, (mul_le_mul_of_nonneg_right h4 ht).trans h3⟩

theorem mul {k l : ℕ} {x a y b : ℝ} (h : Tight u k x a) (h' : Tight u l y b) : Tight u (k + l) (x * y) (a * b) := by
  obtain ⟨t, h1, h2, h3⟩ := h
  obtain ⟨s, k1, k2, k3⟩ := h'
  obtain ⟨b1, b2⟩ := base hr
  have p1 := pow_pos b1 k
  have p2 := pow_pos b1 l
  refine ⟨t * s, by rw [h1, k1]; ring, by rw [pow_add]; exact mul_le_mul h2 k2 p2.le (p1.le.trans h2), ?_⟩
  have : (1 - u) ^ (k + l) * (t * s) = ((1 - u) ^ k * t) * ((1 - u) ^ l * s) := by rw [pow_add]; ring
  rw [this]
  exact mul_le_one₀ h3 (mul_nonneg p2.le (p2.le.trans k2)) k3

theorem inv {k : ℕ} {x a : ℝ} (h : Tight u k x a) : Tight u k x⁻¹ a⁻¹ := by
  obtain ⟨t, h1, h2, h3⟩ := h
  obtain ⟨b1, b2⟩ := base hr
  have p1 := pow_pos b1 k
  have ht : 0 < t := lt_of_lt_of_le p1 h2
  refine ⟨t⁻¹, by rw [h1, mul_inv], ?_, ?_⟩
  · rw [← one_div, le_div_iff₀ ht]; exact h3
  · rw [← div_eq_mul_inv, div_le_one ht]; exact h2

theorem div {k l : ℕ} {x a y b : ℝ} (h : Tight u k x a) (h' : Tight u l y b) : Tight u (k + l) (x / y) (a / b) := by
  rw [div_eq_mul_inv, div_eq_mul_inv]; exact h.mul hr (h'.inv hr)

omit hr in
theorem neg {k : ℕ} {x a : ℝ} (h : Tight u k x a) : Tight u k (-x) (-a) := by
  obtain ⟨t, h1, h2, h3⟩ := h
  exact ⟨t, by rw [h1]; ring, h2, h3⟩

theorem add {k : ℕ} {x a y b : ℝ} (h : Tight u k x a) (h' : Tight u k y b) (hab : 0 ≤ a * b) : Tight u k (x + y) (a + b) := by
  obtain ⟨t, h1, h2, h3⟩ := h
  obtain ⟨s, k1, k2, k3⟩ := h'
  obtain ⟨b1, b2⟩ := base hr
  have p1 := pow_pos b1 k
  by_cases h0 : a + b = 0
  · have ha : a = 0 := by nlinarith [mul_self_nonneg a]
    have hb : b = 0 := by linarith
    exact ⟨t, by rw [h1, k1, ha, hb]; ring, h2, h3⟩
  · -- a mean of the two factors
    have hm : ∀ {c : ℝ}, c ≤ t → c ≤ s → c ≤ (t * a + s * b) / (a + b) := by
      intro c hc hc'
      rw [← sub_nonneg]
      have : (t * a + s * b) / (a + b) - c = ((t - c) * (a * (a + b)) + (s - c) * (b * (a + b))) / (a + b) ^ 2 := by field_simp; ring
      rw [this]
      have e1 : 0 ≤ a * (a + b) := by nlinarith [mul_self_nonneg a]
      have e2 : 0 ≤ b * (a + b) := by nlinarith [mul_self_nonneg b]
      have := mul_nonneg (sub_nonneg.2 hc) e1
      have := mul_nonneg (sub_nonneg.2 hc') e2
      positivity
    have hM : ∀ {c : ℝ}, t ≤ c → s ≤ c → (t * a + s * b) / (a + b) ≤ c := by
      intro c hc hc'
      rw [← sub_nonneg]
      have : c - (t * a + s * b) / (a + b) = ((c - t) * (a * (a + b)) + (c - s) * (b * (a + b))) / (a + b) ^ 2 := by field_simp; ring
      rw [this]
      have e1 : 0 ≤ a * (a + b) := by nlinarith [mul_self_nonneg a]
      have e2 : 0 ≤ b * (a + b) := by nlinarith [mul_self_nonneg b]
      have := mul_nonneg (sub_nonneg.2 hc) e1
      have := mul_nonneg (sub_nonneg.2 hc') e2
      positivity
    refine ⟨(t * a + s * b) / (a + b), by rw [div_mul_cancel₀ _ h0, h1, k1], hm h2 k2, ?_⟩
    have e3 : t ≤ 1 / (1 - u) ^ k := by rw [le_div_iff₀ p1, mul_comm]; exact h3
    have e4 : s ≤ 1 / (1 - u) ^ k := by rw [le_div_iff₀ p1, mul_comm]; exact k3
    have := hM e3 e4
    rwa [le_div_iff₀ p1, mul_comm] at this

theorem round {k : ℕ} {x a : ℝ} (h : Tight u k x a) : Tight u (k + 1) (rnd x) a := by
  have h1 : Tight u 1 (rnd x) x := by
    obtain ⟨b1, b2⟩ := base hr
    by_cases hx : x = 0
    · rw [hx, hr.zero]; exact (refl 0).mono hr (by omega)
    · refine ⟨rnd x / x, by rw [div_mul_cancel₀ _ hx], ?_, ?_⟩
      all_goals
        have h2 := hr.rel x
        have h3 : |rnd x / x - 1| ≤ u := by
          rw [show rnd x / x - 1 = (rnd x - x) / x by field_simp, abs_div, div_le_iff₀ (abs_pos.2 hx)]; exact h2
        rw [abs_le] at h3
        rw [pow_one]
      · linarith [h3.1]
      · have := mul_le_mul_of_nonneg_left (show rnd x / x ≤ 1 + u by linarith [h3.2]) b1.le
        nlinarith [sq_nonneg u]
  obtain ⟨t, e1, e2⟩ := h1
  obtain ⟨s, f1, f2⟩ := h
  have h2 : Tight u (k + 1) (s * t) (1 * 1) := by
    have i1 : Tight u k s 1 := ⟨s, by ring, f2⟩
    have i2 : Tight u 1 t 1 := ⟨t, by ring, e2⟩
    exact i1.mul hr i2
  obtain ⟨r, g1, g2⟩ := h2
  refine ⟨r, ?_, g2⟩
  rw [e1, f1]
  have : s * t = r := by linarith
  rw [← this]; ring

theorem sqrt {k : ℕ} {x a : ℝ} (h : Tight u (2 * k) x a) : Tight u k (Real.sqrt x) (Real.sqrt a) := by
  obtain ⟨t, h1, h2, h3⟩ := h
  obtain ⟨b1, b2⟩ := base hr
  have p1 := pow_pos b1 k
  have ht : 0 < t := lt_of_lt_of_le (pow_pos b1 _) h2
  have e : (1 - u) ^ (2 * k) = ((1 - u) ^ k) ^ 2 := by rw [← pow_mul, mul_comm]
  rw [e] at h2 h3
  refine ⟨Real.sqrt t, by rw [h1, Real.sqrt_mul ht.le], Real.le_sqrt_of_sq_le h2, ?_⟩
  rw [← Real.sqrt_sq p1.le, ← Real.sqrt_mul (sq_nonneg _)]
  exact Real.sqrt_le_one.2 h3

theorem pos_iff {k : ℕ} {x a : ℝ} (h : Tight u k x a) : 0 < x ↔ 0 < a := by
  obtain ⟨t, h1, h2, -⟩ := h
  have ht : 0 < t := lt_of_lt_of_le (pow_pos (base hr).1 _) h2
  rw [h1]
  exact mul_pos_iff_of_pos_left ht

theorem eq_zero_iff {k : ℕ} {x a : ℝ} (h : Tight u k x a) : x = 0 ↔ a = 0 := by
  obtain ⟨t, h1, h2, -⟩ := h
  have ht : 0 < t := lt_of_lt_of_le (pow_pos (base hr).1 _) h2
  rw [h1, mul_eq_zero]
  exact ⟨fun h => h.resolve_left ht.ne', .inr⟩

/-- the relative error -/
theorem trans {k l : ℕ} {x y z : ℝ} (h : Tight u k x y) (h' : Tight u l y z) : Tight u (k + l) x z := by
  obtain ⟨t, rfl, h2, h3⟩ := h
  obtain ⟨s, rfl, h5, h6⟩ := h'
  have b1 := (base hr).1
  have p1 := pow_pos b1 k
  have p2 := pow_pos b1 l
  refine ⟨t * s, by ring, ?_, ?_⟩
  · rw [pow_add]; exact mul_le_mul h2 h5 p2.le (p1.le.trans h2)
  · rw [pow_add, show (1 - u) ^ k * (1 - u) ^ l * (t * s) = ((1 - u) ^ k * t) * ((1 - u) ^ l * s) by ring]
    exact mul_le_one₀ h3 (mul_nonneg p2.le (p2.le.trans h5)) h6

theorem error {k : ℕ} {x a : ℝ} (h : Tight u k x a) : |x - a| ≤ (1 / (1 - u) ^ k - 1) * |a| := by
  obtain ⟨t, h1, h2, h3⟩ := h
  have p1 := pow_pos (base hr).1 k
  have p2 : (1 - u) ^ k ≤ 1 := pow_le_one₀ (base hr).1.le (base hr).2
  have e : x - a = (t - 1) * a := by rw [h1]; ring
  rw [e, abs_mul]
  refine mul_le_mul_of_nonneg_right ?_ (abs_nonneg a)
  have e3 : t ≤ 1 / (1 - u) ^ k := by rw [le_div_iff₀ p1, mul_comm]; exact h3
  rw [abs_le]
  refine ⟨?_, by linarith⟩
  have : 2 ≤ 1 / (1 - u) ^ k + (1 - u) ^ k := by
    rw [← sub_nonneg]
    have : 1 / (1 - u) ^ k + (1 - u) ^ k - 2 = ((1 - u) ^ k - 1) ^ 2 / (1 - u) ^ k := by field_simp; ring
    rw [this]; positivity
  linarith

end

end Tight

/-- The square root and the number pi of the module `math` are the exact ones, rounded. -/
structure FloatMath (rnd : ℝ → ℝ) [PyMath (Fl ℝ rnd)] : Prop where
  sqrt : ∀ x : ℝ, 0 ≤ x → (PyMath.sqrt (num x) : Fl ℝ rnd) = num (rnd (Real.sqrt x))
  pi : (PyMath.pi : Fl ℝ rnd) = num (rnd Real.pi)

section beams
variable (hr : Rounding rnd u)
include hr

/-- the division of a real number by a complex one: both parts are right up to 7 roundings -/
theorem inv_tight (c x y : ℝ) (h : ¬ (x = 0 ∧ y = 0)) :
    ∃ X Y : ℝ, Cx.div (Cx.ofReal (num c)) (⟨num x, num y⟩ : Cx (Fl ℝ rnd)) = .ok ⟨num X, num Y⟩ ∧
      Tight u 7 X (c * x / (x ^ 2 + y ^ 2)) ∧ Tight u 7 Y (-(c * y) / (x ^ 2 + y ^ 2)) := by
  unfold Cx.div Cx.ofReal
  simp only [zero_num hr, abs_num, le_num, eq_num, decide_eq_true_eq, rawDiv_num, num_mul, num_add, num_sub]
  by_cases hle : |y| ≤ |x|
  · have hx : x ≠ 0 := by
      intro e
      rw [e, abs_zero] at hle
      exact h ⟨e, abs_nonpos_iff.1 hle⟩
    have hs : x ^ 2 + y ^ 2 ≠ 0 := by positivity
    rw [if_pos hle, if_neg hx]
    refine ⟨_, _, rfl, ?_, ?_⟩
    all_goals
      have ratio : Tight u 1 (rnd (y / x)) (y / x) := (Tight.refl _).round hr
      have prod : Tight u 2 (rnd (y * rnd (y / x))) (y * (y / x)) := (((Tight.refl (u := u) y).mul hr ratio).mono hr (l := 1) (by omega)).round hr
      have denom : Tight u 3 (rnd (x + rnd (y * rnd (y / x)))) (x + y * (y / x)) :=
        (((Tight.refl (u := u) x).mono hr (by omega)).add hr prod (by
          have : x * (y * (y / x)) = y ^ 2 := by field_simp
          rw [this]; positivity)).round hr
    · rw [zero_mul, hr.zero, add_zero]
      have num1 : Tight u 1 (rnd c) c := (Tight.refl _).round hr
      have := ((num1.div hr denom).round hr).mono hr (l := 7) (by omega)
      rw [show c * x / (x ^ 2 + y ^ 2) = c / (x + y * (y / x)) by field_simp]
      exact this
    · have p1 : Tight u 2 (rnd (c * rnd (y / x))) (c * (y / x)) := (((Tight.refl (u := u) c).mul hr ratio).mono hr (l := 1) (by omega)).round hr
      have num1 : Tight u 3 (rnd (0 - rnd (c * rnd (y / x)))) (-(c * (y / x))) := by rw [zero_sub]; exact p1.neg.round hr
      have := (num1.div hr denom).round hr
      rw [show -(c * y) / (x ^ 2 + y ^ 2) = -(c * (y / x)) / (x + y * (y / x)) by field_simp]
      exact this
  · have hy : y ≠ 0 := by
      intro e
      rw [e, abs_zero] at hle
      exact hle (abs_nonneg _)
    have hs : x ^ 2 + y ^ 2 ≠ 0 := by positivity
    rw [if_neg hle, if_pos (le_of_not_ge hle)]
    refine ⟨_, _, rfl, ?_, ?_⟩
    all_goals
      have ratio : Tight u 1 (rnd (x / y)) (x / y) := (Tight.refl _).round hr
      have prod : Tight u 2 (rnd (x * rnd (x / y))) (x * (x / y)) := (((Tight.refl (u := u) x).mul hr ratio).mono hr (l := 1) (by omega)).round hr
      have denom : Tight u 3 (rnd (rnd (x * rnd (x / y)) + y)) (x * (x / y) + y) :=
        (prod.add hr ((Tight.refl (u := u) y).mono hr (by omega)) (by
          have : x * (x / y) * y = x ^ 2 := by field_simp
          rw [this]; positivity)).round hr
    · have p1 : Tight u 2 (rnd (c * rnd (x / y))) (c * (x / y)) := (((Tight.refl (u := u) c).mul hr ratio).mono hr (l := 1) (by omega)).round hr
      have num1 : Tight u 3 (rnd (rnd (c * rnd (x / y)) + 0)) (c * (x / y)) := by rw [add_zero]; exact p1.round hr
      have := (num1.div hr denom).round hr
      rw [show c * x / (x ^ 2 + y ^ 2) = c * (x / y) / (x * (x / y) + y) by field_simp]
      exact this
    · rw [zero_mul, hr.zero, zero_sub]
      have num1 : Tight u 1 (rnd (-c)) (-c) := (Tight.refl _).round hr
      have := ((num1.div hr denom).round hr).mono hr (l := 7) (by omega)
      rw [show -(c * y) / (x ^ 2 + y ^ 2) = -c / (x * (x / y) + y) by field_simp]
      exact this

variable [PyMath (Fl ℝ rnd)] (hm : FloatMath rnd)
include hm

/-- the size reported for a confined complex radius -/
theorem w_tight (x y : ℝ) (hy : 0 < y) {wl n : ℝ} (hl : 0 < wl) (hn : 0 < n) (z : Fl ℝ rnd) (c : Bool) :
    ∃ w : ℝ, (Beam.mk ⟨num x, num y⟩ (num wl) z (num n) c : Beam (Fl ℝ rnd)).w = .ok (num w) ∧
      Tight u 7 w (Real.sqrt (wl / n / (Real.pi * (y / (x ^ 2 + y ^ 2))))) := by
  have hpi := Real.pi_pos
  obtain ⟨X, Y, h1, -, h3⟩ := inv_tight hr (-1) x y (fun h => hy.ne' h.2)
  rw [show -(-1 * y) / (x ^ 2 + y ^ 2) = y / (x ^ 2 + y ^ 2) by ring] at h3
  have hY : 0 < Y := (h3.pos_iff hr).2 (by positivity)
  have a1 : Tight u 1 (rnd (wl / n)) (wl / n) := (Tight.refl _).round hr
  have a2 : Tight u 9 (rnd (rnd Real.pi * Y)) (Real.pi * (y / (x ^ 2 + y ^ 2))) :=
    ((((Tight.refl (u := u) Real.pi).round hr).mul hr h3).mono hr (l := 8) (by omega)).round hr
  have a3 : Tight u 11 (rnd (rnd (wl / n) / rnd (rnd Real.pi * Y))) (wl / n / (Real.pi * (y / (x ^ 2 + y ^ 2)))) :=
    ((a1.div hr a2).mono hr (l := 10) (by omega)).round hr
  have p2 : 0 < rnd (rnd Real.pi * Y) := (a2.pos_iff hr).2 (by positivity)
  have p3 := (a3.pos_iff hr).2 (by positivity)
  refine ⟨_, ?_, ((a3.mono hr (l := 2 * 6) (by omega)).sqrt hr).round hr⟩
  unfold Beam.w
  rw [isFinite_num hr]
  simp only [hy, decide_true, Bool.not_true, Bool.false_eq_true, if_false, bind, Except.bind]
  have e1 : (-1 : Fl ℝ rnd) = num (-1) := by rw [one_num hr, neg_num]
  rw [e1, h1]
  dsimp only
  rw [pyDiv_num hr _ _ hn.ne', hm.pi, num_mul]
  dsimp only
  rw [pyDiv_num hr _ _ p2.ne']
  dsimp only
  unfold pySqrt
  rw [zero_num hr, lt_num, decide_eq_false (not_lt.2 p3.le), hm.sqrt _ p3.le]
  rfl

/-- the size of the waist -/
theorem wo_tight (q : Fl ℝ rnd) (y : ℝ) (hy : 0 < y) {wl : ℝ} (hl : 0 < wl) (z n : Fl ℝ rnd) (c : Bool) :
    ∃ w : ℝ, (Beam.mk ⟨q, num y⟩ (num wl) z n c : Beam (Fl ℝ rnd)).wo = .ok (some (num w)) ∧ Tight u 3 w (Real.sqrt (y * wl / Real.pi)) := by
  have hpi := Real.pi_pos
  have a1 : Tight u 1 (rnd (y * wl)) (y * wl) := (Tight.refl _).round hr
  have a2 : Tight u 1 (rnd Real.pi) Real.pi := (Tight.refl _).round hr
  have a3 : Tight u 3 (rnd (rnd (y * wl) / rnd Real.pi)) (y * wl / Real.pi) := (a1.div hr a2).round hr
  have p3 := (a3.pos_iff hr).2 (by positivity)
  refine ⟨_, ?_, ((a3.mono hr (l := 2 * 2) (by omega)).sqrt hr).round hr⟩
  unfold Beam.wo Beam.zo
  rw [zero_num hr, lt_num, decide_eq_true hy]
  simp only [if_true, bind, Except.bind]
  rw [num_mul, hm.pi, pyDiv_num hr _ _ ((a2.pos_iff hr).2 hpi).ne']
  dsimp only
  unfold pySqrt
  rw [zero_num hr, lt_num, decide_eq_false (not_lt.2 p3.le), hm.sqrt _ p3.le]
  rfl

omit hm [PyMath (Fl ℝ rnd)] in
/-- the radius of curvature -/
theorem R_tight (x y : ℝ) (h : x ≠ 0 ∨ y ≠ 0) (wl z n : Fl ℝ rnd) (c : Bool) :
    (x = 0 → (Beam.mk ⟨num x, num y⟩ wl z n c : Beam (Fl ℝ rnd)).R = .ok inf) ∧
    (x ≠ 0 → ∃ r : ℝ, (Beam.mk ⟨num x, num y⟩ wl z n c : Beam (Fl ℝ rnd)).R = .ok (num r) ∧ Tight u 8 r ((x ^ 2 + y ^ 2) / x)) := by
  have h' : ¬ (x = 0 ∧ y = 0) := by tauto
  obtain ⟨X, Y, h1, h2, -⟩ := inv_tight hr 1 x y h'
  rw [one_mul] at h2
  have hs : x ^ 2 + y ^ 2 ≠ 0 := by
    rcases h with h | h <;> positivity
  have hz : (⟨num x, num y⟩ : Cx (Fl ℝ rnd)).isZero = false := by
    unfold Cx.isZero
    simp only [zero_num hr, eq_num]
    rw [← Bool.not_eq_true, Bool.and_eq_true, decide_eq_true_eq, decide_eq_true_eq]; exact h'
  unfold Beam.R
  simp only [hz, Bool.false_eq_true, if_false, bind, Except.bind]
  rw [one_num hr, h1]
  simp only [zero_num hr, eq_num]
  constructor
  · intro hx
    have : X = 0 := (h2.eq_zero_iff hr).2 (by rw [hx]; simp)
    rw [if_pos (decide_eq_true this)]
    rfl
  · intro hx
    have hX : X ≠ 0 := fun e => by
      have := (h2.eq_zero_iff hr).1 e
      rw [div_eq_zero_iff] at this
      tauto
    rw [if_neg (by simpa using hX), pyDiv_num hr _ _ hX]
    refine ⟨_, rfl, ?_⟩
    have := (((Tight.refl (u := u) 1).div hr h2).mono hr (l := 7) (by omega)).round hr
    rwa [show (1 : ℝ) / (x / (x ^ 2 + y ^ 2)) = (x ^ 2 + y ^ 2) / x by field_simp] at this

/-- the inverse of the complex radius made from a size and a curvature: `a - i b` with `a` of the curvature to 2 roundings, `b` of `wl / (n π w²)` to 12 -/
theorem qOf_tight {w n wl : ℝ} (hw : 0 < w) (hn : 0 < n) (hl : 0 < wl) (R : Option ℝ) (hR : ∀ r ∈ R, r ≠ 0) :
    ∃ a b X Y : ℝ, Beam.qOf (num w) (⟨optInf R⟩ : Fl ℝ rnd) (num n) (num wl) = .ok ⟨num X, num Y⟩ ∧
      Tight u 2 a (curvature R) ∧ Tight u 12 b (wl / n / (Real.pi * w * w)) ∧ 0 < b ∧
      Tight u 7 X (a / (a ^ 2 + b ^ 2)) ∧ Tight u 7 Y (b / (a ^ 2 + b ^ 2)) := by
  have hpi := Real.pi_pos
  obtain ⟨k, hk, hk'⟩ : ∃ k, pyDiv (1 : Fl ℝ rnd) ⟨optInf R⟩ = .ok (num k) ∧ Tight u 1 k (curvature R) := by
    cases R with
    | none => exact ⟨0, by rw [one_num hr]; exact pyDiv_num_inf hr 1, ((Tight.refl 0).mono hr (by omega))⟩
    | some r =>
      refine ⟨_, by rw [one_num hr]; exact pyDiv_num hr 1 r (hR r rfl), ?_⟩
      rw [curvature, inv_eq_one_div]
      exact (Tight.refl _).round hr
  -- the area
  have p3 : Tight u 3 (rnd (rnd (rnd Real.pi * w) * w)) (Real.pi * w * w) := by
    have e1 : Tight u 2 (rnd (rnd Real.pi * w)) (Real.pi * w) := ((((Tight.refl (u := u) Real.pi).round hr).mul hr (Tight.refl w)).mono hr (l := 1) (by omega)).round hr
    exact ((e1.mul hr (Tight.refl w)).mono hr (l := 2) (by omega)).round hr
  have p3' : rnd (rnd (rnd Real.pi * w) * w) ≠ 0 := ((p3.pos_iff hr).2 (by positivity)).ne'
  -- i times the wavelength
  have m1 : Cx.mul (⟨0, 1⟩ : Cx (Fl ℝ rnd)) (Cx.ofReal (num wl)) = ⟨num 0, num (rnd (rnd wl))⟩ := by
    unfold Cx.mul Cx.ofReal
    simp only [zero_num hr, one_num hr, num_mul, num_add, num_sub, zero_mul, mul_zero, one_mul, hr.zero, sub_zero, zero_add]
  obtain ⟨x2, y2, d2, ex2, ey2⟩ := div_real hr 0 (rnd (rnd wl)) n hn.ne'
  have hx2 : x2 = 0 := by rw [ex2]; simp [hr.zero]
  obtain ⟨x3, y3, d3, ex3, ey3⟩ := div_real hr x2 y2 _ p3'
  have hx3 : x3 = 0 := by rw [ex3, hx2]; simp [hr.zero]
  have t1 : Tight u 2 (rnd (rnd wl)) wl := ((Tight.refl _).round hr).round hr
  have t2 : Tight u 5 y2 (wl / n) := by
    rw [ey2]
    exact (((t1.round hr).div hr ((Tight.refl (u := u) n).round hr)).mono hr (l := 4) (by omega)).round hr
  have t3 : Tight u 11 y3 (wl / n / (Real.pi * w * w)) := by
    rw [ey3]
    exact (((t2.round hr).div hr (p3.round hr)).mono hr (l := 10) (by omega)).round hr
  have ta : Tight u 2 (rnd k) (curvature R) := hk'.round hr
  have tb : Tight u 12 (-(rnd (-y3))) (wl / n / (Real.pi * w * w)) := by
    have := (t3.neg.round hr).neg
    rwa [neg_neg] at this
  have hb : 0 < -(rnd (-y3)) := (tb.pos_iff hr).2 (by positivity)
  have e4 : Cx.sub (Cx.ofReal (num k)) (⟨num x3, num y3⟩ : Cx (Fl ℝ rnd)) = ⟨num (rnd k), num (rnd (-y3))⟩ := by
    unfold Cx.sub Cx.ofReal
    simp only [zero_num hr, num_sub, hx3, sub_zero, zero_sub]
  obtain ⟨X, Y, d5, h5, h6⟩ := inv_tight hr 1 (rnd k) (rnd (-y3)) (fun h => by rw [h.2] at hb; simp at hb)
  refine ⟨rnd k, -(rnd (-y3)), X, Y, ?_, ta, tb, hb, ?_, ?_⟩
  · unfold Beam.qOf
    simp only [bind, Except.bind]
    rw [hk]
    dsimp only
    rw [m1, d2]
    dsimp only
    rw [hm.pi, num_mul, num_mul, d3]
    dsimp only
    rw [e4, one_num hr]
    exact d5
  · rw [neg_sq]; rwa [one_mul] at h5
  · rw [neg_sq]; rwa [one_mul] at h6

end beams

end RT
