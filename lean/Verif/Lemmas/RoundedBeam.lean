import Verif.Model.Beam
import Verif.Lemmas.RoundedMatrix
import Verif.Lemmas.RoundedAccept
import Mathlib.Data.Sign.Basic

/-! # Complex radii in floats -/

set_option linter.unusedSectionVars false

namespace RT
open PyNum Ext Fl
variable {K : Type} [Field K] [LinearOrder K] [IsStrictOrderedRing K]
variable {rnd : K → K} {u : K}

namespace Rounding
variable (hr : Rounding rnd u)
include hr

theorem neg_iff {x : K} : rnd x < 0 ↔ x < 0 := by
  have key : ∀ {x : K}, x < 0 → rnd x < 0 := by
    intro x h
    have h1 := (_root_.abs_le.1 (hr.rel x)).2
    rw [abs_of_neg h] at h1
    have : u * -x ≤ 1 / 8 * -x := by nlinarith [hr.small]
    linarith
  refine ⟨fun h => ?_, key⟩
  rcases lt_trichotomy x 0 with h1 | h1 | h1
  · exact h1
  · rw [h1, hr.zero] at h; exact absurd h (lt_irrefl _)
  · exact absurd (hr.pos h1) (not_lt.2 h.le)

theorem pos_iff {x : K} : 0 < rnd x ↔ 0 < x := by
  refine ⟨fun h => ?_, hr.pos⟩
  rcases lt_trichotomy x 0 with h1 | h1 | h1
  · exact absurd (hr.neg_iff.2 h1) (not_lt.2 h.le)
  · rw [h1, hr.zero] at h; exact absurd h (lt_irrefl _)
  · exact h1

theorem eq_zero_iff {x : K} : rnd x = 0 ↔ x = 0 :=
  ⟨fun h => by by_contra h'; exact hr.ne_zero h' h, fun h => by rw [h, hr.zero]⟩

theorem nonneg_iff {x : K} : 0 ≤ rnd x ↔ 0 ≤ x := by rw [← not_lt, ← not_lt, hr.neg_iff]

/-- rounding keeps the sign -/
theorem sign (x : K) : SignType.sign (rnd x) = SignType.sign x := by
  rcases lt_trichotomy x 0 with h | h | h
  · rw [sign_neg h, sign_neg (hr.neg_iff.2 h)]
  · rw [h, hr.zero]
  · rw [sign_pos h, sign_pos (hr.pos h)]

end Rounding

theorem sign_div' (x y : K) : SignType.sign (x / y) = SignType.sign x * SignType.sign y := by
  rcases lt_trichotomy y 0 with h | h | h
  · rw [sign_neg h, div_eq_mul_inv, sign_mul, sign_neg (inv_lt_zero.2 h)]
  · simp [h]
  · rw [sign_pos h, div_eq_mul_inv, sign_mul, sign_pos (inv_pos.2 h)]

/-- the sum of two numbers of which the second has the sign of the first, or is zero -/
theorem sign_add_of {x y : K} (h : SignType.sign y = SignType.sign x ∨ y = 0) : SignType.sign (x + y) = SignType.sign x := by
  rcases h with h | h
  · rcases lt_trichotomy x 0 with hx | hx | hx
    · rw [sign_neg hx] at h ⊢
      exact sign_neg (add_neg hx (sign_eq_neg_one_iff.1 h))
    · rw [hx, sign_zero] at h
      rw [sign_eq_zero_iff.1 h, add_zero]
    · rw [sign_pos hx] at h ⊢
      exact sign_pos (add_pos hx (sign_eq_one_iff.1 h))
  · rw [h, add_zero]

namespace Fl
variable (hr : Rounding rnd u)
include hr

/-- the imaginary part of `-1/q` has the sign of the one of `q` -/
theorem div_sign (re im : K) (h : ¬ (re = 0 ∧ im = 0)) :
    ∃ x y : K, Cx.div (Cx.ofReal (-1)) (⟨num re, num im⟩ : Cx (Fl K rnd)) = .ok ⟨num x, num y⟩ ∧ SignType.sign y = SignType.sign im := by
  unfold Cx.div Cx.ofReal
  simp only [zero_num hr, one_num hr, neg_num, abs_num, le_num, eq_num, decide_eq_true_eq, rawDiv_num, num_mul, num_add, num_sub]
  by_cases hle : |im| ≤ |re|
  · have hre : re ≠ 0 := by
      intro e
      rw [e, abs_zero] at hle
      exact h ⟨e, abs_nonpos_iff.1 hle⟩
    rw [if_pos hle, if_neg hre]
    refine ⟨_, _, rfl, ?_⟩
    have h1 : SignType.sign (rnd (re + rnd (im * rnd (im / re)))) = SignType.sign re := by
      rw [hr.sign]
      apply sign_add_of
      by_cases him : im = 0
      · right; rw [him, zero_mul, hr.zero]
      · left
        rw [hr.sign, sign_mul, hr.sign, sign_div', ← mul_assoc, ← sign_mul, sign_pos (mul_self_pos.2 him), one_mul]
    rw [hr.sign, sign_div', hr.sign, h1, show (0 : K) - rnd (-1 * rnd (im / re)) = 0 + -rnd (-1 * rnd (im / re)) by ring, zero_add,
      Left.sign_neg, hr.sign, neg_one_mul, Left.sign_neg, neg_neg, hr.sign, sign_div', mul_assoc, ← sign_mul, sign_pos (mul_self_pos.2 hre), mul_one]
  · have him : im ≠ 0 := by
      intro e
      rw [e, abs_zero] at hle
      exact hle (abs_nonneg _)
    rw [if_neg hle, if_pos (le_of_not_ge hle)]
    refine ⟨_, _, rfl, ?_⟩
    have h1 : SignType.sign (rnd (rnd (re * rnd (re / im)) + im)) = SignType.sign im := by
      rw [hr.sign, add_comm]
      apply sign_add_of
      by_cases hre : re = 0
      · right; rw [hre, zero_mul, hr.zero]
      · left
        rw [hr.sign, sign_mul, hr.sign, sign_div', ← mul_assoc, ← sign_mul, sign_pos (mul_self_pos.2 hre), one_mul]
    rw [hr.sign, sign_div', hr.sign, h1, zero_mul, hr.zero, show (0 : K) - -1 = 1 by ring, sign_one, one_mul]

/-- A complex radius of floats is confined when its imaginary part is positive. -/
theorem isFinite_num (re im : K) (wl z n : Fl K rnd) (c : Bool) :
    (Beam.mk ⟨num re, num im⟩ wl z n c : Beam (Fl K rnd)).isFinite = decide (0 < im) := by
  unfold Beam.isFinite Cx.isZero
  simp only [zero_num hr, eq_num]
  by_cases h : re = 0 ∧ im = 0
  · simp [h.1, h.2]
  · have e : (decide (re = 0) && decide (im = 0)) = false := by
      rw [← Bool.not_eq_true, Bool.and_eq_true, decide_eq_true_eq, decide_eq_true_eq]; exact h
    obtain ⟨x, y, h1, h2⟩ := div_sign hr re im h
    rw [e, h1]
    simp only [Bool.false_eq_true, if_false, lt_num]
    rw [decide_eq_decide, ← sign_eq_one_iff, ← sign_eq_one_iff, h2]

/-- the division by a real number -/
theorem div_real (re im c : K) (hc : c ≠ 0) :
    ∃ x y : K, Cx.div (⟨num re, num im⟩ : Cx (Fl K rnd)) (Cx.ofReal (num c)) = .ok ⟨num x, num y⟩ ∧
      x = rnd (rnd re / rnd c) ∧ y = rnd (rnd im / rnd c) := by
  unfold Cx.div Cx.ofReal
  simp only [zero_num hr, abs_num, le_num, eq_num, decide_eq_true_eq, rawDiv_num, num_mul, num_add, num_sub, abs_zero, abs_nonneg, if_true, hc, if_false,
    zero_div, hr.zero, mul_zero, add_zero, sub_zero]
  exact ⟨_, _, rfl, rfl, rfl⟩

end Fl

/-- What is asked of the square root of the module `cmath`: a number that is not negative has one, which is positive when the number is. -/
def SqrtOk (rnd : K → K) [PyMath (Fl K rnd)] : Prop :=
  ∀ x : K, 0 ≤ x → ∃ y : K, PyMath.sqrt (num x : Fl K rnd) = num y ∧ (0 < x → 0 < y)

/-- the discriminant of a round trip -/
def RStage.delta (s : RStage K) : K := (s.exact.d - s.exact.a) ^ 2 + 4 * s.exact.c * s.exact.b

/-- its majorant -/
def RStage.deltaMaj (s : RStage K) : K := (s.maj.d + s.maj.a) ^ 2 + 4 * s.maj.c * s.maj.b

section
variable [PyMath (Fl K rnd)]

theorem near_four (hr : Rounding rnd u) : Near u 1 (4 : Fl K rnd) (4 : K) 4 := by
  refine ⟨rnd 4, ?_, by norm_num, ?_⟩
  · change (⟨rndE rnd (.fin _)⟩ : Fl K rnd) = _
    have : ((4 : ℕ) : K) = 4 := by norm_num
    simp only [rndE, num, Rat.cast_natCast, this]
  · have := hr.rel (4 : K)
    simpa [relErr, abs_of_pos (show (0 : K) < 4 by norm_num)] using this

theorem near_delta (hr : Rounding rnd u) {m : Mat (Fl K rnd)} {s : RStage K} (hm : NearMat u m s) :
    Near u (2 * s.ops + 4) ((m.D - m.A) * (m.D - m.A) - 4 * m.C * (-m.B)) s.delta s.deltaMaj := by
  have h1 := hm.D.sub hr hm.A
  have h2 := (h1.mul hr h1).mono hr.nonneg (l := 2 * s.ops + 3) (by omega) le_rfl
  have h3 := (((near_four hr).mul hr hm.C).mul hr hm.B.neg).mono hr.nonneg (l := 2 * s.ops + 3) (by omega) le_rfl
  have h4 := h2.sub hr h3
  have e1 : (s.exact.d - s.exact.a) * (s.exact.d - s.exact.a) - 4 * s.exact.c * -s.exact.b = s.delta := by unfold RStage.delta; ring
  have e2 : (s.maj.d + s.maj.a) * (s.maj.d + s.maj.a) + 4 * s.maj.c * s.maj.b = s.deltaMaj := by unfold RStage.deltaMaj; ring
  rw [e1, e2] at h4
  exact h4

/-- The modes of a round trip in floats are numbered by the sign of the computed discriminant. -/
theorem modes_num (hr : Rounding rnd u) (hq : SqrtOk rnd) {m : Mat (Fl K rnd)} {b c δ : K} (hp : m.hasPower = true) (hb : m.D - m.A = num b)
    (hc : m.C = num c) (hδ : (m.D - m.A) * (m.D - m.A) - 4 * m.C * (-m.B) = num δ) :
    ∃ modes, m.laserModes = .ok modes ∧ modes.length = if δ < 0 then 1 else 0 := by
  have hc0 : c ≠ 0 := by
    rintro rfl
    unfold Mat.hasPower isNotZero at hp
    rw [hc, eps_num, abs_num, lt_num, decide_eq_true_eq, abs_zero, hr.neg_iff] at hp
    norm_num at hp
  have h2c : rnd (2 * c) ≠ 0 := hr.ne_zero (by simpa using hc0)
  have e2c : (2 : Fl K rnd) * m.C = num (rnd (2 * c)) := by rw [two_num hr, hc, num_mul]
  obtain ⟨x, y, e1, hy1, hy2⟩ : ∃ x y : K, cmathSqrt (num δ : Fl K rnd) = ⟨num x, num y⟩ ∧ (δ < 0 → 0 < y) ∧ (¬ δ < 0 → y = 0) := by
    unfold cmathSqrt
    rw [zero_num hr, lt_num]
    by_cases hd : δ < 0
    · obtain ⟨y, hy, hy0⟩ := hq (-δ) (by linarith)
      rw [if_pos (decide_eq_true hd), neg_num, hy]
      exact ⟨_, _, rfl, fun _ => hy0 (by linarith), fun h => absurd hd h⟩
    · obtain ⟨y, hy, -⟩ := hq δ (not_lt.1 hd)
      rw [if_neg (by simpa using hd), hy]
      exact ⟨_, _, rfl, fun h => absurd h hd, fun _ => rfl⟩
  obtain ⟨x1, y1, d1, -, s1⟩ := div_real hr (rnd (-b + x)) (rnd (0 + y)) (rnd (2 * c)) h2c
  obtain ⟨x2, y2, d2, -, s2⟩ := div_real hr (rnd (-b - x)) (rnd (0 - y)) (rnd (2 * c)) h2c
  have e3 : m.eigenModes = .ok (some (⟨⟨num x1, num y1⟩, Beam.defaultWavelength, 0, 1, false⟩, ⟨⟨num x2, num y2⟩, Beam.defaultWavelength, 0, 1, false⟩)) := by
    unfold Mat.eigenModes
    rw [hp]
    dsimp only
    rw [hδ, hb, e2c, e1]
    simp only [Bool.not_true, Bool.false_eq_true, if_false, bind, Except.bind, Cx.add, Cx.sub, neg_num, num_add, num_sub]
    have o : (Cx.ofReal (num (-b)) : Cx (Fl K rnd)) = ⟨num (-b), num 0⟩ := by unfold Cx.ofReal; rw [zero_num hr]
    rw [o]
    simp only [num_add, num_sub]
    rw [d1, d2]
    rfl
  have e4 : m.laserModes = .ok ((if 0 < y1 then [⟨⟨num x1, num y1⟩, Beam.defaultWavelength, 0, 1, false⟩] else []) ++
      (if 0 < y2 then [⟨⟨num x2, num y2⟩, Beam.defaultWavelength, 0, 1, false⟩] else [])) := by
    unfold Mat.laserModes
    rw [e3]
    simp only [bind, Except.bind, isFinite_num hr, decide_eq_true_eq]
    rfl
  refine ⟨_, e4, ?_⟩
  have g1 : SignType.sign y1 = SignType.sign y * SignType.sign (rnd (2 * c)) := by
    rw [s1, hr.sign, sign_div', hr.sign, hr.sign, hr.sign, zero_add]
  have g2 : SignType.sign y2 = - (SignType.sign y * SignType.sign (rnd (2 * c))) := by
    rw [s2, hr.sign, sign_div', hr.sign, hr.sign, hr.sign, zero_sub, Left.sign_neg, neg_mul]
  by_cases hd : δ < 0
  · rw [if_pos hd]
    rw [sign_pos (hy1 hd), one_mul] at g1 g2
    rcases lt_or_gt_of_ne h2c with h | h
    · rw [sign_neg h] at g1 g2
      rw [if_neg (not_lt.2 (sign_eq_neg_one_iff.1 g1).le), if_pos (sign_eq_one_iff.1 (by rw [g2]; rfl))]
      rfl
    · rw [sign_pos h] at g1 g2
      rw [if_pos (sign_eq_one_iff.1 g1), if_neg (not_lt.2 (sign_eq_neg_one_iff.1 g2).le)]
      rfl
  · rw [if_neg hd]
    rw [hy2 hd, sign_zero, zero_mul] at g1 g2
    rw [neg_zero] at g2
    rw [sign_eq_zero_iff.1 g1, sign_eq_zero_iff.1 g2]
    simp

/-- The stability computed in floats is decided by the sign of the computed discriminant. -/
theorem stable_num (hr : Rounding rnd u) (hq : SqrtOk rnd) {m : Mat (Fl K rnd)} {b c δ : K} (hp : m.hasPower = true) (hb : m.D - m.A = num b)
    (hc : m.C = num c) (hδ : (m.D - m.A) * (m.D - m.A) - 4 * m.C * (-m.B) = num δ) : m.isStable = .ok (decide (δ < 0)) := by
  obtain ⟨modes, h1, h2⟩ := modes_num hr hq hp hb hc hδ
  unfold Mat.isStable
  rw [h1]
  simp only [bind, Except.bind, h2]
  split_ifs with h <;> simp [h] <;> rfl

end
end RT
