import Verif.Props.RoundedMatrix

/-! # C98: power, focal lengths and images in floats -/

set_option linter.unusedSectionVars false

namespace RT
open PyNum Ext Fl

variable {K : Type} [Field K] [LinearOrder K] [IsStrictOrderedRing K]
variable {rnd : K → K} {u : K}

theorem rnd_eps (hr : Rounding rnd u) : (1 - u) * (1 / 100000) ≤ rnd (1 / 100000) ∧ rnd (1 / 100000) ≤ (1 + u) * (1 / 100000) := by
  have h0 : (0 : K) < 1 / 100000 := by norm_num
  have h1 := hr.le_abs (1 / 100000 : K)
  have h2 := hr.abs_le (1 / 100000 : K)
  rw [abs_of_pos h0, abs_of_pos (hr.pos h0)] at h1 h2
  exact ⟨h1, h2⟩

/-- the error on a coefficient of majorant `A` of the matrix of `p` -/
def Part.err (u : K) (p : Part K) (A : K) : K := relErr u p.rmat.ops * A

/-- Afocal systems are recognised in floats: when the exact power is 0 and the error on it is below the tolerance, the system built in floats
has no power. -/
theorem C98_afocal (hr : Rounding rnd u) {p : Part K} {e : Elem (Fl K rnd)} {e' : Elem (Ext K)} (hb : p.buildR rnd = .ok e)
    (hb' : p.build = .ok e') (h0 : e'.mat.C = fin 0) (herr : p.err u p.rmat.maj.c ≤ (1 - u) * (1 / 100000)) :
    e.mat.hasPower = false := by
  obtain ⟨-, -, ⟨x, y, hx, hy, h⟩, -, -⟩ := C96_matrix hr hb hb'
  rw [h0] at hy; cases hy
  unfold Mat.hasPower isNotZero
  rw [hx, eps_num, abs_num, lt_num, decide_eq_false_iff_not, not_lt]
  rw [sub_zero] at h
  exact h.trans (herr.trans (rnd_eps hr).1)

/-- Systems with power are recognised in floats, and the focal length is the exact one up to the errors. -/
theorem C98_focal (hr : Rounding rnd u) {p : Part K} {e : Elem (Fl K rnd)} {e' : Elem (Ext K)} (hb : p.buildR rnd = .ok e)
    (hb' : p.build = .ok e') {c ε : K} (hc : e'.mat.C = fin c) (hε : p.err u p.rmat.maj.c ≤ ε)
    (hpow : (1 + u) * (1 / 100000) < |c| - ε) :
    e.mat.hasPower = true ∧ ∀ f1 f2, e.mat.effectiveFocalLengths = .ok (f1, f2) →
      CloseTo (ε / (|c| * (|c| - ε)) + u / (|c| - ε)) f2 (fin (-1 / c)) := by
  obtain ⟨-, -, ⟨x, y, hx, hy, h⟩, -, -⟩ := C96_matrix hr hb hb'
  rw [hc] at hy; cases hy
  have hxe : |x - c| ≤ ε := h.trans hε
  have hu := hr.nonneg
  have hpos : 0 < |c| - ε := lt_trans (by positivity) hpow
  have hx1 : |c| - ε ≤ |x| := by
    have := abs_sub_abs_le_abs_sub c x
    rw [abs_sub_comm] at this
    linarith
  have hxpos : 0 < |x| := lt_of_lt_of_le hpos hx1
  have hx0 : x ≠ 0 := abs_pos.1 hxpos
  have hεn : 0 ≤ ε := (abs_nonneg _).trans hxe
  have hcpos : 0 < |c| := by linarith
  have hc0 : c ≠ 0 := abs_pos.1 hcpos
  have hp : e.mat.hasPower = true := by
    unfold Mat.hasPower isNotZero
    rw [hx, eps_num, abs_num, lt_num, decide_eq_true_iff]
    exact lt_of_le_of_lt (rnd_eps hr).2 (lt_of_lt_of_le hpow hx1)
  refine ⟨hp, fun f1 f2 hf => ?_⟩
  unfold Mat.effectiveFocalLengths at hf
  rw [if_pos hp, hx, one_num hr, neg_num, pyDiv_num hr _ _ hx0] at hf
  obtain ⟨g2, hg2, hf⟩ := bind_ok hf
  obtain ⟨q, -, hf⟩ := bind_ok hf
  obtain ⟨g1, -, hf⟩ := bind_ok hf
  simp only [pure, Except.pure, Except.ok.injEq, Prod.mk.injEq] at hf hg2
  obtain ⟨-, rfl⟩ := hf
  subst hg2
  refine ⟨_, _, rfl, rfl, ?_⟩
  have r1 : |rnd (-1 / x) - -1 / x| ≤ u / (|c| - ε) := by
    refine (hr.rel _).trans ?_
    rw [abs_div, abs_neg, abs_one, ← mul_div_assoc, mul_one]
    exact div_le_div_of_nonneg_left hu hpos hx1
  have r2 : |-1 / x - -1 / c| ≤ ε / (|c| * (|c| - ε)) := by
    have : -1 / x - -1 / c = (x - c) / (c * x) := by field_simp; ring
    rw [this, abs_div, abs_mul]
    exact div_le_div₀ hεn hxe (mul_pos hcpos hpos) (mul_le_mul_of_nonneg_left hx1 hcpos.le)
  have := abs_add_le (rnd (-1 / x) - -1 / x) (-1 / x - -1 / c)
  rw [sub_add_sub_cancel] at this
  linarith

/-- Planes that are conjugate are recognised in floats. -/
theorem C98_imaging (hr : Rounding rnd u) {p : Part K} {e : Elem (Fl K rnd)} {e' : Elem (Ext K)} (hb : p.buildR rnd = .ok e)
    (hb' : p.build = .ok e') (h0 : e'.mat.B = fin 0) (herr : p.err u p.rmat.maj.b < (1 - u) * (1 / 100000)) :
    e.mat.isImaging = true := by
  obtain ⟨-, ⟨x, y, hx, hy, h⟩, -, -, -⟩ := C96_matrix hr hb hb'
  rw [h0] at hy; cases hy
  unfold Mat.isImaging isAlmostZero
  rw [hx, eps_num, abs_num, lt_num, decide_eq_true_iff]
  rw [sub_zero] at h
  exact lt_of_le_of_lt h (lt_of_lt_of_le herr (rnd_eps hr).1)

/-- The plane that `forwardConjugate` finds for a matrix of floats: the image is there up to the rounding errors, whatever the matrix; and the
matrix returned is imaging as long as `B` is below 10⁹ or so. -/
theorem C98_conjugate (hr : Rounding rnd u) {m c : Mat (Fl K rnd)} {z : Fl K rnd} {b d : K} (hB : m.B = num b) (hD : m.D = num d)
    (h : m.forwardConjugate = .ok (z, some c)) :
    (∃ z', z = num z' ∧ |b + z' * d| ≤ u * |b|) ∧ (∃ b', c.B = num b' ∧ |b'| ≤ 4 * u * |b|) ∧
      (4 * u * |b| < (1 - u) * (1 / 100000) → c.isImaging = true) := by
  have hu := hr.nonneg
  have hs := hr.small
  unfold Mat.forwardConjugate at h
  rw [hD, hB, zero_num hr, eq_num] at h
  by_cases hd : d = 0
  · simp [hd, pure, Except.pure] at h
  simp only [hd, decide_false, Bool.false_eq_true, if_false] at h
  obtain ⟨z1, h1, h⟩ := bind_ok h
  obtain ⟨s, h2, h⟩ := bind_ok h
  obtain ⟨c1, h3, h⟩ := bind_ok h
  simp only [pure, Except.pure, Except.ok.injEq, Prod.mk.injEq, Option.some.injEq] at h
  obtain ⟨rfl, rfl⟩ := h
  rw [neg_num, pyDiv_num hr _ _ hd] at h1
  simp only [Except.ok.injEq] at h1
  subst h1
  obtain ⟨δ1, hδ1, e1⟩ := hr.factor (-b / d)
  have hz : rnd (-b / d) * d = -b * (1 + δ1) := by rw [e1]; field_simp
  have hc := mulMatrix_okF h3
  unfold mkSpace at h2
  obtain ⟨rfl, -⟩ := init_okF h2
  have hcB : c1.B = num (rnd (rnd (1 * b) + rnd (rnd (-b / d) * d))) := by
    rw [hc]
    simp only [Mat.mulRaw, hB, hD, one_num hr, num_mul, num_add]
  obtain ⟨δ0, hδ0, e0⟩ := hr.factor (1 * b)
  obtain ⟨δ2, hδ2, e2⟩ := hr.factor (rnd (-b / d) * d)
  obtain ⟨δ3, hδ3, e3⟩ := hr.factor (rnd (1 * b) + rnd (rnd (-b / d) * d))
  have hval : rnd (rnd (1 * b) + rnd (rnd (-b / d) * d)) = b * ((δ0 - δ1 - δ2 - δ1 * δ2) * (1 + δ3)) := by
    rw [e3, e0, e2, hz]; ring
  have hbnd : |rnd (rnd (1 * b) + rnd (rnd (-b / d) * d))| ≤ 4 * u * |b| := by
    rw [hval, abs_mul, mul_comm]
    refine mul_le_mul_of_nonneg_right ?_ (abs_nonneg _)
    rw [abs_mul]
    have a1 : |δ0 - δ1 - δ2 - δ1 * δ2| ≤ 3 * u + u * u := by
      have t1 := abs_sub (δ0 - δ1 - δ2) (δ1 * δ2)
      have t2 := abs_sub (δ0 - δ1) δ2
      have t3 := abs_sub δ0 δ1
      have t4 : |δ1 * δ2| ≤ u * u := by rw [abs_mul]; exact mul_le_mul hδ1 hδ2 (abs_nonneg _) hu
      linarith
    have a2 : |1 + δ3| ≤ 1 + u := by
      have := abs_add_le 1 δ3
      rw [abs_one] at this
      linarith
    calc _ ≤ (3 * u + u * u) * (1 + u) := mul_le_mul a1 a2 (abs_nonneg _) (by positivity)
      _ ≤ 4 * u := by nlinarith [mul_nonneg hu hu, mul_nonneg hu (mul_nonneg hu hu)]
  refine ⟨⟨_, rfl, ?_⟩, ⟨_, hcB, hbnd⟩, fun hlt => ?_⟩
  · rw [hz]
    have : b + -b * (1 + δ1) = -(b * δ1) := by ring
    rw [this, abs_neg, abs_mul, mul_comm]
    exact mul_le_mul_of_nonneg_right hδ1 (abs_nonneg _)
  · unfold Mat.isImaging isAlmostZero
    rw [hcB, eps_num, abs_num, lt_num, decide_eq_true_iff]
    exact lt_of_le_of_lt hbnd (lt_of_lt_of_le hlt (rnd_eps hr).1)

/-- The defocus of the plane found in floats, for the exact system: `B` of the exact system followed by the distance found. -/
theorem C98_defocus (hr : Rounding rnd u) {p : Part K} {e : Elem (Fl K rnd)} {e' : Elem (Ext K)} (hb : p.buildR rnd = .ok e)
    (hb' : p.build = .ok e') {z : Fl K rnd} {c : Mat (Fl K rnd)} (h : e.mat.forwardConjugate = .ok (z, some c)) :
    ∃ z' b d, z = num z' ∧ e'.mat.B = fin b ∧ e'.mat.D = fin d ∧
      |b + z' * d| ≤ (1 + u) * p.err u p.rmat.maj.b + u * |b| + |z'| * p.err u p.rmat.maj.d := by
  obtain ⟨-, ⟨x, b, hx, hb1, hxb⟩, -, ⟨w, d, hw, hd1, hwd⟩, -⟩ := C96_matrix hr hb hb'
  obtain ⟨⟨z', rfl, hz⟩, -, -⟩ := C98_conjugate hr hx hw h
  refine ⟨z', b, d, rfl, hb1, hd1, ?_⟩
  have e1 : b + z' * d = (x + z' * w) - (x - b) - z' * (w - d) := by ring
  have t1 := abs_sub (x + z' * w - (x - b)) (z' * (w - d))
  have t2 := abs_sub (x + z' * w) (x - b)
  have t3 : |z' * (w - d)| ≤ |z'| * p.err u p.rmat.maj.d := by
    rw [abs_mul]; exact mul_le_mul_of_nonneg_left hwd (abs_nonneg _)
  have t4 : |x| ≤ |b| + p.err u p.rmat.maj.b := by
    have := abs_sub_abs_le_abs_sub x b
    unfold Part.err
    linarith
  have t5 : u * |x| ≤ u * (|b| + p.err u p.rmat.maj.b) := mul_le_mul_of_nonneg_left t4 hr.nonneg
  have t6 : |x - b| ≤ p.err u p.rmat.maj.b := hxb
  rw [e1]
  linarith

/-- In Python floats `forwardConjugate` returns an imaging matrix when `|B| ≤ 10¹⁰`. -/
theorem C98_double {m c : Mat Double} {z : Double} {b d : ℚ} (hB : m.B = num b) (hD : m.D = num d) (hb : |b| ≤ 10 ^ 10)
    (h : m.forwardConjugate = .ok (z, some c)) : c.isImaging = true := by
  refine (C98_conjugate double_rounding hB hD h).2.2 ?_
  have hu : (0 : ℚ) ≤ unitRoundoff := double_rounding.nonneg
  calc 4 * unitRoundoff * |b| ≤ 4 * unitRoundoff * 10 ^ 10 := mul_le_mul_of_nonneg_left hb (by positivity)
    _ < _ := by norm_num [unitRoundoff]

/-- a 4f system, with focal lengths 49 and 98 -/
def relay4f : Part ℚ := .group "" [.space 49 1 none, .lens 49 none, .space 147 1 none, .lens 98 none, .space 98 1 none]

/-- The 4f system can be built both ways; it is afocal and imaging exactly, and the errors are below the tolerances. -/
theorem C98_example : (match relay4f.build with | .ok e => decide (e.mat.C = fin 0) && decide (e.mat.B = fin 0) | _ => false) = true ∧
    (match relay4f.buildR double with | .ok e => !e.mat.hasPower && e.mat.isImaging | _ => false) = true ∧
    relay4f.err unitRoundoff relay4f.rmat.maj.c ≤ (1 - unitRoundoff) * (1 / 100000) ∧
    relay4f.err unitRoundoff relay4f.rmat.maj.b < (1 - unitRoundoff) * (1 / 100000) := by
  refine ⟨by decide +kernel, by decide +kernel, by decide +kernel, by decide +kernel⟩

/-- an object in the front focal plane of a lens of focal length 49 -/
def frontFocus : Part ℚ := .group "" [.space 49 1 none, .lens 49 none]

/-- Violated: the image of an object in the front focal plane is at infinity, which is what the exact program returns; in floats `D` is not
compared within a tolerance, and `forwardConjugate` announces an image at a finite distance: 4·10¹⁷ before the lens. -/
theorem C98_violated :
    (match frontFocus.build with
      | .ok e => (match e.mat.forwardConjugate with | .ok (z, none) => decide (z = pinf) | _ => false) | _ => false) = true ∧
    (match frontFocus.buildR double with
      | .ok e => (match e.mat.forwardConjugate with | .ok (z, some c) => (z <. num (-4 * 10 ^ 17)) && c.isImaging | _ => false)
      | _ => false) = true := ⟨by decide +kernel, by decide +kernel⟩

end RT
