import Verif.Model.Rounded
import Verif.Spec.Rounded
import Verif.Lemmas.Stage

/-! # Rounded arithmetic -/

set_option linter.unusedSectionVars false

namespace RT
open PyNum Ext
variable {K : Type} [Field K] [LinearOrder K] [IsStrictOrderedRing K]

theorem relErr_nonneg {u : K} (hu : 0 ≤ u) (k : ℕ) : 0 ≤ relErr u k := by
  have : (1 : K) ≤ (1 + u) ^ k := one_le_pow₀ (by linarith)
  unfold relErr; linarith

theorem relErr_mono {u : K} (hu : 0 ≤ u) {k l : ℕ} (h : k ≤ l) : relErr u k ≤ relErr u l := by
  have : (1 + u) ^ k ≤ (1 + u) ^ l := pow_le_pow_right₀ (by linarith) h
  unfold relErr; linarith

@[simp] theorem relErr_zero (u : K) : relErr u 0 = 0 := by simp [relErr]

namespace Rounding
variable {rnd : K → K} {u : K} (hr : Rounding rnd u)
include hr

theorem zero : rnd 0 = 0 := by
  have := hr.rel 0
  simpa using this

theorem abs_le (x : K) : |rnd x| ≤ (1 + u) * |x| := by
  have h1 := hr.rel x
  have h2 : |rnd x| ≤ |rnd x - x| + |x| := by simpa using abs_add_le (rnd x - x) x
  linarith

theorem le_abs (x : K) : (1 - u) * |x| ≤ |rnd x| := by
  have h1 := hr.rel x
  have h2 : |x| ≤ |rnd x - x| + |rnd x| := by
    have := abs_sub_abs_le_abs_sub x (rnd x)
    rw [abs_sub_comm] at this
    linarith
  linarith

theorem ne_zero {x : K} (h : x ≠ 0) : rnd x ≠ 0 := by
  intro h0
  have := hr.le_abs x
  rw [h0, abs_zero] at this
  have h1 : 0 < |x| := abs_pos.2 h
  have h2 : 0 < 1 - u := by have := hr.small; linarith [show (1 : K) / 8 < 1 by norm_num]
  nlinarith [mul_pos h2 h1]

theorem pos {x : K} (h : 0 < x) : 0 < rnd x := by
  have h1 := (_root_.abs_le.1 (hr.rel x)).1
  rw [abs_of_pos h] at h1
  have : u * x ≤ 1 / 8 * x := by nlinarith [hr.small]
  linarith

/-- the inverse of the relative error -/
theorem inv_rel {x : K} (h : x ≠ 0) : |x / rnd x - 1| ≤ relErr u 2 := by
  have h0 := hr.ne_zero h
  have h1 : x / rnd x - 1 = -(rnd x - x) / rnd x := by field_simp; ring
  rw [h1, abs_div, abs_neg, div_le_iff₀ (abs_pos.2 h0)]
  have h2 := hr.rel x
  have h3 := hr.le_abs x
  have h4 : 0 ≤ |x| := abs_nonneg x
  have h5 : 0 ≤ relErr u 2 := relErr_nonneg hr.nonneg 2
  have h6 : u ≤ relErr u 2 * (1 - u) := by
    unfold relErr
    have := hr.small; have := hr.nonneg
    nlinarith [mul_nonneg hr.nonneg hr.nonneg, mul_nonneg (mul_nonneg hr.nonneg hr.nonneg) hr.nonneg]
  calc |rnd x - x| ≤ u * |x| := h2
    _ ≤ relErr u 2 * (1 - u) * |x| := by gcongr
    _ = relErr u 2 * ((1 - u) * |x|) := by ring
    _ ≤ _ := by gcongr

end Rounding

/-! ## Operations -/

namespace Fl
variable {rnd : K → K} {u : K}

theorem num_add (x y : K) : (num x : Fl K rnd) + num y = num (rnd (x + y)) := rfl
theorem num_sub (x y : K) : (num x : Fl K rnd) - num y = num (rnd (x - y)) := by
  change (⟨rndE rnd (Ext.add (.fin x) (Ext.neg (.fin y)))⟩ : Fl K rnd) = _
  simp [Ext.add, Ext.neg, rndE, num, sub_eq_add_neg]
theorem num_mul (x y : K) : (num x : Fl K rnd) * num y = num (rnd (x * y)) := rfl
theorem neg_num (x : K) : -(num x : Fl K rnd) = num (-x) := rfl
theorem abs_num (x : K) : PyNum.abs (num x : Fl K rnd) = num |x| := rfl
theorem lt_num (x y : K) : ((num x : Fl K rnd) <. num y) = decide (x < y) := rfl
theorem le_num (x y : K) : ((num x : Fl K rnd) ≤. num y) = decide (x ≤ y) := Ext.le_fin x y
theorem eq_num (x y : K) : ((num x : Fl K rnd) ==. num y) = decide (x = y) := rfl
theorem rawDiv_num (x y : K) : PyNum.rawDiv (num x : Fl K rnd) (num y) = num (rnd (x / y)) := rfl
theorem inf_val : (inf : Fl K rnd) = ⟨.pinf⟩ := rfl
theorem lit_num (q : ℚ) : (lit q : Fl K rnd) = num (rnd (q : K)) := rfl
theorem zero_num (hr : Rounding rnd u) : (0 : Fl K rnd) = num 0 := by
  change (⟨rndE rnd (.fin _)⟩ : Fl K rnd) = _
  simp [rndE, num, hr.zero]
theorem one_num (hr : Rounding rnd u) : (1 : Fl K rnd) = num 1 := by
  change (⟨rndE rnd (.fin _)⟩ : Fl K rnd) = _
  simp [rndE, num, hr.one]
theorem two_num (hr : Rounding rnd u) : (2 : Fl K rnd) = num 2 := by
  change (⟨rndE rnd (.fin _)⟩ : Fl K rnd) = _
  have : ((2 : ℕ) : K) = 2 := by norm_num
  simp only [rndE, num, Rat.cast_natCast, this, hr.two]

theorem num_inj {x y : K} (h : (num x : Fl K rnd) = num y) : x = y := by
  simpa [num] using h

theorem pyDiv_num (hr : Rounding rnd u) (x y : K) (h : y ≠ 0) :
    pyDiv (num x : Fl K rnd) (num y) = .ok (num (rnd (x / y))) := by
  unfold pyDiv
  rw [zero_num hr, eq_num]
  simp [h, rawDiv_num]

theorem pyDiv_num_zero (hr : Rounding rnd u) (x : Fl K rnd) : pyDiv x (num 0) = .error .zeroDivisionError := by
  unfold pyDiv
  rw [zero_num hr, eq_num]
  simp

/-! ## Error bounds -/

/-- The number `x` was obtained with at most `k` successive roundings from a quantity of value `a` and majorant `A`. -/
def Near (u : K) (k : ℕ) (x : Fl K rnd) (a A : K) : Prop := ∃ x', x = num x' ∧ |a| ≤ A ∧ |x' - a| ≤ relErr u k * A

/-- a divisor of value `b`, known with a small relative error -/
def RelD (u : K) (k : ℕ) (x : Fl K rnd) (b : K) : Prop :=
  ∃ x', x = num x' ∧ b ≠ 0 ∧ x' ≠ 0 ∧ |b / x' - 1| ≤ relErr u k

theorem near_num (u x : K) : Near u 0 (num x : Fl K rnd) x |x| := ⟨x, rfl, le_rfl, by simp⟩

theorem Near.nonneg {k : ℕ} {x : Fl K rnd} {a A : K} (h : Near u k x a A) : 0 ≤ A := by
  obtain ⟨x', -, h1, -⟩ := h
  exact (abs_nonneg a).trans h1

theorem Near.mono (hu : 0 ≤ u) {k l : ℕ} {x : Fl K rnd} {a A B : K} (h : Near u k x a A) (hkl : k ≤ l) (hAB : A ≤ B) :
    Near u l x a B := by
  have h0 := h.nonneg
  obtain ⟨x', h1, h2, h3⟩ := h
  refine ⟨x', h1, h2.trans hAB, h3.trans ?_⟩
  have := relErr_mono hu hkl
  have := relErr_nonneg hu l
  gcongr

theorem Near.le {k : ℕ} {x' a A : K} (h : Near u k (num x' : Fl K rnd) a A) : |x'| ≤ (1 + u) ^ k * A := by
  obtain ⟨y, h1, h2, h3⟩ := h
  obtain rfl := num_inj h1
  have : |x'| ≤ |x' - a| + |a| := by simpa using abs_add_le (x' - a) a
  unfold relErr at h3
  nlinarith

theorem Near.round (hr : Rounding rnd u) {k : ℕ} {x' a A : K} (h : Near u k (num x' : Fl K rnd) a A) :
    Near u (k + 1) (num (rnd x') : Fl K rnd) a A := by
  have h0 := h.le
  have hA := h.nonneg
  obtain ⟨y, h1, h2, h3⟩ := h
  obtain rfl := num_inj h1
  refine ⟨_, rfl, h2, ?_⟩
  have h4 := hr.rel x'
  have h5 : |rnd x' - a| ≤ |rnd x' - x'| + |x' - a| := abs_sub_le _ _ _
  have h6 : u * |x'| ≤ u * ((1 + u) ^ k * A) := mul_le_mul_of_nonneg_left h0 hr.nonneg
  have h7 : relErr u (k + 1) * A = u * ((1 + u) ^ k * A) + relErr u k * A := by unfold relErr; ring
  linarith

theorem near_add_exact {k : ℕ} {x y a b A B : K} (hx : Near u k (num x : Fl K rnd) a A)
    (hy : Near u k (num y : Fl K rnd) b B) : Near u k (num (x + y) : Fl K rnd) (a + b) (A + B) := by
  obtain ⟨x', h1, h2, h3⟩ := hx
  obtain rfl := num_inj h1
  obtain ⟨y', h4, h5, h6⟩ := hy
  obtain rfl := num_inj h4
  refine ⟨_, rfl, (abs_add_le _ _).trans (add_le_add h2 h5), ?_⟩
  have : x + y - (a + b) = (x - a) + (y - b) := by ring
  rw [this, mul_add]
  exact (abs_add_le _ _).trans (add_le_add h3 h6)

theorem near_mul_exact (hu : 0 ≤ u) {k l : ℕ} {x y a b A B : K} (hx : Near u k (num x : Fl K rnd) a A)
    (hy : Near u l (num y : Fl K rnd) b B) : Near u (k + l) (num (x * y) : Fl K rnd) (a * b) (A * B) := by
  have hy0 := hy.le
  have hA := hx.nonneg
  have hB := hy.nonneg
  obtain ⟨x', h1, h2, h3⟩ := hx
  obtain rfl := num_inj h1
  obtain ⟨y', h4, h5, h6⟩ := hy
  obtain rfl := num_inj h4
  refine ⟨_, rfl, ?_, ?_⟩
  · rw [abs_mul]; gcongr
  have e : x * y - a * b = (x - a) * y + a * (y - b) := by ring
  have h7 : |x * y - a * b| ≤ |x - a| * |y| + |a| * |y - b| := by
    rw [e, ← abs_mul, ← abs_mul]; exact abs_add_le _ _
  have h8 : |x - a| * |y| ≤ (relErr u k * A) * ((1 + u) ^ l * B) := by
    have := relErr_nonneg hu k
    gcongr
  have h9 : |a| * |y - b| ≤ A * (relErr u l * B) := by gcongr
  have h10 : relErr u (k + l) * (A * B) = (relErr u k * A) * ((1 + u) ^ l * B) + A * (relErr u l * B) := by
    unfold relErr; ring
  linarith

theorem Near.neg {k : ℕ} {x : Fl K rnd} {a A : K} (h : Near u k x a A) : Near u k (-x) (-a) A := by
  obtain ⟨x', rfl, h2, h3⟩ := h
  refine ⟨-x', rfl, by rwa [abs_neg], ?_⟩
  have : -x' - -a = -(x' - a) := by ring
  rwa [this, abs_neg]

theorem Near.add (hr : Rounding rnd u) {k : ℕ} {x y : Fl K rnd} {a b A B : K} (hx : Near u k x a A)
    (hy : Near u k y b B) : Near u (k + 1) (x + y) (a + b) (A + B) := by
  obtain ⟨x', rfl, h2⟩ := hx
  obtain ⟨y', rfl, h4⟩ := hy
  rw [num_add]
  exact (near_add_exact ⟨_, rfl, h2⟩ ⟨_, rfl, h4⟩).round hr

theorem Near.sub (hr : Rounding rnd u) {k : ℕ} {x y : Fl K rnd} {a b A B : K} (hx : Near u k x a A)
    (hy : Near u k y b B) : Near u (k + 1) (x - y) (a - b) (A + B) := by
  have hy' := hy.neg
  obtain ⟨x', rfl, h2⟩ := hx
  obtain ⟨y', rfl, h4⟩ := hy
  rw [num_sub, sub_eq_add_neg, sub_eq_add_neg]
  exact (near_add_exact ⟨_, rfl, h2⟩ hy').round hr

theorem Near.mul (hr : Rounding rnd u) {k l : ℕ} {x y : Fl K rnd} {a b A B : K} (hx : Near u k x a A)
    (hy : Near u l y b B) : Near u (k + l + 1) (x * y) (a * b) (A * B) := by
  obtain ⟨x', rfl, h2⟩ := hx
  obtain ⟨y', rfl, h4⟩ := hy
  rw [num_mul]
  exact (near_mul_exact hr.nonneg ⟨_, rfl, h2⟩ ⟨_, rfl, h4⟩).round hr

theorem relD_num {u b : K} (h : b ≠ 0) : RelD u 0 (num b : Fl K rnd) b := ⟨b, rfl, h, h, by simp [h]⟩

theorem RelD.mul (hr : Rounding rnd u) {k : ℕ} {x : Fl K rnd} {b : K} (h : RelD u k x b) {c : K} (hc : c ≠ 0) :
    RelD u (k + 2) (x * num c) (b * c) := by
  obtain ⟨x', rfl, h1, h2, h3⟩ := h
  rw [num_mul]
  refine ⟨_, rfl, mul_ne_zero h1 hc, hr.ne_zero (mul_ne_zero h2 hc), ?_⟩
  have h4 := hr.inv_rel (mul_ne_zero h2 hc)
  have h5 : Near u k (num (b / x') : Fl K rnd) 1 1 := ⟨_, rfl, by simp, by simpa using h3⟩
  have h6 : Near u 2 (num (x' * c / rnd (x' * c)) : Fl K rnd) 1 1 := ⟨_, rfl, by simp, by simpa using h4⟩
  obtain ⟨y, e1, -, e2⟩ := near_mul_exact hr.nonneg h5 h6
  obtain rfl := num_inj e1
  have e3 : b / x' * (x' * c / rnd (x' * c)) = b * c / rnd (x' * c) := by field_simp
  rw [e3, mul_one, mul_one] at e2
  exact e2

theorem Near.div (hr : Rounding rnd u) {k l : ℕ} {x y : Fl K rnd} {a b A : K} (hx : Near u k x a A) (hy : RelD u l y b) :
    ∃ q, pyDiv x y = .ok q ∧ Near u (k + l + 1) q (a / b) (A / |b|) := by
  have hA := hx.nonneg
  obtain ⟨x', rfl, h1, h2⟩ := hx
  obtain ⟨y', rfl, h3, h4, h5⟩ := hy
  refine ⟨_, pyDiv_num hr _ _ h4, ?_⟩
  have h6 : Near u l (num (b / y') : Fl K rnd) 1 1 := ⟨_, rfl, by simp, by simpa using h5⟩
  have h7 : Near u k (num (x' / b) : Fl K rnd) (a / b) (A / |b|) := by
    refine ⟨_, rfl, ?_, ?_⟩
    · rw [abs_div]; gcongr
    · rw [← sub_div, abs_div, ← mul_div_assoc]; gcongr
  have h8 := near_mul_exact hr.nonneg h7 h6
  have e3 : x' / b * (b / y') = x' / y' := by field_simp
  rw [e3, mul_one, mul_one] at h8
  exact h8.round hr

/-! ## Elements -/

theorem half_num (hr : Rounding rnd u) (x : K) : half (num x : Fl K rnd) = num (rnd (x / 2)) := by
  unfold half; rw [two_num hr, rawDiv_num]

theorem half_inf (hr : Rounding rnd u) : half (⟨.pinf⟩ : Fl K rnd) = ⟨.pinf⟩ := by
  unfold half; rw [two_num hr]
  change (⟨rndE rnd (infOf 2)⟩ : Fl K rnd) = _
  simp [infOf, rndE]

end Fl

/-- the element `m`, computed with rounding, behaves as the stage `s` up to its errors -/
structure RStageOf {rnd : K → K} (u : K) (m : Mat (Fl K rnd)) (s : RStage K) : Prop where
  A : Fl.Near u s.ops m.A s.exact.a s.maj.a
  B : Fl.Near u s.ops m.B s.exact.b s.maj.b
  C : Fl.Near u s.ops m.C s.exact.c s.maj.c
  D : Fl.Near u s.ops m.D s.exact.d s.maj.d
  L : m.L = Fl.num s.exact.len
  len : s.maj.len = |s.exact.len|
  diam : m.apertureDiameter = Fl.optNum s.exact.diam
  na : m.apertureNA = Fl.optNum s.exact.na
  linear : m.Linear

/-- what the traces rely on -/
def ItemRStages {rnd : K → K} (u : K) (is : List (Item (Fl K rnd))) (ss : List (RStage K)) : Prop :=
  List.Forall₂ (RStageOf u) (leaves is) ss

/-- the state of a ray known up to errors -/
structure NearRay {rnd : K → K} (u : K) (k : ℕ) (r : Ray (Fl K rnd)) (e m : K × K) (z Z : K) : Prop where
  y : Fl.Near u k r.y e.1 m.1
  theta : Fl.Near u k r.theta e.2 m.2
  z : Fl.Near u k r.z z Z

section
variable {rnd : K → K} {u : K} (hr : Rounding rnd u)
include hr

theorem RStageOf.out {m : Mat (Fl K rnd)} {s : RStage K} (h : RStageOf u m s) {k : ℕ} {r : Ray (Fl K rnd)} {e M : K × K} {z Z : K}
    (hn : NearRay u k r e M z Z) (hb : r.isBlocked = false) :
    NearRay u (k + s.ops + 2) (m.mulRayBase r) (s.exact.out e) (s.maj.out M) (z + s.exact.len) (Z + s.maj.len) := by
  have hL : Fl.Near u 0 m.L s.exact.len s.maj.len := by rw [h.L, h.len]; exact Fl.near_num u _
  refine ⟨?_, ?_, ?_⟩
  · simp only [Mat.mulRayBase, hb, Bool.false_eq_true, if_false, Stage.out]
    exact ((h.A.mul hr hn.y).add hr (h.B.mul hr hn.theta)).mono hr.nonneg (by omega) le_rfl
  · simp only [Mat.mulRayBase, hb, Bool.false_eq_true, if_false, Stage.out]
    exact ((h.C.mul hr hn.y).add hr (h.D.mul hr hn.theta)).mono hr.nonneg (by omega) le_rfl
  · simp only [Mat.mulRayBase, hb, Bool.false_eq_true, if_false]
    rw [add_comm z, add_comm Z]
    exact ((hL.mono hr.nonneg (Nat.zero_le k) le_rfl).add hr hn.z).mono hr.nonneg (by omega) le_rfl

theorem lt_half_of_num {o : Option K} {y' : K} :
    (half (Fl.optNum o : Fl K rnd) <. Fl.num y') = true ↔ ∃ D, o = some D ∧ rnd (D / 2) < y' := by
  cases o with
  | none =>
    simp only [Fl.optNum]
    rw [Fl.half_inf hr]
    change (PyNum.lt (.pinf : Ext K) (.fin y')) = true ↔ _
    simp
  | some D =>
    simp only [Fl.optNum]
    rw [Fl.half_num hr, Fl.lt_num]
    simp

theorem lt_optNum {o : Option K} {y' : K} :
    ((Fl.optNum o : Fl K rnd) <. Fl.num y') = true ↔ ∃ D, o = some D ∧ D < y' := by
  cases o with
  | none =>
    change (PyNum.lt (.pinf : Ext K) (.fin y')) = true ↔ _
    simp
  | some D => simp [Fl.optNum, Fl.lt_num]

/-- no stop when there is room for the errors -/
theorem RStageOf.clears {m : Mat (Fl K rnd)} {s : RStage K} (h : RStageOf u m s) {k : ℕ} {r : Ray (Fl K rnd)} {e M : K × K} {z Z : K}
    (hn : NearRay u k r e M z Z) (h1 : ∀ D, s.exact.diam = some D → |e.1| + relErr u k * M.1 ≤ (1 - u) * (D / 2))
    (h2 : ∀ N, s.exact.na = some N → |e.2| + relErr u k * M.2 ≤ N) : m.stops r = false := by
  obtain ⟨y', hy, hy1, hy2⟩ := hn.y
  obtain ⟨t', ht, ht1, ht2⟩ := hn.theta
  have hy3 : |y'| ≤ |e.1| + relErr u k * M.1 := by
    have : |y'| ≤ |y' - e.1| + |e.1| := by simpa using abs_add_le (y' - e.1) e.1
    linarith
  have ht3 : |t'| ≤ |e.2| + relErr u k * M.2 := by
    have : |t'| ≤ |t' - e.2| + |e.2| := by simpa using abs_add_le (t' - e.2) e.2
    linarith
  unfold Mat.stops
  rw [h.diam, h.na, hy, ht, Fl.abs_num, Fl.abs_num, Bool.or_eq_false_iff, Bool.eq_false_iff, Bool.eq_false_iff, ne_eq, ne_eq,
    lt_half_of_num hr, lt_optNum hr]
  refine ⟨?_, ?_⟩
  · rintro ⟨D, hD, hlt⟩
    have h3 := h1 D hD
    have h4 := hr.le_abs (D / 2)
    have h5 : 0 ≤ |y'| := abs_nonneg y'
    have hu : 0 < 1 - u := by have := hr.small; linarith [show (1 : K) / 8 < 1 by norm_num]
    have hD0 : 0 ≤ D / 2 := by
      by_contra hneg
      push Not at hneg
      have : (1 - u) * (D / 2) < 0 := mul_neg_of_pos_of_neg hu hneg
      linarith
    rw [abs_of_nonneg hD0] at h4
    have h6 : 0 ≤ rnd (D / 2) := by
      rcases hD0.eq_or_lt with h0 | h0
      · rw [← h0, hr.zero]
      · exact (hr.pos h0).le
    rw [abs_of_nonneg h6] at h4
    linarith
  · rintro ⟨N, hN, hlt⟩
    have := h2 N hN
    linarith

/-- a stop when the ray is further than the errors -/
theorem RStageOf.hits {m : Mat (Fl K rnd)} {s : RStage K} (h : RStageOf u m s) {k : ℕ} {r : Ray (Fl K rnd)} {e M : K × K} {z Z : K}
    (hn : NearRay u k r e M z Z) (h1 : (∃ D, s.exact.diam = some D ∧ (1 + u) * (D / 2) < |e.1| - relErr u k * M.1) ∨
      (∃ N, s.exact.na = some N ∧ N < |e.2| - relErr u k * M.2)) (hpos : ∀ D, s.exact.diam = some D → 0 < D) : m.stops r = true := by
  obtain ⟨y', hy, hy1, hy2⟩ := hn.y
  obtain ⟨t', ht, ht1, ht2⟩ := hn.theta
  have hy3 : |e.1| - relErr u k * M.1 ≤ |y'| := by
    have : |e.1| ≤ |y' - e.1| + |y'| := by
      have := abs_sub_abs_le_abs_sub e.1 y'
      rw [abs_sub_comm] at this; linarith
    linarith
  have ht3 : |e.2| - relErr u k * M.2 ≤ |t'| := by
    have : |e.2| ≤ |t' - e.2| + |t'| := by
      have := abs_sub_abs_le_abs_sub e.2 t'
      rw [abs_sub_comm] at this; linarith
    linarith
  unfold Mat.stops
  rw [h.diam, h.na, hy, ht, Fl.abs_num, Fl.abs_num, Bool.or_eq_true, lt_half_of_num hr, lt_optNum hr]
  rcases h1 with ⟨D, hD, hlt⟩ | ⟨N, hN, hlt⟩
  · refine .inl ⟨D, hD, ?_⟩
    have h4 := hr.abs_le (D / 2)
    have hD0 : 0 < D / 2 := half_pos (hpos D hD)
    rw [abs_of_pos hD0, abs_of_pos (hr.pos hD0)] at h4
    linarith
  · exact .inr ⟨N, hN, by linarith⟩

end
end RT
