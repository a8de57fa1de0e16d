import Mathlib.Analysis.SpecialFunctions.Pow.Real
import Verif.Model.Materials

/-! # Intervals with rational ends, and the index of glasses over an interval of wavelengths

Everything is computed with rational numbers, and sound for real numbers. -/

namespace RT

/-- An interval. -/
structure Iv where
  lo : ℚ
  hi : ℚ
  deriving DecidableEq

namespace Iv

/-- `x` is in the interval. -/
def has (i : Iv) (x : ℝ) : Prop := (i.lo : ℝ) ≤ x ∧ x ≤ (i.hi : ℝ)

/-- one number -/
def pt (q : ℚ) : Iv := ⟨q, q⟩
/-- sum -/
def add (i j : Iv) : Iv := ⟨i.lo + j.lo, i.hi + j.hi⟩
/-- difference -/
def sub (i j : Iv) : Iv := ⟨i.lo - j.hi, i.hi - j.lo⟩
/-- product -/
def mul (i j : Iv) : Iv :=
  ⟨min (min (i.lo * j.lo) (i.lo * j.hi)) (min (i.hi * j.lo) (i.hi * j.hi)),
   max (max (i.lo * j.lo) (i.lo * j.hi)) (max (i.hi * j.lo) (i.hi * j.hi))⟩
/-- does not contain 0 -/
def away (i : Iv) : Bool := decide (0 < i.lo) || decide (i.hi < 0)
/-- inverse, when it does not contain 0 -/
def inv (i : Iv) : Iv := ⟨1 / i.hi, 1 / i.lo⟩

theorem has_pt (q : ℚ) : (pt q).has (q : ℝ) := ⟨le_rfl, le_rfl⟩

theorem has_add {i j : Iv} {x y : ℝ} (hx : i.has x) (hy : j.has y) : (i.add j).has (x + y) := by
  constructor <;> simp only [add, Rat.cast_add]
  · exact add_le_add hx.1 hy.1
  · exact add_le_add hx.2 hy.2

theorem has_sub {i j : Iv} {x y : ℝ} (hx : i.has x) (hy : j.has y) : (i.sub j).has (x - y) := by
  constructor <;> simp only [sub, Rat.cast_sub]
  · exact sub_le_sub hx.1 hy.2
  · exact sub_le_sub hx.2 hy.1

/-- a product of a number of an interval by a fixed number is between the products of the ends -/
theorem mul_ends {a b x y : ℝ} (h1 : a ≤ x) (h2 : x ≤ b) : min (a * y) (b * y) ≤ x * y ∧ x * y ≤ max (a * y) (b * y) := by
  rcases le_total 0 y with h | h
  · exact ⟨(min_le_left _ _).trans (mul_le_mul_of_nonneg_right h1 h), (mul_le_mul_of_nonneg_right h2 h).trans (le_max_right _ _)⟩
  · exact ⟨(min_le_right _ _).trans (mul_le_mul_of_nonpos_right h2 h), (mul_le_mul_of_nonpos_right h1 h).trans (le_max_left _ _)⟩

theorem has_mul {i j : Iv} {x y : ℝ} (hx : i.has x) (hy : j.has y) : (i.mul j).has (x * y) := by
  obtain ⟨a1, a2⟩ := mul_ends (y := y) hx.1 hx.2
  obtain ⟨b1, b2⟩ := mul_ends (y := (i.lo : ℝ)) hy.1 hy.2
  obtain ⟨c1, c2⟩ := mul_ends (y := (i.hi : ℝ)) hy.1 hy.2
  constructor <;> simp only [mul, Rat.cast_min, Rat.cast_max, Rat.cast_mul]
  · refine le_trans (min_le_min ?_ ?_) a1
    · rw [mul_comm (i.lo : ℝ) (j.lo : ℝ), mul_comm (i.lo : ℝ) (j.hi : ℝ), mul_comm (i.lo : ℝ) y]; exact b1
    · rw [mul_comm (i.hi : ℝ) (j.lo : ℝ), mul_comm (i.hi : ℝ) (j.hi : ℝ), mul_comm (i.hi : ℝ) y]; exact c1
  · refine le_trans a2 (max_le_max ?_ ?_)
    · rw [mul_comm (i.lo : ℝ) (j.lo : ℝ), mul_comm (i.lo : ℝ) (j.hi : ℝ), mul_comm (i.lo : ℝ) y]; exact b2
    · rw [mul_comm (i.hi : ℝ) (j.lo : ℝ), mul_comm (i.hi : ℝ) (j.hi : ℝ), mul_comm (i.hi : ℝ) y]; exact c2

theorem away_ne {i : Iv} (h : i.away = true) {x : ℝ} (hx : i.has x) : x ≠ 0 := by
  simp only [away, Bool.or_eq_true, decide_eq_true_eq] at h
  rcases h with h | h
  · have : (0 : ℝ) < (i.lo : ℝ) := by exact_mod_cast h
    exact (this.trans_le hx.1).ne'
  · have : (i.hi : ℝ) < 0 := by exact_mod_cast h
    exact (hx.2.trans_lt this).ne

theorem has_inv {i : Iv} (h : i.away = true) {x : ℝ} (hx : i.has x) : i.inv.has (1 / x) := by
  simp only [away, Bool.or_eq_true, decide_eq_true_eq] at h
  constructor <;> simp only [inv, Rat.cast_div, Rat.cast_one]
  · rcases h with h | h
    · have h1 : (0 : ℝ) < (i.lo : ℝ) := by exact_mod_cast h
      exact one_div_le_one_div_of_le (h1.trans_le hx.1) hx.2
    · have h1 : (i.hi : ℝ) < 0 := by exact_mod_cast h
      exact one_div_le_one_div_of_neg_of_le h1 hx.2
  · rcases h with h | h
    · have h1 : (0 : ℝ) < (i.lo : ℝ) := by exact_mod_cast h
      exact one_div_le_one_div_of_le h1 hx.1
    · have h1 : (i.hi : ℝ) < 0 := by exact_mod_cast h
      exact one_div_le_one_div_of_neg_of_le (hx.2.trans_lt h1) hx.1

end Iv

/-! ## Square roots -/

/-- Newton's iteration for the integer square root -/
def isqrt (n : ℕ) : ℕ → ℕ → ℕ
  | 0, s => s
  | k + 1, s => isqrt n k ((s + n / s) / 2)

/-- an integer not above the square root of `n`, and not far -/
def isqrtLo (n : ℕ) : ℕ :=
  let s := isqrt n 60 n
  if (s * s ≤ n) then s else if (s - 1) * (s - 1) ≤ n then s - 1 else 0

/-- number of parts of 1 of the square roots -/
def sqrtUnit : ℕ := 10 ^ 10

/-- a lower bound of the square root -/
def sqrtLo (q : ℚ) : ℚ :=
  let s : ℚ := (isqrtLo (q * (sqrtUnit * sqrtUnit : ℕ)).floor.toNat : ℚ) / sqrtUnit
  if 0 ≤ s ∧ s * s ≤ q then s else 0

/-- an upper bound of the square root -/
def sqrtHi (q : ℚ) : ℚ :=
  let s : ℚ := ((isqrtLo (q * (sqrtUnit * sqrtUnit : ℕ)).floor.toNat + 4 : ℕ) : ℚ) / sqrtUnit
  if 0 ≤ s ∧ q ≤ s * s then s else q + 1

theorem sqrtLo_le {q : ℚ} {s : ℝ} (h0 : 0 ≤ q) (h : (q : ℝ) ≤ s) : ((sqrtLo q : ℚ) : ℝ) ≤ Real.sqrt s := by
  unfold sqrtLo
  simp only
  split_ifs with h1
  · refine Real.le_sqrt_of_sq_le ?_
    refine le_trans ?_ h
    rw [sq]
    exact_mod_cast h1.2
  · simp

theorem le_sqrtHi {q : ℚ} {s : ℝ} (h0 : 0 ≤ q) (h : s ≤ (q : ℝ)) : Real.sqrt s ≤ ((sqrtHi q : ℚ) : ℝ) := by
  have h0' : (0 : ℝ) ≤ (q : ℝ) := by exact_mod_cast h0
  unfold sqrtHi
  simp only
  split_ifs with h1
  · refine (Real.sqrt_le_sqrt h).trans (Real.sqrt_le_iff.2 ⟨by exact_mod_cast h1.1, ?_⟩)
    rw [sq]
    exact_mod_cast h1.2
  · refine (Real.sqrt_le_sqrt h).trans (Real.sqrt_le_iff.2 ⟨by push_cast; linarith, ?_⟩)
    push_cast
    nlinarith

/-- the square roots of an interval of nonnegative numbers -/
def Iv.sqrt (i : Iv) : Iv := ⟨sqrtLo i.lo, sqrtHi i.hi⟩

theorem Iv.has_sqrt {i : Iv} (h : 0 ≤ i.lo) {x : ℝ} (hx : i.has x) : i.sqrt.has (Real.sqrt x) := by
  have h1 : (0 : ℝ) ≤ (i.lo : ℝ) := by exact_mod_cast h
  have h2 : (0 : ℝ) ≤ (i.hi : ℝ) := h1.trans (hx.1.trans hx.2)
  exact ⟨sqrtLo_le h hx.1, le_sqrtHi (by exact_mod_cast h2) hx.2⟩

/-! ## The index of a glass -/

/-- the value of a term of the formula -/
def termAt (t : ℚ × ℚ) (x : ℚ) : ℚ := t.1 / (1 - t.2 / x ^ 2)

/-- the values of a term between two wavelengths without resonance in between -/
def termIv (xa xb : ℚ) (t : ℚ × ℚ) : Iv := ⟨min (termAt t xa) (termAt t xb), max (termAt t xa) (termAt t xb)⟩

/-- no resonance between two wavelengths -/
def termFree (xa xb : ℚ) (t : ℚ × ℚ) : Bool := decide (t.2 < xa ^ 2) || decide (xb ^ 2 < t.2)

theorem term_has {xa xb : ℚ} (h0 : 0 < xa) {t : ℚ × ℚ} (h : termFree xa xb t = true) {x : ℝ} (h1 : (xa : ℝ) ≤ x) (h2 : x ≤ (xb : ℝ)) :
    (1 - (t.2 : ℝ) / x ^ 2) ≠ 0 ∧ (termIv xa xb t).has ((t.1 : ℝ) / (1 - (t.2 : ℝ) / x ^ 2)) := by
  obtain ⟨B, C⟩ := t
  have ha : (0 : ℝ) < (xa : ℝ) := by exact_mod_cast h0
  have hx : 0 < x := ha.trans_le h1
  have hb : (0 : ℝ) < (xb : ℝ) := hx.trans_le h2
  have i1 : (xa : ℝ) ^ 2 ≤ x ^ 2 := by gcongr
  have i2 : x ^ 2 ≤ (xb : ℝ) ^ 2 := by gcongr
  have p0 : (0 : ℝ) < (xa : ℝ) ^ 2 := by positivity
  have p1 : (0 : ℝ) < x ^ 2 := by positivity
  have p2 : (0 : ℝ) < (xb : ℝ) ^ 2 := by positivity
  simp only [termFree, Bool.or_eq_true, decide_eq_true_eq] at h
  -- `B / (1 - C / u) = B + B C / (u - C)`, and `1 / (u - C)` decreases
  have key : ∀ u : ℝ, 0 < u → u ≠ (C : ℝ) → (B : ℝ) / (1 - (C : ℝ) / u) = B + B * C * (1 / (u - C)) := by
    intro u hu hne
    have : u - (C : ℝ) ≠ 0 := sub_ne_zero.2 hne
    have e : 1 - (C : ℝ) / u = (u - C) / u := by field_simp
    rw [e]; field_simp; ring
  have hne : ∀ u : ℝ, (xa : ℝ) ^ 2 ≤ u → u ≤ (xb : ℝ) ^ 2 → u ≠ (C : ℝ) := by
    intro u h3 h4 h5
    rcases h with h | h
    · have : (C : ℝ) < (xa : ℝ) ^ 2 := by exact_mod_cast h
      linarith
    · have : (xb : ℝ) ^ 2 < (C : ℝ) := by exact_mod_cast h
      linarith
  have hmono : 1 / ((xb : ℝ) ^ 2 - C) ≤ 1 / (x ^ 2 - C) ∧ 1 / (x ^ 2 - C) ≤ 1 / ((xa : ℝ) ^ 2 - C) := by
    rcases h with h | h
    · have h3 : (C : ℝ) < (xa : ℝ) ^ 2 := by exact_mod_cast h
      exact ⟨one_div_le_one_div_of_le (by linarith) (by linarith), one_div_le_one_div_of_le (by linarith) (by linarith)⟩
    · have h3 : (xb : ℝ) ^ 2 < (C : ℝ) := by exact_mod_cast h
      exact ⟨one_div_le_one_div_of_neg_of_le (by linarith) (by linarith), one_div_le_one_div_of_neg_of_le (by linarith) (by linarith)⟩
  have ne1 := hne _ i1 i2
  have ne0 := hne _ le_rfl (i1.trans i2)
  have ne2 := hne _ (i1.trans i2) le_rfl
  refine ⟨?_, ?_⟩
  · intro h3
    apply ne1
    have : (C : ℝ) / x ^ 2 = 1 := by linarith
    rw [div_eq_one_iff_eq p1.ne'] at this
    exact this.symm
  · dsimp only
    rw [key _ p1 ne1]
    obtain ⟨m1, m2⟩ := Iv.mul_ends (y := (B : ℝ) * C) hmono.1 hmono.2
    have e0 : ((termAt (B, C) xa : ℚ) : ℝ) = B + B * C * (1 / ((xa : ℝ) ^ 2 - C)) := by
      simp only [termAt, Rat.cast_div, Rat.cast_sub, Rat.cast_one, Rat.cast_pow]; exact key _ p0 ne0
    have e2 : ((termAt (B, C) xb : ℚ) : ℝ) = B + B * C * (1 / ((xb : ℝ) ^ 2 - C)) := by
      simp only [termAt, Rat.cast_div, Rat.cast_sub, Rat.cast_one, Rat.cast_pow]; exact key _ p2 ne2
    constructor <;> simp only [termIv, Rat.cast_min, Rat.cast_max, e0, e2]
    · rw [min_add_add_left, min_comm, mul_comm ((B : ℝ) * C), mul_comm ((B : ℝ) * C), mul_comm ((B : ℝ) * C)]
      linarith
    · rw [max_add_add_left, max_comm, mul_comm ((B : ℝ) * C), mul_comm ((B : ℝ) * C), mul_comm ((B : ℝ) * C)]
      linarith

theorem terms_has {xa xb : ℚ} (h0 : 0 < xa) {ts : List (ℚ × ℚ)} (h : ts.all (termFree xa xb) = true) {x : ℝ} (h1 : (xa : ℝ) ≤ x)
    (h2 : x ≤ (xb : ℝ)) : ∀ (i : Iv) (a : ℝ), i.has a →
      ∃ s, ts.foldl (sellmeierTerm x) (.ok a) = .ok s ∧ (ts.foldl (fun i t => i.add (termIv xa xb t)) i).has s := by
  induction ts with
  | nil => intro i a ha; exact ⟨a, rfl, ha⟩
  | cons t ts ih =>
    intro i a ha
    simp only [List.all_cons, Bool.and_eq_true] at h
    obtain ⟨h3, h4⟩ := term_has h0 h.1 h1 h2
    obtain ⟨s, h5, h6⟩ := ih h.2 _ _ (Iv.has_add ha h4)
    refine ⟨s, ?_, h6⟩
    rw [List.foldl_cons]
    simp only [sellmeierTerm, if_neg h3]
    exact h5

/-- the values of `a / x ^ (2 k)` -/
def powIv (xa xb a : ℚ) (k : ℕ) : Iv := ⟨min (a / xa ^ k) (a / xb ^ k), max (a / xa ^ k) (a / xb ^ k)⟩

theorem pow_has {xa xb : ℚ} (h0 : 0 < xa) (a : ℚ) (k : ℕ) {x : ℝ} (h1 : (xa : ℝ) ≤ x) (h2 : x ≤ (xb : ℝ)) :
    (powIv xa xb a k).has ((a : ℝ) / x ^ k) := by
  have ha : (0 : ℝ) < (xa : ℝ) := by exact_mod_cast h0
  have hx : 0 < x := ha.trans_le h1
  have i1 : (xa : ℝ) ^ k ≤ x ^ k := by gcongr
  have i2 : x ^ k ≤ (xb : ℝ) ^ k := by gcongr
  have p0 : (0 : ℝ) < (xa : ℝ) ^ k := by positivity
  have p1 : (0 : ℝ) < x ^ k := by positivity
  obtain ⟨m1, m2⟩ := Iv.mul_ends (y := (a : ℝ)) (one_div_le_one_div_of_le p1 i2) (one_div_le_one_div_of_le p0 i1)
  constructor <;> simp only [powIv, Rat.cast_min, Rat.cast_max, Rat.cast_div, Rat.cast_pow]
  · rw [min_comm]; simpa [div_eq_mul_inv, mul_comm] using m1
  · rw [max_comm]; simpa [div_eq_mul_inv, mul_comm] using m2

/-- what is under the root -/
def Formula.squareIv (xa xb : ℚ) : Formula → Iv
  | .air => .pt 1
  | .sellmeier ts => ts.foldl (fun i t => i.add (termIv xa xb t)) (.pt 1)
  | .laurent a b c d e f =>
    (((((Iv.pt a).add ((Iv.pt b).mul ⟨xa ^ 2, xb ^ 2⟩)).add (powIv xa xb c 2)).add (powIv xa xb d 4)).add (powIv xa xb e 6)).add (powIv xa xb f 8)

/-- no resonance, and a real index -/
def Formula.ivOk (xa xb : ℚ) (f : Formula) : Bool :=
  decide (0 < xa) && (match f with | .sellmeier ts => ts.all (termFree xa xb) | _ => true) && decide (0 ≤ (f.squareIv xa xb).lo)

/-- the index between two wavelengths -/
def Formula.nIv (xa xb : ℚ) (f : Formula) : Iv := (f.squareIv xa xb).sqrt

theorem Formula.has_square {xa xb : ℚ} {f : Formula} (h : f.ivOk xa xb = true) {x : ℝ} (h1 : (xa : ℝ) ≤ x) (h2 : x ≤ (xb : ℝ)) :
    ∃ s, f.square x = .ok s ∧ (f.squareIv xa xb).has s := by
  simp only [ivOk, Bool.and_eq_true, decide_eq_true_eq] at h
  obtain ⟨⟨h0, h3⟩, -⟩ := h
  have ha : (0 : ℝ) < (xa : ℝ) := by exact_mod_cast h0
  have hx : 0 < x := ha.trans_le h1
  cases f with
  | air => exact ⟨1, rfl, by simpa [squareIv] using Iv.has_pt 1⟩
  | sellmeier ts => exact terms_has h0 h3 h1 h2 _ _ (by simpa using Iv.has_pt 1)
  | laurent a b c d e f =>
    refine ⟨_, rfl, ?_⟩
    have hsq : (⟨xa ^ 2, xb ^ 2⟩ : Iv).has (x ^ 2) := by
      constructor <;> simp only [Rat.cast_pow] <;> gcongr
    exact Iv.has_add (Iv.has_add (Iv.has_add (Iv.has_add (Iv.has_add (Iv.has_pt a) (Iv.has_mul (Iv.has_pt b) hsq)) (pow_has h0 c 2 h1 h2))
      (pow_has h0 d 4 h1 h2)) (pow_has h0 e 6 h1 h2)) (pow_has h0 f 8 h1 h2)

theorem Glass.has_n {g : Glass} {xa xb : ℚ} (ha : 1 / 100 ≤ xa) (hb : xb ≤ 10) (h : g.formula.ivOk xa xb = true) {x : ℝ} (h1 : (xa : ℝ) ≤ x)
    (h2 : x ≤ (xb : ℝ)) : ∃ n : ℝ, g.n x = .ok (.real n) ∧ (g.formula.nIv xa xb).has n := by
  obtain ⟨s, h3, h4⟩ := Formula.has_square h h1 h2
  simp only [Formula.ivOk, Bool.and_eq_true, decide_eq_true_eq] at h
  have hlo : (0 : ℝ) ≤ ((g.formula.squareIv xa xb).lo : ℝ) := by exact_mod_cast h.2
  have hs : 0 ≤ s := hlo.trans h4.1
  have ha' : (0.01 : ℝ) ≤ (xa : ℝ) := by have : ((1 / 100 : ℚ) : ℝ) ≤ (xa : ℝ) := by exact_mod_cast ha
                                         norm_num at this ⊢; linarith
  have hb' : (xb : ℝ) ≤ 10 := by exact_mod_cast hb
  have hr : ¬ (x > ((10 : ℚ) : ℝ) ∨ x < ((0.01 : ℚ) : ℝ)) := by
    push Not
    constructor
    · norm_num; linarith
    · norm_num at ha' ⊢; linarith
  refine ⟨Real.sqrt s, ?_, Iv.has_sqrt h.2 h4⟩
  unfold Glass.n Glass.square
  rw [if_neg hr, h3]
  simp only [if_pos hs]

end RT
