import Verif.Lemmas.Interval

/-! # Intervals with ends in fixed point

The ends are whole numbers of 10⁻¹², rounded outwards, so that the numbers stay short whatever the length of the computation. -/

namespace RT

/-- An interval; the ends are in units of 10⁻¹². -/
structure Fx where
  lo : Int
  hi : Int
  deriving DecidableEq

namespace Fx

/-- the unit -/
def unit : Nat := 1000000000000

theorem unit_pos : (0 : ℝ) < (unit : ℝ) := by norm_num [unit]
theorem unit_posZ : (0 : Int) < (unit : Int) := by decide

/-- `x` is in the interval. -/
def has (i : Fx) (x : ℝ) : Prop := (i.lo : ℝ) ≤ x * unit ∧ x * unit ≤ (i.hi : ℝ)

theorem has_of_eq {i : Fx} {x y : ℝ} (h : i.has x) (e : y = x) : i.has y := e ▸ h

/-- quotient rounded down -/
def down (a : Int) (b : Nat) : Int := a / (b : Int)
/-- quotient rounded up -/
def up (a : Int) (b : Nat) : Int := -(-a / (b : Int))

theorem down_le (a : Int) {b : Nat} (hb : 0 < b) : ((down a b : Int) : ℝ) * (b : ℝ) ≤ (a : ℝ) := by
  have h : a / (b : Int) * (b : Int) ≤ a := Int.ediv_mul_le a (by omega)
  have : ((a / (b : Int) * (b : Int) : Int) : ℝ) ≤ (a : ℝ) := by exact_mod_cast h
  simpa [down] using this

theorem le_up (a : Int) {b : Nat} (hb : 0 < b) : (a : ℝ) ≤ ((up a b : Int) : ℝ) * (b : ℝ) := by
  have h := down_le (-a) hb
  simp only [down, up, Int.cast_neg] at h ⊢
  linarith

/-- one number -/
def ofQ (q : ℚ) : Fx := ⟨down (q.num * unit) q.den, up (q.num * unit) q.den⟩
/-- sum -/
def add (i j : Fx) : Fx := ⟨i.lo + j.lo, i.hi + j.hi⟩
/-- difference -/
def sub (i j : Fx) : Fx := ⟨i.lo - j.hi, i.hi - j.lo⟩
/-- smallest of four -/
def min4 (a b c d : Int) : Int := min (min a b) (min c d)
/-- greatest of four -/
def max4 (a b c d : Int) : Int := max (max a b) (max c d)
/-- product -/
def mul (i j : Fx) : Fx :=
  if 0 ≤ i.lo then ⟨down ((if 0 ≤ j.lo then i.lo else i.hi) * j.lo) unit, up ((if 0 ≤ j.hi then i.hi else i.lo) * j.hi) unit⟩
  else ⟨down (min4 (i.lo * j.lo) (i.lo * j.hi) (i.hi * j.lo) (i.hi * j.hi)) unit,
   up (max4 (i.lo * j.lo) (i.lo * j.hi) (i.hi * j.lo) (i.hi * j.hi)) unit⟩
/-- does not contain 0 -/
def away (i : Fx) : Bool := decide (0 < i.lo) || decide (i.hi < 0)
/-- inverse of an interval of numbers of one sign -/
def inv (i : Fx) : Fx :=
  if 0 < i.lo then ⟨down ((unit * unit : Nat) : Int) i.hi.toNat, up ((unit * unit : Nat) : Int) i.lo.toNat⟩
  else ⟨-(up ((unit * unit : Nat) : Int) (-i.hi).toNat), -(down ((unit * unit : Nat) : Int) (-i.lo).toNat)⟩

theorem has_ofQ (q : ℚ) : (ofQ q).has (q : ℝ) := by
  have hd : (0 : ℝ) < (q.den : ℝ) := by exact_mod_cast q.den_pos
  have hq : (q : ℝ) * (q.den : ℝ) = (q.num : ℝ) := by
    have := Rat.mul_den_eq_num q
    exact_mod_cast this
  constructor
  · have h := down_le (q.num * unit) q.den_pos
    push_cast at h
    rw [← hq] at h
    exact le_of_mul_le_mul_right (by simpa [ofQ, mul_right_comm] using h) hd
  · have h := le_up (q.num * unit) q.den_pos
    push_cast at h
    rw [← hq] at h
    exact le_of_mul_le_mul_right (by simpa [ofQ, mul_right_comm] using h) hd

theorem has_add {i j : Fx} {x y : ℝ} (hx : i.has x) (hy : j.has y) : (i.add j).has (x + y) := by
  constructor <;> simp only [add, Int.cast_add, add_mul]
  · exact add_le_add hx.1 hy.1
  · exact add_le_add hx.2 hy.2

theorem has_sub {i j : Fx} {x y : ℝ} (hx : i.has x) (hy : j.has y) : (i.sub j).has (x - y) := by
  constructor <;> simp only [sub, Int.cast_sub, sub_mul]
  · exact sub_le_sub hx.1 hy.2
  · exact sub_le_sub hx.2 hy.1

theorem mul_four {a b c d x y : ℝ} (h1 : a ≤ x) (h2 : x ≤ b) (h3 : c ≤ y) (h4 : y ≤ d) :
    min (min (a * c) (a * d)) (min (b * c) (b * d)) ≤ x * y ∧ x * y ≤ max (max (a * c) (a * d)) (max (b * c) (b * d)) := by
  obtain ⟨a1, a2⟩ := Iv.mul_ends (y := y) h1 h2
  obtain ⟨b1, b2⟩ := Iv.mul_ends (y := a) h3 h4
  obtain ⟨c1, c2⟩ := Iv.mul_ends (y := b) h3 h4
  constructor
  · refine le_trans (min_le_min ?_ ?_) a1
    · rw [mul_comm a c, mul_comm a d, mul_comm a y]; exact b1
    · rw [mul_comm b c, mul_comm b d, mul_comm b y]; exact c1
  · refine le_trans a2 (max_le_max ?_ ?_)
    · rw [mul_comm a c, mul_comm a d, mul_comm a y]; exact b2
    · rw [mul_comm b c, mul_comm b d, mul_comm b y]; exact c2

theorem has_mul {i j : Fx} {x y : ℝ} (hx : i.has x) (hy : j.has y) : (i.mul j).has (x * y) := by
  have hu := unit_pos
  have e : x * y * unit * unit = (x * unit) * (y * unit) := by ring
  unfold mul
  split
  · rename_i h
    have l1 : (0 : ℝ) ≤ (i.lo : ℝ) := by exact_mod_cast h
    have lx := l1.trans hx.1
    constructor
    · refine le_of_mul_le_mul_right ?_ hu
      rw [e]
      refine (down_le _ (b := unit) (by decide)).trans ?_
      split <;> rename_i h2
      · have l2 : (0 : ℝ) ≤ (j.lo : ℝ) := by exact_mod_cast h2
        push_cast
        exact mul_le_mul hx.1 hy.1 l2 lx
      · have l2 : (j.lo : ℝ) ≤ 0 := by exact_mod_cast (not_le.1 h2).le
        push_cast
        exact (mul_le_mul_of_nonpos_right hx.2 l2).trans (mul_le_mul_of_nonneg_left hy.1 lx)
    · refine le_of_mul_le_mul_right ?_ hu
      rw [e]
      refine le_trans ?_ (le_up _ (b := unit) (by decide))
      split <;> rename_i h2
      · have l2 : (0 : ℝ) ≤ (j.hi : ℝ) := by exact_mod_cast h2
        push_cast
        exact (mul_le_mul_of_nonneg_left hy.2 lx).trans (mul_le_mul_of_nonneg_right hx.2 l2)
      · have l2 : (j.hi : ℝ) ≤ 0 := by exact_mod_cast (not_le.1 h2).le
        push_cast
        exact (mul_le_mul_of_nonneg_left hy.2 lx).trans (mul_le_mul_of_nonpos_right hx.1 l2)
  · obtain ⟨f1, f2⟩ := mul_four hx.1 hx.2 hy.1 hy.2
    constructor
    · refine le_of_mul_le_mul_right ?_ hu
      rw [e]
      refine (down_le _ (b := unit) (by decide)).trans ?_
      simp only [min4, Int.cast_min, Int.cast_mul]
      exact f1
    · refine le_of_mul_le_mul_right ?_ hu
      rw [e]
      refine le_trans ?_ (le_up _ (b := unit) (by decide))
      simp only [max4, Int.cast_max, Int.cast_mul]
      exact f2

theorem away_ne {i : Fx} (h : i.away = true) {x : ℝ} (hx : i.has x) : x ≠ 0 := by
  rintro rfl
  obtain ⟨h1, h2⟩ := hx
  rw [zero_mul] at h1 h2
  simp only [away, Bool.or_eq_true, decide_eq_true_eq] at h
  have h1' : i.lo ≤ 0 := by exact_mod_cast h1
  have h2' : 0 ≤ i.hi := by exact_mod_cast h2
  omega

theorem inv_pos_aux {lo hi : Int} (h : 0 < lo) {x : ℝ} (h1 : (lo : ℝ) ≤ x * unit) (h2 : x * unit ≤ (hi : ℝ)) :
    ((down ((unit * unit : Nat) : Int) hi.toNat : Int) : ℝ) ≤ 1 / x * unit ∧ 1 / x * unit ≤ ((up ((unit * unit : Nat) : Int) lo.toNat : Int) : ℝ) := by
  have hu := unit_pos
  have hl : (0 : ℝ) < (lo : ℝ) := by exact_mod_cast h
  have hx : 0 < x := by
    by_contra hc
    have := mul_nonpos_of_nonpos_of_nonneg (not_lt.1 hc) hu.le
    linarith
  have hh : (0 : ℝ) < (hi : ℝ) := hl.trans_le (h1.trans h2)
  have hh' : 0 < hi := by exact_mod_cast hh
  have t1 : ((hi.toNat : Nat) : ℝ) = (hi : ℝ) := by
    have : ((hi.toNat : Nat) : Int) = hi := Int.toNat_of_nonneg hh'.le
    exact_mod_cast this
  have t2 : ((lo.toNat : Nat) : ℝ) = (lo : ℝ) := by
    have : ((lo.toNat : Nat) : Int) = lo := Int.toNat_of_nonneg h.le
    exact_mod_cast this
  have hxu : 0 < x * unit := mul_pos hx hu
  have ex : 1 / x * unit * (x * unit) = unit * unit := by field_simp
  constructor
  · have h3 := down_le ((unit * unit : Nat) : Int) (b := hi.toNat) (by omega)
    rw [t1] at h3
    push_cast at h3
    refine le_of_mul_le_mul_right ?_ hxu
    rw [ex]
    rcases le_total 0 ((down ((unit * unit : Nat) : Int) hi.toNat : Int) : ℝ) with h4 | h4
    · exact le_trans (mul_le_mul_of_nonneg_left h2 h4) (by push_cast; exact h3)
    · exact le_trans (mul_nonpos_of_nonpos_of_nonneg h4 hxu.le) (by positivity)
  · have h3 := le_up ((unit * unit : Nat) : Int) (b := lo.toNat) (by omega)
    rw [t2] at h3
    push_cast at h3
    refine le_of_mul_le_mul_right ?_ hxu
    rw [ex]
    have h4 : (0 : ℝ) ≤ ((up ((unit * unit : Nat) : Int) lo.toNat : Int) : ℝ) := by
      by_contra hc
      have h5 := mul_nonpos_of_nonpos_of_nonneg (not_le.1 hc).le hl.le
      have h6 : (0 : ℝ) < (unit : ℝ) * unit := mul_pos hu hu
      push_cast at h5
      linarith
    refine le_trans ?_ (mul_le_mul_of_nonneg_left h1 h4)
    push_cast
    exact h3

theorem has_inv {i : Fx} (h : i.away = true) {x : ℝ} (hx : i.has x) : i.inv.has (1 / x) := by
  unfold inv
  split
  · rename_i h1
    exact inv_pos_aux h1 hx.1 hx.2
  · rename_i h1
    simp only [away, Bool.or_eq_true, decide_eq_true_eq] at h
    have h2 : 0 < -i.hi := by omega
    obtain ⟨h3, h4⟩ := inv_pos_aux (lo := -i.hi) (hi := -i.lo) (x := -x) h2 (by push_cast; rw [neg_mul]; exact neg_le_neg hx.2)
      (by push_cast; rw [neg_mul]; exact neg_le_neg hx.1)
    have e : 1 / -x = -(1 / x) := by rw [div_neg]
    rw [e, neg_mul] at h3 h4
    constructor
    · simp only [Int.cast_neg]; linarith
    · simp only [Int.cast_neg]; linarith

/-- an interval with rational ends inside one in fixed point -/
def covers (f : Fx) (i : Iv) : Bool := decide ((f.lo : ℚ) ≤ i.lo * unit) && decide (i.hi * unit ≤ (f.hi : ℚ))

theorem has_covers {f : Fx} {i : Iv} (h : f.covers i = true) {x : ℝ} (hx : i.has x) : f.has x := by
  simp only [covers, Bool.and_eq_true, decide_eq_true_eq] at h
  have h1 : (((f.lo : ℚ)) : ℝ) ≤ ((i.lo * unit : ℚ) : ℝ) := (Rat.cast_le (K := ℝ)).2 h.1
  have h2 : ((i.hi * unit : ℚ) : ℝ) ≤ (((f.hi : ℚ)) : ℝ) := (Rat.cast_le (K := ℝ)).2 h.2
  push_cast at h1 h2
  exact ⟨h1.trans (mul_le_mul_of_nonneg_right hx.1 unit_pos.le), (mul_le_mul_of_nonneg_right hx.2 unit_pos.le).trans h2⟩

end Fx

end RT
