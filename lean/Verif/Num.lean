import Mathlib.Algebra.Order.Field.Basic
import Mathlib.Algebra.Order.Field.Rat
import Mathlib.Data.Rat.Cast.CharZero
import Mathlib.Data.Rat.Cast.Order
import Mathlib.Tactic.Linarith
import Mathlib.Tactic.Ring
import Mathlib.Tactic.FieldSimp
import Mathlib.Tactic.NormNum
import Mathlib.Tactic.LinearCombination

/-!
# Numbers

`PyNum F` provides the *operations* of Python floats used by the code, and no law.
`Ext K` is the exact instance: the elements of an ordered field `K` plus `+inf`, `-inf`, `nan`
with the IEEE-754 rules (no rounding, no overflow, no signed zero).
-/

set_option linter.unusedSectionVars false

namespace RT

/-- The operations on Python floats used in `/repo/raytracing` (`+ - * / abs < <= ==`, literals and
`float("+Inf")`). No algebraic law is assumed. `rawDiv a b` is only used for `b != 0`:
Python raises `ZeroDivisionError` otherwise, see `pyDiv`. -/
class PyNum (F : Type) where
  ofRat : ℚ → F
  inf : F
  add : F → F → F
  sub : F → F → F
  mul : F → F → F
  rawDiv : F → F → F
  neg : F → F
  abs : F → F
  lt : F → F → Bool
  le : F → F → Bool
  eq : F → F → Bool

section Notation
variable {F : Type} [PyNum F]

instance (priority := low) : Add F := ⟨PyNum.add⟩
instance (priority := low) : Sub F := ⟨PyNum.sub⟩
instance (priority := low) : Mul F := ⟨PyNum.mul⟩
instance (priority := low) : Neg F := ⟨PyNum.neg⟩
instance (priority := low) (n : ℕ) : OfNat F n := ⟨PyNum.ofRat (n : ℚ)⟩

/-- Python `a < b` on floats. -/
scoped infix:50 " <. " => PyNum.lt
/-- Python `a <= b` on floats. -/
scoped infix:50 " ≤. " => PyNum.le
/-- Python `a == b` on floats. -/
scoped infix:50 " ==. " => PyNum.eq
/-- Python `a != b` on floats. -/
scoped notation:50 a " !=. " b => !(PyNum.eq a b)

/-- A decimal literal of the source text. -/
def lit (q : ℚ) : F := PyNum.ofRat q

/-- `float("+Inf")`. -/
def inf : F := PyNum.inf

end Notation

/-- Python exceptions, as values. -/
inductive PyErr where
  | valueError | typeError | zeroDivisionError | runtimeError | indexError | attributeError
  | assertionError | ioError | keyError | stopIteration | nonTermination
  deriving DecidableEq, Repr

instance instDecEqExcept {ε α : Type} [DecidableEq ε] [DecidableEq α] : DecidableEq (Except ε α) :=
  fun a b => match a, b with
  | .ok x, .ok y => if h : x = y then isTrue (by rw [h]) else isFalse (by simp [h])
  | .error x, .error y => if h : x = y then isTrue (by rw [h]) else isFalse (by simp [h])
  | .ok _, .error _ => isFalse (by simp)
  | .error _, .ok _ => isFalse (by simp)

/-- Python's `/` on floats: raises `ZeroDivisionError` when the divisor is zero. -/
def pyDiv {F : Type} [PyNum F] (a b : F) : Except PyErr F :=
  if b ==. 0 then .error .zeroDivisionError else .ok (PyNum.rawDiv a b)

/-! ## Exact numbers with infinities -/

/-- Exact numbers of the field `K` extended with the special values of IEEE floats. -/
inductive Ext (K : Type) where
  | fin (x : K)
  | pinf
  | ninf
  | nan
  deriving DecidableEq, Repr

namespace Ext
variable {K : Type} [Field K] [LinearOrder K]

/-- sign of an infinite result -/
def infOf (s : K) : Ext K := if 0 < s then pinf else if s < 0 then ninf else nan

/-- a number with the sign of the argument -/
def sgn : Ext K → K
  | fin x => x
  | pinf => 1
  | ninf => -1
  | nan => 0

def add : Ext K → Ext K → Ext K
  | fin x, fin y => fin (x + y)
  | nan, _ => nan
  | _, nan => nan
  | pinf, ninf => nan
  | ninf, pinf => nan
  | pinf, _ => pinf
  | ninf, _ => ninf
  | fin _, pinf => pinf
  | fin _, ninf => ninf

def neg : Ext K → Ext K
  | fin x => fin (-x)
  | pinf => ninf
  | ninf => pinf
  | nan => nan

def mul : Ext K → Ext K → Ext K
  | fin x, fin y => fin (x * y)
  | nan, _ => nan
  | _, nan => nan
  | fin x, pinf => infOf x
  | fin x, ninf => infOf (-x)
  | pinf, fin y => infOf y
  | ninf, fin y => infOf (-y)
  | pinf, pinf => pinf
  | ninf, ninf => pinf
  | pinf, ninf => ninf
  | ninf, pinf => ninf

/-- Quotient; the case of a zero divisor is never used (see `pyDiv`). -/
def div : Ext K → Ext K → Ext K
  | fin x, fin y => fin (x / y)
  | nan, _ => nan
  | _, nan => nan
  | fin _, pinf => fin 0
  | fin _, ninf => fin 0
  | pinf, fin y => infOf y
  | ninf, fin y => infOf (-y)
  | pinf, pinf => nan
  | pinf, ninf => nan
  | ninf, pinf => nan
  | ninf, ninf => nan

def abs : Ext K → Ext K
  | fin x => fin |x|
  | pinf => pinf
  | ninf => pinf
  | nan => nan

def lt : Ext K → Ext K → Bool
  | fin x, fin y => decide (x < y)
  | nan, _ => false
  | _, nan => false
  | fin _, pinf => true
  | fin _, ninf => false
  | ninf, fin _ => true
  | ninf, pinf => true
  | ninf, ninf => false
  | pinf, _ => false

def eq : Ext K → Ext K → Bool
  | fin x, fin y => decide (x = y)
  | pinf, pinf => true
  | ninf, ninf => true
  | _, _ => false

instance : PyNum (Ext K) where
  ofRat q := fin (q : K)
  inf := pinf
  add := add
  sub x y := add x (neg y)
  mul := mul
  rawDiv := div
  neg := neg
  abs := abs
  lt := lt
  le x y := lt x y || eq x y
  eq := eq

/-- The number is an ordinary finite one. -/
def IsFin (x : Ext K) : Prop := ∃ k : K, x = fin k

/-- The finite value (0 for the special values). -/
def val : Ext K → K
  | fin x => x
  | _ => 0

@[simp] theorem val_fin (x : K) : (fin x).val = x := rfl

theorem IsFin.eq_fin {x : Ext K} (h : x.IsFin) : x = fin x.val := by
  obtain ⟨k, rfl⟩ := h; rfl

@[simp] theorem isFin_fin (x : K) : (fin x).IsFin := ⟨x, rfl⟩
@[simp] theorem not_isFin_pinf : ¬ (pinf : Ext K).IsFin := by rintro ⟨k, h⟩; cases h
@[simp] theorem not_isFin_ninf : ¬ (ninf : Ext K).IsFin := by rintro ⟨k, h⟩; cases h
@[simp] theorem not_isFin_nan : ¬ (nan : Ext K).IsFin := by rintro ⟨k, h⟩; cases h

/-! ### computation rules -/

@[simp] theorem fin_add_fin (x y : K) : (fin x : Ext K) + fin y = fin (x + y) := rfl
@[simp] theorem fin_sub_fin (x y : K) : (fin x : Ext K) - fin y = fin (x - y) := by
  change Ext.add _ (Ext.neg _) = _
  simp [Ext.add, Ext.neg, sub_eq_add_neg]
@[simp] theorem fin_mul_fin (x y : K) : (fin x : Ext K) * fin y = fin (x * y) := rfl
@[simp] theorem neg_fin (x : K) : -(fin x : Ext K) = fin (-x) := rfl
@[simp] theorem neg_pinf : -(pinf : Ext K) = ninf := rfl
@[simp] theorem neg_ninf : -(ninf : Ext K) = pinf := rfl
@[simp] theorem neg_nan : -(nan : Ext K) = nan := rfl
@[simp] theorem rawDiv_fin (x y : K) : PyNum.rawDiv (fin x : Ext K) (fin y) = fin (x / y) := rfl
@[simp] theorem rawDiv_fin_pinf (x : K) : PyNum.rawDiv (fin x : Ext K) pinf = fin 0 := rfl
@[simp] theorem rawDiv_fin_ninf (x : K) : PyNum.rawDiv (fin x : Ext K) ninf = fin 0 := rfl
@[simp] theorem rawDiv_pinf_fin (x : K) : PyNum.rawDiv (pinf : Ext K) (fin x) = infOf x := rfl
@[simp] theorem abs_fin (x : K) : PyNum.abs (fin x : Ext K) = fin |x| := rfl
@[simp] theorem abs_pinf : PyNum.abs (pinf : Ext K) = pinf := rfl
@[simp] theorem abs_ninf : PyNum.abs (ninf : Ext K) = pinf := rfl
@[simp] theorem abs_nan : PyNum.abs (nan : Ext K) = nan := rfl
@[simp] theorem inf_eq : (inf : Ext K) = pinf := rfl
theorem lit_eq (q : ℚ) : (lit q : Ext K) = fin (q : K) := rfl
@[simp] theorem zero_eq : (0 : Ext K) = fin 0 := by
  change fin _ = _; simp
@[simp] theorem one_eq : (1 : Ext K) = fin 1 := by
  change fin _ = _; simp
@[simp] theorem ofNat_eq [IsStrictOrderedRing K] (n : ℕ) [n.AtLeastTwo] :
    (OfNat.ofNat n : Ext K) = fin (OfNat.ofNat n) := by
  change fin _ = _; simp only [Rat.cast_natCast]; exact congrArg fin Nat.cast_ofNat

@[simp] theorem lt_fin (x y : K) : ((fin x : Ext K) <. fin y) = decide (x < y) := rfl
@[simp] theorem lt_fin_pinf (x : K) : ((fin x : Ext K) <. pinf) = true := rfl
@[simp] theorem lt_pinf (x : Ext K) : (pinf <. x) = false := by cases x <;> rfl
@[simp] theorem lt_nan (x : Ext K) : (x <. nan) = false := by cases x <;> rfl
@[simp] theorem nan_lt (x : Ext K) : (nan <. x) = false := by cases x <;> rfl
@[simp] theorem lt_fin_ninf (x : K) : ((fin x : Ext K) <. ninf) = false := rfl
@[simp] theorem ninf_lt_fin (x : K) : ((ninf : Ext K) <. fin x) = true := rfl
@[simp] theorem le_fin (x y : K) : ((fin x : Ext K) ≤. fin y) = decide (x ≤ y) := by
  change (decide (x < y) || decide (x = y)) = _
  simp only [← Bool.decide_or, le_iff_lt_or_eq]
@[simp] theorem le_fin_pinf (x : K) : ((fin x : Ext K) ≤. pinf) = true := rfl
@[simp] theorem pinf_le_fin (x : K) : ((pinf : Ext K) ≤. fin x) = false := rfl
@[simp] theorem pinf_le_pinf : ((pinf : Ext K) ≤. pinf) = true := rfl
@[simp] theorem le_fin_ninf (x : K) : ((fin x : Ext K) ≤. ninf) = false := rfl
@[simp] theorem le_nan (x : Ext K) : (x ≤. nan) = false := by cases x <;> rfl
@[simp] theorem nan_le (x : Ext K) : (nan ≤. x) = false := by cases x <;> rfl
@[simp] theorem eq_fin (x y : K) : ((fin x : Ext K) ==. fin y) = decide (x = y) := rfl
@[simp] theorem eq_fin_pinf (x : K) : ((fin x : Ext K) ==. pinf) = false := rfl
@[simp] theorem eq_pinf_fin (x : K) : ((pinf : Ext K) ==. fin x) = false := rfl
@[simp] theorem eq_pinf_pinf : ((pinf : Ext K) ==. pinf) = true := rfl
@[simp] theorem eq_fin_ninf (x : K) : ((fin x : Ext K) ==. ninf) = false := rfl
@[simp] theorem eq_ninf_fin (x : K) : ((ninf : Ext K) ==. fin x) = false := rfl
@[simp] theorem eq_pinf_ninf : ((pinf : Ext K) ==. ninf) = false := rfl
@[simp] theorem eq_ninf_pinf : ((ninf : Ext K) ==. pinf) = false := rfl
@[simp] theorem eq_ninf_ninf : ((ninf : Ext K) ==. ninf) = true := rfl
@[simp] theorem eq_nan (x : Ext K) : (x ==. nan) = false := by cases x <;> rfl
@[simp] theorem nan_eq (x : Ext K) : (nan ==. x) = false := by cases x <;> rfl

@[simp] theorem pinf_sub_fin (x : K) : (pinf : Ext K) - fin x = pinf := rfl
@[simp] theorem pinf_add_fin (x : K) : (pinf : Ext K) + fin x = pinf := rfl
@[simp] theorem fin_add_pinf (x : K) : (fin x : Ext K) + pinf = pinf := rfl
@[simp] theorem fin_mul_pinf (x : K) : (fin x : Ext K) * pinf = infOf x := rfl
@[simp] theorem fin_mul_ninf (x : K) : (fin x : Ext K) * ninf = infOf (-x) := rfl
@[simp] theorem pinf_mul_fin (x : K) : (pinf : Ext K) * fin x = infOf x := rfl

/-- An equality test that succeeds between IEEE values implies equality of the values. -/
theorem eq_of_eq {x y : Ext K} (h : (x ==. y) = true) : x = y := by
  cases x <;> cases y <;> simp_all

theorem pyDiv_fin (x y : K) (h : y ≠ 0) : pyDiv (fin x : Ext K) (fin y) = .ok (fin (x / y)) := by
  simp [pyDiv, h]

theorem pyDiv_zero (x : Ext K) : pyDiv x (fin 0 : Ext K) = .error .zeroDivisionError := by
  simp [pyDiv]

theorem pyDiv_pinf (x : K) : pyDiv (fin x : Ext K) pinf = .ok (fin 0) := by
  simp [pyDiv]

theorem pyDiv_ninf (x : K) : pyDiv (fin x : Ext K) ninf = .ok (fin 0) := by
  simp [pyDiv]

end Ext

/-- A number given by the user: `none` stands for `float("+Inf")`. -/
def optInf {K : Type} : Option K → Ext K
  | none => .pinf
  | some x => .fin x

end RT
