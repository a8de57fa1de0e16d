import Verif.Model.Rounded

/-! # Python floats with their limits

`Fl ℚ double` (Rounded.lean) has numbers of any magnitude. Here are the binary64 numbers of IEEE 754, which are those of Python: the exponent is bounded, so that
results below 2⁻¹⁰²² lose bits (underflow) and results of 2¹⁰²⁴ or more are infinite (overflow). The model of the code runs unchanged on them.

Simplification: a single zero. The sign of a zero can only be seen by dividing by it, and Python raises `ZeroDivisionError` there. -/

set_option linter.unusedSectionVars false

namespace RT
open PyNum

/-- the exponent of the last bit kept: 52 bits after the first one, but never below 2⁻¹⁰⁷⁴ -/
def lastBit (x : ℚ) : Int := max (binade x - 52) (-1074)

/-- Rounding of an exact result to binary64, to nearest, ties to even, with underflow and overflow. -/
def double64 (x : ℚ) : Ext ℚ :=
  let r : ℚ := if x = 0 then 0 else (roundEven (x / pow2 (lastBit x)) : ℚ) * pow2 (lastBit x)
  if pow2 1024 ≤ r then .pinf else if r ≤ -pow2 1024 then .ninf else .fin r

/-- Python floats, with overflow and underflow. -/
structure B64 where
  val : Ext ℚ
  deriving DecidableEq

namespace B64

/-- rounding of a result; infinities and `nan` are unchanged -/
def round : Ext ℚ → Ext ℚ
  | .fin x => double64 x
  | e => e

/-- The operations of the CPU: the exact operation, then rounding. Changing a sign, taking an absolute value and comparing are exact. -/
instance : PyNum B64 where
  ofRat q := ⟨round (PyNum.ofRat q)⟩
  inf := ⟨.pinf⟩
  add x y := ⟨round (x.val.add y.val)⟩
  sub x y := ⟨round (x.val.add y.val.neg)⟩
  mul x y := ⟨round (x.val.mul y.val)⟩
  rawDiv x y := ⟨round (x.val.div y.val)⟩
  neg x := ⟨x.val.neg⟩
  abs x := ⟨x.val.abs⟩
  lt x y := PyNum.lt x.val y.val
  le x y := PyNum.le x.val y.val
  eq x y := PyNum.eq x.val y.val

/-- a finite number -/
def num (x : ℚ) : B64 := ⟨.fin x⟩

/-- a finite number, or infinity -/
def opt : Option ℚ → B64
  | none => ⟨.pinf⟩
  | some x => num x

end B64

/-- the object built by a program run by Python -/
def Part.build64 (p : Part ℚ) : Except PyErr (Elem B64) := p.buildWith B64.num B64.opt

end RT
