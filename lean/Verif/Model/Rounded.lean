import Verif.Model.Trace
import Verif.Model.Build

/-! # Rounded numbers

Python floats are not exact: every operation returns the exact result rounded to 53 significant bits. `Fl K rnd` are the
numbers of `Ext K` where the result of every `+ - * /` and every literal is rounded by the function `rnd`. The model of the code
is generic in the numbers (`PyNum`), so it runs unchanged on them. `double` is rounding to the nearest binary64 number, ties to
even, as all Python implementations do.

Simplification: no overflow and no underflow (the exponent is unbounded), no signed zero. -/

set_option linter.unusedSectionVars false

namespace RT
open PyNum

/-- Numbers computed with rounding. -/
structure Fl (K : Type) (rnd : K → K) where
  val : Ext K
  deriving DecidableEq

namespace Fl
variable {K : Type} [Field K] [LinearOrder K]

/-- rounding, of a finite number; infinities and `nan` are unchanged -/
def rndE (rnd : K → K) : Ext K → Ext K
  | .fin x => .fin (rnd x)
  | e => e

/-- The operations of the CPU: the exact operation, then rounding. Changing a sign, taking an absolute value and comparing are
exact. -/
instance (rnd : K → K) : PyNum (Fl K rnd) where
  ofRat q := ⟨rndE rnd (PyNum.ofRat q)⟩
  inf := ⟨.pinf⟩
  add x y := ⟨rndE rnd (x.val.add y.val)⟩
  sub x y := ⟨rndE rnd (x.val.add y.val.neg)⟩
  mul x y := ⟨rndE rnd (x.val.mul y.val)⟩
  rawDiv x y := ⟨rndE rnd (x.val.div y.val)⟩
  neg x := ⟨x.val.neg⟩
  abs x := ⟨x.val.abs⟩
  lt x y := PyNum.lt x.val y.val
  le x y := PyNum.le x.val y.val
  eq x y := PyNum.eq x.val y.val

/-- a finite number -/
def num {rnd : K → K} (x : K) : Fl K rnd := ⟨.fin x⟩

/-- a finite number, or infinity -/
def optNum {rnd : K → K} : Option K → Fl K rnd
  | none => ⟨.pinf⟩
  | some x => num x

end Fl

/-! ## Binary64 -/

/-- a power of two -/
def pow2 : Int → ℚ
  | .ofNat n => ((2 ^ n : Nat) : ℚ)
  | .negSucc n => 1 / ((2 ^ (n + 1) : Nat) : ℚ)

/-- the nearest integer, the even one when there are two -/
def roundEven (q : ℚ) : Int :=
  let f := q.floor
  if q - f < 1 / 2 then f
  else if 1 / 2 < q - f then f + 1
  else if f % 2 = 0 then f else f + 1

/-- the exponent `k` such that `2^k ≤ |x| < 2^(k+1)` -/
def binade (x : ℚ) : Int :=
  let k : Int := (Nat.log2 x.num.natAbs : Int) - (Nat.log2 x.den : Int)
  if pow2 k ≤ |x| then k else k - 1

/-- Rounding to 53 significant bits, to nearest, ties to even. -/
def double (x : ℚ) : ℚ :=
  if x = 0 then 0 else (roundEven (x / pow2 (binade x - 52)) : ℚ) * pow2 (binade x - 52)

/-- Python floats. -/
abbrev Double := Fl ℚ double

/-! ## Programs in rounded arithmetic -/

section
variable {K : Type} {F : Type} [PyNum F]

/-- the arguments of `Matrix(...)`: `matrix.py:118-132` -/
def genericMatWith (num : K → F) (opt : Option K → F) (s : Sys K) (fv bv diam : Option K) : Mat F :=
  { (Mat.one : Mat F) with
    A := num s.a, B := num s.b, C := num s.c, D := num s.d, L := num s.len, frontVertex := fv.map num,
    backVertex := bv.map num, frontIndex := num s.nf, backIndex := num s.nb, apertureDiameter := opt diam }

mutual
/-- `Part.build` for any kind of numbers: `num` and `opt` say how the parameters of the program are represented. -/
def Part.buildWith (num : K → F) (opt : Option K → F) : Part K → Except PyErr (Elem F)
  | .space d n diam => (mkSpace (num d) (num n) (opt diam)).map .leaf
  | .lens f diam => (mkLens (num f) (opt diam)).map .leaf
  | .mirror R diam => (mkCurvedMirror (num R) (opt diam)).map .leaf
  | .interface n1 n2 R diam => (mkDielectric (num n1) (num n2) (opt R) (opt diam)).map .leaf
  | .thickLens n R1 R2 t diam => (mkThickLens (num n) (opt R1) (opt R2) (num t) (opt diam)).map .leaf
  | .slab n t diam => (mkSlab (num n) (num t) (opt diam)).map .leaf
  | .aperture diam na label => (mkAperture (opt diam) (opt na) label).map .leaf
  | .matrix s fv bv diam => (Mat.init (genericMatWith num opt s fv bv diam)).map .leaf
  | .group label ps =>
    match Part.buildListWith num opt ps with
    | .error x => .error x
    | .ok es => (Group.new es label).map Group.toElem
/-- the elements of a list, built in order -/
def Part.buildListWith (num : K → F) (opt : Option K → F) : List (Part K) → Except PyErr (List (Elem F))
  | [] => .ok []
  | p :: ps =>
    match p.buildWith num opt with
    | .error x => .error x
    | .ok e =>
      match Part.buildListWith num opt ps with
      | .error x => .error x
      | .ok es => .ok (e :: es)
end
end

/-- the object built by a program run with rounding -/
def Part.buildR {K : Type} [Field K] [LinearOrder K] (rnd : K → K) (p : Part K) : Except PyErr (Elem (Fl K rnd)) :=
  p.buildWith Fl.num Fl.optNum

/-- the elements built by a list of constructor calls, run with rounding -/
def Part.buildListR {K : Type} [Field K] [LinearOrder K] (rnd : K → K) (ps : List (Part K)) :
    Except PyErr (List (Elem (Fl K rnd))) :=
  Part.buildListWith Fl.num Fl.optNum ps

end RT
