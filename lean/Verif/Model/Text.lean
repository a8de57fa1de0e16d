import Verif.Model.Matrix
import Verif.Model.Beam
import Verif.Model.Rounded
import Mathlib.Algebra.Order.Floor.Ring
import Mathlib.Data.Rat.Floor

/-! # What is printed

`str` of matrices, rays and beams. A number is written by `format` with a number of decimals and a least width: CPython writes the decimal
number nearest to the value of the float, the even one of two, with a minus sign when the number is negative.

Simplifications: the zero of Python has a sign, which is written; the format `{0:.3}` of a complex number is a parameter. Texts are lists of
characters. -/

namespace RT
open PyNum

/-- A kind of numbers that can be written: `text k x` is `"{:.kf}".format(x)`. -/
class PyText (F : Type) where
  text : ℕ → F → List Char

section
variable {K : Type} [Field K] [LinearOrder K] [FloorRing K]

/-- the integer nearest to `x`, the even one of two -/
def nearestEven (x : K) : ℤ :=
  if x - ⌊x⌋ < 1 / 2 then ⌊x⌋
  else if 1 / 2 < x - ⌊x⌋ then ⌊x⌋ + 1
  else if ⌊x⌋ % 2 = 0 then ⌊x⌋ else ⌊x⌋ + 1

/-- at least `k` characters, with zeros in front -/
def zeroFill (k : ℕ) (s : List Char) : List Char := List.replicate (k - s.length) '0' ++ s

/-- the decimal `n / 10^k` -/
def decimalText (k n : ℕ) : List Char := Nat.toDigits 10 (n / 10 ^ k) ++ '.' :: zeroFill k (Nat.toDigits 10 (n % 10 ^ k))

/-- `"{:.kf}".format(x)` of a finite number -/
def fixedText (k : ℕ) (x : K) : List Char :=
  (if x < 0 then ['-'] else []) ++ decimalText k (nearestEven (|x| * 10 ^ k)).toNat

instance : PyText (Ext K) where
  text k
    | .fin x => fixedText k x
    | .pinf => "inf".toList
    | .ninf => "-inf".toList
    | .nan => "nan".toList

instance (rnd : K → K) : PyText (Fl K rnd) where
  text k x := PyText.text k x.val
end

variable {F : Type} [PyNum F] [PyText F]

/-- `"{:w.kf}".format(x)`: right-justified in `w` characters. -/
def format (w k : ℕ) (x : F) : List Char :=
  List.replicate (w - (PyText.text k x).length) ' ' ++ PyText.text k x

/-- `matrix.py:1424-1437` `str(matrix)`. -/
def Mat.str (m : Mat F) : Except PyErr (List Char) := do
  let d := "| ".toList ++ format 6 3 m.A ++ "   ".toList ++ format 6 3 m.B ++ " |\n".toList ++
    "|                 |\n".toList ++
    "| ".toList ++ format 6 3 m.C ++ "   ".toList ++ format 6 3 m.D ++ " |\n".toList
  if !(m.C ==. 0) then
    let f ← pyDiv (-1) m.C
    pure (d ++ "f=".toList ++ format 0 3 f)
  else pure (d ++ "f = +inf (afocal)".toList)

/-- `ray.py:246-256` `str(ray)`. -/
def Ray.str (r : Ray F) : List Char :=
  "y = ".toList ++ format 6 3 r.y ++ "\n".toList ++ "theta = ".toList ++ format 6 3 r.theta ++ "\n".toList ++
    "z = ".toList ++ format 4 3 r.z ++ (if r.isBlocked then " (blocked)".toList else [])

/-- `gaussianbeam.py:141-154` `str(beam)`. `short` and `long` are `"{0:.3}".format(q)` and `"{0}".format(q)`. -/
def Beam.str [PyMath F] (short long : Cx F → List Char) (b : Beam F) : Except PyErr (List Char) := do
  match ← b.wo with
  | some wo =>
    let w ← b.w
    let R ← b.R
    pure ("Complex radius: ".toList ++ short b.q ++ "\n".toList ++ "w(z): ".toList ++ format 0 3 w ++ ", ".toList ++
      "R(z): ".toList ++ format 0 3 R ++ ", ".toList ++ "z: ".toList ++ format 0 3 b.z ++ ", ".toList ++
      "λ: ".toList ++ format 0 1 (b.wavelength * lit 1000000000) ++ " nm\n".toList ++
      "zo: ".toList ++ format 0 3 b.zo ++ ", ".toList ++ "wo: ".toList ++ format 0 3 wo ++ ", ".toList ++
      "wo position: ".toList ++ format 0 3 b.waistPosition)
  | none => pure ("Beam is not finite: q=".toList ++ long b.q)

end RT
