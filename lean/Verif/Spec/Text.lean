import Mathlib.Algebra.Field.Basic
import Mathlib.Algebra.Order.Ring.Abs
import Mathlib.Data.Nat.Cast.Basic

/-! # Reading a text, as a specification -/

namespace RT

/-- a blank -/
def blank (c : Char) : Bool := c == ' ' || c == '\n'

/-- one more word, unless it is empty -/
def push (w : List Char) (ws : List (List Char)) : List (List Char) := if w = [] then ws else w :: ws

/-- the letters before the first blank, and the words after it -/
def wordsAux : List Char → List Char × List (List Char)
  | [] => ([], [])
  | c :: s => if blank c then ([], push (wordsAux s).1 (wordsAux s).2) else (c :: (wordsAux s).1, (wordsAux s).2)

/-- The words of a text: what is between the blanks. -/
def words (s : List Char) : List (List Char) := push (wordsAux s).1 (wordsAux s).2

section
variable {K : Type} [Field K]

/-- the number written in base ten without sign -/
def readPlain (s : List Char) : K :=
  let int := s.takeWhile (· != '.')
  let frac := (s.dropWhile (· != '.')).tail
  (Nat.ofDigitChars 10 int 0 : K) + (Nat.ofDigitChars 10 frac 0 : K) / 10 ^ frac.length

/-- The number written in base ten. -/
def readNumber : List Char → K
  | '-' :: s => -readPlain s
  | s => readPlain s

/-- The word `s` is the number `x` up to half a unit of its `k`th decimal. -/
def Shows [LinearOrder K] (k : ℕ) (s : List Char) (x : K) : Prop := |readNumber s - x| ≤ 1 / 2 / 10 ^ k
end

end RT
