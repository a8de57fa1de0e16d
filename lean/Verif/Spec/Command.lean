import Mathlib.Data.Nat.Digits.Defs

/-! # The command line, as a specification -/

namespace RT

/-- The file is an example of that name: `ex` and a number, or `fig` and anything, then `.py`. -/
def IsExample (file : String) (name : List Char) : Prop :=
  file.toList = name ++ ['.', 'p', 'y'] ∧
  ((∃ digits, digits ≠ [] ∧ (∀ c ∈ digits, c.isDigit = true) ∧ name = 'e' :: 'x' :: digits) ∨
   (∃ rest, rest ≠ [] ∧ '\n' ∉ rest ∧ name = 'f' :: 'i' :: 'g' :: rest))

/-- The numbers written in base ten, with commas between them. -/
def commaText : List ℕ → List Char
  | [] => []
  | [k] => Nat.toDigits 10 k
  | k :: k' :: ks => Nat.toDigits 10 k ++ ',' :: commaText (k' :: ks)

end RT
