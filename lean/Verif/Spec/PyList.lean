import Mathlib.Data.List.Basic

/-! # What Python lists do with positions, as a specification

Indices and slices of a list of length `n`, as in the Python language reference (3.3.1 and 6.3.3). This file does
not refer to the model. -/

namespace RT

/-- `l[i]` exists. -/
def PyValid (n : Nat) (i : Int) : Prop := -(n : Int) ≤ i ∧ i < n

/-- The place designated by a valid index. -/
def pyPlace (n : Nat) (i : Int) : Nat := if i < 0 then n - (-i).toNat else i.toNat

/-- The place designated by a bound of a slice, or by the first argument of `insert`. -/
def pySlot (n : Nat) (i : Int) : Nat := if i < 0 then n - (-i).toNat else if n ≤ i.toNat then n else i.toNat

/-- `l[s:e] = xs` for `s` and `e` places of the list: the replaced part is empty when `e ≤ s`. -/
def pySplice {α : Type} (l : List α) (s e : Nat) (xs : List α) : List α :=
  l.take s ++ xs ++ l.drop (max s e)

end RT
