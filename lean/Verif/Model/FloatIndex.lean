import Verif.Model.Materials

/-! # The indices of the materials, operation by operation: `materials.py:125-654`

The same formulas as in `Model/Materials.lean`, on any numbers, with the operations in the order of the source: the literals are converted to floats,
`x ** k` and `** .5` are functions of the platform. A negative coefficient stands for a subtraction in the source (`a - b*x**2`), or for an addition
where the source subtracts (`1 + C/x**2`). -/

namespace RT
open PyNum

/-- The powers of the module: `x ** k` for a literal integer `k`, and `x ** .5` of a number that is not negative. -/
class PyPow (F : Type) where
  pow : F → ℤ → F
  root : F → F

/-- What `** .5` returns. -/
inductive FloatIndex (F : Type) where
  | real (n : F)
  /-- a complex number -/
  | complex

section
variable {F : Type} [PyNum F] [PyPow F]

/-- `a + q*v`, written `a - |q|*v` for a negative coefficient, `v` being made from the coefficient without its sign -/
def signedAdd (a : F) (q : ℚ) (v : F → F) : F := if q < 0 then a - v (lit (-q)) else a + v (lit q)

/-- `B/(1-C/x**2)` or `B/(1+C/x**2)`, e.g. `materials.py:144` and `:543` -/
def overTerm (x : F) (t : ℚ × ℚ) : Except PyErr F :=
  match pyDiv (lit |t.2|) (PyPow.pow x 2) with
  | .error e => .error e
  | .ok q => pyDiv (lit t.1) (if t.2 < 0 then 1 + q else 1 - q)

/-- `B/(1-(c/x)**2)`, `materials.py:445` -/
def squareTerm (x : F) (t : ℚ × ℚ) : Except PyErr F :=
  match pyDiv (lit t.2) x with
  | .error e => .error e
  | .ok q => pyDiv (lit t.1) (1 - PyPow.pow q 2)

/-- the sum of the terms, from left to right -/
def sumTerms (term : ℚ × ℚ → Except PyErr F) : F → List (ℚ × ℚ) → Except PyErr F
  | s, [] => .ok s
  | s, t :: ts =>
    match term t with
    | .error e => .error e
    | .ok v => sumTerms term (s + v) ts

/-- `a + b*x**2 + c*x**-2 + ...`, from left to right, e.g. `materials.py:317` -/
def sumPowers (x : F) : F → List (ℚ × ℤ) → F
  | s, [] => s
  | s, (b, k) :: ts => sumPowers x (signedAdd s b fun c => c * PyPow.pow x k) ts

/-- the numbers of `materials.py:445`, which squares its second ones -/
def fusedSilica : List (ℚ × ℚ) := [(0.6961663, 0.0684043), (0.4079426, 0.1162414), (0.8974794, 9.896161)]

/-- What is under the square root. -/
def Glass.squareF (g : Glass) (x : F) : Except PyErr F :=
  match g.formula with
  | .air => .ok 1
  | .sellmeier ts => if g.name = "FusedSilica" then sumTerms (squareTerm x) 1 fusedSilica else sumTerms (overTerm x) 1 ts
  | .laurent a b c d e f => .ok (sumPowers x (lit a) [(b, 2), (c, -2), (d, -4), (e, -6), (f, -8)])

/-- `Material.n(wavelength)`, e.g. `materials.py:139-145`; `Air` returns 1.0 without a power (`:125-130`). -/
def Glass.nF (g : Glass) (x : F) : Except PyErr (FloatIndex F) :=
  if ((10 : F) <. x) || (x <. (lit (1 / 100) : F)) then .error .valueError
  else match g.formula with
    | .air => .ok (.real 1)
    | _ =>
      match g.squareF x with
      | .error e => .error e
      | .ok s => .ok (if s <. (0 : F) then .complex else .real (PyPow.root s))
end

end RT
