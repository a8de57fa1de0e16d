import Verif.Spec.Rounded

/-! # What rounding may change when exponents are bounded

The errors of Spec/Rounded.lean, where each result is moreover known only within `u w`, `w` being the smallest number kept with all its bits (2⁻¹⁰²² for Python
floats): the majorants receive `2 w` at each element. And no majorant may be near the largest number. -/

set_option linter.unusedSectionVars false

namespace RT
variable {K : Type} [Field K] [LinearOrder K]

/-- the majorant after an element, with what underflow may add -/
def RStage.majOut (w : K) (s : RStage K) (m : K × K) : K × K := ((s.maj.out m).1 + 2 * w, (s.maj.out m).2 + 2 * w)

/-- The ray after the stages when nothing ever cancels, with what underflow may add. -/
def majOutW (w : K) (rs : List (RStage K)) (m : K × K) : K × K := rs.foldl (fun m s => s.majOut w m) m

/-- the majorant of the position -/
def majLenW (w : K) (rs : List (RStage K)) : K := (rs.map fun s => s.maj.len + w).sum

/-- `Clears`, with what underflow may add -/
def ClearsW (w u : K) : ℕ → List (RStage K) → K × K → K × K → Prop
  | _, [], _, _ => True
  | k, s :: ss, r, m =>
    (∀ D, s.exact.diam = some D → |r.1| + relErr u k * m.1 ≤ (1 - u) * (D / 2)) ∧
    (∀ N, s.exact.na = some N → |r.2| + relErr u k * m.2 ≤ N) ∧
    ClearsW w u (k + s.ops + 2) ss (s.exact.out r) (s.majOut w m)

/-- `Hits`, with what underflow may add -/
def HitsW (w u : K) : ℕ → List (RStage K) → K × K → K × K → Prop
  | _, [], _, _ => False
  | k, s :: ss, r, m =>
    (∃ D, s.exact.diam = some D ∧ (1 + u) * (D / 2) < |r.1| - relErr u k * m.1) ∨
    (∃ N, s.exact.na = some N ∧ N < |r.2| - relErr u k * m.2) ∨
    HitsW w u (k + s.ops + 2) ss (s.exact.out r) (s.majOut w m)

/-- No majorant exceeds `top` along the stages. -/
def Fits (w top : K) : List (RStage K) → K × K → Prop
  | [], _ => True
  | s :: ss, m => (s.majOut w m).1 ≤ top ∧ (s.majOut w m).2 ≤ top ∧ Fits w top ss (s.majOut w m)

/-- A number of moderate magnitude: zero, or between 2⁻ᵏ and 2ᵏ. -/
def Moderate (k : ℕ) (x : K) : Prop := x = 0 ∨ ((1 / 2 ^ k ≤ |x|) ∧ |x| ≤ 2 ^ k)

/-- of a number that may be infinite -/
def ModerateO (k : ℕ) : Option K → Prop
  | none => True
  | some x => Moderate k x

mutual
/-- Every parameter of the program has property `P`; `O` for those that may be infinite. -/
def Part.AllParams (P : K → Prop) (O : Option K → Prop) : Part K → Prop
  | .space d n diam => P d ∧ P n ∧ O diam
  | .lens f diam => P f ∧ O diam
  | .mirror R diam => P R ∧ O diam
  | .interface n1 n2 R diam => P n1 ∧ P n2 ∧ O R ∧ O diam
  | .thickLens n R1 R2 t diam => P n ∧ O R1 ∧ O R2 ∧ P t ∧ O diam
  | .slab n t diam => P n ∧ P t ∧ O diam
  | .aperture diam na _ => O diam ∧ O na
  | .matrix s _ _ diam => P s.a ∧ P s.b ∧ P s.c ∧ P s.d ∧ P s.len ∧ P s.nf ∧ P s.nb ∧ O diam
  | .group _ ps => Part.AllParamsList P O ps
/-- of successive parts -/
def Part.AllParamsList (P : K → Prop) (O : Option K → Prop) : List (Part K) → Prop
  | [] => True
  | p :: ps => p.AllParams P O ∧ Part.AllParamsList P O ps
end

end RT
