import Verif.Spec.RoundedStop
import Verif.Spec.RoundedCut

/-! # Heights at the aperture stop, with the errors of the matrix up to there -/

set_option linter.unusedSectionVars false

namespace RT
variable {K : Type} [Field K] [LinearOrder K]

/-- the system cut at `v`, or the whole system -/
def Part.UpTo (p : Part K) (v : K) (s : RStage K) : Prop := p.CutAt v s ∨ (v = p.rmat.exact.len ∧ s = p.rmat)

/-- what rounding may change in the position of a stop between the trace and the matrix -/
def stopDelta (u : K) (p : Part K) (o : RExit K) : K :=
  relErr u o.roundings * o.zMaj + relErr u p.cutOps * ((1 + relErr u o.roundings) * o.zMaj + p.rmat.maj.len)

/-- `t` are the stages of `p` up to an opening of diameter `D`, as limiting as any other one for the axial ray up to rounding errors. `eA` and `eB` bound the errors
on the heights there of rays that enter at height 1 without angle, and on axis with angle 1: those of the coefficients of a matrix cut near there, and the
slope `S` times the error on positions. -/
def StopAt (u S : K) (p : Part K) (t : List (RStage K)) (D eA eB : K) : Prop :=
  ∃ o ∈ rexits p.rstages 1 0 0 (0, 1 / 10) (0, 1 / 10), (∀ o' ∈ rexits p.rstages 1 0 0 (0, 1 / 10) (0, 1 / 10), o'.ratio - o'.err u ≤ o.ratio + o.err u) ∧
    o.diam = some D ∧ o.z = exactLen t ∧ o.y = (exactOut t (0, 1 / 10)).1 ∧ (∃ pre s, t = pre ++ [s] ∧ s.exact.diam = some D) ∧ t <+: p.rstages ∧
    ∃ v c, p.UpTo v c ∧ |v - exactLen t| ≤ stopDelta u p o ∧
      eA = relErr u c.ops * c.maj.a + S * stopDelta u p o ∧ eB = relErr u c.ops * c.maj.b + S * stopDelta u p o

end RT
