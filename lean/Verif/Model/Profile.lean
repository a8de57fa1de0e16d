import Verif.Model.Rays

/-! # Profiles of many traces, and the messages printed while many rays are traced -/

set_option linter.unusedSectionVars false

namespace RT
open PyNum
variable {F : Type} [PyNum F]

/-- `matrix.py:890-897` `profileFromRayTraces`: the ray of each trace at `z`, when it is not blocked. The `Rays()` returned is the list of what
was appended. -/
def profileFromRayTraces : List (List (Ray F)) → F → Except PyErr (List (Ray F))
  | [], _ => .ok []
  | t :: ts, z =>
    match Ray.along t z with
    | .error x => .error x
    | .ok r =>
      match profileFromRayTraces ts z with
      | .error x => .error x
      | .ok out => .ok (if r.isBlocked then out else r :: out)

/-- The two counters of a `Rays` used for the messages: `rays.py:74-75`. -/
structure Progress where
  iteration : Nat
  progressLog : Nat
  deriving DecidableEq, Repr

/-- `rays.py:359-362` `__iter__` -/
def Progress.start : Progress := ⟨0, 10000⟩

/-- `rays.py:348-357` `displayProgress` for a collection of `n` rays: the message (the iteration printed) if there is one, and the counters. `%` by
zero raises. The percentage printed is `iteration / n * 100`, which raises for `n = 0`. -/
def Progress.display (n : Nat) (p : Progress) : Except PyErr (Option Nat × Progress) :=
  if p.progressLog = 0 then .error .zeroDivisionError
  else if p.iteration % p.progressLog = 0 then
    let log := p.progressLog * 3
    let log := if log > n then n else log
    if n = 0 then .error .zeroDivisionError
    else .ok (some p.iteration, { p with progressLog := log })
  else .ok (none, p)

/-- `matrix.py:822-829`: the loop of `traceManyThrough(progress=True)` over the `left` rays that are left: `__next__` counts one more
(`rays.py:368-370`), then a message may be printed. The list of the messages. -/
def progressLoop (n : Nat) : Nat → Progress → Except PyErr (List Nat)
  | 0, _ => .ok []
  | left + 1, p =>
    match Progress.display n { p with iteration := p.iteration + 1 } with
    | .error x => .error x
    | .ok (msg, p') =>
      match progressLoop n left p' with
      | .error x => .error x
      | .ok l => .ok (msg.toList ++ l)

/-- the iterations printed while `n` rays are traced -/
def progressMessages (n : Nat) : Except PyErr (List Nat) := progressLoop n n Progress.start

end RT
