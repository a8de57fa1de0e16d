import Verif.Num

/-! # Model of `raytracing/ray.py` and of the comparisons of `raytracing/utils.py` -/

namespace RT
open PyNum
variable {F : Type} [PyNum F]

/-- `utils.py:85-100` `isAlmostZero(value, epsilon)`. -/
def isAlmostZero (value epsilon : F) : Bool := PyNum.abs value <. epsilon

/-- `utils.py:103-118` `isNotZero(value, epsilon)` (Python `>`). -/
def isNotZero (value epsilon : F) : Bool := epsilon <. PyNum.abs value

/-- `utils.py:121-140` `areAbsolutelyAlmostEqual(left, right, epsilon)`. -/
def areAbsolutelyAlmostEqual (left right epsilon : F) : Bool := PyNum.abs (left - right) <. epsilon

/-- `utils.py:143-166` `areRelativelyAlmostEqual(left, right, epsilon)`; both quotients are computed before
the comparison, so a zero argument raises `ZeroDivisionError`. -/
def areRelativelyAlmostEqual (left right epsilon : F) : Except PyErr Bool := do
  let absDiff := PyNum.abs (left - right)
  let relTol1 ← pyDiv absDiff (PyNum.abs left)
  let relTol2 ← pyDiv absDiff (PyNum.abs right)
  pure ((relTol1 <. epsilon) || (relTol2 <. epsilon))

/-- `utils.py:168-169` `areAbsolutelyNotEqual(left, right, epsilon)`. -/
def areAbsolutelyNotEqual (left right epsilon : F) : Bool := epsilon <. PyNum.abs (left - right)

/-- `ray.py:5-47` the attributes of a `Ray`. -/
structure Ray (F : Type) where
  y : F
  theta : F
  z : F
  isBlocked : Bool
  apertureDiameter : F
  wavelength : Option F
  deriving DecidableEq, Repr

/-- `ray.py:39-47` `Ray(y, theta, z, isBlocked, wavelength)`: the aperture diameter starts at `+Inf`. -/
def Ray.new (y theta : F) (z : F := 0) (isBlocked : Bool := false) (wavelength : Option F := none) : Ray F :=
  { y := y, theta := theta, z := z, isBlocked := isBlocked, apertureDiameter := inf,
    wavelength := wavelength }

/-- `ray.py:49-66` -/
def Ray.isNotBlocked (r : Ray F) : Bool := !r.isBlocked

/-- `ray.py:258-268` `Ray.__eq__` between two rays: only `y` and `theta` are compared. -/
def Ray.eq (r s : Ray F) : Bool :=
  if r.y !=. s.y then false else if r.theta !=. s.theta then false else true

/-- `ray.py:180-206` `Ray.at(z)`. -/
def Ray.at (r : Ray F) (z : F) : Ray F :=
  { Ray.new (r.y + (z - r.z) * r.theta) r.theta z with isBlocked := r.isBlocked }

/-- the loop of `ray.py:235-244`; `closest` is `closestRay`, `last` the value returned when the loop ends. -/
def Ray.alongLoop (z : F) (last : Ray F) : Ray F → List (Ray F) → Ray F
  | _, [] => last
  | closest, r :: rest =>
    if r.z ==. z then r
    else if z <. r.z then closest.at z
    else Ray.alongLoop z last r rest

/-- `ray.py:208-244` `Ray.along(rayTrace, z)`; an empty trace raises `IndexError` (`rayTrace[0]`). -/
def Ray.along (rayTrace : List (Ray F)) (z : F) : Except PyErr (Ray F) :=
  match rayTrace with
  | [] => .error .indexError
  | r0 :: rest => .ok (Ray.alongLoop z ((r0 :: rest).getLast (by simp)) r0 (r0 :: rest))

/-- `ray.py:103-108`, `157-162`, `164-169`: the increment used by `fan` and `fanGroup`. `N - 1` is an integer
at least 1, so the division is never by zero. -/
def fanDelta (lo hi : F) (N : Int) : Except PyErr F :=
  if 2 ≤ N then .ok (rawDiv (hi - lo) (lit ((N - 1 : Int) : ℚ)))
  else if N = 1 then .ok 0
  else .error .valueError

/-- `ray.py:71-115` `Ray.fan(y, radianMin, radianMax, N)`. -/
def Ray.fan (y radianMin radianMax : F) (N : Int) : Except PyErr (List (Ray F)) := do
  let delta ← fanDelta radianMin radianMax N
  pure ((List.range N.toNat).map fun (i : Nat) => Ray.new y (radianMin + lit (i : ℚ) * delta))

/-- `ray.py:120-178` `Ray.fanGroup(yMin, yMax, M, radianMin, radianMax, N)`. -/
def Ray.fanGroup (yMin yMax : F) (M : Int) (radianMin radianMax : F) (N : Int) :
    Except PyErr (List (Ray F)) := do
  let deltaRadian ← fanDelta radianMin radianMax N
  let deltaHeight ← fanDelta yMin yMax M
  pure ((List.range M.toNat).flatMap fun (j : Nat) => (List.range N.toNat).map fun (i : Nat) =>
    Ray.new (yMin + lit (j : ℚ) * deltaHeight) (radianMin + lit (i : ℚ) * deltaRadian))

end RT
