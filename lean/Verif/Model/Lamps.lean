import Verif.Model.Rays

/-! # Lambertian sources, lamps, and rays added to a source

`rays.py:539-595` (`LambertianRays`), `874-927` (`LampRays`), and `append`, `load` (`378-427`) of the sources that make their rays when
they are asked (`598-660`).

`int(x)` and `cos` are parameters. The rays are values, as in `Rays.lean`. -/

namespace RT
open PyNum
variable {F : Type} [PyNum F]

/-- `rays.py:578-595` `LambertianRays(yMax, yMin, M, N, I)`: the heights are computed again for every angle; `range(intensity)` is empty when
`intensity` is negative. `toInt` is Python's `int`, `halfPi` is `np.pi / 2`. -/
def lambertianRays (cos : F → F) (toInt : F → Except PyErr Int) (halfPi yMax : F) (yMin : Option F) (M N : Int) (I : F) :
    Except PyErr (List (Ray F)) :=
  let yMin := yMin.getD (-yMax)
  match linspace (-halfPi) halfPi N with
  | .error x => .error x
  | .ok angles => loop yMin angles
where
  /-- the loops of `590-594` -/
  loop (yMin : F) : List F → Except PyErr (List (Ray F))
    | [] => .ok []
    | theta :: angles =>
      match toInt (I * cos theta) with
      | .error x => .error x
      | .ok intensity =>
        match linspace yMin yMax M with
        | .error x => .error x
        | .ok heights =>
          match loop yMin angles with
          | .error x => .error x
          | .ok rays => .ok ((heights.flatMap fun y => List.replicate intensity.toNat (Ray.new y theta)) ++ rays)

namespace RandomRays

/-- `rays.py:378-403` `source.append(ray)`: the number of rays made is not looked at. -/
def append (s : RandomRays F) (r : Ray F) : RandomRays F := { s with rays := s.rays ++ [r], yCache := none }

/-- `rays.py:405-427` `source.load(filePath, append)` of a file containing a list of rays, see `Rays.load`. -/
def load (s : RandomRays F) (file : Option (List (Ray F))) (append : Bool) : RandomRays F × Except PyErr Unit :=
  match file with
  | none => (s, .error .ioError)
  | some l => ({ s with rays := if append then s.rays ++ l else l }, .ok ())

end RandomRays

/-- `rays.py:906-927` `LampRays(diameter, NA, N, T, H)` without `random`: the rays are made at once, and `maxCount` is their number. It is a
`RandomRays` for `len`, the iterations and the indices. -/
def lampSource (diameter NA : F) (N T : Int) (H : Option Int) : Except PyErr (RandomRays F) :=
  match lampRays diameter NA N T H with
  | .error x => .error x
  | .ok rays =>
    let N := match H with
      | some h => if h = 0 then N else h
      | none => N
    .ok ⟨N * T, rays, 0, 0, none⟩

/-- `rays.py:715`: such a lamp has no `thetaMin`, it cannot make a ray. -/
def lampDraw (_ : Nat) : Except PyErr (Ray F × Nat) := .error .attributeError

end RT
