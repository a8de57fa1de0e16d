import Verif.Model.Group

/-! # Model of `raytracing/rays.py`

The rays of a collection are values here: changing a `Ray` object that is in a collection is not modelled. Files are
modelled by the value they contain (`pickle` is trusted). The progress messages (`348-357`) are in `Profile.lean`. Drawing (`285-346`) is
not modelled. -/

namespace RT
open PyNum
variable {F : Type} [PyNum F]

/-! ## numpy -/

/-- `numpy.linspace(start, stop, num, endpoint=True)`: `arange(num) * step + start`, the last one set to `stop` when
`num > 1`. -/
def linspace (start stop : F) (num : Int) : Except PyErr (List F) :=
  if num < 0 then .error .valueError
  else if num = 1 then .ok [0 * (stop - start) + start]
  else .ok ((List.range num.toNat).map fun i =>
    if i + 1 = num.toNat then stop
    else lit (i : ℚ) * rawDiv (stop - start) (lit ((num - 1 : Int) : ℚ)) + start)

/-- `xValues` of `rays.py:200-202`: the middle of each bin. -/
def middles : List F → List F
  | a :: b :: rest => half' (a + b) :: middles (b :: rest)
  | _ => []
where
  /-- `/ 2` -/
  half' (x : F) : F := rawDiv x 2

/-- counts of `numpy.histogram` for consecutive edges: every bin contains its lower edge and not its upper edge, except the
last one which contains both. -/
def binCounts (values : List F) : List F → List Nat
  | a :: b :: c :: rest =>
    (values.filter fun v => (a ≤. v) && (v <. b)).length :: binCounts values (b :: c :: rest)
  | [a, b] => [(values.filter fun v => (a ≤. v) && (v ≤. b)).length]
  | _ => []

/-- `numpy.histogram(values, bins=bins, range=(lo, hi))` and the middles computed from the edges: `ValueError` unless
`bins ≥ 1` and `lo ≤ hi` are finite; equal bounds are moved apart by 1/2. -/
def histogram (values : List F) (bins : Int) (lo hi : F) : Except PyErr (List F × List Nat) :=
  if bins < 1 then .error .valueError
  else if !(lo ≤. hi) then .error .valueError
  else if (lo ==. -inf) || (hi ==. inf) || (hi ==. -inf) || (lo ==. inf) then .error .valueError
  else
    let lo1 := if lo ==. hi then lo - lit (1 / 2) else lo
    let hi1 := if lo ==. hi then hi + lit (1 / 2) else hi
    match linspace lo1 hi1 (bins + 1) with
    | .error x => .error x
    | .ok edges => .ok (middles edges, binCounts values edges)

/-- Python's `min(list)`: `ValueError` when empty. -/
def pyMin : List F → Except PyErr F
  | [] => .error .valueError
  | x :: xs => .ok (xs.foldl (fun m v => if v <. m then v else m) x)

/-- Python's `max(list)`. -/
def pyMax : List F → Except PyErr F
  | [] => .error .valueError
  | x :: xs => .ok (xs.foldl (fun m v => if m <. v then v else m) x)

/-! ## Collections -/

/-- `rays.py:62-91` the attributes of a `Rays` used in calculations: the rays, the counter of the current iteration and the cached
values (`countParams`, `countHist` are `_countHistogramParameters` and `_xValuesCountHistogram, _yHistogram`). -/
structure Rays (F : Type) where
  rays : List (Ray F)
  iteration : Nat
  yCache : Option (List F)
  thetaCache : Option (List F)
  countParams : Option (Int × F × F)
  countHist : Option (List F × List Nat)
  anglesParams : Option (Int × F × F)
  anglesHist : Option (List F × List Nat)

namespace Rays

/-- `rays.py:62-91` -/
def ofList (l : List (Ray F)) : Rays F := ⟨l, 0, none, none, none, none, none, none⟩

/-- A Python iterable: `again` says whether it can be iterated twice (a list, a tuple, another `Rays`) or only once (a
generator). The items are rays or other objects. -/
structure Iterable (F : Type) where
  items : List (Option (Ray F))
  again : Bool

/-- `rays.py:62-72` `Rays(rays=...)`; `none` stands for an object that is not iterable. `all([...])` goes through the iterable,
then `list(...)` goes through it again. -/
def new (it : Option (Iterable F)) : Except PyErr (Rays F) :=
  match it with
  | none => .error .typeError
  | some it =>
    if it.items.all Option.isSome then .ok (ofList (if it.again then it.items.filterMap id else []))
    else .error .typeError

/-- `rays.py:93-96`, `104-109` `len(rays)`, `rays.count`. -/
def len (s : Rays F) : Nat := s.rays.length

/-- `rays.py:359-362` `iter(rays)`. -/
def iter (s : Rays F) : Rays F := { s with iteration := 0 }

/-- `rays.py:364-373` `next(rays)`; `none` is `StopIteration`. -/
def next (s : Rays F) : Option (Ray F) × Rays F :=
  match s.rays[s.iteration]? with
  | some r => (some r, { s with iteration := s.iteration + 1 })
  | none => (none, s)

/-- `rays.py:375-376` `rays[i]` with an integer. -/
def getItem (s : Rays F) (i : Int) : Except PyErr (Ray F) :=
  let k := if i < 0 then i + s.rays.length else i
  if k < 0 then .error .indexError
  else match s.rays[k.toNat]? with
    | some r => .ok r
    | none => .error .indexError

/-- `rays.py:378-403` `append(ray)` of a ray: every cached value is forgotten. -/
def append (s : Rays F) (r : Ray F) : Rays F :=
  { ofList (s.rays ++ [r]) with iteration := s.iteration }

/-- `rays.py:405-427` `load(filePath, append)` of a file containing a list of rays (`none` when it contains something
else): cached values are kept. -/
def load (s : Rays F) (file : Option (List (Ray F))) (append : Bool) : Rays F × Except PyErr Unit :=
  match file with
  | none => (s, .error .ioError)
  | some l => ({ s with rays := if append then s.rays ++ l else l }, .ok ())

/-- `rays.py:429-441` `save(filePath)`: the content of the file. -/
def save (s : Rays F) : List (Ray F) := s.rays

/-- `rays.py:111-119` `yValues`; the list is computed by iterating over the collection itself. -/
def yValues (s : Rays F) : List F × Rays F :=
  match s.yCache with
  | some l => (l, s)
  | none => (s.rays.map Ray.y, { s with yCache := some (s.rays.map Ray.y), iteration := s.rays.length })

/-- `rays.py:121-129` `thetaValues`. -/
def thetaValues (s : Rays F) : List F × Rays F :=
  match s.thetaCache with
  | some l => (l, s)
  | none => (s.rays.map Ray.theta, { s with thetaCache := some (s.rays.map Ray.theta), iteration := s.rays.length })

/-- equality of the parameters of histograms, a comparison of tuples -/
def sameParams (a : Option (Int × F × F)) (b : Int × F × F) : Bool :=
  match a with
  | none => false
  | some a => (a.1 == b.1) && (a.2.1 ==. b.2.1) && (a.2.2 ==. b.2.2)

/-- `rays.py:187-191`, `267-271`: a bound of the histogram, by default the smallest or the largest value. -/
def resolve (value : Option F) (values : Rays F → List F × Rays F) (f : List F → Except PyErr F) (s : Rays F) :
    Except PyErr F × Rays F :=
  match value with
  | some v => (.ok v, s)
  | none => (f (values s).1, (values s).2)

/-- `rays.py:131-205` `rayCountHistogram(binCount, minValue, maxValue)`. The parameters are stored *before* the histogram is
computed (193-198), also when `numpy.histogram` then raises. -/
def rayCountHistogram (s : Rays F) (binCount : Option Int) (minValue maxValue : Option F) :
    Except PyErr (Option (List F × List Nat)) × Rays F :=
  let bins := binCount.getD 40
  let (lo, s) := resolve minValue yValues pyMin s
  match lo with
  | .error x => (.error x, s)
  | .ok lo =>
    let (hi, s) := resolve maxValue yValues pyMax s
    match hi with
    | .error x => (.error x, s)
    | .ok hi =>
      if sameParams s.countParams (bins, lo, hi) then (.ok s.countHist, s)
      else
        let (values, s) := ({ s with countParams := some (bins, lo, hi) } : Rays F).yValues
        match histogram values bins lo hi with
        | .error x => (.error x, s)
        | .ok h => (.ok (some h), { s with countHist := some h })

/-- `rays.py:207-283` `rayAnglesHistogram(binCount, minValue, maxValue)`. -/
def rayAnglesHistogram (s : Rays F) (binCount : Option Int) (minValue maxValue : Option F) :
    Except PyErr (Option (List F × List Nat)) × Rays F :=
  let bins := binCount.getD 40
  let (lo, s) := resolve minValue thetaValues pyMin s
  match lo with
  | .error x => (.error x, s)
  | .ok lo =>
    let (hi, s) := resolve maxValue thetaValues pyMax s
    match hi with
    | .error x => (.error x, s)
    | .ok hi =>
      if sameParams s.anglesParams (bins, lo, hi) then (.ok s.anglesHist, s)
      else
        let (values, s) := ({ s with anglesParams := some (bins, lo, hi) } : Rays F).thetaValues
        match histogram values bins lo hi with
        | .error x => (.error x, s)
        | .ok h => (.ok (some h), { s with anglesHist := some h })

/-- The loop `for ray in rays: body`, `359-373`: the rays visited, in order, and the state left. `body` may use the collection;
`fuel` bounds the number of turns. -/
def forEach (body : Ray F → Rays F → Rays F) : Nat → Rays F → List (Ray F) × Rays F
  | 0, s => ([], s)
  | fuel + 1, s =>
    match s.next with
    | (none, s1) => ([], s1)
    | (some r, s1) =>
      let (rs, s2) := forEach body fuel (body r s1)
      (r :: rs, s2)

/-- `for ray in rays: body` from the beginning -/
def forLoop (body : Ray F → Rays F → Rays F) (fuel : Nat) (s : Rays F) : List (Ray F) × Rays F := forEach body fuel s.iter

end Rays

/-! ## Sources -/

/-- the two nested loops of `rays.py:533-535`, `920-922` -/
def gridRays (heights : List F) (angles : Except PyErr (List F)) : Except PyErr (List (Ray F)) :=
  match heights, angles with
  | [], _ => .ok []
  | _, .error x => .error x
  | hs, .ok as => .ok (hs.flatMap fun y => as.map fun theta => Ray.new y theta)

/-- `rays.py:514-536` `UniformRays(yMax, yMin, thetaMax, thetaMin, M, N)`: a single height is 0 whatever the bounds are. -/
def uniformRays (yMax : F) (yMin : Option F) (thetaMax : F) (thetaMin : Option F) (M N : Int) :
    Except PyErr (List (Ray F)) := do
  let yMin := yMin.getD (-yMax)
  let thetaMin := thetaMin.getD (-thetaMax)
  let heights ← if M = 1 then pure [0] else linspace yMin yMax M
  gridRays heights (linspace thetaMin thetaMax N)

/-- `rays.py:866-871` `ObjectRays(diameter, halfAngle, H, T)`. -/
def objectRays (diameter halfAngle : F) (H T : Int) : Except PyErr (List (Ray F)) :=
  uniformRays (rawDiv diameter 2) (some (rawDiv (-diameter) 2)) halfAngle (some (-halfAngle)) H T

/-- `rays.py:906-922` `LampRays(diameter, NA, N, T, H)` without `random`; `H = 0` and `H = None` both leave `N`. -/
def lampRays (diameter NA : F) (N T : Int) (H : Option Int) : Except PyErr (List (Ray F)) := do
  let N := match H with
    | some h => if h = 0 then N else h
    | none => N
  let heights ← linspace (rawDiv (-diameter) 2) (rawDiv diameter 2) N
  let angles ← linspace (-NA) NA T
  gridRays heights (.ok angles)

/-- The bounds of a random source, `rays.py:623-632`. -/
structure Bounds (F : Type) where
  yMin : F
  yMax : F
  thetaMin : F
  thetaMax : F

/-- `min + random() * (max - min)`; `u` is the value of `random()`. -/
def between (lo hi u : F) : F := lo + u * (hi - lo)

/-- `rays.py:711-719` `RandomUniformRays.randomRay`: the ray made from the stream of random numbers `u` at a position, and the next
position. The numbers used by others in between are left out of the stream. -/
def drawUniform (b : Bounds F) (u : Nat → F) (pos : Nat) : Except PyErr (Ray F × Nat) :=
  .ok (Ray.new (between b.yMin b.yMax (u (pos + 1))) (between b.thetaMin b.thetaMax (u pos)), pos + 2)

/-- `rays.py:762-777` `RandomLambertianRays.randomRay`, with the cosine as a parameter; `fuel` bounds the number of
rejections. -/
def drawLambertian (cos : F → F) (b : Bounds F) (u : Nat → F) : Nat → Nat → Except PyErr (Ray F × Nat)
  | 0, _ => .error .nonTermination
  | fuel + 1, pos =>
    let theta := between b.thetaMin b.thetaMax (u pos)
    if u (pos + 1) <. cos theta then .ok (Ray.new (between b.yMin b.yMax (u (pos + 2))) theta, pos + 3)
    else drawLambertian cos b u fuel (pos + 2)

/-- `rays.py:813-834` `GaussianProfileUniformRays.randomRay`, with the profile `exp(-y*y/w/w)` as a parameter. -/
def drawGaussian (profile : F → F) (b : Bounds F) (u : Nat → F) : Nat → Nat → Except PyErr (Ray F × Nat)
  | 0, _ => .error .nonTermination
  | fuel + 1, pos =>
    let y := between b.yMin b.yMax (u pos)
    if u (pos + 1) <. profile y then .ok (Ray.new y (between b.thetaMin b.thetaMax (u (pos + 2))), pos + 3)
    else drawGaussian profile b u fuel (pos + 2)

/-- `rays.py:598-663` a random source: the rays made so far, the position in the stream of random numbers, the counter of iterations
and the cached heights. -/
structure RandomRays (F : Type) where
  maxCount : Int
  rays : List (Ray F)
  pos : Nat
  iteration : Nat
  yCache : Option (List F)

namespace RandomRays

/-- `rays.py:623-633` -/
def new (maxCount : Int) : RandomRays F := ⟨maxCount, [], 0, 0, none⟩

/-- one call of `self.randomRay()`, with `append` (`rays.py:378-403`): `AttributeError` when there are enough rays -/
def randomRay (draw : Nat → Except PyErr (Ray F × Nat)) (s : RandomRays F) : Except PyErr Unit × RandomRays F :=
  if (s.rays.length : Int) = s.maxCount then (.error .attributeError, s)
  else match draw s.pos with
    | .error x => (.error x, s)
    | .ok (r, pos) => (.ok (), { s with rays := s.rays ++ [r], pos := pos, yCache := none })

/-- the loop of `rays.py:646-650`: `n` more rays -/
def grow (draw : Nat → Except PyErr (Ray F × Nat)) : Nat → RandomRays F → Except PyErr Unit × RandomRays F
  | 0, s => (.ok (), s)
  | n + 1, s =>
    match randomRay draw s with
    | (.error x, s1) => (.error x, s1)
    | (.ok (), s1) => grow draw n s1

/-- `rays.py:638-652` `source[item]`. -/
def getItem (draw : Nat → Except PyErr (Ray F × Nat)) (s : RandomRays F) (item : Int) :
    Except PyErr (Ray F) × RandomRays F :=
  let k := if item < 0 then item + s.maxCount else item
  if k < 0 ∨ s.maxCount ≤ k then (.error .indexError, s)
  else
    match grow draw (k.toNat + 1 - s.rays.length) s with
    | (.error x, s1) => (.error x, s1)
    | (.ok (), s1) =>
      match s1.rays[k.toNat]? with
      | some r => (.ok r, s1)
      | none => (.error .indexError, s1)

/-- `rays.py:635-636` `len(source)`. -/
def len (s : RandomRays F) : Int := s.maxCount

/-- `rays.py:359-362` -/
def iter (s : RandomRays F) : RandomRays F := { s with iteration := 0 }

/-- `rays.py:654-660` `next(source)`; `.ok none` is `StopIteration`. -/
def next (draw : Nat → Except PyErr (Ray F × Nat)) (s : RandomRays F) :
    Except PyErr (Option (Ray F)) × RandomRays F :=
  if s.maxCount ≤ (s.iteration : Int) then (.ok none, s)
  else
    match getItem draw s s.iteration with
    | (.error x, s1) => (.error x, s1)
    | (.ok r, s1) => (.ok (some r), { s1 with iteration := s1.iteration + 1 })

/-- `for ray in source`, from a given state: all rays until the end -/
def collect (draw : Nat → Except PyErr (Ray F × Nat)) : Nat → RandomRays F → Except PyErr (List (Ray F)) × RandomRays F
  | 0, s => (.ok [], s)
  | fuel + 1, s =>
    match next draw s with
    | (.error x, s1) => (.error x, s1)
    | (.ok none, s1) => (.ok [], s1)
    | (.ok (some r), s1) =>
      match collect draw fuel s1 with
      | (.error x, s2) => (.error x, s2)
      | (.ok rs, s2) => (.ok (r :: rs), s2)

/-- `rays.py:111-119` `source.yValues`, by iterating over the source itself. -/
def yValues (draw : Nat → Except PyErr (Ray F × Nat)) (s : RandomRays F) : Except PyErr (List F) × RandomRays F :=
  match s.yCache with
  | some l => (.ok l, s)
  | none =>
    match collect draw (s.maxCount.toNat + 1) s.iter with
    | (.error x, s1) => (.error x, s1)
    | (.ok rs, s1) => (.ok (rs.map Ray.y), { s1 with yCache := some (rs.map Ray.y) })

/-- `rays.py:429-439` `save`: only the rays made so far. -/
def save (s : RandomRays F) : List (Ray F) := s.rays

end RandomRays

/-! ## Iterating over a group -/

/-- A group with its attribute `iteration`. -/
structure GroupLoop (F : Type) where
  group : Group F
  iteration : Nat

/-- `matrixgroup.py:485-487` -/
def GroupLoop.iter (s : GroupLoop F) : GroupLoop F := { s with iteration := 0 }

/-- `matrixgroup.py:489-496`; `none` is `StopIteration`. -/
def GroupLoop.next (s : GroupLoop F) : Option (Elem F) × GroupLoop F :=
  match s.group.elems[s.iteration]? with
  | some e => (some e, { s with iteration := s.iteration + 1 })
  | none => (none, s)

/-- the loop, from a given state: the elements visited and the state left; `fuel` bounds the number of turns -/
def GroupLoop.forEach (body : Elem F → GroupLoop F → GroupLoop F) : Nat → GroupLoop F → List (Elem F) × GroupLoop F
  | 0, s => ([], s)
  | fuel + 1, s =>
    match s.next with
    | (none, s1) => ([], s1)
    | (some e, s1) =>
      let (es, s2) := GroupLoop.forEach body fuel (body e s1)
      (e :: es, s2)

/-- `for element in group: body` -/
def GroupLoop.forLoop (body : Elem F → GroupLoop F → GroupLoop F) (fuel : Nat) (s : GroupLoop F) :
    List (Elem F) × GroupLoop F := GroupLoop.forEach body fuel s.iter

end RT
