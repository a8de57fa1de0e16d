import Verif.Model.Beam
import Verif.Model.Display
import Verif.Model.Imaging

/-! # Model of `raytracing/figure.py`, `ImagingPath.display` and `LaserPath.display`: what a figure shows

The lines, their colours, the design of the figure and what displaying does to the path. Matplotlib itself is not modelled. -/

namespace RT
open PyNum
variable {F : Type} [PyNum F]

/-! ## Beams -/

/-- `figure.py:450-452` `for i in range(N): highResolution.append(Space(d, n))`; `k` turns remain. -/
def appendSpaces (d n : F) : Nat → Group F → Except PyErr (Group F)
  | 0, g => .ok g
  | k + 1, g =>
    match (mkSpace d n : Except PyErr (Mat F)) with
    | .error x => .error x
    | .ok s =>
      match g.append (.leaf s) with
      | (_, .error x) => .error x
      | (g1, .ok ()) => appendSpaces d n k g1

/-- the loop of `figure.py:448-454`: every `Space` is replaced by `N` ones. -/
def highResolutionLoop (N : Nat) : List (Elem F) → Group F → Except PyErr (Group F)
  | [], g => .ok g
  | e :: es, g =>
    if e.isSpace then
      match pyDiv e.mat.L (lit N) with
      | .error x => .error x
      | .ok d =>
        match appendSpaces d e.mat.frontIndex N g with
        | .error x => .error x
        | .ok g1 => highResolutionLoop N es g1
    else
      match g.append e with
      | (_, .error x) => .error x
      | (g1, .ok ()) => highResolutionLoop N es g1

/-- `figure.py:446-454` the path used to draw beams; the code has `N = 100`. -/
def Group.highResolution (N : Nat) (g : Group F) : Except PyErr (Group F) := highResolutionLoop N g.elems (Group.empty "")

/-- `figure.py:512-519` `rearrangeBeamTraceForPlotting(rayList)`: positions and sizes. -/
def rearrangeBeams [PyMath F] : List (Beam F) → Except PyErr (List F × List F)
  | [] => .ok ([], [])
  | b :: bs =>
    match b.w with
    | .error x => .error x
    | .ok w =>
      match rearrangeBeams bs with
      | .error x => .error x
      | .ok (x, y) => .ok (b.z :: x, w :: y)

/-- `figure.py:433-462` `beamTraceLines(beam)`: the two lines, as lists of abscissas and ordinates. -/
def Group.beamTraceLines [PyMath F] (N : Nat) (g : Group F) (b : Beam F) :
    Except PyErr ((List F × List F) × (List F × List F)) :=
  match g.highResolution N with
  | .error x => .error x
  | .ok hr =>
    match hr.toElem.traceBeam b with
    | .error x => .error x
    | .ok t =>
      match rearrangeBeams t with
      | .error x => .error x
      | .ok (x, y) => .ok ((x, y), (x, y.map fun v => -v))

/-- `figure.py:475-491` `beamWaistAnnotations(beam)`: the points of the two arrows, in order; `len` is `self.path.L`,
`arrow` is `arrowLength`. `None` cannot be added to a number (`size + arrowLength`). -/
def waistArrows [PyMath F] (len arrow : F) : List (Beam F) → Except PyErr (List (F × F × F))
  | [] => .ok []
  | b :: bs =>
    match b.wo with
    | .error x => .error x
    | .ok size =>
      let position := b.z + b.waistPosition
      if (0 ≤. position) && (position ≤. len) then
        match size with
        | none => .error .typeError
        | some s =>
          match waistArrows len arrow bs with
          | .error x => .error x
          | .ok l => .ok ((position, s + arrow, s) :: (position, -s + -arrow, -s) :: l)
      else waistArrows len arrow bs

/-! ## Rays -/

/-- A line of the figure: abscissas, ordinates, colour. -/
structure RayLine (F C : Type) where
  x : List F
  y : List F
  color : C

/-- `figure.py:406-412` the loop for `maxHeight`. -/
def maxHeightLoop (removeBlocked : Bool) : List (List (Ray F)) → F → F
  | [], m => m
  | t :: ts, m =>
    match (rearrangeForPlotting removeBlocked t).2 with
    | [] => maxHeightLoop removeBlocked ts m
    | y0 :: _ => maxHeightLoop removeBlocked ts (if m <. PyNum.abs y0 then PyNum.abs y0 else m)

/-- `figure.py:421-426` the index of the colour; `round` is `int(np.round(x))`. Python's `%` of a non negative number of colours:
an empty list of colours raises `ZeroDivisionError`. -/
def colorIndex (round : F → Int) (maxHeight y0 : F) (colors : Nat) : Except PyErr Int :=
  if maxHeight ==. 0 then .ok 1
  else
    match pyDiv (y0 + maxHeight) (maxHeight * 2) with
    | .error x => .error x
    | .ok q =>
      let i := round (q * (lit colors - 1))
      if colors = 0 then .error .zeroDivisionError else .ok (i % colors)

/-- `colors[i]` -/
def pyGet {C : Type} (l : List C) (i : Int) : Except PyErr C :=
  match pyIndex i l.length with
  | none => .error .indexError
  | some k => match l[k]? with
    | none => .error .indexError
    | some c => .ok c

/-- `figure.py:414-431` the loop making the lines. -/
def rayLinesLoop {C : Type} (round : F → Int) (removeBlocked : Bool) (colors : List C) (dz maxHeight : F) :
    List (List (Ray F)) → Except PyErr (List (RayLine F C))
  | [] => .ok []
  | t :: ts =>
    let p := rearrangeForPlotting removeBlocked t
    match p.2 with
    | [] => rayLinesLoop round removeBlocked colors dz maxHeight ts
    | y0 :: _ =>
      match colorIndex round maxHeight y0 colors.length with
      | .error x => .error x
      | .ok i =>
        match pyGet colors i with
        | .error x => .error x
        | .ok c =>
          match rayLinesLoop round removeBlocked colors dz maxHeight ts with
          | .error x => .error x
          | .ok l => .ok (⟨p.1.map (· + dz), p.2, c⟩ :: l)

/-- `figure.py:406-431` the lines made from the traces of the rays. -/
def rayLines {C : Type} (round : F → Int) (removeBlocked : Bool) (colors : List C) (dz : F) (traces : List (List (Ray F))) :
    Except PyErr (List (RayLine F C)) :=
  rayLinesLoop round removeBlocked colors dz (maxHeightLoop removeBlocked traces 0) traces

/-- `figure.py:400` `ray.z = -abs(ray.z)`. -/
def Ray.backwards (r : Ray F) : Ray F := { r with z := -PyNum.abs r.z }

/-- `figure.py:398-400` the loop over the rays of the backward traces, which changes the ray objects. -/
def Heap.turnBack (h : Heap F) (as : List Nat) : Heap F := as.foldl (fun h a => h.set a (h.get a).backwards) h

/-- `figure.py:392-404` the traces of the rays (given by the addresses of the ray objects) starting at `dz`: through the sub-path after
`dz`, then, with the same ray objects, through the sub-path before `dz`; through the whole path when `dz` is zero.
(The traces kept by the groups are not returned: a sub-path is not used again.) -/
def Group.rayTraces (g : Group F) (dz : F) (rays : List Nat) (h : Heap F) : Except PyErr (List (List Nat) × Heap F) :=
  if dz !=. 0 then
    match g.subPath dz with
    | .error x => .error x
    | .ok forwardPath =>
      match g.subPath dz true with
      | .error x => .error x
      | .ok backwardPath =>
        let (tf, h1, _) := forwardPath.toElem.traceManyH rays h
        let (tb, h2, _) := backwardPath.toElem.traceManyH rays h1
        .ok (tf ++ tb, h2.turnBack tb.flatten)
  else
    let (t, h1, _) := g.toElem.traceManyH rays h
    .ok (t, h1)

/-- `figure.py:376-431` `rayTraceLines(rays)` for rays starting at `dz` (`rays.z`, or 0 for a list), drawn with the colours `colors`. -/
def Group.rayTraceLines {C : Type} (round : F → Int) (removeBlocked : Bool) (colors : List C) (g : Group F) (dz : F)
    (rays : List Nat) (h : Heap F) : Except PyErr (List (RayLine F C)) :=
  match g.rayTraces dz rays h with
  | .error x => .error x
  | .ok (ts, h1) => rayLines round removeBlocked colors dz (ts.map h1.deref)

/-! ## Design -/

/-- `figure.py:33-37` the design parameters. -/
structure Design (F : Type) where
  rayColors : List String
  lampRayColors : List String
  onlyAxialRay : Bool
  imageColor : String
  fillImage : Bool
  objectColor : String
  fillObject : Bool
  fontScale : F
  FOVColors : List String
  onlyPrincipalAndAxialRays : Bool
  limitObjectToFieldOfView : Bool
  removeBlockedRaysCompletely : Bool
  showFOV : Bool
  showObjectImage : Bool
  deriving DecidableEq

/-- `figure.py:33-37` the default style; also the style for presentations, `39`. -/
def Design.default : Design F where
  rayColors := ["b", "r", "g"]
  lampRayColors := ["y"]
  onlyAxialRay := false
  imageColor := "r"
  fillImage := true
  objectColor := "b"
  fillObject := true
  fontScale := lit (12 / 10)
  FOVColors := ["blue", "red"]
  onlyPrincipalAndAxialRays := true
  limitObjectToFieldOfView := true
  removeBlockedRaysCompletely := false
  showFOV := false
  showObjectImage := true

/-- `figure.py:38-41` the style for publications. -/
def Design.publication : Design F :=
  { (Design.default : Design F) with rayColors := ["0.4", "0.2", "0.6"], imageColor := "0.3", objectColor := "0.1" }

/-- The names of the styles, `figure.py:33-39`. -/
inductive Style | default | publication | presentation
  deriving DecidableEq

/-- `figure.py:95-96` the style with a given name -/
def Style.ofName (s : String) : Option Style :=
  if s = "default" then some .default
  else if s = "publication" then some .publication
  else if s = "presentation" then some .presentation
  else none

/-- `figure.py:32-43` the design of a `Figure`: `styles`, and `designParams`, which is one of them (the same object). -/
structure FigureDesign (F : Type) where
  default : Design F
  publication : Design F
  presentation : Design F
  current : Style
  deriving DecidableEq

/-- `figure.py:32-43` a new figure. -/
def FigureDesign.new : FigureDesign F := ⟨Design.default, Design.publication, Design.default, .default⟩

/-- `self.designParams` -/
def FigureDesign.params (f : FigureDesign F) : Design F :=
  match f.current with
  | .default => f.default
  | .publication => f.publication
  | .presentation => f.presentation

/-- an assignment in `self.designParams` -/
def FigureDesign.update (f : FigureDesign F) (u : Design F → Design F) : FigureDesign F :=
  match f.current with
  | .default => { f with default := u f.default }
  | .publication => { f with publication := u f.publication }
  | .presentation => { f with presentation := u f.presentation }

/-- the arguments of `design(...)`, `figure.py:59-64`; `none` stands for `None` -/
structure DesignArgs (F : Type) where
  style : Option String := none
  rayColors : Option (List String) := none
  onlyAxialRay : Option Bool := none
  imageColor : Option String := none
  fillImage : Option Bool := none
  objectColor : Option String := none
  fillObject : Option Bool := none
  fontScale : Option F := none
  lampRayColors : Option (List String) := none
  FOVColors : Option (List String) := none
  showObjectImage : Option Bool := none

/-- `figure.py:100-107` the loop over the new parameters. -/
def DesignArgs.apply (a : DesignArgs F) (d : Design F) : Design F :=
  { d with
    rayColors := a.rayColors.getD d.rayColors
    onlyAxialRay := a.onlyAxialRay.getD d.onlyAxialRay
    imageColor := a.imageColor.getD d.imageColor
    objectColor := a.objectColor.getD d.objectColor
    fillImage := a.fillImage.getD d.fillImage
    fillObject := a.fillObject.getD d.fillObject
    fontScale := a.fontScale.getD d.fontScale
    lampRayColors := a.lampRayColors.getD d.lampRayColors
    FOVColors := a.FOVColors.getD d.FOVColors
    showObjectImage := a.showObjectImage.getD d.showObjectImage }

/-- `figure.py:59-107` `design(style, ...)`. -/
def FigureDesign.design (f : FigureDesign F) (a : DesignArgs F) : FigureDesign F × Except PyErr Unit :=
  match a.style with
  | none => (f.update a.apply, .ok ())
  | some s =>
    match Style.ofName s with
    | none => (f, .error .valueError)
    | some st => (({ f with current := st } : FigureDesign F).update a.apply, .ok ())

/-! ## Displaying a path -/

/-- A source of rays given to `display`: the name of its class and what is drawn of it (`rays.py:837-871`: `z`, the height, the
fan). -/
structure Source (F : Type) where
  cls : String
  diameter : F
  z : F
  halfAngle : F
  H : Nat
  T : Nat
  deriving DecidableEq

/-- `rays.py:866` `ObjectRays(diameter, halfAngle, H, T, z)` -/
def Source.object (diameter halfAngle z : F) (H T : Nat) : Source F := ⟨"ObjectRays", diameter, z, halfAngle, H, T⟩

/-- `path.design`: the method of the figure (`imagingpath.py:100`), or what `display` puts there (`1008`). -/
inductive DesignAttr (F : Type)
  | method
  | dict (d : Design F)

/-- An `ImagingPath` with its figure: `imagingpath.py:86-107`. `fanAngle` is `_fanAngle`. The figure called by the method
`design` is the one of the path, since `display` replaces both. -/
structure Shower (F : Type) where
  ip : ImagingPath F
  figure : FigureDesign F
  design : DesignAttr F
  fanAngle : Option F
  fanNumber : Nat
  rayNumber : Nat

/-- `imagingpath.py:86-107` the display attributes of a new path. -/
def Shower.new (ip : ImagingPath F) : Shower F := ⟨ip, .new, .method, none, 3, 3⟩

/-- `imagingpath.py:115-122` `path.objectHeight = value`. -/
def Shower.setObjectHeight (s : Shower F) (value : F) : Shower F × Except PyErr Unit :=
  match s.ip.setObjectHeight value with
  | (ip, .error x) => ({ s with ip := ip }, .error x)
  | (ip, .ok ()) =>
    ({ s with ip := ip, figure := s.figure.update fun d => { d with limitObjectToFieldOfView := false } }, .ok ())

/-- `path.design(...)`: a dictionary is not callable. -/
def Shower.callDesign (s : Shower F) (a : DesignArgs F) : Shower F × Except PyErr Unit :=
  match s.design with
  | .dict _ => (s, .error .typeError)
  | .method => ({ s with figure := (s.figure.design a).1 }, (s.figure.design a).2)

/-- `figure.py:118-126`: the object becomes the field of view when it is finite. -/
def Shower.limitObject (s : Shower F) (fov : F) : Except PyErr (Shower F) :=
  if fov !=. inf then
    match s.setObjectHeight fov with
    | (_, .error x) => .error x
    | (s1, .ok ()) => .ok s1
  else .ok { s with figure := s.figure.update fun d => { d with limitObjectToFieldOfView := false } }

/-- `figure.py:113-136` the first part of `applyDesign`. The label is left out: its text needs the field of view and the image
size, which is computed. -/
def Shower.applyLimit (fuel : Nat) (s : Shower F) : Prog F (Shower F) :=
  if s.figure.params.limitObjectToFieldOfView then do
    let fov ← s.ip.path.fieldOfView s.ip.precision s.ip.maxHeight fuel
    let s1 ← Prog.lift (s.limitObject fov)
    let _ ← s1.ip.path.imageSize s1.ip.precision s1.ip.maxHeight s1.ip.objectHeight fuel false
    pure s1
  else pure s

/-- `figure.py:138-143` `principalRay() is None`, or no aperture stop: they cannot be the only rays shown. -/
def Shower.noPrincipal (fuel : Nat) (s : Shower F) : Prog F Bool := do
  let stop ← s.ip.path.apertureStop
  match stop.1 with
  | none => pure true
  | some _ => do
    let r ← s.ip.path.principalRay s.ip.precision s.ip.maxHeight fuel
    pure r.isNone

/-- `figure.py:138-143` the second part of `applyDesign`. -/
def Shower.applyOnly (fuel : Nat) (s : Shower F) : Prog F (Shower F) :=
  if s.figure.params.onlyPrincipalAndAxialRays then do
    let none ← s.noPrincipal fuel
    if none then pure { s with figure := s.figure.update fun d => { d with onlyPrincipalAndAxialRays := false } }
    else pure s
  else pure s

/-- `imagingpath.py:968-973` the arguments of `display` are put in the design. -/
def displayArgs (removeBlocked : Bool) (onlyPrincipalAndAxialRays limitObjectToFieldOfView : Option Bool) (d : Design F) :
    Design F :=
  { d with
    limitObjectToFieldOfView := limitObjectToFieldOfView.getD d.limitObjectToFieldOfView
    onlyPrincipalAndAxialRays := onlyPrincipalAndAxialRays.getD d.onlyPrincipalAndAxialRays
    removeBlockedRaysCompletely := removeBlocked }

/-- `imagingpath.py:982-986` without rays, the field of view is shown if there are principal rays. -/
def showFOVOf (l : List (Source F)) (d : Design F) : Design F :=
  if l.isEmpty then { d with showFOV := d.onlyPrincipalAndAxialRays } else d

/-- `imagingpath.py:975-978` the sources given. -/
def givenSources (rays : Option (Source F)) (raysList : Option (List (Source F))) : List (Source F) :=
  raysList.getD [] ++ rays.toList

/-- `imagingpath.py:993-999` the sources shown: without an object, a default one is added. `fan` is the angle computed from the
range of the display and the length of the path when no angle was given; drawing may enlarge lenses of infinite diameter, so it is
a parameter here. -/
def Shower.addObject (fan : ImagingPath F → F) (s : Shower F) (l : List (Source F)) : List (Source F) :=
  l ++ [Source.object s.ip.objectHeight (s.fanAngle.getD (fan s.ip)) 0 s.fanNumber s.rayNumber]

/-- Is there an object among the sources? `imagingpath.py:993` -/
def hasObject (l : List (Source F)) : Bool := l.any fun r => r.cls == "ObjectRays"

/-- What is on the screen: the sources drawn, the design they are drawn with, the groups which are visible. -/
structure Shown (F : Type) where
  sources : List (Source F)
  design : Design F
  objectHeight : F
  principalVisible : Bool
  objectVisible : Bool
  deriving DecidableEq

/-- `figure.py:231-232`, `543-549` `Figure.display`: a lamp hides the object, and so does the field of view. -/
def showDesign (l : List (Source F)) (d : Design F) : Design F :=
  { d with showObjectImage := d.showObjectImage && !(l.any fun r => r.cls == "LampRays") && !d.showFOV }

/-- `imagingpath.py:988-1008` the end of `display`: what is shown, and the path afterwards. -/
def Shower.finish (fan : ImagingPath F → F) (s : Shower F) (l : List (Source F)) : Shown F × Shower F × List (Source F) :=
  let s1 : Shower F := { s with figure := s.figure.update (showFOVOf l) }
  let l1 := if hasObject l then l else s1.addObject fan l
  let s2 : Shower F := if hasObject l then
    { s1 with figure := s1.figure.update fun d => { d with showObjectImage := true } } else s1
  let s3 : Shower F := { s2 with figure := s2.figure.update (showDesign l1) }
  let d := s3.figure.params
  (⟨l1, d, s3.ip.objectHeight, d.showFOV, d.showObjectImage⟩,
    { s3 with figure := .new, design := .dict d }, l1)

/-- `imagingpath.py:952-1008` `display(rays, raysList, removeBlocked, ...)`: what is shown, the path afterwards, and the list of
sources afterwards: it is the caller's list `raysList` when there is one. The state left behind by an exception is not
described. -/
def Shower.display (fan : ImagingPath F → F) (fuel : Nat) (s : Shower F) (rays : Option (Source F) := none)
    (raysList : Option (List (Source F)) := none) (removeBlocked : Bool := true)
    (onlyPrincipalAndAxialRays limitObjectToFieldOfView : Option Bool := none) :
    Prog F (Shown F × Shower F × List (Source F)) := do
  let u := displayArgs removeBlocked onlyPrincipalAndAxialRays limitObjectToFieldOfView
  let s0 : Shower F := { s with figure := s.figure.update u }
  let s1 ← s0.applyLimit fuel
  let s2 ← s1.applyOnly fuel
  pure (s2.finish fan (givenSources rays raysList))

/-- `imagingpath.py:1036-1062` `displayWithObject(diameter, fanAngle, fanNumber, rayNumber, removeBlocked)`. The height of
the object is set without the check of the property. -/
def Shower.displayWithObject (fan : ImagingPath F → F) (fuel : Nat) (s : Shower F) (diameter : F) (fanAngle : Option F := none)
    (fanNumber rayNumber : Nat := 3) (removeBlocked : Bool := true) : Prog F (Shown F × Shower F × List (Source F)) :=
  let s1 : Shower F := { s with ip := { s.ip with objectHeight := diameter } }
  s1.display fan fuel (some (Source.object diameter (fanAngle.getD (fan s1.ip)) 0 fanNumber rayNumber)) none removeBlocked
    (some false) (some false)

end RT
