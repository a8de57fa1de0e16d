import Verif.Model.Materials
import Verif.Model.Group

/-! # Zemax files: `zemax.py:5-255`

The text is a list of lines of characters. What `float(s)` and `int(s)` accept is a parameter (`none`: `ValueError`), and so is the
index of a material at the design wavelength. -/

namespace RT
namespace Zmx
open PyNum

/-- `str.isspace` and `\s` for the characters of the files. -/
def ws (c : Char) : Bool := c.isWhitespace

/-- `line.strip()`. -/
def strip (s : List Char) : List Char := ((s.dropWhile ws).reverse.dropWhile ws).reverse

/-- `re.split(r"\s+", s)`: `cur` is the field being read (last character first), `sp` tells that we are in a run of spaces. -/
def splitRuns (cur : List Char) (sp : Bool) : List Char → List (List Char)
  | [] => [cur.reverse]
  | c :: cs =>
    if ws c then
      if sp then splitRuns cur true cs else cur.reverse :: splitRuns [] true cs
    else splitRuns (c :: cur) false cs

/-- `zemax.py:40` the fields of a line. -/
def fields (line : List Char) : List (List Char) := splitRuns [] false (strip line)

/-- `zemax.py:41` `{"NAME": fields[0], "PARAM": fields[1:]}`. -/
structure Line where
  name : List Char
  params : List (List Char)
  deriving DecidableEq

/-- `zemax.py:40-41`; there is always a first field. -/
def parseLine (line : List Char) : Line :=
  match fields line with
  | [] => ⟨[], []⟩
  | f :: fs => ⟨f, fs⟩

/-- What `value` returns: one string or a list. -/
inductive Value where
  | one (s : List Char)
  | many (l : List (List Char))
  deriving DecidableEq

/-- `zemax.py:248-251` the loop of `value(key, index)`. -/
def values (key : List Char) (index : Nat) : List Line → Except PyErr (List (List Char))
  | [] => .ok []
  | l :: ls =>
    if areTheSame l.name key then
      match l.params[index]? with
      | none => .error .indexError
      | some v => (values key index ls).map (v :: ·)
    else values key index ls

/-- `zemax.py:241-255` `value(key, index)`. -/
def value (lines : List Line) (key : List Char) (index : Nat := 0) : Except PyErr Value :=
  (values key index lines).map fun
    | [v] => .one v
    | vs => .many vs

/-- What `float` and `int` do with a string. -/
structure Reader (F : Type) where
  float : List Char → Option F
  int : List Char → Option Int

variable {F : Type} [PyNum F] (P : Reader F)

/-- `float(s)`. -/
def Reader.toFloat (s : List Char) : Except PyErr F :=
  match P.float s with
  | some x => .ok x
  | none => .error .valueError

/-- `zemax.py:43-48` the factor of the unit: a list has no `lower()`. -/
def unitFactor (lines : List Line) : Except PyErr F :=
  match value lines "UNIT".toList with
  | .error e => .error e
  | .ok (.many _) => .error .attributeError
  | .ok (.one u) => .ok (if areTheSame "IN".toList u then lit (254 / 10) else 1)

/-- `zemax.py:60-61` `while float(wavelengths[-1]) == 0.55: wavelengths.pop()`, on the reversed list. -/
def dropPadding : List (List Char) → Except PyErr (List (List Char))
  | [] => .error .indexError
  | w :: ws =>
    match P.toFloat w with
    | .error e => .error e
    | .ok x => if x ==. lit (55 / 100) then dropPadding ws else .ok (w :: ws)

/-- `[float(x) for x in ...]`. -/
def floats : List (List Char) → Except PyErr (List F)
  | [] => .ok []
  | w :: ws =>
    match P.toFloat w with
    | .error e => .error e
    | .ok x => (floats ws).map (x :: ·)

/-- `zemax.py:53-64` `designWavelengths()`. -/
def designWavelengths (lines : List Line) : Except PyErr (List F) :=
  match value lines "WAVM".toList 1 with
  | .error e => .error e
  | .ok (.one w) => (P.toFloat w).map fun x => [x]
  | .ok (.many ws) =>
    match dropPadding P ws.reverse with
    | .error e => .error e
    | .ok l => floats P l.reverse

/-- `zemax.py:50-51` `wavelengths[len(wavelengths)//2]`. -/
def designWavelength (lines : List Line) : Except PyErr F :=
  match designWavelengths P lines with
  | .error e => .error e
  | .ok l => match l[l.length / 2]? with
    | some x => .ok x
    | none => .error .indexError

/-- the name of the lines that begin a surface -/
def isSurf (l : Line) : Bool := l.name == "SURF".toList

/-- `zemax.py:212-239` `rawSurfaceInfo(index)`: the lines between the first `SURF index` and the next `SURF`, or `None`. -/
def rawSurface (index : Int) : List Line → Except PyErr (Option (List Line))
  | [] => .ok none
  | l :: ls =>
    if isSurf l then
      match l.params[0]? with
      | none => .error .indexError
      | some s => match P.int s with
        | none => .error .valueError
        | some i => if index = i then .ok (some (ls.takeWhile fun l => !isSurf l)) else rawSurface index ls
    else rawSurface index ls

/-- `rawInfo[key]`: the dictionary keeps the last line of that name. -/
def lookup (block : List Line) (key : List Char) : Option (List (List Char)) :=
  (block.reverse.find? fun l => l.name == key).map Line.params

/-- `rawInfo[key][0]`: `KeyError` or `IndexError`. -/
def first (block : List Line) (key : List Char) : Except PyErr (List Char) :=
  match lookup block key with
  | none => .error .keyError
  | some [] => .error .indexError
  | some (s :: _) => .ok s

/-- `zemax.py:5-11` `Surface`. -/
structure Surface (F : Type) where
  number : Nat
  R : F
  diameter : F
  mat : Glass
  spacing : F

/-- `Air()`. -/
def air : Glass := ⟨"Air", .air, 0⟩

/-- `isinstance(mat, Air)`. -/
def Glass.isAir (g : Glass) : Bool := g.name == "Air"

/-- `zemax.py:188-191` the material of a surface. -/
def surfaceMaterial (block : List Line) : Except PyErr Glass :=
  match lookup block "GLAS".toList with
  | none => .ok air
  | some [] => .error .indexError
  | some (s :: _) => findByName (some s)

/-- `zemax.py:193-197` the radius of a surface. -/
def surfaceRadius (factor : F) (block : List Line) : Except PyErr F :=
  match first block "CURV".toList with
  | .error e => .error e
  | .ok s => match P.toFloat s with
    | .error e => .error e
    | .ok c => if c ==. 0 then .ok inf else (pyDiv 1 c).map (· * factor)

/-- `zemax.py:199-202` the diameter of a surface. -/
def surfaceDiameter (factor : F) (block : List Line) : Except PyErr F :=
  match lookup block "DIAM".toList with
  | none => .ok inf
  | some [] => .error .indexError
  | some (s :: _) => (P.toFloat s).map fun x => 2 * x * factor

/-- `zemax.py:204` the distance to the next surface. -/
def surfaceSpacing (factor : F) (block : List Line) : Except PyErr F :=
  match first block "DISZ".toList with
  | .error e => .error e
  | .ok s => (P.toFloat s).map (· * factor)

/-- `zemax.py:170-210` `surfaceInfo(index)`. -/
def surfaceInfo (factor : F) (lines : List Line) (index : Nat) : Except PyErr (Option (Surface F)) :=
  match rawSurface P index lines with
  | .error e => .error e
  | .ok none => .ok none
  | .ok (some block) => do
    let mat ← surfaceMaterial block
    let R ← surfaceRadius P factor block
    let d ← surfaceDiameter P factor block
    let t ← surfaceSpacing P factor block
    pure (some ⟨index, R, d, mat, t⟩)

/-- `zemax.py:152-168` the loop of `surfaces()`, `n` more surfaces at most. -/
def surfacesFrom (factor : F) (lines : List Line) : Nat → Nat → Except PyErr (List (Surface F))
  | 0, _ => .ok []
  | n + 1, i =>
    match surfaceInfo P factor lines i with
    | .error e => .error e
    | .ok none => .ok []
    | .ok (some s) => (surfacesFrom factor lines n (i + 1)).map (s :: ·)

/-- `zemax.py:152-168` `surfaces()`: at most 1000. -/
def surfaces (factor : F) (lines : List Line) : Except PyErr (List (Surface F)) := surfacesFrom P factor lines 1000 0

omit [PyNum F] in
/-- `zemax.py:133-150` `lensSurfaces()`; `found` is `firstSurfaceFound`. -/
def lensLoop (found : Bool) : List (Surface F) → List (Surface F)
  | [] => []
  | s :: ss =>
    if Glass.isAir s.mat then
      if found then [s] else lensLoop found ss
    else s :: lensLoop true ss

/-- `zemax.py:122-150`. -/
def lensSurfaces (ss : List (Surface F)) : List (Surface F) := lensLoop false ss

/-- `group.append(element)` in a function that returns the group. -/
def tryAppend (g : Group F) (e : Elem F) : Except PyErr (Group F) :=
  match g.append e with
  | (g1, .ok ()) => .ok g1
  | (_, .error x) => .error x

/-- `zemax.py:89-104` the loop of `matrixGroup()`; `index` is `n(wavelength)`. -/
def groupLoop (index : Glass → Except PyErr F) (g : Group F) (prev : Glass) : List (Surface F) → Except PyErr (Group F)
  | [] => .ok g
  | s :: ss => do
    let n1 ← index prev
    let n2 ← index s.mat
    let interface ← mkDielectric n1 n2 s.R s.diameter
    let g1 ← tryAppend g (.leaf interface)
    let g2 ← if Glass.isAir s.mat then pure g1 else do
      let spacing ← mkSpace s.spacing n2
      tryAppend g1 (.leaf spacing)
    groupLoop index g2 s.mat ss

/-- `zemax.py:77-106` `matrixGroup()`, for the surfaces of the file. -/
def matrixGroup (index : Glass → Except PyErr F) (name : String) (ss : List (Surface F)) : Except PyErr (Group F) :=
  groupLoop index (Group.empty name) air (lensSurfaces ss)

end Zmx
end RT
