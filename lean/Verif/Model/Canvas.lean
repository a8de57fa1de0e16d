import Verif.Model.Images

/-! # Model of the groups of a figure, their visibility and the check boxes

`figure.py:22-28`, `46-55` (the groups), `217-241` (the groups of rays), `532-549` (what is hidden at first), `579-596`, `691-709`,
`815-820` (check boxes), `graphics.py:48-56`, `graphicComponents.py:81-109`, `485-500` (the patches, made when drawn). A graphic or a line is
a value `content` with its flag, its patch on the screen once drawn, and its label. -/

namespace RT
open PyNum
variable {F : Type} [PyNum F] {α : Type}

/-- A graphic or a line: `_isVisible`, `_patch` (its visibility on the screen), `label`. -/
structure Drawable (α : Type) where
  content : α
  visible : Bool
  patch : Option Bool
  label : Option String
  deriving DecidableEq, Repr

/-- `graphics.py:28`, `graphicComponents.py:51`, `482`: a new one. -/
def Drawable.new (a : α) (label : Option String := none) : Drawable α := ⟨a, true, none, label⟩

/-- the setter of `isVisible`: `graphics.py:52-56`, `graphicComponents.py:105-109`, `496-500`. -/
def Drawable.setVisible (b : Bool) (i : Drawable α) : Drawable α := { i with visible := b, patch := i.patch.map fun _ => b }

/-- the getter of `patch`: `graphicComponents.py:81-99`, `485-490`. -/
def Drawable.draw (i : Drawable α) : Drawable α := { i with patch := some (i.patch.getD i.visible) }

/-- What is seen of it. -/
def Drawable.seen (i : Drawable α) : Bool := i.patch == some true

/-- The text seen beside it: `figure.py:665-668` adds the label to the axes, whatever the visibility of the graphic. -/
def Drawable.text (i : Drawable α) : Option String := if i.patch.isSome then i.label else none

/-- A dictionary of groups. -/
abbrev Groups (α : Type) := List (String × List (Drawable α))

/-- `figure.py:26-27` `graphicGroups` and `lineGroups`. -/
structure Canvas (α : Type) where
  graphics : Groups α
  lines : Groups α
  deriving DecidableEq, Repr

def kPrincipalKey := "Principal/axial rays"
def kObjectImageKey := "Object/Image"
def kLampKey := "Lamp"
def kElementsKey := "Elements"

/-- `figure.py:26-27` those of a new figure. -/
def Canvas.new : Canvas α :=
  ⟨[(kPrincipalKey, []), (kObjectImageKey, []), (kLampKey, []), (kElementsKey, [])], [(kPrincipalKey, []), (kObjectImageKey, []), (kLampKey, [])]⟩

/-- `figure.py:46-55` `lines`, `graphics`: all the groups. -/
def Groups.all (d : Groups α) : List (Drawable α) := d.flatMap Prod.snd

/-- `d[key].extend(items)` -/
def Groups.extend (d : Groups α) (key : String) (items : List (Drawable α)) : Except PyErr (Groups α) :=
  match dictGet d key with
  | none => .error .keyError
  | some l => .ok (dictSet d key (l ++ items))

/-- Rays to display: the name of their class, their position, the lines of their trace (`rayTraceLines(rays)`). -/
structure Traced (F α : Type) where
  cls : String
  z : F
  lines : List α
  deriving DecidableEq, Repr

/-- `figure.py:222-241` the body of the loop of `setLinesFromRaysList`; `fmtObject`, `fmtLamp` format the keys
`"Object/Image (z={0:.1f})"` and `"Lamp (z={0:.2f})"`. -/
def addLines (fmtObject fmtLamp : F → String) (d : Groups α) (r : Traced F α) : Except PyErr (Groups α) :=
  let items := r.lines.map Drawable.new
  if r.cls == "ObjectRays" then
    if r.z ==. 0 then d.extend kObjectImageKey items else .ok (dictSet d (fmtObject r.z) items)
  else if r.cls == "LampRays" then
    if r.z ==. 0 then d.extend kLampKey items else .ok (dictSet d (fmtLamp r.z) items)
  else
    match dictGet d r.cls with
    | none => .ok (dictSet d r.cls items)
    | some l => .ok (dictSet d r.cls (l ++ items))

/-- `figure.py:221-241` `setLinesFromRaysList()`. -/
def setLines (fmtObject fmtLamp : F → String) (rs : List (Traced F α)) (d : Groups α) : Except PyErr (Groups α) :=
  rs.foldlM (addLines fmtObject fmtLamp) d

/-- The loop of `figure.py:579-585` over one of the dictionaries. -/
def Groups.setVisible (d : Groups α) (key : String) (b : Bool) : Groups α :=
  d.map fun e => if e.1 == key then (e.1, e.2.map (Drawable.setVisible b)) else e

/-- `figure.py:579-585` `setGroupVisibility(groupKey, isVisible)`. -/
def Canvas.setGroupVisibility (c : Canvas α) (key : String) (b : Bool) : Canvas α :=
  ⟨c.graphics.setVisible key b, c.lines.setVisible key b⟩

/-- `figure.py:590-595` one of the two loops of `visibility`. -/
def visibilityLoop (d : Groups α) (v : List (String × Bool)) : List (String × Bool) :=
  d.foldl (fun v e => match e.2 with
    | [] => v
    | i :: _ => dictSet v e.1 i.visible) v

/-- `figure.py:587-596` `visibility`. -/
def Canvas.visibility (c : Canvas α) : List (String × Bool) := visibilityLoop c.lines (visibilityLoop c.graphics [])

/-- `figure.py:537-549` what `display` hides; the flags are `designParams['showFOV']`, `designParams['showObjectImage']`. -/
def Canvas.hide (showFOV showObjectImage : Bool) (c : Canvas α) : Canvas α :=
  let c1 := if showFOV then c else c.setGroupVisibility kPrincipalKey false
  if showObjectImage && !showFOV then c1 else c1.setGroupVisibility kObjectImageKey false

/-- `figure.py:649-683` `draw()`: every graphic and every line gets its patch. -/
def Canvas.draw (c : Canvas α) : Canvas α :=
  ⟨c.graphics.map fun e => (e.1, e.2.map Drawable.draw), c.lines.map fun e => (e.1, e.2.map Drawable.draw)⟩

/-- `figure.py:691-707` the labels of the check boxes and their states at first. -/
def Canvas.checkBoxes (c : Canvas α) : List (String × Bool) := c.visibility.filter fun e => e.1 != kElementsKey

/-- `groupKey.replace('\n', ' ')` -/
def oneLine (s : String) : String := String.ofList (s.toList.map fun c => if c = '\n' then ' ' else c)

/-- `figure.py:815-820` `onCheckBoxCallback(groupKey)`. -/
def Canvas.click (c : Canvas α) (label : String) : Except PyErr (Canvas α) :=
  match dictGet c.visibility (oneLine label) with
  | none => .error .keyError
  | some old => .ok (c.setGroupVisibility (oneLine label) (!old))

end RT
