import Verif.Model.Preferences

/-! # The lens viewer (`lensViewer.py:83-217`) and the check of the version (`utils.py:233-262`)

Of the viewer, what is in the menu and which lens is shown; the windows (tkinter) and the drawing of the lens (C77, C78) are not here. -/

namespace RT

/-! ## The viewer -/

/-- What the viewer needs to know of lenses: those of type `L`, with focal lengths of type `F`. -/
structure Lenses (F L : Type) where
  /-- `lens.label` (`None` when there is none) -/
  label : L → Option String
  /-- the first of `lens.effectiveFocalLengths()` -/
  focal : L → Except PyErr F
  /-- `"{0:.1f}".format(f)` -/
  format : F → String

/-- A module seen by `getattr(module, name)()`: `none` when there is no such class, an error when the constructor raises. -/
abbrev Catalog (L : Type) := String → Option (Except PyErr L)

namespace Viewer
variable {F L : Type}

/-- `lensViewer.py:205` the text of a lens: `"{0:s} [f={1:.1f} mm]".format(lens.label, f1)`, an error without label or focal length. -/
def text (c : Lenses F L) (l : L) : Except PyErr String :=
  match c.focal l with
  | .error x => .error x
  | .ok f => match c.label l with
    | none => .error .typeError
    | some s => .ok (s ++ " [f=" ++ c.format f ++ " mm]")

/-- `lensViewer.py:200-208` the body of the inner loop. The variable `lens` is the name of a class, then the lens itself: for the next
module `getattr(module, lens)` raises `TypeError`, which is ignored like all errors. -/
def tryModule (c : Lenses F L) (st : Prefs.Dict L × (String ⊕ L)) (m : Catalog L) : Prefs.Dict L × (String ⊕ L) :=
  match st.2 with
  | .inr _ => st
  | .inl name =>
    match m name with
    | none => st
    | some (.error _) => st
    | some (.ok l) =>
      match text c l with
      | .error _ => (st.1, .inr l)
      | .ok t => (st.1.insert t l, .inr l)

/-- `lensViewer.py:196-208` `build_lens_dict()`, for the names listed by `CompoundLens.all()`. -/
def buildDict (c : Lenses F L) (modules : List (Catalog L)) (names : List String) : Prefs.Dict L :=
  names.foldl (fun d name => (modules.foldl (tryModule c) (d, .inl name)).1) []

/-- The viewer: its dictionary, the items of the menu, the title of the menu and the lens on display. -/
structure State (L : Type) where
  lenses : Prefs.Dict L
  items : List String
  title : String
  shown : Option L

/-- `lensViewer.py:188-194` `OpticalComponentViewer()`; the title at the start is that of `lensViewer.py:91`. -/
def start (c : Lenses F L) (modules : List (Catalog L)) (names : List String) : State L :=
  let d := buildDict c modules names
  ⟨d, d.map Prod.fst, "Select menu item", none⟩

/-- `lensViewer.py:106-111` `selection_callback(index)`, then `lensViewer.py:210-217` `selection_changed()`. -/
def select (s : State L) (i : Nat) : Except PyErr (State L) :=
  match s.items[i]? with
  | none => .error .indexError
  | some t =>
    match s.lenses.get? t with
    | none => .error .keyError
    | some l => .ok { s with title := t, shown := some l }

/-- The user selects items one after the other. -/
def selectAll (s : State L) : List Nat → Except PyErr (State L)
  | [] => .ok s
  | i :: is => do selectAll (← select s i) is

end Viewer

/-! ## The version -/

/-- What asking PyPI for the releases gives: an error of SSL certificates, any other error (no network, no `packaging`, an answer that is
not as expected), or the names of the releases, in the order of the answer, read as versions (`none` when `Version(name)` raises). -/
inductive PyPI (V : Type) where
  | certificates
  | failed
  | releases (vs : List (Option V))

/-- What is printed. -/
inductive Notice (V : Type) where
  | nothing
  | newer (v : V)
  | certificates
  | unable
  deriving DecidableEq

/-- `utils.py:233-262` `checkLatestVersion(currentVersion)`: the result and what is printed; no error gets out. `current` is `none` when
`Version(currentVersion)` raises. -/
def checkLatestVersion {V : Type} (lt : V → V → Bool) (current : Option V) : PyPI V → Bool × Notice V
  | .certificates => (false, .certificates)
  | .failed => (false, .unable)
  | .releases vs =>
    match vs.mapM id with
    | none => (false, .unable)
    | some vs =>
      match vs.getLast?, current with
      | some latest, some v => if lt v latest then (true, .newer latest) else (false, .nothing)
      | _, _ => (false, .unable)

end RT
