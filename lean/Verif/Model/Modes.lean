import Verif.Model.Preferences

/-! # Modes and start of the module

`utils.py` (`beginnerMode`, `expertMode`, `silentMode`, `allSubclasses`) and `__init__.py` (version check, mode at the start).

The part of Python's `warnings` module that decides which warnings are printed is modelled from its documentation and source
(`filterwarnings`, `warn_explicit`). Not modelled: the texts, the stack levels, filters on messages and lines. -/

namespace RT
open Prefs

/-! ## Warnings -/

/-- `utils.py:16-20` the categories of the module, with those of Python. -/
inductive Category where
  | warning
  | user
  | deprecation
  | beginnerHint
  | expertNote
  | other (name : String)
  deriving DecidableEq, Repr

/-- `issubclass`: `BeginnerHint` and `ExpertNote` are `UserWarning`s, all are `Warning`s. -/
def Category.isSub (c d : Category) : Bool :=
  c == d || d == .warning || (d == .user && (c == .beginnerHint || c == .expertNote))

/-- The actions of a filter used here, and `error`. -/
inductive Action where
  | always | default | once | ignore | error
  deriving DecidableEq, Repr

/-- A filter of Python's `warnings`: any message and line, any module when `module` is `None`. -/
structure WarnFilter where
  action : Action
  cat : Category
  module : Option String := none
  deriving DecidableEq, Repr

/-- A warning at a place of a module. -/
structure Warn where
  text : String
  cat : Category
  module : String
  line : Nat
  deriving DecidableEq, Repr

/-- The state of Python's `warnings`: the filters, the number of changes made to them, the warnings already shown "once", and the
`__warningregistry__` of each module (with the number of changes it was made for). -/
structure Warnings where
  filters : List WarnFilter
  version : Nat
  once : List (String × Category)
  registry : String → Nat × List (String × Category × Nat)

/-- `warnings.filterwarnings(action, category)`: the filter goes first. -/
def Warnings.filterwarnings (s : Warnings) (a : Action) (c : Category) : Warnings :=
  { s with filters := ⟨a, c, none⟩ :: s.filters.erase ⟨a, c, none⟩, version := s.version + 1 }

/-- A filter applies to a warning. -/
def WarnFilter.applies (f : WarnFilter) (c : Category) (module : String) : Bool :=
  c.isSub f.cat && (f.module == none || f.module == some module)

/-- The action of the first filter that applies; Python's default is `default`. -/
def Warnings.action (s : Warnings) (c : Category) (module : String) : Action :=
  match s.filters.find? fun f => f.applies c module with
  | some f => f.action
  | none => .default

/-- What happens with a warning. -/
inductive Handling where
  | shown | hidden | raised
  deriving DecidableEq, Repr

/-- The registry of a module, emptied when the filters have changed since. -/
def Warnings.fresh (s : Warnings) (module : String) : List (String × Category × Nat) :=
  if (s.registry module).1 = s.version then (s.registry module).2 else []

/-- `__warningregistry__` of a module is changed. -/
def Warnings.record (s : Warnings) (module : String) (keys : List (String × Category × Nat)) : Warnings :=
  { s with registry := fun m => if m = module then (s.version, keys) else s.registry m }

/-- `warnings.warn(text, category)` at a place. -/
def Warnings.warn (s : Warnings) (w : Warn) : Handling × Warnings :=
  let keys := s.fresh w.module
  let s := s.record w.module keys
  if (w.text, w.cat, w.line) ∈ keys then (.hidden, s)
  else
    match s.action w.cat w.module with
    | .ignore => (.hidden, s)
    | .error => (.raised, s)
    | .always => (.shown, s)
    | .default => (.shown, s.record w.module ((w.text, w.cat, w.line) :: keys))
    | .once =>
      let s := s.record w.module ((w.text, w.cat, w.line) :: keys)
      if (w.text, w.cat) ∈ s.once then (.hidden, s)
      else (.shown, { s with once := (w.text, w.cat) :: s.once })

/-- Warnings one after the other. -/
def Warnings.warnAll (s : Warnings) : List Warn → List Handling × Warnings
  | [] => ([], s)
  | w :: ws =>
    let (o, s1) := s.warn w
    let (os, s2) := s1.warnAll ws
    (o :: os, s2)

inductive Mode where
  | beginner | expert | silent
  deriving DecidableEq, Repr

/-- `utils.py:26-83` `beginnerMode`, `expertMode` and `silentMode`: the filters. -/
def Warnings.setMode (s : Warnings) : Mode → Warnings
  | .beginner =>
    (((s.filterwarnings .always .beginnerHint).filterwarnings .default .expertNote).filterwarnings .default .deprecation).filterwarnings
      .default .user
  | .expert =>
    (((s.filterwarnings .ignore .beginnerHint).filterwarnings .once .expertNote).filterwarnings .once .deprecation).filterwarnings .once .user
  | .silent =>
    (((s.filterwarnings .ignore .beginnerHint).filterwarnings .ignore .expertNote).filterwarnings .ignore .deprecation).filterwarnings
      .ignore .user

/-! ## Start -/

/-- The value of a preference: a text, or a time as `isoformat` writes it, `YYYY-MM-DDTHH:MM:SS[.ffffff]`: the seconds since some origin, and
the microseconds, which are not written when they are 0. -/
inductive PrefValue where
  | text (s : String)
  | time (seconds : Nat) (micros : Option Nat)
  deriving DecidableEq, Repr

/-- `datetime.isoformat()` of a time in microseconds. -/
def isoformat (t : Nat) : PrefValue :=
  .time (t / 1000000) (if t % 1000000 = 0 then none else some (t % 1000000))

/-- `datetime.strptime(value, "%Y-%m-%dT%H:%M:%S.%f")`: the microseconds must be there. (A text that is not a time is refused as well.) -/
def strptime : PrefValue → Except PyErr Nat
  | .time s (some u) => .ok (s * 1000000 + u)
  | _ => .error .valueError

/-- the microseconds of a day -/
def aDay : Nat := 86400000000

/-- `__init__.py:72-82` `lastCheckMoreThanADay()`: `difference.days` is rounded down. -/
def lastCheckMoreThanADay (prefs : Dict PrefValue) (now : Nat) : Except PyErr Bool :=
  match prefs.get? "lastVersionCheck" with
  | some v =>
    match strptime v with
    | .error x => .error x
    | .ok t => .ok (decide (((now : Int) - t) / (aDay : Int) > 1))
  | none => .ok true

/-- What an import of the module does. -/
structure Started where
  /-- PyPI was asked for the latest version -/
  checked : Bool
  mode : Mode
  deriving DecidableEq, Repr

/-- The mode named by a preference, `__init__.py:93-99`. -/
def modeNamed : PrefValue → Mode
  | .text "silent" => .silent
  | .text "expert" => .expert
  | _ => .beginner

/-- `__init__.py:85-107`: `import raytracing` at the time `now`; `env` when `RAYTRACING_EXPERT` is in the environment. Preferences can be
read and written (see `importModule` for the file). The new preferences are given also when the import fails. -/
def start (env : Bool) (now : Nat) (prefs : Dict PrefValue) : Except PyErr Started × Dict PrefValue :=
  match lastCheckMoreThanADay prefs now with
  | .error x => (.error x, prefs)
  | .ok check =>
    let prefs := if check then prefs.insert "lastVersionCheck" (isoformat now) else prefs
    let prefs := if env then prefs.insert "mode" (.text "expert") else prefs
    match prefs.get? "mode" with
    | some v => (.ok ⟨check, modeNamed v⟩, prefs)
    | none => (.ok ⟨check, .beginner⟩, prefs.insert "mode" (.text "beginner"))

/-- The preferences of a program: the dictionary in memory and the file. All the values are accepted by JSON. -/
abbrev PrefState := Dict PrefValue × Prefs.Disk PrefValue

/-- `prefs[k]` -/
def PrefState.read (st : PrefState) (k : String) : Except PyErr PrefValue × PrefState :=
  let s := Prefs.getItem (fun _ => true) st.1 st.2 k
  (s.result, s.mem, s.disk)

/-- `prefs[k] = v` -/
def PrefState.write (st : PrefState) (k : String) (v : PrefValue) : PrefState :=
  let s := Prefs.setItem (fun _ => true) st.1 k v
  (s.mem, s.disk)

/-- `Preferences()` -/
def PrefState.make (disk : Prefs.Disk PrefValue) : Except PyErr Unit × PrefState :=
  let s := Prefs.init (fun _ => true) [] disk
  (s.result, s.mem, s.disk)

/-- `__init__.py:72-82` `lastCheckMoreThanADay()`, with the file. -/
def PrefState.lastCheck (st : PrefState) (now : Nat) : Except PyErr Bool × PrefState :=
  match st.1.get? "lastVersionCheck" with
  | none => (.ok true, st)
  | some _ =>
    let (v, st) := st.read "lastVersionCheck"
    match v with
    | .error x => (.error x, st)
    | .ok v =>
      match strptime v with
      | .error x => (.error x, st)
      | .ok t => (.ok (decide (((now : Int) - t) / (aDay : Int) > 1)), st)

/-- `__init__.py:94-100` the mode read in the preferences, up to twice; the last value is the one compared with `"expert"`. -/
def PrefState.readMode (st : PrefState) : Except PyErr (Option Mode) × PrefState :=
  match st.1.get? "mode" with
  | none => (.ok none, st)
  | some _ =>
    let (v, st) := st.read "mode"
    match v with
    | .error x => (.error x, st)
    | .ok v =>
      if v = .text "silent" then (.ok (some .silent), st)
      else
        let (v, st) := st.read "mode"
        match v with
        | .error x => (.error x, st)
        | .ok v => if v = .text "expert" then (.ok (some .expert), st) else (.ok (some .beginner), st)

/-- `utils.py:43-45` `beginnerMode(saveToPrefs=True)`: another `Preferences()` is made. -/
def PrefState.saveBeginner (st : PrefState) : Except PyErr Unit × Prefs.Disk PrefValue :=
  let (r, st) := PrefState.make st.2
  match r with
  | .error x => (.error x, st.2)
  | .ok () => (.ok (), (st.write "mode" (.text "beginner")).2)

/-- `__init__.py:85-107` `import raytracing` with the file of the preferences: what happens, and the file afterwards. -/
def importModule (env : Bool) (now : Nat) (disk : Prefs.Disk PrefValue) : Except PyErr Started × Prefs.Disk PrefValue :=
  let (r, st) := PrefState.make disk
  match r with
  | .error x => (.error x, st.2)
  | .ok () =>
    let (check, st) := st.lastCheck now
    match check with
    | .error x => (.error x, st.2)
    | .ok check =>
      let st := if check then st.write "lastVersionCheck" (isoformat now) else st
      let st := if env then st.write "mode" (.text "expert") else st
      match st.readMode with
      | (.ok (some m), st) => (.ok ⟨check, m⟩, st.2)
      | (_, st) =>
        match st.saveBeginner with
        | (.error x, disk) => (.error x, disk)
        | (.ok (), disk) => (.ok ⟨check, .beginner⟩, disk)

/-- The name of a mode in the preferences. -/
def Mode.name : Mode → String
  | .beginner => "beginner"
  | .expert => "expert"
  | .silent => "silent"

/-- `utils.py:41-43`, `61-63`, `80-82` a mode set with `saveToPrefs=True`: the preferences. -/
def saveMode (m : Mode) (prefs : Dict PrefValue) : Dict PrefValue := prefs.insert "mode" (.text m.name)

/-! ## Classes -/

/-- A class and its direct subclasses. (With multiple inheritance a class is at several places of the tree.) -/
inductive ClassTree where
  | node (name : String) (children : List ClassTree)

mutual
/-- `utils.py:187-208` `allSubclasses(aClass)`. -/
def ClassTree.allSubclasses : ClassTree → List String
  | .node _ children => ClassTree.allSubclassesList children

/-- the loop of `utils.py:202-207` -/
def ClassTree.allSubclassesList : List ClassTree → List String
  | [] => []
  | .node name [] :: cs => name :: ClassTree.allSubclassesList cs
  | .node name (c :: cc) :: cs => ClassTree.allSubclasses (.node name (c :: cc)) ++ ClassTree.allSubclassesList cs
end

end RT
