import Verif.Num

/-! # Preferences: `preferences.py:5-64`

Keys and values are those of JSON: the values of type `V`, of which `ok v` says if `json.dump` accepts them. What `json.load` makes of
the text written by `json.dump` is the dictionary that was written (trusted). -/

namespace RT
namespace Prefs

/-- A Python dictionary, in order of insertion. -/
abbrev Dict (V : Type) := List (String × V)

variable {V : Type}

/-- `d[k] = v`: replaces the value in place, or adds the key at the end. -/
def Dict.insert (d : Dict V) (k : String) (v : V) : Dict V :=
  match d with
  | [] => [(k, v)]
  | (k', v') :: d => if k' = k then (k, v) :: d else (k', v') :: Dict.insert d k v

/-- `d.get(k)`. -/
def Dict.get? (d : Dict V) (k : String) : Option V :=
  match d with
  | [] => none
  | (k', v') :: d => if k' = k then some v' else Dict.get? d k

/-- What the file of the preferences is: missing, a text that `json.load` refuses (in particular the empty text, and a text cut in
the middle), the text of a dictionary, or a JSON text of something else, with what `dict()` of it gives: `TypeError` for a number, a boolean
or `null`, `ValueError` for a string or a list of other things than pairs, a dictionary for a list of pairs. -/
inductive Disk (V : Type) where
  | absent
  | malformed
  | dict (d : Dict V)
  | foreign (conv : Except PyErr (Dict V))
  deriving DecidableEq

/-- What an operation does: its result, the dictionary in memory, the file, and the successive contents of the file, from the first
change to the last one. A program stopped in the middle leaves one of them. -/
structure Step (V α : Type) where
  result : Except PyErr α
  mem : Dict V
  disk : Disk V
  visited : List (Disk V)

variable (ok : V → Bool)

/-- `preferences.py:62-64` `writeToDisk()`: opening the file with `"w+"` empties it, then `json.dump` writes it; when a value is
refused the text is cut there. -/
def writeToDisk (mem : Dict V) : Step V Unit :=
  if mem.all (fun p => ok p.2) then ⟨.ok (), mem, .dict mem, [.malformed, .dict mem]⟩
  else ⟨.error .typeError, mem, .malformed, [.malformed]⟩

/-- `preferences.py:38-40` `__setitem__(key, value)`. -/
def setItem (mem : Dict V) (k : String) (v : V) : Step V Unit := writeToDisk ok (mem.insert k v)

/-- `preferences.py:30-32` `update(...)`: key by key. -/
def update (mem : Dict V) (disk : Disk V) : Dict V → Step V Unit
  | [] => ⟨.ok (), mem, disk, []⟩
  | (k, v) :: data =>
    let s := setItem ok mem k v
    match s.result with
    | .error x => ⟨.error x, s.mem, s.disk, s.visited⟩
    | .ok () =>
      let t := update s.mem s.disk data
      ⟨t.result, t.mem, t.disk, s.visited ++ t.visited⟩

/-- `preferences.py:50-60` `readFromDisk()`; `self.update(data)` is after the `try`, `dict(data)` is `preferences.py:31`. -/
def readFromDisk (mem : Dict V) : Disk V → Step V Unit
  | .absent => writeToDisk ok []
  | .malformed => ⟨.ok (), mem, .malformed, []⟩
  | .dict d => update ok mem (.dict d) d
  | .foreign (.ok d) => update ok mem (.foreign (.ok d)) d
  | .foreign (.error x) => ⟨.error x, mem, .foreign (.error x), []⟩

/-- `preferences.py:34-36` `__getitem__(key)`. -/
def getItem (mem : Dict V) (disk : Disk V) (k : String) : Step V V :=
  let s := readFromDisk ok mem disk
  match s.result with
  | .error x => ⟨.error x, s.mem, s.disk, s.visited⟩
  | .ok () => ⟨match s.mem.get? k with | some v => .ok v | none => .error .keyError, s.mem, s.disk, s.visited⟩

/-- `preferences.py:42-48` `resetPreferences()`: the file is removed first (if it exists). -/
def resetPreferences (disk : Disk V) : Step V Unit :=
  let w := writeToDisk ok ([] : Dict V)
  ⟨w.result, w.mem, w.disk, (match disk with | .absent => [] | _ => [.absent]) ++ w.visited⟩

/-- `preferences.py:6-28` `Preferences(...)`: with arguments the dictionary is updated, hence written, before `self.path` exists. -/
def init (args : Dict V) (disk : Disk V) : Step V Unit :=
  match args with
  | [] => readFromDisk ok [] disk
  | (k, v) :: _ => ⟨.error .attributeError, Dict.insert [] k v, disk, []⟩

/-- `del prefs[key]` and `prefs.pop(key)`, inherited from `dict`: only the dictionary in memory. -/
def delItem (mem : Dict V) (disk : Disk V) (k : String) : Step V Unit :=
  match mem.get? k with
  | none => ⟨.error .keyError, mem, disk, []⟩
  | some _ => ⟨.ok (), mem.filter (fun p => p.1 ≠ k), disk, []⟩

/-! ## Sessions -/

/-- What a program does with its preferences; `restart` is the end of the program and the beginning of another one. -/
inductive Op (V : Type) where
  | set (k : String) (v : V)
  | get (k : String)
  | reset
  | restart

/-- One operation of the only program. -/
def step (st : Dict V × Disk V) : Op V → Dict V × Disk V
  | .set k v => let s := setItem ok st.1 k v; (s.mem, s.disk)
  | .get k => let s := getItem ok st.1 st.2 k; (s.mem, s.disk)
  | .reset => let s := resetPreferences ok st.2; (s.mem, s.disk)
  | .restart => let s := init ok [] st.2; (s.mem, s.disk)

/-- All of them, one program after the other. -/
def run (st : Dict V × Disk V) (ops : List (Op V)) : Dict V × Disk V := ops.foldl (step ok) st

end Prefs
end RT
