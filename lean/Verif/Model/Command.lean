import Mathlib.Data.List.Sort
import Mathlib.Data.String.Basic
import Verif.Num
import Verif.Model.Modes

/-! # The command line `python -m raytracing` and the examples it runs

Texts are lists of characters. The parser of the options (`argparse`), the highlighting of the source code and the pictures are not modelled: the model starts with the
values of the four options. Digits are the ten ASCII digits (`\d` and `int` of Python accept those of other scripts too), and blanks are the ASCII ones. -/

namespace RT

/-- the last three letters `.py` removed, if they are there -/
def pyStem (s : List Char) : Option (List Char) :=
  if s.drop (s.length - 3) = ['.', 'p', 'y'] then some (s.take (s.length - 3)) else none

/-- `examples/__init__.py:27-30` the group 1 of the pattern `^(ex\d+|fig.+)\.py$`, if the name of the file matches. (A name that ends with a newline is not considered.) -/
def exampleName (file : List Char) : Option (List Char) :=
  match pyStem file with
  | none => none
  | some stem =>
    match stem with
    | 'e' :: 'x' :: d :: ds => if (d :: ds).all Char.isDigit then some stem else none
    | 'f' :: 'i' :: 'g' :: c :: cs => if (c :: cs).all (· != '\n') then some stem else none
    | _ => none

/-- `examples/__init__.py:21-31, 42-49` the names in `short`: the files of the directory, sorted, that match. -/
def shortExamples (directory : List String) : List (List Char) :=
  (directory.insertionSort (· ≤ ·)).filterMap fun f => exampleName f.toList

/-- `str.split(',')`: the text before the first comma, and the texts after it. -/
def splitAux : List Char → List Char × List (List Char)
  | [] => ([], [])
  | c :: s => if c = ',' then ([], (splitAux s).1 :: (splitAux s).2) else (c :: (splitAux s).1, (splitAux s).2)

/-- `str.split(',')` -/
def splitCommas (s : List Char) : List (List Char) := (splitAux s).1 :: (splitAux s).2

/-- digits with, between two of them, at most one underscore: their value -/
def digitsValue : List Char → ℕ → Option ℕ
  | [], acc => some acc
  | '_' :: c :: s, acc => if c.isDigit then digitsValue s (10 * acc + (c.toNat - 48)) else none
  | c :: s, acc => if c.isDigit then digitsValue s (10 * acc + (c.toNat - 48)) else none

/-- the blanks `int` ignores around a number -/
def isBlank (c : Char) : Bool := c == ' ' || c == '\t' || c == '\n' || c == '\r' || c == '\x0b' || c == '\x0c'

def stripBlanks (s : List Char) : List Char := ((s.dropWhile isBlank).reverse.dropWhile isBlank).reverse

/-- a number without sign: it starts with a digit -/
def plainInt : List Char → Option ℕ
  | [] => none
  | c :: s => if c.isDigit then digitsValue s (c.toNat - 48) else none

/-- Python's `int(text)`. -/
def pyInt (s : List Char) : Except PyErr ℤ :=
  match stripBlanks s with
  | '-' :: t => match plainInt t with | some n => .ok (-(n : ℤ)) | none => .error .valueError
  | '+' :: t => match plainInt t with | some n => .ok (n : ℤ) | none => .error .valueError
  | t => match plainInt t with | some n => .ok (n : ℤ) | none => .error .valueError

/-- `[int(y) for y in …]` -/
def pyInts : List (List Char) → Except PyErr (List ℤ)
  | [] => .ok []
  | s :: ss => do
    let k ← pyInt s
    let ks ← pyInts ss
    return k :: ks

/-- `__main__.py:40-45` the numbers of the examples to run, `n` examples being known. -/
def wanted (n : ℕ) (text : List Char) : Except PyErr (List ℤ) :=
  if text = ['a', 'l', 'l'] then .ok ((List.range n).map fun (k : ℕ) => (k : ℤ) + 1)
  else if text = [] then .ok []
  else pyInts (splitCommas text)

/-- `list[i]` of Python: negative indices count from the end. -/
def pyNth {α : Type} (l : List α) (i : ℤ) : Except PyErr α :=
  let j := if i < 0 then i + l.length else i
  if j < 0 then .error .indexError
  else match l[j.toNat]? with
    | some a => .ok a
    | none => .error .indexError

/-- What the command did. -/
inductive Done where
  | classes
  | tests
  | listed (lines : List (ℕ × List Char × List Char))
  | ran (name : List Char)
  deriving DecidableEq, Repr

/-- `__main__.py:78-85` the loop. `raises name` is the exception, if any, the code of an example raises. -/
def runLoop (short : List (List Char)) (raises : List Char → Option PyErr) : List ℤ → List Done × Option PyErr
  | [] => ([], none)
  | i :: is =>
    match pyNth short (i - 1) with
    | .error e => ([], some e)
    | .ok name =>
      match raises name with
      | some e => ([.ran name], some e)
      | none => (.ran name :: (runLoop short raises is).1, (runLoop short raises is).2)

/-- The options of the command. -/
structure Options where
  examples : List Char := ['a', 'l', 'l']
  classes : Bool := false
  list : Bool := false
  tests : Bool := false

/-- `__main__.py:61-62` the lines of the list: number, name, title. -/
def listLines (title : List Char → List Char) : List (List Char) → ℕ → List (ℕ × List Char × List Char)
  | [], _ => []
  | name :: names, i => (i + 1, name, title name) :: listLines title names (i + 1)

/-- `__main__.py:40-85` -/
def command (directory : List String) (title : List Char → List Char) (raises : List Char → Option PyErr) (o : Options) : List Done × Option PyErr :=
  match wanted (shortExamples directory).length o.examples with
  | .error e => ([], some e)
  | .ok ks =>
    if o.classes then ([.classes], none)
    else if o.tests then ([.tests], none)
    else if o.list then ([.listed (listLines title (shortExamples directory) 0)], none)
    else runLoop (shortExamples directory) raises ks

mutual
/-- `utils.py:211-214` the lines of `printAllChilds(aClass)`: the two names of each. -/
def ClassTree.printed : ClassTree → List (String × String)
  | .node name children => ClassTree.printedList name children

/-- the loop of `utils.py:212-214` -/
def ClassTree.printedList (name : String) : List ClassTree → List (String × String)
  | [] => []
  | .node n cs :: rest => (name, n) :: (ClassTree.printed (.node n cs) ++ ClassTree.printedList name rest)
end

/-- `utils.py:210-219` `printClassHierarchy(aClass)`: the lines, as texts. -/
def ClassTree.hierarchy (t : ClassTree) : List String :=
  ["# Paste this in the text field of http://www.graphviz.org", "digraph G {", "  rankdir=\"LR\";"] ++
    t.printed.map (fun p => "\"" ++ p.1 ++ "\" -> \"" ++ p.2 ++ "\"") ++ ["}"]

end RT
