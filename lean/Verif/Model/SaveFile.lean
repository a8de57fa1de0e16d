import Verif.Num

/-! # Writing files: `Rays.save` (`rays.py:429-463`) and `MatrixGroup.save` (`matrixgroup.py:498-531`)

Both open the file with `"wb"`, let `pickle` write into it, and then wait until two successive looks at the size of the file agree. `Rays.save` waits after
the `with` block (the file is closed), `MatrixGroup.save` inside it. Time is a sequence of steps; a program that is killed leaves the file as it is then.

Simplified: the bytes that `pickle` produces are given, cut in the pieces it hands to the file; the file object is Python's `BufferedWriter` over a regular
file, whose raw writes are complete; no other program writes into the file, except in the part on the loop by itself, where the sizes seen are arbitrary. -/

namespace RT.Saving

abbrev Bytes := List UInt8

/-! ## The file object -/

/-- The content of the file on the disk, and the bytes still in the memory of the file object. -/
structure Writer where
  disk : Bytes
  buf : Bytes
  deriving DecidableEq

/-- `outfile.write(chunk)` of a `BufferedWriter` of `cap` bytes: kept in memory if it fits; otherwise what is in memory goes to the disk first, then the chunk,
directly if it is larger than the memory. -/
def Writer.write (cap : Nat) (w : Writer) (chunk : Bytes) : Writer :=
  if w.buf.length + chunk.length ≤ cap then { w with buf := w.buf ++ chunk }
  else if chunk.length ≤ cap then ⟨w.disk ++ w.buf, chunk⟩
  else ⟨w.disk ++ w.buf ++ chunk, []⟩

/-- the end of the `with` block: `outfile.close()` -/
def Writer.close (w : Writer) : Writer := ⟨w.disk ++ w.buf, []⟩

/-! ## The loop that waits -/

/-- Where the loop is: at `while not os.path.exists(filePath)` (`rays.py:448-449`, `matrixgroup.py:517-518`), at `os.path.getsize(filePath)` with the value of
`oldSize` (`rays.py:453-463`, `matrixgroup.py:522-531`), done, or stopped by `KeyboardInterrupt`. -/
inductive Wait where
  | exist
  | size (old : Option Nat)
  | returned
  | interrupted
  deriving DecidableEq

/-- What happens at one turn: the size of the file (`none` if it is missing or cannot be read) and whether Ctrl-C is pressed while the program sleeps
after the look. -/
structure Look where
  size : Option Nat
  ctrlC : Bool := false
  deriving DecidableEq

/-- One turn of the loops (`rays.py:448-463`, `matrixgroup.py:517-531`). `time.sleep(1)` is in the `try`, whose bare `except:` also catches
`KeyboardInterrupt`; the sleeps of 0.1 s are not. -/
def Wait.step : Wait → Look → Wait
  | .exist, ⟨none, c⟩ => if c then .interrupted else .exist
  | .exist, ⟨some _, _⟩ => .size none
  | .size old, ⟨none, c⟩ => if c then .interrupted else .size old
  | .size old, ⟨some n, c⟩ => if some n = old then .returned else if c then .size old else .size (some n)
  | .returned, _ => .returned
  | .interrupted, _ => .interrupted

/-- the loop after `k` turns, when turn `i` sees `looks i` -/
def Wait.after (looks : Nat → Look) (w : Wait) : Nat → Wait
  | 0 => w
  | k + 1 => (Wait.after looks w k).step (looks k)

/-! ## The whole call -/

/-- Where a call of `save` is. -/
inductive Place where
  | opening
  | writing (todo : List Bytes)
  | waiting (w : Wait)
  | closing (error : Bool)
  | done
  | raised
  deriving DecidableEq

/-- A call in progress: the file (`none`: missing), the memory of the file object, where the program is. -/
structure State where
  disk : Option Bytes
  buf : Bytes
  place : Place
  deriving DecidableEq

/-- A kind of save: does it wait inside the `with` block, and how large is the memory of the file object (8192 in CPython)? -/
structure Kind where
  inside : Bool
  cap : Nat

/-- `rays.py:440-463` -/
def Kind.rays (cap : Nat := 8192) : Kind := ⟨false, cap⟩

/-- `matrixgroup.py:508-531` -/
def Kind.group (cap : Nat := 8192) : Kind := ⟨true, cap⟩

/-- What `pickle.Pickler(outfile).dump(...)` does: the pieces it writes, and whether it raises after them (an object that cannot be pickled). -/
structure Dump where
  chunks : List Bytes
  fails : Bool := false

/-- One step of `save`, nobody else touching the file. -/
def State.step (k : Kind) (d : Dump) (s : State) : State :=
  match s.place with
  | .opening => ⟨some [], [], .writing d.chunks⟩
  | .writing (c :: cs) =>
    let w := Writer.write k.cap ⟨s.disk.getD [], s.buf⟩ c
    ⟨some w.disk, w.buf, .writing cs⟩
  | .writing [] =>
    if d.fails then { s with place := .closing true }
    else if k.inside then { s with place := .waiting .exist } else { s with place := .closing false }
  | .closing error =>
    let w := Writer.close ⟨s.disk.getD [], s.buf⟩
    ⟨some w.disk, w.buf, if error then .raised else if k.inside then .done else .waiting .exist⟩
  | .waiting w =>
    match w.step ⟨s.disk.map List.length, false⟩ with
    | .returned => { s with place := if k.inside then .closing false else .done }
    | w' => { s with place := .waiting w' }
  | .done => s
  | .raised => s

/-- the state after `n` steps, from a file with content `old` -/
def State.after (k : Kind) (d : Dump) (old : Option Bytes) : Nat → State
  | 0 => ⟨old, [], .opening⟩
  | n + 1 => (State.after k d old n).step k d

/-- `rays.py:418-419`, `matrixgroup.py:545-546`: what reading the file gives; `unpickle` is what `pickle.Unpickler(infile).load()` makes of the bytes (`none`: it
raises). -/
def load {α : Type} (unpickle : Bytes → Option α) : Option Bytes → Option α
  | none => none
  | some b => unpickle b

end RT.Saving
