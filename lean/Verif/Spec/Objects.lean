import Verif.Spec.Store

/-! # Programs that make, assemble, edit, flip and trace elements

The variables of a program hold elements. An element given to a group (`MatrixGroup([...])`, `append`, `insert`) is not used again through its
own variable: the program puts every object at one place only. The same program is run twice: with values, as in the rest of the model, and
with objects in a store, as in Python. -/

namespace RT
open PyNum
variable {F : Type}

/-- A step of a program. Variables are numbered in the order they are made. -/
inductive ObjOp (F : Type) where
  /-- a call of the constructor of a single element with this result -/
  | create (m : Mat F)
  /-- `MatrixGroup([v_j, ...], label)` -/
  | group (js : List Nat) (label : String)
  /-- `v_i.append(v_j)` -/
  | append (i j : Nat)
  /-- `v_i.insert(index, v_j)`, or the list of the `v_j` -/
  | insert (i : Nat) (index : Int) (js : List Nat)
  /-- `v = v_i.pop(index)` -/
  | pop (i : Nat) (index : Int)
  /-- `v_i.flipOrientation()` -/
  | flip (i : Nat)
  /-- `v_i.trace(Ray(...))` -/
  | trace (i : Nat) (r : Ray F)
  /-- `v_i.transferMatrix(upTo)` -/
  | transfer (i : Nat) (upTo : F)

/-- What the program sees of a step. `skipped`: a variable that is not available any more. -/
inductive ObjSeen (F : Type) where
  | skipped
  | done (x : Except PyErr Unit)
  | rays (rs : List (Ray F))
  | matrix (x : Except PyErr (Mat F))

/-- The variables with the values they hold (`none`: given away) and the rays that exist. -/
structure ValState (F : Type) where
  vars : List (Option (Elem F))
  rays : Heap F

/-- The variables with the addresses they hold, the element objects and the rays that exist. -/
structure ObjState (F : Type) where
  vars : List (Option Nat)
  store : Store F
  rays : Heap F

/-- Give away the contents of some variables, in order. -/
def takeAll {α : Type} : List Nat → List (Option α) → Option (List α × List (Option α))
  | [], vs => some ([], vs)
  | j :: js, vs =>
    match vs[j]? with
    | some (some x) =>
      match takeAll js (vs.set j none) with
      | some (xs, vs') => some (x :: xs, vs')
      | none => none
    | _ => none

variable [PyNum F]

/-- A step with values: the functions of `Model/Group.lean` and `Model/Trace.lean`. -/
def ValState.step (st : ValState F) : ObjOp F → ValState F × ObjSeen F
  | .create m => ({ st with vars := st.vars ++ [some (.leaf m)] }, .done (.ok ()))
  | .group js label =>
    match takeAll js st.vars with
    | none => (st, .skipped)
    | some (es, vs) =>
      match Group.new es label with
      | .ok g => ({ st with vars := vs ++ [some g.toElem] }, .done (.ok ()))
      | .error x => ({ st with vars := vs ++ [none] }, .done (.error x))
  | .append i j =>
    match takeAll [j, i] st.vars with
    | some ([e, .group m c es], vs) =>
      let r := Group.append ⟨m, c, es⟩ e
      ({ st with vars := vs.set i (some r.1.toElem) }, .done r.2)
    | _ => (st, .skipped)
  | .insert i index js =>
    match takeAll (i :: js) st.vars with
    | some (.group m c es :: new, vs) =>
      let r := Group.insert ⟨m, c, es⟩ index new
      ({ st with vars := vs.set i (some r.1.toElem) }, .done r.2)
    | _ => (st, .skipped)
  | .pop i index =>
    match st.vars[i]? with
    | some (some (.group m c es)) =>
      match Group.pop ⟨m, c, es⟩ index with
      | (g, .ok e) => ({ st with vars := st.vars.set i (some g.toElem) ++ [some e] }, .done (.ok ()))
      | (g, .error x) => ({ st with vars := st.vars.set i (some g.toElem) ++ [none] }, .done (.error x))
    | _ => (st, .skipped)
  | .flip i =>
    match st.vars[i]? with
    | some (some e) => ({ st with vars := st.vars.set i (some e.flip.1) }, .done e.flip.2)
    | _ => (st, .skipped)
  | .trace i r =>
    match st.vars[i]? with
    | some (some e) =>
      let t := e.traceNew r st.rays
      ({ vars := st.vars.set i (some t.2.2), rays := t.2.1 }, .rays (t.2.1.deref t.1))
    | _ => (st, .skipped)
  | .transfer i upTo =>
    match st.vars[i]? with
    | some (some e) => (st, .matrix (e.transferMatrix upTo))
    | _ => (st, .skipped)

/-- The same step with objects. -/
def ObjState.step (fuel : Nat) (st : ObjState F) : ObjOp F → ObjState F × ObjSeen F
  | .create m => ({ st with vars := st.vars ++ [some st.store.length], store := st.store ++ [.leaf m] }, .done (.ok ()))
  | .group js label =>
    match takeAll js st.vars with
    | none => (st, .skipped)
    | some (as, vs) =>
      match st.store.newGroup fuel as label with
      | (s, .ok g) => ({ st with vars := vs ++ [some g], store := s }, .done (.ok ()))
      | (s, .error x) => ({ st with vars := vs ++ [none], store := s }, .done (.error x))
  | .append i j =>
    match takeAll [j, i] st.vars with
    | some ([a, g], vs) =>
      match st.store[g]? with
      | some (.group _ _ _) =>
        let r := st.store.append fuel g a
        ({ st with vars := vs.set i (some g), store := r.1 }, .done r.2)
      | _ => (st, .skipped)
    | _ => (st, .skipped)
  | .insert i index js =>
    match takeAll (i :: js) st.vars with
    | some (g :: new, vs) =>
      match st.store[g]? with
      | some (.group _ _ _) =>
        let r := st.store.insert fuel g index new
        ({ st with vars := vs.set i (some g), store := r.1 }, .done r.2)
      | _ => (st, .skipped)
    | _ => (st, .skipped)
  | .pop i index =>
    match st.vars[i]? with
    | some (some g) =>
      match st.store[g]? with
      | some (.group _ _ _) =>
        match st.store.pop fuel g index with
        | (s, .ok a) => ({ st with vars := st.vars ++ [some a], store := s }, .done (.ok ()))
        | (s, .error x) => ({ st with vars := st.vars ++ [none], store := s }, .done (.error x))
      | _ => (st, .skipped)
    | _ => (st, .skipped)
  | .flip i =>
    match st.vars[i]? with
    | some (some a) =>
      let r := st.store.flip fuel a
      ({ st with store := r.1 }, .done r.2)
    | _ => (st, .skipped)
  | .trace i r =>
    match st.vars[i]? with
    | some (some e) =>
      let t := st.store.trace fuel e st.rays.length (st.rays ++ [r])
      ({ st with store := t.2.2, rays := t.2.1 }, .rays (t.2.1.deref t.1))
    | _ => (st, .skipped)
  | .transfer i upTo =>
    match st.vars[i]? with
    | some (some a) => (st, .matrix (st.store.transferMatrix fuel a upTo))
    | _ => (st, .skipped)

/-- What a program sees, run with values. -/
def ValState.run (st : ValState F) : List (ObjOp F) → List (ObjSeen F)
  | [] => []
  | op :: ops => (st.step op).2 :: (st.step op).1.run ops

/-- What a program sees, run with objects. -/
def ObjState.run (fuel : Nat) (st : ObjState F) : List (ObjOp F) → List (ObjSeen F)
  | [] => []
  | op :: ops => (st.step fuel op).2 :: (st.step fuel op).1.run fuel ops

end RT
