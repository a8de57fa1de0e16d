import Verif.Props.Modes
import Verif.Props.Preferences

/-! # C87: importing the module, with the file of the preferences -/

set_option linter.unusedSectionVars false

namespace RT
open Prefs (Dict)

/-- memory and file agree (all the values are accepted by JSON) -/
abbrev PrefState.Agrees (st : PrefState) : Prop := Prefs.Agree (fun _ => true) st

theorem read_agrees {st : PrefState} (h : st.Agrees) (k : String) :
    st.read k = (match st.1.get? k with | some v => .ok v | none => .error .keyError, st) := by
  obtain ⟨i1, i2, i3, -⟩ := Prefs.read_agree _ h
  unfold PrefState.read Prefs.getItem
  simp only [i1, i2, i3]
  cases st.1.get? k <;> rfl

theorem write_agrees {st : PrefState} (h : st.Agrees) (k : String) (v : PrefValue) :
    st.write k v = (st.1.insert k v, .dict (st.1.insert k v)) ∧ (st.write k v).Agrees := by
  have hw : (st.1.insert k v).Writable (fun _ => true) := Prefs.insert_ok (fun _ => true) h.2.1 rfl
  have e : st.write k v = (st.1.insert k v, .dict (st.1.insert k v)) := by
    unfold PrefState.write Prefs.setItem
    rw [Prefs.write_ok _ hw]
  refine ⟨e, ?_⟩
  rw [e]
  exact ⟨Prefs.insert_nodup h.1 k v, hw, .inl rfl⟩

theorem make_agrees {st : PrefState} (h : st.Agrees) : PrefState.make st.2 = (.ok (), st) := by
  have h0 : Dict.Writable (fun _ : PrefValue => true) ([] : Dict PrefValue) := rfl
  obtain ⟨mem, disk⟩ := st
  rcases h.2.2 with h3 | ⟨h3, h4⟩
  · dsimp only at h3
    subst h3
    obtain ⟨i1, i2, i3, -⟩ := Prefs.update_ok (fun _ => true) mem h.2.1 [] h0 (.dict mem)
    rw [Prefs.merge_nil h.1] at i2 i3
    unfold PrefState.make Prefs.init Prefs.readFromDisk
    simp only [i1, i2, i3]
    split_ifs <;> rfl
  · dsimp only at h3 h4
    subst h3 h4
    rfl

theorem value_agrees {st : PrefState} (h : st.Agrees) (k : String) : st.2.value k = st.1.get? k := by
  rcases h.2.2 with h3 | ⟨h3, h4⟩
  · rw [h3]; rfl
  · rw [h3, h4]; rfl

theorem lastCheck_agrees {st : PrefState} (h : st.Agrees) (now : Nat) : st.lastCheck now = (lastCheckMoreThanADay st.1 now, st) := by
  unfold PrefState.lastCheck lastCheckMoreThanADay
  cases hk : st.1.get? "lastVersionCheck" with
  | none => rfl
  | some v =>
    simp only [read_agrees h, hk]
    cases strptime v <;> rfl

theorem readMode_agrees {st : PrefState} (h : st.Agrees) : st.readMode = (.ok ((st.1.get? "mode").map modeNamed), st) := by
  unfold PrefState.readMode
  cases hk : st.1.get? "mode" with
  | none => rfl
  | some v =>
    simp only [read_agrees h, hk]
    unfold modeNamed
    split_ifs with h1 h2
    · subst h1; rfl
    · subst h2; rfl
    · simp only [Option.map_some]

/-- **C87**, with the file: when nothing else has written the file (it is missing, cut, or holds preferences), importing the module does what `start` says
with the preferences of the file, and stores the new ones in it. -/
theorem C87_import {disk : Prefs.Disk PrefValue} (h : disk.Possible (fun _ => true)) (env : Bool) (now : Nat) :
    ∃ prefs : Dict PrefValue, (∀ k, prefs.get? k = disk.value k) ∧ (importModule env now disk).1 = (start env now prefs).1 ∧
      ∀ k, (importModule env now disk).2.value k = (start env now prefs).2.get? k := by
  obtain ⟨i1, i2, -, i4⟩ := Prefs.init_agree (fun _ => true) h
  set st : PrefState := ((Prefs.init (fun _ => true) [] disk).mem, (Prefs.init (fun _ => true) [] disk).disk) with hst
  have hs : st.Agrees := i2
  have hm : PrefState.make disk = (.ok (), st) := by unfold PrefState.make; dsimp only; rw [i1]
  refine ⟨st.1, i4, ?_⟩
  unfold importModule start
  rw [hm]
  simp only [lastCheck_agrees hs]
  cases lastCheckMoreThanADay st.1 now with
  | error x => exact ⟨rfl, value_agrees hs⟩
  | ok check =>
    dsimp only
    obtain ⟨st1, e1, a1, b1⟩ : ∃ st1 : PrefState, (if check = true then st.write "lastVersionCheck" (isoformat now) else st) = st1 ∧ st1.Agrees ∧
        st1.1 = (if check = true then st.1.insert "lastVersionCheck" (isoformat now) else st.1) := by
      cases check
      · exact ⟨st, rfl, hs, rfl⟩
      · obtain ⟨w1, w2⟩ := write_agrees hs "lastVersionCheck" (isoformat now)
        exact ⟨_, rfl, w2, by rw [w1]; rfl⟩
    rw [e1, ← b1]
    obtain ⟨st2, e2, a2, b2⟩ : ∃ st2 : PrefState, (if env = true then st1.write "mode" (.text "expert") else st1) = st2 ∧ st2.Agrees ∧
        st2.1 = (if env = true then st1.1.insert "mode" (.text "expert") else st1.1) := by
      cases env
      · exact ⟨st1, rfl, a1, rfl⟩
      · obtain ⟨w1, w2⟩ := write_agrees a1 "mode" (.text "expert")
        exact ⟨_, rfl, w2, by rw [w1]; rfl⟩
    rw [e2, ← b2, readMode_agrees a2]
    cases hk : st2.1.get? "mode" with
    | some v => exact ⟨rfl, value_agrees a2⟩
    | none =>
      obtain ⟨w1, w2⟩ := write_agrees a2 "mode" (.text "beginner")
      have hb : st2.saveBeginner = (.ok (), .dict (st2.1.insert "mode" (.text "beginner"))) := by
        unfold PrefState.saveBeginner
        rw [make_agrees a2]
        simp only [w1]
      simp only [Option.map_none, hb]
      exact ⟨trivial, fun k => rfl⟩

/-- any number of imports, with the file -/
def imports : List (Bool × Nat) → Prefs.Disk PrefValue → List (Except PyErr Started) × Prefs.Disk PrefValue
  | [], disk => ([], disk)
  | (env, now) :: es, disk =>
    let (r, disk) := importModule env now disk
    let (rs, disk) := imports es disk
    (r :: rs, disk)

/-- **C87** is violated when the file of the preferences contains JSON that is not a dictionary (for instance `null`, or a number): every import of the module
raises `TypeError` from then on, and the file stays as it is. A file that is not JSON at all does no harm. -/
theorem C87_violated_foreign (es : List (Bool × Nat)) :
    (∀ r ∈ (imports es (.foreign (.error .typeError))).1, r = .error .typeError) ∧
    (imports es (.foreign (.error .typeError))).2 = .foreign (.error .typeError) ∧
    ∀ env now, ∃ st, (importModule env now .malformed).1 = .ok st := by
  refine ⟨?_, ?_, ?_⟩
  · induction es with
    | nil => simp [imports]
    | cons e es ih =>
      obtain ⟨env, now⟩ := e
      intro r hr
      rcases List.mem_cons.1 hr with h | h
      · rw [h]
      · exact ih r h
  · induction es with
    | nil => rfl
    | cons e es ih => exact ih
  · intro env now
    obtain ⟨prefs, h1, h2, -⟩ := C87_import (disk := .malformed) trivial env now
    rw [h2]
    have h3 : prefs.get? "lastVersionCheck" = none := h1 _
    unfold start lastCheckMoreThanADay
    rw [h3]
    dsimp only
    split
    · exact ⟨_, rfl⟩
    · exact ⟨_, rfl⟩

/-- The hypotheses of `C87_import` are met: a file in silent mode. -/
example : (Prefs.Disk.dict [("mode", PrefValue.text "silent")]).Possible (fun _ => true) ∧
    (importModule false 5 (.dict [("mode", .text "silent")])).1 = .ok ⟨true, .silent⟩ := by
  refine ⟨⟨?_, rfl⟩, ?_⟩
  · simp [Dict.Nodup]
  · decide +kernel

end RT
