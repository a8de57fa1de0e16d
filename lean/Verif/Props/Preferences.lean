import Verif.Model.Preferences

/-! # C53 preferences -/

namespace RT
namespace Prefs
variable {V : Type}

theorem insert_get (d : Dict V) (k k' : String) (v : V) :
    (d.insert k v).get? k' = if k = k' then some v else d.get? k' := by
  induction d with
  | nil => simp [Dict.insert, Dict.get?]
  | cons p d ih =>
    obtain ⟨a, b⟩ := p
    unfold Dict.insert
    by_cases h : a = k
    · subst h; simp only [if_true, Dict.get?]; by_cases h' : a = k' <;> simp [h']
    · simp only [if_neg h, Dict.get?, ih]
      by_cases h' : a = k'
      · subst h'; simp [Ne.symm h]
      · simp [h']

/-- the keys of a dictionary are different -/
def Dict.Nodup (d : Dict V) : Prop := (d.map Prod.fst).Nodup

theorem insert_keys (d : Dict V) (k : String) (v : V) : ∀ x, x ∈ (d.insert k v).map Prod.fst ↔ x = k ∨ x ∈ d.map Prod.fst := by
  intro x
  induction d with
  | nil => simp [Dict.insert]
  | cons p d ih =>
    obtain ⟨a, b⟩ := p
    unfold Dict.insert
    split_ifs with h
    · subst h; simp
    · simp only [List.map_cons, List.mem_cons, ih]; tauto

theorem insert_nodup {d : Dict V} (h : d.Nodup) (k : String) (v : V) : (d.insert k v).Nodup := by
  induction d with
  | nil => simp [Dict.insert, Dict.Nodup]
  | cons p d ih =>
    obtain ⟨a, b⟩ := p
    unfold Dict.Nodup at h ih ⊢
    simp only [List.map_cons, List.nodup_cons] at h
    unfold Dict.insert
    split_ifs with hk
    · subst hk; simpa using h
    · simp only [List.map_cons, List.nodup_cons]
      refine ⟨?_, ih h.2⟩
      rw [insert_keys]
      rintro (h' | h')
      · exact hk h'
      · exact h.1 h'

theorem insert_mem_self {d : Dict V} (hd : d.Nodup) {k : String} {v : V} (h : (k, v) ∈ d) : d.insert k v = d := by
  induction d with
  | nil => simp at h
  | cons p d ih =>
    obtain ⟨a, b⟩ := p
    unfold Dict.Nodup at hd
    simp only [List.map_cons, List.nodup_cons] at hd
    unfold Dict.insert
    rcases List.mem_cons.1 h with h | h
    · simp only [Prod.mk.injEq] at h; obtain ⟨rfl, rfl⟩ := h; simp
    · have : a ≠ k := by
        rintro rfl; exact hd.1 (List.mem_map_of_mem (f := Prod.fst) h)
      simp [this, ih hd.2 h]

variable (ok : V → Bool)

theorem insert_ok {d : Dict V} (h : d.all (fun p => ok p.2) = true) {k : String} {v : V} (hv : ok v = true) :
    (d.insert k v).all (fun p => ok p.2) = true := by
  induction d with
  | nil => simp [Dict.insert, hv]
  | cons p d ih =>
    obtain ⟨a, b⟩ := p
    simp only [List.all_cons, Bool.and_eq_true] at h
    unfold Dict.insert
    split_ifs
    · simp [hv, h.2]
    · simp [h.1, ih h.2]

theorem insert_bad (d : Dict V) (k : String) {v : V} (hv : ok v = false) :
    (d.insert k v).all (fun p => ok p.2) = false := by
  induction d with
  | nil => simp [Dict.insert, hv]
  | cons p d ih =>
    obtain ⟨a, b⟩ := p
    unfold Dict.insert
    split_ifs <;> simp [hv, ih]

/-- all the values can be written -/
def Dict.Writable (d : Dict V) : Prop := d.all (fun p => ok p.2) = true

theorem write_ok {d : Dict V} (h : d.Writable ok) : writeToDisk ok d = ⟨.ok (), d, .dict d, [.malformed, .dict d]⟩ := by
  unfold Dict.Writable at h
  simp [writeToDisk, h]

/-- a dictionary updated with another one -/
def merge (mem data : Dict V) : Dict V := data.foldl (fun m p => m.insert p.1 p.2) mem

theorem update_ok (data : Dict V) (hd : data.Writable ok) : ∀ (mem : Dict V), mem.Writable ok → ∀ disk,
    (update ok mem disk data).result = .ok () ∧ (update ok mem disk data).mem = merge mem data ∧
    (update ok mem disk data).disk = (if data = [] then disk else .dict (merge mem data)) ∧
    (∀ x ∈ (update ok mem disk data).visited, x = .malformed ∨ ∃ n, 0 < n ∧ n ≤ data.length ∧ x = .dict (merge mem (data.take n))) := by
  induction data with
  | nil => intro mem _ disk; simp [update, merge]
  | cons p data ih =>
    obtain ⟨k, v⟩ := p
    intro mem hm disk
    unfold Dict.Writable at hd
    simp only [List.all_cons, Bool.and_eq_true] at hd
    have h1 := insert_ok ok hm hd.1 (k := k)
    obtain ⟨i1, i2, i3, i4⟩ := ih hd.2 (mem.insert k v) h1 (.dict (mem.insert k v))
    simp only [update, setItem, write_ok ok h1]
    refine ⟨i1, i2, ?_, ?_⟩
    · rw [i3]
      by_cases h : data = []
      · subst h; simp [merge]
      · simp [h, merge]
    · intro x hx
      rcases List.mem_append.1 hx with h | h
      · simp only [List.mem_cons, List.not_mem_nil, or_false] at h
        rcases h with h | h
        · exact .inl h
        · exact .inr ⟨1, by simp, by simp, by simp [h, merge]⟩
      · rcases i4 x h with h | ⟨n, h2, h3, h4⟩
        · exact .inl h
        · exact .inr ⟨n + 1, by simp, by simpa using h3, by simpa [merge] using h4⟩

theorem merge_get (mem data : Dict V) (hd : data.Nodup) (k : String) :
    (merge mem data).get? k = match data.get? k with | some v => some v | none => mem.get? k := by
  induction data generalizing mem with
  | nil => simp [merge, Dict.get?]
  | cons p data ih =>
    obtain ⟨a, b⟩ := p
    unfold Dict.Nodup at hd
    simp only [List.map_cons, List.nodup_cons] at hd
    have := ih (mem.insert a b) hd.2
    simp only [merge, List.foldl_cons] at this ⊢
    rw [this, insert_get]
    have hc : Dict.get? ((a, b) :: data) k = if a = k then some b else Dict.get? data k := by rw [Dict.get?]
    rw [hc]
    by_cases h : a = k
    · subst h
      have hn : ∀ d : Dict V, a ∉ d.map Prod.fst → Dict.get? d a = none := by
        intro d
        induction d with
        | nil => intro _; rfl
        | cons q d ih => intro h; simp only [List.map_cons, List.mem_cons, not_or] at h
                         simp [Dict.get?, Ne.symm h.1, ih h.2]
      simp [hn data hd.1]
    · simp [h]

theorem merge_of_subset (data mem : Dict V) (hm : mem.Nodup) (h : ∀ p ∈ data, p ∈ mem) : merge mem data = mem := by
  induction data with
  | nil => rfl
  | cons p data ih =>
    simp only [merge, List.foldl_cons]
    rw [insert_mem_self hm (h p (by simp))]
    exact ih fun q hq => h q (by simp [hq])

theorem merge_nil {d : Dict V} (hd : d.Nodup) : merge [] d = d := by
  have key : ∀ (data pre : Dict V), (pre ++ data).Nodup → merge pre data = pre ++ data := by
    intro data
    induction data with
    | nil => intro pre _; simp [merge]
    | cons p data ih =>
      obtain ⟨k, v⟩ := p
      intro pre h
      have hins : ∀ q : Dict V, k ∉ q.map Prod.fst → q.insert k v = q ++ [(k, v)] := by
        intro q
        induction q with
        | nil => intro _; rfl
        | cons r q ih =>
          obtain ⟨a, b⟩ := r
          intro h
          simp only [List.map_cons, List.mem_cons, not_or] at h
          simp [Dict.insert, Ne.symm h.1, ih h.2]
      have hk : k ∉ pre.map Prod.fst := by
        unfold Dict.Nodup at h
        rw [List.map_append, List.nodup_append] at h
        intro hk
        exact h.2.2 k hk k (by simp) rfl
      simp only [merge, List.foldl_cons, hins pre hk]
      have := ih (pre ++ [(k, v)]) (by simpa using h)
      simpa [merge] using this
  simpa using key d [] (by simpa using hd)

/-! ## One program at a time -/

/-- What a user expects to be stored: every preference with its last value. -/
def expected (s : String → Option V) : Op V → (String → Option V)
  | .set k v => fun k' => if k = k' then some v else s k'
  | .get _ => s
  | .reset => fun _ => none
  | .restart => s

/-- What a file contains, as preferences; a file that cannot be read contains none. -/
def Disk.value : Disk V → String → Option V
  | .dict d, k => d.get? k
  | _, _ => none

/-- a possible file, if no other program than this one writes it -/
def Disk.Possible : Disk V → Prop
  | .dict d => d.Nodup ∧ d.Writable ok
  | .foreign _ => False
  | _ => True

/-- memory and file agree -/
def Agree (st : Dict V × Disk V) : Prop :=
  st.1.Nodup ∧ st.1.Writable ok ∧ (st.2 = .dict st.1 ∨ (st.1 = [] ∧ st.2 = .malformed))

theorem read_agree {st : Dict V × Disk V} (h : Agree ok st) :
    (readFromDisk ok st.1 st.2).result = .ok () ∧ (readFromDisk ok st.1 st.2).mem = st.1 ∧
    (readFromDisk ok st.1 st.2).disk = st.2 ∧
    ∀ x ∈ (readFromDisk ok st.1 st.2).visited, x = .malformed ∨ x = st.2 := by
  obtain ⟨h1, h2, h3 | ⟨h3, h4⟩⟩ := h
  · rw [h3]
    obtain ⟨i1, i2, i3, i4⟩ := update_ok ok st.1 h2 st.1 h2 (.dict st.1)
    have hm := merge_of_subset st.1 st.1 h1 fun p hp => hp
    simp only [readFromDisk]
    refine ⟨i1, i2.trans hm, ?_, ?_⟩
    · rw [i3, hm]; split_ifs <;> rfl
    · intro x hx
      rcases i4 x hx with h | ⟨n, -, -, h⟩
      · exact .inl h
      · right
        rw [h, merge_of_subset _ st.1 h1 fun p hp => List.mem_of_mem_take hp]
  · rw [h4]; simp [readFromDisk]

theorem init_agree {disk : Disk V} (h : disk.Possible ok) :
    (init ok [] disk).result = .ok () ∧ Agree ok ((init ok [] disk).mem, (init ok [] disk).disk) ∧
    ((init ok [] disk).disk = disk ∨ disk = .absent) ∧
    ∀ k, (init ok [] disk).mem.get? k = disk.value k := by
  cases disk with
  | absent =>
    have h0 : Dict.Writable ok ([] : Dict V) := rfl
    simp [init, readFromDisk, write_ok ok h0, Agree, h0, Dict.Nodup, Disk.value, Dict.get?]
  | malformed =>
    have h0 : Dict.Writable ok ([] : Dict V) := rfl
    simp [init, readFromDisk, Agree, h0, Dict.Nodup, Disk.value, Dict.get?]
  | foreign conv => exact h.elim
  | dict d =>
    obtain ⟨h1, h2⟩ := h
    have h0 : Dict.Writable ok ([] : Dict V) := rfl
    obtain ⟨i1, i2, i3, -⟩ := update_ok ok d h2 [] h0 (.dict d)
    rw [merge_nil h1] at i2 i3
    have i3' : (update ok [] (.dict d) d).disk = .dict d := by rw [i3]; split_ifs <;> rfl
    simp only [init, readFromDisk]
    refine ⟨i1, ⟨by rw [i2]; exact h1, by rw [i2]; exact h2, .inl ?_⟩, .inl i3', fun k => by rw [i2]; rfl⟩
    dsimp only
    rw [i2, i3']

theorem step_agree {st : Dict V × Disk V} (h : Agree ok st) {op : Op V} (hop : ∀ k v, op = .set k v → ok v = true) :
    Agree ok (step ok st op) ∧ ∀ k, (step ok st op).1.get? k = expected (fun k => st.1.get? k) op k := by
  have h0 : Dict.Writable ok ([] : Dict V) := rfl
  cases op with
  | set k v =>
    have hw : (st.1.insert k v).Writable ok := insert_ok ok h.2.1 (hop k v rfl)
    simp only [step, setItem, write_ok ok hw]
    exact ⟨⟨insert_nodup h.1 k v, hw, .inl rfl⟩, fun k' => insert_get _ _ _ _⟩
  | get k =>
    obtain ⟨i1, i2, i3, -⟩ := read_agree ok h
    simp only [step, getItem, i1, i2, i3]
    exact ⟨h, fun _ => rfl⟩
  | reset =>
    simp only [step, resetPreferences, write_ok ok h0]
    exact ⟨⟨by simp [Dict.Nodup], h0, .inl rfl⟩, fun _ => rfl⟩
  | restart =>
    have hp : st.2.Possible ok := by
      rcases h.2.2 with h3 | ⟨-, h3⟩ <;> rw [h3]
      · exact ⟨h.1, h.2.1⟩
      · trivial
    obtain ⟨-, i2, -, i4⟩ := init_agree ok hp
    refine ⟨i2, fun k => ?_⟩
    simp only [step, i4, expected]
    rcases h.2.2 with h3 | ⟨h3, h4⟩
    · rw [h3]; rfl
    · rw [h3, h4]; rfl

/-- **C53.** One program at a time, without crash: whatever the file was at first, after any number of programs each doing any
sequence of `prefs[k] = v`, `prefs[k]`, `resetPreferences()` with values that JSON accepts, `prefs[k]` is the last value that was
set since the last reset, else the value in the file, and raises `KeyError` when there is none. -/
theorem C53_sequential_partial {disk : Disk V} (hd : disk.Possible ok) (ops : List (Op V))
    (hops : ∀ k v, Op.set k v ∈ ops → ok v = true) (k : String) :
    let s0 := init ok [] disk
    let st := run ok (s0.mem, s0.disk) ops
    (getItem ok st.1 st.2 k).result =
      match (ops.foldl expected disk.value) k with
      | some v => .ok v
      | none => .error .keyError := by
  intro s0 st
  obtain ⟨-, h1, -, h2⟩ := init_agree ok hd
  have key : ∀ (ops : List (Op V)), (∀ k v, Op.set k v ∈ ops → ok v = true) → ∀ st0 : Dict V × Disk V, Agree ok st0 →
      Agree ok (run ok st0 ops) ∧ ∀ k, (run ok st0 ops).1.get? k = (ops.foldl expected fun k => st0.1.get? k) k := by
    intro ops
    induction ops with
    | nil => intro _ st0 h; exact ⟨h, fun _ => rfl⟩
    | cons op ops ih =>
      intro hops st0 h
      obtain ⟨i1, i2⟩ := step_agree ok h (op := op) fun k v h => hops k v (by simp [h])
      obtain ⟨i3, i4⟩ := ih (fun k v h => hops k v (by simp [h])) _ i1
      refine ⟨i3, fun k => ?_⟩
      have : (fun k => (step ok st0 op).1.get? k) = expected (fun k => st0.1.get? k) op := funext i2
      simp only [run, List.foldl_cons] at i4 ⊢
      rw [i4, this]
  obtain ⟨h3, h4⟩ := key ops hops _ h1
  obtain ⟨i1, i2, -, -⟩ := read_agree ok h3
  have h5 := h4 k
  have : (fun k => s0.mem.get? k) = disk.value := funext h2
  simp only at h5
  rw [show (fun k => (init ok [] disk).mem.get? k) = disk.value from this] at h5
  rw [← h5]
  simp only [getItem]
  change (match (readFromDisk ok st.1 st.2).result with | .error _ => _ | .ok () => _ : Step V V).result = _
  rw [show (readFromDisk ok st.1 st.2).result = .ok () from i1]
  dsimp only
  rw [show (readFromDisk ok st.1 st.2).mem = st.1 from i2]
  rfl

/-- **C53.** As long as no other program writes, `prefs[k]` leaves the file as it was (or creates it empty when there was
none). -/
theorem C53_read_preserves_partial {disk : Disk V} (hd : disk.Possible ok) (ops : List (Op V))
    (hops : ∀ k v, Op.set k v ∈ ops → ok v = true) (k : String) :
    let s0 := init ok [] disk
    let st := run ok (s0.mem, s0.disk) ops
    (getItem ok st.1 st.2 k).disk = st.2 := by
  intro s0 st
  obtain ⟨-, h1, -, -⟩ := init_agree ok hd
  have key : ∀ (ops : List (Op V)), (∀ k v, Op.set k v ∈ ops → ok v = true) → ∀ st0 : Dict V × Disk V, Agree ok st0 →
      Agree ok (run ok st0 ops) := by
    intro ops
    induction ops with
    | nil => intro _ st0 h; exact h
    | cons op ops ih =>
      intro hops st0 h
      exact ih (fun k v h => hops k v (by simp [h])) _ (step_agree ok h (op := op) fun k v h => hops k v (by simp [h])).1
  have h3 := key ops hops _ h1
  obtain ⟨i1, -, i3, -⟩ := read_agree ok h3
  simp only [getItem]
  rw [i1]
  exact i3

/-! ## Crashes -/

/-- **C53** is violated when the program is stopped while it *reads*: if any preference is stored, `prefs[k]` empties the file
before writing it again, whatever the key and whatever the program has in memory. -/
theorem C53_read_crash_violated (mem d : Dict V) (hd : d ≠ []) (k : String) :
    Disk.malformed ∈ (getItem ok mem (.dict d) k).visited := by
  obtain ⟨⟨a, b⟩, d, rfl⟩ := List.exists_cons_of_ne_nil hd
  have h1 : ∀ m : Dict V, Disk.malformed ∈ (writeToDisk ok m).visited := by
    intro m; unfold writeToDisk; split_ifs <;> simp
  have h2 : Disk.malformed ∈ (update ok mem (.dict ((a, b) :: d)) ((a, b) :: d)).visited := by
    simp only [update]
    split
    · exact h1 _
    · exact List.mem_append_left _ (h1 _)
  simp only [getItem, readFromDisk]
  split <;> exact h2

/-- **C53.** Such a program loses all the preferences: the next one finds none. -/
theorem C53_crash_loses_all (k : String) :
    (init ok [] (.malformed : Disk V)).result = .ok () ∧
    (getItem ok (init ok [] (.malformed : Disk V)).mem .malformed k).result = .error .keyError := by
  simp [init, readFromDisk, getItem, Dict.get?]

/-- **C53.** Stopped anywhere in the middle of `prefs[k] = v`, the file is either empty or complete; the empty one is possible
(`C53_set_crash_violated`). -/
theorem C53_set_crash_partial {mem : Dict V} (hm : mem.Writable ok) {k : String} {v : V} (hv : ok v = true) :
    ∀ x ∈ (setItem ok mem k v).visited, x = .malformed ∨ x = .dict (mem.insert k v) := by
  simp [setItem, write_ok ok (insert_ok ok hm hv)]

/-- **C53** is violated when the program is stopped while it writes a preference: the file is empty at that moment. -/
theorem C53_set_crash_violated (mem : Dict V) (k : String) (v : V) : Disk.malformed ∈ (setItem ok mem k v).visited := by
  simp only [setItem]; unfold writeToDisk; split_ifs <;> simp

/-! ## Several programs -/

/-- **C53** is violated by two programs: one sets a preference (it is in the file `d`), another one, that read the file before,
sets a different preference: the first is replaced by its former value, or lost. -/
theorem C53_lost_update_violated {mem : Dict V} (hm : mem.Writable ok) {k k' : String} {v : V} (hv : ok v = true) (hk : k ≠ k') :
    (setItem ok mem k v).disk.value k' = mem.get? k' := by
  simp [setItem, write_ok ok (insert_ok ok hm hv), Disk.value, insert_get, hk]

/-- **C53.** A program that reads any preference just before setting one keeps what the others have stored. -/
theorem C53_read_then_set_partial {mem d : Dict V} (hm : mem.Writable ok) (hdw : d.Writable ok) (hd : d.Nodup)
    {k k' : String} {v v' : V} (hv : ok v = true) (hk : k ≠ k') (hv' : d.get? k' = some v') (q : String) :
    (setItem ok (getItem ok mem (.dict d) q).mem k v).disk.value k' = some v' := by
  obtain ⟨i1, i2, i3, -⟩ := update_ok ok d hdw mem hm (.dict d)
  have hg : (getItem ok mem (.dict d) q).mem = merge mem d := by
    simp only [getItem, readFromDisk, i1, i2]
  have hw : (merge mem d).Writable ok := by
    clear i1 i2 i3 hg hv' hd
    induction d generalizing mem with
    | nil => exact hm
    | cons p d ih =>
      unfold Dict.Writable at hdw
      simp only [List.all_cons, Bool.and_eq_true] at hdw
      simp only [merge, List.foldl_cons]
      exact ih (insert_ok ok hm hdw.1) hdw.2
  rw [hg, C53_lost_update_violated ok hw hv hk, merge_get _ _ hd, hv']

/-- **C53.** Reading takes over what the other programs have stored: the value in the file wins. -/
theorem C53_read_other {mem d : Dict V} (hm : mem.Writable ok) (hdw : d.Writable ok) (hd : d.Nodup) {k : String} {v : V}
    (h : d.get? k = some v) : (getItem ok mem (.dict d) k).result = .ok v := by
  obtain ⟨i1, i2, -, -⟩ := update_ok ok d hdw mem hm (.dict d)
  simp only [getItem, readFromDisk, i1, i2, merge_get _ _ hd, h]

/-- **C53** is violated by a reset in another program: a preference that was reset is still read with its old value by a program
that had it, and reading any other one stores it again. -/
theorem C53_reset_violated {mem d : Dict V} (hm : mem.Writable ok) (hdw : d.Writable ok) (hd : d.Nodup) {k : String} {v : V}
    (hk : d.get? k = none) (h : mem.get? k = some v) :
    (getItem ok mem (.dict d) k).result = .ok v ∧ (d ≠ [] → (getItem ok mem (.dict d) k).disk.value k = some v) := by
  obtain ⟨i1, i2, i3, -⟩ := update_ok ok d hdw mem hm (.dict d)
  have := merge_get mem d hd k
  rw [hk] at this
  refine ⟨?_, fun hne => ?_⟩
  · simp only [getItem, readFromDisk, i1, i2, this, h]
  · simp only [getItem, readFromDisk, i1, i3, hne, if_false, Disk.value, this, h]

/-- **C53** is violated when reading a file written by another program is interrupted between two keys: the file contains a
mixture of the values of the two programs, the second value being the old one. -/
theorem C53_mixture_violated {k1 k2 : String} {a1 a2 b1 b2 : V} (ha2 : ok a2 = true)
    (hb1 : ok b1 = true) (q : String) :
    Disk.dict [(k1, b1), (k2, a2)] ∈ (getItem ok [(k1, a1), (k2, a2)] (.dict [(k1, b1), (k2, b2)]) q).visited := by
  have h1 : (update ok [(k1, a1), (k2, a2)] (.dict [(k1, b1), (k2, b2)]) [(k1, b1), (k2, b2)]).visited =
      [.malformed, .dict [(k1, b1), (k2, a2)]] ++
        (update ok [(k1, b1), (k2, a2)] (.dict [(k1, b1), (k2, a2)]) [(k2, b2)]).visited := by
    rw [update]
    simp [setItem, Dict.insert, writeToDisk, ha2, hb1]
  simp only [getItem, readFromDisk]
  split <;> · dsimp only; rw [h1]; simp

/-! ## Other violations -/

/-- **C53** is violated by a value that JSON refuses: setting it raises `TypeError`, and all the preferences stored are lost. -/
theorem C53_unserializable_violated (mem : Dict V) (k : String) {v : V} (hv : ok v = false) :
    (setItem ok mem k v).result = .error .typeError ∧ (setItem ok mem k v).disk = .malformed := by
  simp [setItem, writeToDisk, insert_bad ok mem k hv]

/-- **C53** is violated by `Preferences({...})` and `Preferences(key=value)`: they always raise `AttributeError`. -/
theorem C53_init_violated {args : Dict V} (h : args ≠ []) (disk : Disk V) :
    (init ok args disk).result = .error .attributeError ∧ (init ok args disk).disk = disk := by
  cases args with
  | nil => exact absurd rfl h
  | cons p args => exact ⟨rfl, rfl⟩

/-- **C53** is violated by a file that contains a JSON text which is not a dictionary, nor a list of pairs (`null`, a number, a string): unlike a text that is
not JSON, which is taken for no preferences, it makes `Preferences()` raise, in every program from then on; the file stays as it is. A program that has its
preferences cannot read any, and changes the file only when it sets one or resets them. -/
theorem C53_foreign_violated (x : PyErr) (mem : Dict V) (k : String) :
    (init ok [] (.foreign (.error x))).result = .error x ∧ (init ok [] (.foreign (.error x))).disk = .foreign (.error x) ∧
    (getItem ok mem (.foreign (.error x)) k).result = .error x ∧ (getItem ok mem (.foreign (.error x)) k).disk = .foreign (.error x) ∧
    (getItem ok mem (.foreign (.error x)) k).mem = mem ∧ (resetPreferences ok (.foreign (.error x) : Disk V)).disk = .dict [] :=
  ⟨rfl, rfl, rfl, rfl, rfl, rfl⟩

/-- **C53.** A list of pairs in the file is read as a dictionary, and replaced by it (if it is not empty). -/
theorem C53_pairs {mem d : Dict V} (hm : mem.Writable ok) (hdw : d.Writable ok) (hd : d.Nodup) (hne : d ≠ []) (k : String) :
    (getItem ok mem (.foreign (.ok d)) k).result = (getItem ok mem (.dict d) k).result ∧
    (getItem ok mem (.foreign (.ok d)) k).disk = (getItem ok mem (.dict d) k).disk ∧
    (getItem ok mem (.foreign (.ok d)) k).mem = (getItem ok mem (.dict d) k).mem := by
  obtain ⟨i1, i2, i3, -⟩ := update_ok ok d hdw mem hm (.dict d)
  obtain ⟨j1, j2, j3, -⟩ := update_ok ok d hdw mem hm (.foreign (.ok d))
  simp only [getItem, readFromDisk, i1, i2, i3, j1, j2, j3, hne, if_false, and_self]

/-- **C53** is violated by `del prefs[k]`: the preference comes back when it is read. -/
theorem C53_del_violated {mem : Dict V} (hm : mem.Writable ok) (hn : mem.Nodup) {k : String} {v : V} (h : mem.get? k = some v) :
    let s := delItem mem (.dict mem) k
    s.result = .ok () ∧ s.mem.get? k = none ∧ (getItem ok s.mem s.disk k).result = .ok v := by
  have h1 : (delItem mem (.dict mem) k) = ⟨.ok (), mem.filter (fun p => p.1 ≠ k), .dict mem, []⟩ := by
    simp [delItem, h]
  intro s
  have hs : s = ⟨.ok (), mem.filter (fun p => p.1 ≠ k), .dict mem, []⟩ := h1
  rw [hs]
  refine ⟨rfl, ?_, ?_⟩
  · dsimp only
    clear h1 hs s h hn hm
    induction mem with
    | nil => rfl
    | cons p mem ih =>
      by_cases hp : p.1 = k
      · simp [hp]; simpa using ih
      · simp [hp, Dict.get?]; simpa using ih
  · refine C53_read_other ok ?_ hm hn h
    unfold Dict.Writable at hm ⊢
    rw [List.all_eq_true] at hm ⊢
    intro p hp
    exact hm p (List.mem_filter.1 hp).1

/-- The theorems are about sessions such as this one: a first program sets two preferences, a second one changes one of them. -/
example : let ok : String → Bool := fun _ => true
    let s0 := init ok [] .absent
    let st := run ok (s0.mem, s0.disk) [.set "mode" "expert", .set "last" "1", .restart, .set "mode" "silent"]
    ((getItem ok st.1 st.2 "mode").result.toOption, (getItem ok st.1 st.2 "last").result.toOption) =
      (some "silent", some "1") := by decide +kernel

end Prefs
end RT
