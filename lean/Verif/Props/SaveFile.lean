import Verif.Model.SaveFile
import Mathlib.Data.List.Basic
import Mathlib.Data.List.Infix
import Mathlib.Tactic.Common

/-! # C123: what `save` leaves on the disk, and when it returns

A user saves a long list of rays or a system over an earlier file, and expects to find the old data or the new one whatever happens, and the call to return. -/

set_option linter.unusedSectionVars false

namespace RT.Saving

/-! ## The loop -/

theorem Wait.after_returned {looks : Nat → Look} {w : Wait} {i : Nat} (h : w.after looks i = .returned) : ∀ j, i ≤ j → w.after looks j = .returned := by
  intro j hj
  induction j, hj using Nat.le_induction with
  | base => exact h
  | succ j _ ih => rw [Wait.after, ih]; rfl

/-- The file was seen at turn `h`; then at turns `i` and `j` it was seen with the same size, and not seen in between. -/
def Agree (looks : Nat → Look) (h i j : Nat) : Prop :=
  h < i ∧ i < j ∧ (looks h).size ≠ none ∧ (looks i).size ≠ none ∧ (looks i).size = (looks j).size ∧ ∀ m, i < m → m < j → (looks m).size = none

/-- Where the loop is after `k` turns without Ctrl-C. -/
theorem loop_invariant {looks : Nat → Look} (hq : ∀ i, (looks i).ctrlC = false) : ∀ k,
    (Wait.after looks .exist k = .exist ∧ ∀ i < k, (looks i).size = none) ∨
    (∃ h < k, (looks h).size ≠ none ∧ Wait.after looks .exist k = .size none ∧ ∀ i, h < i → i < k → (looks i).size = none) ∨
    (∃ h i, h < i ∧ i < k ∧ (looks h).size ≠ none ∧ (looks i).size ≠ none ∧ Wait.after looks .exist k = .size (looks i).size ∧
      ∀ m, i < m → m < k → (looks m).size = none) ∨
    (Wait.after looks .exist k = .returned ∧ ∃ h i j, j < k ∧ Agree looks h i j)
  | 0 => .inl ⟨rfl, by omega⟩
  | k + 1 => by
    have hc := hq k
    rcases hl : looks k with ⟨sz, c⟩
    rw [hl] at hc
    dsimp only at hc
    subst hc
    have hz : (looks k).size = sz := by rw [hl]
    have e : Wait.after looks .exist (k + 1) = Wait.step (Wait.after looks .exist k) (looks k) := rfl
    rw [e, hl]
    have grow : ∀ {h : Nat}, (∀ i, h < i → i < k → (looks i).size = none) → sz = none → ∀ i, h < i → i < k + 1 → (looks i).size = none := by
      intro h hh hs i h1 h2
      rcases Nat.lt_succ_iff_lt_or_eq.1 h2 with h3 | rfl
      · exact hh i h1 h3
      · rw [hz, hs]
    rcases loop_invariant hq k with ⟨h1, h2⟩ | ⟨h, hk, h1, h2, h3⟩ | ⟨h, i, hi, hk, h1, h2, h3, h4⟩ | ⟨h1, h, i, j, hj, h2⟩
    · rw [h1]
      cases sz with
      | none =>
        refine .inl ⟨rfl, fun i hi => ?_⟩
        rcases Nat.lt_succ_iff_lt_or_eq.1 hi with h3 | rfl
        · exact h2 i h3
        · exact hz
      | some n => exact .inr (.inl ⟨k, by omega, by simp [hz], rfl, by omega⟩)
    · rw [h2]
      cases sz with
      | none => exact .inr (.inl ⟨h, by omega, h1, rfl, grow h3 rfl⟩)
      | some n => exact .inr (.inr (.inl ⟨h, k, hk, by omega, h1, by simp [hz], by rw [hz]; simp [Wait.step], by omega⟩))
    · rw [h3]
      cases sz with
      | none => exact .inr (.inr (.inl ⟨h, i, hi, by omega, h1, h2, rfl, grow h4 rfl⟩))
      | some n =>
        by_cases hn : some n = (looks i).size
        · refine .inr (.inr (.inr ⟨by simp [Wait.step, hn], h, i, k, by omega, hi, hk, h1, h2, ?_, h4⟩))
          rw [hz, hn]
        · refine .inr (.inr (.inl ⟨h, k, by omega, by omega, h1, by simp [hz], ?_, by omega⟩))
          rw [hz]; simp [Wait.step, hn]
    · rw [h1]
      exact .inr (.inr (.inr ⟨rfl, h, i, j, by omega, h2⟩))

/-- **C123**: whatever the other programs do to the file, `save` returns exactly when, after the file was seen once, two successive sizes that could be read are the
same. -/
theorem C123_returns_iff {looks : Nat → Look} (hq : ∀ i, (looks i).ctrlC = false) :
    (∃ k, Wait.after looks .exist k = .returned) ↔ ∃ h i j, Agree looks h i j := by
  constructor
  · rintro ⟨k, hk⟩
    rcases loop_invariant hq k with ⟨h1, -⟩ | ⟨h, -, -, h2, -⟩ | ⟨h, i, -, -, -, -, h3, -⟩ | ⟨-, h, i, j, -, h2⟩
    · rw [hk] at h1; cases h1
    · rw [hk] at h2; cases h2
    · rw [hk] at h3; cases h3
    · exact ⟨h, i, j, h2⟩
  · rintro ⟨h, i, j, hhi, hij, hh, hi, he, hn⟩
    have key : ∀ k, i < k → k ≤ j → Wait.after looks .exist k = .size (looks i).size ∨ Wait.after looks .exist k = .returned := by
      intro k hk
      induction k, hk using Nat.le_induction with
      | base =>
        intro _
        have hq' := hq i
        rcases hl : looks i with ⟨sz, c⟩
        rw [hl] at hq' hi
        dsimp only at hq' hi
        subst hq'
        obtain ⟨n, rfl⟩ := Option.ne_none_iff_exists'.1 hi
        have e : Wait.after looks .exist (i + 1) = Wait.step (Wait.after looks .exist i) (looks i) := rfl
        change Wait.after looks .exist (i + 1) = _ ∨ Wait.after looks .exist (i + 1) = _
        rw [e, hl]
        rcases loop_invariant hq i with ⟨-, h1⟩ | ⟨g, -, -, h2, -⟩ | ⟨g, g', -, -, -, -, h3, -⟩ | ⟨h1, -⟩
        · exact absurd (h1 h hhi) hh
        · rw [h2]; left; simp [Wait.step]
        · rw [h3]
          by_cases hn : some n = (looks g').size
          · right; simp [Wait.step, hn]
          · left; simp [Wait.step, hn]
        · rw [h1]; right; rfl
      | succ k hk ih =>
        intro hj
        have e : Wait.after looks .exist (k + 1) = Wait.step (Wait.after looks .exist k) (looks k) := rfl
        have hq' := hq k
        have hz := hn k (by omega) (by omega)
        rcases hl : looks k with ⟨sz, c⟩
        rw [hl] at hq' hz
        dsimp only at hq' hz
        subst hq' hz
        rw [e, hl]
        rcases ih (by omega) with h1 | h1 <;> rw [h1]
        · left; rfl
        · right; rfl
    refine ⟨j + 1, ?_⟩
    have e : Wait.after looks .exist (j + 1) = Wait.step (Wait.after looks .exist j) (looks j) := rfl
    rw [e]
    rcases key j hij le_rfl with h1 | h1 <;> rw [h1]
    · obtain ⟨n, h2⟩ := Option.ne_none_iff_exists'.1 hi
      rcases hl : looks j with ⟨sz, c⟩
      rw [hl] at he
      dsimp only at he
      rw [h2] at he ⊢
      rw [← he]
      simp [Wait.step]
    · rfl

/-- **C123** fails when a file is removed, or when another program keeps changing its size: `save` then never returns. -/
theorem C123_never_violated {looks : Nat → Look} (hq : ∀ i, (looks i).ctrlC = false)
    (hc : ∀ i j, i < j → (looks i).size ≠ none → (looks i).size ≠ (looks j).size) : ∀ k, Wait.after looks .exist k ≠ .returned := by
  intro k hk
  obtain ⟨h, i, j, -, hij, -, hi, he, -⟩ := (C123_returns_iff hq).1 ⟨k, hk⟩
  exact hc i j hij hi he

/-- a file that grows for ever -/
def growing (i : Nat) : Look := ⟨some i, false⟩

/-- a file removed after a first look -/
def removed (i : Nat) : Look := ⟨if i = 0 then some 3 else none, false⟩

/-- such histories -/
theorem C123_never_example : (∀ k, Wait.after growing .exist k ≠ .returned) ∧ ∀ k, Wait.after removed .exist k ≠ .returned := by
  constructor
  · refine C123_never_violated (fun _ => rfl) fun i j hij _ h => ?_
    simp only [growing, Option.some.injEq] at h
    omega
  · refine C123_never_violated (fun _ => rfl) fun i j hij h1 h2 => ?_
    have hj : j ≠ 0 := by omega
    simp only [removed, hj, if_false] at h1 h2
    exact h1 h2

/-- **C123**: Ctrl-C in the second that follows a look at the file is ignored, the program goes on waiting; it stops the program only when the file cannot be
read at that moment. -/
theorem C123_interrupt_violated (looks : Nat → Look) (hs : ∀ i, (looks i).size ≠ none) : ∀ k, Wait.after looks .exist k ≠ .interrupted
  | 0 => by simp [Wait.after]
  | k + 1 => by
    have ih := C123_interrupt_violated looks hs k
    have e : Wait.after looks .exist (k + 1) = Wait.step (Wait.after looks .exist k) (looks k) := rfl
    rw [e]
    obtain ⟨n, hn⟩ := Option.ne_none_iff_exists'.1 (hs k)
    rcases hl : looks k with ⟨sz, c⟩
    rw [hl] at hn
    dsimp only at hn
    subst hn
    cases hw : Wait.after looks .exist k with
    | exist => simp [Wait.step]
    | size old =>
      simp only [Wait.step]
      split
      · simp
      · split <;> simp
    | returned => simp [Wait.step]
    | interrupted => exact absurd hw ih

/-! ## The content of the file -/

/-- the bytes of a dump -/
def Dump.data (d : Dump) : Bytes := d.chunks.flatten

theorem write_all (cap : Nat) (w : Writer) (c : Bytes) : (w.write cap c).disk ++ (w.write cap c).buf = w.disk ++ w.buf ++ c := by
  unfold Writer.write
  split
  · simp
  · split <;> simp

/-- What holds at every step of a call: on the disk is a part of the data, what follows is in memory or not given yet; at the end everything is there. -/
def Right (k : Kind) (d : Dump) (old : Option Bytes) (s : State) : Prop :=
  match s.place with
  | .opening => s.disk = old ∧ s.buf = []
  | .writing todo => ∃ b, s.disk = some b ∧ b ++ s.buf ++ todo.flatten = d.data
  | .waiting w => d.fails = false ∧ w ≠ .interrupted ∧ w ≠ .returned ∧ ∃ b, s.disk = some b ∧ b ++ s.buf = d.data ∧ (k.inside = false → s.buf = [])
  | .closing e => e = d.fails ∧ ∃ b, s.disk = some b ∧ b ++ s.buf = d.data
  | .done => d.fails = false ∧ s.disk = some d.data
  | .raised => d.fails = true ∧ s.disk = some d.data

theorem step_right {k : Kind} {d : Dump} {old : Option Bytes} {s : State} (h : Right k d old s) : Right k d old (s.step k d) := by
  obtain ⟨disk, buf, place⟩ := s
  cases place with
  | opening => exact ⟨[], rfl, by simp [Dump.data, State.step]⟩
  | writing todo =>
    obtain ⟨b, hb, hd⟩ := h
    dsimp only at hb hd
    subst hb
    cases todo with
    | nil =>
      have hd' : b ++ buf = d.data := by simpa using hd
      simp only [State.step]
      split
      · next hf => exact ⟨hf.symm, b, rfl, hd'⟩
      · next hf =>
        have hf' : d.fails = false := by simpa using hf
        split
        · next hi => exact ⟨hf', by simp, by simp, b, rfl, hd', by simp [hi]⟩
        · exact ⟨hf'.symm, b, rfl, hd'⟩
    | cons c cs =>
      refine ⟨_, rfl, ?_⟩
      dsimp only [State.step]
      rw [Option.getD_some, write_all]
      simpa using hd
  | waiting w =>
    obtain ⟨hf, h1, h2, b, hb, hd, hc⟩ := h
    dsimp only at hb hd hc
    subst hb
    simp only [State.step]
    split
    · by_cases hi : k.inside
      · rw [if_pos hi]
        exact ⟨hf.symm, b, rfl, hd⟩
      · rw [if_neg hi]
        have := hc (by simpa using hi)
        subst this
        exact ⟨hf, by simpa using hd⟩
    · next w' hw' =>
      refine ⟨hf, ?_, fun h => hw' h, b, rfl, hd, hc⟩
      cases w with
      | exist => simp [Wait.step]
      | size o => simp only [Wait.step, Option.map_some]; split <;> simp
      | returned => exact absurd rfl h2
      | interrupted => exact absurd rfl h1
  | closing e =>
    obtain ⟨hf, b, hb, hd⟩ := h
    dsimp only at hb hd
    subst hb
    simp only [State.step, Writer.close, Option.getD_some]
    by_cases he : e = true
    · rw [if_pos he]
      exact ⟨by rw [← hf, he], by rw [← hd]⟩
    · have he' : e = false := by simpa using he
      rw [if_neg he]
      by_cases hi : k.inside
      · rw [if_pos hi]
        exact ⟨by rw [← hf, he'], by rw [← hd]⟩
      · rw [if_neg hi]
        exact ⟨by rw [← hf, he'], by simp, by simp, _, rfl, by simpa using hd, fun _ => rfl⟩
  | done => exact h
  | raised => exact h

theorem after_right (k : Kind) (d : Dump) (old : Option Bytes) : ∀ n, Right k d old (State.after k d old n)
  | 0 => ⟨rfl, rfl⟩
  | n + 1 => step_right (after_right k d old n)

/-- **C123**: at every moment of a call, of either kind, whatever is saved, the file holds its old content (only before it is opened) or the beginning of the
new one. -/
theorem C123_prefix (k : Kind) (d : Dump) (old : Option Bytes) (n : Nat) :
    n = 0 ∧ (State.after k d old n).disk = old ∨ ∃ b, (State.after k d old n).disk = some b ∧ b <+: d.data := by
  cases n with
  | zero => exact .inl ⟨rfl, rfl⟩
  | succ n =>
    right
    have h := after_right k d old (n + 1)
    have hno : (State.after k d old (n + 1)).place ≠ .opening := by
      have : ∀ s : State, (s.step k d).place ≠ .opening := by
        intro s
        obtain ⟨disk, buf, place⟩ := s
        cases place with
        | writing todo =>
          cases todo with
          | nil => simp only [State.step]; split <;> [simp; (split <;> simp)]
          | cons c cs => simp [State.step]
        | waiting w => simp only [State.step]; split <;> [(split <;> simp); simp]
        | closing e => simp only [State.step]; split <;> [simp; (split <;> simp)]
        | _ => simp [State.step]
      exact this _
    revert h hno
    generalize State.after k d old (n + 1) = s
    obtain ⟨disk, buf, place⟩ := s
    intro h hno
    cases place with
    | opening => exact absurd rfl hno
    | writing todo =>
      obtain ⟨b, hb, hd⟩ := h
      exact ⟨b, hb, ⟨buf ++ todo.flatten, by simpa using hd⟩⟩
    | waiting w =>
      obtain ⟨-, -, -, b, hb, hd, -⟩ := h
      exact ⟨b, hb, ⟨buf, hd⟩⟩
    | closing e =>
      obtain ⟨-, b, hb, hd⟩ := h
      exact ⟨b, hb, ⟨buf, hd⟩⟩
    | done => exact ⟨_, h.2, List.prefix_rfl⟩
    | raised => exact ⟨_, h.2, List.prefix_rfl⟩

theorem after_writing (k : Kind) (d : Dump) (old : Option Bytes) : ∀ i, i ≤ d.chunks.length →
    (State.after k d old (i + 1)).place = .writing (d.chunks.drop i)
  | 0, _ => rfl
  | i + 1, hi => by
    have ih := after_writing k d old i (by omega)
    rw [State.after, State.step, ih, List.drop_eq_getElem_cons (by omega)]

/-- the state at the end of the dump -/
theorem after_dump (k : Kind) (d : Dump) (old : Option Bytes) :
    ∃ b c, State.after k d old (d.chunks.length + 1) = ⟨some b, c, .writing []⟩ ∧ b ++ c = d.data := by
  have h1 := after_writing k d old d.chunks.length le_rfl
  have h2 := after_right k d old (d.chunks.length + 1)
  rw [List.drop_length] at h1
  revert h1 h2
  generalize State.after k d old (d.chunks.length + 1) = s
  obtain ⟨disk, buf, place⟩ := s
  rintro h1 h2
  dsimp only at h1
  subst h1
  obtain ⟨b, hb, hd⟩ := h2
  dsimp only at hb
  subst hb
  exact ⟨b, buf, rfl, by simpa using hd⟩

/-- the steps after the dump -/
theorem after_tail (k : Kind) (d : Dump) (old : Option Bytes) (hf : d.fails = false) : ∃ b c, b ++ c = d.data ∧
    State.after k d old (d.chunks.length + 1) = ⟨some b, c, .writing []⟩ ∧
    (∀ j, 1 ≤ j → j ≤ 4 → k.inside = true → (State.after k d old (d.chunks.length + 1 + j)).disk = some b ∧
      (State.after k d old (d.chunks.length + 1 + j)).place ≠ .done) ∧
    (∀ j, 2 ≤ j → j ≤ 4 → k.inside = false → (State.after k d old (d.chunks.length + 1 + j)).disk = some d.data ∧
      ∃ w, (State.after k d old (d.chunks.length + 1 + j)).place = .waiting w) ∧
    (State.after k d old (d.chunks.length + 6)).place = .done := by
  obtain ⟨b, c, h, hd⟩ := after_dump k d old
  obtain ⟨inside, cap⟩ := k
  have s1 : State.after ⟨inside, cap⟩ d old (d.chunks.length + 2) = (State.mk (some b) c (.writing [])).step ⟨inside, cap⟩ d := by
    rw [State.after, h]
  refine ⟨b, c, hd, h, ?_, ?_, ?_⟩
  · intro j h1 h2 hi
    dsimp only at hi
    subst hi
    have e1 : State.after ⟨true, cap⟩ d old (d.chunks.length + 2) = ⟨some b, c, .waiting .exist⟩ := by rw [s1]; simp [State.step, hf]
    have e2 : State.after ⟨true, cap⟩ d old (d.chunks.length + 3) = ⟨some b, c, .waiting (.size none)⟩ := by
      rw [State.after, e1]; simp [State.step, Wait.step]
    have e3 : State.after ⟨true, cap⟩ d old (d.chunks.length + 4) = ⟨some b, c, .waiting (.size (some b.length))⟩ := by
      rw [State.after, e2]; simp [State.step, Wait.step]
    have e4 : State.after ⟨true, cap⟩ d old (d.chunks.length + 5) = ⟨some b, c, .closing false⟩ := by
      rw [State.after, e3]; simp [State.step, Wait.step]
    obtain rfl | rfl | rfl | rfl : j = 1 ∨ j = 2 ∨ j = 3 ∨ j = 4 := by omega
    · rw [e1]; simp
    · rw [e2]; simp
    · rw [e3]; simp
    · rw [e4]; simp
  · intro j h1 h2 hi
    dsimp only at hi
    subst hi
    have e1 : State.after ⟨false, cap⟩ d old (d.chunks.length + 2) = ⟨some b, c, .closing false⟩ := by rw [s1]; simp [State.step, hf]
    have e2 : State.after ⟨false, cap⟩ d old (d.chunks.length + 3) = ⟨some d.data, [], .waiting .exist⟩ := by
      rw [State.after, e1]; simp [State.step, Writer.close, hd]
    have e3 : State.after ⟨false, cap⟩ d old (d.chunks.length + 4) = ⟨some d.data, [], .waiting (.size none)⟩ := by
      rw [State.after, e2]; simp [State.step, Wait.step]
    have e4 : State.after ⟨false, cap⟩ d old (d.chunks.length + 5) = ⟨some d.data, [], .waiting (.size (some d.data.length))⟩ := by
      rw [State.after, e3]; simp [State.step, Wait.step]
    obtain rfl | rfl | rfl : j = 2 ∨ j = 3 ∨ j = 4 := by omega
    · rw [e2]; simp
    · rw [e3]; simp
    · rw [e4]; simp
  · cases inside with
    | true =>
      simp only [State.after] at s1 ⊢
      rw [s1]
      simp [State.step, Wait.step, hf]
    | false =>
      simp only [State.after] at s1 ⊢
      rw [s1]
      simp [State.step, Wait.step, hf]

/-- **C123**: a call not disturbed returns after the pieces are written and the size was looked at twice, and then everything is in the file: reading it gives
what was saved. For rays and groups, any data, any size of the memory of the file object. -/
theorem C123_saved {α : Type} (k : Kind) (d : Dump) (hf : d.fails = false) (old : Option Bytes) {unpickle : Bytes → Option α} {x : α}
    (hx : unpickle d.data = some x) : ∀ n, d.chunks.length + 6 ≤ n →
    (State.after k d old n).place = .done ∧ load unpickle (State.after k d old n).disk = some x := by
  intro n hn
  have key : (State.after k d old n).place = .done := by
    induction n, hn using Nat.le_induction with
    | base => obtain ⟨b, c, -, -, -, -, h⟩ := after_tail k d old hf; exact h
    | succ n _ ih => rw [State.after, State.step, ih]; exact ih
  refine ⟨key, ?_⟩
  have h := after_right k d old n
  unfold Right at h
  rw [key] at h
  rw [h.2]
  exact hx

/-- **C123** for rays: from the moment the file is closed, a killed program leaves the complete file; the waiting is not needed. -/
theorem C123_rays_complete (cap : Nat) (d : Dump) (hf : d.fails = false) (old : Option Bytes) (n : Nat) (hn : d.chunks.length + 3 ≤ n) :
    (State.after (.rays cap) d old n).disk = some d.data := by
  obtain ⟨b, c, -, -, -, h, h'⟩ := after_tail (.rays cap) d old hf
  by_cases hj : n ≤ d.chunks.length + 5
  · obtain ⟨j, rfl⟩ : ∃ j, n = d.chunks.length + 1 + j := ⟨n - (d.chunks.length + 1), by omega⟩
    exact (h j (by omega) (by omega) rfl).1
  · have := (C123_saved (.rays cap) d hf old (unpickle := some) (x := d.data) rfl n (by omega)).2
    revert this
    cases (State.after (.rays cap) d old n).disk with
    | none => simp [load]
    | some b => simp [load]

/-- **C123** fails for groups: when the last piece written is not larger than the memory of the file object (always the case for a system of less than 8192 bytes)
the file is not complete until the very end of the call: all the waiting, at least one second, is done before the end of the file is written. The looks
at the size are about a file cut short. -/
theorem C123_group_violated (cap : Nat) {cs : List Bytes} {c : Bytes} (hc : c ≠ []) (hl : c.length ≤ cap) (old : Option Bytes) (n : Nat) (hn : 1 ≤ n)
    (hn' : n ≤ cs.length + 6) : (State.after (.group cap) ⟨cs ++ [c], false⟩ old n).disk ≠ some (Dump.mk (cs ++ [c]) false).data := by
  set d : Dump := ⟨cs ++ [c], false⟩ with hd
  have hlen : d.chunks.length = cs.length + 1 := by simp [hd]
  -- while the pieces are written
  have part : ∀ i, i ≤ cs.length → (State.after (.group cap) d old (i + 1)).disk ≠ some d.data := by
    intro i hi heq
    have h1 := after_writing (.group cap) d old i (by omega)
    have h2 := after_right (.group cap) d old (i + 1)
    unfold Right at h2
    rw [h1] at h2
    obtain ⟨b, hb, hd'⟩ := h2
    rw [heq] at hb
    have hb' : b = d.data := by simpa using hb.symm
    rw [hb'] at hd'
    have := congrArg List.length hd'
    have hm : d.chunks.drop i = cs.drop i ++ [c] := by
      change (cs ++ [c]).drop i = _
      rw [List.drop_append_of_le_length hi]
    rw [hm] at this
    have hpos : 0 < c.length := List.length_pos_iff.2 hc
    simp only [List.length_append, List.flatten_append, List.flatten_cons, List.flatten_nil, List.append_nil] at this
    omega
  -- after the last piece something is left in memory
  obtain ⟨b, c', hbc, h1, h2, -, -⟩ := after_tail (.group cap) d old rfl
  have hne : c' ≠ [] := by
    have e0 := after_writing (.group cap) d old cs.length (by omega)
    have e1 : State.after (.group cap) d old (cs.length + 1 + 1) = (State.after (.group cap) d old (cs.length + 1)).step (.group cap) d := rfl
    rw [hlen] at h1
    rw [h1] at e1
    have hm : d.chunks.drop cs.length = [c] := by change (cs ++ [c]).drop cs.length = _; simp
    rw [hm] at e0
    rw [State.step, e0] at e1
    have e2 := congrArg State.buf e1
    dsimp only at e2
    rw [e2]
    unfold Writer.write
    split
    · simp [hc]
    · rw [if_pos (by exact hl)]; exact hc
  have hb : b ≠ d.data := by
    intro h
    rw [h] at hbc
    exact hne (by simpa using hbc)
  by_cases hi : n ≤ cs.length + 1
  · obtain ⟨i, rfl⟩ : ∃ i, n = i + 1 := ⟨n - 1, by omega⟩
    exact part i (by omega)
  · by_cases hj : n = cs.length + 2
    · subst hj
      have : cs.length + 2 = d.chunks.length + 1 := by omega
      rw [this, h1]
      simpa using hb
    · obtain ⟨j, rfl⟩ : ∃ j, n = d.chunks.length + 1 + j := ⟨n - (d.chunks.length + 1), by omega⟩
      rw [(h2 j (by omega) (by omega) rfl).1]
      simpa using hb

/-- **C123** fails: so a program killed while it saves a system over an older file leaves neither the old system nor the new one, at any moment from the
opening of the file to the very end of the call. `pickle` refuses every text cut short. -/
theorem C123_killed_violated {α : Type} (cap : Nat) {cs : List Bytes} {c : Bytes} (hc : c ≠ []) (hl : c.length ≤ cap) (old : Option Bytes) {unpickle : Bytes → Option α}
    (hcut : ∀ b, b <+: (cs ++ [c]).flatten → b ≠ (cs ++ [c]).flatten → unpickle b = none) (n : Nat) (hn : 1 ≤ n) (hn' : n ≤ cs.length + 6) :
    load unpickle (State.after (.group cap) ⟨cs ++ [c], false⟩ old n).disk = none := by
  have h := C123_group_violated cap hc hl old n hn hn'
  rcases C123_prefix (.group cap) ⟨cs ++ [c], false⟩ old n with ⟨rfl, -⟩ | ⟨b, hb, hp⟩
  · omega
  · rw [hb] at h ⊢
    exact hcut b hp fun hb' => h (by rw [hb']; rfl)

/-- **C123**: the same for rays, from the opening of the file to the end of the last write. -/
theorem C123_rays_killed_violated {α : Type} (cap : Nat) {cs : List Bytes} {c : Bytes} (hc : c ≠ []) (old : Option Bytes) {unpickle : Bytes → Option α}
    (hcut : ∀ b, b <+: (cs ++ [c]).flatten → b ≠ (cs ++ [c]).flatten → unpickle b = none) (n : Nat) (hn : 1 ≤ n) (hn' : n ≤ cs.length + 1) :
    load unpickle (State.after (.rays cap) ⟨cs ++ [c], false⟩ old n).disk = none := by
  set d : Dump := ⟨cs ++ [c], false⟩ with hd
  obtain ⟨i, rfl⟩ : ∃ i, n = i + 1 := ⟨n - 1, by omega⟩
  have hlen : d.chunks.length = cs.length + 1 := by simp [hd]
  have h1 := after_writing (.rays cap) d old i (by omega)
  have h2 := after_right (.rays cap) d old (i + 1)
  unfold Right at h2
  rw [h1] at h2
  obtain ⟨b, hb, hd'⟩ := h2
  rw [hb]
  have hm : d.chunks.drop i = cs.drop i ++ [c] := by
    change (cs ++ [c]).drop i = _
    rw [List.drop_append_of_le_length (by omega)]
  refine hcut b ⟨_, by rw [List.append_assoc] at hd'; exact hd'⟩ ?_
  intro hb'
  have hb'' : b = d.data := hb'
  rw [hb'', hm] at hd'
  have := congrArg List.length hd'
  have hpos : 0 < c.length := List.length_pos_iff.2 hc
  simp only [List.length_append, List.flatten_append, List.flatten_cons, List.flatten_nil, List.append_nil] at this
  omega

/-- **C123** fails: saving something that cannot be pickled raises, and the old content is lost; only what was written before remains. -/
theorem C123_unpicklable_violated (k : Kind) (chunks : List Bytes) (old : Option Bytes) :
    ∃ n, (State.after k ⟨chunks, true⟩ old n).place = .raised ∧ (State.after k ⟨chunks, true⟩ old n).disk = some chunks.flatten := by
  obtain ⟨b, c, h, hd⟩ := after_dump k ⟨chunks, true⟩ old
  refine ⟨chunks.length + 3, ?_⟩
  have e1 : State.after k ⟨chunks, true⟩ old (chunks.length + 1) = ⟨some b, c, .writing []⟩ := h
  have e2 : State.after k ⟨chunks, true⟩ old (chunks.length + 2) = ⟨some b, c, .closing true⟩ := by
    rw [State.after, e1]; simp [State.step]
  have e3 : State.after k ⟨chunks, true⟩ old (chunks.length + 3) = ⟨some (b ++ c), [], .raised⟩ := by
    rw [State.after, e2]; simp [State.step, Writer.close]
  rw [e3]
  exact ⟨rfl, by rw [hd]; rfl⟩

/-! ## A concrete case -/

/-- a pickle of one number: the number, then STOP -/
def one : Dump := ⟨[[7], [46]], false⟩

/-- a reader that wants the STOP at the end -/
def readOne : Bytes → Option UInt8
  | [x, 46] => some x
  | _ => none

/-- The hypotheses are met: this reader refuses every text cut short; over an old file the call goes through an empty file, twice looked at, to the new content. -/
theorem C123_example : (∀ b, b <+: one.data → b ≠ one.data → readOne b = none) ∧ readOne one.data = some 7 ∧
    ((List.range 9).map fun n => load readOne (State.after .group one (some [5, 46]) n).disk) =
      [some 5, none, none, none, none, none, none, none, some 7] ∧
    ((List.range 9).map fun n => load readOne (State.after .rays one (some [5, 46]) n).disk) =
      [some 5, none, none, none, none, some 7, some 7, some 7, some 7] := by
  refine ⟨?_, by decide, by decide, by decide⟩
  intro b hb hne
  have : b ∈ one.data.inits := List.mem_inits _ _ |>.2 hb
  have hi : one.data.inits = [[], [7], [7, 46]] := by decide
  rw [hi] at this
  simp only [List.mem_cons, List.not_mem_nil, or_false] at this
  rcases this with rfl | rfl | rfl
  · rfl
  · rfl
  · exact absurd rfl hne

end RT.Saving
