import Verif.Model.Modes
import Verif.Props.Preferences
import Mathlib.Tactic.Linarith
import Mathlib.Tactic.Ring

/-! # C86: modes and warnings; C87: the start of the module; C88: the list of the subclasses -/

set_option linter.unusedSectionVars false

namespace RT
open Prefs

/-! ## C86 -/

/-- The warnings of the module: its own categories, those of users and deprecations. -/
def Category.Ours (c : Category) : Prop := c = .beginnerHint ∨ c = .expertNote ∨ c = .deprecation ∨ c = .user

/-- A state of Python's warnings that a program can reach: no registry was made for later filters. -/
def Warnings.Reachable (s : Warnings) : Prop := ∀ m, (s.registry m).1 ≤ s.version

/-- **C86**: whatever the filters were, and whatever the modes before, the last mode alone decides what is done with the warnings of the module: they
are ignored in silent mode, printed once per text in expert mode, and once per place in beginner mode. -/
theorem C86_last (s : Warnings) {c : Category} (hc : c.Ours) (module : String) :
    (s.setMode .silent).action c module = .ignore ∧ (s.setMode .expert).action c module = .once ∧
    (s.setMode .beginner).action c module = .default := by
  rcases hc with rfl | rfl | rfl | rfl <;>
    simp [Warnings.setMode, Warnings.filterwarnings, Warnings.action, WarnFilter.applies, Category.isSub, List.find?]

/-- **C86.** The modes change nothing for the warnings of other categories, and a filter for all warnings (`Warning`) that the user installs after a mode
decides for every category. -/
theorem C86_user_filter (s : Warnings) (m : Mode) (a : Action) (c : Category) (module : String) :
    ((s.setMode m).filterwarnings a .warning).action c module = a ∧
    (∀ name, (s.setMode m).action (.other name) module = s.action (.other name) module) := by
  refine ⟨by simp [Warnings.filterwarnings, Warnings.action, WarnFilter.applies, Category.isSub, List.find?], fun name => ?_⟩
  have key : ∀ (s : Warnings) (a : Action) (c : Category), (Category.other name).isSub c = false →
      (s.filterwarnings a c).action (.other name) module = s.action (.other name) module := by
    intro s a c hc
    have hn : ∀ a, (⟨a, c, none⟩ : WarnFilter).applies (.other name) module = false := by intro a; simp [WarnFilter.applies, hc]
    have herase : ∀ fs : List WarnFilter, (fs.erase ⟨a, c, none⟩).find? (fun f => f.applies (.other name) module) =
        fs.find? fun f => f.applies (.other name) module := by
      intro fs
      induction fs with
      | nil => rfl
      | cons f fs ih =>
        rw [List.erase_cons]
        split_ifs with h
        · have : f = ⟨a, c, none⟩ := by simpa using h
          rw [List.find?_cons, this, hn]
        · rw [List.find?_cons, List.find?_cons, ih]
    unfold Warnings.action Warnings.filterwarnings
    simp only [List.find?_cons, hn, herase]
  cases m <;> simp only [Warnings.setMode] <;>
    rw [key _ _ _ (by simp [Category.isSub]), key _ _ _ (by simp [Category.isSub]), key _ _ _ (by simp [Category.isSub]), key _ _ _ (by simp [Category.isSub])]

/-- **C86.** A filter for one module decides for the warnings of this module, and for no other; without any filter, a warning is printed
once per place (Python's default). -/
theorem C86_module (s : Warnings) (a : Action) {c d : Category} (hc : c.isSub d = true) (m m' : String) (hm : m' ≠ m) :
    ({ s with filters := ⟨a, d, some m⟩ :: s.filters } : Warnings).action c m = a ∧
    ({ s with filters := ⟨a, d, some m⟩ :: s.filters } : Warnings).action c m' = s.action c m' ∧
    ({ s with filters := [] } : Warnings).action c m = .default := by
  refine ⟨?_, ?_, rfl⟩
  · simp [Warnings.action, WarnFilter.applies, hc]
  · have : (some m == some m') = false := by simpa using Ne.symm hm
    simp [Warnings.action, WarnFilter.applies, Ne.symm hm]

/-- **C86** (intent). Without the filter for all `UserWarning`s, set last, the modes would do what they announce: beginner mode always prints
hints and prints notes once per place, expert mode ignores hints and prints notes once, silent mode ignores both. -/
theorem C86_intent (s : Warnings) (module : String) :
    (let f (m : Mode) : Warnings := { (s.setMode m) with filters := (s.setMode m).filters.tail }
     (f .beginner).action .beginnerHint module = .always ∧ (f .beginner).action .expertNote module = .default ∧
     (f .expert).action .beginnerHint module = .ignore ∧ (f .expert).action .expertNote module = .once ∧
     (f .silent).action .beginnerHint module = .ignore ∧ (f .silent).action .expertNote module = .ignore) := by
  have e1 : (Category.beginnerHint == Category.expertNote) = false := by decide
  have e2 : (Category.expertNote == Category.warning) = false := by decide
  have e3 : (Category.expertNote == Category.user) = false := by decide
  simp [Warnings.setMode, Warnings.filterwarnings, Warnings.action, WarnFilter.applies, Category.isSub, List.find?, e1, e2, e3]

theorem fresh_record (s : Warnings) (m m' : String) (k : List (String × Category × Nat)) :
    (s.record m k).fresh m' = if m' = m then k else s.fresh m' := by
  unfold Warnings.fresh Warnings.record
  by_cases h : m' = m <;> simp [h]

theorem setMode_version (s : Warnings) (m : Mode) : (s.setMode m).version = s.version + 4 := by
  cases m <;> rfl

theorem setMode_once (s : Warnings) (m : Mode) : (s.setMode m).once = s.once := by cases m <;> rfl

theorem setMode_registry (s : Warnings) (m : Mode) : (s.setMode m).registry = s.registry := by cases m <;> rfl

/-- a new mode empties the registries -/
theorem setMode_fresh {s : Warnings} (h : s.Reachable) (m : Mode) (module : String) : (s.setMode m).fresh module = [] := by
  unfold Warnings.fresh
  rw [setMode_version, setMode_registry, if_neg]
  have := h module
  omega

/-- Setting a mode, or a warning, leaves a state that a program can reach. -/
theorem reachable_setMode {s : Warnings} (h : s.Reachable) (m : Mode) : (s.setMode m).Reachable := by
  intro x
  rw [setMode_version, setMode_registry]
  have := h x
  omega

theorem reachable_record {s : Warnings} (h : s.Reachable) (m : String) (k : List (String × Category × Nat)) : (s.record m k).Reachable := by
  intro x
  unfold Warnings.record
  by_cases hx : x = m
  · simp [hx]
  · simp only [hx, if_false]; exact h x

theorem reachable_warn {s : Warnings} (h : s.Reachable) (w : Warn) : (s.warn w).2.Reachable := by
  have h1 := reachable_record h w.module (s.fresh w.module)
  have h2 := reachable_record h1 w.module ((w.text, w.cat, w.line) :: s.fresh w.module)
  unfold Warnings.warn
  dsimp only
  by_cases h3 : (w.text, w.cat, w.line) ∈ s.fresh w.module
  · rw [if_pos h3]; exact h1
  · rw [if_neg h3]
    cases (s.record w.module (s.fresh w.module)).action w.cat w.module with
    | ignore => exact h1
    | error => exact h1
    | always => exact h1
    | default => exact h2
    | once =>
      dsimp only
      split_ifs
      · exact h2
      · exact h2

/-- the filters are those of the state -/
theorem record_action (s : Warnings) (m : String) (k : List (String × Category × Nat)) (c : Category) (x : String) :
    (s.record m k).action c x = s.action c x := rfl

theorem warn_ignore {s : Warnings} {w : Warn} (h : s.action w.cat w.module = .ignore) :
    (s.warn w).1 = .hidden ∧ (s.warn w).2.filters = s.filters := by
  unfold Warnings.warn
  simp only [record_action, h]
  split_ifs <;> exact ⟨rfl, rfl⟩

/-- **C86** (silent mode): after `silentMode()`, from any state, no warning of the module is ever printed. -/
theorem C86_silent (s : Warnings) {ws : List Warn} (hc : ∀ w ∈ ws, w.cat.Ours) :
    ∀ o ∈ ((s.setMode .silent).warnAll ws).1, o = .hidden := by
  obtain ⟨s', hs'⟩ : ∃ s', s' = s.setMode .silent := ⟨_, rfl⟩
  have ha : ∀ c : Category, c.Ours → ∀ m, s'.action c m = .ignore := by
    intro c hc m; rw [hs']; exact (C86_last s hc m).1
  rw [← hs']
  clear hs'
  induction ws generalizing s' with
  | nil => simp [Warnings.warnAll]
  | cons w ws ih =>
    obtain ⟨h1, h2⟩ := warn_ignore (ha _ (hc w (by simp)) w.module)
    intro o ho
    simp only [Warnings.warnAll, List.mem_cons] at ho
    rcases ho with rfl | ho
    · exact h1
    · refine ih (fun w hw => hc w (by simp [hw])) _ ?_ o ho
      intro c hc m
      have := ha c hc m
      unfold Warnings.action at this ⊢
      rwa [h2]

/-- In expert mode, what is in the registries was shown once. -/
def OnceInv (s : Warnings) : Prop :=
  (∀ c : Category, c.Ours → ∀ m, s.action c m = .once) ∧ ∀ m, ∀ k ∈ s.fresh m, (k.1, k.2.1) ∈ s.once

theorem warn_once {s : Warnings} (h : OnceInv s) {w : Warn} (hc : w.cat.Ours) :
    OnceInv (s.warn w).2 ∧ ((s.warn w).1 = .shown ↔ (w.text, w.cat) ∉ s.once) ∧
    ∀ k, k ∈ (s.warn w).2.once ↔ k = (w.text, w.cat) ∨ k ∈ s.once := by
  obtain ⟨h1, h2⟩ := h
  have hk : ∀ (m : String) (ks : List (String × Category × Nat)) (s : Warnings) (m' : String), (s.record m ks).once = s.once := fun _ _ _ _ => rfl
  by_cases hin : (w.text, w.cat, w.line) ∈ s.fresh w.module
  · have ho := h2 _ _ hin
    have e : s.warn w = (.hidden, s.record w.module (s.fresh w.module)) := by
      unfold Warnings.warn; simp only [hin, if_true]
    rw [e]
    refine ⟨⟨fun c hc m => h1 c hc m, fun m k hkm => ?_⟩, by simpa using ho, fun k => ?_⟩
    · rw [fresh_record] at hkm
      by_cases hm : m = w.module
      · rw [if_pos hm] at hkm; exact h2 _ _ hkm
      · rw [if_neg hm] at hkm; exact h2 _ _ hkm
    · show k ∈ s.once ↔ _
      constructor
      · exact .inr
      · rintro (rfl | h)
        · exact ho
        · exact h
  · have ha : (s.record w.module (s.fresh w.module)).action w.cat w.module = .once := h1 _ hc _
    by_cases ho : (w.text, w.cat) ∈ s.once
    · have e : s.warn w = (.hidden, (s.record w.module (s.fresh w.module)).record w.module ((w.text, w.cat, w.line) :: s.fresh w.module)) := by
        unfold Warnings.warn
        simp only [hin, if_false, ha]
        rw [if_pos]
        exact ho
      rw [e]
      refine ⟨⟨fun c hc m => h1 c hc m, fun m k hkm => ?_⟩, by simpa using ho, fun k => ?_⟩
      · rw [fresh_record, fresh_record] at hkm
        show _ ∈ s.once
        by_cases hm : m = w.module
        · rw [if_pos hm, List.mem_cons] at hkm
          rcases hkm with rfl | hkm
          · exact ho
          · exact h2 _ _ hkm
        · rw [if_neg hm, if_neg hm] at hkm; exact h2 _ _ hkm
      · show k ∈ s.once ↔ _
        constructor
        · exact .inr
        · rintro (rfl | h)
          · exact ho
          · exact h
    · have e : s.warn w = (.shown, { (s.record w.module (s.fresh w.module)).record w.module ((w.text, w.cat, w.line) :: s.fresh w.module) with
          once := (w.text, w.cat) :: s.once }) := by
        unfold Warnings.warn
        simp only [hin, if_false, ha]
        rw [if_neg]
        · rfl
        · exact ho
      rw [e]
      refine ⟨⟨fun c hc m => h1 c hc m, fun m k hkm => ?_⟩, by simpa using ho, fun k => by simp⟩
      have hkm' : k ∈ ((s.record w.module (s.fresh w.module)).record w.module ((w.text, w.cat, w.line) :: s.fresh w.module)).fresh m := hkm
      rw [fresh_record, fresh_record] at hkm'
      show _ ∈ (w.text, w.cat) :: s.once
      by_cases hm : m = w.module
      · rw [if_pos hm, List.mem_cons] at hkm'
        rcases hkm' with rfl | hkm'
        · simp
        · exact List.mem_cons_of_mem _ (h2 _ _ hkm')
      · rw [if_neg hm, if_neg hm] at hkm'; exact List.mem_cons_of_mem _ (h2 _ _ hkm')

/-- **C86** (expert mode): after `expertMode()`, among any warnings of the module, those printed are exactly the first ones with their text and category
that were not printed "once" before: each at most once. -/
theorem C86_expert {s : Warnings} (hs : s.Reachable) {ws : List Warn} (hc : ∀ w ∈ ws, w.cat.Ours) (i : Nat) (w : Warn) (hi : ws[i]? = some w) :
    ((s.setMode .expert).warnAll ws).1[i]? = some .shown ↔
      (w.text, w.cat) ∉ s.once ∧ ∀ j < i, ∀ w', ws[j]? = some w' → (w'.text, w'.cat) ≠ (w.text, w.cat) := by
  have hinv : OnceInv (s.setMode .expert) := by
    refine ⟨fun c hc m => (C86_last s hc m).2.1, fun m k hk => ?_⟩
    rw [setMode_fresh hs] at hk
    simp at hk
  rw [← setMode_once s .expert]
  obtain ⟨s', hs'⟩ : ∃ s', s' = s.setMode .expert := ⟨_, rfl⟩
  rw [← hs'] at hinv ⊢
  clear hs'
  induction ws generalizing s' i with
  | nil => simp at hi
  | cons x ws ih =>
    obtain ⟨h1, h2, h3⟩ := warn_once hinv (hc x (by simp))
    cases i with
    | zero =>
      simp only [List.getElem?_cons_zero, Option.some.injEq] at hi
      subst hi
      simp [Warnings.warnAll, h2]
    | succ i =>
      rw [List.getElem?_cons_succ] at hi
      simp only [Warnings.warnAll, List.getElem?_cons_succ]
      have hc' : ∀ w ∈ ws, w.cat.Ours := fun w hw => hc w (by simp [hw])
      refine (ih hc' i hi _ h1).trans ?_
      rw [h3]
      push Not
      constructor
      · rintro ⟨⟨a, b⟩, c⟩
        refine ⟨b, fun j hj w' hw' => ?_⟩
        cases j with
        | zero =>
          simp only [List.getElem?_cons_zero, Option.some.injEq] at hw'
          subst hw'
          exact fun h => a h.symm
        | succ j =>
          rw [List.getElem?_cons_succ] at hw'
          exact c j (by omega) w' hw'
      · rintro ⟨b, c⟩
        refine ⟨⟨fun h => c 0 (by omega) x (by simp) h.symm, b⟩, fun j hj w' hw' => c (j + 1) (by omega) w' (by simpa using hw')⟩

theorem warn_default {s : Warnings} {w : Warn} (ha : s.action w.cat w.module = .default) :
    ((s.warn w).1 = if (w.text, w.cat, w.line) ∈ s.fresh w.module then .hidden else .shown) ∧ (s.warn w).2.filters = s.filters ∧
    ∀ m k, k ∈ (s.warn w).2.fresh m ↔ (m = w.module ∧ k = (w.text, w.cat, w.line)) ∨ k ∈ s.fresh m := by
  by_cases hin : (w.text, w.cat, w.line) ∈ s.fresh w.module
  · have e : s.warn w = (.hidden, s.record w.module (s.fresh w.module)) := by
      unfold Warnings.warn; simp only [hin, if_true]
    rw [e]
    refine ⟨by simp [hin], rfl, fun m k => ?_⟩
    rw [fresh_record]
    by_cases hm : m = w.module
    · subst hm
      simp only [if_true, true_and]
      constructor
      · exact .inr
      · rintro (rfl | h)
        · exact hin
        · exact h
    · simp [hm]
  · have e : s.warn w = (.shown, (s.record w.module (s.fresh w.module)).record w.module ((w.text, w.cat, w.line) :: s.fresh w.module)) := by
      unfold Warnings.warn
      simp only [hin, if_false, record_action, ha]
    rw [e]
    refine ⟨by simp [hin], rfl, fun m k => ?_⟩
    rw [fresh_record, fresh_record]
    by_cases hm : m = w.module
    · subst hm; simp
    · simp [hm]

/-- **C86** (beginner mode): after `beginnerMode()`, among any warnings of the module, those printed are exactly the first ones with their text and category
at each place (module and line). -/
theorem C86_beginner {s : Warnings} (hs : s.Reachable) {ws : List Warn} (hc : ∀ w ∈ ws, w.cat.Ours) (i : Nat) (w : Warn) (hi : ws[i]? = some w) :
    ((s.setMode .beginner).warnAll ws).1[i]? = some .shown ↔ ∀ j < i, ws[j]? ≠ some w := by
  have ha : ∀ c : Category, c.Ours → ∀ m, (s.setMode .beginner).action c m = .default := fun c hc m => (C86_last s hc m).2.2
  have hf : ∀ w : Warn, (w.text, w.cat, w.line) ∉ (s.setMode .beginner).fresh w.module := by
    intro w; rw [setMode_fresh hs]; simp
  suffices H : ((s.setMode .beginner).warnAll ws).1[i]? = some .shown ↔
      (w.text, w.cat, w.line) ∉ (s.setMode .beginner).fresh w.module ∧ ∀ j < i, ws[j]? ≠ some w by
    rw [H]; exact ⟨fun h => h.2, fun h => ⟨hf w, h⟩⟩
  obtain ⟨s', hs'⟩ : ∃ s', s' = s.setMode .beginner := ⟨_, rfl⟩
  rw [← hs'] at ha ⊢
  clear hs' hf
  induction ws generalizing s' i with
  | nil => simp at hi
  | cons x ws ih =>
    obtain ⟨h1, h2, h3⟩ := warn_default (ha _ (hc x (by simp)) x.module)
    cases i with
    | zero =>
      simp only [List.getElem?_cons_zero, Option.some.injEq] at hi
      subst hi
      simp [Warnings.warnAll, h1]
    | succ i =>
      rw [List.getElem?_cons_succ] at hi
      simp only [Warnings.warnAll, List.getElem?_cons_succ]
      have hc' : ∀ w ∈ ws, w.cat.Ours := fun w hw => hc w (by simp [hw])
      have ha' : ∀ c : Category, c.Ours → ∀ m, (s'.warn x).2.action c m = .default := by
        intro c hc m
        have := ha c hc m
        unfold Warnings.action at this ⊢
        rwa [h2]
      rw [ih hc' i hi _ ha', h3]
      push Not
      have hx : (w.module = x.module ∧ (w.text, w.cat, w.line) = (x.text, x.cat, x.line)) ↔ x = w := by
        cases x; cases w
        simp only [Prod.mk.injEq, Warn.mk.injEq]
        constructor
        · rintro ⟨rfl, rfl, rfl, rfl⟩; exact ⟨rfl, rfl, rfl, rfl⟩
        · rintro ⟨rfl, rfl, rfl, rfl⟩; exact ⟨rfl, rfl, rfl, rfl⟩
      constructor
      · rintro ⟨⟨a, b⟩, c⟩
        refine ⟨b, fun j hj => ?_⟩
        cases j with
        | zero =>
          simp only [List.getElem?_cons_zero, ne_eq, Option.some.injEq]
          intro h
          obtain ⟨e1, e2⟩ := hx.2 h
          exact a e1 e2
        | succ j =>
          rw [List.getElem?_cons_succ]
          exact c j (by omega)
      · rintro ⟨b, c⟩
        refine ⟨⟨fun e1 e2 => ?_, b⟩, fun j hj => by simpa using c (j + 1) (by omega)⟩
        have := c 0 (by omega)
        simp only [List.getElem?_cons_zero, ne_eq, Option.some.injEq] at this
        exact this (hx.1 ⟨e1, e2⟩)

/-- **C86** is violated in expert mode: hints for beginners, which this mode ignores according to its filters, are printed (once each), because the filter for
all `UserWarning`s is set after that for `BeginnerHint`s, and comes first. -/
theorem C86_violated_expert {s : Warnings} (hs : s.Reachable) {w : Warn} (hc : w.cat = .beginnerHint) (ho : (w.text, w.cat) ∉ s.once) :
    ((s.setMode .expert).warn w).1 = .shown := by
  have := (C86_expert hs (ws := [w]) (by simp [hc, Category.Ours]) 0 w (by simp)).2 ⟨ho, by simp⟩
  simpa [Warnings.warnAll] using this

/-- **C86** is violated in beginner mode: hints for beginners, which this mode always prints according to its filters, are not printed the second time. -/
theorem C86_violated_beginner {s : Warnings} (hs : s.Reachable) {w : Warn} (hc : w.cat = .beginnerHint) :
    ((s.setMode .beginner).warnAll [w, w]).1 = [.shown, .hidden] := by
  have hw : w.cat.Ours := .inl hc
  obtain ⟨e1, e2, e3⟩ := warn_default (C86_last s hw w.module).2.2
  have ha : ((s.setMode .beginner).warn w).2.action w.cat w.module = .default := by
    have := (C86_last s hw w.module).2.2
    unfold Warnings.action at this ⊢
    rwa [e2]
  obtain ⟨f1, -, -⟩ := warn_default ha
  simp only [Warnings.warnAll]
  rw [e1, f1, if_neg (by rw [setMode_fresh hs]; simp), if_pos ((e3 _ _).2 (.inl ⟨rfl, rfl⟩))]

/-- A new program: the filters of Python, nothing shown yet. -/
def Warnings.initial : Warnings :=
  ⟨[⟨.default, .deprecation, some "__main__"⟩, ⟨.ignore, .deprecation, none⟩, ⟨.ignore, .other "ImportWarning", none⟩], 0, [], fun _ => (0, [])⟩

/-- The hypotheses are met by a new program; two hints at two lines of a program, the first one twice, in the three modes. -/
example : Warnings.initial.Reachable ∧
    ((Warnings.initial.setMode .beginner).warnAll [⟨"no rays", .beginnerHint, "a", 1⟩, ⟨"no rays", .beginnerHint, "a", 1⟩, ⟨"no rays", .beginnerHint, "a", 2⟩]).1 =
      [.shown, .hidden, .shown] ∧
    ((Warnings.initial.setMode .expert).warnAll [⟨"no rays", .beginnerHint, "a", 1⟩, ⟨"no rays", .beginnerHint, "a", 1⟩, ⟨"no rays", .beginnerHint, "a", 2⟩]).1 =
      [.shown, .hidden, .hidden] ∧
    ((Warnings.initial.setMode .silent).warnAll [⟨"no rays", .beginnerHint, "a", 1⟩, ⟨"no rays", .beginnerHint, "a", 1⟩, ⟨"no rays", .beginnerHint, "a", 2⟩]).1 =
      [.hidden, .hidden, .hidden] := by
  refine ⟨fun m => by simp [Warnings.initial], by decide +kernel, by decide +kernel, by decide +kernel⟩

/-! ## C87 -/

/-- Several imports, each in its own program: with or without the environment variable, and its time. -/
def starts : List (Bool × Nat) → Dict PrefValue → List (Except PyErr Started) × Dict PrefValue
  | [], prefs => ([], prefs)
  | e :: es, prefs =>
    let r := start e.1 e.2 prefs
    let rs := starts es r.2
    (r.1 :: rs.1, rs.2)

theorem get_insert_self (d : Dict PrefValue) (k : String) (v : PrefValue) : (d.insert k v).get? k = some v := by
  rw [insert_get]; simp

theorem get_insert_ne (d : Dict PrefValue) {k k' : String} (v : PrefValue) (h : k' ≠ k) : (d.insert k v).get? k' = d.get? k' := by
  rw [insert_get, if_neg (Ne.symm h)]

theorem strptime_iso {t : Nat} (h : t % 1000000 ≠ 0) : strptime (isoformat t) = .ok t := by
  unfold isoformat
  rw [if_neg h]
  simp only [strptime, Except.ok.injEq]
  omega

/-- 24 hours of 3600 seconds of a million microseconds -/
abbrev microsecondsPerDay : Nat := 24 * 3600 * 1000000

/-- **C87** (version check): when the last check was at `t`, not a whole second, an import never fails, it checks the version if and only if two days have passed,
and remembers the last check. -/
theorem C87_check {prefs : Dict PrefValue} {t : Nat} (ht : t % 1000000 ≠ 0) (hp : prefs.get? "lastVersionCheck" = some (isoformat t)) (env : Bool) (now : Nat) :
    ∃ st prefs', start env now prefs = (.ok st, prefs') ∧ (st.checked = true ↔ t + 2 * microsecondsPerDay ≤ now) ∧
      prefs'.get? "lastVersionCheck" = some (isoformat (if t + 2 * microsecondsPerDay ≤ now then now else t)) := by
  have hl : lastCheckMoreThanADay prefs now = .ok (decide (t + 2 * microsecondsPerDay ≤ now)) := by
    unfold lastCheckMoreThanADay
    simp only [hp, strptime_iso ht, Except.ok.injEq, aDay, microsecondsPerDay]
    congr 1
    rw [eq_iff_iff]
    omega
  unfold start
  rw [hl]
  by_cases h : t + 2 * microsecondsPerDay ≤ now
  · simp only [h, decide_true, if_true]
    cases env
    · simp only [Bool.false_eq_true, if_false]
      cases hm : (Dict.insert prefs "lastVersionCheck" (isoformat now)).get? "mode" with
      | some v => exact ⟨_, _, rfl, by simp, get_insert_self _ _ _⟩
      | none => exact ⟨_, _, rfl, by simp, by rw [get_insert_ne _ _ (by decide)]; exact get_insert_self _ _ _⟩
    · simp only [if_true, get_insert_self]
      exact ⟨_, _, rfl, by simp, by rw [get_insert_ne _ _ (by decide)]; exact get_insert_self _ _ _⟩
  · simp only [h, decide_false, Bool.false_eq_true, if_false]
    cases env
    · simp only [Bool.false_eq_true, if_false]
      cases hm : prefs.get? "mode" with
      | some v => exact ⟨_, _, rfl, by simp, hp⟩
      | none => exact ⟨_, _, rfl, by simp, by rw [get_insert_ne _ _ (by decide)]; exact hp⟩
    · simp only [if_true, get_insert_self]
      exact ⟨_, _, rfl, by simp, by rw [get_insert_ne _ _ (by decide)]; exact hp⟩

/-- the times of the imports that check the version -/
def checkTimes : List (Bool × Nat) → List (Except PyErr Started) → List Nat
  | e :: es, .ok st :: rs => if st.checked then e.2 :: checkTimes es rs else checkTimes es rs
  | _ :: es, .error _ :: rs => checkTimes es rs
  | _, _ => []

/-- **C87** (version check, any number of imports): when the last check was at `t` and no import is at a whole second, no import fails and the checks are at
least two days apart. -/
theorem C87_checks {es : List (Bool × Nat)} (he : ∀ e ∈ es, e.2 % 1000000 ≠ 0) {prefs : Dict PrefValue} {t : Nat} (ht : t % 1000000 ≠ 0)
    (hp : prefs.get? "lastVersionCheck" = some (isoformat t)) :
    (∀ r ∈ (starts es prefs).1, ∃ st, r = .ok st) ∧ (t :: checkTimes es (starts es prefs).1).IsChain (fun a b => a + 2 * microsecondsPerDay ≤ b) := by
  induction es generalizing prefs t with
  | nil => simp [starts, checkTimes]
  | cons e es ih =>
    obtain ⟨st, prefs', h1, h2, h3⟩ := C87_check ht hp e.1 e.2
    have he' : ∀ e ∈ es, e.2 % 1000000 ≠ 0 := fun e h => he e (by simp [h])
    by_cases h : t + 2 * microsecondsPerDay ≤ e.2
    · rw [if_pos h] at h3
      obtain ⟨i1, i2⟩ := ih he' (he e (by simp)) h3
      have hst := h2.2 h
      simp only [starts, h1, checkTimes, hst, if_true]
      refine ⟨?_, ?_⟩
      · intro r hr
        rcases List.mem_cons.1 hr with rfl | hr
        · exact ⟨st, rfl⟩
        · exact i1 r hr
      · exact List.IsChain.cons_cons h i2
    · rw [if_neg h] at h3
      obtain ⟨i1, i2⟩ := ih he' ht h3
      have hst : st.checked = false := by
        cases hs : st.checked with
        | false => rfl
        | true => exact absurd (h2.1 hs) h
      simp only [starts, h1, checkTimes, hst, Bool.false_eq_true, if_false]
      refine ⟨?_, i2⟩
      intro r hr
      rcases List.mem_cons.1 hr with rfl | hr
      · exact ⟨st, rfl⟩
      · exact i1 r hr

/-- **C87** (mode): when the mode was saved and `RAYTRACING_EXPERT` is not set, every import that does not fail starts in that mode and keeps it saved; a new user
starts in beginner mode. -/
theorem C87_mode {m : Mode} {prefs : Dict PrefValue} (hp : prefs.get? "mode" = some (.text m.name)) {es : List (Bool × Nat)} (he : ∀ e ∈ es, e.1 = false) :
    (∀ st, .ok st ∈ (starts es prefs).1 → st.mode = m) ∧ (starts es prefs).2.get? "mode" = some (.text m.name) := by
  induction es generalizing prefs with
  | nil => simpa [starts] using hp
  | cons e es ih =>
    have he0 := he e (by simp)
    have key : ∃ r prefs', start e.1 e.2 prefs = (r, prefs') ∧ (∀ st, r = .ok st → st.mode = m) ∧ prefs'.get? "mode" = some (.text m.name) := by
      unfold start
      rw [he0]
      cases lastCheckMoreThanADay prefs e.2 with
      | error x => exact ⟨_, _, rfl, by simp, hp⟩
      | ok c =>
        have : (if c = true then prefs.insert "lastVersionCheck" (isoformat e.2) else prefs).get? "mode" = some (.text m.name) := by
          split_ifs
          · rw [get_insert_ne _ _ (by decide)]; exact hp
          · exact hp
        simp only [Bool.false_eq_true, if_false, this]
        refine ⟨_, _, rfl, fun st h => ?_, this⟩
        simp only [Except.ok.injEq] at h
        rw [← h]
        cases m <;> rfl
    obtain ⟨r, prefs', h1, h2, h3⟩ := key
    obtain ⟨i1, i2⟩ := ih h3 (fun e h => he e (by simp [h]))
    simp only [starts, h1]
    refine ⟨fun st hst => ?_, i2⟩
    rcases List.mem_cons.1 hst with h | h
    · exact h2 st h.symm
    · exact i1 st h

/-- **C87** (mode): a mode set with `saveToPrefs=True` is that of the following imports. -/
theorem C87_saved (m : Mode) (prefs : Dict PrefValue) {es : List (Bool × Nat)} (he : ∀ e ∈ es, e.1 = false) :
    ∀ st, .ok st ∈ (starts es (saveMode m prefs)).1 → st.mode = m :=
  (C87_mode (get_insert_self _ _ _) he).1

/-- **C87** (mode): the first import of a new user is in beginner mode. -/
theorem C87_new (now : Nat) : (start false now []).1 = .ok ⟨true, .beginner⟩ := rfl

/-- **C87** is violated: once the version was checked at a whole second, no import of the module succeeds any more: all raise `ValueError`, and the
preferences stay as they are. -/
theorem C87_violated_second {prefs : Dict PrefValue} {t : Nat} (ht : t % 1000000 = 0) (hp : prefs.get? "lastVersionCheck" = some (isoformat t))
    (es : List (Bool × Nat)) : (∀ r ∈ (starts es prefs).1, r = .error .valueError) ∧ (starts es prefs).2 = prefs := by
  induction es with
  | nil => simp [starts]
  | cons e es ih =>
    have h : start e.1 e.2 prefs = (.error .valueError, prefs) := by
      unfold start lastCheckMoreThanADay
      simp only [hp, isoformat, ht, if_true, strptime]
    simp only [starts, h]
    refine ⟨fun r hr => ?_, ih.2⟩
    rcases List.mem_cons.1 hr with rfl | hr
    · rfl
    · exact ih.1 r hr

/-- Such a check is possible: the import of a new user at a whole second leaves these preferences. -/
theorem C87_violated_first {now : Nat} (h : now % 1000000 = 0) (env env' : Bool) (now' : Nat) :
    (start env' now' (start env now []).2).1 = .error .valueError := by
  have : (start env now []).2.get? "lastVersionCheck" = some (isoformat now) := by cases env <;> rfl
  have := (C87_violated_second h this [(env', now')]).1
  simpa [starts] using this

/-- **C87** is violated: between one day and two days after a check, "more than a day" is not noticed. -/
theorem C87_violated_day {prefs : Dict PrefValue} {t : Nat} (ht : t % 1000000 ≠ 0) (hp : prefs.get? "lastVersionCheck" = some (isoformat t)) (env : Bool)
    {now : Nat} (h : now < t + 2 * microsecondsPerDay) : ∃ st, (start env now prefs).1 = .ok st ∧ st.checked = false := by
  obtain ⟨st, prefs', h1, h2, -⟩ := C87_check ht hp env now
  refine ⟨st, by rw [h1], ?_⟩
  cases hs : st.checked with
  | false => rfl
  | true => exact absurd (h2.1 hs) (by omega)

/-- **C87** is violated by the environment variable: after one import with `RAYTRACING_EXPERT`, all the imports without it are in expert mode, whatever mode was
saved. -/
theorem C87_violated_env {prefs : Dict PrefValue} {now : Nat} {st : Started} (h : (start true now prefs).1 = .ok st) {es : List (Bool × Nat)}
    (he : ∀ e ∈ es, e.1 = false) : ∀ st, .ok st ∈ (starts es (start true now prefs).2).1 → st.mode = .expert := by
  apply (C87_mode (m := .expert) ?_ he).1
  unfold start at h ⊢
  cases hl : lastCheckMoreThanADay prefs now with
  | error x => rw [hl] at h; simp at h
  | ok c => simp only [if_true, get_insert_self]; rfl

/-- The hypotheses of the theorems above are met: a user in silent mode who last checked at 12.000005 s; three imports. -/
example : (∀ e ∈ [(false, 100), (false, 3 * aDay + 7), (false, 4 * aDay + 1)], e.2 % 1000000 ≠ 0) ∧
    (starts [(false, 100), (false, 3 * aDay + 7), (false, 4 * aDay + 1)] [("mode", .text "silent"), ("lastVersionCheck", isoformat 12000005)]).1 =
      [.ok ⟨false, .silent⟩, .ok ⟨true, .silent⟩, .ok ⟨false, .silent⟩] := by decide +kernel

/-! ## C88 -/

/-- `d` is a subclass, direct or not, of a class. -/
inductive ClassTree.Below : ClassTree → ClassTree → Prop where
  | child {name : String} {cs : List ClassTree} {c : ClassTree} : c ∈ cs → ClassTree.Below (.node name cs) c
  | deeper {name : String} {cs : List ClassTree} {c d : ClassTree} : c ∈ cs → ClassTree.Below c d → ClassTree.Below (.node name cs) d

def ClassTree.name : ClassTree → String
  | .node n _ => n

def ClassTree.children : ClassTree → List ClassTree
  | .node _ cs => cs

theorem below_iff (n : String) (cs : List ClassTree) (d : ClassTree) : ClassTree.Below (.node n cs) d ↔ ∃ c ∈ cs, d = c ∨ ClassTree.Below c d := by
  constructor
  · rintro (h | ⟨h, h'⟩)
    · exact ⟨_, h, .inl rfl⟩
    · exact ⟨_, h, .inr h'⟩
  · rintro ⟨c, h, rfl | h'⟩
    · exact .child h
    · exact .deeper h h'

mutual
/-- **C88**: the list of the subclasses has exactly the names of the classes below that have no subclass themselves. -/
theorem C88_leaves (t : ClassTree) (s : String) : s ∈ t.allSubclasses ↔ ∃ d, t.Below d ∧ d.children = [] ∧ d.name = s := by
  cases t with
  | node n cs =>
    rw [ClassTree.allSubclasses, leaves_list cs s]
    constructor
    · rintro ⟨c, hc, d, h, h1, h2⟩
      exact ⟨d, (below_iff _ _ _).2 ⟨c, hc, h⟩, h1, h2⟩
    · rintro ⟨d, h, h1, h2⟩
      obtain ⟨c, hc, h⟩ := (below_iff _ _ _).1 h
      exact ⟨c, hc, d, h, h1, h2⟩

theorem leaves_list (cs : List ClassTree) (s : String) : s ∈ ClassTree.allSubclassesList cs ↔
    ∃ c ∈ cs, ∃ d, (d = c ∨ c.Below d) ∧ d.children = [] ∧ d.name = s := by
  match cs with
  | [] => simp [ClassTree.allSubclassesList]
  | .node n [] :: cs =>
    rw [ClassTree.allSubclassesList, List.mem_cons, leaves_list cs s]
    rw [List.exists_mem_cons_iff]
    constructor
    · rintro (rfl | h)
      · exact .inl ⟨.node s [], .inl rfl, rfl, rfl⟩
      · exact .inr h
    · rintro (⟨d, h, h1, h2⟩ | h)
      · rcases h with rfl | h
        · exact .inl h2.symm
        · rw [below_iff] at h; simp at h
      · exact .inr h
  | .node n (c :: cc) :: cs =>
    rw [ClassTree.allSubclassesList, List.mem_append, leaves_list cs s, C88_leaves (.node n (c :: cc)) s]
    rw [List.exists_mem_cons_iff]
    constructor
    · rintro (⟨d, h, h1, h2⟩ | h)
      · exact .inl ⟨d, .inr h, h1, h2⟩
      · exact .inr h
    · rintro (⟨d, h, h1, h2⟩ | h)
      · rcases h with rfl | h
        · simp [ClassTree.children] at h1
        · exact .inl ⟨d, h, h1, h2⟩
      · exact .inr h
end

/-- **C88** is violated: a subclass that has subclasses is not listed (when no other class has its name): a lens of a catalogue disappears from the list as soon as
the user derives a class from it. -/
theorem C88_violated {t d : ClassTree} (_ : t.Below d) (hd : d.children ≠ []) (hn : ∀ d', t.Below d' → d'.name = d.name → d' = d) :
    d.name ∉ t.allSubclasses := by
  rw [C88_leaves]
  rintro ⟨d', h1, h2, h3⟩
  rw [hn d' h1 h3] at h2
  exact hd h2

/-- The hypotheses are met: two families of lenses, one of the lenses has a subclass. -/
example : (ClassTree.node "CompoundLens" [.node "AchromatDoubletLens" [.node "AC254_100_A" [], .node "AC254_050_A" [.node "Mine" []]],
    .node "SingletLens" [.node "PN_33_921" []]]).allSubclasses = ["AC254_100_A", "Mine", "PN_33_921"] := by decide +kernel

end RT
