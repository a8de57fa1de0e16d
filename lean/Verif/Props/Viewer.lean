import Verif.Model.Viewer
import Mathlib.Data.List.Basic
import Mathlib.Data.List.Induction
import Mathlib.Order.Defs.LinearOrder
import Mathlib.Data.List.Sort

/-! # C104: the lens viewer; C105: the check of the version -/

set_option linter.unusedSectionVars false

namespace RT
open Prefs

/-! ## C104 -/

namespace Viewer
variable {F L : Type}

/-- Specification: the lens of a name is that of the first module where a class of this name can be built. -/
def Finds : List (Catalog L) → String → L → Prop
  | [], _, _ => False
  | m :: ms, name, l => m name = some (.ok l) ∨ ((∀ l', m name ≠ some (.ok l')) ∧ Finds ms name l)

theorem Finds.unique {ms : List (Catalog L)} {name : String} {l l' : L} (h : Finds ms name l) (h' : Finds ms name l') : l = l' := by
  induction ms with
  | nil => exact h.elim
  | cons m ms ih =>
    rcases h with h | ⟨h, h2⟩ <;> rcases h' with h' | ⟨h', h2'⟩
    · rw [h] at h'; simpa using h'
    · exact absurd h (h' l)
    · exact absurd h' (h l')
    · exact ih h2 h2'

/-- the dictionary after one name -/
def addName (c : Lenses F L) (modules : List (Catalog L)) (d : Dict L) (name : String) : Dict L :=
  (modules.foldl (tryModule c) (d, .inl name)).1

theorem addName_inr (c : Lenses F L) (ms : List (Catalog L)) (d : Dict L) (l : L) :
    ms.foldl (tryModule c) (d, .inr l) = (d, .inr l) := by
  induction ms with
  | nil => rfl
  | cons m ms ih => simpa [tryModule] using ih

theorem addName_eq (c : Lenses F L) (ms : List (Catalog L)) (d : Dict L) (name : String) :
    (∃ l t, Finds ms name l ∧ text c l = .ok t ∧ addName c ms d name = d.insert t l) ∨
    ((∀ l t, Finds ms name l → text c l ≠ .ok t) ∧ addName c ms d name = d) := by
  induction ms with
  | nil => exact .inr ⟨fun l t h => h.elim, rfl⟩
  | cons m ms ih =>
    have skip : (∀ l', m name ≠ some (.ok l')) → tryModule c (d, .inl name) m = (d, .inl name) := by
      intro h
      unfold tryModule
      cases hm : m name with
      | none => simp [hm]
      | some x =>
        cases x with
        | error e => simp [hm]
        | ok l => exact absurd hm (h l)
    by_cases hm : ∃ l, m name = some (.ok l)
    · obtain ⟨l, hl⟩ := hm
      have e : addName c (m :: ms) d name = (tryModule c (d, .inl name) m).1 := by
        have h1 : (tryModule c (d, .inl name) m) = ((tryModule c (d, .inl name) m).1, .inr l) := by
          unfold tryModule
          cases ht : text c l <;> simp [hl, ht]
        unfold addName
        rw [List.foldl_cons, h1, addName_inr]
      cases ht : text c l with
      | error x =>
        right
        refine ⟨fun l' t h => ?_, by rw [e]; simp [tryModule, hl, ht]⟩
        have : l = l' := Finds.unique (ms := m :: ms) (.inl hl) h
        rw [← this, ht]; simp
      | ok t => exact .inl ⟨l, t, .inl hl, ht, by rw [e]; simp [tryModule, hl, ht]⟩
    · push Not at hm
      have e : addName c (m :: ms) d name = addName c ms d name := by
        unfold addName
        rw [List.foldl_cons, skip hm]
      rcases ih with ⟨l, t, h1, h2, h3⟩ | ⟨h1, h2⟩
      · exact .inl ⟨l, t, .inr ⟨hm, h1⟩, h2, by rw [e, h3]⟩
      · refine .inr ⟨fun l t h => ?_, by rw [e, h2]⟩
        rcases h with h | ⟨-, h⟩
        · exact absurd h (hm l)
        · exact h1 l t h

theorem insert_keys_mem (d : Dict L) (k : String) (l : L) (t : String) :
    t ∈ (d.insert k l).map Prod.fst ↔ t = k ∨ t ∈ d.map Prod.fst := by
  induction d with
  | nil => simp [Dict.insert]
  | cons p d ih =>
    unfold Dict.insert
    split_ifs with h
    · subst h; simp
    · rw [List.map_cons, List.mem_cons, ih, List.map_cons, List.mem_cons]; tauto

theorem insert_keys_nodup {d : Dict L} (h : (d.map Prod.fst).Nodup) (k : String) (l : L) : ((d.insert k l).map Prod.fst).Nodup := by
  induction d with
  | nil => simp [Dict.insert]
  | cons p d ih =>
    rw [List.map_cons, List.nodup_cons] at h
    unfold Dict.insert
    split_ifs with hk
    · subst hk; rw [List.map_cons, List.nodup_cons]; exact h
    · rw [List.map_cons, List.nodup_cons, insert_keys_mem]
      exact ⟨by rintro (h1 | h1); exacts [hk h1, h.1 h1], ih h.2⟩

theorem insert_new {d : Dict L} {k : String} (h : k ∉ d.map Prod.fst) (l : L) : d.insert k l = d ++ [(k, l)] := by
  induction d with
  | nil => rfl
  | cons p d ih =>
    rw [List.map_cons, List.mem_cons, not_or] at h
    unfold Dict.insert
    rw [if_neg (fun h' => h.1 h'.symm), ih h.2]; rfl

theorem insert_get_self (d : Dict L) (k : String) (l : L) : (d.insert k l).get? k = some l := by
  induction d with
  | nil => simp [Dict.insert, Dict.get?]
  | cons p d ih =>
    unfold Dict.insert
    split_ifs with h
    · simp [Dict.get?]
    · simp [Dict.get?, h, ih]

theorem insert_get_ne (d : Dict L) {k t : String} (l : L) (h : t ≠ k) : (d.insert k l).get? t = d.get? t := by
  induction d with
  | nil => simp [Dict.insert, Dict.get?, h.symm]
  | cons p d ih =>
    unfold Dict.insert
    split_ifs with hk
    · subst hk; simp [Dict.get?, h.symm]
    · simp only [Dict.get?, ih]

theorem get_some_of_mem {d : Dict L} {t : String} (h : t ∈ d.map Prod.fst) : ∃ l, d.get? t = some l := by
  induction d with
  | nil => simp at h
  | cons p d ih =>
    by_cases hp : p.1 = t
    · exact ⟨p.2, by simp [Dict.get?, hp]⟩
    · simp only [Dict.get?, hp, if_false]
      rw [List.map_cons, List.mem_cons] at h
      exact ih (h.resolve_left fun h' => hp h'.symm)

theorem buildDict_snoc (c : Lenses F L) (ms : List (Catalog L)) (names : List String) (name : String) :
    buildDict c ms (names ++ [name]) = addName c ms (buildDict c ms names) name := by
  unfold buildDict addName
  rw [List.foldl_append]; rfl

/-- the entry of a name: the lens found and its text -/
def Entry (c : Lenses F L) (ms : List (Catalog L)) (name t : String) (l : L) : Prop := Finds ms name l ∧ text c l = .ok t

/-- what the dictionary holds: the texts of the lenses found, each one once, each with the last of the lenses of this text -/
theorem buildDict_spec (c : Lenses F L) (ms : List (Catalog L)) (names : List String) :
    ((buildDict c ms names).map Prod.fst).Nodup ∧
    (∀ t, t ∈ (buildDict c ms names).map Prod.fst ↔ ∃ name ∈ names, ∃ l, Entry c ms name t l) ∧
    ∀ t l, (buildDict c ms names).get? t = some l → ∃ before name after, names = before ++ name :: after ∧ Entry c ms name t l ∧
      ∀ name' ∈ after, ∀ l', ¬ Entry c ms name' t l' := by
  induction names using List.reverseRecOn with
  | nil => simp [buildDict, Dict.get?]
  | append_singleton names name ih =>
    obtain ⟨i1, i2, i3⟩ := ih
    rw [buildDict_snoc]
    rcases addName_eq c ms (buildDict c ms names) name with ⟨l, t, h1, h2, h3⟩ | ⟨h1, h2⟩
    · rw [h3]
      refine ⟨insert_keys_nodup i1 _ _, fun t' => ?_, fun t' l' h => ?_⟩
      · rw [insert_keys_mem, i2]
        constructor
        · rintro (rfl | ⟨n, hn, l', h⟩)
          · exact ⟨name, by simp, l, h1, h2⟩
          · exact ⟨n, by simp [hn], l', h⟩
        · rintro ⟨n, hn, l', h⟩
          rcases List.mem_append.1 hn with hn | hn
          · exact .inr ⟨n, hn, l', h⟩
          · rw [List.mem_singleton] at hn
            subst hn
            left
            have := h1.unique h.1
            subst this
            have := h.2
            rw [h2] at this
            simpa using this.symm
      · by_cases ht : t' = t
        · subst ht
          rw [insert_get_self] at h
          cases h
          exact ⟨names, name, [], rfl, ⟨h1, h2⟩, by simp⟩
        · rw [insert_get_ne _ _ ht] at h
          obtain ⟨b, n, a, e, he, hl⟩ := i3 t' l' h
          refine ⟨b, n, a ++ [name], by simp [e], he, fun n' hn' l'' h'' => ?_⟩
          rcases List.mem_append.1 hn' with hn' | hn'
          · exact hl n' hn' l'' h''
          · rw [List.mem_singleton] at hn'
            subst hn'
            have := h1.unique h''.1
            subst this
            have := h''.2
            rw [h2] at this
            exact ht (by simpa using this.symm)
    · rw [h2]
      refine ⟨i1, fun t' => ?_, fun t' l' h => ?_⟩
      · rw [i2]
        constructor
        · rintro ⟨n, hn, l', h⟩
          exact ⟨n, by simp [hn], l', h⟩
        · rintro ⟨n, hn, l', h⟩
          rcases List.mem_append.1 hn with hn | hn
          · exact ⟨n, hn, l', h⟩
          · rw [List.mem_singleton] at hn
            subst hn
            exact absurd h.2 (h1 l' t' h.1)
      · obtain ⟨b, n, a, e, he, hl⟩ := i3 t' l' h
        refine ⟨b, n, a ++ [name], by simp [e], he, fun n' hn' l'' h'' => ?_⟩
        rcases List.mem_append.1 hn' with hn' | hn'
        · exact hl n' hn' l'' h''
        · rw [List.mem_singleton] at hn'
          subst hn'
          exact h1 l'' t' h''.1 h''.2

end Viewer

open Viewer
variable {F L : Type}

/-- **C104**, whatever the classes, the modules and the names listed: the menu has no item twice, and its items are the texts (label and focal
length) of the lenses that can be built and have both. -/
theorem C104_menu (c : Lenses F L) (modules : List (Catalog L)) (names : List String) :
    (start c modules names).items.Nodup ∧
    ∀ t, t ∈ (start c modules names).items ↔ ∃ name ∈ names, ∃ l, Entry c modules name t l :=
  ⟨(buildDict_spec c modules names).1, (buildDict_spec c modules names).2.1⟩

/-- **C104**: when lenses of different names have different texts (in the catalogues the label is the part number), the menu has one item per lens,
in the order of the names. -/
theorem C104_order (c : Lenses F L) (modules : List (Catalog L)) (entries : List (String × String × L))
    (h : ∀ e ∈ entries, Entry c modules e.1 e.2.1 e.2.2) (hn : (entries.map fun e => e.2.1).Nodup) :
    (start c modules (entries.map Prod.fst)).items = entries.map fun e => e.2.1 := by
  have key : buildDict c modules (entries.map Prod.fst) = entries.map Prod.snd := by
    induction entries using List.reverseRecOn with
    | nil => rfl
    | append_singleton es e ih =>
      have ih := ih (fun e' he' => h e' (by simp [he'])) (by
        rw [List.map_append] at hn; exact (List.nodup_append.1 hn).1)
      have he := h e (by simp)
      rw [List.map_append, List.map_singleton, buildDict_snoc, ih]
      rcases addName_eq c modules (es.map Prod.snd) e.1 with ⟨l, t, h1, h2, h3⟩ | ⟨h1, -⟩
      · have := h1.unique he.1
        subst this
        have ht : t = e.2.1 := by simpa [he.2] using h2.symm
        subst ht
        rw [h3, insert_new, List.map_append]; · rfl
        rw [List.map_append, List.nodup_append] at hn
        intro hm
        rw [List.map_map] at hm
        exact hn.2.2 _ (by simpa using hm) _ (by simp) rfl
      · exact absurd he.2 (h1 _ _ he.1)
  simp only [start, key, List.map_map]
  rfl

/-- one selection -/
theorem select_ok {c : Lenses F L} {modules : List (Catalog L)} {names : List String} {s : State L}
    (h1 : s.lenses = buildDict c modules names) (h2 : s.items = s.lenses.map Prod.fst) {i : Nat} (hi : i < s.items.length) :
    ∃ l name, name ∈ names ∧ Entry c modules name s.items[i] l ∧ select s i = .ok { s with title := s.items[i], shown := some l } := by
  have hm : s.items[i] ∈ (buildDict c modules names).map Prod.fst := by
    rw [← h1, ← h2]; exact List.getElem_mem hi
  obtain ⟨l, hl⟩ := get_some_of_mem hm
  obtain ⟨b, name, a, e, he, -⟩ := (buildDict_spec c modules names).2.2 _ _ hl
  refine ⟨l, name, by simp [e], he, ?_⟩
  unfold select
  rw [List.getElem?_eq_getElem hi, h1]
  simp only [hl]

/-- **C104**: selecting items one after the other never fails, the title of the menu is the last item selected, and the lens on display
is a lens of this text: its label and focal length are those shown. -/
theorem C104_select (c : Lenses F L) (modules : List (Catalog L)) (names : List String) (is : List Nat) (i : Nat)
    (his : ∀ j ∈ is ++ [i], j < (start c modules names).items.length) :
    ∃ s l name, selectAll (start c modules names) (is ++ [i]) = .ok s ∧ s.items = (start c modules names).items ∧
      (start c modules names).items[i]? = some s.title ∧ s.shown = some l ∧ name ∈ names ∧ Entry c modules name s.title l := by
  have key : ∀ (is : List Nat) (s : State L), s.lenses = buildDict c modules names → s.items = s.lenses.map Prod.fst →
      (∀ j ∈ is ++ [i], j < s.items.length) →
      ∃ s' l name, selectAll s (is ++ [i]) = .ok s' ∧ s'.items = s.items ∧ s.items[i]? = some s'.title ∧
        s'.shown = some l ∧ name ∈ names ∧ Entry c modules name s'.title l := by
    intro is
    induction is with
    | nil =>
      intro s h1 h2 h3
      obtain ⟨l, name, hn, he, hs⟩ := select_ok h1 h2 (h3 i (by simp))
      refine ⟨{ s with title := s.items[i]'(h3 i (by simp)), shown := some l }, l, name, ?_, rfl, List.getElem?_eq_getElem _, rfl, hn, he⟩
      rw [List.nil_append]
      simp only [selectAll, hs]
      rfl
    | cons j is ih =>
      intro s h1 h2 h3
      obtain ⟨l, name, hn, he, hs⟩ := select_ok h1 h2 (h3 j (by simp))
      obtain ⟨s', l', name', k1, k2⟩ := ih { s with title := s.items[j]'(h3 j (by simp)), shown := some l } h1 h2
        (fun j' hj' => h3 j' (by simp only [List.cons_append, List.mem_cons]; exact .inr hj'))
      exact ⟨s', l', name', by simp only [List.cons_append, selectAll, hs]; exact k1, k2⟩
  exact key is _ rfl rfl his

/-- **C104** is violated by two lenses with the same label and the same focal length to 0.1: the item of this text shows the last one, so
the first is not in the menu. -/
theorem C104_violated_same {c : Lenses F L} {modules : List (Catalog L)} {before after : List String} {name1 name2 t : String} {l1 l2 : L}
    (h1 : name1 ∈ before) (e1 : Entry c modules name1 t l1) (e2 : Entry c modules name2 t l2) (hl : l1 ≠ l2)
    (hlast : ∀ name ∈ after, ∀ l, ¬ Entry c modules name t l) :
    (∃ i s, select (start c modules (before ++ name2 :: after)) i = .ok s ∧ s.title = t) ∧
    ∀ i s, select (start c modules (before ++ name2 :: after)) i = .ok s → s.title = t → s.shown = some l2 ∧ s.shown ≠ some l1 := by
  refine ⟨?_, fun i s hs ht => ?_⟩
  · have hm := ((C104_menu c modules (before ++ name2 :: after)).2 t).2 ⟨name1, by simp [h1], l1, e1⟩
    obtain ⟨i, hi, e⟩ := List.getElem_of_mem hm
    obtain ⟨l, name, -, -, h⟩ := select_ok (c := c) (modules := modules) (names := before ++ name2 :: after) rfl rfl hi
    exact ⟨i, _, h, e⟩
  suffices h : s.shown = some l2 from ⟨h, by rw [h]; simpa using Ne.symm hl⟩
  unfold select at hs
  cases hi : (start c modules (before ++ name2 :: after)).items[i]? with
  | none => simp [hi] at hs
  | some t' =>
    cases hg : (start c modules (before ++ name2 :: after)).lenses.get? t' with
    | none => simp [hi, hg] at hs
    | some l =>
      simp only [hi, hg, Except.ok.injEq] at hs
      subst hs
      simp only at ht
      subst ht
      obtain ⟨b, n, a, e, he, hafter⟩ := (buildDict_spec c modules _).2.2 _ _ hg
      have same : ∀ x, name2 = n → some l = some x → some l = some l2 := by
        rintro x rfl -
        rw [he.1.unique e2.1]
      rcases List.append_eq_append_iff.1 e with ⟨x, hx, hy⟩ | ⟨x, hx, hy⟩
      · cases x with
        | nil =>
          rw [List.nil_append, List.cons.injEq] at hy
          exact same l hy.1 rfl
        | cons y x =>
          rw [List.cons_append, List.cons.injEq] at hy
          exact absurd he (hlast n (by rw [hy.2]; simp) l)
      · cases x with
        | nil =>
          rw [List.nil_append, List.cons.injEq] at hy
          exact same l hy.1.symm rfl
        | cons y x =>
          rw [List.cons_append, List.cons.injEq] at hy
          exact absurd e2 (hafter name2 (by rw [hy.2]; simp) l2)

/-- Two catalogues: the name `A` is in the first, `B` in the second, `A2` in both, `C` cannot be built, `D` is in none. A lens is a number, its
focal length, and has a label. -/
def sampleLenses : Lenses Nat (Nat × Option String) := ⟨Prod.snd, fun l => .ok l.1, fun _ => "f"⟩

def sampleModules : List (Catalog (Nat × Option String)) :=
  [fun s => if s = "A" then some (.ok (1, some "a")) else if s = "A2" then some (.ok (2, some "a2")) else if s = "C" then some (.error .valueError) else none,
   fun s => if s = "B" then some (.ok (3, some "b")) else if s = "A2" then some (.ok (4, some "c")) else none]

example : (start sampleLenses sampleModules ["A", "C", "B", "D", "A2"]).items = ["a [f=f mm]", "b [f=f mm]", "a2 [f=f mm]"] := by decide +kernel

example : ((selectAll (start sampleLenses sampleModules ["A", "C", "B", "D", "A2"]) [0, 2]).toOption.bind State.shown) = some (2, some "a2") := by
  decide +kernel

/-- two lenses of the same text meet the hypotheses of `C104_violated_same` -/
example : (start sampleLenses [fun s => if s = "A" then some (.ok (1, some "a")) else some (.ok (2, some "a"))] ["A", "B"]).items = ["a [f=f mm]"] := by
  decide +kernel

/-! ## C105 -/

section version
variable {V : Type} [LinearOrder V]

/-- Specification: a release later than `v` is published. -/
def NewerExists (v : V) (vs : List (Option V)) : Prop := ∃ w, some w ∈ vs ∧ v < w

theorem mapM_id_some (vs : List V) : (vs.map some).mapM id = some vs := by
  induction vs with
  | nil => rfl
  | cons v vs ih =>
    rw [List.map_cons, List.mapM_cons, ih]; rfl

theorem mapM_id_none {vs : List (Option V)} (h : none ∈ vs) : vs.mapM id = none := by
  induction vs with
  | nil => simp at h
  | cons v vs ih =>
    rw [List.mapM_cons]
    cases v with
    | none => rfl
    | some v =>
      rw [ih (by simpa using h)]; rfl

theorem mapM_id_iff {vs : List (Option V)} {ws : List V} (h : vs.mapM id = some ws) : vs = ws.map some := by
  by_cases hn : none ∈ vs
  · rw [mapM_id_none hn] at h; simp at h
  · obtain ⟨us, rfl⟩ : ∃ us : List V, vs = us.map some := by
      clear h
      induction vs with
      | nil => exact ⟨[], rfl⟩
      | cons v vs ih =>
        rw [List.mem_cons, not_or] at hn
        obtain ⟨us, rfl⟩ := ih hn.2
        cases v with
        | none => exact absurd rfl hn.1
        | some v => exact ⟨v :: us, rfl⟩
    rw [mapM_id_some] at h
    cases h; rfl

/-- **C105**: what is announced is true: the version announced is published, and later than the current one. -/
theorem C105_true {current : Option V} {p : PyPI V} {w : V} (h : (checkLatestVersion (fun a b => decide (a < b)) current p).2 = .newer w) :
    ∃ v vs, current = some v ∧ p = .releases vs ∧ some w ∈ vs ∧ v < w ∧
      (checkLatestVersion (fun a b => decide (a < b)) current p).1 = true := by
  cases p with
  | certificates => simp [checkLatestVersion] at h
  | failed => simp [checkLatestVersion] at h
  | releases vs =>
    cases hm : vs.mapM id with
    | none => simp [checkLatestVersion, hm] at h
    | some ws =>
      cases hl : ws.getLast? with
      | none => simp [checkLatestVersion, hm, hl] at h
      | some latest =>
        cases current with
        | none => simp [checkLatestVersion, hm, hl] at h
        | some v =>
          by_cases hlt : v < latest
          · have hw : latest = w := by simpa [checkLatestVersion, hm, hl, hlt] using h
            subst hw
            refine ⟨v, vs, rfl, rfl, ?_, hlt, by simp [checkLatestVersion, hm, hl, hlt]⟩
            rw [mapM_id_iff hm]
            exact List.mem_map_of_mem (List.mem_of_getLast? hl)
          · simp [checkLatestVersion, hm, hl, hlt] at h

/-- **C105**: when the releases are listed from the first to the last, the result says whether a later version is published, and it is the
latest one that is announced. -/
theorem C105_sorted (v : V) {vs : List V} (hne : vs ≠ []) (hs : vs.Pairwise (· ≤ ·)) :
    ((checkLatestVersion (fun a b => decide (a < b)) (some v) (.releases (vs.map some))).1 = true ↔ NewerExists v (vs.map some)) ∧
    (NewerExists v (vs.map some) → ∃ w, (checkLatestVersion (fun a b => decide (a < b)) (some v) (.releases (vs.map some))).2 = .newer w ∧
      ∀ u ∈ vs, u ≤ w) := by
  obtain ⟨init, w, rfl⟩ : ∃ init w, vs = init ++ [w] := ⟨_, _, (List.dropLast_append_getLast hne).symm⟩
  have hmax : ∀ u ∈ init ++ [w], u ≤ w := by
    intro u hu
    rcases List.mem_append.1 hu with hu | hu
    · exact (List.pairwise_append.1 hs).2.2 u hu w (by simp)
    · rw [List.mem_singleton.1 hu]
  have hnew : NewerExists v ((init ++ [w]).map some) ↔ v < w := by
    constructor
    · rintro ⟨u, hu, h⟩
      obtain ⟨u', hu', e⟩ := List.mem_map.1 hu
      cases e
      exact lt_of_lt_of_le h (hmax u hu')
    · exact fun h => ⟨w, by simp, h⟩
  rw [hnew]
  unfold checkLatestVersion
  simp only [mapM_id_some, List.getLast?_concat]
  refine ⟨?_, fun h => ⟨w, by simp [h], hmax⟩⟩
  by_cases h : v < w <;> simp [h]

/-- **C105** is violated when the last release listed is not the latest: a later version exists, and nothing is announced. -/
theorem C105_violated {v : V} {vs : List V} {w last : V} (hw : w ∈ vs) (hlt : v < w) (hl : vs.getLast? = some last) (hle : last ≤ v) :
    NewerExists v (vs.map some) ∧
    checkLatestVersion (fun a b => decide (a < b)) (some v) (.releases (vs.map some)) = (false, .nothing) := by
  refine ⟨⟨w, List.mem_map_of_mem hw, hlt⟩, ?_⟩
  unfold checkLatestVersion
  simp only [mapM_id_some, hl]
  simp [not_lt.2 hle]

/-- **C105** is violated by one release whose name is not a version of PEP 440: no version is ever announced any more. -/
theorem C105_violated_name {current : Option V} {vs : List (Option V)} (h : none ∈ vs) :
    checkLatestVersion (fun a b => decide (a < b)) current (.releases vs) = (false, .unable) := by
  simp [checkLatestVersion, mapM_id_none h]

/-- in the alphabetical order, 1.3.9 comes after 1.3.10 (versions as numbers) -/
example : checkLatestVersion (fun a b => decide (a < b)) (some 1309) (.releases [some 1301, some 1310, some 1302, some 1309]) = (false, .nothing) := by
  decide +kernel

example : checkLatestVersion (fun a b => decide (a < b)) (some 1302) (.releases [some 1301, some 1310]) = (true, .newer 1310) := by
  decide +kernel

end version

end RT
