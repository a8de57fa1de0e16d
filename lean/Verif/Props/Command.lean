import Verif.Model.Command
import Verif.Spec.Command
import Verif.Props.Modes

/-! # C102: the examples of the command line; C103: the hierarchy of the classes -/

set_option linter.unusedSectionVars false
namespace RT

/-! ## C102 -/

/-- **C102**: the order in which the system lists the files of the directory does not matter. -/
theorem C102_order {d d' : List String} (h : d.Perm d') : shortExamples d = shortExamples d' := by
  have : d.insertionSort (· ≤ ·) = d'.insertionSort (· ≤ ·) :=
    List.Perm.eq_of_pairwise' (List.pairwise_insertionSort (· ≤ ·) d) (List.pairwise_insertionSort (· ≤ ·) d')
      ((List.perm_insertionSort _ d).trans (h.trans (List.perm_insertionSort _ d').symm))
  rw [shortExamples, shortExamples, this]

theorem pyStem_eq_some {s t : List Char} : pyStem s = some t ↔ s = t ++ ['.', 'p', 'y'] := by
  rw [pyStem]
  constructor
  · intro h
    split_ifs at h with hs
    rw [Option.some.injEq] at h
    rw [← h, ← hs, List.take_append_drop]
  · rintro rfl
    simp

theorem exampleName_iff {f : String} {n : List Char} : exampleName f.toList = some n ↔ IsExample f n := by
  unfold exampleName IsExample
  constructor
  · intro h
    split at h
    · cases h
    rename_i stem hs
    rw [pyStem_eq_some] at hs
    split at h
    · rename_i d ds
      split_ifs at h with hd
      cases h
      exact ⟨hs, .inl ⟨d :: ds, by simp, by simpa using hd, rfl⟩⟩
    · rename_i c cs
      split_ifs at h with hd
      cases h
      refine ⟨hs, .inr ⟨c :: cs, by simp, ?_, rfl⟩⟩
      rw [List.all_eq_true] at hd
      intro hm
      simpa using hd _ hm
    · cases h
  · rintro ⟨hf, ⟨ds, h0, hd, rfl⟩ | ⟨cs, h0, hd, rfl⟩⟩
    · rw [pyStem_eq_some.2 hf]
      match ds, h0 with
      | d :: ds, _ => simp only; rw [if_pos (by rw [List.all_eq_true]; exact hd)]
    · rw [pyStem_eq_some.2 hf]
      match cs, h0 with
      | c :: cs, _ =>
        simp only
        rw [if_pos]
        rw [List.all_eq_true]
        intro x hx
        simp only [bne_iff_ne, ne_eq]
        rintro rfl
        exact hd hx

/-- **C102**: the examples known are the files of the directory named `ex` and a number, or `fig` and anything. -/
theorem C102_files (d : List String) (n : List Char) : n ∈ shortExamples d ↔ ∃ f ∈ d, IsExample f n := by
  simp only [shortExamples, List.mem_filterMap, List.mem_insertionSort, exampleName_iff]

/-- **C102**: each has one number only. -/
theorem C102_once {d : List String} (h : d.Nodup) : (shortExamples d).Nodup := by
  rw [shortExamples]
  refine List.Nodup.filterMap ?_ ((List.perm_insertionSort _ d).nodup_iff.2 h)
  intro a a' b hb hb'
  have h1 := (exampleName_iff.1 hb).1
  have h2 := (exampleName_iff.1 hb').1
  exact String.toList_injective (h1.trans h2.symm)

theorem digitsValue_eq {s : List Char} (h : ∀ c ∈ s, c.isDigit = true) (acc : ℕ) :
    digitsValue s acc = some (Nat.ofDigitChars 10 s acc) := by
  induction s generalizing acc with
  | nil => simp [digitsValue]
  | cons c s ih =>
    have hc := h c (by simp)
    have hne : c ≠ '_' := by rintro rfl; revert hc; decide
    rw [digitsValue, if_pos hc, ih (fun x hx => h x (by simp [hx])), Nat.ofDigitChars_cons]
    · rfl
    · rintro c' s' rfl _; exact hne rfl

theorem digit_not_blank {c : Char} (h : c.isDigit = true) : isBlank c = false := by
  by_contra hb
  simp only [isBlank, Bool.not_eq_false, Bool.or_eq_true, beq_iff_eq] at hb
  rcases hb with ((((rfl | rfl) | rfl) | rfl) | rfl) | rfl <;> revert h <;> decide

theorem dropWhile_digits {s : List Char} (h : ∀ c ∈ s, c.isDigit = true) : s.dropWhile isBlank = s := by
  cases s with
  | nil => rfl
  | cons c s => rw [List.dropWhile_cons_of_neg]; simp [digit_not_blank (h c (by simp))]

theorem stripBlanks_digits {s : List Char} (h : ∀ c ∈ s, c.isDigit = true) : stripBlanks s = s := by
  rw [stripBlanks, dropWhile_digits h, dropWhile_digits (by simpa using h), List.reverse_reverse]

theorem toDigits_digits {k : ℕ} : ∀ c ∈ Nat.toDigits 10 k, c.isDigit = true :=
  fun _ hc => Nat.isDigit_of_mem_toDigits (by norm_num) le_rfl hc

theorem pyInt_toDigits (k : ℕ) : pyInt (Nat.toDigits 10 k) = .ok (k : ℤ) := by
  have hd := @toDigits_digits k
  have hv := Nat.ofDigitChars_ten_toDigits (n := k)
  rw [pyInt, stripBlanks_digits hd]
  cases hs : Nat.toDigits 10 k with
  | nil => exact absurd hs Nat.toDigits_ne_nil
  | cons c s =>
    rw [hs] at hd hv
    have hc := hd c (by simp)
    have h1 : c ≠ '-' := by rintro rfl; revert hc; decide
    have h2 : c ≠ '+' := by rintro rfl; revert hc; decide
    have hp : plainInt (c :: s) = some k := by
      rw [plainInt, if_pos hc, digitsValue_eq (fun x hx => hd x (by simp [hx])), ← hv, Nat.ofDigitChars_cons]
      simp
    split
    · rename_i h; cases h; exact absurd rfl h1
    · rename_i h; cases h; exact absurd rfl h2
    · rw [hp]

theorem splitCommas_plain {s : List Char} (h : ',' ∉ s) : splitCommas s = [s] := by
  induction s with
  | nil => rfl
  | cons c s ih =>
    simp only [List.mem_cons, not_or] at h
    have := ih h.2
    rw [splitCommas, List.cons.injEq] at this
    simp [splitCommas, splitAux, Ne.symm h.1, this.1, this.2]

theorem splitCommas_append {s : List Char} (h : ',' ∉ s) (t : List Char) : splitCommas (s ++ ',' :: t) = s :: splitCommas t := by
  induction s with
  | nil => simp [splitCommas, splitAux]
  | cons c s ih =>
    simp only [List.mem_cons, not_or] at h
    have := ih h.2
    rw [splitCommas, List.cons.injEq] at this
    simp [splitCommas, splitAux, Ne.symm h.1, this.1]
    simpa [splitCommas] using this.2

theorem comma_not_mem (k : ℕ) : ',' ∉ Nat.toDigits 10 k := fun h => by
  have := toDigits_digits _ h
  revert this; decide

theorem pyInts_commaText {ks : List ℕ} (h : ks ≠ []) : pyInts (splitCommas (commaText ks)) = .ok (ks.map fun k : ℕ => (k : ℤ)) := by
  induction ks with
  | nil => exact absurd rfl h
  | cons k ks ih =>
    cases ks with
    | nil =>
      rw [commaText, splitCommas_plain (comma_not_mem k)]
      simp only [pyInts, pyInt_toDigits]
      rfl
    | cons k' ks =>
      rw [commaText, splitCommas_append (comma_not_mem k), pyInts, pyInt_toDigits, ih (by simp)]
      rfl

theorem commaText_first {ks : List ℕ} (h : ks ≠ []) : ∃ c s, commaText ks = c :: s ∧ c.isDigit = true := by
  have hk : ∀ k, ∃ c s, Nat.toDigits 10 k = c :: s ∧ c.isDigit = true := by
    intro k
    cases hs : Nat.toDigits 10 k with
    | nil => exact absurd hs Nat.toDigits_ne_nil
    | cons c s => exact ⟨c, s, rfl, toDigits_digits (k := k) c (by simp [hs])⟩
  match ks, h with
  | [k], _ => exact hk k
  | k :: k' :: ks, _ =>
    obtain ⟨c, s, h1, h2⟩ := hk k
    exact ⟨c, s ++ ',' :: commaText (k' :: ks), by simp [commaText, h1], h2⟩

theorem wanted_commaText {n : ℕ} {ks : List ℕ} (h : ks ≠ []) : wanted n (commaText ks) = .ok (ks.map fun k : ℕ => (k : ℤ)) := by
  obtain ⟨c, s, h1, h2⟩ := commaText_first h
  rw [wanted, if_neg, if_neg, pyInts_commaText h]
  · rw [h1]; simp
  · rw [h1]; intro he; cases he; revert h2; decide

theorem pyNth_nat {α : Type} (l : List α) (k : ℕ) (hk : 1 ≤ k) : pyNth l ((k : ℤ) - 1) = match l[k - 1]? with | some a => .ok a | none => .error .indexError := by
  rw [pyNth]
  have h : ¬((k : ℤ) - 1 < 0) := by omega
  have ht : ((k : ℤ) - 1).toNat = k - 1 := by omega
  simp only [h, if_false, ht]
  cases l[k - 1]? <;> rfl

theorem runLoop_known {short : List (List Char)} {raises : List Char → Option PyErr} (hr : ∀ name ∈ short, raises name = none)
    {ks : List ℕ} (hk : ∀ k ∈ ks, 1 ≤ k ∧ k ≤ short.length) (rest : List ℤ) :
    runLoop short raises ((ks.map fun k : ℕ => (k : ℤ)) ++ rest) =
      ((ks.filterMap fun k => short[k - 1]?.map Done.ran) ++ (runLoop short raises rest).1, (runLoop short raises rest).2) := by
  induction ks with
  | nil => simp
  | cons k ks ih =>
    obtain ⟨h1, h2⟩ := hk k (by simp)
    have hg : short[k - 1]? = some (short[k - 1]'(by omega)) := List.getElem?_eq_getElem _
    rw [List.map_cons, List.cons_append, runLoop, pyNth_nat _ _ h1, hg]
    simp only [hr _ (List.getElem_mem _), ih (fun k hk' => hk k (by simp [hk'])), List.filterMap_cons, hg, Option.map_some, List.cons_append]

/-- **C102**: the option `-e` with numbers of examples runs these examples, in the order asked, and nothing else. -/
theorem C102_run {d : List String} {title : List Char → List Char} {raises : List Char → Option PyErr}
    (hr : ∀ name ∈ shortExamples d, raises name = none) {ks : List ℕ} (h0 : ks ≠ []) (hk : ∀ k ∈ ks, 1 ≤ k ∧ k ≤ (shortExamples d).length) :
    command d title raises {examples := commaText ks} = (ks.filterMap fun k => (shortExamples d)[k - 1]?.map Done.ran, none) := by
  have := runLoop_known hr hk []
  rw [List.append_nil] at this
  rw [command, wanted_commaText h0]
  simp only [Bool.false_eq_true, if_false, this]
  simp [runLoop]

/-- **C102**: without option, all the examples run, in their order. -/
theorem C102_all {d : List String} {title : List Char → List Char} {raises : List Char → Option PyErr}
    (hr : ∀ name ∈ shortExamples d, raises name = none) :
    command d title raises {} = ((shortExamples d).map Done.ran, none) := by
  have hw : wanted (shortExamples d).length ['a', 'l', 'l'] = .ok (((List.range (shortExamples d).length).map (· + 1)).map fun k : ℕ => (k : ℤ)) := by
    rw [wanted, if_pos rfl, List.map_map]; congr 1
  have := runLoop_known hr (ks := (List.range (shortExamples d).length).map (· + 1)) (by simp; omega) []
  rw [List.append_nil] at this
  rw [command, hw]
  simp only [Bool.false_eq_true, if_false, this]
  simp only [runLoop, List.append_nil, Prod.mk.injEq, and_true, List.filterMap_map]
  apply List.ext_getElem?
  intro i
  have : (List.range (shortExamples d).length).filterMap ((fun k => (shortExamples d)[k - 1]?.map Done.ran) ∘ (· + 1)) =
      (List.range (shortExamples d).length).map (fun k => Done.ran ((shortExamples d).getD k [])) := by
    rw [← List.filterMap_eq_map]
    apply List.filterMap_congr
    intro k hk
    rw [List.mem_range] at hk
    simp [hk]
  rw [this]
  by_cases hi : i < (shortExamples d).length <;> simp [hi]

theorem mem_listLines {title : List Char → List Char} {names : List (List Char)} {i k : ℕ} {name t : List Char} :
    (k, name, t) ∈ listLines title names i ↔ i < k ∧ names[k - i - 1]? = some name ∧ t = title name := by
  induction names generalizing i with
  | nil => simp [listLines]
  | cons n names ih =>
    rw [listLines, List.mem_cons, ih, Prod.mk.injEq, Prod.mk.injEq]
    constructor
    · rintro (⟨rfl, rfl, rfl⟩ | ⟨h1, h2, h3⟩)
      · simp
      · refine ⟨by omega, ?_, h3⟩
        have : k - i - 1 = (k - (i + 1) - 1) + 1 := by omega
        rw [this, List.getElem?_cons_succ, h2]
    · rintro ⟨h1, h2, h3⟩
      by_cases hk : k = i + 1
      · subst hk
        simp at h2
        exact .inl ⟨rfl, h2.symm, by rw [h3, h2]⟩
      · have : k - i - 1 = (k - (i + 1) - 1) + 1 := by omega
        rw [this, List.getElem?_cons_succ] at h2
        exact .inr ⟨by omega, h2, h3⟩

/-- **C102**: the option `-l` runs nothing: it lists every example, with its title, under a number from 1 to the number of examples. -/
theorem C102_listed (d : List String) (title : List Char → List Char) (raises : List Char → Option PyErr) :
    ∃ lines, command d title raises {list := true} = ([.listed lines], none) ∧
      (lines.map Prod.fst = (List.range (shortExamples d).length).map (· + 1)) ∧
      lines.map (fun l => l.2.1) = shortExamples d ∧ ∀ l ∈ lines, l.2.2 = title l.2.1 := by
  refine ⟨listLines title (shortExamples d) 0, ?_, ?_, ?_, ?_⟩
  · rw [command, wanted, if_pos rfl]; simp
  · suffices ∀ names i, (listLines title names i).map Prod.fst = (List.range names.length).map (· + i + 1) by simpa using this _ 0
    intro names
    induction names with
    | nil => simp [listLines]
    | cons n names ih =>
      intro i
      rw [listLines, List.map_cons, ih, List.length_cons, List.range_succ_eq_map, List.map_cons, List.map_map]
      simp only [Nat.zero_add, List.cons.injEq, true_and]
      apply List.map_congr_left
      intro a _
      simp only [Function.comp_apply]; omega
  · suffices ∀ names i, (listLines title names i).map (fun l => l.2.1) = names from this _ 0
    intro names
    induction names with
    | nil => simp [listLines]
    | cons n names ih => intro i; rw [listLines, List.map_cons, ih]
  · rintro ⟨k, n, t⟩ h
    exact (mem_listLines.1 h).2.2

/-- **C102**: the number under which an example is listed is the one that runs it. -/
theorem C102_number {d : List String} {title : List Char → List Char} {raises : List Char → Option PyErr} (hr : ∀ name ∈ shortExamples d, raises name = none)
    {lines : List (ℕ × List Char × List Char)} (hl : command d title raises {list := true} = ([.listed lines], none))
    {k : ℕ} {name t : List Char} (h : (k, name, t) ∈ lines) :
    command d title raises {examples := Nat.toDigits 10 k} = ([.ran name], none) := by
  have hl' : lines = listLines title (shortExamples d) 0 := by
    rw [command, wanted, if_pos rfl] at hl
    simpa using hl.symm
  rw [hl', mem_listLines] at h
  obtain ⟨h1, h2, -⟩ := h
  have hlt : k - 1 < (shortExamples d).length := by
    by_contra hge
    rw [Nat.sub_zero, List.getElem?_eq_none (by omega)] at h2
    cases h2
  have := C102_run (title := title) hr (ks := [k]) (by simp) (by simp; omega)
  rw [show commaText [k] = Nat.toDigits 10 k from rfl] at this
  rw [this]
  rw [Nat.sub_zero] at h2
  simp [h2]

/-- **C102** is violated: 0 is not refused, it runs the last example. -/
theorem C102_violated_zero {d : List String} {title : List Char → List Char} {raises : List Char → Option PyErr}
    (hr : ∀ name ∈ shortExamples d, raises name = none) (h : shortExamples d ≠ []) :
    command d title raises {examples := ['0']} = ([.ran ((shortExamples d).getLast h)], none) := by
  have hw : wanted (shortExamples d).length ['0'] = .ok [0] := by
    rw [wanted, if_neg (by decide), if_neg (by decide)]; decide +kernel
  rw [command, hw]
  have hl : 0 < (shortExamples d).length := List.length_pos_iff.2 h
  have hp : pyNth (shortExamples d) (0 - 1) = .ok ((shortExamples d).getLast h) := by
    rw [pyNth]
    have h1 : ¬((-1 : ℤ) + (shortExamples d).length < 0) := by omega
    have h2 : ((-1 : ℤ) + (shortExamples d).length).toNat = (shortExamples d).length - 1 := by omega
    simp only [Int.zero_sub, Int.reduceNeg, Int.reduceLT, if_true, h1, if_false, h2]
    rw [List.getElem?_eq_getElem (by omega), List.getLast_eq_getElem]
  simp only [Bool.false_eq_true, if_false, runLoop, hp, hr _ (List.getLast_mem h)]

/-- the blanks around a number do not count -/
theorem stripBlanks_around {b b' s : List Char} (hb : ∀ c ∈ b, isBlank c = true) (hb' : ∀ c ∈ b', isBlank c = true) (h0 : s ≠ [])
    (hs : ∀ c ∈ s, isBlank c = false) : stripBlanks (b ++ s ++ b') = s := by
  have drop : ∀ {b s t : List Char}, (∀ c ∈ b, isBlank c = true) → s ≠ [] → (∀ c ∈ s, isBlank c = false) →
      (b ++ (s ++ t)).dropWhile isBlank = s ++ t := by
    intro b s t hb h0 hs
    induction b with
    | nil =>
      cases s with
      | nil => exact absurd rfl h0
      | cons c s => rw [List.nil_append, List.cons_append, List.dropWhile_cons_of_neg (by simp [hs c (by simp)])]
    | cons c b ih => rw [List.cons_append, List.dropWhile_cons_of_pos (hb c (by simp)), ih fun x hx => hb x (by simp [hx])]
  rw [stripBlanks, List.append_assoc, drop hb h0 hs, List.reverse_append]
  have := drop (b := b'.reverse) (s := s.reverse) (t := []) (by simpa using hb') (by simpa using h0) (by simpa using hs)
  rw [List.append_nil] at this
  rw [this, List.reverse_reverse]

theorem plainInt_toDigits (k : ℕ) : plainInt (Nat.toDigits 10 k) = some k := by
  have hd := @toDigits_digits k
  have hv := Nat.ofDigitChars_ten_toDigits (n := k)
  cases hs : Nat.toDigits 10 k with
  | nil => exact absurd hs Nat.toDigits_ne_nil
  | cons c s =>
    rw [hs] at hd hv
    rw [plainInt, if_pos (hd c (by simp)), digitsValue_eq fun x hx => hd x (by simp [hx])]
    rw [Nat.ofDigitChars_cons] at hv
    simpa using hv

/-- a number with a sign and blanks around it -/
theorem pyInt_signs {b b' : List Char} (hb : ∀ c ∈ b, isBlank c = true) (hb' : ∀ c ∈ b', isBlank c = true) (k : ℕ) :
    pyInt (b ++ ('-' :: Nat.toDigits 10 k) ++ b') = .ok (-(k : ℤ)) ∧ pyInt (b ++ ('+' :: Nat.toDigits 10 k) ++ b') = .ok (k : ℤ) ∧
      pyInt (b ++ Nat.toDigits 10 k ++ b') = .ok (k : ℤ) := by
  have hd : ∀ c ∈ Nat.toDigits 10 k, isBlank c = false := fun c hc => digit_not_blank (toDigits_digits c hc)
  refine ⟨?_, ?_, ?_⟩
  · rw [pyInt, stripBlanks_around hb hb' (by simp) (by simpa using ⟨by decide, hd⟩)]
    simp only [plainInt_toDigits]
  · rw [pyInt, stripBlanks_around hb hb' (by simp) (by simpa using ⟨by decide, hd⟩)]
    simp only [plainInt_toDigits]
  · rw [pyInt, stripBlanks_around hb hb' Nat.toDigits_ne_nil hd, ← pyInt_toDigits k, pyInt, stripBlanks_digits toDigits_digits]

/-- **C102** is violated: negative numbers are not refused, they count from the last example but one. -/
theorem C102_violated_negative {d : List String} {title : List Char → List Char} {raises : List Char → Option PyErr}
    (hr : ∀ name ∈ shortExamples d, raises name = none) {k : ℕ} (h : k + 1 ≤ (shortExamples d).length) :
    command d title raises {examples := '-' :: Nat.toDigits 10 k} = ([.ran ((shortExamples d)[(shortExamples d).length - (k + 1)]'(by omega))], none) := by
  have hi := (pyInt_signs (b := []) (b' := []) (by simp) (by simp) k).1
  rw [List.nil_append, List.append_nil] at hi
  have hw : wanted (shortExamples d).length ('-' :: Nat.toDigits 10 k) = .ok [-(k : ℤ)] := by
    rw [wanted, if_neg (by simp), if_neg (by simp), splitCommas_plain (by simp [comma_not_mem k])]
    simp only [pyInts, hi]; rfl
  rw [command, hw]
  have hp : pyNth (shortExamples d) (-(k : ℤ) - 1) = .ok ((shortExamples d)[(shortExamples d).length - (k + 1)]'(by omega)) := by
    rw [pyNth]
    have h1 : -(k : ℤ) - 1 < 0 := by omega
    have h2 : ¬(-(k : ℤ) - 1 + (shortExamples d).length < 0) := by omega
    have h3 : (-(k : ℤ) - 1 + (shortExamples d).length).toNat = (shortExamples d).length - (k + 1) := by omega
    simp only [h1, if_true, h2, if_false, h3]
    rw [List.getElem?_eq_getElem (by omega)]
  simp only [Bool.false_eq_true, if_false, runLoop, hp, hr _ (List.getElem_mem _)]

/-- **C102**: an underscore between two digits, a sign plus before a number and blanks around it do not count. -/
theorem C102_written (d : List String) (title : List Char → List Char) (raises : List Char → Option PyErr) :
    (∀ s t : List Char, s ≠ [] → t ≠ [] → (∀ c ∈ s, c.isDigit = true) → (∀ c ∈ t, c.isDigit = true) →
      command d title raises {examples := s ++ '_' :: t} = command d title raises {examples := s ++ t}) ∧
    ∀ (b b' : List Char) (k : ℕ), (∀ c ∈ b, isBlank c = true) → (∀ c ∈ b', isBlank c = true) →
      command d title raises {examples := b ++ ('+' :: Nat.toDigits 10 k) ++ b'} = command d title raises {examples := Nat.toDigits 10 k} := by
  have all : ∀ {s : List Char} {c : Char}, s ≠ [] → c ∈ s → c ≠ 'a' → c ≠ 'l' → s ≠ ['a', 'l', 'l'] := by
    rintro s c - hc h1 h2 rfl
    simp [h1, h2] at hc
  have plain : ∀ {s : List Char} {c : Char}, c ∈ s → c ≠ 'a' → c ≠ 'l' → ',' ∉ s → ∀ n, wanted n s = (pyInt s).map fun k => [k] := by
    intro s c hc h1 h2 h3 n
    rw [wanted, if_neg (all (List.ne_nil_of_mem hc) hc h1 h2), if_neg (List.ne_nil_of_mem hc), splitCommas_plain h3, pyInts]
    cases pyInt s <;> rfl
  have dig : ∀ {c : Char}, c.isDigit = true → c ≠ 'a' ∧ c ≠ 'l' ∧ c ≠ ',' := by
    intro c h
    refine ⟨?_, ?_, ?_⟩ <;> rintro rfl <;> revert h <;> decide
  refine ⟨fun s t hs ht h1 h2 => ?_, fun b b' k hb hb' => ?_⟩
  · obtain ⟨c, s, rfl⟩ := List.exists_cons_of_ne_nil hs
    obtain ⟨e, t, rfl⟩ := List.exists_cons_of_ne_nil ht
    have hc := dig (h1 c (by simp))
    have skip : ∀ (s : List Char) (acc : ℕ), (∀ c ∈ s, c.isDigit = true) → digitsValue (s ++ '_' :: e :: t) acc = digitsValue (s ++ e :: t) acc := by
      intro s
      induction s with
      | nil =>
        intro acc _
        rw [List.nil_append, List.nil_append, digitsValue, digitsValue_eq h2, if_pos (h2 e (by simp)), digitsValue_eq fun x hx => h2 x (by simp [hx]),
          Nat.ofDigitChars_cons]
        rfl
      | cons x s ih =>
        intro acc hx
        have hx' := hx x (by simp)
        have hne : x ≠ '_' := by rintro rfl; revert hx'; decide
        rw [List.cons_append, List.cons_append, digitsValue, digitsValue, if_pos hx', if_pos hx', ih _ fun y hy => hx y (by simp [hy])]
        · rintro c' s' rfl _; exact hne rfl
        · rintro c' s' rfl _; exact hne rfl
    have nb : ∀ x ∈ (c :: s) ++ '_' :: e :: t, isBlank x = false := by
      intro x hx
      rw [List.mem_append, List.mem_cons (l := e :: t)] at hx
      rcases hx with hx | rfl | hx
      · exact digit_not_blank (h1 x hx)
      · decide
      · exact digit_not_blank (h2 x hx)
    have nb' : ∀ x ∈ (c :: s) ++ e :: t, isBlank x = false := fun x hx => nb x (by simp only [List.mem_append, List.mem_cons] at hx ⊢; tauto)
    have strip : ∀ {s : List Char}, s ≠ [] → (∀ x ∈ s, isBlank x = false) → stripBlanks s = s := by
      intro s h0 h
      have := stripBlanks_around (b := []) (b' := []) (by simp) (by simp) h0 h
      rwa [List.nil_append, List.append_nil] at this
    have hm : c ≠ '-' ∧ c ≠ '+' := by
      have := h1 c (by simp)
      constructor <;> rintro rfl <;> revert this <;> decide
    have hi : pyInt ((c :: s) ++ '_' :: e :: t) = pyInt ((c :: s) ++ e :: t) := by
      have unsigned : ∀ r : List Char, stripBlanks (c :: r) = c :: r →
          pyInt (c :: r) = match plainInt (c :: r) with | some n => .ok (n : ℤ) | none => .error .valueError := by
        intro r h
        rw [pyInt, h]
        split
        · rename_i h; cases h; exact absurd rfl hm.1
        · rename_i h; cases h; exact absurd rfl hm.2
        · rfl
      rw [List.cons_append, List.cons_append, unsigned (s ++ '_' :: e :: t) (strip (by simp) nb), unsigned (s ++ e :: t) (strip (by simp) nb'), plainInt, plainInt,
        skip s _ fun y hy => h1 y (by simp [hy])]
    have nc : ',' ∉ (c :: s) ++ '_' :: e :: t := by
      intro hx
      rw [List.mem_append, List.mem_cons (l := e :: t)] at hx
      rcases hx with hx | hx | hx
      · exact (dig (h1 _ hx)).2.2 rfl
      · revert hx; decide
      · exact (dig (h2 _ hx)).2.2 rfl
    have nc' : ',' ∉ (c :: s) ++ e :: t := fun hx => nc (by simp only [List.mem_append, List.mem_cons] at hx ⊢; tauto)
    simp only [command]
    rw [plain (c := c) (by simp) hc.1 hc.2.1 nc, plain (c := c) (by simp) hc.1 hc.2.1 nc', hi]
  · obtain ⟨-, h1, h2⟩ := pyInt_signs hb hb' k
    have bl : ∀ {c : Char}, isBlank c = true → c ≠ ',' := by rintro c h rfl; revert h; decide
    have nc : ',' ∉ b ++ ('+' :: Nat.toDigits 10 k) ++ b' := by
      intro hx
      rw [List.mem_append, List.mem_append, List.mem_cons] at hx
      rcases hx with (hx | hx | hx) | hx
      · exact bl (hb _ hx) rfl
      · revert hx; decide
      · exact comma_not_mem k hx
      · exact bl (hb' _ hx) rfl
    obtain ⟨c, s, hcs⟩ := List.exists_cons_of_ne_nil (Nat.toDigits_ne_nil (n := k) (b := 10))
    have hc := dig (toDigits_digits (k := k) c (by simp [hcs]))
    simp only [command]
    rw [plain (c := c) (by simp [hcs]) hc.1 hc.2.1 nc, plain (c := c) (by simp [hcs]) hc.1 hc.2.1 (comma_not_mem k), h1, pyInt_toDigits]

/-- **C102**: the option for the hierarchy of the classes is served first, then the one for the tests, then the list; no example runs with any of them, once the numbers
of the examples can be read. -/
theorem C102_first {d : List String} {title : List Char → List Char} {raises : List Char → Option PyErr} {ks : List ℕ} (h0 : ks ≠ []) (list tests : Bool) :
    command d title raises {examples := commaText ks, classes := true, tests := tests, list := list} = ([.classes], none) ∧
    command d title raises {examples := commaText ks, tests := true, list := list} = ([.tests], none) := by
  constructor <;> rw [command, wanted_commaText h0] <;> simp

/-- **C102** is violated: a number that is not in the list is not reported before anything runs: the examples before it run, then an `IndexError` is raised. -/
theorem C102_violated_unknown {d : List String} {title : List Char → List Char} {raises : List Char → Option PyErr}
    (hr : ∀ name ∈ shortExamples d, raises name = none) {ks ks' : List ℕ} (hk : ∀ k ∈ ks, 1 ≤ k ∧ k ≤ (shortExamples d).length)
    {k : ℕ} (h : (shortExamples d).length < k) :
    command d title raises {examples := commaText (ks ++ k :: ks')} = (ks.filterMap fun k => (shortExamples d)[k - 1]?.map Done.ran, some .indexError) := by
  rw [command, wanted_commaText (by simp)]
  simp only [Bool.false_eq_true, if_false, List.map_append, List.map_cons]
  rw [runLoop_known hr hk, runLoop, pyNth_nat _ _ (by omega), List.getElem?_eq_none (by omega)]
  simp

/-- An example that raises is the last to run. -/
theorem C102_raises {d : List String} {title : List Char → List Char} {raises : List Char → Option PyErr} {e : PyErr} {name : List Char} {before after : List (List Char)}
    (hs : shortExamples d = before ++ name :: after) (hr : ∀ n ∈ before, raises n = none) (he : raises name = some e) :
    command d title raises {} = ((before ++ [name]).map Done.ran, some e) := by
  have hloop : ∀ (pre mid : List (List Char)), pre ++ mid = before → 
      runLoop (before ++ name :: after) raises (((List.range' pre.length (mid.length + 1 + after.length)).map fun k : ℕ => (k : ℤ) + 1)) =
        ((mid ++ [name]).map Done.ran, some e) := by
    intro pre mid
    induction mid generalizing pre with
    | nil =>
      intro h
      rw [List.append_nil] at h
      rw [List.length_nil, show 0 + 1 + after.length = after.length + 1 by omega, List.range'_succ, List.map_cons, runLoop,
        show ((pre.length : ℤ) + 1 - 1) = ((pre.length + 1 : ℕ) : ℤ) - 1 by push_cast; ring, pyNth_nat _ _ (by omega), ← h]
      simp [he]
    | cons m mid ih =>
      intro h
      have hm : raises m = none := hr m (by rw [← h]; simp)
      have := ih (pre ++ [m]) (by rw [← h]; simp)
      rw [List.length_append, List.length_singleton] at this
      rw [List.length_cons, show mid.length + 1 + 1 + after.length = (mid.length + 1 + after.length) + 1 by omega, List.range'_succ, List.map_cons, runLoop,
        show ((pre.length : ℤ) + 1 - 1) = ((pre.length + 1 : ℕ) : ℤ) - 1 by push_cast; ring, pyNth_nat _ _ (by omega), this]
      rw [← h]
      simp [hm]
  rw [command, wanted, if_pos rfl, hs]
  simp only [Bool.false_eq_true, if_false]
  have := hloop [] before rfl
  rw [List.range_eq_range']
  rw [show (before ++ name :: after).length = before.length + 1 + after.length by simp; omega]
  exact this

def repoDirectory : List String := ["README.md", "__init__.py", "fig6-lsmConfocalpinhole.py", "ex02.py", "ex10.py", "template.py", "ex01.py", "fig1-matrices.png",
  "ex.py", "illuminator.py"]

/-- The hypotheses are met: a directory with four examples; the second and the fourth are asked. -/
example : shortExamples repoDirectory = ["ex01".toList, "ex02".toList, "ex10".toList, "fig6-lsmConfocalpinhole".toList] ∧ repoDirectory.Nodup ∧
    commaText [2, 4] = "2,4".toList ∧
    command repoDirectory (fun _ => []) (fun _ => none) {examples := "2, 4".toList} = ([.ran "ex02".toList, .ran "fig6-lsmConfocalpinhole".toList], none) ∧
    command repoDirectory (fun _ => []) (fun _ => none) {examples := " +0_2\t,-2".toList} = ([.ran "ex02".toList, .ran "ex02".toList], none) := by
  decide +kernel

/-! ## C103 -/

mutual
/-- **C103**: the lines printed between the braces are exactly the pairs of a class of the tree and one of its direct subclasses. -/
theorem C103_edges (t : ClassTree) (a b : String) : (a, b) ∈ t.printed ↔
    ∃ u, (u = t ∨ t.Below u) ∧ u.name = a ∧ ∃ c ∈ u.children, c.name = b := by
  cases t with
  | node n cs =>
    rw [ClassTree.printed, edges_list n cs a b]
    constructor
    · rintro (⟨rfl, c, hc, rfl⟩ | ⟨c, hc, u, hu, h⟩)
      · exact ⟨_, .inl rfl, rfl, c, hc, rfl⟩
      · exact ⟨u, .inr ((below_iff _ _ _).2 ⟨c, hc, hu⟩), h⟩
    · rintro ⟨u, rfl | hu, rfl, c, hc, rfl⟩
      · exact .inl ⟨rfl, c, hc, rfl⟩
      · obtain ⟨c', hc', hu⟩ := (below_iff _ _ _).1 hu
        exact .inr ⟨c', hc', u, hu, rfl, c, hc, rfl⟩

theorem edges_list (n : String) (cs : List ClassTree) (a b : String) : (a, b) ∈ ClassTree.printedList n cs ↔
    (a = n ∧ ∃ c ∈ cs, c.name = b) ∨ ∃ c ∈ cs, ∃ u, (u = c ∨ c.Below u) ∧ u.name = a ∧ ∃ c' ∈ u.children, c'.name = b := by
  match cs with
  | [] => simp [ClassTree.printedList]
  | .node m ds :: cs =>
    rw [ClassTree.printedList, List.mem_cons, List.mem_append, edges_list n cs a b, C103_edges (.node m ds) a b, Prod.mk.injEq,
      List.exists_mem_cons_iff, List.exists_mem_cons_iff]
    simp only [ClassTree.name]
    constructor
    · rintro (⟨rfl, rfl⟩ | h | ⟨rfl, h⟩ | h)
      · exact .inl ⟨rfl, .inl rfl⟩
      · exact .inr (.inl h)
      · exact .inl ⟨rfl, .inr h⟩
      · exact .inr (.inr h)
    · rintro (⟨rfl, rfl | h⟩ | h | h)
      · exact .inl ⟨rfl, rfl⟩
      · exact .inr (.inr (.inl ⟨rfl, h⟩))
      · exact .inr (.inl h)
      · exact .inr (.inr (.inr h))
end

mutual
def ClassTree.size : ClassTree → ℕ
  | .node _ cs => ClassTree.sizeList cs + 1

def ClassTree.sizeList : List ClassTree → ℕ
  | [] => 0
  | c :: cs => ClassTree.size c + ClassTree.sizeList cs
end

mutual
/-- **C103**: one line for each class of the tree but the first, and each place in the tree is printed once. -/
theorem C103_count (t : ClassTree) : t.printed.length + 1 = t.size := by
  cases t with
  | node n cs => rw [ClassTree.printed, ClassTree.size, count_list n cs]

theorem count_list (n : String) (cs : List ClassTree) : (ClassTree.printedList n cs).length = ClassTree.sizeList cs := by
  match cs with
  | [] => simp [ClassTree.printedList, ClassTree.sizeList]
  | .node m ds :: cs =>
    rw [ClassTree.printedList, ClassTree.sizeList, List.length_cons, List.length_append, count_list n cs, ← C103_count (.node m ds)]
    omega
end

/-- **C103**: what is printed is a comment, one graph between braces, and one line per pair. -/
theorem C103_text (t : ClassTree) (a b : String) (u c : ClassTree) (hu : u = t ∨ t.Below u) (hc : c ∈ u.children) (ha : u.name = a) (hb : c.name = b) :
    ("\"" ++ a ++ "\" -> \"" ++ b ++ "\"") ∈ t.hierarchy ∧ t.hierarchy.head? = some "# Paste this in the text field of http://www.graphviz.org" ∧
      t.hierarchy.getLast? = some "}" ∧ t.hierarchy.length = t.size + 3 := by
  refine ⟨?_, rfl, by rw [ClassTree.hierarchy, List.getLast?_append]; rfl, ?_⟩
  · simp only [ClassTree.hierarchy, List.mem_append, List.mem_map]
    exact .inl (.inr ⟨(a, b), (C103_edges t a b).2 ⟨u, hu, ha, c, hc, hb⟩, rfl⟩)
  · have := C103_count t
    simp [ClassTree.hierarchy]
    omega

def namesakes : ClassTree := .node "Matrix" [.node "Lens" [.node "A" []], .node "Lens" [.node "B" []]]

def onlyOneParent : ClassTree := .node "Matrix" [.node "Lens" [.node "A" [], .node "B" []], .node "Lens" []]

/-- **C103** is violated for classes of the same name (C92: some names of the catalogue are used twice): they are one vertex of the graph, and the same lines are printed
whether a class derives from the one or from the other. -/
theorem C103_violated : namesakes ≠ onlyOneParent ∧ ∀ line, line ∈ namesakes.hierarchy ↔ line ∈ onlyOneParent.hierarchy := by
  constructor
  · intro h
    unfold namesakes onlyOneParent at h
    simp at h
  · have h1 : namesakes.printed = [("Matrix", "Lens"), ("Lens", "A"), ("Matrix", "Lens"), ("Lens", "B")] := by decide +kernel
    have h2 : onlyOneParent.printed = [("Matrix", "Lens"), ("Lens", "A"), ("Lens", "B"), ("Matrix", "Lens")] := by decide +kernel
    intro line
    simp only [ClassTree.hierarchy, h1, h2, List.mem_append, List.mem_map, List.mem_cons, List.not_mem_nil, or_false]
    aesop

/-- The hypotheses are met: three classes below one. -/
example : (ClassTree.node "Matrix" [.node "Lens" [.node "MyLens" []], .node "Space" []]).hierarchy =
    ["# Paste this in the text field of http://www.graphviz.org", "digraph G {", "  rankdir=\"LR\";", "\"Matrix\" -> \"Lens\"", "\"Lens\" -> \"MyLens\"",
      "\"Matrix\" -> \"Space\"", "}"] := by decide +kernel

end RT
