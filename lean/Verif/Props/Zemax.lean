import Verif.Model.Zemax
import Verif.Lemmas.Matched
import Verif.Lemmas.Components

/-! # C54 the lens of a Zemax file, C55 reading a Zemax file -/

set_option linter.unusedSectionVars false

namespace RT
namespace Zmx
open PyNum Ext

/-! ## C55 lines -/

/-- a run of white space -/
def Blank (s : List Char) : Prop := ∀ c ∈ s, ws c = true
/-- a word: not empty and without white space -/
def Word (s : List Char) : Prop := s ≠ [] ∧ ∀ c ∈ s, ws c = false

theorem splitRuns_word {w : List Char} (hw : ∀ c ∈ w, ws c = false) (cur : List Char) (sp : Bool) (rest : List Char) (hne : w ≠ []) :
    splitRuns cur sp (w ++ rest) = splitRuns (w.reverse ++ cur) false rest := by
  induction w generalizing cur sp with
  | nil => exact absurd rfl hne
  | cons c w ih =>
    have hc := hw c (by simp)
    simp only [List.cons_append, splitRuns, hc, Bool.false_eq_true, if_false]
    cases w with
    | nil => simp
    | cons d w => rw [ih (fun c hc => hw c (by simp [hc])) _ _ (by simp)]; simp

theorem splitRuns_blank_true {b : List Char} (hb : Blank b) (cur : List Char) (rest : List Char) :
    splitRuns cur true (b ++ rest) = splitRuns cur true rest := by
  induction b with
  | nil => rfl
  | cons c b ih =>
    simp only [List.cons_append, splitRuns, hb c (by simp), if_true]
    exact ih fun c hc => hb c (by simp [hc])

theorem splitRuns_blank {b : List Char} (hb : Blank b) (hne : b ≠ []) (cur : List Char) (rest : List Char) :
    splitRuns cur false (b ++ rest) = cur.reverse :: splitRuns [] true rest := by
  cases b with
  | nil => exact absurd rfl hne
  | cons c b =>
    simp only [List.cons_append, splitRuns, hb c (by simp), if_true, Bool.false_eq_true, if_false]
    rw [splitRuns_blank_true fun c hc => hb c (by simp [hc])]

/-- words separated by blanks: the text of a line without its ends -/
def body : List Char → List (List Char × List Char) → List Char
  | w, [] => w
  | w, (b, w') :: rest => w ++ b ++ body w' rest

theorem splitRuns_body {w : List Char} (hw : Word w) (rest : List (List Char × List Char))
    (hr : ∀ p ∈ rest, Blank p.1 ∧ p.1 ≠ [] ∧ Word p.2) (sp : Bool) :
    splitRuns [] sp (body w rest) = w :: rest.map Prod.snd := by
  induction rest generalizing w sp with
  | nil =>
    have := splitRuns_word hw.2 [] sp [] hw.1
    simp only [List.append_nil] at this
    simp [body, this, splitRuns]
  | cons p rest ih =>
    obtain ⟨b, w'⟩ := p
    obtain ⟨h1, h2, h3⟩ := hr (b, w') (by simp)
    simp only [body, List.append_assoc]
    rw [splitRuns_word hw.2 [] sp _ hw.1, List.append_nil, splitRuns_blank h1 h2]
    simp only [List.reverse_reverse, List.map_cons]
    rw [ih h3 (fun p hp => hr p (by simp [hp])) true]

theorem dropWhile_blank {b : List Char} (hb : Blank b) (s : List Char) (hs : ∀ c ∈ s.head?, ws c = false) :
    (b ++ s).dropWhile ws = s := by
  induction b with
  | nil =>
    cases s with
    | nil => rfl
    | cons c s => simp [hs c (by simp)]
  | cons c b ih => simp [hb c (by simp)]; exact ih fun c hc => hb c (by simp [hc])

theorem body_head {w : List Char} (hw : Word w) (rest : List (List Char × List Char)) :
    ∀ c ∈ (body w rest).head?, ws c = false := by
  obtain ⟨c, w, rfl⟩ := List.exists_cons_of_ne_nil hw.1
  intro d hd
  have : (body (c :: w) rest).head? = some c := by cases rest <;> rfl
  rw [this] at hd
  simp only [Option.mem_def, Option.some.injEq] at hd
  subst hd
  exact hw.2 _ (by simp)

theorem body_last {w : List Char} (hw : Word w) (rest : List (List Char × List Char))
    (hr : ∀ p ∈ rest, Blank p.1 ∧ p.1 ≠ [] ∧ Word p.2) : ∀ c ∈ (body w rest).getLast?, ws c = false := by
  induction rest generalizing w with
  | nil =>
    intro c hc
    exact hw.2 c (List.mem_of_getLast? hc)
  | cons p rest ih =>
    obtain ⟨b, w'⟩ := p
    obtain ⟨-, -, h3⟩ := hr (b, w') (by simp)
    intro c hc
    have hne : body w' rest ≠ [] := by
      intro h0
      obtain ⟨d, w'', h4⟩ := List.exists_cons_of_ne_nil h3.1
      subst h4
      cases rest <;> simp [body] at h0
    simp only [body] at hc
    rw [List.getLast?_append_of_ne_nil _ hne] at hc
    exact ih h3 (fun p hp => hr p (by simp [hp])) c hc

/-- **C55.** Every line `KEY value ... value` is read as its key and its values, whatever the white space between the words, before
the first one and after the last one. -/
theorem C55_line {b b' w : List Char} {rest : List (List Char × List Char)} (hb : Blank b) (hb' : Blank b') (hw : Word w)
    (hr : ∀ p ∈ rest, Blank p.1 ∧ p.1 ≠ [] ∧ Word p.2) :
    parseLine (b ++ body w rest ++ b') = ⟨w, rest.map Prod.snd⟩ := by
  have h1 : strip (b ++ body w rest ++ b') = body w rest := by
    unfold strip
    have hhead : ∀ c ∈ (body w rest ++ b').head?, ws c = false := by
      intro c hc
      refine body_head hw rest c ?_
      obtain ⟨d, w'', h4⟩ := List.exists_cons_of_ne_nil hw.1
      subst h4
      cases rest <;> exact hc
    rw [List.append_assoc, dropWhile_blank hb _ hhead, List.reverse_append]
    have h2 : Blank b'.reverse := fun c hc => hb' c (List.mem_reverse.1 hc)
    rw [dropWhile_blank h2, List.reverse_reverse]
    intro c hc
    rw [List.head?_reverse] at hc
    exact body_last hw rest hr c hc
  unfold parseLine fields
  rw [h1, splitRuns_body hw rest hr]

/-- **C55.** A line without words is read as a line with an empty key. -/
theorem C55_blank {b : List Char} (hb : Blank b) : parseLine b = ⟨[], []⟩ := by
  have h1 : strip b = [] := by
    unfold strip
    have := dropWhile_blank hb [] (by simp)
    rw [List.append_nil] at this
    rw [this]; rfl
  unfold parseLine fields
  rw [h1]; rfl

/-- a reader of a few numbers, for the example -/
def someReader : Reader (Ext ℚ) :=
  ⟨fun s => if s = "0.5".toList then some (fin (1/2)) else if s = "0".toList then some (fin 0) else some (fin 2),
   fun s => if s = "0".toList then some 0 else some 1⟩

set_option synthInstance.maxSize 1024 in
/-- Two surfaces, one flat, in inches. -/
example : (surfaces someReader (fin (127/5)) (["UNIT IN", "SURF 0", " CURV 0.5 0", " DISZ 0.5", " GLAS N-BK7 1", "SURF 1", " CURV 0",
      " DISZ 0", " DIAM 0.5"].map fun s => parseLine s.toList)).map
        (fun (ss : List (Surface (Ext ℚ))) => ss.map fun s => (s.number, s.R, s.diameter, s.mat.name, s.spacing))
      = .ok [(0, fin (254/5), pinf, "N_BK7", fin (127/10)), (1, pinf, fin (127/5), "Air", fin 0)] := by decide +kernel

example : parseLine "  SURF 12 \r\n".toList = ⟨"SURF".toList, ["12".toList]⟩ := by decide +kernel

/-! ## C55 units -/

section unit
variable {F : Type} [PyNum F]

/-- the lines of a given key -/
def ofKey (lines : List Line) (key : List Char) : List Line := lines.filter fun l => areTheSame l.name key

theorem values_eq (key : List Char) (index : Nat) (lines : List Line) (h : ∀ l ∈ ofKey lines key, index < l.params.length) :
    values key index lines = .ok ((ofKey lines key).map fun l => l.params.getD index []) := by
  induction lines with
  | nil => rfl
  | cons l lines ih =>
    by_cases hk : areTheSame l.name key = true
    · have hl := h l (by simp [ofKey, hk])
      have hi := ih fun l' hl' => h l' (by
        simp only [ofKey, List.mem_filter] at hl' ⊢; exact ⟨by simp [hl'.1], hl'.2⟩)
      simp only [values, hk, if_true, List.getElem?_eq_getElem hl, hi, Except.map, ofKey, List.filter_cons, List.map_cons]
      simp [hl]
    · have hi := ih fun l' hl' => h l' (by
        simp only [ofKey, List.mem_filter] at hl' ⊢; exact ⟨by simp [hl'.1], hl'.2⟩)
      simp only [values, hk, Bool.false_eq_true, if_false, hi, ofKey, List.filter_cons]

/-- **C55.** With one line `UNIT u ...` in the file, wherever it is and whatever its case: the factor is 25.4 for inches and 1
otherwise. -/
theorem C55_unit_partial {lines : List Line} {l : Line} {u : List Char} {us : List (List Char)}
    (h : ofKey lines "UNIT".toList = [l]) (hl : l.params = u :: us) :
    (unitFactor lines : Except PyErr F) =
      .ok (if u.map Char.toLower = "in".toList then lit (254 / 10) else 1) := by
  have hv := values_eq "UNIT".toList 0 lines (by rw [h]; simp [hl])
  rw [h] at hv
  unfold unitFactor value
  rw [hv]
  have he : areTheSame "IN".toList u = decide (u.map Char.toLower = "in".toList) := by
    have : "IN".toList.map Char.toLower = "in".toList := by decide
    unfold areTheSame
    rw [this, Bool.eq_iff_iff, beq_iff_eq, decide_eq_true_eq]
    exact eq_comm
  simp only [List.map_cons, List.map_nil, Except.map, hl, List.getD_cons_zero, he, decide_eq_true_eq]

/-- **C55** is violated when no unit is given: reading the file raises `AttributeError`. The same for several `UNIT` lines. -/
theorem C55_unit_violated {lines : List Line} (h : (ofKey lines "UNIT".toList).length ≠ 1)
    (hp : ∀ l ∈ ofKey lines "UNIT".toList, l.params ≠ []) :
    (unitFactor lines : Except PyErr F) = .error .attributeError := by
  have hv := values_eq "UNIT".toList 0 lines fun l hl => List.length_pos_of_ne_nil (hp l hl)
  unfold unitFactor value
  rw [hv]
  cases hk : ofKey lines "UNIT".toList with
  | nil => simp [Except.map]
  | cons a as =>
    cases as with
    | nil => rw [hk] at h; simp at h
    | cons b bs => simp [Except.map]

/-! ## C55 wavelengths -/

variable (P : Reader F)

theorem floats_ok {ws : List (List Char)} {xs : List F} (h : ws.map P.float = xs.map some) : floats P ws = .ok xs := by
  induction ws generalizing xs with
  | nil => cases xs with
    | nil => rfl
    | cons x xs => simp at h
  | cons w ws ih => cases xs with
    | nil => simp at h
    | cons x xs =>
      simp only [List.map_cons, List.cons.injEq] at h
      simp [floats, Reader.toFloat, h.1, ih h.2, Except.map]

theorem dropPadding_ok {ws : List (List Char)} {xs : List F} (h : ws.map P.float = xs.map some) :
    dropPadding P ws = if xs.all (· ==. lit (55 / 100)) then .error .indexError
      else .ok (ws.drop (xs.takeWhile (· ==. lit (55 / 100))).length) := by
  induction ws generalizing xs with
  | nil => cases xs with
    | nil => simp [dropPadding]
    | cons x xs => simp at h
  | cons w ws ih => cases xs with
    | nil => simp at h
    | cons x xs =>
      simp only [List.map_cons, List.cons.injEq] at h
      by_cases hx : (x ==. lit (55 / 100)) = true
      · simp only [dropPadding, Reader.toFloat, h.1, hx, if_true, List.all_cons, Bool.true_and, List.takeWhile_cons,
          List.length_cons, List.drop_succ_cons]
        exact ih h.2
      · simp [dropPadding, Reader.toFloat, h.1, hx]

theorem value_many {vs : List (List Char)} (h : vs.length ≠ 1) :
    Except.map (fun vs => match vs with
      | [v] => Value.one v
      | vs => Value.many vs) (Except.ok vs : Except PyErr (List (List Char))) = .ok (.many vs) := by
  match vs, h with
  | [], _ => rfl
  | [v], h => exact absurd rfl h
  | _ :: _ :: _, _ => rfl

/-- **C55.** With several `WAVM` lines that can be read, the design wavelengths are those listed, in order, without the default
values 0.55 at the end, provided that one of them is another value. -/
theorem C55_wavelengths_partial {lines : List Line} {xs : List F}
    (hp : ∀ l ∈ ofKey lines "WAVM".toList, 1 < l.params.length)
    (hx : (ofKey lines "WAVM".toList).map (fun l => P.float (l.params.getD 1 [])) = xs.map some) (h2 : xs.length ≠ 1)
    (hne : xs.all (· ==. lit (55 / 100)) = false) :
    designWavelengths P lines = .ok (xs.reverse.dropWhile (· ==. lit (55 / 100))).reverse := by
  have hv := values_eq "WAVM".toList 1 lines hp
  set vs := (ofKey lines "WAVM".toList).map fun l => l.params.getD 1 [] with hvs
  have hx' : vs.map P.float = xs.map some := by rw [hvs, List.map_map]; exact hx
  have hlen : vs.length = xs.length := by simpa using congrArg List.length hx'
  have hval : value lines "WAVM".toList 1 = .ok (.many vs) := by
    unfold value
    rw [hv]
    exact value_many fun hh => h2 (hlen ▸ hh)
  unfold designWavelengths
  rw [hval]
  have hr : vs.reverse.map P.float = xs.reverse.map some := by rw [List.map_reverse, hx', List.map_reverse]
  simp only
  rw [dropPadding_ok P hr]
  have hne' : xs.reverse.all (· ==. lit (55 / 100)) = false := by rw [List.all_reverse]; exact hne
  rw [hne']
  simp only [Bool.false_eq_true, if_false]
  apply floats_ok
  set k := (xs.reverse.takeWhile (· ==. lit (55 / 100))).length
  have hd : xs.reverse.dropWhile (· ==. lit (55 / 100)) = xs.reverse.drop k := by
    conv_rhs => rw [← List.takeWhile_append_dropWhile (p := (· ==. lit (55 / 100))) (l := xs.reverse)]
    rw [List.drop_left]
  rw [hd, List.map_reverse, List.map_drop, hr, List.map_reverse (l := List.drop k xs.reverse), List.map_drop]

/-- **C55** is violated when all the wavelengths listed are 0.55, or when none is listed: `IndexError`. -/
theorem C55_wavelengths_violated {lines : List Line} {xs : List F}
    (hp : ∀ l ∈ ofKey lines "WAVM".toList, 1 < l.params.length)
    (hx : (ofKey lines "WAVM".toList).map (fun l => P.float (l.params.getD 1 [])) = xs.map some) (h2 : xs.length ≠ 1)
    (hall : xs.all (· ==. lit (55 / 100)) = true) :
    designWavelengths P lines = .error .indexError := by
  have hv := values_eq "WAVM".toList 1 lines hp
  set vs := (ofKey lines "WAVM".toList).map fun l => l.params.getD 1 [] with hvs
  have hx' : vs.map P.float = xs.map some := by rw [hvs, List.map_map]; exact hx
  have hlen : vs.length = xs.length := by simpa using congrArg List.length hx'
  have hval : value lines "WAVM".toList 1 = .ok (.many vs) := by
    unfold value
    rw [hv]
    exact value_many fun hh => h2 (hlen ▸ hh)
  unfold designWavelengths
  rw [hval]
  have hr : vs.reverse.map P.float = xs.reverse.map some := by rw [List.map_reverse, hx', List.map_reverse]
  simp only
  rw [dropPadding_ok P hr]
  have hall' : xs.reverse.all (· ==. lit (55 / 100)) = true := by rw [List.all_reverse]; exact hall
  rw [hall']
  simp

/-- **C55.** A single wavelength is kept, also 0.55. -/
theorem C55_one_wavelength {lines : List Line} {l : Line} {x : F} (h : ofKey lines "WAVM".toList = [l]) (hp : 1 < l.params.length)
    (hx : P.float (l.params.getD 1 []) = some x) : designWavelengths P lines = .ok [x] := by
  have hv := values_eq "WAVM".toList 1 lines (by rw [h]; simpa using hp)
  rw [h] at hv
  have hval : value lines "WAVM".toList 1 = .ok (.one (l.params.getD 1 [])) := by
    unfold value; rw [hv]; rfl
  unfold designWavelengths
  rw [hval]
  simp only [Reader.toFloat, hx, Except.map]

/-- **C55.** The design wavelength is one of the design wavelengths, and exists when there is one of them. -/
theorem C55_design_wavelength {lines : List Line} {xs : List F} (h : designWavelengths P lines = .ok xs) (hne : xs ≠ []) :
    ∃ x ∈ xs, designWavelength P lines = .ok x := by
  have hl : xs.length / 2 < xs.length := Nat.div_lt_self (List.length_pos_of_ne_nil hne) (by norm_num)
  exact ⟨xs[xs.length / 2], List.getElem_mem hl, by simp [designWavelength, h, List.getElem?_eq_getElem hl]⟩

/-! ## C55 surfaces -/

/-- **C55.** The surfaces read are numbered from 0 without gap, each is what is between its `SURF` line and the next one, and
reading stops at the first number that is not in the file, or at 1000 surfaces. -/
theorem C55_surfaces {factor : F} {lines : List Line} {ss : List (Surface F)} (h : surfaces P factor lines = .ok ss) :
    (∀ j (hj : j < ss.length), ss[j].number = j ∧ surfaceInfo P factor lines j = .ok (some ss[j])) ∧
    ss.length ≤ 1000 ∧ (ss.length < 1000 → rawSurface P ss.length lines = .ok none) := by
  have key : ∀ (n i : Nat) (ss : List (Surface F)), surfacesFrom P factor lines n i = .ok ss →
      (∀ j (hj : j < ss.length), ss[j].number = i + j ∧ surfaceInfo P factor lines (i + j) = .ok (some ss[j])) ∧
      ss.length ≤ n ∧ (ss.length < n → rawSurface P ((i + ss.length : Nat) : Int) lines = .ok none) := by
    intro n
    induction n with
    | zero =>
      intro i ss h
      simp only [surfacesFrom, Except.ok.injEq] at h
      subst h; simp
    | succ n ih =>
      intro i ss h
      simp only [surfacesFrom] at h
      cases hs : surfaceInfo P factor lines i with
      | error e => rw [hs] at h; simp at h
      | ok o =>
        rw [hs] at h
        cases o with
        | none =>
          simp only [Except.ok.injEq] at h
          subst h
          refine ⟨by simp, by simp, fun _ => ?_⟩
          simp only [List.length_nil, add_zero]
          unfold surfaceInfo at hs
          split at hs
          · simp at hs
          · assumption
          · obtain ⟨_, -, hs⟩ := bind_ok hs
            obtain ⟨_, -, hs⟩ := bind_ok hs
            obtain ⟨_, -, hs⟩ := bind_ok hs
            obtain ⟨_, -, hs⟩ := bind_ok hs
            simp [pure, Except.pure] at hs
        | some s =>
          simp only at h
          cases hr : surfacesFrom P factor lines n (i + 1) with
          | error e => rw [hr] at h; simp [Except.map] at h
          | ok r =>
            rw [hr] at h
            simp only [Except.map, Except.ok.injEq] at h
            subst h
            obtain ⟨h1, h2, h3⟩ := ih (i + 1) r hr
            refine ⟨?_, by simpa using h2, ?_⟩
            · intro j hj
              cases j with
              | zero =>
                refine ⟨?_, hs⟩
                unfold surfaceInfo at hs
                split at hs
                · simp at hs
                · simp at hs
                · obtain ⟨_, -, hs⟩ := bind_ok hs
                  obtain ⟨_, -, hs⟩ := bind_ok hs
                  obtain ⟨_, -, hs⟩ := bind_ok hs
                  obtain ⟨_, -, hs⟩ := bind_ok hs
                  simp only [pure, Except.pure, Except.ok.injEq, Option.some.injEq] at hs
                  rw [List.getElem_cons_zero, ← hs]; rfl
              | succ j =>
                have hj' : j < r.length := by simpa using hj
                obtain ⟨h4, h5⟩ := h1 j hj'
                simp only [List.getElem_cons_succ]
                refine ⟨by rw [h4]; omega, ?_⟩
                rw [← h5]; congr 1; omega
            · intro hl
              have := h3 (by simpa using hl)
              rw [← this]; congr 2; simp; omega
  have := key 1000 0 ss h
  simpa using this

/-- **C55.** The lines of a surface are exactly those after its `SURF` line, up to the next `SURF` line or the end. -/
theorem C55_block {pre block post : List Line} {s : Line} {i : Int} {t : List Char} {ts : List (List Char)}
    (hpre : ∀ l ∈ pre, isSurf l = true → ∃ u us j, l.params = u :: us ∧ P.int u = some j ∧ j ≠ i)
    (hs : isSurf s = true) (hsp : s.params = t :: ts) (hi : P.int t = some i)
    (hb : ∀ l ∈ block, isSurf l = false) (hpost : ∀ l ∈ post.head?, isSurf l = true) :
    rawSurface P i (pre ++ s :: block ++ post) = .ok (some block) := by
  induction pre with
  | nil =>
    simp only [List.nil_append, List.cons_append, rawSurface, hs, if_true, hsp, List.getElem?_cons_zero, hi, Except.ok.injEq,
      Option.some.injEq]
    clear hs hsp hi hpre
    induction block with
    | nil =>
      cases post with
      | nil => rfl
      | cons p post => simp [hpost p (by simp)]
    | cons l block ih =>
      simp only [List.cons_append, List.takeWhile_cons, hb l (by simp), Bool.not_false, if_true, List.cons.injEq, true_and]
      exact ih fun l hl => hb l (by simp [hl])
  | cons l pre ih =>
    have hi' := ih fun l hl => hpre l (by simp [hl])
    by_cases hl : isSurf l = true
    · obtain ⟨u, us, j, h1, h2, h3⟩ := hpre l (by simp) hl
      simp only [List.cons_append, rawSurface, hl, if_true, h1, List.getElem?_cons_zero, h2, if_neg (Ne.symm h3)] at hi' ⊢
      exact hi'
    · simp only [List.cons_append, rawSurface, hl, Bool.false_eq_true, if_false] at hi' ⊢
      exact hi'

/-- the last line of a given key in a block has these parameters -/
def LastIs (block : List Line) (key : List Char) (params : List (List Char)) : Prop :=
  ∃ a b l, block = a ++ l :: b ∧ l.name = key ∧ l.params = params ∧ ∀ x ∈ b, x.name ≠ key

/-- no line of a given key in a block -/
def NoKey (block : List Line) (key : List Char) : Prop := ∀ x ∈ block, x.name ≠ key

omit [PyNum F] in
theorem lookup_last {block : List Line} {key : List Char} {params : List (List Char)} (h : LastIs block key params) :
    lookup block key = some params := by
  obtain ⟨a, b, l, rfl, h1, h2, h3⟩ := h
  unfold lookup
  have hb : (b.reverse).find? (fun l => l.name == key) = none := by
    rw [List.find?_eq_none]; intro x hx; simpa using h3 x (List.mem_reverse.1 hx)
  simp [List.find?_append, hb, h1, h2]

omit [PyNum F] in
theorem lookup_none {block : List Line} {key : List Char} (h : NoKey block key) : lookup block key = none := by
  unfold lookup
  rw [Option.map_eq_none_iff, List.find?_eq_none]
  intro x hx; simpa using h x (List.mem_reverse.1 hx)

/-- What the lines of a surface say: curvature, thickness, half diameter (if given), material (if given). -/
structure Says (block : List Line) (c t : F) (d : Option F) (m : Option Glass) : Prop where
  curv : ∃ s ss, LastIs block "CURV".toList (s :: ss) ∧ P.float s = some c
  disz : ∃ s ss, LastIs block "DISZ".toList (s :: ss) ∧ P.float s = some t
  diam : match d with
    | none => NoKey block "DIAM".toList
    | some x => ∃ s ss, LastIs block "DIAM".toList (s :: ss) ∧ P.float s = some x
  glas : match m with
    | none => NoKey block "GLAS".toList
    | some g => ∃ s ss, LastIs block "GLAS".toList (s :: ss) ∧ findByName (some s) = .ok g

/-- One surface of a file: its `SURF` line, the lines after it, and what they say. -/
structure Entry (F : Type) where
  surf : Line
  block : List Line
  c : F
  t : F
  d : Option F
  m : Option Glass

/-- The surface that an entry describes, in millimetres. -/
def Entry.surface (R : F → F) (factor : F) (i : Nat) (e : Entry F) : Surface F :=
  ⟨i, R e.c, match e.d with
    | none => inf
    | some x => 2 * x * factor, e.m.getD air, e.t * factor⟩

/-- Entry number `i` is well written. -/
structure Entry.Ok (e : Entry F) (i : Nat) : Prop where
  name : e.surf.name = "SURF".toList
  number : ∃ s ss, e.surf.params = s :: ss ∧ P.int s = some (i : Int)
  block : ∀ l ∈ e.block, l.name ≠ "SURF".toList
  content : Says P e.block e.c e.t e.d e.m

/-- the lines of a list of surfaces -/
def entryLines (es : List (Entry F)) : List Line := es.flatMap fun e => e.surf :: e.block

theorem isSurf_false {l : Line} (h : l.name ≠ "SURF".toList) : isSurf l = false := by simpa [isSurf] using h

theorem rawSurface_file {header : List Line} {es : List (Entry F)} (hh : ∀ l ∈ header, l.name ≠ "SURF".toList)
    (he : ∀ j (hj : j < es.length), es[j].Ok P j) (j : Nat) (hj : j < es.length) :
    rawSurface P j (header ++ entryLines es) = .ok (some es[j].block) := by
  have hsplit : header ++ entryLines es =
      (header ++ entryLines (es.take j)) ++ es[j].surf :: es[j].block ++ entryLines (es.drop (j + 1)) := by
    have h : es = es.take j ++ es[j] :: es.drop (j + 1) := by simp
    have h' : entryLines es = entryLines (es.take j ++ es[j] :: es.drop (j + 1)) := congrArg entryLines h
    rw [h']
    unfold entryLines
    rw [List.flatMap_append, List.flatMap_cons]
    simp only [List.cons_append, List.append_assoc]
  obtain ⟨s, ss, h1, h2⟩ := (he j hj).number
  rw [hsplit]
  refine C55_block P ?_ (by simp [isSurf, (he j hj).name]) h1 h2 (fun l hl => isSurf_false ((he j hj).block l hl)) ?_
  · intro l hl hs
    rcases List.mem_append.1 hl with h | h
    · rw [isSurf_false (hh l h)] at hs; simp at hs
    · simp only [entryLines, List.mem_flatMap, List.mem_cons] at h
      obtain ⟨e, hm, h⟩ := h
      obtain ⟨k, hk, rfl⟩ := List.mem_iff_getElem.1 hm
      simp only [List.length_take] at hk
      have hk' : k < es.length := by omega
      rw [List.getElem_take] at h
      rcases h with rfl | h
      · obtain ⟨u, us, h3, h4⟩ := (he k hk').number
        exact ⟨u, us, k, h3, h4, by omega⟩
      · rw [isSurf_false ((he k hk').block l h)] at hs; simp at hs
  · intro l hl
    cases hd : es.drop (j + 1) with
    | nil => rw [hd] at hl; simp [entryLines] at hl
    | cons e r =>
      rw [hd] at hl
      simp only [entryLines, List.flatMap_cons, List.cons_append, List.head?_cons, Option.mem_def, Option.some.injEq] at hl
      have hlt : j + 1 < es.length := by
        by_contra hc
        rw [List.drop_eq_nil_of_le (by omega)] at hd
        simp at hd
      have : e = es[j + 1] := by
        rw [List.drop_eq_getElem_cons hlt] at hd
        simp only [List.cons.injEq] at hd
        exact hd.1.symm
      subst this
      rw [← hl]
      simp [isSurf, (he _ hlt).name]

theorem rawSurface_past {header : List Line} {es : List (Entry F)} (hh : ∀ l ∈ header, l.name ≠ "SURF".toList)
    (he : ∀ j (hj : j < es.length), es[j].Ok P j) (j : Nat) (hj : es.length ≤ j) :
    rawSurface P j (header ++ entryLines es) = .ok none := by
  have key : ∀ ls : List Line, (∀ l ∈ ls, isSurf l = true → ∃ u us k, l.params = u :: us ∧ P.int u = some k ∧ k ≠ (j : Int)) →
      rawSurface P j ls = .ok none := by
    intro ls
    induction ls with
    | nil => intro _; rfl
    | cons l ls ih =>
      intro h
      have hi := ih fun l hl => h l (by simp [hl])
      by_cases hl : isSurf l = true
      · obtain ⟨u, us, k, h1, h2, h3⟩ := h l (by simp) hl
        simp only [rawSurface, hl, if_true, h1, List.getElem?_cons_zero, h2, if_neg (Ne.symm h3)]
        exact hi
      · simp only [rawSurface, hl, Bool.false_eq_true, if_false]
        exact hi
  refine key _ fun l hl hs => ?_
  rcases List.mem_append.1 hl with h | h
  · rw [isSurf_false (hh l h)] at hs; simp at hs
  · simp only [entryLines, List.mem_flatMap, List.mem_cons] at h
    obtain ⟨e, hm, h⟩ := h
    obtain ⟨k, hk, rfl⟩ := List.mem_iff_getElem.1 hm
    rcases h with rfl | h
    · obtain ⟨u, us, h3, h4⟩ := (he k hk).number
      exact ⟨u, us, k, h3, h4, by omega⟩
    · rw [isSurf_false ((he k hk).block l h)] at hs; simp at hs

end unit

/-! ## C55 a whole file -/

section file
variable {K : Type} [Field K] [LinearOrder K] [IsStrictOrderedRing K] (P : Reader (Ext K))

/-- the radius of curvature: the inverse of the curvature in millimetres, infinite for a flat surface -/
def radiusOf (f : K) : Ext K → Ext K
  | fin c => if c = 0 then pinf else fin (1 / c * f)
  | x => x

theorem surfaceInfo_file {header : List Line} {es : List (Entry (Ext K))} (hh : ∀ l ∈ header, l.name ≠ "SURF".toList)
    (he : ∀ j (hj : j < es.length), es[j].Ok P j ∧ ∃ c, es[j].c = fin c) (f : K) (j : Nat) (hj : j < es.length) :
    surfaceInfo P (fin f) (header ++ entryLines es) j = .ok (some (es[j].surface (radiusOf f) (fin f) j)) := by
  unfold surfaceInfo
  rw [rawSurface_file P hh (fun j hj => (he j hj).1) j hj]
  obtain ⟨hok, c, hc⟩ := he j hj
  obtain ⟨⟨s1, ss1, h1, h1'⟩, ⟨s2, ss2, h2, h2'⟩, h3, h4⟩ := hok.content
  have hm : surfaceMaterial es[j].block = .ok (es[j].m.getD air) := by
    unfold surfaceMaterial
    cases hm : es[j].m with
    | none => rw [hm] at h4; rw [lookup_none h4]; rfl
    | some g => rw [hm] at h4; obtain ⟨s, ss, h5, h6⟩ := h4; rw [lookup_last h5]; simpa using h6
  have hd : surfaceDiameter P (fin f) es[j].block = .ok (match es[j].d with
      | none => inf
      | some x => 2 * x * fin f) := by
    unfold surfaceDiameter
    cases hm : es[j].d with
    | none => rw [hm] at h3; rw [lookup_none h3]
    | some x => rw [hm] at h3; obtain ⟨s, ss, h5, h6⟩ := h3; rw [lookup_last h5]; simp [Reader.toFloat, h6, Except.map]
  have hr : surfaceRadius P (fin f) es[j].block = .ok (radiusOf f es[j].c) := by
    unfold surfaceRadius first
    rw [lookup_last h1]
    simp only [Reader.toFloat, h1', hc, radiusOf]
    by_cases h0 : c = 0
    · simp [h0]
    · simp [h0, Except.map]
      simp [pyDiv_fin _ _ h0]
  have ht : surfaceSpacing P (fin f) es[j].block = .ok (es[j].t * fin f) := by
    unfold surfaceSpacing first
    rw [lookup_last h2]
    simp [Reader.toFloat, h2', Except.map]
  simp only [hm, hd, hr, ht, bind, Except.bind, pure, Except.pure, Entry.surface]
  cases es[j].d <;> rfl

/-- **C55.** A file with up to 1000 surfaces: whatever the lines before them, and the other lines in their descriptions, exactly the
surfaces described are read, in order and numbered from 0, with radii (infinite if flat), diameters (twice what is written, infinite
if not given), thicknesses in millimetres, and air when no glass is given. -/
theorem C55_file {header : List Line} {es : List (Entry (Ext K))} (hh : ∀ l ∈ header, l.name ≠ "SURF".toList)
    (he : ∀ j (hj : j < es.length), es[j].Ok P j ∧ ∃ c, es[j].c = fin c) (f : K) (hn : es.length ≤ 1000) :
    surfaces P (fin f) (header ++ entryLines es) =
      .ok (es.mapIdx fun i e => e.surface (radiusOf f) (fin f) i) := by
  have key : ∀ n i, i + n ≥ es.length → i ≤ es.length → surfacesFrom P (fin f) (header ++ entryLines es) n i =
      .ok ((es.mapIdx fun i e => e.surface (radiusOf f) (fin f) i).drop i) := by
    intro n
    induction n with
    | zero => intro i h1 h2; rw [List.drop_eq_nil_of_le (by simpa using h1)]; rfl
    | succ n ih =>
      intro i h1 h2
      by_cases hi : i < es.length
      · rw [surfacesFrom, surfaceInfo_file P hh he f i hi]
        simp only
        rw [ih (i + 1) (by omega) (by omega)]
        rw [List.drop_eq_getElem_cons (i := i) (by simpa using hi)]
        simp [Except.map]
      · have : i = es.length := by omega
        rw [surfacesFrom]
        unfold surfaceInfo
        rw [rawSurface_past P hh (fun j hj => (he j hj).1) i (by omega), List.drop_eq_nil_of_le (by simp; omega)]
  have := key 1000 0 (by omega) (by omega)
  rw [List.drop_zero] at this
  exact this

/-- **C55** is violated by a file of more than 1000 surfaces: the others are silently ignored. -/
theorem C55_cap_violated {header : List Line} {es : List (Entry (Ext K))} (hh : ∀ l ∈ header, l.name ≠ "SURF".toList)
    (he : ∀ j (hj : j < es.length), es[j].Ok P j ∧ ∃ c, es[j].c = fin c) (f : K) (hn : 1000 < es.length) :
    surfaces P (fin f) (header ++ entryLines es) =
      .ok ((es.mapIdx fun i e => e.surface (radiusOf f) (fin f) i).take 1000) := by
  have key : ∀ n i, i + n ≤ es.length → surfacesFrom P (fin f) (header ++ entryLines es) n i =
      .ok (((es.mapIdx fun i e => e.surface (radiusOf f) (fin f) i).drop i).take n) := by
    intro n
    induction n with
    | zero => intro i h1; rfl
    | succ n ih =>
      intro i h1
      have hi : i < es.length := by omega
      rw [surfacesFrom, surfaceInfo_file P hh he f i hi]
      simp only
      rw [ih (i + 1) (by omega)]
      rw [List.drop_eq_getElem_cons (i := i) (by simpa using hi)]
      simp [Except.map]
  have := key 1000 0 (by omega)
  rw [List.drop_zero] at this
  exact this

end file

/-! ## C54 -/

section lens
variable {K : Type} [Field K] [LinearOrder K] [IsStrictOrderedRing K]

/-- **C54.** The surfaces of the lens are those from the first glass up to and including the first return to air. -/
theorem C54_surfaces {F : Type} {airs glasses rest : List (Surface F)} {a : Surface F} (h1 : ∀ s ∈ airs, Glass.isAir s.mat = true)
    (h2 : ∀ s ∈ glasses, Glass.isAir s.mat = false) (h3 : glasses ≠ []) (h4 : Glass.isAir a.mat = true) :
    lensSurfaces (airs ++ glasses ++ a :: rest) = glasses ++ [a] := by
  have hg : ∀ gs : List (Surface F), (∀ s ∈ gs, Glass.isAir s.mat = false) → lensLoop true (gs ++ a :: rest) = gs ++ [a] := by
    intro gs
    induction gs with
    | nil => intro _; simp [lensLoop, h4]
    | cons s gs ih => intro h; simp [lensLoop, h s (by simp)]; exact ih fun s hs => h s (by simp [hs])
  unfold lensSurfaces
  induction airs with
  | nil =>
    obtain ⟨s, gs, rfl⟩ := List.exists_cons_of_ne_nil h3
    simp only [List.nil_append, List.cons_append, lensLoop, h2 s (by simp), Bool.false_eq_true, if_false]
    rw [hg gs fun s hs => h2 s (by simp [hs])]
  | cons s airs ih =>
    simp only [List.cons_append, lensLoop, h1 s (by simp), if_true, Bool.false_eq_true, if_false]
    exact ih fun s hs => h1 s (by simp [hs])

/-- **C54.** A file without glass: no surface, whatever the number of surfaces. -/
theorem C54_no_glass {F : Type} {airs : List (Surface F)} (h1 : ∀ s ∈ airs, Glass.isAir s.mat = true) : lensSurfaces airs = [] := by
  unfold lensSurfaces
  induction airs with
  | nil => rfl
  | cons s airs ih =>
    simp only [lensLoop, h1 s (by simp), if_true, Bool.false_eq_true, if_false]
    exact ih fun s hs => h1 s (by simp [hs])

/-- What a surface must be to be made: radius other than zero (infinite if flat), positive or infinite diameter. -/
structure Surface.Ok (n : Glass → K) (s : Surface (Ext K)) : Prop where
  R : RadiusOk s.R
  diameter : DiamOk s.diameter
  spacing : s.spacing.IsFin ∨ Glass.isAir s.mat = true
  index : n s.mat ≠ 0

/-- What the lens is made of: for each surface the interface between two media, and the thickness of the glass after it. -/
def lensElems (n : Glass → K) : Glass → List (Surface (Ext K)) → List (Elem (Ext K))
  | _, [] => []
  | prev, s :: ss =>
    .leaf (interfaceMat (n prev) (n s.mat) s.R s.diameter) ::
      ((if Glass.isAir s.mat then [] else [.leaf (spaceMat s.spacing (fin (n s.mat)) pinf)]) ++ lensElems n s.mat ss)

theorem leaf_ok {m : Mat (Ext K)} {s : Sys K} (h : Den m s) (hs : s.Lawful) : (Elem.leaf m).Ok := by
  constructor
  · simp only [Elem.mat]; rw [h.sys]; exact h
  · simp only [Elem.mat]; rw [h.sys]; exact hs

theorem tryAppend_exact {g : Group (Ext K)} {e : Elem (Ext K)} (hg : OkList (g.elems ++ [e]))
    (hc : (g.elems ++ [e]).IsChain Adjacent) :
    ∃ g1, tryAppend g e = .ok g1 ∧ g1.elems = g.elems ++ [e] ∧ g1.Fresh := by
  obtain ⟨t, h1, h2⟩ := append_exact hg hc
  refine ⟨⟨g.mat.refresh t, g.cache, g.elems ++ [e]⟩, ?_, rfl, ?_⟩
  · unfold tryAppend; rw [h2]
  · have := Group.append_fresh (g := g) (e := e) (by rw [h2])
    rw [h2] at this
    exact this

theorem groupLoop_exact {n : Glass → K} : ∀ (ss : List (Surface (Ext K))) (prev : Glass) (g : Group (Ext K)), g.Fresh →
    OkList g.elems → g.elems.IsChain Adjacent → n prev ≠ 0 →
    (∀ e ∈ g.elems.getLast?, e.mat.backIndex = fin (n prev)) → (∀ s ∈ ss, Surface.Ok n s) →
    ∃ g', groupLoop (fun m => .ok (fin (n m))) g prev ss = .ok g' ∧ g'.elems = g.elems ++ lensElems n prev ss ∧ g'.Fresh ∧
      OkList g'.elems ∧ g'.elems.IsChain Adjacent
  | [], prev, g, hf, ho, hc, hn, hl, hs => ⟨g, rfl, by simp [lensElems], hf, ho, hc⟩
  | s :: ss, prev, g, hf, ho, hc, hn, hl, hs => by
    have hsk := hs s (by simp)
    set e1 : Elem (Ext K) := .leaf (interfaceMat (n prev) (n s.mat) s.R s.diameter) with he1
    have ok1 : e1.Ok := leaf_ok (interfaceMat_den _ _ _ _) (Sys.interface_lawful _ hn hsk.index)
    have ho1 : OkList (g.elems ++ [e1]) := by
      intro x hx
      rcases List.mem_append.1 hx with h | h
      · exact ho x h
      · simp only [List.mem_singleton] at h; rw [h]; exact ok1
    have hc1 : (g.elems ++ [e1]).IsChain Adjacent := by
      refine List.IsChain.append hc (by simp) ?_
      intro x hx y hy
      simp only [List.head?_cons, Option.mem_def, Option.some.injEq] at hy
      subst hy
      unfold Adjacent
      rw [hl x hx]; rfl
    obtain ⟨g1, h1, h2, h3⟩ := tryAppend_exact ho1 hc1
    have hmk : mkDielectric (fin (n prev)) (fin (n s.mat)) s.R s.diameter =
        .ok (interfaceMat (n prev) (n s.mat) s.R s.diameter) := mkDielectric_eq hn hsk.index hsk.R hsk.diameter
    by_cases ha : Glass.isAir s.mat = true
    · obtain ⟨g', h4, h5, h6, h7, h8⟩ := groupLoop_exact ss s.mat g1 h3 (by rw [h2]; exact ho1) (by rw [h2]; exact hc1) hsk.index
        (by rw [h2]; intro e he; simp only [List.getLast?_append, List.getLast?_singleton, Option.some_or, Option.mem_def,
              Option.some.injEq] at he; rw [← he]; rfl)
        (fun s hs' => hs s (by simp [hs']))
      refine ⟨g', ?_, ?_, h6, h7, h8⟩
      · simp only [groupLoop, bind, Except.bind, hmk, ← he1, h1, ha, if_true, pure, Except.pure]
        exact h4
      · rw [h5, h2]; simp [lensElems, ha, he1]
    · have hfin := hsk.spacing.resolve_right ha
      obtain ⟨d, hd⟩ := hfin
      set e2 : Elem (Ext K) := .leaf (spaceMat s.spacing (fin (n s.mat)) pinf) with he2
      have ok2 : e2.Ok := by
        rw [he2, hd]
        exact leaf_ok (spaceMat_den _ _ _) (Sys.space_lawful _ hsk.index)
      have ho2 : OkList (g1.elems ++ [e2]) := by
        intro x hx
        rcases List.mem_append.1 hx with h | h
        · rw [h2] at h; exact ho1 x h
        · simp only [List.mem_singleton] at h; rw [h]; exact ok2
      have hc2 : (g1.elems ++ [e2]).IsChain Adjacent := by
        refine List.IsChain.append (by rw [h2]; exact hc1) (by simp) ?_
        intro x hx y hy
        simp only [List.head?_cons, Option.mem_def, Option.some.injEq] at hy
        subst hy
        rw [h2] at hx
        simp only [List.getLast?_append, List.getLast?_singleton, Option.some_or, Option.mem_def, Option.some.injEq] at hx
        rw [← hx]; rfl
      obtain ⟨g2, i1, i2, i3⟩ := tryAppend_exact ho2 hc2
      have hsp : mkSpace s.spacing (fin (n s.mat)) = .ok (spaceMat s.spacing (fin (n s.mat)) pinf) := by
        rw [hd]; exact mkSpace_eq d hsk.index diamOk_pinf
      obtain ⟨g', h4, h5, h6, h7, h8⟩ := groupLoop_exact ss s.mat g2 i3 (by rw [i2]; exact ho2) (by rw [i2]; exact hc2) hsk.index
        (by rw [i2]; intro e he; simp only [List.getLast?_append, List.getLast?_singleton, Option.some_or, Option.mem_def,
              Option.some.injEq] at he; rw [← he]; rfl)
        (fun s hs' => hs s (by simp [hs']))
      refine ⟨g', ?_, ?_, h6, h7, h8⟩
      · simp only [groupLoop, bind, Except.bind, hmk, ← he1, h1, ha, Bool.false_eq_true, if_false, hsp, ← he2, i1]
        exact h4
      · rw [h5, i2, h2]; simp [lensElems, ha, he1, he2]

/-- what happens to light at a surface and in the glass after it -/
def surfaceOut (n : Glass → K) (prev : Glass) (s : Surface (Ext K)) (r : K × K) : K × K :=
  let r1 := (Sys.interface (n prev) (n s.mat) (curv s.R)).out r
  if Glass.isAir s.mat then r1 else (Sys.space s.spacing.val (n s.mat)).out r1

/-- light goes through the surfaces one after the other -/
def lensOut (n : Glass → K) : Glass → List (Surface (Ext K)) → K × K → K × K
  | _, [], r => r
  | prev, s :: ss, r => lensOut n s.mat ss (surfaceOut n prev s r)

theorem lensElems_out {n : Glass → K} : ∀ (ss : List (Surface (Ext K))) (prev : Glass), (∀ s ∈ ss, Surface.Ok n s) → ∀ r,
    (sysList (lensElems n prev ss)).foldl (fun r s => s.out r) r = lensOut n prev ss r
  | [], _, _, r => rfl
  | s :: ss, prev, hs, r => by
    have ih := lensElems_out ss s.mat fun s hs' => hs s (by simp [hs'])
    have e1 : (Elem.leaf (interfaceMat (n prev) (n s.mat) s.R s.diameter)).mat.sys = Sys.interface (n prev) (n s.mat) (curv s.R) :=
      (interfaceMat_den _ _ _ _).sys
    by_cases ha : Glass.isAir s.mat = true
    · simp only [lensElems, ha, if_true, List.nil_append, sysList, List.map_cons, List.foldl_cons, lensOut, surfaceOut] at ih ⊢
      rw [ih, e1]
    · obtain ⟨d, hd⟩ := (hs s (by simp)).spacing.resolve_right ha
      have e2 : (Elem.leaf (spaceMat s.spacing (fin (n s.mat)) pinf)).mat.sys = Sys.space s.spacing.val (n s.mat) := by
        rw [hd]; exact (spaceMat_den _ _ _).sys
      simp only [lensElems, ha, Bool.false_eq_true, if_false, List.cons_append, List.nil_append, sysList, List.map_cons,
        List.foldl_cons, lensOut, surfaceOut] at ih ⊢
      rw [ih, e1, e2]

theorem lensElems_len {n : Glass → K} : ∀ (ss : List (Surface (Ext K))) (prev : Glass), (∀ s ∈ ss, Surface.Ok n s) →
    ((sysList (lensElems n prev ss)).map Sys.len).sum =
      ((ss.filter fun s => !Glass.isAir s.mat).map fun s => s.spacing.val).sum
  | [], _, _ => rfl
  | s :: ss, prev, hs => by
    have ih := lensElems_len ss s.mat fun s hs' => hs s (by simp [hs'])
    have e1 : (Elem.leaf (interfaceMat (n prev) (n s.mat) s.R s.diameter)).mat.sys = Sys.interface (n prev) (n s.mat) (curv s.R) :=
      (interfaceMat_den _ _ _ _).sys
    by_cases ha : Glass.isAir s.mat = true
    · simp only [lensElems, ha, if_true, List.nil_append, sysList, List.map_cons, List.sum_cons, List.filter_cons,
        Bool.not_true, Bool.false_eq_true, if_false] at ih ⊢
      rw [ih, e1]; simp [Sys.interface]
    · obtain ⟨d, hd⟩ := (hs s (by simp)).spacing.resolve_right ha
      have e2 : (Elem.leaf (spaceMat s.spacing (fin (n s.mat)) pinf)).mat.sys = Sys.space s.spacing.val (n s.mat) := by
        rw [hd]; exact (spaceMat_den _ _ _).sys
      have ha' : Glass.isAir s.mat = false := by simpa using ha
      simp only [lensElems, ha', Bool.false_eq_true, if_false, List.cons_append, List.nil_append, sysList, List.map_cons,
        List.sum_cons, List.filter_cons, Bool.not_false, if_true] at ih ⊢
      rw [ih, e1, e2]; simp [Sys.interface, Sys.space]

/-- **C54.** A file with surfaces in air, then glasses, then a return to air: whatever the surfaces (radius other than zero,
positive diameter, finite thickness of the glasses) and the indices, `matrixGroup()` is made of the interfaces and the thicknesses in
alternation from the first glass up to the return to air, its matrix acts as light going through them one after the other, its
length is the sum of the thicknesses of the glasses, and it goes from air to air. -/
theorem C54_lens {n : Glass → K} {airs glasses rest : List (Surface (Ext K))} {a : Surface (Ext K)}
    (hair : ∀ g, Glass.isAir g = true → n g = 1) (h1 : ∀ s ∈ airs, Glass.isAir s.mat = true)
    (h2 : ∀ s ∈ glasses, Glass.isAir s.mat = false) (h3 : glasses ≠ []) (h4 : Glass.isAir a.mat = true)
    (hs : ∀ s ∈ glasses ++ [a], Surface.Ok n s) (name : String) :
    ∃ g, matrixGroup (fun m => .ok (fin (n m))) name (airs ++ glasses ++ a :: rest) = .ok g ∧
      g.elems = lensElems n air (glasses ++ [a]) ∧
      (∀ r, g.mat.sys.out r = lensOut n air (glasses ++ [a]) r) ∧ Den g.mat g.mat.sys ∧
      g.mat.L = fin ((glasses.map fun s => s.spacing.val).sum) ∧
      g.mat.frontIndex = fin 1 ∧ g.mat.backIndex = fin 1 := by
  have hn : n air = 1 := hair air rfl
  obtain ⟨g, i1, i2, i3, i4, i5⟩ := groupLoop_exact (n := n) (glasses ++ [a]) air (Group.empty name) (Group.empty_fresh name)
    (by intro e he; simp [Group.empty] at he) (by simp [Group.empty]) (by rw [hn]; exact one_ne_zero) (by simp [Group.empty]) hs
  have i2' : g.elems = lensElems n air (glasses ++ [a]) := by simpa [Group.empty] using i2
  obtain ⟨m, c, es⟩ := g
  dsimp only at i2' i4 i5
  subst i2'
  have hh := i3.header i4 i5
  have hlen : ((sysList (lensElems n air (glasses ++ [a]))).map Sys.len).sum = (glasses.map fun s => s.spacing.val).sum := by
    rw [lensElems_len _ _ hs, List.filter_append]
    have : glasses.filter (fun s => !Glass.isAir s.mat) = glasses := by
      rw [List.filter_eq_self]; intro s hs'; simp [h2 s hs']
    simp [this, h4]
  obtain ⟨s0, gs, hgs⟩ := List.exists_cons_of_ne_nil h3
  have hfirst : ∀ e ∈ (lensElems n air (glasses ++ [a])).head?, e.mat.sys.nf = 1 := by
    intro e he
    rw [hgs] at he
    simp only [List.cons_append, lensElems, List.head?_cons, Option.mem_def, Option.some.injEq] at he
    rw [← he, show (Elem.leaf (interfaceMat (n air) (n s0.mat) s0.R s0.diameter)).mat.sys =
      Sys.interface (n air) (n s0.mat) (curv s0.R) from (interfaceMat_den _ _ _ _).sys]
    exact hn
  have hlast : ∀ e ∈ (lensElems n air (glasses ++ [a])).getLast?, e.mat.sys.nb = 1 := by
    have key : ∀ (ss : List (Surface (Ext K))) (prev : Glass), ∀ e ∈ (lensElems n prev (ss ++ [a])).getLast?, e.mat.sys.nb = 1 := by
      intro ss
      induction ss with
      | nil =>
        intro prev e he
        simp only [List.nil_append, lensElems, h4, if_true, List.append_nil, List.getLast?_singleton, Option.mem_def,
          Option.some.injEq] at he
        rw [← he, show (Elem.leaf (interfaceMat (n prev) (n a.mat) a.R a.diameter)).mat.sys =
          Sys.interface (n prev) (n a.mat) (curv a.R) from (interfaceMat_den _ _ _ _).sys]
        exact hair _ h4
      | cons s ss ih =>
        intro prev e he
        have hne : lensElems n s.mat (ss ++ [a]) ≠ [] := by
          cases ss <;> simp [lensElems]
        simp only [List.cons_append, lensElems] at he
        rw [← List.cons_append, List.getLast?_append_of_ne_nil _ hne] at he
        exact ih s.mat e he
    exact key glasses air
  have hidx : m.sys.nf = 1 ∧ m.sys.nb = 1 := by
    by_cases hall : ∀ s ∈ sysList (lensElems n air (glasses ++ [a])), s.IsId
    · exact hh.allId hall
    · push Not at hall
      obtain ⟨s, hs1, hs2⟩ := hall
      have hne : lensElems n air (glasses ++ [a]) ≠ [] := by rw [hgs]; simp [lensElems]
      obtain ⟨x, hx⟩ : ∃ x, (lensElems n air (glasses ++ [a])).head? = some x := by
        cases hl : lensElems n air (glasses ++ [a]) with
        | nil => exact absurd hl hne
        | cons x xs => exact ⟨x, rfl⟩
      have hy : (lensElems n air (glasses ++ [a])).getLast? = some ((lensElems n air (glasses ++ [a])).getLast hne) :=
        List.getLast?_eq_some_getLast hne
      exact ⟨(hh.first ⟨s, hs1, hs2⟩ x hx).trans (hfirst x hx), (hh.last ⟨s, hs1, hs2⟩ _ hy).trans (hlast _ hy)⟩
  refine ⟨⟨m, c, _⟩, ?_, rfl, fun r => ?_, hh.den, ?_, ?_, ?_⟩
  · unfold matrixGroup
    rw [C54_surfaces h1 h2 h3 h4]
    exact i1
  · rw [hh.out, lensElems_out _ _ hs]
  · rw [hh.den.L, hh.len, hlen]
  · rw [hh.den.nf, hidx.1]
  · rw [hh.den.nb, hidx.2]

/-- **C54** is violated by a surface of diameter 0 (`DIAM 0`, as written by Zemax for surfaces without aperture): `ValueError`. -/
theorem C54_diameter_violated {n : Glass → K} {airs glasses rest : List (Surface (Ext K))} {s0 a : Surface (Ext K)}
    (hair : ∀ g, Glass.isAir g = true → n g = 1) (h1 : ∀ s ∈ airs, Glass.isAir s.mat = true)
    (h2 : ∀ s ∈ s0 :: glasses, Glass.isAir s.mat = false) (h4 : Glass.isAir a.mat = true)
    (hR : RadiusOk s0.R) (hi : n s0.mat ≠ 0) (hd : s0.diameter = fin 0) (name : String) :
    matrixGroup (fun m => .ok (fin (n m))) name (airs ++ (s0 :: glasses) ++ a :: rest) = .error .valueError := by
  unfold matrixGroup
  rw [C54_surfaces h1 h2 (by simp) h4]
  have hn : n air = 1 := hair air rfl
  have hmk : mkDielectric (fin (n air)) (fin (n s0.mat)) s0.R s0.diameter = .error .valueError := by
    rw [hn, hd]
    unfold mkDielectric
    simp only [dielectricC_eq _ hi hR, pyDiv_fin _ _ hi, bind, Except.bind]
    have hden := interfaceMat_den 1 (n s0.mat) s0.R (fin 0)
    have := init_lawful' hden (Sys.interface_lawful _ one_ne_zero hi) rfl
    unfold interfaceMat at this
    rw [this]
    simp
  simp only [List.cons_append, groupLoop, bind, Except.bind, hmk]

/-- **C54** is violated by a file that ends with a glass: the lens ends in the glass, not in air. -/
theorem C54_unclosed_violated {F : Type} {airs glasses : List (Surface F)} (h1 : ∀ s ∈ airs, Glass.isAir s.mat = true)
    (h2 : ∀ s ∈ glasses, Glass.isAir s.mat = false) : lensSurfaces (airs ++ glasses) = glasses := by
  have hg : ∀ (b : Bool) (gs : List (Surface F)), (∀ s ∈ gs, Glass.isAir s.mat = false) → lensLoop b gs = gs := by
    intro b gs
    induction gs generalizing b with
    | nil => intro _; rfl
    | cons s gs ih => intro h; simp [lensLoop, h s (by simp)]; exact ih true fun s hs => h s (by simp [hs])
  unfold lensSurfaces
  induction airs with
  | nil => exact hg false glasses h2
  | cons s airs ih =>
    simp only [List.cons_append, lensLoop, h1 s (by simp), if_true, Bool.false_eq_true, if_false]
    exact ih fun s hs => h1 s (by simp [hs])

/-- A doublet of indices 3/2 and 7/4, between two surfaces in air. -/
example :
    let crown : Glass := ⟨"N_BK7", .laurent 0 0 0 0 0 0, 0⟩
    let flint : Glass := ⟨"N_SF5", .laurent 0 0 0 0 0 0, 0⟩
    let n : Glass → Except PyErr (Ext ℚ) := fun g => .ok (fin (if g.name = "Air" then 1 else if g.name = "N_BK7" then 3/2 else 7/4))
    (matrixGroup n "lens" [⟨0, pinf, pinf, air, pinf⟩, ⟨1, fin 100, fin 25, crown, fin 6⟩, ⟨2, fin (-80), fin 25, flint, fin 2⟩,
        ⟨3, fin (-300), fin 25, air, fin 90⟩, ⟨4, pinf, pinf, air, fin 0⟩]).map
      (fun (g : Group (Ext ℚ)) => (g.elems.length, g.mat.L, g.mat.frontIndex, g.mat.backIndex)) = .ok (5, fin 8, fin 1, fin 1) := by
  decide +kernel

end lens
end Zmx
end RT
