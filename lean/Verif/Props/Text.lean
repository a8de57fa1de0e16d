import Verif.Model.Text
import Verif.Spec.Text
import Verif.Props.Beam
import Verif.Lemmas.Rounded
import Mathlib.Tactic.Linarith
import Mathlib.Tactic.FieldSimp
import Mathlib.Tactic.Ring
import Mathlib.Tactic.NormNum
import Mathlib.Tactic.Positivity

/-! # What is printed (C101) -/

set_option linter.unusedSectionVars false

namespace RT
open PyNum Ext

/-! ## Words -/

theorem words_nil : words [] = [] := rfl

theorem words_blank {c : Char} (hc : blank c = true) (s : List Char) : words (c :: s) = words s := by
  simp [words, wordsAux, hc, push]

theorem push_append (w : List Char) (a b : List (List Char)) : push w (a ++ b) = push w a ++ b := by
  unfold push; split <;> simp

theorem wordsAux_append {c : Char} (hc : blank c = true) (s t : List Char) :
    wordsAux (s ++ c :: t) = ((wordsAux s).1, (wordsAux s).2 ++ words t) := by
  induction s with
  | nil => simp [wordsAux, hc, words]
  | cons d s ih =>
    by_cases hd : blank d = true
    · simp [wordsAux, hd, ih, push_append]
    · simp [wordsAux, hd, ih]

theorem words_append {c : Char} (hc : blank c = true) (s t : List Char) : words (s ++ c :: t) = words s ++ words t := by
  unfold words
  rw [wordsAux_append hc, push_append]; rfl

theorem wordsAux_word {s : List Char} (h : ∀ c ∈ s, blank c = false) : wordsAux s = (s, []) := by
  induction s with
  | nil => rfl
  | cons d s ih =>
    have hd := h d (by simp)
    simp [wordsAux, hd, ih fun c hc => h c (by simp [hc])]

theorem words_word {s : List Char} (h : ∀ c ∈ s, blank c = false) (hs : s ≠ []) : words s = [s] := by
  simp [words, wordsAux_word h, push, hs]

theorem words_blanks (n : ℕ) (s : List Char) : words (List.replicate n ' ' ++ s) = words s := by
  induction n with
  | zero => rfl
  | succ n ih => rw [List.replicate_succ, List.cons_append, words_blank rfl, ih]

/-! ## Numbers -/

section
variable {K : Type} [Field K] [LinearOrder K] [IsStrictOrderedRing K] [FloorRing K]

theorem nearestEven_near (x : K) : |(nearestEven x : K) - x| ≤ 1 / 2 := by
  have h1 := Int.floor_le x
  have h2 := Int.lt_floor_add_one x
  unfold nearestEven
  split_ifs with a b c <;> rw [abs_le] <;> push_cast <;> constructor <;> linarith

theorem nearestEven_nonneg {x : K} (h : 0 ≤ x) : 0 ≤ nearestEven x := by
  have h1 : 0 ≤ ⌊x⌋ := Int.floor_nonneg.2 h
  unfold nearestEven
  split_ifs <;> omega

theorem digit_ne {c : Char} (h : c.isDigit = true) : blank c = false ∧ (c != '.') = true ∧ c ≠ '-' := by
  refine ⟨?_, ?_, ?_⟩
  · by_contra hb
    simp only [blank, Bool.not_eq_false, Bool.or_eq_true, beq_iff_eq] at hb
    rcases hb with rfl | rfl <;> simp at h
  · rw [bne_iff_ne]; rintro rfl; simp at h
  · rintro rfl; simp at h

theorem zeroFill_digits {k n : ℕ} {c : Char} (h : c ∈ zeroFill k (Nat.toDigits 10 n)) : c.isDigit = true := by
  rw [zeroFill, List.mem_append] at h
  rcases h with h | h
  · rw [List.eq_of_mem_replicate h]; rfl
  · exact Nat.isDigit_of_mem_toDigits (by norm_num) le_rfl h

theorem zeroFill_length {k n : ℕ} (hk : 0 < k) : (zeroFill k (Nat.toDigits 10 (n % 10 ^ k))).length = k := by
  have h : (Nat.toDigits 10 (n % 10 ^ k)).length ≤ k :=
    (Nat.length_toDigits_le_iff (by norm_num) hk).2 (Nat.mod_lt _ (by positivity))
  rw [zeroFill, List.length_append, List.length_replicate]
  omega

theorem readPlain_decimal {k : ℕ} (hk : 0 < k) (n : ℕ) : (readPlain (decimalText k n) : K) = n / 10 ^ k := by
  have hd : ∀ c ∈ Nat.toDigits 10 (n / 10 ^ k), (c != '.') = true :=
    fun c hc => (digit_ne (Nat.isDigit_of_mem_toDigits (by norm_num) le_rfl hc)).2.1
  have h1 : (decimalText k n).takeWhile (· != '.') = Nat.toDigits 10 (n / 10 ^ k) := by
    rw [decimalText, List.takeWhile_append_of_pos hd]; simp
  have h2 : (decimalText k n).dropWhile (· != '.') = '.' :: zeroFill k (Nat.toDigits 10 (n % 10 ^ k)) := by
    rw [decimalText, List.dropWhile_append_of_pos hd]; simp
  unfold readPlain
  simp only [h1, h2, List.tail_cons, zeroFill_length hk]
  rw [zeroFill, Nat.ofDigitChars_append, Nat.ofDigitChars_replicate_zero, Nat.mul_zero, Nat.ofDigitChars_ten_toDigits,
    Nat.ofDigitChars_ten_toDigits, eq_div_iff (by positivity), add_mul, div_mul_cancel₀ _ (by positivity)]
  have := Nat.div_add_mod n (10 ^ k)
  have h3 : ((10 ^ k * (n / 10 ^ k) + n % 10 ^ k : ℕ) : K) = n := by rw [this]
  push_cast at h3
  linarith

theorem decimalText_mem {k n : ℕ} {c : Char} (h : c ∈ decimalText k n) : c.isDigit = true ∨ c = '.' := by
  rw [decimalText, List.mem_append, List.mem_cons] at h
  rcases h with h | h | h
  · exact .inl (Nat.isDigit_of_mem_toDigits (by norm_num) le_rfl h)
  · exact .inr h
  · exact .inl (zeroFill_digits h)

theorem readNumber_plain {s : List Char} (h : ∀ c ∈ s, c ≠ '-') : (readNumber s : K) = readPlain s := by
  unfold readNumber
  split
  · exact absurd rfl (h '-' (by simp))
  · rfl

theorem decimalText_minus {k n : ℕ} {c : Char} (h : c ∈ decimalText k n) : c ≠ '-' := by
  rcases decimalText_mem h with h | rfl
  · exact (digit_ne h).2.2
  · decide

/-- **C101.** The number written with `k` decimals is the number, up to half a unit of the last decimal. -/
theorem C101_number {k : ℕ} (hk : 0 < k) (x : K) : Shows k (fixedText k x) x := by
  have h0 : (0 : K) < 10 ^ k := by positivity
  have h1 := nearestEven_near (|x| * 10 ^ k)
  have h2 : ((nearestEven (|x| * 10 ^ k)).toNat : K) = (nearestEven (|x| * 10 ^ k) : K) := by
    have := Int.toNat_of_nonneg (nearestEven_nonneg (x := |x| * 10 ^ k) (by positivity))
    exact_mod_cast congrArg (Int.cast : ℤ → K) this
  have h3 : |((nearestEven (|x| * 10 ^ k)).toNat : K) / 10 ^ k - (|x|)| ≤ 1 / 2 / 10 ^ k := by
    rw [h2, le_div_iff₀ h0, ← abs_of_pos h0, ← abs_mul, sub_mul, abs_of_pos h0, div_mul_cancel₀ _ h0.ne']
    exact h1
  unfold Shows fixedText
  by_cases hx : x < 0
  · rw [if_pos hx, List.singleton_append, readNumber, readPlain_decimal hk]
    rw [abs_of_neg hx] at h3
    rw [← abs_neg, abs_of_neg hx]
    convert h3 using 2
    ring
  · rw [if_neg hx, List.nil_append, readNumber_plain fun c hc => decimalText_minus hc, readPlain_decimal hk]
    rw [abs_of_nonneg (not_lt.1 hx)] at h3 ⊢
    exact h3

theorem fixedText_word (k : ℕ) (x : K) : (∀ c ∈ fixedText k x, blank c = false) ∧ fixedText k x ≠ [] := by
  constructor
  · intro c hc
    rw [fixedText, List.mem_append] at hc
    rcases hc with hc | hc
    · split at hc
      · rw [List.mem_singleton] at hc; subst hc; rfl
      · cases hc
    · rcases decimalText_mem hc with h | rfl
      · exact (digit_ne h).1
      · rfl
  · unfold fixedText decimalText; simp

/-- the blanks before a number do not count -/
theorem words_format (w k : ℕ) (x : K) {c : Char} (hc : blank c = true) (s : List Char) :
    words (format w k (fin x : Ext K) ++ c :: s) = fixedText k x :: words s := by
  have h := fixedText_word k x
  rw [words_append hc]
  change words (List.replicate _ ' ' ++ fixedText k x) ++ _ = _
  rw [words_blanks, words_word h.1 h.2]; rfl

theorem format_plain (k : ℕ) (x : K) : format 0 k (fin x : Ext K) = fixedText k x := by
  unfold format; rw [Nat.zero_sub]; rfl

theorem words_format_end (w k : ℕ) (x : K) : words (format w k (fin x : Ext K)) = [fixedText k x] := by
  have h := fixedText_word k x
  change words (List.replicate _ ' ' ++ fixedText k x) = _
  rw [words_blanks, words_word h.1 h.2]

/-- two numbers written alike are close -/
theorem Shows.close {k : ℕ} {s : List Char} {x y : K} (hx : Shows k s x) (hy : Shows k s y) : |x - y| ≤ 1 / 10 ^ k := by
  unfold Shows at hx hy
  have h1 : |x - y| ≤ |x - readNumber s| + |readNumber s - y| := abs_sub_le _ _ _
  rw [abs_sub_comm x (readNumber s)] at h1
  have h2 : (1 : K) / 10 ^ k = 1 / 2 / 10 ^ k + 1 / 2 / 10 ^ k := by ring
  linarith

/-! ## Matrices -/

/-- the word after the four coefficients -/
def focalWords (C : K) : List (List Char) :=
  if C = 0 then ["f".toList, "=".toList, "+inf".toList, "(afocal)".toList] else ["f=".toList ++ fixedText 3 (-1 / C)]

/-- the words of the lines of the coefficients -/
theorem strHead (a b c d : K) (s : List Char) :
    words ("| ".toList ++ format 6 3 (fin a : Ext K) ++ "   ".toList ++ format 6 3 (fin b : Ext K) ++ " |\n".toList ++
      "|                 |\n".toList ++ "| ".toList ++ format 6 3 (fin c : Ext K) ++ "   ".toList ++ format 6 3 (fin d : Ext K) ++
      " |\n".toList ++ s) =
    ["|".toList, fixedText 3 a, fixedText 3 b, "|".toList, "|".toList, "|".toList, "|".toList, fixedText 3 c, fixedText 3 d,
      "|".toList] ++ words s := by
  have bar : ∀ {x : Char} (_ : blank x = true) (r : List Char), words ('|' :: x :: r) = "|".toList :: words r :=
    fun {x} hx r => words_append hx ['|'] r
  have e : "| ".toList ++ format 6 3 (fin a : Ext K) ++ "   ".toList ++ format 6 3 (fin b : Ext K) ++ " |\n".toList ++
    "|                 |\n".toList ++ "| ".toList ++ format 6 3 (fin c : Ext K) ++ "   ".toList ++ format 6 3 (fin d : Ext K) ++
    " |\n".toList ++ s = '|' :: ' ' :: (format 6 3 (fin a : Ext K) ++ ' ' :: ' ' :: ' ' :: (format 6 3 (fin b : Ext K) ++ ' ' :: '|' :: '\n' ::
      '|' :: ' ' :: (List.replicate 16 ' ' ++ '|' :: '\n' :: '|' :: ' ' :: (format 6 3 (fin c : Ext K) ++ ' ' :: ' ' :: ' ' ::
        (format 6 3 (fin d : Ext K) ++ ' ' :: '|' :: '\n' :: s))))) := by
    simp [List.replicate]
  have nb : blank '\n' = true := rfl
  have sb : blank ' ' = true := rfl
  rw [e, bar sb, words_format 6 3 a sb, words_blank sb, words_blank sb, words_format 6 3 b sb, bar nb, bar sb, words_blanks,
    bar nb, bar sb, words_format 6 3 c sb, words_blank sb, words_blank sb, words_format 6 3 d sb, bar nb]
  rfl

theorem focalWord (s : List Char) (hs : ∀ x ∈ s, blank x = false) : words ("f=".toList ++ s) = ["f=".toList ++ s] :=
  words_word (fun x hx => by
    rw [List.mem_append] at hx
    rcases hx with hx | hx
    · have : x = 'f' ∨ x = '=' := by simpa using hx
      rcases this with rfl | rfl <;> rfl
    · exact hs x hx) (by simp)

theorem strWords {m : Mat (Ext K)} {a b c d : K} (hA : m.A = fin a) (hB : m.B = fin b) (hC : m.C = fin c) (hD : m.D = fin d) :
    ∃ t, m.str = .ok t ∧ words t =
      ["|".toList, fixedText 3 a, fixedText 3 b, "|".toList, "|".toList, "|".toList, "|".toList, fixedText 3 c, fixedText 3 d,
        "|".toList] ++ focalWords c := by
  have key : ∀ s : List Char, words ("| ".toList ++ format 6 3 m.A ++ "   ".toList ++ format 6 3 m.B ++ " |\n".toList ++
      "|                 |\n".toList ++ "| ".toList ++ format 6 3 m.C ++ "   ".toList ++ format 6 3 m.D ++ " |\n".toList ++ s) =
      ["|".toList, fixedText 3 a, fixedText 3 b, "|".toList, "|".toList, "|".toList, "|".toList, fixedText 3 c, fixedText 3 d,
        "|".toList] ++ words s := by
    intro s
    rw [hA, hB, hC, hD, strHead]
  by_cases h0 : c = 0
  · refine ⟨_, ?_, key "f = +inf (afocal)".toList |>.trans ?_⟩
    · have : (m.C ==. 0) = true := by rw [hC]; simpa using h0
      unfold Mat.str
      simp only [this, Bool.not_true, Bool.false_eq_true, if_false]
      rfl
    · rw [focalWords, if_pos h0]; rfl
  · refine ⟨_, ?_, key ("f=".toList ++ format 0 3 (fin (-1 / c) : Ext K)) |>.trans ?_⟩
    · have : (m.C ==. 0) = false := by rw [hC]; simpa using h0
      have hd : pyDiv (-1) m.C = .ok (fin (-1 / c)) := by
        rw [hC, one_eq, neg_fin]; exact pyDiv_fin (-1) c h0
      unfold Mat.str
      simp only [this, Bool.not_false, if_true, hd, List.append_assoc]
      rfl
    · rw [focalWords, if_neg h0, format_plain, focalWord _ (fixedText_word 3 _).1]

/-- **C101.** The words of the text of a matrix are bars, its four coefficients up to half a thousandth, and its focal length up to half a
thousandth, or that it is afocal exactly when its coefficient C is zero. -/
theorem C101_matrix {m : Mat (Ext K)} {a b c d : K} (hA : m.A = fin a) (hB : m.B = fin b) (hC : m.C = fin c) (hD : m.D = fin d) :
    ∃ t ta tb tc td tf, m.str = .ok t ∧
      words t = ["|".toList, ta, tb, "|".toList, "|".toList, "|".toList, "|".toList, tc, td, "|".toList] ++ tf ∧
      Shows 3 ta a ∧ Shows 3 tb b ∧ Shows 3 tc c ∧ Shows 3 td d ∧
      (c = 0 → tf = ["f".toList, "=".toList, "+inf".toList, "(afocal)".toList]) ∧
      (c ≠ 0 → ∃ f, tf = ["f=".toList ++ f] ∧ Shows 3 f (-1 / c)) := by
  obtain ⟨t, h1, h2⟩ := strWords hA hB hC hD
  exact ⟨t, _, _, _, _, _, h1, h2, C101_number (by norm_num) a, C101_number (by norm_num) b, C101_number (by norm_num) c,
    C101_number (by norm_num) d, fun h => by rw [focalWords, if_pos h],
    fun h => ⟨_, by rw [focalWords, if_neg h], C101_number (by norm_num) _⟩⟩

/-- **C101.** In floats, the coefficients printed are the floats up to half a thousandth; the focal length is the float nearest to -1/C. -/
theorem C101_float {rnd : K → K} {u : K} (hr : Rounding rnd u) {m : Mat (Fl K rnd)} {a b c d : K} (hA : m.A = Fl.num a) (hB : m.B = Fl.num b)
    (hC : m.C = Fl.num c) (hD : m.D = Fl.num d) :
    ∃ t ta tb tc td tf, m.str = .ok t ∧
      words t = ["|".toList, ta, tb, "|".toList, "|".toList, "|".toList, "|".toList, tc, td, "|".toList] ++ tf ∧
      Shows 3 ta a ∧ Shows 3 tb b ∧ Shows 3 tc c ∧ Shows 3 td d ∧
      (c = 0 → tf = ["f".toList, "=".toList, "+inf".toList, "(afocal)".toList]) ∧
      (c ≠ 0 → ∃ f, tf = ["f=".toList ++ f] ∧ Shows 3 f (rnd (-1 / c))) := by
  have hf : ∀ (w : ℕ) (x : K), format w 3 (Fl.num x : Fl K rnd) = format w 3 (fin x : Ext K) := fun _ _ => rfl
  by_cases h0 : c = 0
  · refine ⟨_, _, _, _, _, _, ?_, strHead a b c d "f = +inf (afocal)".toList, C101_number (by norm_num) a, C101_number (by norm_num) b,
      C101_number (by norm_num) c, C101_number (by norm_num) d, fun _ => rfl, fun h => absurd h0 h⟩
    have : (m.C ==. 0) = true := by rw [hC, Fl.zero_num hr, Fl.eq_num]; simpa using h0
    unfold Mat.str
    simp only [this, Bool.not_true, Bool.false_eq_true, if_false]
    rw [hA, hB, hC, hD, hf, hf, hf, hf]
    rfl
  · refine ⟨_, _, _, _, _, _, ?_, strHead a b c d ("f=".toList ++ format 0 3 (fin (rnd (-1 / c)) : Ext K)), C101_number (by norm_num) a,
      C101_number (by norm_num) b, C101_number (by norm_num) c, C101_number (by norm_num) d, fun h => absurd h h0, fun _ => ⟨fixedText 3 (rnd (-1 / c)), ?_,
      C101_number (by norm_num) _⟩⟩
    · have : (m.C ==. 0) = false := by rw [hC, Fl.zero_num hr, Fl.eq_num]; simpa using h0
      have hd : pyDiv (-1) m.C = .ok (Fl.num (rnd (-1 / c))) := by
        rw [hC, Fl.one_num hr, Fl.neg_num]; exact Fl.pyDiv_num hr (-1) c h0
      unfold Mat.str
      simp only [this, Bool.not_false, if_true, hd, List.append_assoc]
      rw [hA, hB, hC, hD, hf, hf, hf, hf]
      rfl
    · rw [format_plain, focalWord _ (fixedText_word 3 _).1]

/-- **C101.** A number half-way between two numbers of `k` decimals is written as the one whose last digit is even. -/
theorem C101_ties {k : ℕ} (hk : 0 < k) {x : K} {n : ℕ} (h : |x| = (n + 1 / 2) / 10 ^ k) :
    ∃ j : ℤ, readNumber (fixedText k x) = (2 * j : K) / 10 ^ k := by
  have h0 : (0 : K) < 10 ^ k := by positivity
  have e : |x| * 10 ^ k = n + 1 / 2 := by rw [h, div_mul_cancel₀ _ h0.ne']
  have hfl : ⌊|x| * 10 ^ k⌋ = n := by
    rw [e, Int.floor_eq_iff]; push_cast; constructor <;> linarith
  obtain ⟨j, hj⟩ : ∃ j : ℤ, nearestEven (|x| * 10 ^ k) = 2 * j := by
    unfold nearestEven
    rw [hfl, if_neg (by rw [e]; push_cast; linarith), if_neg (by rw [e]; push_cast; linarith)]
    split_ifs with hm
    · exact ⟨n / 2, by omega⟩
    · exact ⟨(n + 1) / 2, by omega⟩
  have h2 : ((nearestEven (|x| * 10 ^ k)).toNat : K) = 2 * j := by
    have := Int.toNat_of_nonneg (nearestEven_nonneg (x := |x| * 10 ^ k) (by positivity))
    have := congrArg (Int.cast : ℤ → K) this
    rw [hj] at this ⊢
    push_cast at this ⊢
    exact this
  unfold fixedText
  by_cases hx : x < 0
  · refine ⟨-j, ?_⟩
    rw [if_pos hx, List.singleton_append, readNumber, readPlain_decimal hk, h2]
    push_cast; ring
  · refine ⟨j, ?_⟩
    rw [if_neg hx, List.nil_append, readNumber_plain fun c hc => decimalText_minus hc, readPlain_decimal hk, h2]

/-- a number half-way, and one of its neighbours -/
example : fixedText 3 (-5 / 2000 : ℚ) = "-0.002".toList ∧ fixedText 3 (7 / 2000 : ℚ) = "0.004".toList ∧ |(-5 / 2000 : ℚ)| = ((2 : ℕ) + 1 / 2) / 10 ^ 3 := by
  decide +kernel

/-- **C101.** Two matrices with the same text have the same coefficients up to a thousandth, and both or none are afocal. -/
theorem C101_same {m m' : Mat (Ext K)} {a b c d a' b' c' d' : K} (hA : m.A = fin a) (hB : m.B = fin b) (hC : m.C = fin c)
    (hD : m.D = fin d) (hA' : m'.A = fin a') (hB' : m'.B = fin b') (hC' : m'.C = fin c') (hD' : m'.D = fin d')
    (h : m.str = m'.str) :
    |a - a'| ≤ 1 / 1000 ∧ |b - b'| ≤ 1 / 1000 ∧ |c - c'| ≤ 1 / 1000 ∧ |d - d'| ≤ 1 / 1000 ∧ (c = 0 ↔ c' = 0) ∧
      |(-1 / c) - (-1 / c')| ≤ 1 / 1000 := by
  obtain ⟨t, h1, h2⟩ := strWords hA hB hC hD
  obtain ⟨t', h1', h2'⟩ := strWords hA' hB' hC' hD'
  have ht : t = t' := by rw [h1, h1'] at h; exact Except.ok.inj h
  rw [← ht, h2] at h2'
  simp only [List.cons_append, List.nil_append, List.cons.injEq, true_and] at h2'
  obtain ⟨ea, eb, ec, ed, ef⟩ := h2'
  have cl : ∀ {x y : K}, fixedText 3 x = fixedText 3 y → |x - y| ≤ 1 / 1000 := by
    intro x y e
    have := (C101_number (by norm_num) x).close (e ▸ C101_number (k := 3) (by norm_num) y)
    norm_num at this ⊢
    exact this
  have hc : (c = 0 ↔ c' = 0) := by
    unfold focalWords at ef
    split_ifs at ef with x y y
    · exact ⟨fun _ => y, fun _ => x⟩
    · simp at ef
    · simp at ef
    · exact ⟨fun z => absurd z x, fun z => absurd z y⟩
  refine ⟨cl ea, cl eb, cl ec, cl ed, hc, ?_⟩
  by_cases h0 : c = 0
  · rw [h0, hc.1 h0]; simp
  · rw [focalWords, if_neg h0, focalWords, if_neg (fun h => h0 (hc.2 h))] at ef
    simp only [List.cons.injEq, and_true, List.append_cancel_left_eq] at ef
    exact cl ef

/-- **C101.** The focal length printed is the second of `effectiveFocalLengths()` when the matrix has power. -/
theorem C101_focal {m : Mat (Ext K)} {c nf nb : K} (hC : m.C = fin c) (hf : m.frontIndex = fin nf) (hb : m.backIndex = fin nb)
    (hnb : nb ≠ 0) (hc : 1 / 100000 < |c|) :
    ∃ f1 f, m.effectiveFocalLengths = .ok (f1, fin f) ∧ c ≠ 0 ∧ f = -1 / c := by
  have h0 : c ≠ 0 := by rintro rfl; norm_num at hc
  have hp : m.hasPower = true := by
    unfold Mat.hasPower isNotZero
    rw [hC, abs_fin, eps, lit_eq, lt_fin, decide_eq_true_eq]
    push_cast; exact hc
  refine ⟨fin (-(nf / nb) / c), -1 / c, ?_, h0, rfl⟩
  unfold Mat.effectiveFocalLengths
  rw [if_pos hp, hC, hf, hb, one_eq, neg_fin, pyDiv_fin _ _ h0, pyDiv_fin _ _ hnb]
  simp only [bind, Except.bind, pure, Except.pure, neg_fin]
  rw [pyDiv_fin _ _ h0]

/-- **C101 does not hold** for weak systems: whenever `0 < |C| ≤ 1e-5`, a focal length is printed although `effectiveFocalLengths()` is
infinite. -/
theorem C101_violated_weak {m : Mat (Ext K)} {a b c d : K} (hA : m.A = fin a) (hB : m.B = fin b) (hC : m.C = fin c)
    (hD : m.D = fin d) (hc : |c| ≤ 1 / 100000) (h0 : c ≠ 0) :
    m.effectiveFocalLengths = .ok (inf, inf) ∧
      ∃ t f, m.str = .ok t ∧ (words t).getLast? = some ("f=".toList ++ f) ∧ Shows 3 f (-1 / c) := by
  have hp : m.hasPower = false := by
    unfold Mat.hasPower isNotZero
    rw [hC, abs_fin, eps, lit_eq, lt_fin, decide_eq_false_iff_not, not_lt]
    push_cast; exact hc
  refine ⟨by unfold Mat.effectiveFocalLengths; rw [if_neg (by simp [hp])]; rfl, ?_⟩
  obtain ⟨t, h1, h2⟩ := strWords hA hB hC hD
  refine ⟨t, _, h1, ?_, C101_number (by norm_num) _⟩
  rw [h2, focalWords, if_neg h0]; rfl

/-! ## Rays -/

/-- **C101.** The text of a ray gives its height, its angle and its position up to half a thousandth, and says that it is blocked exactly when
it is. -/
theorem C101_ray {r : Ray (Ext K)} {y t z : K} (hy : r.y = fin y) (ht : r.theta = fin t) (hz : r.z = fin z) :
    ∃ ty tt tz, words r.str = ["y".toList, "=".toList, ty, "theta".toList, "=".toList, tt, "z".toList, "=".toList, tz] ++
      (if r.isBlocked then ["(blocked)".toList] else []) ∧ Shows 3 ty y ∧ Shows 3 tt t ∧ Shows 3 tz z := by
  refine ⟨_, _, _, ?_, C101_number (by norm_num) y, C101_number (by norm_num) t, C101_number (by norm_num) z⟩
  have nb : blank '\n' = true := rfl
  have sb : blank ' ' = true := rfl
  have e : ∀ s : List Char, "y = ".toList ++ format 6 3 (fin y : Ext K) ++ "\n".toList ++ "theta = ".toList ++ format 6 3 (fin t : Ext K) ++
      "\n".toList ++ "z = ".toList ++ format 4 3 (fin z : Ext K) ++ s =
      ['y'] ++ ' ' :: (['='] ++ ' ' :: (format 6 3 (fin y : Ext K) ++ '\n' :: ("theta".toList ++ ' ' :: (['='] ++ ' ' ::
        (format 6 3 (fin t : Ext K) ++ '\n' :: (['z'] ++ ' ' :: (['='] ++ ' ' :: (format 4 3 (fin z : Ext K) ++ s)))))))) := by
    intro s; simp
  unfold Ray.str
  rw [hy, ht, hz, e, words_append sb, words_append sb, words_format 6 3 y nb, words_append sb, words_append sb,
    words_format 6 3 t nb, words_append sb, words_append sb]
  cases r.isBlocked
  · simp only [Bool.false_eq_true, if_false, List.append_nil]
    rw [words_format_end]; rfl
  · simp only [if_true]
    have e2 : " (blocked)".toList = ' ' :: "(blocked)".toList := rfl
    rw [e2, words_format 4 3 z sb]; rfl

end

example : ((Ray.str (Ray.new (F := Ext ℚ) (fin 1) (fin (-1 / 10)) 0 true)) = "y =  1.000\ntheta = -0.100\nz = 0.000 (blocked)".toList) ∧
    (Mat.str { (Mat.one : Mat (Ext ℚ)) with A := fin (-1 / 3), C := fin (-1 / 50) } =
      .ok "| -0.333    0.000 |\n|                 |\n| -0.020    1.000 |\nf=50.000".toList) := by decide +kernel

/-! ## Beams -/

section
variable {K : Type} [Field K] [LinearOrder K] [IsStrictOrderedRing K] [FloorRing K] [PyMath (Ext K)]

/-- the words of a text that is followed by a comma -/
theorem words_comma {s : List Char} (h : ∀ c ∈ s, blank c = false) (r : List Char) :
    words (s ++ ',' :: ' ' :: r) = (s ++ [',']) :: words r := by
  have : s ++ ',' :: ' ' :: r = (s ++ [',']) ++ ' ' :: r := by simp
  rw [this, words_append rfl, words_word (fun c hc => by
    rw [List.mem_append, List.mem_singleton] at hc
    rcases hc with hc | rfl
    · exact h c hc
    · rfl) (by simp)]
  rfl

theorem text_word (k : ℕ) (x : Ext K) : (∀ c ∈ PyText.text k x, blank c = false) := by
  cases x with
  | fin x => exact (fixedText_word k x).1
  | pinf => change ∀ c ∈ "inf".toList, _; decide
  | ninf => change ∀ c ∈ "-inf".toList, _; decide
  | nan => change ∀ c ∈ "nan".toList, _; decide

theorem format_text (k : ℕ) (x : Ext K) : format 0 k x = PyText.text k x := by
  unfold format; rw [Nat.zero_sub]; rfl

/-- **C101.** The text of a confined beam gives its size, its radius of curvature, its position, its Rayleigh range, the size and the position
of its waist up to half a thousandth. The number printed for the wavelength, in nanometres, is `10^9` times the wavelength. -/
theorem C101_beam {b : Beam (Ext K)} (short long : Cx (Ext K) → List Char) {R : Ext K} {wo w z l x y : K}
    (hwo : b.wo = .ok (some (fin wo))) (hw : b.w = .ok (fin w)) (hR : b.R = .ok R) (hz : b.z = fin z) (hl : b.wavelength = fin l)
    (hq : b.q = ⟨fin x, fin y⟩) :
    ∃ t tw tR tz tl tzo two tp, b.str short long = .ok t ∧
      words t = ["Complex".toList, "radius:".toList] ++ words (short b.q) ++ ["w(z):".toList, tw ++ [','], "R(z):".toList, tR ++ [','],
        "z:".toList, tz ++ [','], "λ:".toList, tl, "nm".toList, "zo:".toList, tzo ++ [','], "wo:".toList, two ++ [','],
        "wo".toList, "position:".toList, tp] ∧
      Shows 3 tw w ∧ (∀ r, R = fin r → Shows 3 tR r) ∧ (R = pinf → tR = "inf".toList) ∧ Shows 3 tz z ∧
      Shows 1 tl (l * 1000000000) ∧ Shows 3 tzo y ∧ Shows 3 two wo ∧ Shows 3 tp (-x) := by
  refine ⟨"Complex".toList ++ ' ' :: ("radius:".toList ++ ' ' :: (short b.q ++ '\n' :: ("w(z):".toList ++ ' ' :: (fixedText 3 w ++ ',' :: ' ' ::
    ("R(z):".toList ++ ' ' :: (PyText.text 3 R ++ ',' :: ' ' :: ("z:".toList ++ ' ' :: (fixedText 3 z ++ ',' :: ' ' ::
    ("λ:".toList ++ ' ' :: (fixedText 1 (l * 1000000000) ++ ' ' :: ("nm".toList ++ '\n' :: ("zo:".toList ++ ' ' :: (fixedText 3 y ++ ',' :: ' ' ::
    ("wo:".toList ++ ' ' :: (fixedText 3 wo ++ ',' :: ' ' :: ("wo".toList ++ ' ' :: ("position:".toList ++ ' ' :: fixedText 3 (-x)))))))))))))))))),
    fixedText 3 w, PyText.text 3 R, fixedText 3 z, fixedText 1 (l * 1000000000), fixedText 3 y, fixedText 3 wo, fixedText 3 (-x),
    ?_, ?_, C101_number (by norm_num) w, fun r hr => hr ▸ C101_number (by norm_num) r, fun h => by rw [h]; rfl, C101_number (by norm_num) z,
    C101_number (by norm_num) _, C101_number (by norm_num) y, C101_number (by norm_num) wo, C101_number (by norm_num) _⟩
  · unfold Beam.str
    rw [hwo, hw, hR]
    have e1 : b.wavelength * lit 1000000000 = fin (l * 1000000000) := by
      rw [hl, lit_eq, fin_mul_fin]; norm_num
    have e2 : b.zo = fin y := by unfold Beam.zo; rw [hq]
    have e3 : b.waistPosition = fin (-x) := by unfold Beam.waistPosition; rw [hq, neg_fin]
    simp only [bind, Except.bind, pure, Except.pure, e1, e2, e3, hz, format_text]
    have e4 : ∀ k (v : K), (PyText.text k (fin v : Ext K)) = fixedText k v := fun _ _ => rfl
    simp [e4]
  · have nb : blank '\n' = true := rfl
    have sb : blank ' ' = true := rfl
    have fw := fun k (v : K) => (fixedText_word k v).1
    rw [words_append sb, words_append sb, words_append nb, words_append sb, words_comma (fw 3 w), words_append sb,
      words_comma (text_word 3 R), words_append sb, words_comma (fw 3 z), words_append sb, words_append sb, words_append nb, words_append sb,
      words_comma (fw 3 y), words_append sb, words_comma (fw 3 wo), words_append sb, words_append sb,
      words_word (fw 1 _) (fixedText_word 1 _).2, words_word (fw 3 _) (fixedText_word 3 _).2]
    simp only [List.append_assoc]
    rfl

end

/-- the radius of curvature printed -/
noncomputable def radiusOf (q : ℂ) : Ext ℝ := if (1 / q).re = 0 then pinf else fin (1 / (1 / q).re)

theorem R_of {q : ℂ} (hq : q ≠ 0) (wl z n : Ext ℝ) (c : Bool) : (Beam.mk (Cx.of q) wl z n c).R = .ok (radiusOf q) := by
  unfold Beam.R radiusOf
  have e : Cx.ofReal (1 : Ext ℝ) = Cx.of 1 := by simp [Cx.ofReal, Cx.of]
  have hz : (Cx.of q).isZero = false := by rw [← Bool.not_eq_true, Cx.isZero_of]; exact hq
  simp only [hz, Bool.false_eq_true, if_false, e, Cx.div_of 1 hq, bind, Except.bind]
  simp only [Cx.of, zero_eq, eq_fin, decide_eq_true_eq]
  split
  · rfl
  · rw [one_eq]; exact pyDiv_fin _ _ (by assumption)

/-- **C101.** Every confined beam can be printed, with the numbers of the beam: its size, its radius of curvature (or `inf`), its position, its
Rayleigh range, the size and the position of its waist. A beam that is not confined is printed as not finite. -/
theorem C101_beams (short long : Cx (Ext ℝ) → List Char) (q : ℂ) {wl n : ℝ} (z : ℝ) (c : Bool) (hl : 0 < wl) (hn : 0 < n) :
    (0 < q.im → ∃ t wo tw tR tz tl tzo two tp, (beamOf q wl z n c).str short long = .ok t ∧
      words t = ["Complex".toList, "radius:".toList] ++ words (short (Cx.of q)) ++ ["w(z):".toList, tw ++ [','], "R(z):".toList, tR ++ [','],
        "z:".toList, tz ++ [','], "λ:".toList, tl, "nm".toList, "zo:".toList, tzo ++ [','], "wo:".toList, two ++ [','],
        "wo".toList, "position:".toList, tp] ∧
      Shows 3 tw (beamSize wl n q) ∧ (∀ r, (1 / q).re ≠ 0 → r = 1 / (1 / q).re → Shows 3 tR r) ∧ ((1 / q).re = 0 → tR = "inf".toList) ∧
      Shows 3 tz z ∧ Shows 1 tl (wl * 1000000000) ∧ Shows 3 tzo q.im ∧ (beamOf q wl z n c).wo = .ok (some (fin wo)) ∧ Shows 3 two wo ∧
      Shows 3 tp (-q.re)) ∧
    (¬ 0 < q.im → (beamOf q wl z n c).str short long = .ok ("Beam is not finite: q=".toList ++ long (Cx.of q))) := by
  constructor
  · intro hq
    obtain ⟨x0, wo, -, hwo, -⟩ := C41_waist_partial (z := z) (c := c) hq hl hn
    obtain ⟨t, tw, tR, tz, tl, tzo, two, tp, h1, h2, h3, h4, h5, h6, h7, h8, h9, h10⟩ := C101_beam short long hwo
      (w_of hq hl hn (fin z) c) (R_of (ne_zero_of_im hq) (fin wl) (fin z) (fin n) c) rfl rfl rfl
    refine ⟨t, wo, tw, tR, tz, tl, tzo, two, tp, h1, h2, h3, fun r h0 hr => h4 r ?_, fun h0 => h5 ?_, h6, h7, h8, hwo, h9, h10⟩
    · rw [radiusOf, if_neg h0, hr]
    · rw [radiusOf, if_pos h0]
  · intro hq
    unfold Beam.str
    have : (beamOf q wl z n c).wo = .ok none := by
      unfold Beam.wo
      simp only [beamOf, Beam.zo, Cx.of, zero_eq, lt_fin, hq, decide_false, Bool.false_eq_true, if_false]
      rfl
    rw [this]; rfl

example : 0 < (Complex.I).im := by simp

/-- **C101 does not hold** for beams: wavelengths are in the units of the lengths, so 632.8e-6, the default, is 632.8 nm in millimetres, but
the text says 632800.0 nm. -/
theorem C101_violated_beam :
    (Beam.defaultWavelength : Ext ℚ) = fin (6328 / 10000000) ∧ format 0 1 ((Beam.defaultWavelength : Ext ℚ) * lit 1000000000) = "632800.0".toList ∧
      Shows 1 "632.8".toList ((6328 / 10000000 : ℚ) * 1000000) := by
  unfold Shows
  decide +kernel

/-- a weak lens: the text announces a focal length of a kilometre -/
example : Mat.str { (Mat.one : Mat (Ext ℚ)) with C := fin (-1 / 1000000) } =
      .ok "|  1.000    0.000 |\n|                 |\n| -0.000    1.000 |\nf=1000000.000".toList := by decide +kernel

end RT
