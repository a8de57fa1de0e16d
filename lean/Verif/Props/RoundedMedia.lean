import Verif.Lemmas.RoundedMedia
import Verif.Props.RoundedMatrix

/-! # C96: systems with interfaces and media are accepted in floats -/

set_option linter.unusedSectionVars false

namespace RT
open PyNum Ext Fl
variable {K : Type} [Field K] [LinearOrder K] [IsStrictOrderedRing K]
variable {rnd : K → K} {u : K}

/-- A system whose parts follow each other from medium to medium is accepted, any nesting, when the errors on the determinants are below the
tolerance and below the changes of index; a space that is not the first of its group takes the index of its medium. -/
theorem C96_media (hr : Rounding rnd u) {p : Part K} {n n' : K} (h : p.Between u n n') : ∃ e, p.buildR rnd = .ok e := by
  obtain ⟨e, h1, -⟩ := buildR_media hr h
  exact ⟨e, h1⟩

/-- And it reports the indices of the media before and after it, unless it is a group that does nothing in another medium than air. -/
theorem C96_indices (hr : Rounding rnd u) {p : Part K} {n n' : K} (h : p.Between u n n') (ht : p.Tells u n) {e : Elem (Fl K rnd)}
    (hb : p.buildR rnd = .ok e) : e.mat.frontIndex = num n ∧ e.mat.backIndex = num n' := by
  obtain ⟨e', h1, h2, -⟩ := buildR_media hr h
  rw [hb] at h1; cases h1
  exact ⟨(h2 ht).front, (h2 ht).back⟩

/-- In Python floats there is room for the errors after up to 1000 roundings, with moderate coefficients, when the indices are the same or differ
by more than 10⁻⁵ of themselves. -/
theorem C96_room {s : RStage ℚ} {n n' : ℚ} (h1 : s.ops ≤ 1000) (h2 : s.maj.a * s.maj.d + s.maj.b * s.maj.c ≤ 10 ^ 7) (h3 : |n / n'| ≤ 1000)
    (h4 : n = n' ∨ 1 / 100000 ≤ |n / n' - 1|) : s.RoomFor unitRoundoff n n' := by
  have hu : (0 : ℚ) ≤ unitRoundoff := double_rounding.nonneg
  have e1 : relErr unitRoundoff (2 * s.ops + 2) ≤ relErr unitRoundoff 2002 := relErr_mono hu (by omega)
  have e2 : relErr unitRoundoff 2002 ≤ ((2002 : ℕ) : ℚ) * unitRoundoff / (1 - ((2002 : ℕ) : ℚ) * unitRoundoff) :=
    C95_bound hu 2002 (by norm_num [unitRoundoff])
  have e3 : 0 ≤ relErr unitRoundoff (2 * s.ops + 2) := relErr_nonneg hu _
  have e4 : relErr unitRoundoff (2 * s.ops + 2) * (s.maj.a * s.maj.d + s.maj.b * s.maj.c) ≤
      ((2002 : ℕ) : ℚ) * unitRoundoff / (1 - ((2002 : ℕ) : ℚ) * unitRoundoff) * 10 ^ 7 :=
    (mul_le_mul_of_nonneg_left h2 e3).trans (mul_le_mul_of_nonneg_right (e1.trans e2) (by norm_num))
  have e5 : unitRoundoff * |n / n'| ≤ unitRoundoff * 1000 := mul_le_mul_of_nonneg_left h3 hu
  constructor
  · refine (mul_le_mul_of_nonneg_left (add_le_add e4 e5) (by linarith)).trans ?_
    norm_num [unitRoundoff]
  · rcases h4 with h4 | h4
    · exact .inl h4
    · refine .inr (e4.trans_lt (lt_of_lt_of_le ?_ h4))
      norm_num [unitRoundoff]

/-- A cell in an oil: a flat window, oil (the space is given without its index), the cell as a group in the oil, and back in air. -/
def immersed : Part ℚ := .group "" [.space 20 1 none, .interface 1 (3 / 2) none none, .space 5 1 (some 25),
  .group "" [.interface (3 / 2) (4 / 3) (some 10) none, .space 2 1 none, .interface (4 / 3) (3 / 2) (some (-10)) none], .space 5 (3 / 2) none,
  .interface (3 / 2) 1 none none, .space 1 1 none, .lens 50 (some 25)]

theorem immersed_between : immersed.Between unitRoundoff 1 1 := by
  have hR : ∀ (s : RStage ℚ) (n n' : ℚ), (decide (s.ops ≤ 1000) && decide (s.maj.a * s.maj.d + s.maj.b * s.maj.c ≤ 10 ^ 7) &&
      decide (|n / n'| ≤ 1000) && (decide (n = n') || decide (1 / 100000 ≤ |n / n' - 1|))) = true → s.RoomFor unitRoundoff n n' := by
    intro s n n' h
    simp only [Bool.and_eq_true, Bool.or_eq_true, decide_eq_true_eq] at h
    obtain ⟨⟨⟨h1, h2⟩, h3⟩, h4⟩ := h
    exact C96_room h1 h2 h3 h4
  have o1 : OpenDiam (none : Option ℚ) := by simp [OpenDiam]
  have o2 : OpenDiam (some 25 : Option ℚ) := by simp [OpenDiam]
  unfold immersed Part.Between
  refine ⟨one_ne_zero, ?_⟩
  unfold Part.BetweenList
  refine ⟨1, ?_, .inl (by simp [Part.Tells]), hR _ _ _ (by decide +kernel), ?_⟩
  · unfold Part.Between; exact ⟨rfl, by norm_num, by norm_num, o1⟩
  unfold Part.BetweenList
  refine ⟨3 / 2, ?_, .inl trivial, hR _ _ _ (by decide +kernel), ?_⟩
  · unfold Part.Between; exact ⟨rfl, rfl, by norm_num, by norm_num, by simp, o1, hR _ _ _ (by decide +kernel)⟩
  unfold Part.BetweenList
  refine ⟨3 / 2, ?_, .inr ⟨rfl, trivial⟩, hR _ _ _ (by decide +kernel), ?_⟩
  · unfold Part.Between; exact ⟨rfl, by norm_num, by norm_num, o2⟩
  unfold Part.BetweenList
  refine ⟨3 / 2, ?_, .inl (.inr (.inr (.inl ?_))), hR _ _ _ (by decide +kernel), ?_⟩
  · unfold Part.Between
    refine ⟨by norm_num, ?_⟩
    unfold Part.BetweenList
    refine ⟨4 / 3, ?_, .inl trivial, hR _ _ _ (by decide +kernel), ?_⟩
    · unfold Part.Between; exact ⟨rfl, rfl, by norm_num, by norm_num, by simp, o1, hR _ _ _ (by decide +kernel)⟩
    unfold Part.BetweenList
    refine ⟨4 / 3, ?_, .inr ⟨rfl, trivial⟩, hR _ _ _ (by decide +kernel), ?_⟩
    · unfold Part.Between; exact ⟨rfl, by norm_num, by norm_num, o1⟩
    unfold Part.BetweenList
    refine ⟨3 / 2, ?_, .inl trivial, hR _ _ _ (by decide +kernel), ?_⟩
    · unfold Part.Between; exact ⟨rfl, rfl, by norm_num, by norm_num, by simp, o1, hR _ _ _ (by decide +kernel)⟩
    unfold Part.BetweenList
    rfl
  · decide +kernel
  unfold Part.BetweenList
  refine ⟨3 / 2, ?_, .inl (by simp [Part.Tells]), hR _ _ _ (by decide +kernel), ?_⟩
  · unfold Part.Between; exact ⟨rfl, by norm_num, by norm_num, o1⟩
  unfold Part.BetweenList
  refine ⟨1, ?_, .inl trivial, hR _ _ _ (by decide +kernel), ?_⟩
  · unfold Part.Between; exact ⟨rfl, rfl, by norm_num, by norm_num, by simp, o1, hR _ _ _ (by decide +kernel)⟩
  unfold Part.BetweenList
  refine ⟨1, ?_, .inl (by simp [Part.Tells]), hR _ _ _ (by decide +kernel), ?_⟩
  · unfold Part.Between; exact ⟨rfl, by norm_num, by norm_num, o1⟩
  unfold Part.BetweenList
  refine ⟨1, ?_, .inl trivial, hR _ _ _ (by decide +kernel), ?_⟩
  · unfold Part.Between; exact ⟨by norm_num, rfl, rfl, o2⟩
  unfold Part.BetweenList
  rfl

/-- It meets the hypotheses, and is accepted. -/
theorem C96_media_example : immersed.Between unitRoundoff 1 1 ∧ ∃ e, immersed.buildR double = .ok e :=
  ⟨immersed_between, C96_media double_rounding immersed_between⟩

end RT
