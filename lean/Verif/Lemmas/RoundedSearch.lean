import Verif.Lemmas.Rounded
import Verif.Lemmas.Search

/-! # The search for the edge of the field, in floats

Like `Lemmas/Search.lean`, when every step is rounded and the heights between `Y1` and `Y2` may be found blocked or not. -/

set_option linter.unusedSectionVars false

namespace RT
variable {K : Type} [Field K] [LinearOrder K] [IsStrictOrderedRing K]

/-- the next step of the search -/
def nextR (rnd : K → K) (b was : Bool) (dy : K) : K := if b != was then rnd (-dy / 2) else rnd (dy * rnd (3 / 2))

/-- The search with `fuel` turns; `sw` is the status of the last height at which it may stop. -/
def searchR (rnd : K → K) (blk : K → Bool) (p H : K) (sw : Bool) : Nat → K → K → Bool → K → Outcome K
  | fuel, y, dy, was, last =>
    if p < |dy| ∨ was ≠ sw then
      match fuel with
      | 0 => .timeout
      | fuel + 1 =>
        if H < |rnd (y + nextR rnd (blk y) was dy)| ∧ blk y = false then .beyond
        else searchR rnd blk p H sw fuel (rnd (y + nextR rnd (blk y) was dy)) (nextR rnd (blk y) was dy) (blk y) y
    else .found last

/-- The search ends with this outcome, whatever the number of turns allowed if it is large enough. -/
def EndsR (rnd : K → K) (blk : K → Bool) (p H : K) (sw : Bool) (y dy : K) (was : Bool) (last : K) (o : Outcome K) : Prop :=
  ∃ N, ∀ fuel, N ≤ fuel → searchR rnd blk p H sw fuel y dy was last = o

variable {rnd : K → K} {u : K} {blk : K → Bool} {p H Y1 Y2 : K} {sw : Bool}

theorem EndsR.stop {y dy last : K} {was : Bool} (h1 : |dy| ≤ p) (h2 : was = sw) : EndsR rnd blk p H sw y dy was last (.found last) := by
  refine ⟨0, fun fuel _ => ?_⟩
  unfold searchR
  rw [if_neg]
  rintro (h | h)
  · exact absurd h (not_lt.2 h1)
  · exact h h2

theorem EndsR.beyond {y dy last : K} {was : Bool} (h1 : p < |dy| ∨ was ≠ sw) (h2 : H < |rnd (y + nextR rnd (blk y) was dy)| ∧ blk y = false) :
    EndsR rnd blk p H sw y dy was last .beyond := by
  refine ⟨1, fun fuel hf => ?_⟩
  obtain ⟨n, rfl⟩ : ∃ n, fuel = n + 1 := ⟨fuel - 1, by omega⟩
  unfold searchR
  rw [if_pos h1]
  dsimp only
  rw [if_pos h2]

theorem EndsR.step {y dy last : K} {was : Bool} {o : Outcome K} (h1 : p < |dy| ∨ was ≠ sw)
    (h2 : ¬ (H < |rnd (y + nextR rnd (blk y) was dy)| ∧ blk y = false))
    (h3 : EndsR rnd blk p H sw (rnd (y + nextR rnd (blk y) was dy)) (nextR rnd (blk y) was dy) (blk y) y o) :
    EndsR rnd blk p H sw y dy was last o := by
  obtain ⟨N, h3⟩ := h3
  refine ⟨N + 1, fun fuel hf => ?_⟩
  obtain ⟨n, rfl⟩ : ∃ n, fuel = n + 1 := ⟨fuel - 1, by omega⟩
  unfold searchR
  rw [if_pos h1]
  dsimp only
  rw [if_neg h2]
  exact h3 n (by omega)

/-- The heights up to `Y1` are not blocked, those beyond `Y2` are, and what is not known is small before the precision `p`; the rounding errors on
these heights are still smaller. -/
structure Noisy (rnd : K → K) (u p Y1 Y2 : K) (blk : K → Bool) : Prop where
  rounding : Rounding rnd u
  small : u ≤ 1 / 1000000
  pos : 0 < p
  inside : ∀ y, |y| ≤ Y1 → blk y = false
  outside : ∀ y, Y2 < |y| → blk y = true
  fuzz : Y2 - Y1 ≤ p / 20
  fine : u * Y2 ≤ p / 10000
  big : 70 * p ≤ Y1

/-- what the search finds -/
def FoundR (blk : K → Bool) (p H Y1 Y2 : K) (sw : Bool) : Outcome K → Prop
  | .timeout => False
  | .beyond => H < 17 / 10 * Y2 + 200 * p
  | .found v => blk v = sw ∧ if sw then Y1 < v ∧ v ≤ Y2 + 3 * p else Y1 - 3 * p < v ∧ v ≤ Y2

theorem Noisy.le (h : Noisy rnd u p Y1 Y2 blk) : Y1 ≤ Y2 := by
  by_contra hc
  push Not at hc
  have hp := h.pos
  have hb := h.big
  rcases le_or_gt 0 Y2 with h0 | h0
  · have e : |(Y1 + Y2) / 2| = (Y1 + Y2) / 2 := abs_of_nonneg (by linarith)
    have a := h.inside ((Y1 + Y2) / 2) (by rw [e]; linarith)
    have b := h.outside ((Y1 + Y2) / 2) (by rw [e]; linarith)
    rw [a] at b
    cases b
  · have a := h.inside 0 (by rw [abs_zero]; linarith)
    have b := h.outside 0 (by rw [abs_zero]; linarith)
    rw [a] at b
    cases b

theorem Noisy.free (h : Noisy rnd u p Y1 Y2 blk) {y : K} (hy : blk y = false) : -Y2 ≤ y ∧ y ≤ Y2 := by
  rw [← abs_le]
  by_contra hc
  rw [h.outside y (not_le.1 hc)] at hy
  cases hy

theorem Noisy.stopped (h : Noisy rnd u p Y1 Y2 blk) {y : K} (hy : blk y = true) (h0 : -Y1 ≤ y) : Y1 < y := by
  by_contra hc
  rw [h.inside y (abs_le.2 ⟨h0, not_lt.1 hc⟩)] at hy
  cases hy

theorem Noisy.open (h : Noisy rnd u p Y1 Y2 blk) {y : K} (h0 : -Y1 ≤ y) (h1 : y ≤ Y1) : blk y = false := h.inside y (abs_le.2 ⟨h0, h1⟩)

theorem Noisy.shut (h : Noisy rnd u p Y1 Y2 blk) {y : K} (h1 : Y2 < y) : blk y = true := h.outside y (h1.trans_le (le_abs_self y))

/-- a crossing: half of the step, the other way -/
theorem Noisy.turn (h : Noisy rnd u p Y1 Y2 blk) (d : K) : |rnd (-d / 2) - -d / 2| ≤ |d| / 100000 := by
  have h1 := h.rounding.rel (-d / 2)
  rw [abs_div, abs_neg, abs_two] at h1
  have h2 := mul_le_mul_of_nonneg_right h.small (div_nonneg (abs_nonneg d) (by norm_num : (0 : K) ≤ 2))
  have h3 := abs_nonneg d
  linarith

/-- no crossing: a longer step -/
theorem Noisy.grow (h : Noisy rnd u p Y1 Y2 blk) (d : K) : |rnd (d * rnd (3 / 2)) - d * (3 / 2)| ≤ |d| / 100000 := by
  have hu := h.small
  have hn := h.rounding.nonneg
  have h1 := h.rounding.rel (3 / 2)
  rw [abs_of_pos (by norm_num : (0 : K) < 3 / 2)] at h1
  have h2 := h.rounding.rel (d * rnd (3 / 2))
  rw [abs_mul] at h2
  have h3 : |rnd (3 / 2)| ≤ 2 := by
    have : |rnd (3 / 2)| ≤ |rnd (3 / 2) - 3 / 2| + |(3 / 2 : K)| := by simpa using abs_add_le (rnd (3 / 2) - 3 / 2) (3 / 2)
    rw [abs_of_pos (by norm_num : (0 : K) < 3 / 2)] at this
    linarith
  have h4 : |d * rnd (3 / 2) - d * (3 / 2)| ≤ |d| * (u * (3 / 2)) := by
    rw [← mul_sub, abs_mul]
    exact mul_le_mul_of_nonneg_left h1 (abs_nonneg d)
  have h5 : u * (|d| * |rnd (3 / 2)|) ≤ 1 / 1000000 * (|d| * 2) :=
    mul_le_mul hu (mul_le_mul_of_nonneg_left h3 (abs_nonneg d)) (by positivity) (by norm_num)
  have h6 : |d| * (u * (3 / 2)) ≤ |d| * (1 / 1000000 * (3 / 2)) := by gcongr
  have h7 := abs_sub_le (rnd (d * rnd (3 / 2))) (d * rnd (3 / 2)) (d * (3 / 2))
  have h8 := abs_nonneg d
  linarith

/-- the next height -/
theorem Noisy.move (h : Noisy rnd u p Y1 Y2 blk) {x : K} (hx : |x| ≤ 3 * Y2 + 500 * p) : |rnd x - x| ≤ p / 1000 := by
  have h1 := h.rounding.rel x
  have h2 := mul_le_mul_of_nonneg_left hx h.rounding.nonneg
  have h3 := mul_le_mul_of_nonneg_right h.small h.pos.le
  have h4 := h.fine
  have h5 := h.pos
  nlinarith

theorem nextR_turn {b was : Bool} (hb : b ≠ was) (d : K) : nextR rnd b was d = rnd (-d / 2) := by
  unfold nextR
  rw [if_pos (by simpa using hb)]

theorem nextR_grow (b : Bool) (d : K) : nextR rnd b b d = rnd (d * rnd (3 / 2)) := by
  unfold nextR
  rw [if_neg (by simp)]

/-- One turn of the search, at a height where it does not stop. -/
theorem turn_ends (h : Noisy rnd u p Y1 Y2 blk) {y dy last : K} {was b : Bool} {c : K} (hb : blk y = b) (hc : c = if b != was then -1 / 2 else 3 / 2)
    (h1 : p < |dy| ∨ was ≠ sw) (hx : |y| + 2 * |dy| ≤ 3 * Y2 + 500 * p)
    (hfar : b = false → |y| + |c * dy| + |dy| / 100000 + p / 1000 ≤ 17 / 10 * Y2 + 200 * p)
    (hnext : ∀ y' d', |d' - c * dy| ≤ |dy| / 100000 → |y' - (y + d')| ≤ p / 1000 →
      ∃ o, FoundR blk p H Y1 Y2 sw o ∧ EndsR rnd blk p H sw y' d' b y o) :
    ∃ o, FoundR blk p H Y1 Y2 sw o ∧ EndsR rnd blk p H sw y dy was last o := by
  have e1 : |nextR rnd (blk y) was dy - c * dy| ≤ |dy| / 100000 := by
    rw [hb, hc]
    by_cases hbw : b = was
    · subst hbw
      rw [nextR_grow]
      simp only [bne_self_eq_false, Bool.false_eq_true, if_false]
      have := h.grow dy
      rwa [mul_comm dy (3 / 2)] at this
    · rw [nextR_turn hbw, if_pos (by simpa using hbw)]
      have := h.turn dy
      rwa [show -1 / 2 * dy = -dy / 2 by ring]
  have hcd : |c * dy| ≤ 3 / 2 * |dy| := by
    rw [abs_mul]
    refine mul_le_mul_of_nonneg_right ?_ (abs_nonneg _)
    rw [hc]
    split_ifs <;> norm_num [abs_of_pos, abs_of_neg, abs_div]
  have hd' : |nextR rnd (blk y) was dy| ≤ |c * dy| + |dy| / 100000 := by
    have : |nextR rnd (blk y) was dy| ≤ |nextR rnd (blk y) was dy - c * dy| + |c * dy| := by
      simpa using abs_add_le (nextR rnd (blk y) was dy - c * dy) (c * dy)
    linarith
  have hyd := abs_add_le y (nextR rnd (blk y) was dy)
  have e2 : |rnd (y + nextR rnd (blk y) was dy) - (y + nextR rnd (blk y) was dy)| ≤ p / 1000 := by
    refine h.move ?_
    have := abs_nonneg dy
    linarith
  by_cases hbey : H < |rnd (y + nextR rnd (blk y) was dy)| ∧ blk y = false
  · refine ⟨.beyond, ?_, EndsR.beyond h1 hbey⟩
    show H < _
    have h3 := hfar (by rw [← hb]; exact hbey.2)
    have h4 : |rnd (y + nextR rnd (blk y) was dy)| ≤ |rnd (y + nextR rnd (blk y) was dy) - (y + nextR rnd (blk y) was dy)| + |y + nextR rnd (blk y) was dy| := by
      simpa using abs_add_le (rnd (y + nextR rnd (blk y) was dy) - (y + nextR rnd (blk y) was dy)) (y + nextR rnd (blk y) was dy)
    linarith [hbey.1]
  · obtain ⟨o, h3, h4⟩ := hnext _ _ e1 e2
    rw [← hb] at h4
    exact ⟨o, h3, EndsR.step h1 hbey h4⟩

/-- One turn after a step upwards. -/
theorem up_ends (h : Noisy rnd u p Y1 Y2 blk) {y dy last : K} {was b : Bool} {c : K} (hb : blk y = b) (hc : c = if b != was then -1 / 2 else 3 / 2)
    (hd : 0 < dy) (h1 : p < dy ∨ was ≠ sw) (hy1 : -(8 / 5 * Y2 + 160 * p) ≤ y) (hy2 : y ≤ 8 / 5 * Y2 + 160 * p) (hd2 : dy ≤ 3 / 5 * Y2 + 160 * p)
    (hfar : b = false → 151 / 100 * dy ≤ 7 / 10 * Y2 + 199 * p)
    (hnext : ∀ y' d', c * dy - dy / 100000 ≤ d' → d' ≤ c * dy + dy / 100000 → y + d' - p / 1000 ≤ y' → y' ≤ y + d' + p / 1000 →
      ∃ o, FoundR blk p H Y1 Y2 sw o ∧ EndsR rnd blk p H sw y' d' b y o) :
    ∃ o, FoundR blk p H Y1 Y2 sw o ∧ EndsR rnd blk p H sw y dy was last o := by
  have e : |dy| = dy := abs_of_pos hd
  have hp := h.pos
  have hY := h.le
  have hB := h.big
  have hy := abs_le.2 ⟨hy1, hy2⟩
  refine turn_ends h hb hc (by rwa [e]) (by rw [e]; linarith) (fun hf => ?_) (fun y' d' h2 h3 => ?_)
  · have h4 := abs_le.2 (h.free (hb.trans hf))
    have h5 : |c * dy| ≤ 3 / 2 * dy := by
      rw [abs_mul, e]
      refine mul_le_mul_of_nonneg_right ?_ hd.le
      rw [hc]
      split_ifs <;> norm_num [abs_of_pos, abs_of_neg, abs_div]
    have := hfar hf
    rw [e]
    linarith
  · rw [e] at h2
    obtain ⟨h4, h5⟩ := abs_le.1 h2
    obtain ⟨h6, h7⟩ := abs_le.1 h3
    exact hnext y' d' (by linarith) (by linarith) (by linarith) (by linarith)

/-- One turn after a step downwards, of `dy` in absolute value. -/
theorem down_ends (h : Noisy rnd u p Y1 Y2 blk) {y dy last : K} {was b : Bool} {c : K} (hb : blk y = b) (hc : c = if b != was then -1 / 2 else 3 / 2)
    (hd : dy < 0) (h1 : p < -dy ∨ was ≠ sw) (hy1 : -(8 / 5 * Y2 + 160 * p) ≤ y) (hy2 : y ≤ 8 / 5 * Y2 + 160 * p) (hd2 : -dy ≤ 3 / 5 * Y2 + 160 * p)
    (hfar : b = false → 151 / 100 * -dy ≤ 7 / 10 * Y2 + 199 * p)
    (hnext : ∀ y' d', c * dy + dy / 100000 ≤ d' → d' ≤ c * dy - dy / 100000 → y + d' - p / 1000 ≤ y' → y' ≤ y + d' + p / 1000 →
      ∃ o, FoundR blk p H Y1 Y2 sw o ∧ EndsR rnd blk p H sw y' d' b y o) :
    ∃ o, FoundR blk p H Y1 Y2 sw o ∧ EndsR rnd blk p H sw y dy was last o := by
  have e : |dy| = -dy := abs_of_neg hd
  have hp := h.pos
  have hY := h.le
  have hB := h.big
  have hy := abs_le.2 ⟨hy1, hy2⟩
  refine turn_ends h hb hc (by rwa [e]) (by rw [e]; linarith) (fun hf => ?_) (fun y' d' h2 h3 => ?_)
  · have h4 := abs_le.2 (h.free (hb.trans hf))
    have h5 : |c * dy| ≤ 3 / 2 * -dy := by
      rw [abs_mul, e]
      refine mul_le_mul_of_nonneg_right ?_ (by linarith)
      rw [hc]
      split_ifs <;> norm_num [abs_of_pos, abs_of_neg, abs_div]
    have := hfar hf
    rw [e]
    linarith
  · rw [e] at h2
    obtain ⟨h4, h5⟩ := abs_le.1 h2
    obtain ⟨h6, h7⟩ := abs_le.1 h3
    exact hnext y' d' (by linarith) (by linarith) (by linarith) (by linarith)

/-- The search has just stepped over the edge, from `a` to `b`. -/
structure AtEdge (p Y2 : K) (blk : K → Bool) (a b d : K) : Prop where
  free : blk a = false
  shut : blk b = true
  above : a + d - p / 1000 ≤ b
  below : b ≤ a + d + p / 1000
  pos : 0 < d
  le : d ≤ 11 / 20 * Y2 + 152 * p
  low : -(65 * p) ≤ a - 21 / 50 * d

/-- the heights around the edge -/
theorem AtEdge.facts (h : Noisy rnd u p Y1 Y2 blk) {a b d : K} (ha : AtEdge p Y2 blk a b d) : a ≤ Y2 ∧ Y1 < b ∧ -(65 * p) ≤ a := by
  have hp := h.pos
  have hB := h.big
  have h1 := ha.low
  have h2 := ha.pos
  have h3 := ha.above
  exact ⟨(h.free ha.free).2, h.stopped ha.shut (by linarith), by linarith⟩

/-- below the edge after a crossing, at an open height: two steps -/
theorem edge_open (h : Noisy rnd u p Y1 Y2 blk) {a b d y1 d1 : K} (ha : AtEdge p Y2 blk a b d) (hd : p < d)
    (rec : ∀ a' b' d', AtEdge p Y2 blk a' b' d' → d' ≤ 3 / 5 * d → ∃ o, FoundR blk p H Y1 Y2 sw o ∧ EndsR rnd blk p H sw b' d' false a' o)
    (d1a : -d / 2 - d / 100000 ≤ d1) (d1b : d1 ≤ -d / 2 + d / 100000) (y1a : b + d1 - p / 1000 ≤ y1) (y1b : y1 ≤ b + d1 + p / 1000)
    (hgo : p < -d1 ∨ true ≠ sw) (hf : blk y1 = false) :
    ∃ o, FoundR blk p H Y1 Y2 sw o ∧ EndsR rnd blk p H sw y1 d1 true b o := by
  have hp := h.pos
  have hY := h.le
  have hB := h.big
  have hz := h.fuzz
  obtain ⟨f1, f2, f3⟩ := ha.facts h
  have f4 := ha.above
  have f5 := ha.below
  have f6 := ha.pos
  have f7 := ha.le
  have f8 := ha.low
  have f9 := (h.free hf).2
  refine down_ends (b := false) (c := -1 / 2) h hf (by simp) (by linarith) hgo (by linarith) (by linarith) (by linarith) (fun _ => by linarith)
    (fun y2 d2 d2a d2b y2a y2b => ?_)
  have p2 : 0 < d2 := by linarith
  by_cases hs : d2 ≤ p ∧ sw = false
  · refine ⟨_, ?_, EndsR.stop (by rw [abs_of_pos p2]; exact hs.1) hs.2.symm⟩
    rw [hs.2]
    refine ⟨hf, ?_⟩
    simp only [Bool.false_eq_true, if_false]
    exact ⟨by linarith, f9⟩
  have hgo2 : p < d2 ∨ false ≠ sw := by
    rcases Bool.eq_false_or_eq_true sw with h0 | h0
    · right; rw [h0]; decide
    · left; by_contra hc; exact hs ⟨not_lt.1 hc, h0⟩
  cases hb2 : blk y2 with
  | true => exact rec y1 y2 d2 ⟨hf, hb2, by linarith, by linarith, p2, by linarith, by linarith⟩ (by linarith)
  | false =>
    have g2 := (h.free hb2).2
    refine up_ends (b := false) (c := 3 / 2) h hb2 (by simp) p2 hgo2 (by linarith) (by linarith) (by linarith) (fun _ => by linarith)
      (fun y3 d3 d3a d3b y3a y3b => ?_)
    exact rec y2 y3 d3 ⟨hb2, h.shut (by linarith), by linarith, by linarith, by linarith, by linarith, by linarith⟩ (by linarith)

/-- below the edge after a crossing, at a closed height: three steps -/
theorem edge_shut (h : Noisy rnd u p Y1 Y2 blk) {a b d y1 d1 : K} (ha : AtEdge p Y2 blk a b d) (hd : p < d)
    (rec : ∀ a' b' d', AtEdge p Y2 blk a' b' d' → d' ≤ 3 / 5 * d → ∃ o, FoundR blk p H Y1 Y2 sw o ∧ EndsR rnd blk p H sw b' d' false a' o)
    (d1a : -d / 2 - d / 100000 ≤ d1) (d1b : d1 ≤ -d / 2 + d / 100000) (y1a : b + d1 - p / 1000 ≤ y1) (y1b : y1 ≤ b + d1 + p / 1000)
    (hgo : p < -d1 ∨ true ≠ sw) (hf : blk y1 = true) :
    ∃ o, FoundR blk p H Y1 Y2 sw o ∧ EndsR rnd blk p H sw y1 d1 true b o := by
  have hp := h.pos
  have hY := h.le
  have hB := h.big
  have hz := h.fuzz
  obtain ⟨f1, f2, f3⟩ := ha.facts h
  have f4 := ha.above
  have f5 := ha.below
  have f6 := ha.pos
  have f7 := ha.le
  have f8 := ha.low
  have f9 := h.stopped hf (by linarith)
  refine down_ends (b := true) (c := 3 / 2) h hf (by simp) (by linarith) hgo (by linarith) (by linarith) (by linarith) (fun h0 => by cases h0)
    (fun y2 d2 d2a d2b y2a y2b => ?_)
  have p2 : d2 < 0 := by linarith
  by_cases hs : -d2 ≤ p ∧ sw = true
  · refine ⟨_, ?_, EndsR.stop (by rw [abs_of_neg p2]; exact hs.1) hs.2.symm⟩
    rw [hs.2]
    refine ⟨hf, ?_⟩
    simp only [if_true]
    exact ⟨f9, by linarith⟩
  have hgo2 : p < -d2 ∨ true ≠ sw := by
    rcases Bool.eq_false_or_eq_true sw with h0 | h0
    · left; by_contra hc; exact hs ⟨not_lt.1 hc, h0⟩
    · right; rw [h0]; decide
  have hb2 : blk y2 = false := h.open (by linarith) (by linarith)
  refine down_ends (b := false) (c := -1 / 2) h hb2 (by simp) p2 hgo2 (by linarith) (by linarith) (by linarith) (fun _ => by linarith)
    (fun y3 d3 d3a d3b y3a y3b => ?_)
  have p3 : 0 < d3 := by linarith
  by_cases hs3 : d3 ≤ p ∧ sw = false
  · refine ⟨_, ?_, EndsR.stop (by rw [abs_of_pos p3]; exact hs3.1) hs3.2.symm⟩
    rw [hs3.2]
    refine ⟨hb2, ?_⟩
    simp only [Bool.false_eq_true, if_false]
    exact ⟨by linarith, (h.free hb2).2⟩
  have hgo3 : p < d3 ∨ false ≠ sw := by
    rcases Bool.eq_false_or_eq_true sw with h0 | h0
    · right; rw [h0]; decide
    · left; by_contra hc; exact hs3 ⟨not_lt.1 hc, h0⟩
  cases hb3 : blk y3 with
  | true => exact rec y2 y3 d3 ⟨hb2, hb3, by linarith, by linarith, p3, by linarith, by linarith⟩ (by linarith)
  | false =>
    have g3 := (h.free hb3).2
    refine up_ends (b := false) (c := 3 / 2) h hb3 (by simp) p3 hgo3 (by linarith) (by linarith) (by linarith) (fun _ => by linarith)
      (fun y4 d4 d4a d4b y4a y4b => ?_)
    exact rec y3 y4 d4 ⟨hb3, h.shut (by linarith), by linarith, by linarith, by linarith, by linarith, by linarith⟩ (by linarith)

/-- Over the edge, the search ends, or is back over the edge after a step at most three fifths as long. -/
theorem edge_step (h : Noisy rnd u p Y1 Y2 blk) {a b d : K} (ha : AtEdge p Y2 blk a b d)
    (rec : p < d → ∀ a' b' d', AtEdge p Y2 blk a' b' d' → d' ≤ 3 / 5 * d → ∃ o, FoundR blk p H Y1 Y2 sw o ∧ EndsR rnd blk p H sw b' d' false a' o) :
    ∃ o, FoundR blk p H Y1 Y2 sw o ∧ EndsR rnd blk p H sw b d false a o := by
  have hp := h.pos
  have hY := h.le
  have hB := h.big
  have hz := h.fuzz
  obtain ⟨f1, f2, f3⟩ := ha.facts h
  have f4 := ha.above
  have f5 := ha.below
  have f6 := ha.pos
  have f7 := ha.le
  by_cases hs : d ≤ p ∧ sw = false
  · refine ⟨_, ?_, EndsR.stop (by rw [abs_of_pos f6]; exact hs.1) hs.2.symm⟩
    rw [hs.2]
    refine ⟨ha.free, ?_⟩
    simp only [Bool.false_eq_true, if_false]
    exact ⟨by linarith, f1⟩
  have hgo : p < d ∨ false ≠ sw := by
    rcases Bool.eq_false_or_eq_true sw with h0 | h0
    · right; rw [h0]; decide
    · left; by_contra hc; exact hs ⟨not_lt.1 hc, h0⟩
  refine up_ends (b := true) (c := -1 / 2) h ha.shut (by simp) f6 hgo (by linarith) (by linarith) (by linarith) (fun h0 => by cases h0)
    (fun y1 d1 d1a d1b y1a y1b => ?_)
  have p1 : d1 < 0 := by linarith
  by_cases hs1 : -d1 ≤ p ∧ sw = true
  · refine ⟨_, ?_, EndsR.stop (by rw [abs_of_neg p1]; exact hs1.1) hs1.2.symm⟩
    rw [hs1.2]
    refine ⟨ha.shut, ?_⟩
    simp only [if_true]
    exact ⟨f2, by linarith⟩
  have hgo1 : p < -d1 ∨ true ≠ sw := by
    rcases Bool.eq_false_or_eq_true sw with h0 | h0
    · left; by_contra hc; exact hs1 ⟨not_lt.1 hc, h0⟩
    · right; rw [h0]; decide
  have hd : p < d := by
    rcases Bool.eq_false_or_eq_true sw with h0 | h0
    · have : p < -d1 := by by_contra hc; exact hs1 ⟨not_lt.1 hc, h0⟩
      linarith
    · by_contra hc; exact hs ⟨not_lt.1 hc, h0⟩
  cases hb1 : blk y1 with
  | false => exact edge_open h ha hd (rec hd) (by linarith) (by linarith) y1a y1b hgo1 hb1
  | true => exact edge_shut h ha hd (rec hd) (by linarith) (by linarith) y1a y1b hgo1 hb1

theorem edge_ends (h : Noisy rnd u p Y1 Y2 blk) (k : Nat) : ∀ {a b d : K}, AtEdge p Y2 blk a b d → d ≤ p * (5 / 3) ^ k →
    ∃ o, FoundR blk p H Y1 Y2 sw o ∧ EndsR rnd blk p H sw b d false a o := by
  induction k with
  | zero =>
    intro a b d ha hk
    exact edge_step h ha fun hd => absurd hd (not_lt.2 (by simpa using hk))
  | succ k ih =>
    intro a b d ha hk
    refine edge_step h ha fun _ a' b' d' ha' hd' => ih ha' ?_
    rw [pow_succ] at hk
    linarith

/-- The climb to the edge. -/
theorem climb_ends [Archimedean K] (h : Noisy rnd u p Y1 Y2 blk) (k : Nat) : ∀ {y d last : K}, Y2 + 281 * p < d * (7 / 5) ^ k → 100 * p - p / 1000 ≤ d →
    d ≤ 11 / 20 * Y2 + 152 * p → 14 / 5 * d - 281 * p ≤ y → y ≤ 8 / 5 * Y2 + 160 * p → (blk y = true → AtEdge p Y2 blk last y d) →
    ∃ o, FoundR blk p H Y1 Y2 sw o ∧ EndsR rnd blk p H sw y d false last o := by
  have hp := h.pos
  have hY := h.le
  have hB := h.big
  induction k with
  | zero =>
    intro y d last hk h1 h2 h3 h4 h5
    cases hb : blk y with
    | true =>
      obtain ⟨m, hm⟩ := pow_unbounded_of_one_lt (d / p) (by norm_num : (1 : K) < 5 / 3)
      exact edge_ends h m (h5 hb) (by rw [div_lt_iff₀ hp] at hm; linarith)
    | false =>
      have := (h.free hb).2
      simp only [pow_zero, mul_one] at hk
      linarith
  | succ k ih =>
    intro y d last hk h1 h2 h3 h4 h5
    cases hb : blk y with
    | true =>
      obtain ⟨m, hm⟩ := pow_unbounded_of_one_lt (d / p) (by norm_num : (1 : K) < 5 / 3)
      exact edge_ends h m (h5 hb) (by rw [div_lt_iff₀ hp] at hm; linarith)
    | false =>
      have g := (h.free hb).2
      refine up_ends (b := false) (c := 3 / 2) h hb (by simp) (by linarith) (Or.inl (by linarith)) (by linarith) h4 (by linarith) (fun _ => by linarith)
        (fun y1 d1 d1a d1b y1a y1b => ?_)
      refine ih ?_ (by linarith) (by linarith) (by linarith) (by linarith) (fun hb1 => ⟨hb, hb1, by linarith, by linarith, by linarith, by linarith, by linarith⟩)
      rw [pow_succ] at hk
      have : (0 : K) < (7 / 5) ^ k := by positivity
      nlinarith

/-- The search of `fieldStop` and `halfFieldOfView`, from the axis. -/
theorem searchR_ends [Archimedean K] (h : Noisy rnd u p Y1 Y2 blk) : ∃ o, FoundR blk p H Y1 Y2 sw o ∧
    EndsR rnd blk p H sw 0 (rnd (p * rnd 100)) false 0 o := by
  have hp := h.pos
  have hY := h.le
  have hB := h.big
  have hu := h.small
  have hn := h.rounding.nonneg
  have h1 := h.rounding.rel 100
  rw [abs_of_pos (by norm_num : (0 : K) < 100)] at h1
  obtain ⟨h1a, h1b⟩ := abs_le.1 h1
  have h2 := h.rounding.rel (p * rnd 100)
  rw [abs_of_pos (mul_pos hp (by linarith : (0 : K) < rnd 100))] at h2
  obtain ⟨h2a, h2b⟩ := abs_le.1 h2
  have h3 : p * rnd 100 ≤ p * (100 + 1 / 10000) := mul_le_mul_of_nonneg_left (by linarith) hp.le
  have h4 : p * (100 - 1 / 10000) ≤ p * rnd 100 := mul_le_mul_of_nonneg_left (by linarith) hp.le
  have h5 : u * (p * rnd 100) ≤ 1 / 1000000 * (p * (100 + 1 / 10000)) := mul_le_mul hu h3 (by nlinarith) (by norm_num)
  have hd : 0 < rnd (p * rnd 100) := by linarith
  obtain ⟨m, hm⟩ := pow_unbounded_of_one_lt ((Y2 + 281 * p) / rnd (p * rnd 100)) (by norm_num : (1 : K) < 7 / 5)
  rw [div_lt_iff₀ hd] at hm
  refine climb_ends h m (by linarith) (by linarith) (by linarith) (by linarith) (by linarith) (fun hb => ?_)
  rw [h.inside 0 (by rw [abs_zero]; linarith)] at hb
  cases hb

/-! ## Precisions too fine for the numbers -/

/-- However many turns it is given, the search does not stop. -/
def NeverR (rnd : K → K) (blk : K → Bool) (p H : K) (sw : Bool) (y dy : K) (was : Bool) : Prop :=
  ∀ fuel last, searchR rnd blk p H sw fuel y dy was last = .timeout

theorem NeverR.step {y dy : K} {was : Bool} (h1 : p < |dy| ∨ was ≠ sw) (h2 : ¬ (H < |rnd (y + nextR rnd (blk y) was dy)| ∧ blk y = false))
    (h3 : NeverR rnd blk p H sw (rnd (y + nextR rnd (blk y) was dy)) (nextR rnd (blk y) was dy) (blk y)) : NeverR rnd blk p H sw y dy was := by
  intro fuel last
  unfold searchR
  rw [if_pos h1]
  cases fuel with
  | zero => rfl
  | succ n =>
    dsimp only
    rw [if_neg h2]
    exact h3 n y

/-- the state after `n` turns, if the search does not stop before -/
def turns (rnd : K → K) (blk : K → Bool) (p H : K) (sw : Bool) : Nat → K → K → Bool → Option (K × K × Bool)
  | 0, y, dy, was => some (y, dy, was)
  | n + 1, y, dy, was =>
    if p < |dy| ∨ was ≠ sw then
      if H < |rnd (y + nextR rnd (blk y) was dy)| ∧ blk y = false then none
      else turns rnd blk p H sw n (rnd (y + nextR rnd (blk y) was dy)) (nextR rnd (blk y) was dy) (blk y)
    else none

theorem NeverR.turns {n : Nat} {y dy y' dy' : K} {was was' : Bool} (h : RT.turns rnd blk p H sw n y dy was = some (y', dy', was'))
    (hn : NeverR rnd blk p H sw y' dy' was') : NeverR rnd blk p H sw y dy was := by
  induction n generalizing y dy was with
  | zero =>
    simp only [RT.turns, Option.some.injEq, Prod.mk.injEq] at h
    obtain ⟨rfl, rfl, rfl⟩ := h
    exact hn
  | succ n ih =>
    unfold RT.turns at h
    split_ifs at h with h1 h2
    exact NeverR.step h1 h2 (ih h)

/-- The edge is between two neighbouring numbers, `a` and `a + e`, and the precision is less than a quarter of their distance. -/
structure Neighbours (rnd : K → K) (blk : K → Bool) (p H a e : K) : Prop where
  free : blk a = false
  shut : blk (a + e) = true
  none_between : ∀ x, a ≤ x → x ≤ a + e → (rnd x = a ∧ x ≤ a + e / 2) ∨ (rnd x = a + e ∧ a + e / 2 ≤ x)
  halve : ∀ x, e / 2 ≤ x → x ≤ 3 / 4 * e → e / 4 ≤ rnd (x / 2) ∧ rnd (x / 2) ≤ 3 / 8 * e
  grow : ∀ x, e / 4 ≤ x → x ≤ e / 2 → 3 / 8 * e ≤ rnd (x * rnd (3 / 2)) ∧ rnd (x * rnd (3 / 2)) ≤ 3 / 4 * e
  odd : ∀ x, rnd (-x) = -rnd x
  fine : p < e / 4
  pos : 0 < e
  low : |a| ≤ H
  high : |a + e| ≤ H

/-- the steps between the two neighbours -/
def Hops (a e y d : K) (was : Bool) : Prop :=
  (y = a ∧ was = true ∧ -(3 / 4 * e) ≤ d ∧ d ≤ -(e / 2)) ∨ (y = a ∧ was = false ∧ e / 4 ≤ d ∧ d ≤ e / 2) ∨
  (y = a + e ∧ was = false ∧ e / 2 ≤ d ∧ d ≤ 3 / 4 * e) ∨ (y = a + e ∧ was = true ∧ -(e / 2) ≤ d ∧ d ≤ -(e / 4))

instance [DecidableEq K] (a e y d : K) (was : Bool) : Decidable (Hops a e y d was) := by unfold Hops; infer_instance

theorem Hops.next {a e y d : K} {was : Bool} (h : Neighbours rnd blk p H a e) (hh : Hops a e y d was) :
    p < |d| ∧ |rnd (y + nextR rnd (blk y) was d)| ≤ H ∧ Hops a e (rnd (y + nextR rnd (blk y) was d)) (nextR rnd (blk y) was d) (blk y) := by
  have hf := h.fine
  have hp := h.pos
  have key : ∀ {x d' : K}, a ≤ x → x ≤ a + e → (rnd x = a → x ≤ a + e / 2 → Hops a e a d' (blk y)) → (rnd x = a + e → a + e / 2 ≤ x → Hops a e (a + e) d' (blk y)) →
      |rnd x| ≤ H ∧ Hops a e (rnd x) d' (blk y) := by
    intro x d' h1 h2 h3 h4
    rcases h.none_between x h1 h2 with ⟨h5, h6⟩ | ⟨h5, h6⟩
    · have := h3 h5 h6
      rw [h5]; exact ⟨h.low, this⟩
    · have := h4 h5 h6
      rw [h5]; exact ⟨h.high, this⟩
  rcases hh with ⟨rfl, rfl, h1, h2⟩ | ⟨rfl, rfl, h1, h2⟩ | ⟨rfl, rfl, h1, h2⟩ | ⟨rfl, rfl, h1, h2⟩
  · refine ⟨by rw [abs_of_neg (by linarith)]; linarith, ?_⟩
    obtain ⟨k1, k2⟩ := h.halve (-d) (by linarith) (by linarith)
    rw [h.free, nextR_turn (by decide)]
    refine h.free ▸ key (by linarith) (by linarith) (fun _ _ => ?_) (fun _ _ => ?_)
    · exact .inr (.inl ⟨rfl, h.free, by linarith, by linarith⟩)
    · linarith
  · refine ⟨by rw [abs_of_pos (by linarith)]; linarith, ?_⟩
    obtain ⟨k1, k2⟩ := h.grow d h1 h2
    rw [h.free, nextR_grow]
    refine h.free ▸ key (by linarith) (by linarith) (fun _ _ => ?_) (fun _ _ => ?_)
    · exact .inr (.inl ⟨rfl, h.free, by linarith, by linarith⟩)
    · exact .inr (.inr (.inl ⟨rfl, h.free, by linarith, by linarith⟩))
  · refine ⟨by rw [abs_of_pos (by linarith)]; linarith, ?_⟩
    obtain ⟨k1, k2⟩ := h.halve d h1 h2
    rw [h.shut, nextR_turn (by decide), neg_div, h.odd]
    refine h.shut ▸ key (by linarith) (by linarith) (fun _ _ => ?_) (fun _ _ => ?_)
    · linarith
    · exact .inr (.inr (.inr ⟨rfl, h.shut, by linarith, by linarith⟩))
  · refine ⟨by rw [abs_of_neg (by linarith)]; linarith, ?_⟩
    obtain ⟨k1, k2⟩ := h.grow (-d) (by linarith) (by linarith)
    rw [neg_mul, h.odd] at k1 k2
    rw [h.shut, nextR_grow]
    refine h.shut ▸ key (by linarith) (by linarith) (fun _ _ => ?_) (fun _ _ => ?_)
    · exact .inl ⟨rfl, h.shut, by linarith, by linarith⟩
    · exact .inr (.inr (.inr ⟨rfl, h.shut, by linarith, by linarith⟩))

/-- Between neighbours the search does not stop. -/
theorem Hops.never {a e y d : K} {was : Bool} (h : Neighbours rnd blk p H a e) (hh : Hops a e y d was) : NeverR rnd blk p H sw y d was := by
  intro fuel
  induction fuel generalizing y d was with
  | zero =>
    intro last
    unfold searchR
    rw [if_pos (.inl (hh.next h).1)]
  | succ n ih =>
    intro last
    obtain ⟨h1, h2, h3⟩ := hh.next h
    unfold searchR
    rw [if_pos (.inl h1)]
    dsimp only
    rw [if_neg (fun hc => absurd hc.1 (not_lt.2 h2))]
    exact ih h3 _

end RT
