import Verif.Lemmas.Binary64Mono
import Verif.Lemmas.RoundedTrace
import Verif.Lemmas.Imaging

/-! # The search for the edge of a small field, in Python floats

When the chief rays are blocked from a height below 37 times the precision, the search goes away from the axis for ever in exact arithmetic. In Python floats it
goes on until the height overflows. -/

set_option linter.unusedSectionVars false

namespace RT
open PyNum Ext B64

/-- a finite Python float -/
def Flt (x : ℚ) : Prop := round64 x = x ∧ |x| < pow2 1024

theorem Flt.neg {x : ℚ} (h : Flt x) : Flt (-x) := ⟨by rw [round64_neg, h.1], by rw [abs_neg]; exact h.2⟩

theorem Flt.double {x : ℚ} (h : Flt x) : double64 x = .fin x := by
  rw [double64_small (b := |x|) (by rw [h.1]) h.2, h.1]

theorem flt_of_bound {x b : ℚ} (h0 : 0 ≤ x) (h : x ≤ b) (hb : Flt b) : Flt (round64 x) ∧ round64 x ≤ b ∧ 0 ≤ round64 x := by
  have h1 : round64 x ≤ b := by have := round64_mono h; rwa [hb.1] at this
  have h2 := round64_nonneg h0
  refine ⟨⟨round64_idem x, ?_⟩, h1, h2⟩
  rw [_root_.abs_of_nonneg h2]
  exact lt_of_le_of_lt (h1.trans (le_abs_self b)) hb.2

/-- rounding in the normal range, with a coarse bound -/
theorem round64_coarse {x : ℚ} (h : tiny ≤ x) : 999999 / 1000000 * x ≤ round64 x ∧ round64 x ≤ 1000001 / 1000000 * x := by
  have h1 := round64_near x
  have hx : 0 < x := lt_of_lt_of_le tiny_pos h
  rw [_root_.abs_of_pos hx, max_eq_left h] at h1
  have hu : unitRoundoff ≤ 1 / 1000000 := by norm_num [unitRoundoff]
  have h2 : unitRoundoff * x ≤ 1 / 1000000 * x := mul_le_mul_of_nonneg_right hu hx.le
  obtain ⟨h3, h4⟩ := _root_.abs_le.1 (h1.trans h2)
  constructor <;> linarith

theorem flt_of_normal {x : ℚ} (h : tiny ≤ x) (hx : x ≤ huge) : Flt (round64 x) := by
  refine ⟨round64_idem x, ?_⟩
  have h1 := round64_coarse h
  have h0 : 0 < x := lt_of_lt_of_le tiny_pos h
  rw [_root_.abs_of_nonneg (by linarith), ← two_huge]
  linarith

theorem lit32 : (lit (3 / 2) : B64) = num (3 / 2) := by decide +kernel
theorem two64 : (2 : B64) = num 2 := by decide +kernel
theorem hundred64 : (100 : B64) = num 100 := by decide +kernel
theorem zero64 : (0 : B64) = num 0 := by decide +kernel

theorem mul_num64 (x y : ℚ) : (num x * num y : B64) = ⟨double64 (x * y)⟩ := rfl
theorem add_num64 (x y : ℚ) : (num x + num y : B64) = ⟨double64 (x + y)⟩ := rfl
theorem neg_num64 (x : ℚ) : (-num x : B64) = num (-x) := rfl
theorem abs_num64 (x : ℚ) : PyNum.abs (num x) = num |x| := rfl
theorem lt_num64 (x y : ℚ) : (num x <. num y) = decide (x < y) := lt_fin x y
theorem half_num64 (x : ℚ) : half (num x) = ⟨double64 (x / 2)⟩ := by
  unfold half; rw [two64]
  change (⟨B64.round (Ext.div (.fin x) (.fin 2))⟩ : B64) = _
  congr 1

/-- minus infinity -/
def ninf64 : B64 := ⟨.ninf⟩

/-- a step larger than the precision -/
theorem lt_step {p d : ℚ} (h : p < d) (h' : tiny ≤ d) : ((num p <. PyNum.abs (num (-d))) || !true) = true := by
  have := tiny_pos
  rw [abs_num64, lt_num64, abs_neg, _root_.abs_of_pos (by linarith)]; simpa using h

section loop
variable {g : Group B64} {ang : B64 → B64} {blk : B64 → Bool}
  (hch : ∀ y : B64, (g.chiefRay y).run (newTrace g) = .ok (some (Ray.new y (ang y))))
  (hblk : ∀ y : B64, (lastV g.toElem.items (Ray.new y (ang y))).isBlocked = blk y)
include hch hblk

theorem searchStep_eq64 (y dy : B64) (was : Bool) :
    (g.searchStep y dy was).run (newTrace g) =
      .ok (newTrace g y (ang y), blk y, if blk y != was then half (-dy) else dy * lit (3 / 2)) := by
  unfold Group.searchStep
  simp only [Prog.run_bind, hch, Prog.run_ask]
  have e : (Ray.new y (ang y) : Ray B64).y = y := rfl
  have e' : (Ray.new y (ang y) : Ray B64).theta = ang y := rfl
  rw [e, e']
  have hl := hblk y
  unfold lastV at hl
  unfold newTrace
  cases hx : (traceV g.toElem.items (Ray.new y (ang y))).getLast? with
  | none =>
    exfalso
    rw [List.getLast?_eq_none_iff] at hx
    unfold traceV at hx
    generalize settle g.toElem.items (Ray.new y (ang y)) = r at hx
    change runTrace (.dup :: itemsList g.elems) r = [] at hx
    simp [runTrace] at hx
  | some out =>
    rw [hx, Option.getD_some] at hl
    simp only [hl, Prog.run_pure]

/-- one turn of the loop -/
theorem loop_turn (p H : B64) (fuel : Nat) (y dy : B64) (was : Bool) (last : List (Ray B64)) {dy1 y1 : B64} {b : Bool}
    (hc : ((p <. PyNum.abs dy) || !was) = true) (hb : blk y = b) (hd : (if b != was then half (-dy) else dy * lit (3 / 2)) = dy1)
    (hy : y + dy1 = y1) :
    (g.fieldStopLoop p H (fuel + 1) y dy was last).run (newTrace g) =
      if ((H <. PyNum.abs y1) && !b) = true then .ok none
      else (g.fieldStopLoop p H fuel y1 dy1 b (newTrace g y (ang y))).run (newTrace g) := by
  rw [Group.fieldStopLoop]
  rw [if_pos hc, Prog.run_bind, searchStep_eq64 hch hblk]
  dsimp only
  rw [hb, hd, hy]
  split_ifs <;> rfl

theorem loop_zero (p H : B64) (y dy : B64) (was : Bool) (last : List (Ray B64)) (hc : ((p <. PyNum.abs dy) || !was) = true) :
    (g.fieldStopLoop p H 0 y dy was last).run (newTrace g) = .error .nonTermination := by
  rw [Group.fieldStopLoop]
  rw [if_pos hc]; rfl

/-- From minus infinity, when the chief ray is blocked there: the search goes on for ever. -/
theorem loop_at_ninf (hb : blk ninf64 = true) (p : ℚ) (H : B64) (fuel : Nat) : ∀ (dy : B64) (last : List (Ray B64)),
    dy = ninf64 ∨ (∃ d : ℚ, dy = num (-d) ∧ p < d ∧ tiny ≤ d) →
    (g.fieldStopLoop (num p) H fuel ninf64 dy true last).run (newTrace g) = .error .nonTermination := by
  induction fuel with
  | zero =>
    intro dy last h
    refine loop_zero hch hblk _ _ _ _ _ _ ?_
    rcases h with rfl | ⟨d, rfl, h, h'⟩
    · rfl
    · have := tiny_pos
      rw [abs_num64, lt_num64, abs_neg, _root_.abs_of_pos (by linarith)]; simpa using h
  | succ n ih =>
    intro dy last h
    rcases h with rfl | ⟨d, rfl, h, h'⟩
    · rw [loop_turn hch hblk _ _ _ _ _ _ _ (dy1 := ninf64) (y1 := ninf64) (b := true) rfl hb (by decide +kernel) (by decide +kernel)]
      rw [if_neg (by simp)]
      exact ih _ _ (.inl rfl)
    · have hd := lt_step h h'
      rcases double64_cases (-d * (3 / 2)) with ⟨e, hx⟩ | ⟨e, hx⟩ | ⟨e, -⟩
      · exfalso
        have h1 : round64 (-d * (3 / 2)) ≤ 0 := by
          have := round64_mono (show -d * (3 / 2) ≤ 0 by have := tiny_pos; linarith)
          rwa [round64_zero] at this
        have := pow2_pos 1024
        linarith
      · rw [loop_turn hch hblk _ _ _ _ _ _ _ (dy1 := ninf64) (y1 := ninf64) (b := true) hd hb
          (by rw [if_neg (by simp), lit32, mul_num64, e]; rfl) (by decide +kernel)]
        rw [if_neg (by simp)]
        exact ih _ _ (.inl rfl)
      · rw [loop_turn hch hblk _ _ _ _ _ _ _ (dy1 := num (-round64 (d * (3 / 2)))) (y1 := ninf64) (b := true) hd hb
          (by rw [if_neg (by simp), lit32, mul_num64, e, neg_mul, round64_neg]; rfl) rfl]
        rw [if_neg (by simp)]
        have ht := tiny_pos
        have := (round64_coarse (x := d * (3 / 2)) (by linarith)).1
        exact ih _ _ (.inr ⟨_, rfl, by linarith, by linarith⟩)

/-- Away from the axis, below: the search ends without a result, or goes on for ever. -/
theorem loop_down {p H a0 : ℚ} (hH : 0 ≤ H)
    (hlow : ∀ a, Flt a → a0 ≤ a → a < 2 * H → blk (num (-a)) = true) (n : ℕ) :
    ∀ (a d : ℚ) (last : List (Ray B64)), Flt a → Flt d → 2 * tiny ≤ d → p < d → d ≤ 2 / 3 * a → a0 ≤ a → pow2 1024 ≤ d * (7 / 5) ^ n →
    (blk ninf64 = true ∧ ∀ fuel, (g.fieldStopLoop (num p) (num H) fuel (num (-a)) (num (-d)) true last).run (newTrace g) = .error .nonTermination) ∨
    ((blk ninf64 = false ∨ ∃ a, Flt a ∧ a0 ≤ a ∧ blk (num (-a)) = false) ∧
      ∃ N, ∀ fuel, N ≤ fuel → (g.fieldStopLoop (num p) (num H) fuel (num (-a)) (num (-d)) true last).run (newTrace g) = .ok none) := by
  induction n with
  | zero =>
    intro a d last ha hd ht hp hda h0 hn
    exfalso
    have := (le_abs_self d).trans_lt hd.2
    rw [pow_zero, mul_one] at hn
    linarith
  | succ n ih =>
    intro a d last ha hd ht hp hda h0 hn
    have htp := tiny_pos
    have hc := lt_step hp (by linarith : tiny ≤ d)
    cases hb : blk (num (-a)) with
    | false =>
      right
      refine ⟨.inr ⟨a, ha, h0, hb⟩, 1, fun fuel hf => ?_⟩
      obtain ⟨k, rfl⟩ : ∃ k, fuel = k + 1 := ⟨fuel - 1, by omega⟩
      have h2H : 2 * H ≤ a := by
        by_contra hlt
        rw [hlow a ha h0 (not_le.1 hlt)] at hb
        exact absurd hb (by simp)
      -- half a step back
      have f1 := flt_of_bound (x := d / 2) (b := d) (by linarith) (by linarith) hd
      have f2 : round64 (d / 2) ≤ 34 / 100 * a := by
        have h1 := round64_near (d / 2)
        rw [_root_.abs_of_pos (show 0 < d / 2 by linarith)] at h1
        have hm : max (d / 2) tiny ≤ d := max_le (by linarith) (by linarith)
        have hu : unitRoundoff ≤ 1 / 1000 := by norm_num [unitRoundoff]
        have hu0 : 0 ≤ unitRoundoff := by norm_num [unitRoundoff]
        have h2 : unitRoundoff * max (d / 2) tiny ≤ 1 / 1000 * d := mul_le_mul hu hm (le_max_of_le_right htp.le) (by norm_num)
        have := (_root_.abs_le.1 (h1.trans h2)).2
        linarith
      have f3 := flt_of_bound (x := a - round64 (d / 2)) (b := a) (by linarith) (by linarith [f1.2.2]) ha
      have f4 := (round64_coarse (x := a - round64 (d / 2)) (by linarith)).1
      rw [loop_turn hch hblk _ _ _ _ _ _ _ (dy1 := num (round64 (d / 2))) (y1 := num (-round64 (a - round64 (d / 2)))) (b := false) hc hb
        (by rw [if_pos (by simp), neg_num64, neg_neg, half_num64, double64_small (b := |round64 (d / 2)|) le_rfl f1.1.2]; rfl)
        (by
          rw [add_num64, show -a + round64 (d / 2) = -(a - round64 (d / 2)) by ring,
            double64_small (b := |round64 (a - round64 (d / 2))|) (by rw [round64_neg, abs_neg]) f3.1.2, round64_neg]; rfl)]
      rw [if_pos]
      rw [abs_num64, lt_num64, abs_neg, _root_.abs_of_nonneg f3.2.2]
      have : H < round64 (a - round64 (d / 2)) := by linarith
      simp [this]
    | true =>
      have f1 := flt_of_bound (x := d * (3 / 2)) (b := a) (by linarith) (by linarith) ha
      have g1 := (round64_coarse (x := d * (3 / 2)) (by linarith)).1
      have hd1 : (if true != true then half (-num (-d)) else num (-d) * lit (3 / 2)) = num (-round64 (d * (3 / 2))) := by
        rw [if_neg (by simp), lit32, mul_num64, neg_mul, double64_small (b := |round64 (d * (3 / 2))|) (by rw [round64_neg, abs_neg]) f1.1.2, round64_neg]; rfl
      set e := round64 (d * (3 / 2)) with he
      have hgrow : 7 / 5 * d ≤ e := by linarith
      have hneg : -a + -e = -(a + e) := by ring
      rcases double64_cases (-(a + e)) with ⟨h1, h2⟩ | ⟨h1, h2⟩ | ⟨h1, h2, h3⟩
      · exfalso
        have h4 : round64 (-(a + e)) ≤ 0 := by
          have := round64_mono (show -(a + e) ≤ 0 by linarith)
          rwa [round64_zero] at this
        have := pow2_pos 1024
        linarith
      · have ht1 : ∀ fuel, (g.fieldStopLoop (num p) (num H) (fuel + 1) (num (-a)) (num (-d)) true last).run (newTrace g) =
            (g.fieldStopLoop (num p) (num H) fuel ninf64 (num (-e)) true (newTrace g (num (-a)) (ang (num (-a))))).run (newTrace g) := by
          intro fuel
          rw [loop_turn hch hblk _ _ _ _ _ _ _ (dy1 := num (-e)) (y1 := ninf64) (b := true) hc hb hd1
            (by rw [add_num64, hneg, h1]; rfl), if_neg (by simp)]
        cases hbn : blk ninf64 with
        | true =>
          left
          refine ⟨rfl, fun fuel => ?_⟩
          cases fuel with
          | zero => exact loop_zero hch hblk _ _ _ _ _ _ hc
          | succ k =>
            rw [ht1]
            exact loop_at_ninf hch hblk hbn p _ _ _ _ (.inr ⟨e, rfl, by linarith, by linarith⟩)
        | false =>
          right
          refine ⟨.inl rfl, 2, fun fuel hf => ?_⟩
          obtain ⟨k, rfl⟩ : ∃ k, fuel = k + 1 + 1 := ⟨fuel - 2, by omega⟩
          have f5 := flt_of_bound (x := e / 2) (b := e) (by linarith) (by linarith) f1.1
          rw [ht1, loop_turn hch hblk _ _ _ _ _ _ _ (dy1 := num (round64 (e / 2))) (y1 := ninf64) (b := false)
            (lt_step (by linarith) (by linarith)) hbn
            (by rw [if_pos (by simp), neg_num64, neg_neg, half_num64, double64_small (b := |round64 (e / 2)|) le_rfl f5.1.2]; rfl) rfl]
          rw [if_pos]
          rfl
      · rw [round64_neg] at h1 h2 h3
        set b := round64 (a + e) with hbdef
        have hb1 : 3 / 2 * e ≤ b := by
          have h4 := (round64_coarse (x := a + e) (by linarith)).1
          linarith
        have hb2 : a ≤ b := by
          have h4 : round64 a ≤ b := round64_mono (by linarith)
          rwa [ha.1] at h4
        have hbF : Flt b := ⟨round64_idem _, by rw [_root_.abs_of_nonneg (by linarith)]; linarith⟩
        have ht1 : ∀ fuel, (g.fieldStopLoop (num p) (num H) (fuel + 1) (num (-a)) (num (-d)) true last).run (newTrace g) =
            (g.fieldStopLoop (num p) (num H) fuel (num (-b)) (num (-e)) true (newTrace g (num (-a)) (ang (num (-a))))).run (newTrace g) := by
          intro fuel
          rw [loop_turn hch hblk _ _ _ _ _ _ _ (dy1 := num (-e)) (y1 := num (-b)) (b := true) hc hb hd1
            (by rw [add_num64, hneg, h1]; rfl), if_neg (by simp)]
        have hn' : pow2 1024 ≤ e * (7 / 5) ^ n := by
          have : d * (7 / 5) ^ (n + 1) = 7 / 5 * d * (7 / 5) ^ n := by ring
          rw [this] at hn
          exact hn.trans (mul_le_mul_of_nonneg_right hgrow (by positivity))
        rcases ih b e (newTrace g (num (-a)) (ang (num (-a)))) hbF f1.1 (by linarith) (by linarith) (by linarith) (h0.trans hb2) hn' with ⟨q1, q2⟩ | ⟨q1, N, q2⟩
        · left
          refine ⟨q1, fun fuel => ?_⟩
          cases fuel with
          | zero => exact loop_zero hch hblk _ _ _ _ _ _ hc
          | succ k => rw [ht1, q2]
        · right
          refine ⟨q1, N + 1, fun fuel hf => ?_⟩
          obtain ⟨k, rfl⟩ : ∃ k, fuel = k + 1 := ⟨fuel - 1, by omega⟩
          rw [ht1, q2 _ (by omega)]

/-- an outcome after some turns -/
def Lost (blk : B64 → Bool) (p : ℚ) (run : Nat → Except PyErr (Option (List (Ray B64)))) : Prop :=
  (blk ninf64 = true ∧ ∀ fuel, run fuel = .error .nonTermination) ∨
  ((blk ninf64 = false ∨ ∃ a, Flt a ∧ 37 * p ≤ a ∧ blk (num (-a)) = false) ∧ ∃ N, ∀ fuel, N ≤ fuel → run fuel = .ok none)

omit hch hblk in
theorem Lost.back {p : ℚ} {run run' : Nat → Except PyErr (Option (List (Ray B64)))} (h : Lost blk p run')
    (h0 : run 0 = .error .nonTermination) (h1 : ∀ k, run (k + 1) = run' k) : Lost blk p run := by
  rcases h with ⟨q1, q2⟩ | ⟨q1, N, q2⟩
  · left
    refine ⟨q1, fun fuel => ?_⟩
    cases fuel with
    | zero => exact h0
    | succ k => rw [h1, q2]
  · right
    refine ⟨q1, N + 1, fun fuel hf => ?_⟩
    obtain ⟨k, rfl⟩ : ∃ k, fuel = k + 1 := ⟨fuel - 1, by omega⟩
    rw [h1, q2 _ (by omega)]

set_option maxHeartbeats 2000000 in
/-- The search when the chief rays are blocked from a height below 37 times the precision. -/
theorem loop_small {p H : ℚ} (hp : tiny ≤ p) (hp' : p ≤ huge / 1000) (hH : 151 * p ≤ H) (hb0 : blk (num 0) = false)
    (hmid : ∀ y, Flt y → 37 * p ≤ |y| → |y| < 2 * H → blk (num y) = true) (last : List (Ray B64)) :
    Lost blk p fun fuel => (g.fieldStopLoop (num p) (num H) fuel 0 (num p * 100) false last).run (newTrace g) := by
  have htp := tiny_pos
  have hc := round64_coarse (x := p * 100) (by linarith)
  have hcF := flt_of_normal (x := p * 100) (by linarith) (by linarith)
  set c := round64 (p * 100) with hcdef
  have hx := round64_coarse (x := c * (3 / 2)) (by linarith)
  have hxF := flt_of_normal (x := c * (3 / 2)) (by linarith) (by linarith)
  set x := round64 (c * (3 / 2)) with hxdef
  have hh := round64_coarse (x := x / 2) (by linarith)
  have hhF := flt_of_normal (x := x / 2) (by linarith) (by linarith)
  set h := round64 (x / 2) with hhdef
  have hy2 := round64_coarse (x := x - h) (by linarith)
  have hy2F := flt_of_normal (x := x - h) (by linarith) (by linarith)
  set y2 := round64 (x - h) with hy2def
  have he3 := round64_coarse (x := h * (3 / 2)) (by linarith)
  have he3F := flt_of_normal (x := h * (3 / 2)) (by linarith) (by linarith)
  set e3 := round64 (h * (3 / 2)) with he3def
  have ha3 := round64_coarse (x := e3 - y2) (by linarith)
  have ha3F := flt_of_normal (x := e3 - y2) (by linarith) (by linarith)
  set a3 := round64 (e3 - y2) with ha3def
  have he4 := round64_coarse (x := e3 * (3 / 2)) (by linarith)
  have he4F := flt_of_normal (x := e3 * (3 / 2)) (by linarith) (by linarith)
  set e4 := round64 (e3 * (3 / 2)) with he4def
  have ha4 := round64_coarse (x := a3 + e4) (by linarith)
  have ha4F := flt_of_normal (x := a3 + e4) (by linarith) (by linarith)
  set a4 := round64 (a3 + e4) with ha4def
  have he5 := round64_coarse (x := e4 * (3 / 2)) (by linarith)
  have he5F := flt_of_normal (x := e4 * (3 / 2)) (by linarith) (by linarith)
  set e5 := round64 (e4 * (3 / 2)) with he5def
  have ha5 := round64_coarse (x := a4 + e5) (by linarith)
  have ha5F := flt_of_normal (x := a4 + e5) (by linarith) (by linarith)
  set a5 := round64 (a4 + e5) with ha5def
  have dbl : ∀ {z : ℚ}, Flt (round64 z) → (⟨double64 z⟩ : B64) = num (round64 z) := by
    intro z hz; rw [double64_small le_rfl hz.2]; rfl
  have dbln : ∀ {z : ℚ}, Flt (round64 z) → (⟨double64 (-z)⟩ : B64) = num (-round64 z) := by
    intro z hz; rw [double64_small (b := |round64 z|) (by rw [round64_neg, abs_neg]) hz.2, round64_neg]; rfl
  obtain ⟨n, hn⟩ : ∃ n : ℕ, pow2 1024 ≤ e5 * (7 / 5) ^ n := by
    obtain ⟨n, hn⟩ := pow_unbounded_of_one_lt (pow2 1024 / e5) (show (1 : ℚ) < 7 / 5 by norm_num)
    refine ⟨n, ?_⟩
    rw [div_lt_iff₀ (by linarith)] at hn
    linarith
  have s5 := loop_down hch hblk (p := p) (H := H) (a0 := 37 * p) (by linarith)
    (fun a ha h1 h2 => hmid (-a) ha.neg (by rw [abs_neg, _root_.abs_of_pos (by linarith)]; exact h1)
      (by rw [abs_neg, _root_.abs_of_pos (by linarith)]; exact h2)) n a5 e5 (newTrace g (num (-a4)) (ang (num (-a4)))) ha5F he5F
    (by linarith) (by linarith) (by linarith) (by linarith) hn
  have key : ∀ {d : ℚ} , p < d → tiny ≤ d → ((num p <. PyNum.abs (num (-d))) || !true) = true := fun h h' => lt_step h h'
  -- the fifth turn
  have s4 : Lost blk p fun fuel => (g.fieldStopLoop (num p) (num H) fuel (num (-a4)) (num (-e4)) true
      (newTrace g (num (-a3)) (ang (num (-a3))))).run (newTrace g) := by
    refine Lost.back s5 (loop_zero hch hblk _ _ _ _ _ _ (key (by linarith) (by linarith))) fun k => ?_
    rw [loop_turn hch hblk _ _ _ _ _ _ _ (dy1 := num (-e5)) (y1 := num (-a5)) (b := true) (key (by linarith) (by linarith))
      (hmid _ ha4F.neg (by rw [abs_neg, _root_.abs_of_pos (by linarith)]; linarith) (by rw [abs_neg, _root_.abs_of_pos (by linarith)]; linarith))
      (by rw [if_neg (by simp), lit32, mul_num64, neg_mul, dbln he5F])
      (by rw [add_num64, show -a4 + -e5 = -(a4 + e5) by ring, dbln ha5F]), if_neg (by simp)]
  have s3 : Lost blk p fun fuel => (g.fieldStopLoop (num p) (num H) fuel (num (-a3)) (num (-e3)) true
      (newTrace g (num y2) (ang (num y2)))).run (newTrace g) := by
    refine Lost.back s4 (loop_zero hch hblk _ _ _ _ _ _ (key (by linarith) (by linarith))) fun k => ?_
    rw [loop_turn hch hblk _ _ _ _ _ _ _ (dy1 := num (-e4)) (y1 := num (-a4)) (b := true) (key (by linarith) (by linarith))
      (hmid _ ha3F.neg (by rw [abs_neg, _root_.abs_of_pos (by linarith)]; linarith) (by rw [abs_neg, _root_.abs_of_pos (by linarith)]; linarith))
      (by rw [if_neg (by simp), lit32, mul_num64, neg_mul, dbln he4F])
      (by rw [add_num64, show -a3 + -e4 = -(a3 + e4) by ring, dbln ha4F]), if_neg (by simp)]
  have s2 : Lost blk p fun fuel => (g.fieldStopLoop (num p) (num H) fuel (num y2) (num (-h)) true
      (newTrace g (num x) (ang (num x)))).run (newTrace g) := by
    refine Lost.back s3 (loop_zero hch hblk _ _ _ _ _ _ (key (by linarith) (by linarith))) fun k => ?_
    rw [loop_turn hch hblk _ _ _ _ _ _ _ (dy1 := num (-e3)) (y1 := num (-a3)) (b := true) (key (by linarith) (by linarith))
      (hmid _ hy2F (by rw [_root_.abs_of_pos (by linarith)]; linarith) (by rw [_root_.abs_of_pos (by linarith)]; linarith))
      (by rw [if_neg (by simp), lit32, mul_num64, neg_mul, dbln he3F])
      (by rw [add_num64, show y2 + -e3 = -(e3 - y2) by ring, dbln ha3F]), if_neg (by simp)]
  have s1 : Lost blk p fun fuel => (g.fieldStopLoop (num p) (num H) fuel (num x) (num x) false
      (newTrace g (num 0) (ang (num 0)))).run (newTrace g) := by
    refine Lost.back s2 (loop_zero hch hblk _ _ _ _ _ _ (by simp)) fun k => ?_
    rw [loop_turn hch hblk _ _ _ _ _ _ _ (dy1 := num (-h)) (y1 := num y2) (b := true) (by simp)
      (hmid _ hxF (by rw [_root_.abs_of_pos (by linarith)]; linarith) (by rw [_root_.abs_of_pos (by linarith)]; linarith))
      (by rw [if_pos (by simp), neg_num64, half_num64, neg_div, dbln hhF])
      (by rw [add_num64, ← sub_eq_add_neg, dbl hy2F]), if_neg (by simp)]
  refine Lost.back s1 (loop_zero hch hblk _ _ _ _ _ _ (by simp)) fun k => ?_
  rw [zero64, hundred64, mul_num64, dbl hcF]
  rw [loop_turn hch hblk _ _ _ _ _ _ _ (dy1 := num x) (y1 := num x) (b := false) (by simp) hb0
    (by rw [if_neg (by simp), lit32, mul_num64, dbl hxF])
    (by rw [add_num64, zero_add, hxF.double]; rfl), if_neg]
  rw [abs_num64, lt_num64, _root_.abs_of_pos (by linarith)]
  have : ¬ H < x := by linarith
  simp [this]

end loop

end RT
