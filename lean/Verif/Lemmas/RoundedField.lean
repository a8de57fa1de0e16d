import Verif.Lemmas.RoundedSearch
import Verif.Lemmas.RoundedTrace
import Verif.Lemmas.Imaging
import Verif.Lemmas.Field

/-! # The search for the edge of the field on a path, in floats -/

set_option linter.unusedSectionVars false

namespace RT
open PyNum Ext Fl
variable {K : Type} [Field K] [LinearOrder K] [IsStrictOrderedRing K]
variable {rnd : K → K} {u : K}

section loops
variable {g : Group (Fl K rnd)} {ang : K → K} {blk : K → Bool} (hr : Rounding rnd u)
include hr

/-- the next step, as computed -/
theorem nextR_eq (b was : Bool) (dy : K) :
    (if b != was then half (-(num dy) : Fl K rnd) else num dy * lit (3 / 2)) = num (nextR rnd b was dy) := by
  unfold nextR
  split_ifs
  · rw [neg_num, half_num hr]
  · rw [lit_num, num_mul]; norm_num

theorem start_eqR (p : K) : (num p * 100 : Fl K rnd) = num (rnd (p * rnd 100)) := by
  have : (100 : Fl K rnd) = num (rnd 100) := by
    have := lit_num (rnd := rnd) (100 : ℚ)
    rw [show ((100 : ℚ) : K) = 100 by norm_num] at this
    exact this
  rw [this, num_mul]

variable (hch : ∀ y : K, (g.chiefRay (num y)).run (newTrace g) = .ok (some (Ray.new (num y) (num (ang y)))))
  (hne : leaves g.toElem.items ≠ [])
  (hblk : ∀ y : K, (lastV g.toElem.items (Ray.new (num y) (num (ang y)))).isBlocked = blk y)
include hch hne hblk

theorem searchStep_eqR (y dy : K) (was : Bool) :
    (g.searchStep (num y) (num dy) was).run (newTrace g) =
      .ok (newTrace g (num y) (num (ang y)), blk y, num (nextR rnd (blk y) was dy)) := by
  unfold Group.searchStep
  simp only [Prog.run_bind, hch, Prog.run_ask]
  have e : (Ray.new (num y) (num (ang y)) : Ray (Fl K rnd)).y = num y := rfl
  have e' : (Ray.new (num y) (num (ang y)) : Ray (Fl K rnd)).theta = num (ang y) := rfl
  rw [e, e']
  have hl := hblk y
  unfold lastV at hl
  unfold newTrace
  cases hx : (traceV g.toElem.items (Ray.new (num y) (num (ang y)))).getLast? with
  | none =>
    exfalso
    rw [List.getLast?_eq_none_iff] at hx
    unfold traceV at hx
    generalize settle g.toElem.items (Ray.new (num y) (num (ang y))) = r at hx
    cases hi : g.toElem.items with
    | nil => rw [hi] at hne; exact hne rfl
    | cons i is => rw [hi] at hx; cases i <;> simp [runTrace] at hx
  | some out =>
    rw [hx, Option.getD_some] at hl
    simp only [hl, nextR_eq hr, Prog.run_pure]

theorem fieldStopLoop_eqR (p H : K) (fuel : Nat) (y dy : K) (was : Bool) (last : K) (lastT : List (Ray (Fl K rnd)))
    (hlast : was = true → lastT = newTrace g (num last) (num (ang last))) :
    (g.fieldStopLoop (num p) (num H) fuel (num y) (num dy) was lastT).run (newTrace g) =
      match searchR rnd blk p H true fuel y dy was last with
      | .found y => .ok (some (newTrace g (num y) (num (ang y))))
      | .beyond => .ok none
      | .timeout => .error .nonTermination := by
  induction fuel generalizing y dy was last lastT with
  | zero =>
    unfold Group.fieldStopLoop searchR
    rw [abs_num, lt_num]
    by_cases hc : p < |dy| ∨ was ≠ true
    · rw [if_pos hc, if_pos (by simpa using hc)]; rfl
    · rw [if_neg hc, if_neg (by simpa using hc)]
      push Not at hc
      rw [hlast hc.2]; rfl
  | succ n ih =>
    unfold Group.fieldStopLoop searchR
    rw [abs_num, lt_num]
    by_cases hc : p < |dy| ∨ was ≠ true
    · rw [if_pos hc, if_pos (by simpa using hc)]
      rw [Prog.run_bind, searchStep_eqR hr hch hne hblk]
      dsimp only
      rw [num_add, abs_num, lt_num]
      by_cases hb : H < |rnd (y + nextR rnd (blk y) was dy)| ∧ blk y = false
      · rw [if_pos hb, if_pos (by simpa using hb)]; rfl
      · rw [if_neg hb, if_neg (by simpa using hb)]
        exact ih _ _ _ _ _ fun _ => rfl
    · rw [if_neg hc, if_neg (by simpa using hc)]
      push Not at hc
      rw [hlast hc.2]; rfl

theorem fieldOfViewLoop_eqR (p H : K) (fuel : Nat) (y dy : K) (was : Bool) (last : K) :
    (g.fieldOfViewLoop (num p) (num H) fuel (num y) (num dy) was (num last)).run (newTrace g) =
      match searchR rnd blk p H false fuel y dy was last with
      | .found y => .ok (num y)
      | .beyond => .ok inf
      | .timeout => .error .nonTermination := by
  induction fuel generalizing y dy was last with
  | zero =>
    unfold Group.fieldOfViewLoop searchR
    rw [abs_num, lt_num]
    by_cases hc : p < |dy| ∨ was ≠ false
    · rw [if_pos hc, if_pos (by simpa using hc)]; rfl
    · rw [if_neg hc, if_neg (by simpa using hc)]; rfl
  | succ n ih =>
    unfold Group.fieldOfViewLoop searchR
    rw [abs_num, lt_num]
    by_cases hc : p < |dy| ∨ was ≠ false
    · rw [if_pos hc, if_pos (by simpa using hc)]
      rw [Prog.run_bind, searchStep_eqR hr hch hne hblk]
      dsimp only
      rw [num_add, abs_num, lt_num]
      by_cases hb : H < |rnd (y + nextR rnd (blk y) was dy)| ∧ blk y = false
      · rw [if_pos hb, if_pos (by simpa using hb)]; rfl
      · rw [if_neg hb, if_neg (by simpa using hb)]
        exact ih _ _ _ _
    · rw [if_neg hc, if_neg (by simpa using hc)]; rfl

theorem fieldStop_eqR {z : K} {D : Fl K rnd} (hs : g.apertureStop.run (newTrace g) = .ok (some (num z), D)) (hz : z ≠ 0)
    (hf : hasFiniteApertureList g.elems = true) (p H : K) (fuel : Nat) :
    (g.fieldStop (num p) (num H) fuel).run (newTrace g) =
      match searchR rnd blk p H true fuel 0 (rnd (p * rnd 100)) false 0 with
      | .found y => .ok (Group.firstBlocked (newTrace g (num y) (num (ang y))))
      | .beyond => .ok (none, inf)
      | .timeout => .error .nonTermination := by
  unfold Group.fieldStop
  rw [Prog.run_bind, hs]
  dsimp only
  have e1 : (hasFiniteApertureList g.elems && num z !=. (0 : Fl K rnd)) = true := by
    rw [zero_num hr, hf, eq_num]; simp [hz]
  refine (congrArg (Prog.run _) (if_pos e1)).trans ?_
  rw [Prog.run_bind, start_eqR hr, zero_num hr, fieldStopLoop_eqR hr hch hne hblk p H fuel 0 _ false 0 [] (by simp)]
  cases searchR rnd blk p H true fuel 0 (rnd (p * rnd 100)) false 0 <;> simp [Prog.run_pure]

theorem halfFieldOfView_eqR (p H : K) (fuel : Nat) :
    (g.halfFieldOfView (num p) (num H) fuel).run (newTrace g) =
      match (g.fieldStop (num p) (num H) fuel).run (newTrace g) with
      | .error x => .error x
      | .ok (none, _) => .ok inf
      | .ok (some z, _) =>
        match g.transferMatrix z with
        | .error x => .error x
        | .ok _ =>
          match searchR rnd blk p H false fuel 0 (rnd (p * rnd 100)) false 0 with
          | .found y => .ok (num y)
          | .beyond => .ok inf
          | .timeout => .error .nonTermination := by
  unfold Group.halfFieldOfView
  rw [Prog.run_bind]
  cases (g.fieldStop (num p) (num H) fuel).run (newTrace g) with
  | error x => rfl
  | ok s =>
    obtain ⟨s1, s2⟩ := s
    cases s1 with
    | none => simp [Prog.run_pure]
    | some z =>
      dsimp only
      rw [Prog.run_bind, Prog.run_lift]
      cases g.transferMatrix z with
      | error x => rfl
      | ok t =>
        dsimp only
        rw [start_eqR hr, zero_num hr, fieldOfViewLoop_eqR hr hch hne hblk]

end loops

end RT
