import Verif.Lemmas.Search
import Verif.Lemmas.Imaging

/-! # Chief rays, and the search for the edge of the field on a path -/

set_option linter.unusedSectionVars false

namespace RT
open PyNum Ext
variable {K : Type} [Field K] [LinearOrder K] [IsStrictOrderedRing K]

/-! ## Rays in proportion: blocked beyond some scale -/

/-- It happens never, or exactly beyond some distance from 0. -/
def Edge (P : K → Prop) : Prop := (∀ k, ¬ P k) ∨ ∃ Y, 0 ≤ Y ∧ ∀ k, P k ↔ Y < |k|

theorem Edge.or {P Q : K → Prop} (h1 : Edge P) (h2 : Edge Q) : Edge fun k => P k ∨ Q k := by
  rcases h1 with h1 | ⟨Y1, p1, h1⟩ <;> rcases h2 with h2 | ⟨Y2, p2, h2⟩
  · exact .inl fun k h => h.elim (h1 k) (h2 k)
  · exact .inr ⟨Y2, p2, fun k => by simp [h1, h2]⟩
  · exact .inr ⟨Y1, p1, fun k => by simp [h1, h2]⟩
  · exact .inr ⟨min Y1 Y2, le_min p1 p2, fun k => by simp [h1, h2]⟩

theorem edge_scale {c x : K} (hc : 0 < c) : Edge fun k => c < |k * x| := by
  by_cases hx : x = 0
  · left; intro k; simp [hx, hc.le]
  · right
    have hp : 0 < |x| := abs_pos.2 hx
    exact ⟨c / |x|, (div_pos hc hp).le, fun k => by beta_reduce; rw [abs_mul, div_lt_iff₀ hp]⟩

theorem edge_option {o : Option K} (ho : ∀ c, o = some c → 0 < c) {w : K} (hw : 0 < w) (x : K) :
    Edge fun k => ∃ c, o = some c ∧ c / w < |k * x| := by
  cases o with
  | none => left; simp
  | some c =>
    have := edge_scale (c := c / w) (x := x) (div_pos (ho c rfl) hw)
    simpa using this

/-- The rays in proportion to a given ray are blocked beyond some scale, or never. -/
theorem scaled_blocked {ms : List (Mat (Ext K))} {ss : List (Stage K)} (h : List.Forall₂ StageOf ms ss) (y θ : K) :
    Edge fun k => Blocked ss (k * y, k * θ) := by
  induction h generalizing y θ with
  | nil => left; simp [Blocked]
  | @cons m st ms ss h1 h2 ih =>
    have e : ∀ k : K, st.out (k * y, k * θ) = (k * (st.a * y + st.b * θ), k * (st.c * y + st.d * θ)) := fun k => by
      simp only [Stage.out, Prod.mk.injEq]; constructor <;> ring
    simp only [Blocked, e]
    refine Edge.or ?_ (ih _ _)
    unfold Stage.Stops
    refine Edge.or (edge_option h1.diam_pos (by norm_num) y) ?_
    have := edge_option h1.na_pos (one_pos) θ
    simpa using this

/-! ## The loops are the search -/

section loops
variable {g : Group (Ext K)} {κ : K} {blk : K → Bool}

/-- the next step, as computed -/
theorem nextStep_eq (b was : Bool) (dy : K) :
    (if b != was then half (-(fin dy) : Ext K) else fin dy * lit (3 / 2)) = fin (nextStep b was dy) := by
  unfold nextStep
  split_ifs
  · simp [half]
  · rw [lit_eq, fin_mul_fin]; norm_num

variable (hch : ∀ y : K, (g.chiefRay (fin y)).run (newTrace g) = .ok (some (Ray.new (fin y) (fin (κ * y)))))
  (hne : leaves g.toElem.items ≠ [])
  (hblk : ∀ y : K, (lastV g.toElem.items (Ray.new (fin y) (fin (κ * y)))).isBlocked = blk y)
include hch hne hblk

theorem searchStep_eq (y dy : K) (was : Bool) :
    (g.searchStep (fin y) (fin dy) was).run (newTrace g) =
      .ok (newTrace g (fin y) (fin (κ * y)), blk y, fin (nextStep (blk y) was dy)) := by
  unfold Group.searchStep
  simp only [Prog.run_bind, hch, Prog.run_ask]
  have e : (Ray.new (fin y) (fin (κ * y)) : Ray (Ext K)).y = fin y := rfl
  have e' : (Ray.new (fin y) (fin (κ * y)) : Ray (Ext K)).theta = fin (κ * y) := rfl
  rw [e, e']
  have hl := hblk y
  unfold lastV at hl
  unfold newTrace
  cases hx : (traceV g.toElem.items (Ray.new (fin y) (fin (κ * y)))).getLast? with
  | none =>
    exfalso
    rw [List.getLast?_eq_none_iff] at hx
    unfold traceV at hx
    generalize settle g.toElem.items (Ray.new (fin y) (fin (κ * y))) = r at hx
    cases hi : g.toElem.items with
    | nil => rw [hi] at hne; exact hne rfl
    | cons i is => rw [hi] at hx; cases i <;> simp [runTrace] at hx
  | some out =>
    rw [hx, Option.getD_some] at hl
    simp only [hl, nextStep_eq, Prog.run_pure]

theorem fieldStopLoop_eq (p H : K) (fuel : Nat) (y dy : K) (was : Bool) (last : K) (lastT : List (Ray (Ext K)))
    (hlast : was = true → lastT = newTrace g (fin last) (fin (κ * last))) :
    (g.fieldStopLoop (fin p) (fin H) fuel (fin y) (fin dy) was lastT).run (newTrace g) =
      match search blk p H true fuel y dy was last with
      | .found y => .ok (some (newTrace g (fin y) (fin (κ * y))))
      | .beyond => .ok none
      | .timeout => .error .nonTermination := by
  induction fuel generalizing y dy was last lastT with
  | zero =>
    unfold Group.fieldStopLoop search
    rw [abs_fin]
    by_cases hc : p < |dy| ∨ was ≠ true
    · rw [if_pos hc, if_pos (by simpa using hc)]; rfl
    · rw [if_neg hc, if_neg (by simpa using hc)]
      push Not at hc
      rw [hlast hc.2]; rfl
  | succ n ih =>
    unfold Group.fieldStopLoop search
    rw [abs_fin]
    by_cases hc : p < |dy| ∨ was ≠ true
    · rw [if_pos hc, if_pos (by simpa using hc)]
      rw [Prog.run_bind, searchStep_eq hch hne hblk]
      dsimp only
      rw [fin_add_fin, abs_fin]
      by_cases hb : H < |y + nextStep (blk y) was dy| ∧ blk y = false
      · rw [if_pos hb, if_pos (by simpa using hb)]; rfl
      · rw [if_neg hb, if_neg (by simpa using hb)]
        exact ih _ _ _ _ _ fun _ => rfl
    · rw [if_neg hc, if_neg (by simpa using hc)]
      push Not at hc
      rw [hlast hc.2]; rfl

theorem fieldOfViewLoop_eq (p H : K) (fuel : Nat) (y dy : K) (was : Bool) (last : K) :
    (g.fieldOfViewLoop (fin p) (fin H) fuel (fin y) (fin dy) was (fin last)).run (newTrace g) =
      match search blk p H false fuel y dy was last with
      | .found y => .ok (fin y)
      | .beyond => .ok pinf
      | .timeout => .error .nonTermination := by
  induction fuel generalizing y dy was last with
  | zero =>
    unfold Group.fieldOfViewLoop search
    rw [abs_fin]
    by_cases hc : p < |dy| ∨ was ≠ false
    · rw [if_pos hc, if_pos (by simpa using hc)]; rfl
    · rw [if_neg hc, if_neg (by simpa using hc)]; rfl
  | succ n ih =>
    unfold Group.fieldOfViewLoop search
    rw [abs_fin]
    by_cases hc : p < |dy| ∨ was ≠ false
    · rw [if_pos hc, if_pos (by simpa using hc)]
      rw [Prog.run_bind, searchStep_eq hch hne hblk]
      dsimp only
      rw [fin_add_fin, abs_fin]
      by_cases hb : H < |y + nextStep (blk y) was dy| ∧ blk y = false
      · rw [if_pos hb, if_pos (by simpa using hb)]; rfl
      · rw [if_neg hb, if_neg (by simpa using hb)]
        exact ih _ _ _ _
    · rw [if_neg hc, if_neg (by simpa using hc)]; rfl

theorem fieldStop_eq {z : K} {D : Ext K} (hs : g.apertureStop.run (newTrace g) = .ok (some (fin z), D)) (hz : z ≠ 0)
    (hf : hasFiniteApertureList g.elems = true) (p H : K) (fuel : Nat) :
    (g.fieldStop (fin p) (fin H) fuel).run (newTrace g) =
      match search blk p H true fuel 0 (100 * p) false 0 with
      | .found y => .ok (Group.firstBlocked (newTrace g (fin y) (fin (κ * y))))
      | .beyond => .ok (none, pinf)
      | .timeout => .error .nonTermination := by
  unfold Group.fieldStop
  rw [Prog.run_bind, hs]
  dsimp only
  have e1 : (hasFiniteApertureList g.elems && fin z !=. (0 : Ext K)) = true := by simp [hz, hf]
  have e2 : (fin p * 100 : Ext K) = fin (100 * p) := by rw [ofNat_eq, fin_mul_fin, mul_comm]
  refine (congrArg (Prog.run _) (if_pos e1)).trans ?_
  rw [Prog.run_bind, e2, zero_eq, fieldStopLoop_eq hch hne hblk p H fuel 0 (100 * p) false 0 [] (by simp)]
  cases search blk p H true fuel 0 (100 * p) false 0 <;> simp [Prog.run_pure]

theorem halfFieldOfView_eq {z : K} {D : Ext K} (hs : g.apertureStop.run (newTrace g) = .ok (some (fin z), D))
    (hz : z ≠ 0) (hf : hasFiniteApertureList g.elems = true) (p H : K) (fuel : Nat) :
    (g.halfFieldOfView (fin p) (fin H) fuel).run (newTrace g) =
      match (g.fieldStop (fin p) (fin H) fuel).run (newTrace g) with
      | .error x => .error x
      | .ok (none, _) => .ok pinf
      | .ok (some z, _) =>
        match g.transferMatrix z with
        | .error x => .error x
        | .ok _ =>
          match search blk p H false fuel 0 (100 * p) false 0 with
          | .found y => .ok (fin y)
          | .beyond => .ok pinf
          | .timeout => .error .nonTermination := by
  unfold Group.halfFieldOfView
  rw [Prog.run_bind]
  cases (g.fieldStop (fin p) (fin H) fuel).run (newTrace g) with
  | error x => rfl
  | ok s =>
    obtain ⟨s1, s2⟩ := s
    cases s1 with
    | none => simp [Prog.run_pure]
    | some z =>
      dsimp only
      rw [Prog.run_bind, Prog.run_lift]
      cases g.transferMatrix z with
      | error x => rfl
      | ok t =>
        have e2 : (fin p * 100 : Ext K) = fin (100 * p) := by rw [ofNat_eq, fin_mul_fin, mul_comm]
        dsimp only
        rw [e2, zero_eq, fieldOfViewLoop_eq hch hne hblk]

end loops

/-! ## Where the first blocked ray of a trace is -/

/-- the stage number `i` is the first that stops the ray -/
def StopsFirst (ss : List (Stage K)) (r : K × K) (i : Nat) (s : Stage K) : Prop :=
  ss[i]? = some s ∧ s.Stops (rayBefore ss i r) ∧
    ∀ j t, j < i → ss[j]? = some t → ¬ t.Stops (rayBefore ss j r)

theorem firstBlocked_mem {l : List (Ray (Ext K))} {z d : Ext K} (h : Group.firstBlocked l = (some z, d)) :
    ∃ s ∈ l, s.z = z := by
  induction l with
  | nil => simp [Group.firstBlocked] at h
  | cons x l ih =>
    unfold Group.firstBlocked at h
    split_ifs at h
    · simp only [Prod.mk.injEq, Option.some.injEq] at h
      exact ⟨x, by simp, h.1⟩
    · obtain ⟨s, h1, h2⟩ := ih h
      exact ⟨s, by simp [h1], h2⟩

theorem firstBlocked_all {r : Ray (Ext K)} (h : r.isBlocked = false) (l : List (Ray (Ext K))) (h1 : ∀ s ∈ l, s = r)
    (l' : List (Ray (Ext K))) : Group.firstBlocked (l ++ l') = Group.firstBlocked l' := by
  induction l with
  | nil => rfl
  | cons x l ih =>
    have hx : x.isBlocked = false := by rw [h1 x (by simp), h]
    rw [List.cons_append, Group.firstBlocked, hx]
    simp only [Bool.false_eq_true, if_false]
    exact ih fun s hs => h1 s (by simp [hs])

theorem firstBlocked_trace {is : List (Item (Ext K))} {ss : List (Stage K)} (h : ItemStages is ss) (ht : ThinOpenings ss)
    {r : Ray (Ext K)} {y θ z : K} (hr : FinRay r y θ z) (hb : r.isBlocked = false) (hbl : Blocked ss (y, θ)) :
    ∃ i s, StopsFirst ss (y, θ) i s ∧
      Group.firstBlocked (runTrace is r) = (some (fin (z + zBefore ss i + s.len)), optInf s.diam) := by
  induction is generalizing ss r y θ z with
  | nil => cases h; simp [Blocked] at hbl
  | cons i is ih =>
    cases i with
    | dup =>
      obtain ⟨i, s, h1, h2⟩ := ih h ht hr hb hbl
      refine ⟨i, s, h1, ?_⟩
      simp only [runTrace]
      rw [← h2]
      exact firstBlocked_all hb [r] (by simp) _
    | leaf m =>
      cases h with
      | @cons _ st _ ss h1 h2 =>
        have ht' : ThinOpenings ss := fun s hs => ht s (List.mem_cons_of_mem _ hs)
        obtain ⟨o1, o2, o3⟩ := h1.out hr hb
        have hset : settle is (m.mulRayBase r) = m.mulRayBase r := by
          unfold settle; rw [thin_entryStops h2 ht']; simp
        have hpre : ∀ s ∈ (if 0 <. m.L then [r] else []), s = r := by
          intro s hs; split_ifs at hs
          · simpa using hs
          · simp at hs
        simp only [runTrace, hb, Bool.false_eq_true, if_false, hset]
        rw [firstBlocked_all hb _ hpre]
        by_cases hst : st.Stops (y, θ)
        · refine ⟨0, st, ⟨rfl, hst, fun j t hj => absurd hj (Nat.not_lt_zero _)⟩, ?_⟩
          rw [Group.firstBlocked, if_pos (o2.2 hst), o1.z, o3]
          simp [zBefore]
        · have hbl' : (m.mulRayBase r).isBlocked = false := by
            rw [← Bool.not_eq_true, o2]; exact hst
          have hB : Blocked ss (st.out (y, θ)) := hbl.resolve_left hst
          obtain ⟨i, s, ⟨q1, q2, q3⟩, h3⟩ := ih h2 ht' o1 hbl' hB
          refine ⟨i + 1, s, ⟨q1, q2, ?_⟩, ?_⟩
          · intro j t hj hjt
            cases j with
            | zero =>
              simp only [List.getElem?_cons_zero, Option.some.injEq] at hjt
              subst hjt; exact hst
            | succ j => exact q3 j t (by omega) hjt
          · rw [Group.firstBlocked, hbl']
            simp only [Bool.false_eq_true, if_false]
            rw [h3]
            simp [zBefore, add_assoc]

/-- The trace of a blocked ray shows it. -/
theorem firstBlocked_none {g : Group (Ext K)} {ss : List (Stage K)} (h : ItemStages g.toElem.items ss) {y θ : K}
    {d : Ext K} (hbl : Blocked ss (y, θ)) (hfb : Group.firstBlocked (newTrace g (fin y) (fin θ)) = (none, d)) : False := by
  have h1 := (traceV_blocked_iff h (finRay_new y θ) rfl).2 hbl
  have key : ∀ l : List (Ray (Ext K)), Group.firstBlocked l = (none, d) → ∀ s ∈ l, s.isBlocked = false := by
    intro l
    induction l with
    | nil => simp
    | cons x l ih =>
      intro hl
      unfold Group.firstBlocked at hl
      split_ifs at hl with hx
      · simp at hl
      intro s hs
      rcases List.mem_cons.1 hs with rfl | hs
      · simpa using hx
      · exact ih hl s hs
  unfold lastV at h1
  cases hx : (traceV g.toElem.items (Ray.new (fin y) (fin θ))).getLast? with
  | none => rw [hx] at h1; simp [Ray.new] at h1
  | some x =>
    rw [hx, Option.getD_some] at h1
    rw [key _ hfb x (List.mem_of_getLast? hx)] at h1
    simp at h1

end RT
