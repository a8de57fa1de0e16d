import Mathlib.Algebra.Order.Archimedean.Basic
import Mathlib.Tactic.Linarith
import Mathlib.Tactic.Ring
import Mathlib.Tactic.NormNum
import Mathlib.Tactic.FieldSimp

/-! # The search for the edge of the field, on its own

The search of `imagingpath.py:615-628` and `733-746`, for heights `y` that are blocked when `Y < |y|`: when it ends, where, and
when it does not. -/

set_option linter.unusedSectionVars false

namespace RT
variable {K : Type} [Field K] [LinearOrder K] [IsStrictOrderedRing K]

/-- how the search ends -/
inductive Outcome (K : Type) where
  | found (y : K)
  | beyond
  | timeout

/-- the next step of the search -/
def nextStep (b was : Bool) (dy : K) : K := if b != was then -dy / 2 else dy * (3 / 2)

/-- The search with `fuel` turns; `sw` is the status of the last height at which it may stop. -/
def search (blk : K → Bool) (p H : K) (sw : Bool) : Nat → K → K → Bool → K → Outcome K
  | fuel, y, dy, was, last =>
    if p < |dy| ∨ was ≠ sw then
      match fuel with
      | 0 => .timeout
      | fuel + 1 =>
        if H < |y + nextStep (blk y) was dy| ∧ blk y = false then .beyond
        else search blk p H sw fuel (y + nextStep (blk y) was dy) (nextStep (blk y) was dy) (blk y) y
    else .found last

/-- The search ends with this outcome, whatever the number of turns allowed if it is large enough. -/
def Ends (blk : K → Bool) (p H : K) (sw : Bool) (y dy : K) (was : Bool) (last : K) (o : Outcome K) : Prop :=
  ∃ N, ∀ fuel, N ≤ fuel → search blk p H sw fuel y dy was last = o

variable {blk : K → Bool} {p H : K} {sw : Bool}

theorem Ends.stop {y dy last : K} {was : Bool} (h1 : |dy| ≤ p) (h2 : was = sw) :
    Ends blk p H sw y dy was last (.found last) := by
  refine ⟨0, fun fuel _ => ?_⟩
  unfold search
  rw [if_neg]
  rintro (h | h)
  · exact absurd h (not_lt.2 h1)
  · exact h h2

theorem Ends.beyond {y dy last : K} {was : Bool} (h1 : p < |dy| ∨ was ≠ sw)
    (h2 : H < |y + nextStep (blk y) was dy| ∧ blk y = false) : Ends blk p H sw y dy was last .beyond := by
  refine ⟨1, fun fuel hf => ?_⟩
  obtain ⟨n, rfl⟩ : ∃ n, fuel = n + 1 := ⟨fuel - 1, by omega⟩
  unfold search
  rw [if_pos h1]
  dsimp only
  rw [if_pos h2]

theorem Ends.step {y dy last : K} {was : Bool} {o : Outcome K} (h1 : p < |dy| ∨ was ≠ sw)
    (h2 : ¬ (H < |y + nextStep (blk y) was dy| ∧ blk y = false))
    (h3 : Ends blk p H sw (y + nextStep (blk y) was dy) (nextStep (blk y) was dy) (blk y) y o) :
    Ends blk p H sw y dy was last o := by
  obtain ⟨N, h3⟩ := h3
  refine ⟨N + 1, fun fuel hf => ?_⟩
  obtain ⟨n, rfl⟩ : ∃ n, fuel = n + 1 := ⟨fuel - 1, by omega⟩
  rw [search.eq_def]
  dsimp only
  rw [if_pos h1, if_neg h2]
  exact h3 n (by omega)

/-- a height that is not blocked, the next height being higher or too high -/
theorem Ends.openStep {y dy last y' dy' : K} {was : Bool} {o : Outcome K} (h1 : p < |dy| ∨ was ≠ sw)
    (hb : blk y = false) (hd : nextStep false was dy = dy') (hy : y + dy' = y')
    (h3 : |y'| ≤ H → Ends blk p H sw y' dy' false y o) (h4 : H < |y'| → o = .beyond) :
    Ends blk p H sw y dy was last o := by
  subst hy; subst hd
  rcases lt_or_ge H |y + nextStep false was dy| with h | h
  · rw [h4 h]; exact Ends.beyond h1 (by rw [hb]; exact ⟨h, rfl⟩)
  · refine Ends.step h1 (by rw [hb]; exact fun h' => absurd h'.1 (not_lt.2 h)) ?_
    rw [hb]; exact h3 h

/-- a height that is blocked -/
theorem Ends.blockedStep {y dy last y' dy' : K} {was : Bool} {o : Outcome K} (h1 : p < |dy| ∨ was ≠ sw)
    (hb : blk y = true) (hd : nextStep true was dy = dy') (hy : y + dy' = y')
    (h3 : Ends blk p H sw y' dy' true y o) : Ends blk p H sw y dy was last o := by
  subst hy; subst hd
  refine Ends.step h1 (by rw [hb]; simp) ?_
  rw [hb]; exact h3

/-- The outcome is right: a height blocked or not (according to `sw`) within the precision of the edge `Y`, or the edge is not
much below the largest height. -/
def Right (p H Y : K) (sw : Bool) : Outcome K → Prop
  | .found y => if sw then Y < y ∧ y ≤ Y + 2 * p else |y| ≤ Y ∧ Y < y + 2 * p
  | .beyond => 2 / 3 * H - 100 * p < Y
  | .timeout => False

section bounded
variable {Y : K} (hblk : ∀ y, blk y = true ↔ Y < |y|)
include hblk

theorem blk_false {y : K} (h1 : -Y ≤ y) (h2 : y ≤ Y) : blk y = false := by
  rw [← Bool.not_eq_true, hblk, not_lt]; exact abs_le.2 ⟨h1, h2⟩

theorem blk_true {y : K} (h1 : Y < y) : blk y = true := (hblk y).2 (h1.trans_le (le_abs_self y))

theorem blk_true' {y : K} (h1 : y < -Y) : blk y = true := (hblk y).2 (by
  have := neg_le_abs y; linarith)

/-- A turn of the search once the edge has been crossed: `u` is not blocked, the edge is between `u` and `u + 2 s`, `u + s` is
the next height. Either the search ends well, or it comes to the same situation with a smaller step. -/
theorem cycle (hp : 0 < p) {u s : K} (hs : 0 < s) (h1 : -Y ≤ u) (h2 : u ≤ Y) (h3 : Y < u + 2 * s)
    (h4 : u + s / 2 ≤ Y ∨ -Y ≤ u - s / 4)
    (hfar : ∀ x v, H < |x| → u < x → u ≤ v → v ≤ Y → x ≤ v + 3 / 8 * s → 2 / 3 * H - 100 * p < Y)
    (hfar2 : u + s ≤ Y → H < |u + s + 3 / 2 * s| → 2 / 3 * H - 100 * p < Y) :
    (∃ o, Ends blk p H sw (u + s) s false u o ∧ Right p H Y sw o) ∨
    (p < s ∧ ∃ u' s', 0 < s' ∧ s' ≤ 9 / 16 * s ∧ -Y ≤ u' ∧ u' ≤ Y ∧ Y < u' + 2 * s' ∧
      (u' + s' / 2 ≤ Y ∨ -Y ≤ u' - s' / 4) ∧ u - 2 / 5 * s ≤ u' - 2 / 5 * s' ∧
      (H < |u' + s'| → 2 / 3 * H - 100 * p < Y) ∧
      ∀ o, (|u' + s'| ≤ H → Ends blk p H sw (u' + s') s' false u' o) → (H < |u' + s'| → o = .beyond) →
        Ends blk p H sw (u + s) s false u o) := by
  -- stop here?
  by_cases hst : s ≤ p ∧ sw = false
  · left
    refine ⟨_, Ends.stop (by rw [abs_of_pos hs]; exact hst.1) hst.2.symm, ?_⟩
    simp only [Right, hst.2, Bool.false_eq_true, if_false]
    exact ⟨abs_le.2 ⟨h1, h2⟩, by linarith [hst.1]⟩
  have hgo : p < |s| ∨ false ≠ sw := by
    rw [abs_of_pos hs]
    by_cases h : p < s
    · exact .inl h
    · right; intro h'; exact hst ⟨not_lt.1 h, h'.symm⟩
  -- from a blocked height `t` reached with a step `D` from `v`
  have down : ∀ v D t last', t = v + D → 0 < D → s ≤ D → D ≤ 3 / 2 * s → -Y ≤ v → v ≤ Y → Y < t → u ≤ v →
      (v + D / 2 ≤ Y ∨ -Y ≤ v - D / 4) → (v = u ∧ D = s ∨ v = u + s) →
      (p < |D| ∨ false ≠ sw) →
      (∃ o, Ends blk p H sw t D false last' o ∧ Right p H Y sw o) ∨
      (p < s ∧ ∃ u' s', 0 < s' ∧ s' ≤ 9 / 16 * s ∧ -Y ≤ u' ∧ u' ≤ Y ∧ Y < u' + 2 * s' ∧
        (u' + s' / 2 ≤ Y ∨ -Y ≤ u' - s' / 4) ∧ u - 2 / 5 * s ≤ u' - 2 / 5 * s' ∧
        (H < |u' + s'| → 2 / 3 * H - 100 * p < Y) ∧
        ∀ o, (|u' + s'| ≤ H → Ends blk p H sw (u' + s') s' false u' o) → (H < |u' + s'| → o = .beyond) →
          Ends blk p H sw t D false last' o) := by
    intro v D t last' ht hD hsD hDs hv1 hv2 hvt huv hor hvu hgoD
    have hbt : blk t = true := blk_true hblk hvt
    have hn1 : nextStep true false D = -(D / 2) := by simp [nextStep]; ring
    by_cases hst2 : D / 2 ≤ p ∧ sw = true
    · left
      refine ⟨_, Ends.blockedStep hgoD hbt hn1 rfl (Ends.stop ?_ hst2.2.symm), ?_⟩
      · rw [abs_neg, abs_of_pos (by linarith)]; exact hst2.1
      · simp only [Right, hst2.2, if_true]
        exact ⟨hvt, by rw [ht]; linarith [hst2.1]⟩
    have hgo2 : p < |(-(D / 2))| ∨ true ≠ sw := by
      rw [abs_neg, abs_of_pos (by linarith)]
      by_cases h : p < D / 2
      · exact .inl h
      · right; intro h'; exact hst2 ⟨not_lt.1 h, h'.symm⟩
    have hps : p < s := by
      rcases hgo2 with h | h
      · rw [abs_neg, abs_of_pos (by linarith)] at h; linarith
      · rcases hgo with h' | h'
        · rw [abs_of_pos hs] at h'; exact h'
        · cases sw <;> simp at h h'
    rcases le_or_gt (v + D / 2) Y with hc | hc
    · -- the middle is not blocked
      right
      refine ⟨hps, v + D / 2, D / 4, by linarith, by linarith, by linarith, hc, by linarith, .inr (by linarith),
        by linarith, ?_, ?_⟩
      · intro hH
        exact hfar _ (v + D / 2) hH (by linarith) (by linarith) hc (by linarith)
      · intro o ho1 ho2
        have hbm : blk (v + D / 2) = false := blk_false hblk (by linarith) hc
        refine Ends.blockedStep hgoD hbt hn1 (show t + -(D / 2) = v + D / 2 by rw [ht]; ring) ?_
        exact Ends.openStep hgo2 hbm (by simp [nextStep]; ring : nextStep false true (-(D / 2)) = D / 4) rfl ho1 ho2
    · -- the middle is blocked
      have hlow : -Y ≤ v - D / 4 := hor.resolve_left (not_le.2 hc)
      have hbm : blk (v + D / 2) = true := blk_true hblk hc
      have hn2 : nextStep true true (-(D / 2)) = -(3 / 4 * D) := by simp [nextStep]; ring
      by_cases hst3 : 3 / 4 * D ≤ p ∧ sw = true
      · exact absurd ⟨by linarith [hst3.1], hst3.2⟩ hst2
      have hgo3 : p < |(-(3 / 4 * D))| ∨ true ≠ sw := by
        rw [abs_neg, abs_of_pos (by linarith)]
        by_cases h : p < 3 / 4 * D
        · exact .inl h
        · right; intro h'; exact hst3 ⟨not_lt.1 h, h'.symm⟩
      right
      refine ⟨hps, v - D / 4, 3 / 8 * D, by linarith, by linarith, hlow, by linarith, by linarith, .inl (by linarith),
        ?_, ?_, ?_⟩
      · rcases hvu with ⟨e1, e2⟩ | e1
        · linarith
        · linarith
      · intro hH
        exact hfar _ v hH (by linarith) huv hv2 (by linarith)
      · intro o ho1 ho2
        have hbl : blk (v - D / 4) = false := blk_false hblk hlow (by linarith)
        refine Ends.blockedStep hgoD hbt hn1 (show t + -(D / 2) = v + D / 2 by rw [ht]; ring) ?_
        refine Ends.blockedStep hgo2 hbm hn2 (show v + D / 2 + -(3 / 4 * D) = v - D / 4 by ring) ?_
        exact Ends.openStep hgo3 hbl (by simp [nextStep]; ring : nextStep false true (-(3 / 4 * D)) = 3 / 8 * D) rfl
          ho1 ho2
  rcases le_or_gt (u + s) Y with hc | hc
  · -- `u + s` is not blocked: one step more, `3/2 s`, is
    have hbu : blk (u + s) = false := blk_false hblk (by linarith) hc
    have hn : nextStep false false s = 3 / 2 * s := by simp [nextStep]; ring
    rcases lt_or_ge H |u + s + 3 / 2 * s| with hH | hH
    · left
      refine ⟨.beyond, Ends.openStep hgo hbu hn rfl (fun h => absurd hH (not_lt.2 h)) (fun _ => rfl), ?_⟩
      exact hfar2 hc hH
    · by_cases hst4 : 3 / 2 * s ≤ p ∧ sw = false
      · exact absurd ⟨by linarith [hst4.1], hst4.2⟩ hst
      have hgo4 : p < |3 / 2 * s| ∨ false ≠ sw := by
        rw [abs_of_pos (by linarith)]
        by_cases h : p < 3 / 2 * s
        · exact .inl h
        · right; intro h'; exact hst4 ⟨not_lt.1 h, h'.symm⟩
      rcases down (u + s) (3 / 2 * s) (u + s + 3 / 2 * s) (u + s) rfl (by linarith) (by linarith) (le_refl _)
        (by linarith) hc (by linarith) (by linarith) (.inr (by linarith)) (.inr rfl) hgo4 with
        ⟨o, ho, hr⟩ | ⟨hps, u', s', a1, a2, a3, a4, a5, a6, a7, a8, a9⟩
      · exact .inl ⟨o, Ends.openStep hgo hbu hn rfl (fun _ => ho) (fun h => absurd h (not_lt.2 hH)), hr⟩
      · refine .inr ⟨hps, u', s', a1, a2, a3, a4, a5, a6, a7, a8, fun o ho1 ho2 => ?_⟩
        exact Ends.openStep hgo hbu hn rfl (fun _ => a9 o ho1 ho2) (fun h => absurd h (not_lt.2 hH))
  · exact down u s (u + s) u rfl hs (le_refl _) (by linarith) h1 h2 hc (le_refl _) h4 (.inl ⟨rfl, rfl⟩) hgo

/-- Once the edge has been crossed, the search ends well. -/
theorem search_crossed (hp : 0 < p) (hY : 0 ≤ Y) {U : K} (hU : 0 ≤ U) (n : Nat) {u s : K} (hs : 0 < s)
    (hn : s ≤ p * (16 / 9) ^ n)
    (h1 : -Y ≤ u) (h2 : u ≤ Y) (h3 : Y < u + 2 * s) (h4 : u + s / 2 ≤ Y ∨ -Y ≤ u - s / 4)
    (h5 : 4 / 5 * U - 60 * p ≤ u - 2 / 5 * s) (h6 : s ≤ 9 / 16 * (U / 2 + 150 * p)) :
    ∃ o, Ends blk p H sw (u + s) s false u o ∧ Right p H Y sw o := by
  induction n generalizing u s with
  | zero =>
    have hs' : s ≤ p := by simpa using hn
    rcases cycle (H := H) (sw := sw) hblk hp hs h1 h2 h3 h4 (far hp hU hs h2 h5 h6).1 (far hp hU hs h2 h5 h6).2 with h | ⟨h, -⟩
    · exact h
    · exact absurd h (not_lt.2 hs')
  | succ n ih =>
    rcases cycle (H := H) (sw := sw) hblk hp hs h1 h2 h3 h4 (far hp hU hs h2 h5 h6).1 (far hp hU hs h2 h5 h6).2 with
      h | ⟨-, u', s', a1, a2, a3, a4, a5, a6, a7, a8, a9⟩
    · exact h
    · rcases lt_or_ge H |u' + s'| with hH | hH
      · exact ⟨.beyond, a9 _ (fun h => absurd hH (not_lt.2 h)) (fun _ => rfl), a8 hH⟩
      · obtain ⟨o, ho, hr⟩ := ih a1 (by rw [pow_succ] at hn; nlinarith) a3 a4 a5 a6 (by linarith) (by nlinarith)
        exact ⟨o, a9 o (fun _ => ho) (fun h => absurd h (not_lt.2 hH)), hr⟩
where
  far (hp : 0 < p) {U : K} (hU : 0 ≤ U) {u s : K} (hs : 0 < s) (h2 : u ≤ Y)
    (h5 : 4 / 5 * U - 60 * p ≤ u - 2 / 5 * s) (h6 : s ≤ 9 / 16 * (U / 2 + 150 * p)) :
    (∀ x v, H < |x| → u < x → u ≤ v → v ≤ Y → x ≤ v + 3 / 8 * s → 2 / 3 * H - 100 * p < Y) ∧
    (u + s ≤ Y → H < |u + s + 3 / 2 * s| → 2 / 3 * H - 100 * p < Y) := by
    constructor
    · intro x v hx hux huv hvY hxv
      rcases abs_cases x with ⟨e, -⟩ | ⟨e, -⟩ <;> rw [e] at hx
      · linarith
      · linarith
    · intro huY hx
      rcases abs_cases (u + s + 3 / 2 * s) with ⟨e, -⟩ | ⟨e, -⟩ <;> rw [e] at hx
      · linarith
      · linarith

variable [Archimedean K]

omit hblk in
theorem exists_pow_ge (hp : 0 < p) (s : K) : ∃ n : Nat, s ≤ p * (16 / 9) ^ n := by
  obtain ⟨n, hn⟩ := pow_unbounded_of_one_lt (s / p) (by norm_num : (1 : K) < 16 / 9)
  exact ⟨n, by rw [div_lt_iff₀ hp] at hn; linarith⟩

/-- The first part of the search: `u` is not blocked, the steps grow. -/
theorem search_up (hp : 0 < p) (hY : 75 / 2 * p ≤ Y) (n : Nat) {u s : K} (hn : Y < u + n * (150 * p)) (hu0 : 0 ≤ u)
    (hu : u ≤ Y) (hu1 : u = 0 ∨ 150 * p ≤ u) (hs : s = u / 2 + 150 * p) :
    ∃ o, Ends blk p H sw (u + s) s false u o ∧ Right p H Y sw o := by
  induction n generalizing u s with
  | zero => simp at hn; exact absurd hn (not_lt.2 hu)
  | succ n ih =>
    have hs0 : 0 < s := by rw [hs]; linarith
    rcases le_or_gt (u + s) Y with hc | hc
    · have hgo : p < |s| ∨ false ≠ sw := .inl (by rw [abs_of_pos hs0, hs]; linarith)
      have hb := blk_false hblk (by linarith) hc
      have hnx : nextStep false false s = 3 / 2 * s := by simp [nextStep]; ring
      rcases lt_or_ge H |u + s + 3 / 2 * s| with hH | hH
      · refine ⟨.beyond, Ends.openStep hgo hb hnx rfl (fun h => absurd hH (not_lt.2 h)) (fun _ => rfl), ?_⟩
        rw [abs_of_nonneg (by linarith)] at hH
        simp only [Right]
        linarith
      · obtain ⟨o, ho, hr⟩ := ih (u := u + s) (s := 3 / 2 * s) (by push_cast at hn; linarith) (by linarith) hc
          (.inr (by linarith)) (by linarith)
        exact ⟨o, Ends.openStep hgo hb hnx rfl (fun _ => ho) (fun h => absurd h (not_lt.2 hH)), hr⟩
    · have h4 : u + s / 2 ≤ Y ∨ -Y ≤ u - s / 4 := by
        right
        rcases hu1 with h | h <;> linarith
      have hY0 : 0 ≤ Y := hu0.trans hu
      have hfar : ∀ x v, H < |x| → u < x → u ≤ v → v ≤ Y → x ≤ v + 3 / 8 * s → 2 / 3 * H - 100 * p < Y := by
        intro x v hx hux huv hvY hxv
        rw [abs_of_pos (by linarith)] at hx
        linarith
      rcases cycle (H := H) (sw := sw) hblk hp hs0 (by linarith) hu (by linarith) h4 hfar
          (fun h => absurd hc (not_lt.2 h)) with h | ⟨-, u', s', a1, a2, a3, a4, a5, a6, a7, a8, a9⟩
      · exact h
      · rcases lt_or_ge H |u' + s'| with hH | hH
        · exact ⟨.beyond, a9 _ (fun h => absurd hH (not_lt.2 h)) (fun _ => rfl), a8 hH⟩
        · obtain ⟨m, hm⟩ := exists_pow_ge hp s'
          obtain ⟨o, ho, hr⟩ := search_crossed (H := H) (sw := sw) hblk hp hY0 hu0 m a1 hm a3 a4 a5 a6 (by linarith)
            (by linarith)
          exact ⟨o, a9 o (fun _ => ho) (fun h => absurd h (not_lt.2 hH)), hr⟩

/-- The whole search ends well when the edge is at least 37.5 times the precision. -/
theorem search_ends (hp : 0 < p) (hY : 75 / 2 * p ≤ Y) (last : K) :
    ∃ o, Ends blk p H sw 0 (100 * p) false last o ∧ Right p H Y sw o := by
  have hb : blk 0 = false := blk_false hblk (by linarith) (by linarith)
  have hgo : p < |100 * p| ∨ false ≠ sw := .inl (by rw [abs_of_pos (by linarith)]; linarith)
  have hn : nextStep false false (100 * p) = 150 * p := by simp [nextStep]; ring
  rcases lt_or_ge H |0 + 150 * p| with hH | hH
  · refine ⟨.beyond, Ends.openStep hgo hb hn rfl (fun h => absurd hH (not_lt.2 h)) (fun _ => rfl), ?_⟩
    rw [abs_of_nonneg (by linarith)] at hH
    simp only [Right]
    linarith
  · obtain ⟨n, hn'⟩ := exists_nat_gt (Y / (150 * p))
    rw [div_lt_iff₀ (by linarith)] at hn'
    obtain ⟨o, ho, hr⟩ := search_up (H := H) (sw := sw) hblk hp hY n (u := 0) (s := 150 * p) (by linarith)
      (le_refl _) (by linarith) (.inl rfl) (by ring)
    exact ⟨o, Ends.openStep hgo hb hn rfl (fun _ => ho) (fun h => absurd h (not_lt.2 hH)), hr⟩

omit [Archimedean K] in
/-- Going down through blocked heights never ends. -/
theorem search_lost (hp : 0 < p) {y dy : K} (hY : y < -Y) (hdy : dy ≤ -p) (last : K) (fuel : Nat) (hd : p < |dy|) :
    search blk p H sw fuel y dy true last = .timeout := by
  induction fuel generalizing y dy last with
  | zero => unfold search; rw [if_pos (.inl hd)]
  | succ n ih =>
    rw [search.eq_def]
    dsimp only
    have hb := blk_true' hblk hY
    have hn : nextStep true true dy = 3 / 2 * dy := by simp [nextStep]; ring
    rw [if_pos (.inl hd), hb, hn, if_neg (by simp)]
    refine ih (by linarith) (by linarith) y ?_
    rw [abs_of_neg (by linarith)] at hd ⊢
    linarith

omit [Archimedean K] in
/-- The search never ends when the edge is below 37.5 times the precision (and the largest height not below the second
height tried). -/
theorem search_diverges (hp : 0 < p) (hY0 : 0 ≤ Y) (hY : Y < 75 / 2 * p) (hH : 150 * p ≤ H) (last : K) (fuel : Nat) :
    search blk p H sw fuel 0 (100 * p) false last = .timeout := by
  have hb : blk 0 = false := blk_false hblk (by linarith) hY0
  have hb1 : blk (150 * p) = true := blk_true hblk (by linarith)
  have hb2 : blk (75 * p) = true := blk_true hblk (by linarith)
  have e1 : |100 * p| = 100 * p := abs_of_pos (by linarith)
  have e2 : |150 * p| = 150 * p := abs_of_pos (by linarith)
  have e3 : |(-(75 * p))| = 75 * p := by rw [abs_neg, abs_of_pos (by linarith)]
  have n1 : nextStep false false (100 * p) = 150 * p := by simp [nextStep]; ring
  have n2 : nextStep true false (150 * p) = -(75 * p) := by simp [nextStep]; ring
  have n3 : nextStep true true (-(75 * p)) = -(225 / 2 * p) := by simp [nextStep]; ring
  rw [search.eq_def]
  dsimp only
  rw [if_pos (.inl (by rw [e1]; linarith)), hb, n1]
  cases fuel with
  | zero => rfl
  | succ n =>
    dsimp only
    rw [zero_add, if_neg (by rw [e2]; rintro ⟨h, -⟩; linarith), search.eq_def]
    dsimp only
    rw [if_pos (.inl (by rw [e2]; linarith)), hb1, n2]
    cases n with
    | zero => rfl
    | succ n =>
      dsimp only
      rw [if_neg (by simp), show 150 * p + -(75 * p) = 75 * p by ring, search.eq_def]
      dsimp only
      rw [if_pos (.inl (by rw [e3]; linarith)), hb2, n3]
      cases n with
      | zero => rfl
      | succ n =>
        dsimp only
        rw [if_neg (by simp)]
        refine search_lost hblk hp (by linarith) (by linarith) _ n ?_
        rw [abs_neg, abs_of_pos (by linarith)]; linarith

end bounded

/-- When nothing is ever blocked, the search goes beyond the largest height. -/
theorem search_open [Archimedean K] (hblk : ∀ y, blk y = false) (hp : 0 < p) (last : K) :
    Ends blk p H sw 0 (100 * p) false last .beyond := by
  obtain ⟨n, hn⟩ := exists_nat_gt (H / p)
  rw [div_lt_iff₀ hp] at hn
  have key : ∀ (n : Nat) (y dy last : K), 0 ≤ y → p < dy → H < y + n * p → Ends blk p H sw y dy false last .beyond := by
    intro n
    induction n with
    | zero =>
      intro y dy last hy hdy hH
      refine Ends.beyond (.inl (by rw [abs_of_pos (by linarith)]; exact hdy)) ⟨?_, hblk y⟩
      have e : nextStep (blk y) false dy = 3 / 2 * dy := by simp [nextStep, hblk]; ring
      rw [e, abs_of_pos (by linarith)]
      simp at hH
      linarith
    | succ n ih =>
      intro y dy last hy hdy hH
      have e : nextStep false false dy = 3 / 2 * dy := by simp [nextStep]; ring
      refine Ends.openStep (.inl (by rw [abs_of_pos (by linarith)]; exact hdy)) (hblk y) e rfl (fun _ => ?_)
        (fun _ => rfl)
      exact ih _ _ _ (by linarith) (by linarith) (by push_cast at hH; linarith)
  exact key n 0 (100 * p) last (le_refl _) (by linarith) (by linarith)

end RT
