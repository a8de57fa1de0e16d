import Verif.Model.Figure
import Verif.Lemmas.Den
import Mathlib.Data.Rat.Floor

/-! # C73 the lines drawn for rays -/

set_option linter.unusedSectionVars false

namespace RT
open PyNum Ext

section exact
variable {K : Type} [Field K] [LinearOrder K] [IsStrictOrderedRing K] {C : Type}

/-- the points plotted of a trace -/
abbrev plotted (rb : Bool) (t : List (Ray (Ext K))) : List (Ext K) × List (Ext K) := rearrangeForPlotting rb t

/-- `round` gives a nearest integer. -/
def Nearest (round : Ext K → Int) : Prop := ∀ x : K, |(round (fin x) : K) - x| ≤ 1 / 2

theorem Nearest.int {round : Ext K → Int} (h : Nearest round) (n : Int) : round (fin (n : K)) = n := by
  have := h n
  rw [← Int.cast_sub, ← Int.cast_abs] at this
  have h1 : ((|round (fin (n : K)) - n| : Int) : K) < 1 := by linarith
  have h2 : |round (fin (n : K)) - n| < 1 := by exact_mod_cast h1
  have := Int.abs_lt_one_iff.1 h2
  omega

theorem Nearest.mono {round : Ext K → Int} (h : Nearest round) {x y : K} (hxy : x ≤ y) : round (fin x) ≤ round (fin y) := by
  rcases hxy.eq_or_lt with rfl | hlt
  · exact le_refl _
  · by_contra hc
    push Not at hc
    have h1 := abs_le.1 (h x)
    have h2 := abs_le.1 (h y)
    have h3 : ((round (fin y) : Int) : K) + 1 ≤ round (fin x) := by exact_mod_cast hc
    linarith [h1.2, h2.1]

/-- the first heights are numbers -/
def FirstFinite (rb : Bool) (ts : List (List (Ray (Ext K)))) : Prop :=
  ∀ t ∈ ts, ∀ y0 ∈ (plotted rb t).2.head?, ∃ y, y0 = fin y

/-- `y` is the first height of one of the lines. -/
def StartsAt (rb : Bool) (ts : List (List (Ray (Ext K)))) (y : K) : Prop := ∃ t ∈ ts, (plotted rb t).2.head? = some (fin y)

/-- The largest first height (0 if there is none). -/
theorem maxHeight_spec {rb : Bool} {ts : List (List (Ray (Ext K)))} (h : FirstFinite rb ts) (m : K) (hm : 0 ≤ m) :
    ∃ M, maxHeightLoop rb ts (fin m) = fin M ∧ m ≤ M ∧ (∀ y, StartsAt rb ts y → |y| ≤ M) ∧
      (M = m ∨ ∃ y, StartsAt rb ts y ∧ |y| = M) := by
  induction ts generalizing m with
  | nil => exact ⟨m, rfl, le_refl _, by simp [StartsAt], .inl rfl⟩
  | cons t ts ih =>
    have ht : FirstFinite rb ts := fun x hx => h x (by simp [hx])
    have hcons : ∀ y, StartsAt rb (t :: ts) y ↔ ((plotted rb t).2.head? = some (fin y) ∨ StartsAt rb ts y) := by
      intro y
      simp [StartsAt]
    rw [maxHeightLoop]
    cases hp : (rearrangeForPlotting rb t).2 with
    | nil =>
      obtain ⟨M, h1, h2, h3, h4⟩ := ih ht m hm
      refine ⟨M, h1, h2, ?_, ?_⟩
      · intro y hy
        rcases (hcons y).1 hy with hy | hy
        · simp [plotted, hp] at hy
        · exact h3 y hy
      · rcases h4 with h4 | ⟨y, h4, h5⟩
        · exact .inl h4
        · exact .inr ⟨y, (hcons y).2 (.inr h4), h5⟩
    | cons y0 ys =>
      obtain ⟨y, rfl⟩ := h t (by simp) y0 (by simp [plotted, hp])
      dsimp only
      have key : ∀ m', 0 ≤ m' → m ≤ m' → |y| ≤ m' → (m' = m ∨ |y| = m') →
          ∃ M, maxHeightLoop rb ts (fin m') = fin M ∧ m ≤ M ∧ (∀ y, StartsAt rb (t :: ts) y → |y| ≤ M) ∧
            (M = m ∨ ∃ y, StartsAt rb (t :: ts) y ∧ |y| = M) := by
        intro m' h0 h1 h2 h3
        obtain ⟨M, g1, g2, g3, g4⟩ := ih ht m' h0
        refine ⟨M, g1, h1.trans g2, ?_, ?_⟩
        · intro z hz
          rcases (hcons z).1 hz with hz | hz
          · simp only [plotted, hp, List.head?_cons, Option.some.injEq, fin.injEq] at hz
            subst hz
            exact h2.trans g2
          · exact g3 z hz
        · rcases g4 with g4 | ⟨z, g4, g5⟩
          · rcases h3 with h3 | h3
            · exact .inl (g4.trans h3)
            · exact .inr ⟨y, (hcons y).2 (.inl (by simp [plotted, hp])), h3.trans g4.symm⟩
          · exact .inr ⟨z, (hcons z).2 (.inr g4), g5⟩
      simp only [abs_fin, lt_fin, decide_eq_true_eq]
      split_ifs with hlt
      · exact key |y| (abs_nonneg _) hlt.le (le_refl _) (.inr rfl)
      · exact key m hm (le_refl _) (not_lt.1 hlt) (.inl rfl)

/-- What a line is: the points plotted of the trace, shifted by `dz`, with a colour whose place in the list of colours is the nearest to
the height of the ray in the interval of heights, from `-M` to `M`. -/
def LineOf (rb : Bool) (colors : List C) (dz : Ext K) (M : K) (t : List (Ray (Ext K))) (l : RayLine (Ext K) C) : Prop :=
  l.x = (plotted rb t).1.map (· + dz) ∧ l.y = (plotted rb t).2 ∧
    ∃ (y : K) (i : Nat), l.y.head? = some (fin y) ∧ colors[i]? = some l.color ∧
      |(i : K) - (y + M) / (M * 2) * (colors.length - 1)| ≤ 1 / 2

theorem pyGet_nat {l : List C} {i : Nat} (h : i < l.length) : pyGet l (i : Int) = .ok l[i] := by
  unfold pyGet pyIndex
  rw [if_pos (by omega), if_pos (by exact_mod_cast h)]
  simp [h]

/-- the colour of a line -/
theorem color_spec {round : Ext K → Int} (hr : Nearest round) {colors : List C} (hc : colors ≠ []) {M y : K} (hM : 0 < M)
    (hy : |y| ≤ M) : ∃ (i : Nat) (h : i < colors.length), colorIndex round (fin M) (fin y) colors.length = .ok i ∧
      (i : Int) = round (fin ((y + M) / (M * 2) * (colors.length - 1))) ∧ pyGet colors i = .ok colors[i] := by
  have hlen : 0 < colors.length := List.length_pos_iff.2 hc
  obtain ⟨n, hn⟩ : ∃ n, colors.length = n + 1 := ⟨colors.length - 1, by omega⟩
  have h2 : M * 2 ≠ 0 := by positivity
  obtain ⟨ha, hb⟩ := abs_le.1 hy
  have hq0 : 0 ≤ (y + M) / (M * 2) := div_nonneg (by linarith) (by linarith)
  have hq1 : (y + M) / (M * 2) ≤ 1 := by rw [div_le_one (by linarith)]; linarith
  set x : K := (y + M) / (M * 2) * (colors.length - 1) with hx
  have hn' : ((colors.length : K) - 1) = (n : Int) := by rw [hn]; push_cast; ring
  have hn0 : (0 : K) ≤ ((n : Int) : K) := by push_cast; exact Nat.cast_nonneg n
  have hx0 : ((0 : Int) : K) ≤ x := by rw [hx, hn', Int.cast_zero]; exact mul_nonneg hq0 hn0
  have hx1 : x ≤ ((n : Int) : K) := by
    rw [hx, hn']
    calc _ ≤ 1 * ((n : Int) : K) := mul_le_mul_of_nonneg_right hq1 hn0
      _ = _ := one_mul _
  have h0 : 0 ≤ round (fin x) := by rw [← hr.int 0]; exact hr.mono hx0
  have h1 : round (fin x) ≤ n := by rw [← hr.int n]; exact hr.mono hx1
  have hi : (round (fin x)).toNat < colors.length := by omega
  refine ⟨(round (fin x)).toNat, hi, ?_, by omega, pyGet_nat hi⟩
  unfold colorIndex
  rw [if_neg (by simp only [zero_eq, eq_fin, decide_eq_true_eq]; exact hM.ne')]
  have e2 : (2 : Ext K) = fin 2 := by rw [ofNat_eq]
  rw [e2, fin_add_fin, fin_mul_fin, pyDiv_fin _ _ h2]
  dsimp only
  have e3 : (lit ((colors.length : ℕ) : ℚ) : Ext K) = fin (colors.length : K) := by
    rw [lit_eq]; congr 1; exact Rat.cast_natCast _
  rw [if_neg (by omega), e3, one_eq, fin_sub_fin, fin_mul_fin, ← hx]
  congr 1
  rw [Int.emod_eq_of_lt h0 (by omega)]
  omega

theorem rayLinesLoop_spec {round : Ext K → Int} (hr : Nearest round) {rb : Bool} {colors : List C} (hc : colors ≠ []) (dz : Ext K)
    {M : K} (hM : 0 < M) {ts : List (List (Ray (Ext K)))} (hf : FirstFinite rb ts) (hy : ∀ y, StartsAt rb ts y → |y| ≤ M) :
    ∃ ls, rayLinesLoop round rb colors dz (fin M) ts = .ok ls ∧
      List.Forall₂ (LineOf rb colors dz M) (ts.filter fun t => !(plotted rb t).2.isEmpty) ls := by
  induction ts with
  | nil => exact ⟨[], rfl, by simp⟩
  | cons t ts ih =>
    obtain ⟨ls, h1, h2⟩ := ih (fun x hx => hf x (by simp [hx])) fun y ⟨t, ht, h⟩ => hy y ⟨t, by simp [ht], h⟩
    rw [rayLinesLoop]
    cases hp : (rearrangeForPlotting rb t).2 with
    | nil =>
      refine ⟨ls, h1, ?_⟩
      rw [List.filter_cons_of_neg (by simp [plotted, hp])]
      exact h2
    | cons y0 ys =>
      obtain ⟨y, rfl⟩ := hf t (by simp) y0 (by simp [plotted, hp])
      obtain ⟨i, hi, c1, c2, c3⟩ := color_spec hr hc hM (hy y ⟨t, by simp, by simp [plotted, hp]⟩)
      dsimp only
      rw [c1]
      dsimp only
      rw [c3]
      dsimp only
      rw [h1]
      refine ⟨_, rfl, ?_⟩
      rw [List.filter_cons_of_pos (by simp [plotted, hp])]
      refine .cons ⟨rfl, hp.symm, y, i, rfl, by simp [hi], ?_⟩ h2
      have e : (i : K) = ((round (fin ((y + M) / (M * 2) * (colors.length - 1))) : Int) : K) := by
        rw [← c2]; push_cast; ring
      rw [e]
      exact hr _

/-- **C73**: with at least one colour, when a ray starts off the axis: one line is drawn for each trace with something to show, in order,
from the points of the trace (shifted by the position of the source), and coloured by the height of its start. -/
theorem C73_lines {round : Ext K → Int} (hr : Nearest round) (rb : Bool) {colors : List C} (hc : colors ≠ []) (dz : Ext K)
    {ts : List (List (Ray (Ext K)))} (hf : FirstFinite rb ts) (hoff : ∃ y, StartsAt rb ts y ∧ y ≠ 0) :
    ∃ (M : K) (ls : List (RayLine (Ext K) C)), rayLines round rb colors dz ts = .ok ls ∧ (∀ y, StartsAt rb ts y → |y| ≤ M) ∧
      (∃ y, StartsAt rb ts y ∧ |y| = M) ∧
      List.Forall₂ (LineOf rb colors dz M) (ts.filter fun t => !(plotted rb t).2.isEmpty) ls := by
  obtain ⟨M, h1, h2, h3, h4⟩ := maxHeight_spec hf 0 (le_refl _)
  obtain ⟨y, hy, hy0⟩ := hoff
  have hM : 0 < M := lt_of_lt_of_le (abs_pos.2 hy0) (h3 y hy)
  obtain ⟨ls, h5, h6⟩ := rayLinesLoop_spec hr hc dz hM hf h3
  refine ⟨M, ls, ?_, h3, h4.resolve_left hM.ne', h6⟩
  unfold rayLines
  rw [zero_eq, h1, h5]

/-- **C73**: the lines starting at the greatest height (above the axis) have the last colour, those at the opposite height the first one,
and a line starting higher has a colour at least as far in the list. -/
theorem C73_colors {round : Ext K → Int} (hr : Nearest round) {colors : List C} (hc : colors ≠ []) {M : K} (hM : 0 < M) :
    colorIndex round (fin M) (fin M) colors.length = .ok ((colors.length : Int) - 1) ∧
    colorIndex round (fin M) (fin (-M)) colors.length = .ok 0 ∧
    ∀ y y', |y| ≤ M → |y'| ≤ M → y ≤ y' → ∃ i j : Nat, i ≤ j ∧ colorIndex round (fin M) (fin y) colors.length = .ok i ∧
      colorIndex round (fin M) (fin y') colors.length = .ok j := by
  have hlen : 0 < colors.length := List.length_pos_iff.2 hc
  refine ⟨?_, ?_, ?_⟩
  · obtain ⟨i, hi, c1, c2, -⟩ := color_spec (y := M) hr hc hM (abs_of_pos hM).le
    rw [c1, c2]
    congr 1
    have e : (M + M) / (M * 2) * ((colors.length : K) - 1) = ((((colors.length : ℕ) : Int) - 1 : Int) : K) := by
      push_cast
      field_simp
      ring
    rw [e, hr.int]
  · obtain ⟨i, hi, c1, c2, -⟩ := color_spec (y := -M) hr hc hM (by rw [abs_neg, abs_of_pos hM])
    rw [c1, c2]
    congr 1
    have e : (-M + M) / (M * 2) * ((colors.length : K) - 1) = ((0 : Int) : K) := by simp
    rw [e, hr.int]
  · intro y y' hy hy' hyy
    obtain ⟨i, hi, c1, c2, -⟩ := color_spec hr hc hM hy
    obtain ⟨j, hj, d1, d2, -⟩ := color_spec hr hc hM hy'
    refine ⟨i, j, ?_, c1, d1⟩
    have h1 : ((1 : ℕ) : K) ≤ colors.length := by exact_mod_cast hlen
    have : (i : Int) ≤ j := by
      rw [c2, d2]
      apply hr.mono
      apply mul_le_mul_of_nonneg_right
      · exact div_le_div_of_nonneg_right (by linarith) (by linarith)
      · push_cast at h1; linarith
    omega

/-- **C73** is violated: when all the rays start on the axis and there is only one colour (as for lamps by default), nothing can be
drawn: `IndexError`. Whatever the rays, as long as one of them has something to show. -/
theorem C73_violated {round : Ext K → Int} {rb : Bool} (c : C) (dz : Ext K) {ts : List (List (Ray (Ext K)))} (hf : FirstFinite rb ts)
    (hax : ∀ y, StartsAt rb ts y → y = 0) (hsome : ∃ y, StartsAt rb ts y) :
    rayLines round rb [c] dz ts = .error .indexError := by
  obtain ⟨M, h1, h2, h3, h4⟩ := maxHeight_spec hf 0 (le_refl _)
  have hM : M = 0 := by
    rcases h4 with h4 | ⟨y, h4, h5⟩
    · exact h4
    · rw [← h5, hax y h4, abs_zero]
  subst hM
  unfold rayLines
  rw [zero_eq, h1]
  obtain ⟨y, t, ht, hy⟩ := hsome
  clear h1 h3 h4 hax h2
  induction ts with
  | nil => simp at ht
  | cons u us ih =>
    rw [rayLinesLoop]
    cases hp : (rearrangeForPlotting rb u).2 with
    | nil =>
      dsimp only
      refine ih (fun x hx => hf x (by simp [hx])) ?_
      rcases List.mem_cons.1 ht with rfl | ht
      · simp [plotted, hp] at hy
      · exact ht
    | cons y0 ys =>
      dsimp only
      unfold colorIndex
      rw [if_pos (by simp [zero_eq])]
      rfl

/-- **C73**: when all the rays start on the axis and there are several colours, all the lines have the second one. -/
theorem C73_axial {round : Ext K → Int} {rb : Bool} {colors : List C} (hc : 2 ≤ colors.length) (dz : Ext K)
    {ts : List (List (Ray (Ext K)))} (hf : FirstFinite rb ts) (hax : ∀ y, StartsAt rb ts y → y = 0) :
    ∃ ls, rayLines round rb colors dz ts = .ok ls ∧
      List.Forall₂ (fun t l => l.x = (plotted rb t).1.map (· + dz) ∧ l.y = (plotted rb t).2 ∧ colors[1]? = some l.color)
        (ts.filter fun t => !(plotted rb t).2.isEmpty) ls := by
  obtain ⟨M, h1, h2, h3, h4⟩ := maxHeight_spec hf 0 (le_refl _)
  have hM : M = 0 := by
    rcases h4 with h4 | ⟨y, h4, h5⟩
    · exact h4
    · rw [← h5, hax y h4, abs_zero]
  subst hM
  unfold rayLines
  rw [zero_eq, h1]
  clear h1 h3 h4 hax h2
  induction ts with
  | nil => exact ⟨[], rfl, by simp⟩
  | cons u us ih =>
    obtain ⟨ls, h1, h2⟩ := ih fun x hx => hf x (by simp [hx])
    rw [rayLinesLoop]
    cases hp : (rearrangeForPlotting rb u).2 with
    | nil =>
      refine ⟨ls, h1, ?_⟩
      rw [List.filter_cons_of_neg (by simp [plotted, hp])]
      exact h2
    | cons y0 ys =>
      dsimp only
      have c1 : colorIndex round (fin (0 : K)) y0 colors.length = .ok ((1 : ℕ) : Int) := by
        unfold colorIndex
        rw [if_pos (by simp [zero_eq])]
        rfl
      rw [c1]
      dsimp only
      rw [pyGet_nat (by omega : 1 < colors.length)]
      dsimp only
      rw [h1]
      refine ⟨_, rfl, ?_⟩
      rw [List.filter_cons_of_pos (by simp [plotted, hp])]
      refine .cons ⟨rfl, hp.symm, ?_⟩ h2
      dsimp only
      exact List.getElem?_eq_getElem _

end exact

/-- rounding to a nearest integer exists -/
example : Nearest (K := ℚ) fun x => match x with | fin q => ⌊q + 1 / 2⌋ | _ => 0 := by
  intro x
  have h1 := Int.floor_le (x + 1 / 2)
  have h2 := Int.lt_floor_add_one (x + 1 / 2)
  rw [abs_le]
  constructor <;> dsimp only <;> linarith

/-- three rays from an object, in three colours -/
example : (rayLines (F := Ext ℚ) (fun x => match x with | fin q => ⌊q + 1 / 2⌋ | _ => 0) false ["b", "r", "g"] (fin 0)
    [[{ Ray.new (fin (-5)) (fin 0) with z := fin 0 }, { Ray.new (fin (-4)) (fin 0) with z := fin 10 }],
     [{ Ray.new (fin 0) (fin 0) with z := fin 0 }], [{ Ray.new (fin 5) (fin 0) with z := fin 0 }]]).map
       (fun ls => ls.map fun l => (l.x, l.y, l.color)) =
    .ok [([fin 0, fin 10], [fin (-5), fin (-4)], "b"), ([fin 0], [fin 0], "r"), ([fin 0], [fin 5], "g")] := by
  decide +kernel

end RT
