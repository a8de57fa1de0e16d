import Verif.Model.Outline
import Verif.Props.Graphics
import Verif.Props.Images
import Mathlib.Tactic.FieldSimp

/-! # C83: the outlines drawn are closed lines, arrows end at the heights they stand for, and labels are above the middle -/

set_option linter.unusedSectionVars false

namespace RT
open PyNum Ext
variable {K : Type} [Field K] [LinearOrder K] [IsStrictOrderedRing K]

/-! ## Specification -/

/-- a point with finite coordinates -/
def pt (p : K × K) : Ext K × Ext K := (fin p.1, fin p.2)

/-- a curve with finite control points -/
def Curve.lift : Curve K → Curve (Ext K)
  | .line a b => .line (pt a) (pt b)
  | .quad a c b => .quad (pt a) (pt c) (pt b)

/-- where a curve begins -/
def Curve.start : Curve K → K × K
  | .line a _ => a
  | .quad a _ _ => a

/-- where a curve ends -/
def Curve.stop : Curve K → K × K
  | .line _ b => b
  | .quad _ _ b => b

/-- the two ends of a curve -/
def Curve.ends (c : Curve K) : List (K × K) := [c.start, c.stop]

/-- The number of strokes needed to draw curves one after the other, without lifting the pen between a curve and one that begins where
it ends. -/
def strokes : List (Curve K) → ℕ
  | [] => 0
  | [_] => 1
  | a :: b :: cs => strokes (b :: cs) + if a.stop = b.start then 0 else 1

/-- A closed line: the curves follow each other, and the last ends where the first begins. -/
def ClosedLine (cs : List (Curve K)) : Prop :=
  strokes cs = 1 ∧ ∃ a b, cs.head? = some a ∧ cs.getLast? = some b ∧ b.stop = a.start

/-! ## Lemmas -/

@[simp] theorem ptEq_pt (p q : K × K) : ptEq (pt p) (pt q) = decide (p = q) := by
  rcases p with ⟨a, b⟩; rcases q with ⟨c, d⟩
  by_cases h1 : a = c <;> by_cases h2 : b = d <;> simp [ptEq, pt, h1, h2]

theorem pt_inj {p q : K × K} : (pt p : Ext K × Ext K) = pt q ↔ p = q := by
  rcases p with ⟨a, b⟩; rcases q with ⟨c, d⟩
  simp [pt]

theorem lift_points (c : Curve K) : c.lift.points = c.points.map pt := by cases c <;> rfl
theorem xy_ends (c : Curve K) : c.xy = c.ends := by cases c <;> rfl
theorem lift_xy (c : Curve K) : c.lift.xy = c.xy.map pt := by cases c <;> rfl

theorem patchLoop_spec (cs : List (Curve K)) (a : Curve K) (coords : List (Ext K × Ext K)) (codes : List Code)
    (hl : coords.getLast? = some (pt a.stop)) :
    (patchLoop (cs.map Curve.lift) coords codes).1 = coords ++ (cs.flatMap Curve.points).map pt ∧
    (patchLoop (cs.map Curve.lift) coords codes).2.count .moveTo + 1 = codes.count .moveTo + strokes (a :: cs) := by
  induction cs generalizing a coords codes with
  | nil => simp [patchLoop, strokes]
  | cons b cs ih =>
    simp only [List.map_cons, patchLoop]
    have hlast : (coords ++ b.lift.points).getLast? = some (pt b.stop) := by
      rw [lift_points]; cases b <;> simp [Curve.points, Curve.stop]
    obtain ⟨h1, h2⟩ := ih b _ (codes ++ joinCodes coords.getLast? b.lift) hlast
    refine ⟨by rw [h1, lift_points]; simp, ?_⟩
    rw [h2, List.count_append, hl]
    have : (joinCodes (some (pt a.stop)) b.lift).count .moveTo = if a.stop = b.start then 0 else 1 := by
      cases b with
      | line p q =>
        by_cases h : a.stop = p
        · simp [joinCodes, Curve.lift, Curve.points, Curve.codes, Curve.start, h]
        · have h' : ¬ p = a.stop := fun e => h e.symm
          simp [joinCodes, Curve.lift, Curve.points, Curve.codes, Curve.start, h, h']
      | quad p c q =>
        by_cases h : a.stop = p
        · simp [joinCodes, Curve.lift, Curve.points, Curve.codes, Curve.start, h]
        · have h' : ¬ p = a.stop := fun e => h e.symm
          simp [joinCodes, Curve.lift, Curve.points, Curve.codes, Curve.start, h, h']
    rw [this, strokes]
    omega

/-- **C83** (the pen): the path made of any finite curves goes through their control points in order, and the pen is put down exactly
once per stroke: it is lifted only between a curve and one that does not begin where it ends. -/
theorem C83_pen (cs : List (Curve K)) :
    (patchOf (cs.map Curve.lift)).1 = (cs.flatMap Curve.points).map pt ∧
    (patchOf (cs.map Curve.lift)).2.count .moveTo = strokes cs ∧
    (patchOf (cs.map Curve.lift)).2.length = (patchOf (cs.map Curve.lift)).1.length := by
  have hlen : ∀ (cs : List (Curve (Ext K))) coords codes, codes.length = coords.length →
      (patchLoop cs coords codes).2.length = (patchLoop cs coords codes).1.length := by
    intro cs
    induction cs with
    | nil => intro coords codes h; simpa [patchLoop] using h
    | cons c cs ih =>
      intro coords codes h
      simp only [patchLoop]
      refine ih _ _ ?_
      rw [List.length_append, List.length_append, h]
      congr 1
      cases c <;> cases coords.getLast? <;> simp [joinCodes, Curve.points, Curve.codes]
  refine ⟨?_, ?_, hlen _ _ _ rfl⟩ <;> cases cs with
  | nil => simp [patchOf, patchLoop, strokes]
  | cons c cs =>
    unfold patchOf
    simp only [List.map_cons, patchLoop, List.nil_append, List.getLast?_nil]
    have hlast : c.lift.points.getLast? = some (pt c.stop) := by
      rw [lift_points]; cases c <;> simp [Curve.points, Curve.stop]
    obtain ⟨h1, h2⟩ := patchLoop_spec cs c _ (joinCodes none c.lift) hlast
    first
      | rw [h1, lift_points]; simp; done
      | have h3 : (joinCodes none c.lift).count .moveTo = 1 := by cases c <;> simp [joinCodes, Curve.lift, Curve.points, Curve.codes]
        omega

theorem linearCurves_lift (ps : List (K × K)) : linearCurves (ps.map pt) = (linearCurves ps).map Curve.lift := by
  induction ps with
  | nil => rfl
  | cons a ps ih =>
    cases ps with
    | nil => rfl
    | cons b ps =>
      simp only [List.map_cons, linearCurves] at ih ⊢
      rw [ih]; rfl

theorem linearCurves_head (b : K × K) (q : K × K) (ps : List (K × K)) : linearCurves (b :: q :: ps) = .line b q :: linearCurves (q :: ps) := rfl

theorem strokes_linear (a b : K × K) (ps : List (K × K)) : strokes (linearCurves (a :: b :: ps)) = 1 := by
  induction ps generalizing a b with
  | nil => rfl
  | cons c ps ih =>
    rw [linearCurves_head, linearCurves_head, strokes, ← linearCurves_head, ih]
    simp [Curve.start, Curve.stop]

theorem linearCurves_last (a b : K × K) (ps : List (K × K)) :
    ∃ c, (linearCurves (a :: b :: ps)).getLast? = some c ∧ c.stop = (b :: ps).getLast (by simp) := by
  induction ps generalizing a b with
  | nil => exact ⟨_, rfl, rfl⟩
  | cons c ps ih =>
    obtain ⟨d, h1, h2⟩ := ih b c
    refine ⟨d, ?_, by rw [h2]; simp⟩
    rw [linearCurves_head, linearCurves_head, List.getLast?_cons_cons, ← linearCurves_head, h1]

/-- a polygon whose last point is its first one is a closed line -/
theorem polygon_closed {a b : K × K} {ps : List (K × K)} (h : (b :: ps).getLast (by simp) = a) : ClosedLine (linearCurves (a :: b :: ps)) := by
  obtain ⟨c, h1, h2⟩ := linearCurves_last a b ps
  exact ⟨strokes_linear a b ps, .line a b, c, rfl, h1, by rw [h2, h]; rfl⟩

/-- **C83** (polygons): for any list of at least two points, the polygon is drawn in one stroke from each point to the next one. -/
theorem C83_polygon (a b : K × K) (ps : List (K × K)) :
    (patchOf (linearCurves ((a :: b :: ps).map pt))).1 = ((a :: b :: ps).zip (b :: ps)).flatMap (fun q => [pt q.1, pt q.2]) ∧
    (patchOf (linearCurves ((a :: b :: ps).map pt))).2.count .moveTo = 1 := by
  rw [linearCurves_lift]
  obtain ⟨h1, h2, -⟩ := C83_pen (linearCurves (a :: b :: ps))
  refine ⟨?_, by rw [h2, strokes_linear]⟩
  rw [h1]
  clear h1 h2
  induction ps generalizing a b with
  | nil => simp [linearCurves, Curve.points]
  | cons c ps ih =>
    rw [linearCurves_head]
    simp only [List.flatMap_cons, List.map_append, ih, List.zip_cons_cons, Curve.points, List.map_cons, List.map_nil]

/-! ## Closed outlines -/

/-- a surface drawn with finite coordinates -/
def Face.lift : Face K → Face (Ext K)
  | .line v => .line (fin v)
  | .curve v ctl c => .curve (fin v) (fin ctl) (fin c)
  | .cone v c => .cone (fin v) (fin c)

/-- **C83** (lenses): the outline drawn between any two surfaces of finite shapes is a closed line. -/
theorem C83_outline (h : K) (a b : Face K) :
    ∃ cs, pairCurves (fin h) a.lift b.lift = cs.map Curve.lift ∧ ClosedLine cs := by
  let up : List (Curve K) := match a with
    | .line v => [.line (v, -h) (v, h)]
    | .curve v ctl c => [.quad (c, -h) (v, -ctl) (v, 0), .quad (v, 0) (v, ctl) (c, h)]
    | .cone v c => [.line (c, -h) (v, 0), .line (v, 0) (c, h)]
  let c0 : K := match a with
    | .line v => v
    | .curve _ _ c => c
    | .cone _ c => c
  let down : List (Curve K) := match b with
    | .line v => [.line (c0, h) (v, h), .line (v, h) (v, -h), .line (v, -h) (c0, -h)]
    | .curve v ctl c => [.line (c0, h) (c, h), .quad (c, h) (v, ctl) (v, 0), .quad (v, 0) (v, -ctl) (c, -h), .line (c, -h) (c0, -h)]
    | .cone v c => [.line (c0, h) (c, h), .line (c, h) (v, 0), .line (v, 0) (c, -h), .line (c, -h) (c0, -h)]
  refine ⟨up ++ down, ?_, ?_⟩
  · cases a <;> cases b <;> simp [up, down, c0, pairCurves, upCurves, downCurves, Face.lift, Face.corner, Curve.lift, pt, zero_eq]
  · cases a <;> cases b <;> simp [up, down, c0, ClosedLine, strokes, Curve.start, Curve.stop]

/-- **C83** (boxes): the box of an element of any finite size is a closed line. -/
theorem C83_box (x y w h : K) : ∃ cs, boxCurves (fin x) (fin y) (fin w) (fin h) = cs.map Curve.lift ∧ ClosedLine cs := by
  refine ⟨linearCurves [(x, y), (x, y + h), (x + w, y + h), (x + w, y), (x, y)], ?_, polygon_closed (by simp)⟩
  rw [← linearCurves_lift]
  rfl

/-! ## Corners and half heights -/

/-- the points of a list without repetitions, in the order of the model -/
def keepNew (ps : List (K × K)) (p : K × K) : List (K × K) := if p ∈ ps then ps else ps ++ [p]

theorem insertPt_lift (ps : List (K × K)) (p : K × K) : insertPt (ps.map pt) (pt p) = (keepNew ps p).map pt := by
  unfold insertPt keepNew
  have : (ps.map pt).any (ptEq (pt p)) = decide (p ∈ ps) := by
    rw [List.any_map]
    have : (ptEq (pt p) ∘ pt : K × K → Bool) = fun q => decide (p = q) := by funext q; simp
    rw [this, Bool.eq_iff_iff]
    simp
  rw [this]
  by_cases h : p ∈ ps <;> simp [h]

theorem foldl_insert (ps acc : List (K × K)) :
    (ps.map pt).foldl insertPt (acc.map pt) = (ps.foldl keepNew acc).map pt := by
  induction ps generalizing acc with
  | nil => rfl
  | cons p ps ih => simp only [List.map_cons, List.foldl_cons, insertPt_lift, ih]

/-- the ends of finite curves, each once -/
def cornersK (cs : List (Curve K)) : List (K × K) := (cs.flatMap Curve.xy).foldl keepNew []

theorem cornersOf_lift (cs : List (Curve K)) : cornersOf (cs.map Curve.lift) = (cornersK cs).map pt := by
  unfold cornersOf cornersK
  have : (cs.map Curve.lift).flatMap Curve.xy = (cs.flatMap Curve.xy).map pt := by
    induction cs with
    | nil => rfl
    | cons c cs ih => simp [ih, lift_xy]
  rw [this]
  exact foldl_insert _ []

theorem foldl_keepNew (ps acc : List (K × K)) (hn : acc.Nodup) :
    (∀ p, p ∈ ps.foldl keepNew acc ↔ p ∈ acc ∨ p ∈ ps) ∧ (ps.foldl keepNew acc).Nodup := by
  induction ps generalizing acc with
  | nil => simpa using hn
  | cons q ps ih =>
    have hq : (keepNew acc q).Nodup ∧ ∀ p, p ∈ keepNew acc q ↔ p ∈ acc ∨ p = q := by
      unfold keepNew
      by_cases h : q ∈ acc
      · rw [if_pos h]
        exact ⟨hn, fun p => ⟨.inl, by rintro (h' | rfl) <;> assumption⟩⟩
      · rw [if_neg h]
        exact ⟨by rw [List.nodup_append]; exact ⟨hn, by simp, by rintro a ha b hb rfl; simp at hb; subst hb; exact h ha⟩, by simp⟩
    obtain ⟨h1, h2⟩ := ih _ hq.1
    refine ⟨fun p => ?_, h2⟩
    rw [List.foldl_cons, h1, hq.2, List.mem_cons]
    tauto

theorem mem_corners (cs : List (Curve K)) (p : K × K) : p ∈ cornersK cs ↔ ∃ c ∈ cs, p ∈ c.ends := by
  unfold cornersK
  rw [(foldl_keepNew _ [] List.nodup_nil).1]
  simp [xy_ends]

theorem corners_nodup (cs : List (Curve K)) : (cornersK cs).Nodup := (foldl_keepNew _ [] List.nodup_nil).2

theorem corners_ne {cs : List (Curve K)} (h : cs ≠ []) : cornersK cs ≠ [] := by
  obtain ⟨c, cs, rfl⟩ := List.exists_cons_of_ne_nil h
  intro e
  have : (c.start) ∈ cornersK (c :: cs) := (mem_corners _ _).2 ⟨c, by simp, by cases c <;> simp [Curve.ends, Curve.start]⟩
  rw [e] at this
  simp at this

theorem halfHeightLoop_eq (comps : List (List (Curve K))) (h : Ext K) :
    halfHeightLoop (comps.map (List.map Curve.lift)) h =
      maxRayHeight ((comps.map fun c => (cornersK c).map fun p => |p.2|).map fun l => l.map fin) h := by
  induction comps generalizing h with
  | nil => rfl
  | cons c cs ih =>
    simp only [List.map_cons, halfHeightLoop, cornersOf_lift]
    have : ((cornersK c).map pt).map (fun p => PyNum.abs p.2) = ((cornersK c).map fun p => |p.2|).map fin := by
      rw [List.map_map, List.map_map]; exact List.map_congr_left fun p _ => by simp [pt]
    rw [this]
    cases hc : (cornersK c).map fun p => |p.2| with
    | nil => rfl
    | cons y ys => simp only [List.map_cons, maxRayHeight]; exact ih _

/-- **C83** (half height): the half height of a graphic made of any finite components is the largest distance to the axis of the ends of its
curves. -/
theorem C83_halfHeight {comps : List (List (Curve K))} (hne : ∀ c ∈ comps, c ≠ []) :
    ∃ h : K, halfHeightOf (comps.map (List.map Curve.lift)) = .ok (fin h) ∧ 0 ≤ h ∧
      (∀ c ∈ comps, ∀ k ∈ c, ∀ p ∈ k.ends, |p.2| ≤ h) ∧ (h = 0 ∨ ∃ c ∈ comps, ∃ k ∈ c, ∃ p ∈ k.ends, h = |p.2|) := by
  obtain ⟨s, h1, h2, h3, h4⟩ := maxRayHeight_eq (comps.map fun c => (cornersK c).map fun p => |p.2|) (by
    intro l hl
    obtain ⟨c, hc, rfl⟩ := List.mem_map.1 hl
    simpa using corners_ne (hne c hc)) 0
  refine ⟨s, ?_, h2, ?_, ?_⟩
  · unfold halfHeightOf
    rw [zero_eq, halfHeightLoop_eq, h1]
    simp [bind, Except.bind, pure, Except.pure]
  · intro c hc k hk p hp
    exact h3 _ (List.mem_map_of_mem hc) _ (List.mem_map_of_mem (f := fun p : K × K => |p.2|) ((mem_corners c p).2 ⟨k, hk, hp⟩))
  · rcases h4 with h4 | ⟨l, hl, h4⟩
    · exact .inl h4
    · right
      obtain ⟨c, hc, rfl⟩ := List.mem_map.1 hl
      obtain ⟨p, hp, rfl⟩ := List.mem_map.1 h4
      obtain ⟨k, hk, hp⟩ := (mem_corners c p).1 hp
      exact ⟨c, hc, k, hk, p, hp, rfl⟩

/-! ## Labels -/

/-- The ends of the curves are symmetric about the vertical line at `x`. -/
def Symmetric (x : K) (c : List (Curve K)) : Prop :=
  ∀ k ∈ c, ∀ p ∈ k.ends, ∃ k' ∈ c, (2 * x - p.1, p.2) ∈ k'.ends

theorem sum_symmetric {x : K} {ps : List (K × K)} (hn : ps.Nodup) (hs : ∀ p ∈ ps, (2 * x - p.1, p.2) ∈ ps) :
    (ps.map Prod.fst).sum = x * ps.length := by
  have e1 : (ps.map Prod.fst).sum = ∑ p ∈ ps.toFinset, p.1 := (List.sum_toFinset _ hn).symm
  have e2 : ∑ p ∈ ps.toFinset, p.1 = ∑ p ∈ ps.toFinset, (2 * x - p.1) := by
    refine Finset.sum_bij' (fun p _ => (2 * x - p.1, p.2)) (fun p _ => (2 * x - p.1, p.2)) ?_ ?_ ?_ ?_ ?_
    · intro p hp; exact List.mem_toFinset.2 (hs p (List.mem_toFinset.1 hp))
    · intro p hp; exact List.mem_toFinset.2 (hs p (List.mem_toFinset.1 hp))
    · intro p _; simp
    · intro p _; simp
    · intro p _; simp
  rw [Finset.sum_sub_distrib, Finset.sum_const, List.toFinset_card_of_nodup hn, nsmul_eq_mul] at e2
  rw [e1]
  linarith

theorem foldl_add_fin (xs : List K) (a : K) : (xs.map fin).foldl (· + ·) (fin a : Ext K) = fin (a + xs.sum) := by
  induction xs generalizing a with
  | nil => simp
  | cons x xs ih =>
    simp only [List.map_cons, List.foldl_cons, List.sum_cons]
    rw [show (fin a + fin x : Ext K) = fin (a + x) from rfl, ih, add_assoc]

/-- **C83** (labels): the label of a graphic made of any finite components, each symmetric about the same vertical line, is on that line, 30 %
above the half height. -/
theorem C83_label {comps : List (List (Curve K))} (hc : comps ≠ []) (hne : ∀ c ∈ comps, c ≠ []) {x : K} (hs : ∀ c ∈ comps, Symmetric x c) :
    ∃ h : K, halfHeightOf (comps.map (List.map Curve.lift)) = .ok (fin h) ∧
      labelAt (comps.map (List.map Curve.lift)) = .ok (fin x, fin (h * (13 / 10))) := by
  obtain ⟨h, hh, -⟩ := C83_halfHeight hne
  refine ⟨h, hh, ?_⟩
  have e : ((comps.map (List.map Curve.lift)).flatMap cornersOf).map Prod.fst = ((comps.flatMap cornersK).map Prod.fst).map fin := by
    clear hh hne hs hc
    induction comps with
    | nil => rfl
    | cons c cs ih =>
      simp only [List.map_cons, List.flatMap_cons, List.map_append, ih, cornersOf_lift]
      congr 1
      rw [List.map_map, List.map_map]
      rfl
  have hsum : ((comps.flatMap cornersK).map Prod.fst).sum = x * (comps.flatMap cornersK).length := by
    clear e hh hne hc
    induction comps with
    | nil => simp
    | cons c cs ih =>
      simp only [List.flatMap_cons, List.map_append, List.sum_append, List.length_append, Nat.cast_add]
      rw [ih fun c hc => hs c (by simp [hc]), sum_symmetric (x := x) (corners_nodup c)]
      · ring
      · intro p hp
        obtain ⟨k, hk, hp⟩ := (mem_corners _ _).1 hp
        obtain ⟨k', h1, h2⟩ := hs c (by simp) k hk p hp
        exact (mem_corners _ _).2 ⟨k', h1, h2⟩
  have hpos : (comps.flatMap cornersK).length ≠ 0 := by
    obtain ⟨c, cs, rfl⟩ := List.exists_cons_of_ne_nil hc
    have := corners_ne (hne c (by simp))
    simp [this]
  have hpos' : ((comps.flatMap cornersK).length : K) ≠ 0 := Nat.cast_ne_zero.2 hpos
  unfold labelAt centroidX
  rw [e, hh]
  cases hl : ((comps.flatMap cornersK).map Prod.fst).map fin with
  | nil => exact absurd (by simpa using congrArg List.length hl) hpos
  | cons y ys =>
    simp only
    rw [← hl, zero_eq, foldl_add_fin, hsum, List.length_map, List.length_map]
    have : (lit ((comps.flatMap cornersK).length : ℚ) : Ext K) = fin ((comps.flatMap cornersK).length : K) := by rw [lit_eq, Rat.cast_natCast]
    rw [this, pyDiv_fin _ _ hpos']
    have e2 : (0 + x * ((comps.flatMap cornersK).length : K)) / (comps.flatMap cornersK).length = x := by field_simp; ring
    simp only [bind, Except.bind, pure, Except.pure, e2]
    have e3 : (lit (13 / 10) : Ext K) = fin (13 / 10) := by rw [lit_eq]; norm_num
    rw [e3]
    rfl

/-! ## Objects and images -/

/-- the corners of the arrow of an object of diameter `d` -/
def arrowPoints (d : K) : List (K × K) :=
  [(-(1/1000), -(d/2)), (-(1/1000), 2/5 * d), (-(1/200), 2/5 * d), (0, d/2), (1/200, 2/5 * d), (1/1000, 2/5 * d), (1/1000, -(d/2)),
    (-(1/1000), -(d/2))]

theorem half_num (x : K) : half (fin x : Ext K) = fin (x / 2) := by simp [half]

theorem objectCurves_eq (d : K) : objectCurves (fin d) = [(linearCurves (arrowPoints d)).map Curve.lift] := by
  unfold objectCurves arrowCurves
  rw [← linearCurves_lift]
  have e1 : (half (lit (2 / 1000)) : Ext K) = fin (1 / 1000) := by rw [lit_eq, half_num]; norm_num
  have e2 : (half (lit (2 / 1000) * lit 5) : Ext K) = fin (1 / 200) := by rw [lit_eq, lit_eq, fin_mul_fin, half_num]; norm_num
  have e3 : (fin d * lit (1 / 10) : Ext K) = fin (d / 10) := by rw [lit_eq, fin_mul_fin]; push_cast; congr 1; ring
  have e4 : (half (fin (-d)) : Ext K) = fin (-(d / 2)) := by rw [half_num]; congr 1; ring
  have e5 : (fin (-(d / 2)) + fin d : Ext K) = fin (d / 2) := by rw [fin_add_fin]; congr 1; ring
  have e6 : (fin (d / 2) - fin (d / 10) : Ext K) = fin (2 / 5 * d) := by rw [fin_sub_fin]; congr 1; ring
  simp only [e1, e2, e3, e4, e5, e6, neg_fin, zero_eq, arrowPoints, List.map_cons, List.map_nil, pt]

theorem mem_polygon {a b : K × K} {ps : List (K × K)} {p : K × K} :
    (∃ k ∈ linearCurves (a :: b :: ps), p ∈ k.ends) ↔ p ∈ a :: b :: ps := by
  induction ps generalizing a b with
  | nil => simp [linearCurves, Curve.ends, Curve.start, Curve.stop]
  | cons c ps ih =>
    have := ih (a := b) (b := c)
    rw [linearCurves_head]
    rw [List.exists_mem_cons_iff, this]
    simp only [Curve.ends, Curve.start, Curve.stop, List.mem_cons, List.not_mem_nil, or_false]
    tauto

/-- **C83** (objects and images): the arrow drawn for an object or an image of any diameter `d`, positive or not, is a closed line; its
only corner on the axis of the arrow is its point, at the height `d / 2`; no corner is further from the optical axis; the widest ones
are at four fifths of the way from the optical axis to the point. Its half height is `|d| / 2` and its label is above it. -/
theorem C83_object (d : K) : ∃ cs, objectCurves (fin d) = [cs.map Curve.lift] ∧ ClosedLine cs ∧
    (∀ k ∈ cs, ∀ p ∈ k.ends, (p.1 = 0 ↔ p = (0, d / 2)) ∧ |p.2| ≤ |d| / 2 ∧ |p.1| ≤ 1/200 ∧ (|p.1| = 1/200 → p.2 = 4/5 * (d / 2))) ∧
    (∃ k ∈ cs, (0, d / 2) ∈ k.ends) ∧
    halfHeightOf (objectCurves (fin d)) = .ok (fin (|d| / 2)) ∧
    labelAt (objectCurves (fin d)) = .ok (fin 0, fin (|d| / 2 * (13 / 10))) := by
  obtain ⟨cs, hcs⟩ : ∃ cs, cs = linearCurves (arrowPoints d) := ⟨_, rfl⟩
  have hmem : ∀ p, (∃ k ∈ cs, p ∈ k.ends) ↔ p ∈ arrowPoints d := fun p => by rw [hcs]; exact mem_polygon
  have hclosed : ClosedLine cs := by rw [hcs]; exact polygon_closed (by simp)
  have hnil : cs ≠ [] := by rw [hcs]; simp [arrowPoints, linearCurves]
  have heq := objectCurves_eq d
  rw [← hcs] at heq
  clear hcs
  have hy : ∀ p ∈ arrowPoints d, |p.2| ≤ |d| / 2 := by
    have e1 : |2 / 5 * d| ≤ |d| / 2 := by
      rw [abs_mul, abs_of_pos (by norm_num : (0:K) < 2 / 5)]
      have := abs_nonneg d
      linarith
    have e2 : |d / 2| ≤ |d| / 2 := by rw [abs_div, abs_two]
    have e3 : |-(d / 2)| ≤ |d| / 2 := by rw [abs_neg]; exact e2
    simp only [arrowPoints, List.forall_mem_cons, List.not_mem_nil, false_imp_iff, implies_true, and_true]
    exact ⟨e3, e1, e1, e2, e1, e1, e3, e3⟩
  have htip : ((0, d / 2) : K × K) ∈ arrowPoints d := by simp [arrowPoints]
  have hne : ∀ c ∈ [cs], c ≠ [] := by simpa using hnil
  have hsym : ∀ c ∈ [cs], Symmetric 0 c := by
    simp only [List.mem_singleton, forall_eq, Symmetric]
    intro k hk p hp
    have := (hmem p).1 ⟨k, hk, hp⟩
    rw [hmem]
    simp only [arrowPoints, List.mem_cons, List.not_mem_nil, or_false] at this ⊢
    rcases this with rfl | rfl | rfl | rfl | rfl | rfl | rfl | rfl <;> simp
  have hh : halfHeightOf (objectCurves (fin d)) = .ok (fin (|d| / 2)) := by
    obtain ⟨h, h1, h2, h3, h4⟩ := C83_halfHeight hne
    rw [List.map_singleton] at h1
    rw [heq, h1]
    congr 2
    refine le_antisymm ?_ ?_
    · rcases h4 with rfl | ⟨c, hc, k, hk, p, hp, rfl⟩
      · positivity
      · rw [List.mem_singleton] at hc
        subst hc
        exact hy p ((hmem p).1 ⟨k, hk, hp⟩)
    · obtain ⟨k, hk, hp⟩ := (hmem _).2 htip
      have := h3 _ (by simp) k hk _ hp
      rwa [abs_div, abs_two] at this
  refine ⟨cs, heq, hclosed, ?_, (hmem _).2 htip, hh, ?_⟩
  · intro k hk p hp
    have hp' := (hmem p).1 ⟨k, hk, hp⟩
    refine ⟨?_, hy p hp', ?_⟩
    · simp only [arrowPoints, List.mem_cons, List.not_mem_nil, or_false] at hp'
      rcases hp' with rfl | rfl | rfl | rfl | rfl | rfl | rfl | rfl <;> simp
    · simp only [arrowPoints, List.mem_cons, List.not_mem_nil, or_false] at hp'
      have a1 : |(1 / 1000 : K)| = 1 / 1000 := abs_of_pos (by norm_num)
      have a2 : |(1 / 200 : K)| = 1 / 200 := abs_of_pos (by norm_num)
      rcases hp' with rfl | rfl | rfl | rfl | rfl | rfl | rfl | rfl <;> simp only [abs_neg, a1, a2, abs_zero] <;> norm_num <;> ring
  · obtain ⟨h, h1, h2⟩ := C83_label (by simp) hne hsym
    rw [List.map_singleton] at h1 h2
    rw [heq] at hh ⊢
    rw [hh] at h1
    simp only [Except.ok.injEq, fin.injEq] at h1
    rw [h2, ← h1]

/-- **C83** (images, with C74): every ray leaving the point of the arrow of an object of diameter `D` at the entrance of a path of valid
parts goes through the point of the arrow of each of its images, at the abscissa where the image is drawn. -/
theorem C83_tips {label : String} {ps : List (Part K)} (hv : (Part.group label ps).Valid) {g : Group (Ext K)}
    (hb : (Part.group label ps).build = .ok g.toElem) (hc : g.toElem.Clean) (D : K) :
    ∃ images : List (K × K), g.conjugateGraphics (fin D) 0 = .ok (images.map fun q => (fin q.1, fin q.2)) ∧
      ∀ q ∈ images, ∃ i, 0 < i ∧ i ≤ (Part.group label ps).stages.length ∧ ∀ θ,
        (rayBefore (Part.group label ps).stages i (D / 2, θ)).1 +
          (q.2 - zBefore (Part.group label ps).stages i) * (rayBefore (Part.group label ps).stages i (D / 2, θ)).2 = q.1 / 2 := by
  obtain ⟨images, h1, h2⟩ := C74_entrance hv hb hc D
  refine ⟨images, h1, fun q hq => ?_⟩
  obtain ⟨i, P, M, hi, hi', -, hcj, rfl⟩ := h2.real q hq
  refine ⟨i, hi, hi', fun θ => ?_⟩
  have := hcj (D / 2) θ
  rw [zero_add, one_mul, this]
  ring

theorem thinArrow_eq (dy : K) : ∃ cs : List (Curve K), thinArrowCurves (fin dy) = cs.map Curve.lift ∧ cs ≠ [] ∧ Symmetric 0 cs ∧
    ∃ k ∈ cs, (0, dy) ∈ k.ends := by
  obtain ⟨x, hx⟩ : ∃ x : K, (half (lit (1 / 100)) : Ext K) = fin x := ⟨_, by rw [lit_eq, half_num]⟩
  obtain ⟨y, hy⟩ : ∃ y : K, (fin dy - fin dy * lit (12 / 100) : Ext K) = fin y := ⟨_, by rw [lit_eq, fin_mul_fin, fin_sub_fin]⟩
  refine ⟨[.line (0, -dy) (0, dy), .line (-x, y) (0, dy), .line (0, dy) (x, y), .line (-x, -y) (0, -dy), .line (0, -dy) (x, -y)], ?_, by simp, ?_, ?_⟩
  · unfold thinArrowCurves
    simp only [hx, hy]
    simp [linearCurves, Curve.lift, pt, zero_eq]
  · intro k hk p hp
    simp only [List.mem_cons, List.not_mem_nil, or_false] at hk
    rcases hk with rfl | rfl | rfl | rfl | rfl <;> simp only [Curve.ends, Curve.start, Curve.stop, List.mem_cons, List.not_mem_nil, or_false] at hp <;>
      rcases hp with rfl | rfl <;> simp [Curve.ends, Curve.start, Curve.stop]
  · exact ⟨_, List.mem_cons_self, by simp [Curve.ends, Curve.start, Curve.stop]⟩

theorem bars_eq (y : K) : ∃ cs : List (Curve K), barsCurves (fin y) 0 0 = cs.map Curve.lift ∧ cs ≠ [] ∧ Symmetric 0 cs ∧
    ∃ k ∈ cs, ∃ x, (x, y) ∈ k.ends := by
  obtain ⟨x, hx⟩ : ∃ x : K, (barEnds 0 0 : Ext K × Ext K) = (fin (-x), fin x) := by
    refine ⟨5 / 1000, ?_⟩
    unfold barEnds
    simp only [lit_eq, zero_eq]
    simp
  refine ⟨[.line (-x, y) (x, y), .line (-x, -y) (x, -y)], ?_, by simp, ?_, ?_⟩
  · unfold barsCurves
    rw [hx]
    simp [Curve.lift, pt]
  · intro k hk p hp
    simp only [List.mem_cons, List.not_mem_nil, or_false] at hk
    rcases hk with rfl | rfl <;> simp only [Curve.ends, Curve.start, Curve.stop, List.mem_cons, List.not_mem_nil, or_false] at hp <;>
      rcases hp with rfl | rfl <;> simp [Curve.ends, Curve.start, Curve.stop]
  · exact ⟨_, List.mem_cons_self, -x, by simp [Curve.ends, Curve.start, Curve.stop]⟩

/-- **C83** (lenses): the label of a thin lens, drawn as an arrow of half height `dy` with or without the bars of an aperture at `±y`, is
above it. -/
theorem C83_lens_label (dy : K) (a : Option K) :
    ∃ h, labelAt (thinArrowCurves (fin dy) :: (a.map fun y => barsCurves (fin y) 0 0).toList) = .ok (fin 0, fin (h * (13 / 10))) ∧
      |dy| ≤ h ∧ ∀ y ∈ a, |y| ≤ h := by
  obtain ⟨cs, h1, h2, h3, k, hk, hkp⟩ := thinArrow_eq dy
  cases a with
  | none =>
    obtain ⟨h, e1, e2⟩ := C83_label (comps := [cs]) (by simp) (by simpa using h2) (x := 0) (by simpa using h3)
    obtain ⟨h', f1, -, f3, -⟩ := C83_halfHeight (comps := [cs]) (by simpa using h2)
    rw [e1, Except.ok.injEq, fin.injEq] at f1
    subst f1
    refine ⟨h, ?_, f3 cs (by simp) k hk _ hkp, by simp⟩
    rw [h1]
    exact e2
  | some y =>
    obtain ⟨bs, g1, g2, g3, l, hl, x, hlp⟩ := bars_eq y
    have hne : ∀ c ∈ [cs, bs], c ≠ [] := by simp [h2, g2]
    obtain ⟨h, e1, e2⟩ := C83_label (comps := [cs, bs]) (by simp) hne (x := 0) (by simp [h3, g3])
    obtain ⟨h', f1, -, f3, -⟩ := C83_halfHeight hne
    rw [e1, Except.ok.injEq, fin.injEq] at f1
    subst f1
    refine ⟨h, ?_, f3 cs (by simp) k hk _ hkp, ?_⟩
    · rw [h1]
      simp only [Option.map_some, Option.toList_some, g1]
      exact e2
    · rintro y' hy'
      rw [Option.mem_some_iff] at hy'
      subst hy'
      exact f3 bs (by simp) l hl _ hlp

/-- The label of a box is in its middle, wherever it is; a group or a generic matrix at `x` is a box at `x` in a graphic at `x`, so its
label is moved twice, as the box itself (C77_violated_box). -/
theorem C83_box_label (x y w h : K) :
    ∃ r, labelAt [boxCurves (fin x) (fin y) (fin w) (fin h)] = .ok (fin (x + w / 2), r) := by
  have hb : boxCurves (fin x) (fin y) (fin w) (fin h) = (linearCurves [(x, y), (x, y + h), (x + w, y + h), (x + w, y), (x, y)]).map Curve.lift := by
    rw [← linearCurves_lift]; rfl
  have hmem : ∀ p, (∃ k ∈ linearCurves [(x, y), (x, y + h), (x + w, y + h), (x + w, y), (x, y)], p ∈ k.ends) ↔
      p ∈ [(x, y), (x, y + h), (x + w, y + h), (x + w, y), (x, y)] := fun p => mem_polygon
  have hnil : linearCurves [(x, y), (x, y + h), (x + w, y + h), (x + w, y), (x, y)] ≠ [] := by simp [linearCurves]
  generalize linearCurves [(x, y), (x, y + h), (x + w, y + h), (x + w, y), (x, y)] = cs at hb hmem hnil
  obtain ⟨r, -, hr⟩ := C83_label (comps := [cs]) (by simp) (by simpa using hnil) (x := x + w / 2) (by
    simp only [List.mem_singleton, forall_eq]
    intro k hk p hp
    have := (hmem p).1 ⟨k, hk, hp⟩
    rw [hmem]
    have e1 : 2 * (x + w / 2) - x = x + w := by ring
    have e2 : 2 * (x + w / 2) - (x + w) = x := by ring
    simp only [List.mem_cons, List.not_mem_nil, or_false] at this ⊢
    rcases this with rfl | rfl | rfl | rfl | rfl <;> simp only [e1, e2] <;> simp)
  rw [hb]
  exact ⟨_, hr⟩

/-- **C83.** A lamp is a closed box on the axis, as high as the lamp, with its label above its middle, at 1.3 times its half height. -/
theorem C83_lamp (d : K) : ∃ cs : List (Curve K), lampCurves (fin d) = [cs.map Curve.lift] ∧ ClosedLine cs ∧
    (∀ p, (∃ k ∈ cs, p ∈ k.ends) ↔ (p.1 = 2 / 25 ∨ p.1 = -(2 / 25)) ∧ (p.2 = d / 2 ∨ p.2 = -(d / 2))) ∧
    labelAt (lampCurves (fin d)) = .ok (fin 0, fin (13 / 10 * (|d| / 2))) := by
  have e1 : (-(2 / 25) + 4 / 25 : K) = 2 / 25 := by norm_num
  have e2 : (-(d / 2) + d : K) = d / 2 := by ring
  have hb : lampCurves (fin d) = [(linearCurves [(-(2 / 25), -(d / 2)), (-(2 / 25), d / 2), (2 / 25, d / 2), (2 / 25, -(d / 2)), (-(2 / 25), -(d / 2))]).map
      Curve.lift] := by
    rw [← linearCurves_lift]
    have h1 : (lit (8 / 100) : Ext K) = fin (2 / 25) := by rw [lit_eq]; norm_num
    have h2 : (lit (16 / 100) : Ext K) = fin (4 / 25) := by rw [lit_eq]; norm_num
    have h3 : half (fin (-d) : Ext K) = fin (-(d / 2)) := by rw [half_num]; congr 1; ring
    simp only [lampCurves, boxCurves, h1, h2, h3, neg_fin, fin_add_fin, e1, e2]
    rfl
  have hcl : ClosedLine (linearCurves [(-(2 / 25), -(d / 2)), (-(2 / 25), d / 2), (2 / 25, d / 2), (2 / 25, -(d / 2)), ((-(2 / 25) : K), -(d / 2))]) :=
    polygon_closed rfl
  have hmem : ∀ p, (∃ k ∈ linearCurves [(-(2 / 25), -(d / 2)), (-(2 / 25), d / 2), (2 / 25, d / 2), (2 / 25, -(d / 2)), (-(2 / 25), -(d / 2))], p ∈ k.ends) ↔
      p ∈ [(-(2 / 25), -(d / 2)), (-(2 / 25), d / 2), (2 / 25, d / 2), (2 / 25, -(d / 2)), ((-(2 / 25) : K), -(d / 2))] := fun p => mem_polygon
  have hnil : linearCurves [(-(2 / 25), -(d / 2)), (-(2 / 25), d / 2), (2 / 25, d / 2), (2 / 25, -(d / 2)), ((-(2 / 25) : K), -(d / 2))] ≠ [] := by
    simp [linearCurves]
  generalize linearCurves [(-(2 / 25), -(d / 2)), (-(2 / 25), d / 2), (2 / 25, d / 2), (2 / 25, -(d / 2)), ((-(2 / 25) : K), -(d / 2))] = cs at hb hcl hmem hnil
  have hpts : ∀ p, (∃ k ∈ cs, p ∈ k.ends) ↔ (p.1 = 2 / 25 ∨ p.1 = -(2 / 25)) ∧ (p.2 = d / 2 ∨ p.2 = -(d / 2)) := by
    intro p
    rw [hmem]
    rcases p with ⟨a, b⟩
    simp only [List.mem_cons, List.not_mem_nil, or_false, Prod.mk.injEq]
    tauto
  obtain ⟨r, h1, h2⟩ := C83_label (comps := [cs]) (by simp) (by simpa using hnil) (x := 0) (by
    simp only [List.mem_singleton, forall_eq]
    intro k hk p hp
    have := (hpts p).1 ⟨k, hk, hp⟩
    rw [hpts]
    simp only [mul_zero, zero_sub]
    refine ⟨?_, this.2⟩
    rcases this.1 with h | h
    · right; rw [h]
    · left; rw [h, neg_neg])
  obtain ⟨r', g1, g2, g3, g4⟩ := C83_halfHeight (comps := [cs]) (by simpa using hnil)
  have hrr : r' = r := by
    rw [h1] at g1
    simpa using g1.symm
  subst hrr
  have hr : r' = |d| / 2 := by
    obtain ⟨k, hk, hp⟩ := (hpts (2 / 25, d / 2)).2 ⟨.inl rfl, .inl rfl⟩
    have h5 := g3 cs (by simp) k hk _ hp
    simp only [abs_div, abs_two] at h5
    rcases g4 with h6 | ⟨c, hc, k', hk', p, hp', h6⟩
    · rw [h6] at h5 ⊢
      have := abs_nonneg d
      linarith
    · have hc' : c = cs := by simpa using hc
      subst hc'
      rcases ((hpts p).1 ⟨k', hk', hp'⟩).2 with h7 | h7
      · rw [h6, h7, abs_div, abs_two]
      · rw [h6, h7, abs_neg, abs_div, abs_two]
  refine ⟨cs, hb, hcl, hpts, ?_⟩
  rw [hb]
  simp only [List.map_cons, List.map_nil] at h2
  rw [h2, hr, mul_comm]

/-! ## Spherical surfaces -/

/-- Specification: the arc drawn for a sphere of radius `R` through the axis at `v`, up to the height `h`, by a curve with control points
`(v, 0)`, `(v, ctl)`, `(corner, h)`: the end is on the sphere, on the side of the vertex, and the curve touches the sphere at the vertex
(its first control points are on the tangent there) and at the end (the tangent there goes through the control point). -/
structure TouchesSphere (h R v ctl corner : ℝ) : Prop where
  on : (corner - (v + R)) ^ 2 + h ^ 2 = R ^ 2
  side : |corner - v| ≤ |R|
  tangent : (corner - v) * (corner - (v + R)) + (h - ctl) * h = 0
  above : 0 ≤ ctl

theorem arc_fin {h R : ℝ} (hR : R ≠ 0) (h0 : 0 < h) : ∃ d c : ℝ, arc (fin h) (fin R) = .ok (fin d, fin c) ∧
    (∀ v, h ≤ |R| → TouchesSphere h R v c (v + d)) ∧ (|R| < h → d = R ∧ c = |R|) := by
  have hR' : 0 < |R| := abs_pos.2 hR
  have hq0 : 0 < h / |R| := div_pos h0 hR'
  unfold arc
  simp only [abs_fin, pyDiv_fin _ _ hR'.ne', bind, Except.bind, arcAngle, pyAsin, one_eq, neg_fin, lt_fin, le_fin, pure, Except.pure]
  by_cases hh : h ≤ |R|
  · have hq : h / |R| ≤ 1 := by rw [div_le_one hR']; exact hh
    rw [decide_eq_true hq, decide_eq_false (by linarith), decide_eq_false (by linarith)]
    have hs : Real.sin (Real.arcsin (h / |R|)) = h / |R| := Real.sin_arcsin (by linarith) hq
    have hs0 : Real.sin (Real.arcsin (h / |R|)) ≠ 0 := by rw [hs]; exact hq0.ne'
    simp only [if_true, Bool.or_self, if_false, asin_fin, cos_fin, sin_fin, fin_sub_fin, pyDiv_fin _ _ hs0, fin_mul_fin, abs_fin, Bool.false_eq_true]
    refine ⟨_, _, rfl, fun v _ => ?_, fun h' => absurd hh (not_le.2 h')⟩
    have hd := sag_eq (h := h) hR
    obtain ⟨g1, g2⟩ := sag_spec (h := h) (R := R) (by rw [abs_of_pos h0]; exact hh)
    have hc0 := Real.cos_le_one (Real.arcsin (h / |R|))
    have hcs := Real.sin_sq_add_cos_sq (Real.arcsin (h / |R|))
    generalize Real.cos (Real.arcsin (h / |R|)) = c at *
    rw [hs] at hcs ⊢
    have hctl : |(1 - c) / (h / |R|) * R| = (1 - c) * R ^ 2 / h := by
      rw [abs_mul, abs_of_nonneg (div_nonneg (by linarith) hq0.le)]
      rw [← sq_abs R]
      field_simp
    rw [hctl]
    have hR2 : h ^ 2 = (1 - c ^ 2) * R ^ 2 := by
      have : (h / |R|) ^ 2 = 1 - c ^ 2 := by linarith
      rw [div_pow, sq_abs, div_eq_iff (pow_ne_zero 2 hR)] at this
      exact this
    refine ⟨?_, ?_, ?_, ?_⟩
    · rw [← hd] at g1; linarith [g1, show (v + R * (1 - c) - (v + R)) ^ 2 = (R * (1 - c) - R) ^ 2 by ring]
    · rw [add_sub_cancel_left, hd]; exact g2
    · have e : (1 - c) * R ^ 2 / h * h = (1 - c) * R ^ 2 := div_mul_cancel₀ _ h0.ne'
      linear_combination hR2 - e
    · have := sq_nonneg R
      have : 0 ≤ 1 - c := by linarith
      positivity
  · have hh' : |R| < h := not_le.1 hh
    have hq : ¬ h / |R| ≤ 1 := by rw [div_le_one hR']; exact hh
    rw [decide_eq_false hq]
    have hp : half (PyMath.pi : Ext ℝ) = fin (Real.pi / 2) := half_num _
    simp only [Bool.false_eq_true, if_false, hp, cos_fin, sin_fin, Real.cos_pi_div_two, Real.sin_pi_div_two, fin_sub_fin,
      pyDiv_fin _ _ (one_ne_zero (α := ℝ)), fin_mul_fin, abs_fin]
    exact ⟨_, _, rfl, fun v h' => absurd h' hh, fun _ => by simp⟩

/-- A surface with a finite shape: a sphere, a plane, a cone; at a finite distance from the next one. -/
def Surf.Drawable (s : Surf (Ext ℝ)) : Prop :=
  (∃ l : ℝ, s.L = fin l) ∧
  match s.shape with
  | .spherical R => R = pinf ∨ ∃ r : ℝ, r ≠ 0 ∧ R = fin r
  | .flat => True
  | .conical a => ∃ x : ℝ, a = fin x

/-- what is drawn for a surface at `v` up to the height `h` -/
def DrawnFace (h v : ℝ) (s : Shape (Ext ℝ)) (f : Face ℝ) : Prop :=
  match s with
  | .spherical R => (R = pinf ∧ f = .line v) ∨ ∃ r ctl corner : ℝ, R = fin r ∧ f = .curve v ctl corner ∧
      (h ≤ |r| → TouchesSphere h r v ctl corner) ∧ (|r| < h → corner = v + r)
  | .flat => f = .line v
  | .conical _ => ∃ corner : ℝ, f = .cone v corner

theorem faceA_drawn {h v : ℝ} (h0 : 0 < h) {s : Surf (Ext ℝ)} (hs : s.Drawable) :
    ∃ f l, faceA (fin h) (fin v) s = .ok (Face.lift f, fin l) ∧ DrawnFace h v s.shape f ∧ (s.L ≠ fin 0 → s.L = fin l) := by
  obtain ⟨⟨l, hl⟩, hs⟩ := hs
  rcases s with ⟨sh, L, n⟩
  simp only at hl hs
  subst hl
  cases sh with
  | flat => exact ⟨.line v, l, rfl, rfl, fun _ => rfl⟩
  | conical a =>
    obtain ⟨x, rfl⟩ := hs
    exact ⟨.cone v (v - Real.tan x * h), l, by simp [faceA, Face.lift], ⟨_, rfl⟩, fun _ => rfl⟩
  | spherical R =>
    rcases hs with rfl | ⟨r, hr, rfl⟩
    · exact ⟨.line v, l, rfl, .inl ⟨rfl, rfl⟩, fun _ => rfl⟩
    · obtain ⟨d, c, h1, h2, h3⟩ := arc_fin hr h0
      refine ⟨.curve v c (v + d), if l = 0 then d * 2 else l, ?_, .inr ⟨r, c, v + d, rfl, rfl, h2 v, fun h => by rw [(h3 h).1]⟩, ?_⟩
      · simp only [faceA, h1, bind, Except.bind, pure, Except.pure]
        by_cases hl : l = 0
        · simp [hl, Face.lift, ofNat_eq]
        · simp [hl, Face.lift]
      · intro hl
        have : l ≠ 0 := fun e => hl (by rw [e])
        simp [this]

theorem faceB_drawn {h v : ℝ} (h0 : 0 < h) {s : Surf (Ext ℝ)} (hs : s.Drawable) :
    ∃ f, faceB (fin h) (fin v) s = .ok (Face.lift f) ∧ DrawnFace h v s.shape f := by
  obtain ⟨⟨l, hl⟩, hs⟩ := hs
  rcases s with ⟨sh, L, n⟩
  simp only at hl hs
  subst hl
  cases sh with
  | flat => exact ⟨.line v, rfl, rfl⟩
  | conical a =>
    obtain ⟨x, rfl⟩ := hs
    exact ⟨.cone v (v + Real.tan x * h), by simp [faceB, Face.lift], ⟨_, rfl⟩⟩
  | spherical R =>
    rcases hs with rfl | ⟨r, hr, rfl⟩
    · exact ⟨.line v, rfl, .inl ⟨rfl, rfl⟩⟩
    · obtain ⟨d, c, h1, h2, h3⟩ := arc_fin hr h0
      refine ⟨.curve v c (v + d), ?_, .inr ⟨r, c, v + d, rfl, rfl, h2 v, fun h => by rw [(h3 h).1]⟩⟩
      simp [faceB, h1, bind, Except.bind, pure, Except.pure, Face.lift]

/-- the outlines of consecutive surfaces beginning at `z`: each between two surfaces, at their positions -/
def DrawnPairs (h : ℝ) : ℝ → List (Surf (Ext ℝ)) → List (Face ℝ × Face ℝ) → Prop
  | z, a :: b :: ss, p :: ps => ∃ l, (a.L ≠ fin 0 → a.L = fin l) ∧ DrawnFace h z a.shape p.1 ∧ DrawnFace h (z + l) b.shape p.2 ∧
      DrawnPairs h (z + l) (b :: ss) ps
  | _, _ :: _ :: _, [] => False
  | _, _, ps => ps = []

theorem drawPairs_drawn {h : ℝ} (h0 : 0 < h) : ∀ (ss : List (Surf (Ext ℝ))) (z : ℝ), (∀ s ∈ ss, s.Drawable) →
    ∃ ps : List (Face ℝ × Face ℝ), drawPairs (fin h) (fin z) ss = .ok (ps.map fun p => (p.1.lift, p.2.lift)) ∧ DrawnPairs h z ss ps := by
  intro ss
  induction ss with
  | nil => intro z _; exact ⟨[], rfl, rfl⟩
  | cons a ss ih =>
    intro z hs
    cases ss with
    | nil => exact ⟨[], rfl, rfl⟩
    | cons b ss =>
      obtain ⟨f, l, h1, h2, h3⟩ := faceA_drawn (v := z) h0 (hs a (by simp))
      obtain ⟨g, h4, h5⟩ := faceB_drawn (v := z + l) h0 (hs b (by simp))
      obtain ⟨ps, h6, h7⟩ := ih (z + l) fun s hs' => hs s (by simp [hs'])
      refine ⟨(f, g) :: ps, ?_, l, h3, h2, h5, h7⟩
      rw [drawPairs]
      simp only [h1, bind, Except.bind, fin_add_fin, h4, h6, pure, Except.pure, List.map_cons]

/-- **C83** (the outlines of a lens, with C69): for any list of at least two surfaces of finite shapes (spheres, planes, cones) and any
half height, the outline of every pair of consecutive surfaces is a closed line; each surface is drawn at its position, in both outlines
it belongs to, and the curve of a sphere at least as large as the lens touches it at the vertex and at the edge. (Of a cone only the
position of the vertex is said here.) -/
theorem C83_surfaces {h : ℝ} (h0 : 0 < h) {ss : List (Surf (Ext ℝ))} (hn : 2 ≤ ss.length) (hs : ∀ s ∈ ss, s.Drawable) :
    ∃ ps : List (Face ℝ × Face ℝ), drawSurfaces (fin h) ss = .ok (ps.map fun p => (p.1.lift, p.2.lift)) ∧ DrawnPairs h 0 ss ps ∧
      ∀ p ∈ ps, ∃ cs, pairCurves (fin h) p.1.lift p.2.lift = cs.map Curve.lift ∧ ClosedLine cs := by
  obtain ⟨ps, h1, h2⟩ := drawPairs_drawn h0 ss 0 hs
  refine ⟨ps, ?_, h2, fun p _ => C83_outline h p.1 p.2⟩
  match ss, hn with
  | a :: b :: rest, _ => rw [drawSurfaces, zero_eq]; exact h1; simp

/-! ## Examples -/

/-- Two lines and a curve: the pen is lifted once. -/
example : (patchOf ([Curve.line (0, 0) (0, 1), .quad (0, 1) (1, 2) (2, 1), .line (3, 3) ((4 : ℚ), 3)].map Curve.lift)).2 =
    [.moveTo, .lineTo, .lineTo, .curve3, .curve3, .moveTo, .lineTo] := by decide +kernel

/-- An inverted image of diameter 4: its point is 2 below the axis, and the label 2.6 above it. -/
example : labelAt (objectCurves (fin (-4 : ℚ))) = .ok (fin 0, fin (13/5)) := by decide +kernel

/-- A doublet: three spheres, the middle one larger. -/
example : ∀ s ∈ [(⟨.spherical (fin 50), fin 4, fin (3/2)⟩ : Surf (Ext ℝ)), ⟨.spherical (fin (-40)), fin 2, fin (8/5)⟩, ⟨.spherical (fin (-100)), fin 0, fin 1⟩],
    s.Drawable := by
  simp only [List.forall_mem_cons, Surf.Drawable]
  refine ⟨⟨⟨_, rfl⟩, .inr ⟨50, by norm_num, rfl⟩⟩, ⟨⟨_, rfl⟩, .inr ⟨-40, by norm_num, rfl⟩⟩, ⟨⟨_, rfl⟩, .inr ⟨-100, by norm_num, rfl⟩⟩, by simp⟩

end RT
