import Verif.Lemmas.Behind

/-! # C91 the rays of an object that is not in the entrance plane -/

set_option linter.unusedSectionVars false

namespace RT
open PyNum Ext
variable {K : Type} [Field K] [LinearOrder K] [IsStrictOrderedRing K]

/-- The line goes through these points, in this order. -/
def LineThrough {C : Type} (pts : List (K × K)) (l : RayLine (Ext K) C) : Prop :=
  l.x = pts.map (fun p => fin p.1) ∧ l.y = pts.map (fun p => fin p.2)

theorem zBefore_nonneg {ss : List (Stage K)} (h : ∀ s ∈ ss, 0 ≤ s.len) (i : Nat) : 0 ≤ zBefore ss i := by
  refine List.sum_nonneg fun y hy => ?_
  obtain ⟨s, hs, rfl⟩ := List.mem_map.1 hy
  exact h s (List.mem_of_mem_take hs)

theorem zBefore_le {ss : List (Stage K)} (h : ∀ s ∈ ss, 0 ≤ s.len) {i j : Nat} (hij : i ≤ j) : zBefore ss i ≤ zBefore ss j := by
  obtain ⟨k, rfl⟩ := Nat.exists_eq_add_of_le hij
  unfold zBefore
  rw [List.take_add, List.map_append, List.sum_append]
  have : 0 ≤ (((ss.drop i).take k).map Stage.len).sum := by
    refine List.sum_nonneg fun y hy => ?_
    obtain ⟨s, hs, rfl⟩ := List.mem_map.1 hy
    exact h s (List.mem_of_mem_drop (List.mem_of_mem_take hs))
  linarith

/-- the lines of the traces of new rays through paths -/
theorem exists_drawn {is : List (Item (Ext K))} {ss : List (Stage K)} (h : ItemStages is ss) (rb : Bool) {dir : K} (x : K)
    {f : Ray (Ext K) → Ray (Ext K)} {φ : Ext K → Ext K}
    (hf : ∀ q, (f q).isBlocked = q.isBlocked ∧ (f q).y = q.y ∧ (f q).z = φ q.z)
    (hφ : ∀ i, φ (fin (zBefore ss i)) = fin (dir * zBefore ss i)) (rays : List (K × K)) :
    ∃ pts : List (List (K × K)), List.Forall₂ (Drawn ss rb dir x) rays pts ∧
      List.Forall₂ (fun t p => (plotted rb t).1.map (· + fin x) = p.map (fun p => fin p.1) ∧
        (plotted rb t).2 = p.map (fun p => fin p.2)) (rays.map fun r => (traceV (.dup :: is) (newRay r)).map f) pts := by
  induction rays with
  | nil => exact ⟨[], .nil, .nil⟩
  | cons r rays ih =>
    obtain ⟨pts, h1, h2⟩ := ih
    obtain ⟨p, h3, h4⟩ := plotted_drawn h (newRay_fin r) rfl rb x hf hφ
    exact ⟨p :: pts, .cons h3 h1, .cons h4 h2⟩

/-- **C91.** Every path of valid single parts of non-negative lengths, in air at their edges; an object strictly inside one of its spaces,
at `x`; before it, elements that are the same in both directions. For all rays from the object, lines are drawn first for the rays going
through what comes after the object, then for the same rays going through what comes before it, from the nearest element to the
first, to the left of the object; each goes through the places where the ray meets the elements, up to the one that stops it. -/
theorem C91_lines_partial {label : String} {qs rs : List (Part K)} {d n : K} {diam : Option K} {g : Group (Ext K)}
    (hv : (Part.group label (qs ++ .space d n diam :: rs)).Valid)
    (hn : (Part.group label (qs ++ .space d n diam :: rs)).NonNeg)
    (hb : (Part.group label (qs ++ .space d n diam :: rs)).build = .ok g.toElem) (hcl : g.toElem.Clean)
    (hair : EdgesInAir g.elems) (hq : ∀ q ∈ qs, q.Single) (hr : ∀ r ∈ rs, r.Single)
    (hsym : ∀ s ∈ Part.stagesList qs, s.a = s.d) {x : K}
    (h1 : totalLength (Part.stagesList qs) < x) (h2 : x < totalLength (Part.stagesList qs) + d)
    {C : Type} {round : Ext K → Int} (hround : Nearest round) (rb : Bool) {colors : List C} (hc : 2 ≤ colors.length)
    {rays : List (K × K)} {as : List Nat} {h : Heap (Ext K)} (has : ∀ a ∈ as, a < h.length)
    (hrays : as.map h.get = rays.map newRay) :
    ∃ (after before : List (List (K × K))) (ls : List (RayLine (Ext K) C)),
      g.rayTraceLines round rb colors (fin x) as h = .ok ls ∧
      List.Forall₂ (Drawn (gapStage (totalLength (Part.stagesList qs) + d - x) :: Part.stagesList rs) rb 1 x) rays after ∧
      List.Forall₂ (Drawn (gapStage (x - totalLength (Part.stagesList qs)) :: ((Part.stagesList qs).map Stage.turned).reverse)
        rb (-1) x) rays before ∧
      List.Forall₂ LineThrough ((after ++ before).filter fun p => !p.isEmpty) ls := by
  obtain ⟨sf, sb, hf1, hb1, -, -, -, -, stf, stb, lf, lb, hx0⟩ := object_cut hv hn hb hcl hair hq hsym h1 h2
  obtain ⟨ts, h', t1, t2⟩ := rayTraces_spec hx0.ne' hf1 hb1 (lf hr) lb stf stb has hrays
  have hnn := stages_nonneg hn
  have hnb : ∀ s ∈ gapStage (x - totalLength (Part.stagesList qs)) :: ((Part.stagesList qs).map Stage.turned).reverse,
      0 ≤ s.len := by
    intro s hs
    rcases List.mem_cons.1 hs with rfl | hs
    · change 0 ≤ x - totalLength (Part.stagesList qs); linarith
    · obtain ⟨t, ht, rfl⟩ := List.mem_map.1 (List.mem_reverse.1 hs)
      refine hnn t ?_
      have : ∀ u v : List (Part K), Part.stagesList (u ++ v) = Part.stagesList u ++ Part.stagesList v := by
        intro u v
        induction u with
        | nil => rfl
        | cons x u ih => simp [Part.stagesList, ih]
      unfold Part.stages
      rw [this]
      simp [ht]
  obtain ⟨after, a1, a2⟩ := exists_drawn stf rb x (dir := 1) (f := id) (φ := id) (fun q => ⟨rfl, rfl, rfl⟩)
    (fun i => by simp) rays
  obtain ⟨before, b1, b2⟩ := exists_drawn stb rb x (dir := -1) (f := Ray.backwards) (φ := fun z => -PyNum.abs z)
    (fun q => ⟨rfl, rfl, rfl⟩) (fun i => by simp [abs_of_nonneg (zBefore_nonneg hnb i)]) rays
  have hp := List.rel_append a2 b2
  beta_reduce at hp
  rw [show (rays.map fun r => (traceV (.dup :: itemsList sf.elems) (newRay r)).map id) ++
    (rays.map fun r => (traceV (.dup :: itemsList sb.elems) (newRay r)).map Ray.backwards) = ts.map h'.deref from t2.symm] at hp
  obtain ⟨ls, l1, l2⟩ := rayLines_points hround rb hc hp
  refine ⟨after, before, ls, ?_, a1, b1, l2⟩
  unfold Group.rayTraceLines
  rw [t1]
  exact l1

/-- **C91.** An object in the entrance plane (or a list of rays): one line for each ray, through the whole path. -/
theorem C91_entrance_partial {label : String} {ps : List (Part K)} {g : Group (Ext K)}
    (hb : (Part.group label ps).build = .ok g.toElem) (hs : ∀ p ∈ ps, p.Single)
    {C : Type} {round : Ext K → Int} (hround : Nearest round) (rb : Bool) {colors : List C} (hc : 2 ≤ colors.length)
    {rays : List (K × K)} {as : List Nat} {h : Heap (Ext K)} (has : ∀ a ∈ as, a < h.length)
    (hrays : as.map h.get = rays.map newRay) :
    ∃ (pts : List (List (K × K))) (ls : List (RayLine (Ext K) C)),
      g.rayTraceLines round rb colors 0 as h = .ok ls ∧
      List.Forall₂ (Drawn (Part.group label ps).stages rb 1 0) rays pts ∧
      List.Forall₂ LineThrough (pts.filter fun p => !p.isEmpty) ls := by
  have hst : ItemStages (itemsList g.elems) (Part.group label ps).stages := build_stages hb
  obtain ⟨hl, hca⟩ : (∀ e ∈ g.elems, ∃ m, e = .leaf m) ∧ g.cache = none := by
    unfold Part.build at hb
    split at hb
    · simp at hb
    · next es hes =>
      obtain ⟨g', hnew, hg'⟩ := Except.map_ok hb
      have hgg : g' = g := by
        unfold Group.toElem at hg'
        cases g; cases g'
        simp only [Elem.group.injEq] at hg'
        simp [hg']
      subst hgg
      refine ⟨?_, new_cache hnew⟩
      intro e he
      have hmem : e.forget ∈ es.map Elem.forget := by rw [← Group.new_elems hnew]; exact List.mem_map_of_mem he
      obtain ⟨f, hf, hfe⟩ := List.mem_map.1 hmem
      obtain ⟨q, hq', hqb⟩ := buildList_mem hes f hf
      exact forget_leaf hfe.symm ((hs q hq').leaf hqb)
  obtain ⟨m1, -, -, -⟩ := traceMany_new hl hca hst has hrays
  obtain ⟨pts, a1, a2⟩ := exists_drawn hst rb 0 (dir := 1) (f := id) (φ := id) (fun q => ⟨rfl, rfl, rfl⟩) (fun i => by simp) rays
  have e : (rays.map fun r => (traceV (.dup :: itemsList g.elems) (newRay r)).map id) =
      rays.map fun r => traceV g.toElem.items (newRay r) := by
    refine List.map_congr_left fun r _ => ?_
    rw [List.map_id]; rfl
  rw [e, ← m1] at a2
  obtain ⟨ls, l1, l2⟩ := rayLines_points hround rb hc a2
  refine ⟨pts, ls, ?_, a1, l2⟩
  unfold Group.rayTraceLines Group.rayTraces
  have : ((0 : Ext K) !=. 0) = false := by simp [zero_eq]
  rw [this, if_neg (by simp), zero_eq]
  exact l1

/-- **C91.** The lines after an object at `x` are to its right, those before it to its left, both within the path when it has no element
of negative length; along each line the points go away from the object. -/
theorem C91_sides {ss : List (Stage K)} (hn : ∀ s ∈ ss, 0 ≤ s.len) {rb : Bool} {dir x : K} {r : K × K} {pts : List (K × K)}
    (h : Drawn ss rb dir x r pts) (hd : dir = 1 ∨ dir = -1) :
    (∀ p ∈ pts, 0 ≤ dir * (p.1 - x) ∧ dir * (p.1 - x) ≤ totalLength ss) ∧
    pts.Pairwise fun p q => dir * (p.1 - x) ≤ dir * (q.1 - x) := by
  obtain ⟨is, h1, h2, rfl⟩ := h
  have e : ∀ i, dir * (x + dir * zBefore ss i - x) = zBefore ss i := by
    intro i
    rcases hd with rfl | rfl <;> ring
  constructor
  · intro p hp
    obtain ⟨i, hi, rfl⟩ := List.mem_map.1 hp
    dsimp only
    rw [e]
    refine ⟨zBefore_nonneg hn i, ?_⟩
    have : totalLength ss = zBefore ss ss.length := by simp [totalLength, zBefore]
    rw [this]
    exact zBefore_le hn ((h2 i).1 hi).1.1
  · rw [List.pairwise_map]
    exact h1.imp fun hij => by rw [e, e]; exact zBefore_le hn hij

/-- **C91.** Unless the rays that are stopped are removed, the line of a ray starts at the object when it starts in free space. -/
theorem C91_start {d x dir : K} {ss : List (Stage K)} {r : K × K} {pts : List (K × K)}
    (h : Drawn (gapStage d :: ss) false dir x r pts) : pts.head? = some (x, r.1) := by
  obtain ⟨is, h1, h2, rfl⟩ := h
  have h0 : (0 : Nat) ∈ is := (h2 0).2 ⟨shown_zero.2 (by simp [gapStage, Sys.stage]), by simp⟩
  cases is with
  | nil => simp at h0
  | cons i is =>
    have hi : i = 0 := by
      rcases List.mem_cons.1 h0 with h0 | h0
      · exact h0.symm
      · have := (List.pairwise_cons.1 h1).1 0 h0; omega
    subst hi
    simp [zBefore, rayBefore]

/-- **C91.** A ray that gets through everything is drawn at all the elements and at the end, whether or not the rays that are stopped are
removed. -/
theorem C91_through {ss : List (Stage K)} {rb : Bool} {dir x : K} {r : K × K} {pts : List (K × K)} (h : Drawn ss rb dir x r pts)
    (hr : ¬ Blocked ss r) : ∀ i ≤ ss.length, (x + dir * zBefore ss i, (rayBefore ss i r).1) ∈ pts := by
  obtain ⟨is, -, h2, rfl⟩ := h
  intro i hi
  refine List.mem_map.2 ⟨i, (h2 i).2 ⟨⟨hi, ?_, ?_⟩, fun _ => hr⟩, rfl⟩
  · intro j _ s hs hst
    exact hr (blocked_iff.2 ⟨j, s, hs, hst⟩)
  · intro s hs _ hD
    exact hr (blocked_iff.2 ⟨i, s, hs, .inl hD⟩)

/-- **C91.** When the rays that are stopped are removed, nothing is drawn of them. -/
theorem C91_removed {ss : List (Stage K)} {dir x : K} {r : K × K} {pts : List (K × K)} (h : Drawn ss true dir x r pts)
    (hr : Blocked ss r) : pts = [] := by
  obtain ⟨is, -, h2, rfl⟩ := h
  rw [List.map_eq_nil_iff, List.eq_nil_iff_forall_not_mem]
  intro i hi
  exact ((h2 i).1 hi).2 rfl hr

/-- **C91** is violated for a ray stopped by an element that has a thickness: it is not drawn up to this element, the last point is at an
element before it. -/
theorem C91_thick_violated {ss : List (Stage K)} {rb : Bool} {dir x : K} {r : K × K} {pts : List (K × K)} (h : Drawn ss rb dir x r pts)
    {i : Nat} {s : Stage K} (hs : ss[i]? = some s) (hl : 0 < s.len) {D : K} (hD : s.diam = some D)
    (hy : D / 2 < |(rayBefore ss i r).1|) : ∀ p ∈ pts, ∃ j < i, p = (x + dir * zBefore ss j, (rayBefore ss j r).1) := by
  obtain ⟨is, -, h2, rfl⟩ := h
  intro p hp
  obtain ⟨j, hj, rfl⟩ := List.mem_map.1 hp
  refine ⟨j, ?_, rfl⟩
  obtain ⟨⟨-, h4, h5⟩, -⟩ := (h2 j).1 hj
  by_contra hc
  push Not at hc
  rcases hc.eq_or_lt with rfl | hlt
  · exact h5 s hs hl ⟨D, hD, hy⟩
  · exact h4 i hlt s hs (.inl ⟨D, hD, hy⟩)

/-- **C91** is violated for an object at the limit between two elements (or at the end of the path): `ValueError`, nothing is drawn. -/
theorem C91_edge_violated {m : Mat (Ext K)} {c} {pre post : List (Elem (Ext K))} (hok : OkList (pre ++ post))
    (hl : ∀ e ∈ pre ++ post, 0 ≤ e.mat.sys.len) (hx : lengthOf pre ≠ 0) {C : Type} (round : Ext K → Int) (rb : Bool)
    (colors : List C) (as : List Nat) (h : Heap (Ext K)) :
    (⟨m, c, pre ++ post⟩ : Group (Ext K)).rayTraceLines round rb colors (fin (lengthOf pre)) as h = .error .valueError := by
  unfold Group.rayTraceLines Group.rayTraces
  have : ((fin (lengthOf pre) : Ext K) !=. 0) = true := by simp [hx]
  rw [this, if_pos rfl, C64_edge_violated hok hl]

/-- **C91** is violated for an object before or after the path: `ValueError`. -/
theorem C91_outside_violated {g : Group (Ext K)} (hok : OkList g.elems) (hl : ∀ e ∈ g.elems, 0 ≤ e.mat.sys.len) {x : K}
    (hx : x < 0 ∨ lengthOf g.elems < x) {C : Type} (round : Ext K → Int) (rb : Bool)
    (colors : List C) (as : List Nat) (h : Heap (Ext K)) :
    g.rayTraceLines round rb colors (fin x) as h = .error .valueError := by
  have hx0 : x ≠ 0 := by
    rintro rfl
    rcases hx with hx | hx
    · exact lt_irrefl _ hx
    · exact absurd hx (not_lt.2 (lengthOf_nonneg hl))
  unfold Group.rayTraceLines Group.rayTraces
  have : ((fin x : Ext K) !=. 0) = true := by simp [hx0]
  rw [this, if_pos rfl, C64_outside hok hl hx]

/-- **C91** is violated for a source inside of a `Space` that is not in air, before any element that is not a space: `ValueError`. -/
theorem C91_media_violated {m : Mat (Ext K)} {c} {pre post : List (Elem (Ext K))} {e f : Elem (Ext K)} {x : K}
    (hok : OkList (pre ++ [e])) (hl : ∀ e ∈ pre, 0 ≤ e.mat.sys.len) (hsp : e.isSpace = true)
    (h1 : lengthOf pre < x) (h2 : x < lengthOf pre + e.mat.sys.len) (hf : f.isSpace = false) (hn : f.mat.frontIndex ≠ fin 1)
    {C : Type} (round : Ext K → Int) (rb : Bool) (colors : List C) (as : List Nat) (h : Heap (Ext K)) :
    (⟨m, c, pre ++ e :: f :: post⟩ : Group (Ext K)).rayTraceLines round rb colors (fin x) as h = .error .valueError := by
  have hx' : ((fin x : Ext K) !=. 0) = true := by
    have := (lt_of_le_of_lt (lengthOf_nonneg hl) h1).ne'
    simp [this]
  unfold Group.rayTraceLines Group.rayTraces
  rw [hx', if_pos rfl, C64_index_violated hok hl hsp h1 h2 hf hn]

/-! ### Cases -/

/-- rounding to the nearest integer (halves upwards) -/
def roundUp : Ext ℚ → Int
  | .fin x => ⌊x + 1 / 2⌋
  | _ => 0

theorem roundUp_nearest : Nearest roundUp := by
  intro x
  change |((⌊x + 1 / 2⌋ : Int) : ℚ) - x| ≤ 1 / 2
  have h1 := Int.floor_le (x + 1 / 2)
  have h2 := Int.lt_floor_add_one (x + 1 / 2)
  rw [abs_le]
  constructor <;> linarith

/-- the points of the lines drawn -/
def linesOf (ps : List (Part ℚ)) (rb : Bool) (x : ℚ) (rays : List (ℚ × ℚ)) :=
  withPath ps fun g => (g.rayTraceLines roundUp rb ["b", "r"] (fin x) (List.range rays.length) (rays.map newRay)).map
    fun ls => ls.map fun l => l.x.zip l.y

/-- A source in glass, between two faces. -/
example : linesOf [.interface 1 (3/2) none none, .space 10 (3/2) none, .interface (3/2) 1 none none] false 5 [(1, 0)] = .ok (.error .valueError) := by
  decide +kernel

/-- Two lenses at 10 and 40, an object at 20: two rays from it are drawn to the right, through the second lens, and to the left, through
the first one. -/
example :
    linesOf twoLenses false 20 [(1, 0), (1, 1/10)] = .ok (.ok
      [[(fin 20, fin 1), (fin 20, fin 1), (fin 40, fin 1), (fin 40, fin 1), (fin 40, fin 1), (fin 60, fin (-1))],
       [(fin 20, fin 1), (fin 20, fin 1), (fin 40, fin 3), (fin 40, fin 3), (fin 40, fin 3), (fin 60, fin (-1))],
       [(fin 20, fin 1), (fin 20, fin 1), (fin 10, fin 1), (fin 10, fin 1), (fin 10, fin 1), (fin 0, fin (-1))],
       [(fin 20, fin 1), (fin 20, fin 1), (fin 10, fin 2), (fin 10, fin 2), (fin 10, fin 2), (fin 0, fin (-1))]]) ∧
    totalLength (Part.stagesList ([.space 10 1 none, .lens 5 none] : List (Part ℚ))) = 10 ∧
    (∀ s ∈ Part.stagesList ([.space 10 1 none, .lens 5 none] : List (Part ℚ)), s.a = s.d) ∧
    (∀ q ∈ twoLenses, q.Single) ∧
    (List.range 2).map (Heap.get (([(1, 0), (1, 1/10)] : List (ℚ × ℚ)).map newRay)) = [(1, 0), (1, 1/10)].map newRay := by
  refine ⟨by decide +kernel, by decide +kernel, ?_, ?_, rfl⟩
  · intro s hs
    simp only [Part.stagesList, Part.stages, List.append_nil, List.mem_append, List.mem_singleton] at hs
    rcases hs with rfl | rfl <;> rfl
  · intro q hq
    simp only [twoLenses, List.mem_cons, List.not_mem_nil, or_false] at hq
    rcases hq with rfl | rfl | rfl | rfl | rfl <;> trivial

/-- **C91** is violated by a thick element: a ray too high for a lens (thin) of diameter 1 is drawn up to it, but for an opening of
diameter 1 with a thickness (a `Space` with a diameter) only its starting point is drawn. -/
theorem C91_violated_thick :
    linesOf [.space 10 1 none, .lens 5 (some 1), .space 10 1 none] false 0 [(1, 0)] =
      .ok (.ok [[(fin 0, fin 1), (fin 0, fin 1), (fin 10, fin 1)]]) ∧
    linesOf [.space 10 1 none, .space 10 1 (some 1)] false 0 [(1, 0)] = .ok (.ok [[(fin 0, fin 1), (fin 0, fin 1)]]) := by
  refine ⟨by decide +kernel, by decide +kernel⟩

/-- **C91** is violated behind an element that is not the same from behind: a ray parallel to the axis, from an object 40 after a
plano-convex thick lens, comes out of the curved face at the height 1, but is drawn there at the height 9/10. -/
theorem C91_violated_asymmetric :
    linesOf [.space 10 1 none, .thickLens (3/2) (some 10) none 3 none, .space 100 1 none] false 53 [(1, 0)] = .ok (.ok
      [[(fin 53, fin 1), (fin 53, fin 1), (fin 113, fin 1)],
       [(fin 53, fin 1), (fin 53, fin 1), (fin 13, fin 1), (fin 13, fin 1), (fin 10, fin (9/10)), (fin 10, fin (9/10)),
        (fin 0, fin (2/5))]]) ∧
    (rayBefore [gapStage (40 : ℚ), (planoConvex.stage none none).turned, gapStage 10] 2 (1, 0)).1 = 1 := by
  refine ⟨by decide +kernel, ?_⟩
  norm_num [rayBefore, gapStage, planoConvex, Stage.turned, Stage.out, Sys.stage, Sys.space, Sys.interface, Sys.andThen]

end RT
