import Verif.Lemmas.Images

/-! # C74 images of the objects of a figure -/

set_option linter.unusedSectionVars false

namespace RT
open PyNum Ext
variable {K : Type} [Field K] [LinearOrder K] [IsStrictOrderedRing K]

/-! ## What has to be drawn -/

/-- an element as light going the other way meets it (same index on both sides) -/
def Stage.turned (s : Stage K) : Stage K := ⟨s.d, s.b, s.c, s.a, s.len, s.diam, s.na⟩

/-- A ray sent back along its way returns where it came from. -/
theorem Stage.turned_back {s : Stage K} (h : s.a * s.d - s.b * s.c = 1) (r : K × K) :
    s.turned.out ((s.out r).1, -(s.out r).2) = (r.1, -r.2) := by
  refine Prod.ext ?_ ?_
  · simp only [Stage.out, Stage.turned]; linear_combination r.1 * h
  · simp only [Stage.out, Stage.turned]; linear_combination -r.2 * h

/-- free space of length `d` -/
def gapStage (d : K) : Stage K := (Sys.space d 1).stage none none

/-- The graphics (diameter, position) are the images of an object of diameter `D` at `x` through the first elements of `ss`, which
are met going in the direction `dir` (1 or -1): each of them is one, and each image is drawn (up to 1e-3 in position and 1e-3 in
magnification, under which the code takes two images to be the same). -/
structure ImagesDrawn (ss : List (Stage K)) (dir x D : K) (images : List (K × K)) : Prop where
  real : ∀ q ∈ images, ∃ i P M, 0 < i ∧ i ≤ ss.length ∧ P ≠ 0 ∧ ConjugateAfter ss i P M ∧ q = (M * D, x + dir * P)
  all : ∀ i P M, 0 < i → i ≤ ss.length → P ≠ 0 → ConjugateAfter ss i P M →
    ∃ q ∈ images, |q.2 - (x + dir * P)| < 1 / 1000 ∧ |q.1 - M * D| ≤ |D| / 1000

/-! ## Planes of a group of consistent elements -/

/-- C36 in terms of elements -/
theorem planes_of_elems {g : Group (Ext K)} (hg : GoodList g.elems) (hc : g.elems.IsChain Adjacent) {ss : List (Stage K)}
    (hst : ItemStages (itemsList g.elems) ss) :
    ∃ planes : List (K × K), g.intermediateConjugates = .ok (planes.map finPlane) ∧
      (∀ q ∈ planes, q.1 ≠ 0 ∧ ∃ i, 0 < i ∧ i ≤ ss.length ∧ ConjugateAfter ss i q.1 q.2) ∧
      (∀ i P M, 0 < i → i ≤ ss.length → P ≠ 0 → ConjugateAfter ss i P M →
        ∃ q ∈ planes, |q.1 - P| < 1 / 1000 ∧ |q.2 - M| < 1 / 1000) := by
  obtain ⟨n, hn⟩ : ∃ n : K, ∀ e ∈ g.elems.head?, e.mat.sys.nf = n := by
    cases g.elems with
    | nil => exact ⟨0, by simp⟩
    | cons e es => exact ⟨e.mat.sys.nf, by simp⟩
  obtain ⟨f1, f2, -⟩ := GoodList.flat hg (matched_of_adjacent hg hc n hn)
  unfold ItemStages at hst
  obtain ⟨new, n1, n2, n3, -⟩ := conjugatesLoop_spec hst f1 f2 one_den
    (n := n) ⟨Sys.one_lawful one_ne_zero, .inl ⟨one_isId 1, rfl, rfl, rfl⟩⟩ []
  have e : ∀ i P M, (∀ r, (rayBefore ss i ((Sys.one 1).out r)).1 +
      (P - ((Sys.one (1 : K)).len + zBefore ss i)) * (rayBefore ss i ((Sys.one 1).out r)).2 = M * r.1) ↔
      ConjugateAfter ss i P M := by
    intro i P M
    have : (Sys.one (1 : K)).len = 0 := rfl
    simp only [Sys.one_out, this, zero_add, ConjugateAfter, Prod.forall]
  refine ⟨new, ?_, ?_, ?_⟩
  · unfold Group.intermediateConjugates
    rw [transferMatricesList_leaves]
    exact n1
  · intro q hq
    obtain ⟨a, i, b, c, d⟩ := n2 q hq
    exact ⟨a, i, b, c, (e _ _ _).1 d⟩
  · intro i P M h1 h2 h3 h4
    obtain ⟨q, hq, hq'⟩ := n3 i P M h1 h2 h3 ((e _ _ _).2 h4)
    refine ⟨q, hq, ?_⟩
    rcases hq' with rfl | hq'
    · norm_num
    · exact hq'

theorem ImagesDrawn.of_planes {ss : List (Stage K)} {planes : List (K × K)} {dir x D : K} (hd : |dir| = 1)
    (h1 : ∀ q ∈ planes, q.1 ≠ 0 ∧ ∃ i, 0 < i ∧ i ≤ ss.length ∧ ConjugateAfter ss i q.1 q.2)
    (h2 : ∀ i P M, 0 < i → i ≤ ss.length → P ≠ 0 → ConjugateAfter ss i P M →
        ∃ q ∈ planes, |q.1 - P| < 1 / 1000 ∧ |q.2 - M| < 1 / 1000) :
    ImagesDrawn ss dir x D (planes.map fun q => (q.2 * D, x + dir * q.1)) := by
  constructor
  · intro q hq
    obtain ⟨p, hp, rfl⟩ := List.mem_map.1 hq
    obtain ⟨a, i, b, c, d⟩ := h1 p hp
    exact ⟨i, p.1, p.2, b, c, a, d, rfl⟩
  · intro i P M a b c d
    obtain ⟨q, hq, e1, e2⟩ := h2 i P M a b c d
    refine ⟨_, List.mem_map_of_mem hq, ?_, ?_⟩
    · have : x + dir * q.1 - (x + dir * P) = dir * (q.1 - P) := by ring
      simp only [this, abs_mul, hd, one_mul]
      exact e1
    · have : q.2 * D - M * D = (q.2 - M) * D := by ring
      simp only [this, abs_mul]
      have := mul_le_mul_of_nonneg_right e2.le (abs_nonneg D)
      linarith

theorem itemStages_reverse {es : List (Elem (Ext K))} (hl : ∀ e ∈ es, ∃ m, e = .leaf m) {ss : List (Stage K)}
    (h : ItemStages (itemsList es) ss) : ItemStages (itemsList es.reverse) ss.reverse := by
  have key : ∀ es : List (Elem (Ext K)), (∀ e ∈ es, ∃ m, e = .leaf m) → leaves (itemsList es) = es.map Elem.mat := by
    intro es
    induction es with
    | nil => intro _; rfl
    | cons e es ih =>
      intro h
      obtain ⟨m, rfl⟩ := h e (by simp)
      simp only [itemsList, leaves_append, ih (fun e he => h e (by simp [he]))]
      simp [Elem.items, leaves, Elem.mat]
  unfold ItemStages at h ⊢
  rw [key _ hl] at h
  rw [key _ (fun e he => hl e (List.mem_reverse.1 he)), List.map_reverse]
  exact List.rel_reverse h

/-- The two sub-paths of a path in air at a position strictly inside one of its spaces: consistent elements, whose stages are the rest of
the space and what comes after it, and the part of the space before the position and what comes before it, met from behind. -/
theorem object_cut {label : String} {qs rs : List (Part K)} {d n : K} {diam : Option K} {g : Group (Ext K)}
    (hv : (Part.group label (qs ++ .space d n diam :: rs)).Valid)
    (hn : (Part.group label (qs ++ .space d n diam :: rs)).NonNeg)
    (hb : (Part.group label (qs ++ .space d n diam :: rs)).build = .ok g.toElem) (hcl : g.toElem.Clean)
    (hair : EdgesInAir g.elems) (hq : ∀ q ∈ qs, q.Single) (hsym : ∀ s ∈ Part.stagesList qs, s.a = s.d) {x : K}
    (h1 : totalLength (Part.stagesList qs) < x) (h2 : x < totalLength (Part.stagesList qs) + d) :
    ∃ sf sb : Group (Ext K), g.subPath (fin x) = .ok sf ∧ g.subPath (fin x) true = .ok sb ∧
      GoodList sf.elems ∧ GoodList sb.elems ∧ sf.elems.IsChain Adjacent ∧ sb.elems.IsChain Adjacent ∧
      ItemStages (itemsList sf.elems) (gapStage (totalLength (Part.stagesList qs) + d - x) :: Part.stagesList rs) ∧
      ItemStages (itemsList sb.elems) (gapStage (x - totalLength (Part.stagesList qs)) ::
        ((Part.stagesList qs).map Stage.turned).reverse) ∧
      ((∀ r ∈ rs, r.Single) → ∀ e ∈ sf.elems, ∃ m, e = .leaf m) ∧ (∀ e ∈ sb.elems, ∃ m, e = .leaf m) ∧ 0 < x := by
  obtain ⟨hgood, -⟩ := build_good hv hb hcl
  unfold Group.toElem Elem.Good at hgood
  obtain ⟨hgl, hh⟩ := hgood
  have hchain : g.elems.IsChain Adjacent := by
    refine chain_of_index fun e he => ?_
    exact hair e he
  have hnn := stages_nonneg hn
  obtain ⟨pre, post, hel, hs1, hs2, hleaf, hleaf'⟩ := group_cut hb hair
  have hleaf := hleaf hq
  rw [hel] at hgl hair
  rw [GoodList_append] at hgl
  obtain ⟨hg1, hg2⟩ := hgl
  unfold GoodList at hg2
  have hlen := hg1.total hs1
  have hok : OkList (pre ++ .leaf (spaceMat (fin d) (fin 1) (optInf diam)) :: post) := by
    intro e he
    rcases List.mem_append.1 he with he | he
    · exact ⟨((GoodList_iff.1 hg1) e he).den, ((GoodList_iff.1 hg1) e he).lawful⟩
    · rcases List.mem_cons.1 he with rfl | he
      · exact ⟨hg2.1.den, hg2.1.lawful⟩
      · exact ⟨((GoodList_iff.1 hg2.2) e he).den, ((GoodList_iff.1 hg2.2) e he).lawful⟩
  have hl : ∀ e ∈ pre, 0 ≤ e.mat.sys.len := by
    intro e he
    obtain ⟨a, b, rfl⟩ := List.append_of_mem he
    have hge := (GoodList_iff.1 hg1) e he
    have : itemsList (a ++ e :: b) = itemsList a ++ (e.items ++ itemsList b) := by
      have : ∀ u v : List (Elem (Ext K)), itemsList (u ++ v) = itemsList u ++ itemsList v := by
        intro u v
        induction u with
        | nil => rfl
        | cons x u ih => simp [itemsList, ih]
      rw [this]; rfl
    rw [this] at hs1
    obtain ⟨s1, s2, e1, -, h3⟩ := itemStages_split hs1
    obtain ⟨s3, s4, e2, h4, -⟩ := itemStages_split h3
    rw [hge.total h4]
    refine List.sum_nonneg ?_
    intro y hy
    obtain ⟨s, hs, rfl⟩ := List.mem_map.1 hy
    apply hnn
    unfold Part.stages
    have : ∀ u v : List (Part K), Part.stagesList (u ++ v) = Part.stagesList u ++ Part.stagesList v := by
      intro u v
      induction u with
      | nil => rfl
      | cons x u ih => simp [Part.stagesList, ih]
    rw [this, e1, e2]
    simp [hs]
  rw [← hlen] at h1 h2 ⊢
  -- forward
  obtain ⟨sf, hf1, hf2⟩ : ∃ s : Group (Ext K), g.subPath (fin x) = .ok s ∧
      s.elems = .leaf (spaceMat (fin (lengthOf pre + d - x)) (fin 1) pinf) :: post := by
    unfold Group.subPath
    have hlen' : (Elem.leaf (spaceMat (fin d) (fin 1) (optInf diam) : Mat (Ext K))).mat.sys.len = d := by
      rw [space_sys]; rfl
    have hokpre : OkList (pre ++ [.leaf (spaceMat (fin d) (fin 1) (optInf diam))]) := fun e he => hok e (by
      rcases List.mem_append.1 he with h | h
      · simp [h]
      · simp only [List.mem_singleton] at h; simp [h])
    rw [hel, subPath_at x false post hokpre hl h1 (by rw [hlen']; exact h2)]
    simp only [hlen']
    obtain ⟨s, hs1, hs2⟩ := new_exact (es := .leaf (spaceMat (fin (lengthOf pre + d - x)) (fin 1) pinf) :: post)
      (by
        intro e he
        rcases List.mem_cons.1 he with rfl | he
        · exact space_ok _
        · exact hok e (by simp [he]))
      (chain_of_index (by
        intro e he
        rcases List.mem_cons.1 he with rfl | he
        · exact ⟨rfl, rfl⟩
        · exact hair e (by simp [he]))) ""
    exact ⟨s, hs1, hs2⟩
  have gapOk : ∀ t : K, ItemStages (Elem.leaf (spaceMat (fin t) (fin 1) pinf : Mat (Ext K))).items [gapStage t] := fun t =>
    itemStages_single (.of_den (diam := none) (na := none) (spaceMat_den t 1 _) (by simp [Mat.Linear, spaceMat]) rfl rfl
      (by simp [optInf, DiamOk]))
  have gapGood : ∀ t : K, (Elem.leaf (spaceMat (fin t) (fin 1) pinf : Mat (Ext K))).Good := fun t => by
    unfold Elem.Good; exact spaceMat_good t _ one_ne_zero
  -- backward
  obtain ⟨sb, hb1, hb2, -⟩ := C64_backwards_partial (m := g.mat) (c := g.cache) hok
    (fun e he => hair e (by simp [he])) (e := .leaf (spaceMat (fin d) (fin 1) (optInf diam))) rfl hl h1
    (by rw [space_sys]; exact h2)
  rw [show (⟨g.mat, g.cache, pre ++ .leaf (spaceMat (fin d) (fin 1) (optInf diam)) :: post⟩ : Group (Ext K)) = g by
    rw [← hel]] at hb1
  have hturn : (Part.stagesList qs).map Stage.turned = Part.stagesList qs := by
    refine (List.map_congr_left (g := id) fun s hs => ?_).trans (List.map_id _)
    have := hsym s hs
    unfold Stage.turned
    cases s
    simp_all
  refine ⟨sf, sb, hf1, hb1, ?_, ?_, ?_, ?_, ?_, ?_, ?_, ?_, lt_of_le_of_lt (lengthOf_nonneg hl) h1⟩
  · rw [hf2]; unfold GoodList; exact ⟨gapGood _, hg2.2⟩
  · rw [hb2]; unfold GoodList
    refine ⟨gapGood _, GoodList_iff.2 fun e he => ?_⟩
    exact (GoodList_iff.1 hg1) e (List.mem_reverse.1 he)
  · rw [hf2]
    refine chain_of_index ?_
    intro e he
    rcases List.mem_cons.1 he with rfl | he
    · exact ⟨rfl, rfl⟩
    · exact hair e (by simp [he])
  · rw [hb2]
    refine chain_of_index ?_
    intro e he
    rcases List.mem_cons.1 he with rfl | he
    · exact ⟨rfl, rfl⟩
    · exact hair e (by simp [List.mem_reverse.1 he])
  · rw [hf2]; exact (gapOk _).append hs2
  · rw [hb2, hturn]; exact (gapOk _).append (itemStages_reverse hleaf hs1)
  · intro hr e he
    rw [hf2] at he
    rcases List.mem_cons.1 he with rfl | he
    · exact ⟨_, rfl⟩
    · exact hleaf' hr e he
  · intro e he
    rw [hb2] at he
    rcases List.mem_cons.1 he with rfl | he
    · exact ⟨_, rfl⟩
    · exact hleaf e (List.mem_reverse.1 he)

/-! ## C74 -/

/-- **C74.** Every path of valid parts of non-negative lengths whose elements are all in air at their edges; an object of any
diameter `D` strictly inside one of its spaces, at `x`; before the object there are single elements which are the same in both
directions. The graphics drawn are the images through the elements after the object, then those through the elements before it,
which light coming from the object meets in the reverse order and from behind. -/
theorem C74_images_partial {label : String} {qs rs : List (Part K)} {d n : K} {diam : Option K} {g : Group (Ext K)}
    (hv : (Part.group label (qs ++ .space d n diam :: rs)).Valid)
    (hn : (Part.group label (qs ++ .space d n diam :: rs)).NonNeg)
    (hb : (Part.group label (qs ++ .space d n diam :: rs)).build = .ok g.toElem) (hcl : g.toElem.Clean)
    (hair : EdgesInAir g.elems) (hq : ∀ q ∈ qs, q.Single) (hsym : ∀ s ∈ Part.stagesList qs, s.a = s.d) {x : K}
    (h1 : totalLength (Part.stagesList qs) < x) (h2 : x < totalLength (Part.stagesList qs) + d) (D : K) :
    ∃ after before : List (K × K),
      g.conjugateGraphics (fin D) (fin x) = .ok ((after ++ before).map fun q => (fin q.1, fin q.2)) ∧
      ImagesDrawn (gapStage (totalLength (Part.stagesList qs) + d - x) :: Part.stagesList rs) 1 x D after ∧
      ImagesDrawn (gapStage (x - totalLength (Part.stagesList qs)) ::
        ((Part.stagesList qs).map Stage.turned).reverse) (-1) x D before := by
  obtain ⟨sf, sb, hf1, hb1, gf, gb, cf, cb, stf, stb, -, -, hx0⟩ := object_cut hv hn hb hcl hair hq hsym h1 h2
  obtain ⟨pf, p1, p2, p3⟩ := planes_of_elems gf cf stf
  obtain ⟨pb, b1, b2, b3⟩ := planes_of_elems gb cb stb
  refine ⟨_, _, ?_, ImagesDrawn.of_planes (by simp) p2 p3, ImagesDrawn.of_planes (by simp) b2 b3⟩
  have hx : x ≠ 0 := hx0.ne'
  unfold Group.conjugateGraphics Group.planesFrom
  have hx' : ((fin x : Ext K) !=. 0) = true := by simp [hx]
  rw [hx', if_pos rfl]
  simp only [hf1, p1, hb1, b1, bind, Except.bind, pure, Except.pure, mirrorPlanes, List.map_append, List.map_map]
  congr 2
  · refine List.map_congr_left fun q _ => ?_
    simp [finPlane, add_comm]
  · refine List.map_congr_left fun q _ => ?_
    simp [finPlane, add_comm]

/-- **C74**, an object in the entrance plane: the images drawn are those of the whole path. -/
theorem C74_entrance {label : String} {ps : List (Part K)} (hv : (Part.group label ps).Valid) {g : Group (Ext K)}
    (hb : (Part.group label ps).build = .ok g.toElem) (hc : g.toElem.Clean) (D : K) :
    ∃ images : List (K × K), g.conjugateGraphics (fin D) 0 = .ok (images.map fun q => (fin q.1, fin q.2)) ∧
      ImagesDrawn (Part.group label ps).stages 1 0 D images := by
  obtain ⟨planes, h1, h2, h3, -⟩ := C36_intermediateConjugates hv hb hc
  refine ⟨_, ?_, ImagesDrawn.of_planes (by simp) h2 h3⟩
  unfold Group.conjugateGraphics Group.planesFrom
  have : ((0 : Ext K) !=. 0) = false := by simp [zero_eq]
  rw [this, if_neg (by simp), h1]
  simp only [bind, Except.bind, pure, Except.pure, List.map_map]
  congr 1
  refine List.map_congr_left fun q _ => ?_
  simp [zero_eq]

/-! ### A path that meets the hypotheses -/

/-- two lenses, an object between them -/
def twoLenses : List (Part ℚ) := [.space 10 1 none, .lens 5 none, .space 30 1 none, .lens 10 none, .space 20 1 none]

/-- The image through the second lens is at 70 (the object is 20 before it) with the same size; the object is 10 after the first
lens, so that light sent back from it is focused at 0. -/
example :
    withPath twoLenses (fun g => (g.conjugateGraphics (fin 2) (fin 20))) =
      .ok (.ok [(fin (-2), fin 60), (fin (-2), fin 0)]) ∧
    withPath twoLenses (fun g => (.ok (g.elems.map fun e => (e.mat.frontIndex, e.mat.backIndex)) :
      Except PyErr (List (Ext ℚ × Ext ℚ)))) =
      .ok (.ok (List.replicate 5 (fin 1, fin 1))) ∧
    totalLength (Part.stagesList ([.space 10 1 none, .lens 5 none] : List (Part ℚ))) = 10 ∧
    (∀ s ∈ Part.stagesList ([.space 10 1 none, .lens 5 none] : List (Part ℚ)), s.a = s.d) := by
  refine ⟨by decide +kernel, by decide +kernel, by decide +kernel, ?_⟩
  intro s hs
  simp only [Part.stagesList, Part.stages, List.append_nil, List.mem_append, List.mem_singleton] at hs
  rcases hs with rfl | rfl <;> rfl

/-! ### Elements that differ from behind -/

/-- a plano-convex thick lens -/
def planoConvex : Sys ℚ := (Sys.interface 1 (3/2) (1/10)).andThen ((Sys.space 3 (3/2)).andThen (Sys.interface (3/2) 1 0))

/-- **C74** is violated behind an element that is not the same from behind: for an object 40 after a plano-convex thick lens, the
image through the lens is drawn at -28, which is 81 before the object, where there is no image. -/
theorem C74_violated_asymmetric :
    withPath [.space 10 1 none, .thickLens (3/2) (some 10) none 3 none, .space (100 : ℚ) 1 none]
      (fun g => g.conjugateGraphics (fin 1) (fin 53)) = .ok (.ok [(fin (-1), fin (-28))]) ∧
    ∀ i ≤ 3, ∀ M, ¬ ConjugateAfter [gapStage (40 : ℚ), (planoConvex.stage none none).turned, gapStage 10] i 81 M := by
  refine ⟨by decide +kernel, ?_⟩
  intro i hi M h
  have := h 0 1
  obtain rfl | rfl | rfl | rfl : i = 0 ∨ i = 1 ∨ i = 2 ∨ i = 3 := by omega
  all_goals
    norm_num [rayBefore, zBefore, gapStage, planoConvex, Stage.turned, Stage.out, Sys.stage, Sys.space, Sys.interface, Sys.andThen] at this

/-- **C74** is violated behind a group, even of lenses that are the same from behind: the images through the group are drawn for the
group placed as it is, not as light coming from the object meets it. -/
theorem C74_violated_group :
    withPath [.space 10 1 none, .group "" [.lens 10 none, .space 5 1 none, .lens 20 none], .space (100 : ℚ) 1 none]
      (fun g => g.conjugateGraphics (fin 1) (fin 53)) = .ok (.ok [(fin (-5/14), fin (10/7)), (fin (-1/4), fin 4)]) ∧
    (∀ i ≤ 5, ∀ M, ¬ ConjugateAfter
      [gapStage (38 : ℚ), (Sys.lens 20).stage none none, gapStage 5, (Sys.lens 10).stage none none, gapStage 10] i (53 - 10/7) M) ∧
    (∀ i ≤ 5, ∀ M, ¬ ConjugateAfter
      [gapStage (38 : ℚ), (Sys.lens 20).stage none none, gapStage 5, (Sys.lens 10).stage none none, gapStage 10] i (53 - 4) M) := by
  refine ⟨by decide +kernel, ?_, ?_⟩ <;>
  · intro i hi M h
    have := h 0 1
    obtain rfl | rfl | rfl | rfl | rfl | rfl : i = 0 ∨ i = 1 ∨ i = 2 ∨ i = 3 ∨ i = 4 ∨ i = 5 := by omega
    all_goals
      norm_num [rayBefore, zBefore, gapStage, Stage.out, Sys.stage, Sys.space, Sys.lens] at this

/-! ### Positions where nothing can be drawn -/

/-- **C74** is violated for an object at the limit between two elements (such as a lens, or the end of the path), for every path of
elements of non-negative lengths: `ValueError`. -/
theorem C74_violated_edge {m : Mat (Ext K)} {c} {pre post : List (Elem (Ext K))} (hok : OkList (pre ++ post))
    (hl : ∀ e ∈ pre ++ post, 0 ≤ e.mat.sys.len) (hx : lengthOf pre ≠ 0) (D : Ext K) :
    (⟨m, c, pre ++ post⟩ : Group (Ext K)).conjugateGraphics D (fin (lengthOf pre)) = .error .valueError := by
  have hx' : ((fin (lengthOf pre) : Ext K) !=. 0) = true := by simp [hx]
  unfold Group.conjugateGraphics Group.planesFrom
  rw [hx', if_pos rfl, C64_edge_violated hok hl false]
  rfl

/-- **C74** is violated for an object inside of an element other than a `Space`: `AssertionError`. -/
theorem C74_violated_inside {m : Mat (Ext K)} {c} {pre post : List (Elem (Ext K))} {e : Elem (Ext K)} {x : K}
    (hok : OkList (pre ++ [e])) (hl : ∀ e ∈ pre, 0 ≤ e.mat.sys.len) (hsp : e.isSpace = false)
    (h1 : lengthOf pre < x) (h2 : x < lengthOf pre + e.mat.sys.len) (D : Ext K) :
    (⟨m, c, pre ++ e :: post⟩ : Group (Ext K)).conjugateGraphics D (fin x) = .error .assertionError := by
  have hx' : ((fin x : Ext K) !=. 0) = true := by
    have := (lt_of_le_of_lt (lengthOf_nonneg hl) h1).ne'
    simp [this]
  unfold Group.conjugateGraphics Group.planesFrom
  rw [hx', if_pos rfl, C64_thick_violated hok hl hsp h1 h2 false]
  rfl

/-- **C74** is violated for an object inside of a `Space` that is not in air, before any element that is not a space: `ValueError`. -/
theorem C74_violated_media {m : Mat (Ext K)} {c} {pre post : List (Elem (Ext K))} {e f : Elem (Ext K)} {x : K}
    (hok : OkList (pre ++ [e])) (hl : ∀ e ∈ pre, 0 ≤ e.mat.sys.len) (hsp : e.isSpace = true)
    (h1 : lengthOf pre < x) (h2 : x < lengthOf pre + e.mat.sys.len) (hf : f.isSpace = false) (hn : f.mat.frontIndex ≠ fin 1) (D : Ext K) :
    (⟨m, c, pre ++ e :: f :: post⟩ : Group (Ext K)).conjugateGraphics D (fin x) = .error .valueError := by
  have hx' : ((fin x : Ext K) !=. 0) = true := by
    have := (lt_of_le_of_lt (lengthOf_nonneg hl) h1).ne'
    simp [this]
  unfold Group.conjugateGraphics Group.planesFrom
  rw [hx', if_pos rfl, C64_index_violated hok hl hsp h1 h2 hf hn]
  rfl

/-! ### The objects of a figure -/

section groups
variable {F : Type} [PyNum F]

theorem dictGet_set {α β : Type} [DecidableEq α] (d : List (α × β)) (k : α) (v : β) : dictGet (dictSet d k v) k = some v := by
  unfold dictGet dictSet
  split_ifs with h
  · induction d with
    | nil => simp at h
    | cons e d ih =>
      simp only [List.map_cons, List.find?_cons]
      by_cases he : (e.1 == k) = true
      · simp [he]
      · simp only [he, Bool.false_eq_true, if_false]
        apply ih
        simpa [he] using h
  · have hn : d.find? (fun e => e.1 == k) = none := by
      rw [List.find?_eq_none]
      intro x hx hxk
      exact h (List.any_eq_true.2 ⟨x, hx, hxk⟩)
    simp [List.find?_append, hn]

theorem dictGet_set_ne {α β : Type} [DecidableEq α] (d : List (α × β)) {k k' : α} (v : β) (hk : k' ≠ k) :
    dictGet (dictSet d k v) k' = dictGet d k' := by
  unfold dictGet dictSet
  split_ifs with h
  · congr 1
    clear h
    induction d with
    | nil => rfl
    | cons e d ih =>
      simp only [List.map_cons, List.find?_cons]
      by_cases he : (e.1 == k) = true
      · have he' : e.1 = k := by simpa using he
        have h1 : (k == k') = false := by simpa using hk.symm
        have h2 : (e.1 == k') = false := by rw [he']; exact h1
        simp only [he, if_true, h1, h2]
        exact ih
      · simp only [he, Bool.false_eq_true, if_false]
        rw [ih]
  · congr 1
    rw [List.find?_append]
    have h1 : (k == k') = false := by simpa using hk.symm
    simp [h1]

/-- the graphics of one object: itself, and its images when they are shown -/
def objectDrawn (g : Group F) (showImages : Bool) (o : F × F) (l : List (F × F)) : Prop :=
  if showImages then ∃ images, g.conjugateGraphics o.1 o.2 = .ok images ∧ l = (o.1, o.2) :: images else l = [(o.1, o.2)]

theorem objectGroups_ok {fmt : F → String} {g : Group F} (showImages : Bool) {os : List (F × F)}
    (hok : showImages = true → ∀ o ∈ os, ∃ images, g.conjugateGraphics o.1 o.2 = .ok images) (d : List (Option String × List (F × F))) :
    ∃ d', g.objectGroups fmt true showImages os d = .ok d' ∧
      (∀ k, (∀ o ∈ os, objectKey fmt o.2 ≠ k) → dictGet d' k = dictGet d k) ∧
      (∀ as o bs, os = as ++ o :: bs → (∀ b ∈ bs, objectKey fmt b.2 ≠ objectKey fmt o.2) →
        ∃ l, dictGet d' (objectKey fmt o.2) = some l ∧ objectDrawn g showImages o l) := by
  induction os generalizing d with
  | nil => exact ⟨d, rfl, fun _ _ => rfl, by simp⟩
  | cons o os ih =>
    obtain ⟨D, z⟩ := o
    have hok' : showImages = true → ∀ o ∈ os, ∃ images, g.conjugateGraphics o.1 o.2 = .ok images :=
      fun h o ho => hok h o (by simp [ho])
    obtain ⟨d1, l, hstep, hl, hdr, hother⟩ : ∃ d1 l, g.objectGroups fmt true showImages ((D, z) :: os) d =
          g.objectGroups fmt true showImages os d1 ∧ dictGet d1 (objectKey fmt z) = some l ∧
          objectDrawn g showImages (D, z) l ∧ ∀ k, objectKey fmt z ≠ k → dictGet d1 k = dictGet d k := by
      cases showImages with
      | false =>
        refine ⟨dictSet d (objectKey fmt z) [(D, z)], _, ?_, dictGet_set _ _ _, by simp [objectDrawn],
          fun k hk => dictGet_set_ne _ _ hk.symm⟩
        simp [Group.objectGroups]
      | true =>
        obtain ⟨images, hi⟩ := hok rfl (D, z) (by simp)
        dsimp only at hi
        refine ⟨dictSet (dictSet d (objectKey fmt z) [(D, z)]) (objectKey fmt z) ([(D, z)] ++ images), _, ?_,
          dictGet_set _ _ _, ?_, fun k hk => ?_⟩
        · simp [Group.objectGroups, dictGet_set, hi]
        · simp only [objectDrawn, if_true]
          exact ⟨images, hi, rfl⟩
        · rw [dictGet_set_ne _ _ hk.symm, dictGet_set_ne _ _ hk.symm]
    obtain ⟨d', h1, h2, h3⟩ := ih hok' d1
    refine ⟨d', hstep.trans h1, ?_, ?_⟩
    · intro k hk
      rw [h2 k fun o ho => hk o (by simp [ho]), hother k (hk (D, z) (by simp))]
    · intro as o bs hsplit hb
      cases as with
      | nil =>
        simp only [List.nil_append, List.cons.injEq] at hsplit
        obtain ⟨rfl, rfl⟩ := hsplit
        exact ⟨l, (h2 _ hb).trans hl, hdr⟩
      | cons a as =>
        simp only [List.cons_append, List.cons.injEq] at hsplit
        exact h3 as o bs hsplit.2 hb

/-- **C74**: when the objects of a figure have distinct titles and their images can be computed, each of them is in the figure, under
its title, followed by its images when they are shown, and by nothing else. -/
theorem C74_objects {fmt : F → String} {g : Group F} (showImages : Bool) {os : List (F × F)}
    (hok : showImages = true → ∀ o ∈ os, ∃ images, g.conjugateGraphics o.1 o.2 = .ok images)
    (hk : (os.map fun o => objectKey fmt o.2).Nodup) :
    ∃ d, g.objectGroups fmt true showImages os newObjectGroups = .ok d ∧
      ∀ o ∈ os, ∃ l, dictGet d (objectKey fmt o.2) = some l ∧ objectDrawn g showImages o l := by
  obtain ⟨d, h1, -, h3⟩ := objectGroups_ok (fmt := fmt) showImages hok newObjectGroups
  refine ⟨d, h1, fun o ho => ?_⟩
  obtain ⟨as, bs, rfl⟩ := List.append_of_mem ho
  refine h3 as o bs rfl fun b hb => ?_
  rw [List.map_append, List.map_cons, List.nodup_append] at hk
  have := (List.nodup_cons.1 hk.2.1).1
  exact fun h => this (h ▸ List.mem_map_of_mem (f := fun o : F × F => objectKey fmt o.2) hb)

/-- **C74** is violated for two objects with the same title (both in the entrance plane, or at positions that are the same to
one decimal): only the last one and its images are in the figure, for every path. -/
theorem C74_violated_same {fmt : F → String} {g : Group F} (showImages : Bool) {o o' : F × F}
    (hok : showImages = true → ∀ p ∈ [o, o'], ∃ images, g.conjugateGraphics p.1 p.2 = .ok images)
    (hk : objectKey fmt o.2 = objectKey fmt o'.2) :
    ∃ d l, g.objectGroups fmt true showImages [o, o'] newObjectGroups = .ok d ∧
      dictGet d (objectKey fmt o.2) = some l ∧ objectDrawn g showImages o' l := by
  obtain ⟨d, h1, -, h3⟩ := objectGroups_ok (fmt := fmt) showImages hok newObjectGroups
  obtain ⟨l, h4, h5⟩ := h3 [o] o' [] rfl (by simp)
  exact ⟨d, l, h1, by rw [hk]; exact h4, h5⟩

/-- **C74**: when images are shown without objects and the object is in the entrance plane, its images, and nothing else, are in the figure. -/
theorem C74_images_only {fmt : F → String} {g : Group F} {D z : F} (hz : (z !=. 0) = false) {images} (hi : g.conjugateGraphics D z = .ok images) :
    g.objectGroups fmt false true [(D, z)] newObjectGroups = .ok [(none, images)] := by
  simp [Group.objectGroups, objectKey, hz, newObjectGroups, dictGet, dictSet, hi]

/-- **C74** is violated when images are shown without objects (`showObject = False`, `showImages = True`) and the first object is
not in the entrance plane, for every path: `KeyError`. -/
theorem C74_violated_hidden {fmt : F → String} {g : Group F} {D z : F} (hz : (z !=. 0) = true) (os : List (F × F)) :
    g.objectGroups fmt false true ((D, z) :: os) newObjectGroups = .error .keyError := by
  simp [Group.objectGroups, objectKey, hz, newObjectGroups, dictGet]

end groups

/-- Objects at 0, 20 and 20.04, with a formatting that keeps the integer part. -/
example :
    withPath twoLenses (fun g => g.objectGroups (fun z => if z <. fin 1 then "0" else "20") true true
      [(fin 1, fin 0), (fin 2, fin 20), (fin 3, fin (501/25))] newObjectGroups |>.map fun d => d.map fun e => (e.1, e.2.length)) =
      .ok (.ok [(none, 3), (some "20", 3)]) := by decide +kernel

end RT
