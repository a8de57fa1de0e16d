import Verif.Model.Display
import Verif.Lemmas.Trace
import Verif.Props.Trace

/-! # C61 comparing, C62 labels, C63 plotted rays, C65 tolerant comparisons -/

set_option linter.unusedSectionVars false

namespace RT
open PyNum Ext

section generic
variable {F : Type} [PyNum F]

/-! ## C63 -/

theorem plotLoop_false (x y : List F) (rs : List (Ray F)) :
    plotLoop false x y rs =
      (x ++ (rs.filter fun r => !r.isBlocked).map Ray.z, y ++ (rs.filter fun r => !r.isBlocked).map Ray.y) := by
  induction rs generalizing x y with
  | nil => simp [plotLoop]
  | cons r rs ih => cases hb : r.isBlocked <;> simp [plotLoop, hb, ih]

theorem plotLoop_true (x y : List F) (rs : List (Ray F)) :
    plotLoop true x y rs =
      if rs.any Ray.isBlocked then ([], []) else (x ++ rs.map Ray.z, y ++ rs.map Ray.y) := by
  induction rs generalizing x y with
  | nil => simp [plotLoop]
  | cons r rs ih => cases hb : r.isBlocked <;> simp [plotLoop, hb, ih]

/-- a list in which everything after an element with `p` has `p` -/
theorem filter_eq_takeWhile {α : Type} {p : α → Bool} {l : List α} (h : l.Pairwise fun a b => p a = true → p b = true) :
    (l.filter fun a => !p a) = l.takeWhile fun a => !p a := by
  induction l with
  | nil => rfl
  | cons a l ih =>
    obtain ⟨h1, h2⟩ := List.pairwise_cons.1 h
    cases hp : p a
    · simp [hp, ih h2]
    · have : (l.filter fun a => !p a) = [] := by
        rw [List.filter_eq_nil_iff]; intro b hb; simp [h1 b hb hp]
      simp [hp, this]

/-- **C63.** For the trace of any ray through any tree of elements: the points plotted are the successive `(z, y)` of the trace,
up to the first blocked ray. -/
theorem C63_plotted {e : Elem F} (he : e.NoCache) {a : Nat} {h : Heap F} (ha : a < h.length) :
    let t := (e.traceH a h).2.1.deref (e.traceH a h).1
    rearrangeForPlotting false t =
      ((t.takeWhile fun r => !r.isBlocked).map Ray.z, (t.takeWhile fun r => !r.isBlocked).map Ray.y) := by
  intro t
  have hp : t.Pairwise fun r s => r.isBlocked = true → s.isBlocked = true := by
    refine List.pairwise_map.2 ((C06_blocked_tail he ha).imp ?_)
    intro x y hxy hb
    rw [hxy hb]; exact hb
  unfold rearrangeForPlotting
  rw [plotLoop_false, filter_eq_takeWhile hp]
  simp

/-- **C63.** Without blocked rays: nothing is plotted for a ray that does not get through, and the whole trace for the others. -/
theorem C63_removed {e : Elem F} (he : e.NoCache) {a : Nat} {h : Heap F} (ha : a < h.length) :
    let t := (e.traceH a h).2.1.deref (e.traceH a h).1
    rearrangeForPlotting true t =
      if ((e.traceH a h).2.1.get (e.traceThroughH a h).1).isBlocked = true then ([], []) else (t.map Ray.z, t.map Ray.y) := by
  intro t
  unfold rearrangeForPlotting
  rw [plotLoop_true]
  refine if_congr ?_ rfl (by simp)
  rw [C06_through he ha, List.any_eq_true]

/-- **C63.** For a list of rays that is not the trace of a ray (a ray unblocked after a blocked one), the points after the
blocked ray are joined to those before it. -/
theorem C63_any_list (rs : List (Ray F)) :
    rearrangeForPlotting false rs =
      ((rs.filter fun r => !r.isBlocked).map Ray.z, (rs.filter fun r => !r.isBlocked).map Ray.y) := by
  unfold rearrangeForPlotting
  rw [plotLoop_false]; simp

/-! ## C61 -/

/-- **C61** is violated by every group: once a ray has been traced through it, a group differs from any group that has not been
used, in particular from the group it was. -/
theorem C61_violated {m : Mat F} {es es' : List (Elem F)} {m' : Mat F} (a : Nat) (h : Heap F) :
    ((Elem.group m none es).traceH a h).2.2.dictEq ((Elem.group m none es).traceH a h).2.1 (.group m' none es') = false := by
  simp [Elem.traceH, cacheHit, Elem.dictEq, cacheEq]

/-- **C61** holds for single elements: tracing does not change them. -/
theorem C61_single_partial (m : Mat F) (e' : Elem F) (a : Nat) (h : Heap F) :
    ((Elem.leaf m).traceH a h).2.2.dictEq ((Elem.leaf m).traceH a h).2.1 e' = (Elem.leaf m).dictEq h e' := by
  simp only [Elem.traceH]
  cases e' <;> simp [Elem.dictEq]

mutual
theorem Elem.dictEq_heap (h h' : Heap F) : ∀ (e e' : Elem F), e.NoCache → e'.NoCache → e.dictEq h e' = e.dictEq h' e'
  | .leaf _, .leaf _, _, _ => by simp [Elem.dictEq]
  | .leaf _, .group _ _ _, _, _ => by simp [Elem.dictEq]
  | .group _ _ _, .leaf _, _, _ => by simp [Elem.dictEq]
  | .group m c es, .group m' c' es', h1, h2 => by
    simp only [Elem.NoCache] at h1 h2
    obtain ⟨rfl, h1⟩ := h1; obtain ⟨rfl, h2⟩ := h2
    simp [Elem.dictEq, cacheEq, dictEqList_heap h h' es es' h1 h2]
theorem dictEqList_heap (h h' : Heap F) : ∀ (es es' : List (Elem F)), NoCacheList es → NoCacheList es' →
    dictEqList h es es' = dictEqList h' es es'
  | [], [], _, _ => by simp [dictEqList]
  | [], _ :: _, _, _ => by simp [dictEqList]
  | _ :: _, [], _, _ => by simp [dictEqList]
  | e :: es, e' :: es', h1, h2 => by
    simp only [NoCacheList] at h1 h2
    simp [dictEqList, Elem.dictEq_heap h h' e e' h1.1 h2.1, dictEqList_heap h h' es es' h1.2 h2.2]
end

/-- **C61.** As long as neither was used, comparing two groups does not depend on the rays that exist or on what was traced
elsewhere. -/
theorem C61_unused_partial {e e' : Elem F} (he : e.NoCache) (he' : e'.NoCache) (h h' : Heap F) :
    e.dictEq h e' = e.dictEq h' e' := e.dictEq_heap h h' e' he he'

/-- **C61** is violated even when the group was traced before: another group, equal to it, is different after tracing, if only
one of the rays traced differs by its height. -/
theorem C61_violated_traced {m : Mat F} {es : List (Elem F)} {a b : Nat} {t u : List Nat} (h : Heap F)
    (hne : (h.get a).eq (h.get b) = false) :
    (Elem.group m (some (a, t)) es).dictEq h (.group m (some (b, u)) es) = false := by
  simp [Elem.dictEq, cacheEq, hne]

end generic

section equal
variable {K : Type} [Field K] [LinearOrder K] [IsStrictOrderedRing K]

/-- Specification: the optical attributes of an element and, for a group, of all that it contains, in order; the depth tells the groups apart. -/
structure Sheet (K : Type) where
  depth : Nat
  abcd : Ext K × Ext K × Ext K × Ext K
  length : Ext K
  vertices : Option (Ext K) × Option (Ext K)
  indices : Ext K × Ext K
  aperture : Ext K × Ext K
  label : String
  flipped : Bool

/-- those of the element itself -/
def Mat.sheet (m : Mat (Ext K)) (d : Nat) : Sheet K :=
  ⟨d, (m.A, m.B, m.C, m.D), m.L, (m.frontVertex, m.backVertex), (m.frontIndex, m.backIndex), (m.apertureDiameter, m.apertureNA), m.label, m.isFlipped⟩

mutual
/-- all of them -/
def Elem.sheets (d : Nat) : Elem (Ext K) → List (Sheet K)
  | .leaf m => [m.sheet d]
  | .group m _ es => m.sheet d :: sheetsList (d + 1) es
/-- those of a list -/
def sheetsList (d : Nat) : List (Elem (Ext K)) → List (Sheet K)
  | [] => []
  | e :: es => e.sheets d ++ sheetsList d es
end

theorem optEq_eq {a b : Option (Ext K)} (h : optEq a b = true) : a = b := by
  cases a <;> cases b <;> simp_all [optEq]
  exact eq_of_eq h

theorem Mat.dictEq_sheet {m m' : Mat (Ext K)} (h : m.dictEq m' = true) (d : Nat) : m.sheet d = m'.sheet d := by
  simp only [Mat.dictEq, Bool.and_eq_true] at h
  obtain ⟨⟨⟨⟨⟨⟨⟨⟨⟨⟨⟨⟨⟨h1, h2⟩, h3⟩, h4⟩, h5⟩, h6⟩, h7⟩, h8⟩, h9⟩, h10⟩, h11⟩, h12⟩, h13⟩, -⟩ := h
  unfold Mat.sheet
  rw [eq_of_eq h1, eq_of_eq h2, eq_of_eq h3, eq_of_eq h4, eq_of_eq h5, optEq_eq h6, optEq_eq h7, eq_of_eq h8, eq_of_eq h9, eq_of_eq h10,
    eq_of_eq h11, beq_iff_eq.1 h12, beq_iff_eq.1 h13]

mutual
/-- **C61.** Two elements or groups that compare equal have the same matrix, length, vertices, indices, apertures, label and orientation, and so have all
the elements they contain, one by one. -/
theorem C61_equal (h : Heap (Ext K)) : ∀ {e e' : Elem (Ext K)}, e.dictEq h e' = true → ∀ d, e.sheets d = e'.sheets d
  | .leaf m, .leaf m', he, d => by
    simp only [Elem.dictEq] at he
    simp only [Elem.sheets, Mat.dictEq_sheet he]
  | .leaf _, .group _ _ _, he, _ => by simp [Elem.dictEq] at he
  | .group _ _ _, .leaf _, he, _ => by simp [Elem.dictEq] at he
  | .group m c es, .group m' c' es', he, d => by
    simp only [Elem.dictEq, Bool.and_eq_true] at he
    simp only [Elem.sheets, Mat.dictEq_sheet he.1.1, dictEqList_sheets h he.2 (d + 1)]
theorem dictEqList_sheets (h : Heap (Ext K)) : ∀ {es es' : List (Elem (Ext K))}, dictEqList h es es' = true → ∀ d, sheetsList d es = sheetsList d es'
  | [], [], _, _ => rfl
  | [], _ :: _, he, _ => by simp [dictEqList] at he
  | _ :: _, [], he, _ => by simp [dictEqList] at he
  | e :: es, e' :: es', he, d => by
    simp only [dictEqList, Bool.and_eq_true] at he
    simp only [sheetsList, C61_equal h he.1 d, dictEqList_sheets h he.2 d]
end

/-- no NaN among the attributes of the element -/
def Mat.NoNaN (m : Mat (Ext K)) : Prop :=
  (∀ x ∈ [m.A, m.B, m.C, m.D, m.L, m.frontIndex, m.backIndex, m.apertureDiameter, m.apertureNA], x ≠ nan) ∧
    m.frontVertex ≠ some nan ∧ m.backVertex ≠ some nan ∧
    match m.kind with
    | .lens f h => f ≠ nan ∧ h ≠ nan
    | .dielectric n1 n2 R => n1 ≠ nan ∧ n2 ≠ nan ∧ R ≠ nan
    | .thickLens n R1 R2 => n ≠ nan ∧ R1 ≠ nan ∧ R2 ≠ nan
    | .slab n R1 R2 => n ≠ nan ∧ R1 ≠ nan ∧ R2 ≠ nan
    | .axicon n a => n ≠ nan ∧ a ≠ nan
    | _ => True

mutual
/-- nor among those of its elements -/
def Elem.NoNaN : Elem (Ext K) → Prop
  | .leaf m => m.NoNaN
  | .group m _ es => m.NoNaN ∧ NoNaNList es
/-- in a list -/
def NoNaNList : List (Elem (Ext K)) → Prop
  | [] => True
  | e :: es => e.NoNaN ∧ NoNaNList es
end

theorem eq_self_of {x : Ext K} (h : x ≠ nan) : (x ==. x) = true := by cases x <;> simp_all

theorem optEq_self {x : Option (Ext K)} (h : x ≠ some nan) : optEq x x = true := by
  cases x with
  | none => rfl
  | some x => exact eq_self_of fun hx => h (by rw [hx])

theorem Mat.dictEq_self {m : Mat (Ext K)} (h : m.NoNaN) : m.dictEq m = true := by
  obtain ⟨h1, h2, h3, h4⟩ := h
  simp only [List.mem_cons, List.not_mem_nil, or_false, forall_eq_or_imp, forall_eq] at h1
  obtain ⟨a1, a2, a3, a4, a5, a6, a7, a8, a9⟩ := h1
  simp only [Mat.dictEq, eq_self_of a1, eq_self_of a2, eq_self_of a3, eq_self_of a4, eq_self_of a5, eq_self_of a6, eq_self_of a7, eq_self_of a8,
    eq_self_of a9, optEq_self h2, optEq_self h3, beq_self_eq_true, Bool.true_and]
  split at h4 <;> rename_i hk
  · simp [hk, Kind.dictEq, eq_self_of h4.1, eq_self_of h4.2]
  · simp [hk, Kind.dictEq, eq_self_of h4.1, eq_self_of h4.2.1, eq_self_of h4.2.2]
  · simp [hk, Kind.dictEq, eq_self_of h4.1, eq_self_of h4.2.1, eq_self_of h4.2.2]
  · simp [hk, Kind.dictEq, eq_self_of h4.1, eq_self_of h4.2.1, eq_self_of h4.2.2]
  · simp [hk, Kind.dictEq, eq_self_of h4.1, eq_self_of h4.2]
  · cases hm : m.kind <;> simp_all [Kind.dictEq, Kind.bare]

/-- Specification: the attributes that the class of an element adds to those of a matrix, with their names. -/
def Kind.own : Kind (Ext K) → List (String × Ext K)
  | .lens f h => [("f", f), ("display height", h)]
  | .dielectric n1 n2 R => [("n1", n1), ("n2", n2), ("R", R)]
  | .thickLens n R1 R2 => [("n", n), ("R1", R1), ("R2", R2)]
  | .slab n R1 R2 => [("n", n), ("R1", R1), ("R2", R2)]
  | .axicon n a => [("n", n), ("alpha", a)]
  | .group => [("elements", 0)]
  | .objective => [("elements", 0), ("NA", 0)]
  | _ => []

theorem Kind.dictEq_own {a b : Kind (Ext K)} (h : a.dictEq b = true) : a.own = b.own := by
  cases a <;> cases b <;> simp_all [Kind.dictEq, Kind.own, Kind.bare] <;>
    first
    | exact eq_of_eq h
    | exact ⟨eq_of_eq h.1, eq_of_eq h.2⟩
    | exact ⟨eq_of_eq h.1.1, eq_of_eq h.1.2, eq_of_eq h.2⟩

theorem Kind.own_dictEq {a b : Kind (Ext K)} (hn : ∀ p ∈ a.own, p.2 ≠ nan) (h : a.own = b.own) : a.dictEq b = true := by
  have e2 : ∀ {x y : Ext K}, x ≠ nan → x = y → (x ==. y) = true := fun hx hy => hy ▸ eq_self_of hx
  cases a <;> cases b <;> simp [Kind.own] at h hn <;> simp only [Kind.dictEq, Kind.bare, Bool.and_eq_true] <;>
    first
    | exact ⟨e2 hn.1 h.1, e2 hn.2 h.2⟩
    | exact ⟨⟨e2 hn.1 h.1, e2 hn.2.1 h.2.1⟩, e2 hn.2.2 h.2.2⟩

/-- **C61.** Two single elements without NaN compare equal exactly when all their attributes are equal: those of a matrix, and those that their
classes add. The class itself does not count. -/
theorem C61_attributes (h : Heap (Ext K)) {m m' : Mat (Ext K)} (hn : m.NoNaN) :
    (Elem.leaf m).dictEq h (.leaf m') = true ↔ m.sheet 0 = m'.sheet 0 ∧ m.kind.own = m'.kind.own := by
  constructor
  · intro he
    simp only [Elem.dictEq] at he
    refine ⟨Mat.dictEq_sheet he 0, ?_⟩
    simp only [Mat.dictEq, Bool.and_eq_true] at he
    exact Kind.dictEq_own he.2
  · rintro ⟨h1, h2⟩
    have hs := Mat.dictEq_self hn
    simp only [Elem.dictEq, Mat.dictEq, Bool.and_eq_true] at hs ⊢
    simp only [Mat.sheet, Sheet.mk.injEq, Prod.mk.injEq, true_and] at h1
    obtain ⟨⟨a1, a2, a3, a4⟩, a5, ⟨a6, a7⟩, ⟨a8, a9⟩, ⟨a10, a11⟩, a12, a13⟩ := h1
    rw [← a1, ← a2, ← a3, ← a4, ← a5, ← a6, ← a7, ← a8, ← a9, ← a10, ← a11, ← a12, ← a13]
    refine ⟨hs.1, Kind.own_dictEq ?_ h2⟩
    obtain ⟨-, -, -, hk⟩ := hn
    revert hk
    cases m.kind <;> intro hk <;> simp [Kind.own] <;> tauto

mutual
/-- **C61.** An element, or a group that was not used, without NaN compares equal to any copy of it. -/
theorem C61_self (h : Heap (Ext K)) : ∀ {e : Elem (Ext K)}, e.NoNaN → e.NoCache → e.dictEq h e = true
  | .leaf m, hn, _ => by simp only [Elem.NoNaN] at hn; simp [Elem.dictEq, Mat.dictEq_self hn]
  | .group m c es, hn, hc => by
    simp only [Elem.NoNaN] at hn
    simp only [Elem.NoCache] at hc
    obtain ⟨rfl, hc⟩ := hc
    simp [Elem.dictEq, Mat.dictEq_self hn.1, cacheEq, dictEqList_self h hn.2 hc]
theorem dictEqList_self (h : Heap (Ext K)) : ∀ {es : List (Elem (Ext K))}, NoNaNList es → NoCacheList es → dictEqList h es es = true
  | [], _, _ => rfl
  | e :: es, hn, hc => by
    simp only [NoNaNList] at hn
    simp only [NoCacheList] at hc
    simp [dictEqList, C61_self h hn.1 hc.1, dictEqList_self h hn.2 hc.2]
end

/-- two lenses that differ by their labels only are different, and a lens equals itself -/
example : (Mat.dictEq ({ (Mat.one : Mat (Ext ℚ)) with label := "a" }) ({ (Mat.one : Mat (Ext ℚ)) with label := "b" })) = false ∧
    (Mat.dictEq ({ (Mat.one : Mat (Ext ℚ)) with label := "a" }) ({ (Mat.one : Mat (Ext ℚ)) with label := "a" })) = true := by decide +kernel

end equal

/-! ## C62 -/

section exact
variable {K : Type} [Field K] [LinearOrder K] [IsStrictOrderedRing K]

/-- A label was displaced from `(x, y)` by some translations. -/
def Label.From (x y : K) (l : Label (Ext K)) : Prop := ∃ d : K, l = ⟨fin (x + d), fin y, fin d⟩

theorem Label.From.translate {x y : K} {l : Label (Ext K)} (h : l.From x y) (dx : K) : (l.translate (fin dx)).From x y := by
  obtain ⟨d, rfl⟩ := h
  exact ⟨d + dx, by simp [Label.translate]; ring⟩

theorem Label.From.reset {x y : K} {l : Label (Ext K)} (h : l.From x y) : l.resetPosition = Label.new (fin x) (fin y) := by
  obtain ⟨d, rfl⟩ := h
  simp [Label.resetPosition, Label.new]

theorem Label.from_new (x y : K) : (Label.new (fin x : Ext K) (fin y)).From x y := ⟨0, by simp [Label.new]⟩

theorem Label.From.inside {x y : K} {l : Label (Ext K)} (h : l.From x y) (xMin xMax x0 x1 dx : K) :
    (l.translateInside (fin xMin) (fin xMax) (fin x0) (fin x1) (fin dx)).From x y := by
  unfold Label.translateInside
  simp only [fin_add_fin, lt_fin, fin_sub_fin]
  split_ifs
  · exact (h.translate _).translate _
  · exact (h.translate _).translate _
  · exact h.translate _

/-- **C62.** After any sequence of translations, `resetPosition()` puts the label back exactly where it was made (in exact
arithmetic). -/
theorem C62_reset (x y : K) (dxs : List K) :
    ((dxs.foldl (fun l dx => l.translate (fin dx)) (Label.new (fin x : Ext K) (fin y)))).resetPosition =
      Label.new (fin x) (fin y) := by
  have : ∀ l : Label (Ext K), l.From x y → (dxs.foldl (fun l dx => l.translate (fin dx)) l).From x y := by
    induction dxs with
    | nil => exact fun l h => h
    | cons dx dxs ih => exact fun l h => ih _ (h.translate dx)
  exact (this _ (Label.from_new x y)).reset

/-- a box with ordinary sides -/
def Box.Finite (b : Box (Ext K)) : Prop := ∃ x0 x1 y0 y1 : K, b = ⟨fin x0, fin x1, fin y0, fin y1⟩

theorem half_fin (x : K) : half (fin x : Ext K) = fin (x / 2) := by
  simp [half]

theorem requiredSpacing_fin {a b : Box (Ext K)} (ha : a.Finite) (hb : b.Finite) : ∃ k : K, requiredSpacing a b = fin k := by
  obtain ⟨a0, a1, a2, a3, rfl⟩ := ha; obtain ⟨b0, b1, b2, b3, rfl⟩ := hb
  simp only [requiredSpacing, lt_fin, fin_sub_fin]
  split_ifs <;> exact ⟨_, rfl⟩

/-- labels made at the given positions -/
def LabelsFrom (ps : List (K × K)) (ls : List (Label (Ext K))) : Prop := List.Forall₂ (fun p l => Label.From p.1 p.2 l) ps ls

theorem LabelsFrom.modify {ps : List (K × K)} {ls : List (Label (Ext K))} (h : LabelsFrom ps ls)
    {f : Label (Ext K) → Label (Ext K)} (hf : ∀ (x y : K) l, Label.From x y l → Label.From x y (f l)) (i : Nat) :
    LabelsFrom ps (ls.modify i f) := by
  unfold LabelsFrom at h ⊢
  induction h generalizing i with
  | nil => simp
  | cons h1 h2 ih =>
    cases i with
    | zero => simpa using ⟨hf _ _ _ h1, h2⟩
    | succ i => simpa using ⟨h1, ih i⟩

theorem LabelsFrom.pair {ps : List (K × K)} {st : List (Label (Ext K)) × Bool} (h : LabelsFrom ps st.1) (xMin xMax : K)
    {boxes : List (Box (Ext K))} (hb : ∀ b ∈ boxes, b.Finite) (ab : Nat × Nat) :
    LabelsFrom ps (fixPair (fin xMin) (fin xMax) boxes st ab).1 := by
  unfold fixPair
  cases ha : boxes[ab.1]? with
  | none => exact h
  | some A =>
    cases hb' : boxes[ab.2]? with
    | none => exact h
    | some B =>
      have hA := hb A (List.mem_of_getElem? ha)
      have hB := hb B (List.mem_of_getElem? hb')
      simp only
      split_ifs
      · obtain ⟨k, hk⟩ := requiredSpacing_fin hA hB
        obtain ⟨a0, a1, a2, a3, rfl⟩ := hA; obtain ⟨b0, b1, b2, b3, rfl⟩ := hB
        rw [hk]
        refine LabelsFrom.modify (LabelsFrom.modify h ?_ _) ?_ _
        · intro x y l hl; rw [neg_fin, half_fin]; exact hl.inside _ _ _ _ _
        · intro x y l hl; rw [half_fin]; exact hl.inside _ _ _ _ _
      · exact h

/-- **C62.** However the labels overlap, wherever the boxes are drawn and for any number of iterations: after
`fixLabelOverlaps`, `resetPosition()` puts every label back exactly where it was made. -/
theorem C62_reset_overlaps (ps : List (K × K)) (xMin xMax : K) (render : Nat → Label (Ext K) → Box (Ext K))
    (hr : ∀ i l, (render i l).Finite) (maxIteration : Nat) :
    (fixLabelOverlaps (fin xMin) (fin xMax) render maxIteration
      (ps.map fun p => Label.new (fin p.1) (fin p.2))).map Label.resetPosition =
        ps.map fun p => Label.new (fin p.1) (fin p.2) := by
  have key : ∀ (k : Nat) (ls : List (Label (Ext K))), LabelsFrom ps ls →
      LabelsFrom ps (fixLoop (fin xMin) (fin xMax) render k ls) := by
    intro k
    induction k with
    | zero => exact fun ls h => h
    | succ k ih =>
      intro ls h
      have hboxes : ∀ b ∈ ls.mapIdx render, b.Finite := by
        intro b hb
        obtain ⟨i, hi, rfl⟩ := List.mem_mapIdx.1 hb
        exact hr _ _
      have hst : ∀ (q : List (Nat × Nat)) (st : List (Label (Ext K)) × Bool), LabelsFrom ps st.1 →
          LabelsFrom ps (q.foldl (fixPair (fin xMin) (fin xMax) (ls.mapIdx render)) st).1 := by
        intro q
        induction q with
        | nil => exact fun st h => h
        | cons ab q ihq => exact fun st h => ihq _ (h.pair xMin xMax hboxes ab)
      simp only [fixLoop]
      split_ifs
      · exact hst _ _ h
      · exact ih _ (hst _ _ h)
  have h0 : LabelsFrom ps (ps.map fun p => Label.new (fin p.1 : Ext K) (fin p.2)) := by
    unfold LabelsFrom
    rw [List.forall₂_map_right_iff]
    exact List.forall₂_same.2 fun p _ => Label.from_new _ _
  have hreset : ∀ ls, LabelsFrom ps ls → ls.map Label.resetPosition = ps.map fun p => Label.new (fin p.1 : Ext K) (fin p.2) := by
    intro ls h
    clear key h0
    unfold LabelsFrom at h
    induction h with
    | nil => rfl
    | cons h1 _ ih => simp only [List.map_cons, h1.reset, ih]
  apply hreset
  unfold fixLabelOverlaps
  split_ifs
  · exact h0
  · exact key _ _ h0

/-- **C62.** A label displaced once, with its own box `[x + a, x + b]`, is drawn inside the display if it fits. -/
theorem C62_inside {xMin xMax x y o a b dx : K} (hfit : b - a ≤ xMax - xMin) :
    ∃ x' : K, (Label.translateInside (fin xMin : Ext K) (fin xMax) ⟨fin x, fin y, fin o⟩ (fin (x + a)) (fin (x + b)) (fin dx)).x =
      fin x' ∧ xMin ≤ x' + a ∧ x' + b ≤ xMax ∧ (xMin ≤ x + a + dx → x + b + dx ≤ xMax → x' = x + dx) := by
  unfold Label.translateInside
  simp only [fin_add_fin, lt_fin, fin_sub_fin, decide_eq_true_eq]
  split_ifs with h1 h2
  · refine ⟨_, rfl, ?_, ?_, ?_⟩
    · linarith
    · linarith
    · intro h; linarith
  · refine ⟨_, rfl, ?_, ?_, ?_⟩
    · linarith
    · linarith
    · intro _ h; linarith
  · exact ⟨_, rfl, by linarith [not_lt.1 h1], by linarith [not_lt.1 h2], fun _ _ => rfl⟩

end exact

/-- **C62** the second part is violated in `fixLabelOverlaps`: the boxes are computed once per iteration, so a label that
overlaps two others is moved twice with the box it had at first. Here a label of width 2 in a display of width 10 ends outside of
the display (left side at -1/4). -/
theorem C62_inside_violated :
    let render : Nat → Label (Ext ℚ) → Box (Ext ℚ) := fun _ l => ⟨l.x - 1, l.x + 1, 0, 1⟩
    ((fixLabelOverlaps (fin 0 : Ext ℚ) (fin 10) render 1
      [Label.new (fin (5/4)) 0, Label.new (fin (3/2)) 0, Label.new (fin 2) 0]).map fun l => (render 0 l).x0 <. 0) =
        [true, false, false] := by decide +kernel

example : fixLabelOverlaps (fin 0 : Ext ℚ) (fin 10) (fun _ l => ⟨l.x - 1, l.x + 1, 0, 1⟩) 5 [Label.new (fin 4) 0, Label.new (fin 5) 0] =
    [⟨fin (7/2), fin 0, fin (-1/2)⟩, ⟨fin (11/2), fin 0, fin (1/2)⟩] := by decide +kernel

/-- **C62.** Labels whose boxes do not overlap are left where they are. -/
theorem C62_still {F : Type} [PyNum F] (xMin xMax : F) (render : Nat → Label F → Box F) (k : Nat) (ls : List (Label F))
    (h : ∀ a b : Nat, a < b → ∀ la lb, ls[a]? = some la → ls[b]? = some lb → (render a la).overlaps (render b lb) = false) :
    fixLabelOverlaps xMin xMax render k ls = ls := by
  have key : ∀ (q : List (Nat × Nat)), (∀ ab ∈ q, ab.1 < ab.2) → ∀ st : List (Label F) × Bool,
      q.foldl (fixPair xMin xMax (ls.mapIdx render)) st = st := by
    intro q
    induction q with
    | nil => exact fun _ st => rfl
    | cons ab q ih =>
      intro hq st
      have h1 : fixPair xMin xMax (ls.mapIdx render) st ab = st := by
        unfold fixPair
        rw [List.getElem?_mapIdx, List.getElem?_mapIdx]
        cases ha : ls[ab.1]? with
        | none => rfl
        | some la =>
          cases hb : ls[ab.2]? with
          | none => rfl
          | some lb =>
            simp only [Option.map_some]
            rw [h ab.1 ab.2 (hq ab (by simp)) la lb ha hb]
            rfl
      rw [List.foldl_cons, h1]
      exact ih (fun ab hab => hq ab (by simp [hab])) st
  have hp : ∀ ab ∈ pairs ls.length, ab.1 < ab.2 := by
    intro ab hab
    unfold pairs at hab
    simp only [List.mem_flatMap, List.mem_filterMap, List.mem_range] at hab
    obtain ⟨a, -, b, -, hab⟩ := hab
    split_ifs at hab with hlt
    cases hab; exact hlt
  unfold fixLabelOverlaps
  split_ifs
  · rfl
  · cases k with
    | zero => rfl
    | succ k => simp only [fixLoop, key _ hp, if_true]

section two
variable {K : Type} [Field K] [LinearOrder K] [IsStrictOrderedRing K]

/-- Boxes that follow their labels: from `a i` left of the label number `i` to `b i` right of it, and from `c i` to `d i`. -/
structure Follows (render : Nat → Label (Ext K) → Box (Ext K)) (a b c d : Nat → K) : Prop where
  box : ∀ i (x y o : K), render i ⟨fin x, fin y, fin o⟩ = ⟨fin (x + a i), fin (x + b i), fin (c i), fin (d i)⟩
  width : ∀ i, a i ≤ b i

/-- the two labels overlap -/
def Over (a b c d : Nat → K) (x x' : K) : Prop := x + a 0 ≤ x' + b 1 ∧ x' + a 1 ≤ x + b 0 ∧ c 0 ≤ d 1 ∧ c 1 ≤ d 0

/-- how far they are to be moved from each other -/
def spacing (a b : Nat → K) (x x' : K) : K := if x + b 0 < x' + b 1 then x + b 0 - (x' + a 1) else x + a 0 - (x' + b 1)

theorem pairs_two : pairs 2 = [(0, 1)] := by decide

/-- one iteration, for two labels -/
theorem fixLoop_two {render : Nat → Label (Ext K) → Box (Ext K)} {a b c d : Nat → K} (hf : Follows render a b c d) (xMin xMax : K) (k : Nat)
    (x y o x' y' o' : K) :
    fixLoop (fin xMin) (fin xMax) render (k + 1) [⟨fin x, fin y, fin o⟩, ⟨fin x', fin y', fin o'⟩] =
      (open Classical in if Over a b c d x x' then
        fixLoop (fin xMin) (fin xMax) render k
          [Label.translateInside (fin xMin) (fin xMax) ⟨fin x, fin y, fin o⟩ (fin (x + a 0)) (fin (x + b 0)) (fin (-spacing a b x x' / 2)),
           Label.translateInside (fin xMin) (fin xMax) ⟨fin x', fin y', fin o'⟩ (fin (x' + a 1)) (fin (x' + b 1)) (fin (spacing a b x x' / 2))]
      else [⟨fin x, fin y, fin o⟩, ⟨fin x', fin y', fin o'⟩]) := by
  have hsp : requiredSpacing (⟨fin (x + a 0), fin (x + b 0), fin (c 0), fin (d 0)⟩ : Box (Ext K)) ⟨fin (x' + a 1), fin (x' + b 1), fin (c 1), fin (d 1)⟩ =
      fin (spacing a b x x') := by
    unfold requiredSpacing spacing
    simp only [lt_fin, decide_eq_true_eq, fin_sub_fin]
    split_ifs <;> rfl
  have hov : (Box.overlaps (⟨fin (x + a 0), fin (x + b 0), fin (c 0), fin (d 0)⟩ : Box (Ext K)) ⟨fin (x' + a 1), fin (x' + b 1), fin (c 1), fin (d 1)⟩) = true ↔
      Over a b c d x x' := by
    simp only [Box.overlaps, le_fin, Bool.and_eq_true, decide_eq_true_eq, Over, and_assoc]
  simp only [fixLoop, List.length_cons, List.length_nil, Nat.zero_add, Nat.reduceAdd, pairs_two, List.foldl_cons, List.foldl_nil, List.mapIdx_cons, List.mapIdx_nil, hf.box,
    fixPair, List.getElem?_cons_zero, List.getElem?_cons_succ, hsp]
  by_cases ho : Over a b c d x x'
  · rw [if_pos (hov.2 ho), if_pos ho]
    simp [List.modify_cons, half_fin, neg_fin]
  · rw [if_neg (fun h => ho (hov.1 h)), if_neg ho]
    simp

/-- **C62.** Two labels that overlap, with room around them in the display, are moved apart: their boxes then touch each other, whatever the number
of iterations, and they moved by the same distance. -/
theorem C62_apart {render : Nat → Label (Ext K) → Box (Ext K)} {a b c d : Nat → K} (hf : Follows render a b c d) {xMin xMax : K} (k : Nat)
    (x y x' y' : K) (ho : Over a b c d x x')
    (hroom : ∀ s : K, |s| ≤ |spacing a b x x'| / 2 → xMin ≤ x + s + a 0 ∧ x + s + b 0 ≤ xMax ∧ xMin ≤ x' + s + a 1 ∧ x' + s + b 1 ≤ xMax) :
    ∃ s : K, fixLabelOverlaps (fin xMin) (fin xMax) render (k + 1) [Label.new (fin x) (fin y), Label.new (fin x') (fin y')] =
      [⟨fin (x - s), fin y, fin (-s)⟩, ⟨fin (x' + s), fin y', fin s⟩] ∧ (x - s + b 0 = x' + s + a 1 ∨ x' + s + b 1 = x - s + a 0) := by
  have wa := hf.width 0
  have wb := hf.width 1
  set s := spacing a b x x' / 2 with hs
  have hsabs : |s| = |spacing a b x x'| / 2 := by rw [hs, abs_div, abs_two]
  have r1 := hroom s hsabs.le
  have r2 := hroom (-s) (by rw [abs_neg]; exact hsabs.le)
  have htouch : (x - s + b 0 = x' + s + a 1 ∧ x - s + b 0 < x' + s + b 1) ∨ (x' + s + b 1 = x - s + a 0) := by
    have h2 := ho.2.1
    rw [hs]; unfold spacing
    split_ifs
    · left; constructor <;> linarith
    · right; linarith
  refine ⟨s, ?_, htouch.imp And.left id⟩
  have inside : ∀ (k : Nat) (x x' o o' : K), Over a b c d x x' → spacing a b x x' = 0 → xMin ≤ x + a 0 → x + b 0 ≤ xMax → xMin ≤ x' + a 1 → x' + b 1 ≤ xMax →
      fixLoop (fin xMin) (fin xMax) render k [⟨fin x, fin y, fin o⟩, ⟨fin x', fin y', fin o'⟩] = [⟨fin x, fin y, fin o⟩, ⟨fin x', fin y', fin o'⟩] := by
    intro k
    induction k with
    | zero => intros; rfl
    | succ k ih =>
      intro x x' o o' ho h0 q1 q2 q3 q4
      rw [fixLoop_two hf, if_pos ho, h0]
      have t1 : Label.translateInside (fin xMin : Ext K) (fin xMax) ⟨fin x, fin y, fin o⟩ (fin (x + a 0)) (fin (x + b 0)) (fin (-0 / 2)) = ⟨fin x, fin y, fin o⟩ := by
        unfold Label.translateInside
        simp [Label.translate, not_lt.2 q1, not_lt.2 q2]
      have t2 : Label.translateInside (fin xMin : Ext K) (fin xMax) ⟨fin x', fin y', fin o'⟩ (fin (x' + a 1)) (fin (x' + b 1)) (fin (0 / 2)) = ⟨fin x', fin y', fin o'⟩ := by
        unfold Label.translateInside
        simp [Label.translate, not_lt.2 q3, not_lt.2 q4]
      rw [t1, t2]
      exact ih x x' o o' ho h0 q1 q2 q3 q4
  unfold fixLabelOverlaps
  rw [if_neg (by simp)]
  have e0 : (Label.new (fin x) (fin y) : Label (Ext K)) = ⟨fin x, fin y, fin 0⟩ := by simp [Label.new]
  have e1 : (Label.new (fin x') (fin y') : Label (Ext K)) = ⟨fin x', fin y', fin 0⟩ := by simp [Label.new]
  rw [e0, e1, fixLoop_two hf, if_pos ho]
  have hneg : -spacing a b x x' / 2 = -s := by rw [hs]; ring
  rw [hneg, ← hs]
  have t1 : Label.translateInside (fin xMin : Ext K) (fin xMax) ⟨fin x, fin y, fin 0⟩ (fin (x + a 0)) (fin (x + b 0)) (fin (-s)) = ⟨fin (x - s), fin y, fin (-s)⟩ := by
    unfold Label.translateInside
    have h1 : ¬ (x + a 0 + -s < xMin) := by linarith [r2.1]
    have h2 : ¬ (xMax < x + b 0 + -s) := by linarith [r2.2.1]
    simp [Label.translate, h1, h2, sub_eq_add_neg]
  have t2 : Label.translateInside (fin xMin : Ext K) (fin xMax) ⟨fin x', fin y', fin 0⟩ (fin (x' + a 1)) (fin (x' + b 1)) (fin s) = ⟨fin (x' + s), fin y', fin s⟩ := by
    unfold Label.translateInside
    have h1 : ¬ (x' + a 1 + s < xMin) := by linarith [r1.2.2.1]
    have h2 : ¬ (xMax < x' + b 1 + s) := by linarith [r1.2.2.2]
    simp [Label.translate, h1, h2]
  rw [t1, t2]
  apply inside
  · obtain ⟨-, -, o3, o4⟩ := ho
    rcases htouch with ⟨h1, h2⟩ | h1
    · exact ⟨by linarith, by linarith, o3, o4⟩
    · exact ⟨by linarith, by linarith, o3, o4⟩
  · unfold spacing
    rcases htouch with ⟨h1, h2⟩ | h1
    · rw [if_pos h2]; linarith
    · rw [if_neg (by linarith)]; linarith
  · linarith [r2.1]
  · linarith [r2.2.1]
  · linarith [r1.2.2.1]
  · linarith [r1.2.2.2]

end two

/-- two labels of width 2 at 4 and 5 in a display from 0 to 10 meet these hypotheses -/
example : Over (fun _ => (-1 : ℚ)) (fun _ => 1) (fun _ => 0) (fun _ => 1) 4 5 ∧ spacing (fun _ => (-1 : ℚ)) (fun _ => 1) 4 5 = 1 ∧
    Follows (fun _ l => ⟨l.x - 1, l.x + 1, 0, 1⟩ : Nat → Label (Ext ℚ) → Box (Ext ℚ)) (fun _ => -1) (fun _ => 1) (fun _ => 0) (fun _ => 1) := by
  refine ⟨?_, ?_, ⟨fun i x y o => ?_, fun _ => by norm_num⟩⟩
  · norm_num [Over]
  · norm_num [spacing]
  · simp [sub_eq_add_neg]

/-- **C62**: next to the edge of the display the labels are never apart: two labels of width 2, the left one at the edge, the other one overlapping it by
1, still overlap by `1 / 2 ^ k` after `k` iterations. -/
theorem C62_apart_violated (k : Nat) :
    fixLabelOverlaps (fin 0 : Ext ℚ) (fin 10) (fun _ l => ⟨l.x - 1, l.x + 1, 0, 1⟩) k [Label.new (fin 1) 0, Label.new (fin 2) 0] =
      [⟨fin 1, fin 0, fin 0⟩, ⟨fin (3 - 1 / 2 ^ k), fin 0, fin (1 - 1 / 2 ^ k)⟩] := by
  have hf : Follows (fun _ l => ⟨l.x - 1, l.x + 1, 0, 1⟩ : Nat → Label (Ext ℚ) → Box (Ext ℚ)) (fun _ => -1) (fun _ => 1) (fun _ => 0) (fun _ => 1) :=
    ⟨fun i x y o => by simp [sub_eq_add_neg], fun _ => by norm_num⟩
  have key : ∀ (k : Nat) (s : ℚ), 0 < s → s ≤ 1 → fixLoop (fin 0 : Ext ℚ) (fin 10) (fun _ l => ⟨l.x - 1, l.x + 1, 0, 1⟩) k
      [⟨fin 1, fin 0, fin 0⟩, ⟨fin (3 - s), fin 0, fin (1 - s)⟩] = [⟨fin 1, fin 0, fin 0⟩, ⟨fin (3 - s / 2 ^ k), fin 0, fin (1 - s / 2 ^ k)⟩] := by
    intro k
    induction k with
    | zero => intro s _ _; simp [fixLoop]
    | succ k ih =>
      intro s h0 h1
      have hs : spacing (fun _ => (-1 : ℚ)) (fun _ => 1) 1 (3 - s) = s := by unfold spacing; rw [if_pos (by linarith)]; ring
      rw [fixLoop_two hf, if_pos ⟨by linarith, by linarith, by norm_num, by norm_num⟩, hs]
      have t1 : Label.translateInside (fin 0 : Ext ℚ) (fin 10) ⟨fin 1, fin 0, fin 0⟩ (fin (1 + -1)) (fin (1 + 1)) (fin (-s / 2)) = ⟨fin 1, fin 0, fin 0⟩ := by
        unfold Label.translateInside
        have h2 : 1 + -1 + -s / 2 < 0 := by linarith
        simp only [Label.translate, fin_add_fin, lt_fin, h2, decide_true, if_true, fin_sub_fin]
        norm_num
      have t2 : Label.translateInside (fin 0 : Ext ℚ) (fin 10) ⟨fin (3 - s), fin 0, fin (1 - s)⟩ (fin (3 - s + -1)) (fin (3 - s + 1)) (fin (s / 2)) =
          ⟨fin (3 - s / 2), fin 0, fin (1 - s / 2)⟩ := by
        unfold Label.translateInside
        have h2 : ¬ (3 - s + -1 + s / 2 < 0) := by linarith
        have h3 : ¬ ((10 : ℚ) < 3 - s + 1 + s / 2) := by linarith
        simp only [Label.translate, fin_add_fin, lt_fin, h2, h3, decide_false, Bool.false_eq_true, if_false]
        congr 2 <;> ring
      rw [t1, t2, ih (s / 2) (by linarith) (by linarith)]
      have : s / 2 / 2 ^ k = s / 2 ^ (k + 1) := by rw [pow_succ]; field_simp
      rw [this]
  have h := key k 1 one_pos le_rfl
  unfold fixLabelOverlaps
  rw [if_neg (by simp)]
  have e : ([Label.new (fin 1) 0, Label.new (fin 2) 0] : List (Label (Ext ℚ))) = [⟨fin 1, fin 0, fin 0⟩, ⟨fin (3 - 1), fin 0, fin (1 - 1)⟩] := by
    decide +kernel
  rw [e]
  exact h

/-- **C62**: three labels in a row are never apart, even with room around them: each of the outer ones overlaps the one in the middle by 1/2, and still
overlaps it by `1/2 / 2 ^ k` after `k` iterations, because the one in the middle is pushed from both sides. -/
theorem C62_three_violated (k : Nat) :
    fixLabelOverlaps (fin (-10) : Ext ℚ) (fin 10) (fun _ l => ⟨l.x - 1, l.x + 1, 0, 1⟩) k
      [Label.new (fin (-(3 / 2))) 0, Label.new (fin 0) 0, Label.new (fin (3 / 2)) 0] =
      [⟨fin (-(2 - 1 / 2 / 2 ^ k)), fin 0, fin (-(1 / 2 - 1 / 2 / 2 ^ k))⟩, ⟨fin 0, fin 0, fin 0⟩,
       ⟨fin (2 - 1 / 2 / 2 ^ k), fin 0, fin (1 / 2 - 1 / 2 / 2 ^ k)⟩] := by
  have hp : pairs 3 = [(0, 1), (0, 2), (1, 2)] := by decide
  have key : ∀ (k : Nat) (s : ℚ), 0 < s → s < 1 → fixLoop (fin (-10) : Ext ℚ) (fin 10) (fun _ l => ⟨l.x - 1, l.x + 1, 0, 1⟩) k
      [⟨fin (-(2 - s)), fin 0, fin (-(1 / 2 - s))⟩, ⟨fin 0, fin 0, fin 0⟩, ⟨fin (2 - s), fin 0, fin (1 / 2 - s)⟩] =
      [⟨fin (-(2 - s / 2 ^ k)), fin 0, fin (-(1 / 2 - s / 2 ^ k))⟩, ⟨fin 0, fin 0, fin 0⟩, ⟨fin (2 - s / 2 ^ k), fin 0, fin (1 / 2 - s / 2 ^ k)⟩] := by
    intro k
    induction k with
    | zero => intro s _ _; simp [fixLoop]
    | succ k ih =>
      intro s h0 h1
      have key := ih (s / 2) (by linarith) (by linarith)
      have e2 : s / 2 / 2 ^ k = s / 2 ^ (k + 1) := by rw [pow_succ]; field_simp
      rw [e2] at key
      rw [← key]
      have o1 : Box.overlaps (⟨fin (-(2 - s) - 1), fin (-(2 - s) + 1), fin 0, fin 1⟩ : Box (Ext ℚ)) ⟨fin (0 - 1), fin (0 + 1), fin 0, fin 1⟩ = true := by
        simp only [Box.overlaps, le_fin, Bool.and_eq_true, decide_eq_true_eq]
        refine ⟨⟨⟨?_, ?_⟩, ?_⟩, ?_⟩ <;> linarith
      have o2 : Box.overlaps (⟨fin (-(2 - s) - 1), fin (-(2 - s) + 1), fin 0, fin 1⟩ : Box (Ext ℚ)) ⟨fin (2 - s - 1), fin (2 - s + 1), fin 0, fin 1⟩ = false := by
        rw [← Bool.not_eq_true]
        simp only [Box.overlaps, le_fin, Bool.and_eq_true, decide_eq_true_eq]
        rintro ⟨⟨⟨_, h⟩, _⟩, _⟩
        linarith
      have o3 : Box.overlaps (⟨fin (0 - 1), fin (0 + 1), fin 0, fin 1⟩ : Box (Ext ℚ)) ⟨fin (2 - s - 1), fin (2 - s + 1), fin 0, fin 1⟩ = true := by
        simp only [Box.overlaps, le_fin, Bool.and_eq_true, decide_eq_true_eq]
        refine ⟨⟨⟨?_, ?_⟩, ?_⟩, ?_⟩ <;> linarith
      have s1 : requiredSpacing (⟨fin (-(2 - s) - 1), fin (-(2 - s) + 1), fin 0, fin 1⟩ : Box (Ext ℚ)) ⟨fin (0 - 1), fin (0 + 1), fin 0, fin 1⟩ = fin s := by
        unfold requiredSpacing
        simp only [lt_fin, fin_sub_fin]
        rw [if_pos (by simp only [decide_eq_true_eq]; linarith)]
        congr 1; ring
      have s3 : requiredSpacing (⟨fin (0 - 1), fin (0 + 1), fin 0, fin 1⟩ : Box (Ext ℚ)) ⟨fin (2 - s - 1), fin (2 - s + 1), fin 0, fin 1⟩ = fin s := by
        unfold requiredSpacing
        simp only [lt_fin, fin_sub_fin]
        rw [if_pos (by simp only [decide_eq_true_eq]; linarith)]
        congr 1; ring
      have tr : ∀ x o a b dx : ℚ, -10 ≤ a + dx → b + dx ≤ 10 →
          Label.translateInside (fin (-10) : Ext ℚ) (fin 10) ⟨fin x, fin 0, fin o⟩ (fin a) (fin b) (fin dx) = ⟨fin (x + dx), fin 0, fin (o + dx)⟩ := by
        intro x o a b dx h2 h3
        unfold Label.translateInside
        simp only [Label.translate, fin_add_fin, lt_fin, not_lt.2 h2, not_lt.2 h3, decide_false, Bool.false_eq_true, if_false]
      have z : (0 : Ext ℚ) = fin 0 := rfl
      have u : (1 : Ext ℚ) = fin 1 := rfl
      conv_lhs => unfold fixLoop
      simp only [List.length_cons, List.length_nil, Nat.zero_add, Nat.reduceAdd, hp, List.foldl_cons, List.foldl_nil, List.mapIdx_cons,
        List.mapIdx_nil, fixPair, List.getElem?_cons_zero, List.getElem?_cons_succ, z, u, fin_add_fin, fin_sub_fin, o1, o2, o3, if_true, s1, s3,
        Bool.false_eq_true, if_false, List.modify_cons, half_fin, neg_fin]
      simp only [OfNat.ofNat_ne_zero, one_ne_zero, if_false, if_true, Nat.add_one_sub_one, List.modify_cons, Nat.sub_self]
      rw [tr _ _ _ _ _ (by linarith) (by linarith), tr _ _ _ _ (s / 2) (by linarith) (by linarith), tr _ _ _ _ _ (by linarith) (by linarith),
        tr _ _ _ _ _ (by linarith) (by linarith)]
      congr 4 <;> ring_nf
  have h := key k (1 / 2) (by norm_num) (by norm_num)
  unfold fixLabelOverlaps
  rw [if_neg (by simp), ← h]
  congr 1
  decide +kernel

/-! ## C65 -/

section tolerant
variable {K : Type} [Field K] [LinearOrder K] [IsStrictOrderedRing K]

/-- **C65.** `isAlmostZero` and `isNotZero` are never both true. -/
theorem C65_exclusive (x e : Ext K) : (isAlmostZero x e && isNotZero x e) = false := by
  cases x <;> cases e <;> simp [isAlmostZero, isNotZero]
  intro h; exact h.le

/-- **C65.** They are opposite of each other except for a number exactly at the tolerance (and for NaN): there both are false. -/
theorem C65_opposite_iff (x e : K) : isNotZero (fin x) (fin e) = !isAlmostZero (fin x) (fin e) ↔ |x| ≠ e := by
  simp only [isNotZero, isAlmostZero, abs_fin, lt_fin]
  rcases lt_trichotomy |x| e with h | h | h
  · simp [h, h.not_gt, h.ne]
  · simp [h]
  · simp [h, h.not_gt, h.ne']

/-- **C65** is violated at the tolerance, whatever it is. -/
theorem C65_opposite_violated (e : K) (he : 0 ≤ e) :
    isAlmostZero (fin e) (fin e) = false ∧ isNotZero (fin e) (fin e) = false := by
  simp [isAlmostZero, isNotZero, abs_of_nonneg he]

theorem abs_sub_comm_ext (x y : Ext K) : PyNum.abs (x - y) = PyNum.abs (y - x) := by
  cases x <;> cases y <;> first | rfl | (simp [abs_sub_comm])

/-- **C65.** `areAbsolutelyAlmostEqual` is symmetric, for all values. -/
theorem C65_absolute_symm (x y e : Ext K) : areAbsolutelyAlmostEqual x y e = areAbsolutelyAlmostEqual y x e := by
  unfold areAbsolutelyAlmostEqual
  rw [abs_sub_comm_ext]

/-- **C65.** It means that the difference is smaller than the tolerance. -/
theorem C65_absolute_iff (x y e : K) : areAbsolutelyAlmostEqual (fin x) (fin y) (fin e) = true ↔ |x - y| < e := by
  simp [areAbsolutelyAlmostEqual]

/-- **C65.** It is reflexive exactly for finite numbers and a positive tolerance; an infinite distance is not almost equal to
itself. -/
theorem C65_absolute_refl_iff (x e : Ext K) : areAbsolutelyAlmostEqual x x e = true ↔ x.IsFin ∧ (0 <. e) = true := by
  cases x with
  | fin x => simp [areAbsolutelyAlmostEqual]
  | pinf =>
    have : ((pinf : Ext K) - pinf) = nan := rfl
    simp [areAbsolutelyAlmostEqual, this]
  | ninf =>
    have : ((ninf : Ext K) - ninf) = nan := rfl
    simp [areAbsolutelyAlmostEqual, this]
  | nan =>
    have : ((nan : Ext K) - nan) = nan := rfl
    simp [areAbsolutelyAlmostEqual, this]

/-- **C65.** `areRelativelyAlmostEqual` of numbers other than zero: the difference is smaller than the tolerance relatively to the
largest of the two. -/
theorem C65_relative_iff {x y : K} (e : K) (hx : x ≠ 0) (hy : y ≠ 0) :
    areRelativelyAlmostEqual (fin x) (fin y) (fin e) = .ok (decide (|x - y| < e * max |x| |y|)) ∨
      (e < 0 ∧ areRelativelyAlmostEqual (fin x) (fin y) (fin e) = .ok false) := by
  have hx' : 0 < |x| := abs_pos.2 hx
  have hy' : 0 < |y| := abs_pos.2 hy
  have h0 : areRelativelyAlmostEqual (fin x) (fin y) (fin e) =
      .ok (decide (|x - y| < e * |x|) || decide (|x - y| < e * |y|)) := by
    unfold areRelativelyAlmostEqual
    simp only [fin_sub_fin, abs_fin, pyDiv_fin _ _ hx'.ne', pyDiv_fin _ _ hy'.ne', bind, Except.bind, lt_fin,
      div_lt_iff₀ hx', div_lt_iff₀ hy', pure, Except.pure]
  by_cases he : 0 ≤ e
  · left
    rw [h0, ← Bool.decide_or]
    congr 2
    rcases le_total |x| |y| with h | h
    · rw [max_eq_right h]
      have := mul_le_mul_of_nonneg_left h he
      exact propext ⟨fun hh => hh.elim (fun q => q.trans_le this) id, Or.inr⟩
    · rw [max_eq_left h]
      have := mul_le_mul_of_nonneg_left h he
      exact propext ⟨fun hh => hh.elim id fun q => q.trans_le this, Or.inl⟩
  · right
    have he := not_le.1 he
    refine ⟨he, ?_⟩
    rw [h0]
    have h1 : ¬ |x - y| < e * |x| := by
      have := mul_neg_of_neg_of_pos he hx'
      intro h; linarith [abs_nonneg (x - y)]
    have h2 : ¬ |x - y| < e * |y| := by
      have := mul_neg_of_neg_of_pos he hy'
      intro h; linarith [abs_nonneg (x - y)]
    simp [h1, h2]

/-- **C65.** It is symmetric whenever it answers, for all values, and raises for `(x, y)` exactly when it raises for `(y, x)`. -/
theorem C65_relative_symm (x y e : Ext K) : areRelativelyAlmostEqual x y e = areRelativelyAlmostEqual y x e := by
  unfold areRelativelyAlmostEqual
  rw [abs_sub_comm_ext y x]
  set d := PyNum.abs (x - y)
  by_cases h1 : (PyNum.abs x ==. fin 0) = true <;> by_cases h2 : (PyNum.abs y ==. fin 0) = true <;>
    simp [pyDiv, h1, h2, bind, Except.bind, pure, Except.pure, Bool.or_comm]

/-- **C65.** It is reflexive for every number other than zero and a positive tolerance. -/
theorem C65_relative_refl {x : K} (hx : x ≠ 0) {e : K} (he : 0 < e) :
    areRelativelyAlmostEqual (fin x) (fin x) (fin e) = .ok true := by
  rcases C65_relative_iff e hx hx with h | h
  · rw [h]; simp [he, hx]
  · linarith [h.1]

/-- **C65** is violated at zero: the comparison raises, even of zero with itself. -/
theorem C65_relative_violated (x e : Ext K) :
    areRelativelyAlmostEqual (fin 0) x e = .error .zeroDivisionError ∧
    areRelativelyAlmostEqual x (fin 0) e = .error .zeroDivisionError := by
  constructor
  · simp [areRelativelyAlmostEqual, pyDiv_zero, bind, Except.bind]
  · rw [C65_relative_symm]; simp [areRelativelyAlmostEqual, pyDiv_zero, bind, Except.bind]

end tolerant

end RT
