import Verif.Lemmas.FlipVertex
import Verif.Lemmas.Stage
import Verif.Spec.FlipShift

/-! # Vertices of flipped trees, in general -/

set_option linter.unusedSectionVars false

namespace RT
open PyNum Ext
variable {K : Type} [Field K] [LinearOrder K] [IsStrictOrderedRing K]

/-- length and vertices, exchanged as the code does -/
def Vtx.swap (v : Vtx K) : Vtx K := (v.1, v.2.2, v.2.1)

/-- length and vertices of a chain -/
def Vtx.sum (vs : List (Vtx K)) : Vtx K := ((vs.map (·.1)).sum, firstVertex 0 vs, lastVertex 0 vs)

/-- the single elements have these lengths and vertices -/
def ItemVtxs (is : List (Item (Ext K))) (vs : List (Vtx K)) : Prop := List.Forall₂ DenV (leaves is) vs

theorem ItemVtxs.append {is js : List (Item (Ext K))} {ss ts : List (Vtx K)} (h1 : ItemVtxs is ss)
    (h2 : ItemVtxs js ts) : ItemVtxs (is ++ js) (ss ++ ts) := by
  unfold ItemVtxs; rw [leaves_append]; exact List.rel_append h1 h2

theorem ItemVtxs.split {is js : List (Item (Ext K))} {ss : List (Vtx K)} (h : ItemVtxs (is ++ js) ss) :
    ∃ s1 s2, ss = s1 ++ s2 ∧ ItemVtxs is s1 ∧ ItemVtxs js s2 := by
  unfold ItemVtxs at h
  rw [leaves_append] at h
  refine ⟨ss.take (leaves is).length, ss.drop (leaves is).length, by simp, ?_, ?_⟩
  · exact (List.forall₂_take_append _ _ _ h.flip).flip
  · exact (List.forall₂_drop_append _ _ _ h.flip).flip

theorem itemVtxs_forget {e : Elem (Ext K)} {ss : List (Vtx K)} : ItemVtxs e.forget.items ss ↔ ItemVtxs e.items ss := by
  unfold Elem.forget
  split_ifs
  · cases e with
    | group m c es => simp [Elem.setIndices, Elem.items, ItemVtxs, leaves]
    | leaf m =>
      have key : ∀ st, DenV { m with frontIndex := (0 : Ext K), backIndex := 0 } st ↔ DenV m st := fun st =>
        ⟨fun h => ⟨h.L, h.fv, h.bv⟩, fun h => ⟨h.L, h.fv, h.bv⟩⟩
      simp only [Elem.setIndices, Elem.items, ItemVtxs, leaves]
      constructor
      · intro h; cases h with | cons h1 h2 => exact .cons ((key _).1 h1) h2
      · intro h; cases h with | cons h1 h2 => exact .cons ((key _).2 h1) h2
  · rfl

theorem itemVtxs_congr {es fs : List (Elem (Ext K))} (h : es.map Elem.forget = fs.map Elem.forget)
    {ss : List (Vtx K)} (hs : ItemVtxs (itemsList fs) ss) : ItemVtxs (itemsList es) ss := by
  induction fs generalizing es ss with
  | nil =>
    simp only [List.map_nil, List.map_eq_nil_iff] at h
    subst h; exact hs
  | cons f fs ih =>
    cases es with
    | nil => simp at h
    | cons e es =>
      simp only [List.map_cons, List.cons.injEq] at h
      unfold itemsList at hs ⊢
      obtain ⟨s1, s2, rfl, h1, h2⟩ := hs.split
      refine ItemVtxs.append ?_ (ih h.2 h2)
      rw [← itemVtxs_forget, h.1, itemVtxs_forget]
      exact h1

mutual
/-- The elements of a built system have the lengths and vertices of its parts. -/
theorem build_vtxs : ∀ {p : Part K} {e : Elem (Ext K)}, p.build = .ok e → ItemVtxs e.items p.vtxs
  | .space d n diam, e, hb => by
    unfold Part.build at hb
    obtain ⟨m, h1, rfl⟩ := Except.map_ok hb
    obtain ⟨hn, hd, rfl⟩ := mkSpace_ok h1
    exact .cons ⟨rfl, rfl, rfl⟩ .nil
  | .lens f diam, e, hb => by
    unfold Part.build at hb
    obtain ⟨m, h1, rfl⟩ := Except.map_ok hb
    obtain ⟨hn, hd, rfl⟩ := mkLens_ok h1
    exact .cons ⟨zero_eq, congrArg some zero_eq, congrArg some zero_eq⟩ .nil
  | .mirror f diam, e, hb => by
    unfold Part.build at hb
    obtain ⟨m, h1, rfl⟩ := Except.map_ok hb
    obtain ⟨hn, hd, rfl⟩ := mkCurvedMirror_ok h1
    exact .cons ⟨zero_eq, congrArg some zero_eq, congrArg some zero_eq⟩ .nil
  | .interface n1 n2 R diam, e, hb => by
    unfold Part.build at hb
    obtain ⟨m, h1, rfl⟩ := Except.map_ok hb
    obtain ⟨hn, hR, hd, rfl⟩ := mkDielectric_ok h1
    exact .cons ⟨zero_eq, congrArg some zero_eq, congrArg some zero_eq⟩ .nil
  | .thickLens n R1 R2 t diam, e, hb => by
    unfold Part.build at hb
    obtain ⟨m, h1, rfl⟩ := Except.map_ok hb
    obtain ⟨hn, hR1, hR2, hd, rfl⟩ := mkThickOf_ok h1
    exact .cons ⟨rfl, congrArg some zero_eq, rfl⟩ .nil
  | .slab n t diam, e, hb => by
    unfold Part.build mkSlab at hb
    obtain ⟨m, h1, rfl⟩ := Except.map_ok hb
    obtain ⟨hn, hR1, hR2, hd, rfl⟩ := mkThickOf_ok (R1 := none) (R2 := none) h1
    exact .cons ⟨rfl, congrArg some zero_eq, rfl⟩ .nil
  | .aperture diam na label, e, hb => by
    unfold Part.build at hb
    obtain ⟨m, h1, rfl⟩ := Except.map_ok hb
    obtain ⟨hn, hd, rfl⟩ := mkAperture_ok h1
    exact .cons ⟨zero_eq, rfl, rfl⟩ .nil
  | .matrix s fv bv diam, e, hb => by
    unfold Part.build at hb
    obtain ⟨m, h1, rfl⟩ := Except.map_ok hb
    have hd := genericMat_den s fv bv diam
    obtain ⟨h2, -, -, h3⟩ := init_ok_facts hd h1
    have h4 : m = genericMat s fv bv diam := h3
    subst h4
    exact .cons ⟨rfl, rfl, rfl⟩ .nil
  | .group label ps, e, hb => by
    unfold Part.build at hb
    split at hb
    · simp at hb
    · next es hes =>
      obtain ⟨g, hnew, rfl⟩ := Except.map_ok hb
      exact itemVtxs_congr (Group.new_elems hnew) (buildList_vtxs hes)
theorem buildList_vtxs : ∀ {ps : List (Part K)} {es : List (Elem (Ext K))}, Part.buildList ps = .ok es →
    ItemVtxs (itemsList es) (Part.vtxsList ps)
  | [], es, hb => by
    simp only [Part.buildList, Except.ok.injEq] at hb; subst hb; exact .nil
  | p :: ps, es, hb => by
    unfold Part.buildList at hb
    split at hb
    · simp at hb
    · next e he =>
      split at hb
      · simp at hb
      · next es' hes =>
        simp only [Except.ok.injEq] at hb; subst hb
        exact (build_vtxs he).append (buildList_vtxs hes)
end

/-! ## Chains of chains -/

theorem firstVertex_sums (vss : List (List (Vtx K))) (z : K) : firstVertex z (vss.map Vtx.sum) = firstVertex z vss.flatten := by
  induction vss generalizing z with
  | nil => rfl
  | cons vs vss ih =>
    rw [List.map_cons, List.flatten_cons, firstVertex_append]
    rw [firstVertex_shift z vs]
    cases h : firstVertex 0 vs with
    | none => simp only [Vtx.sum, h, firstVertex, Option.map_none]; exact ih _
    | some v => simp [Vtx.sum, h, firstVertex]

theorem lastVertex_sums (vss : List (List (Vtx K))) (z : K) : lastVertex z (vss.map Vtx.sum) = lastVertex z vss.flatten := by
  induction vss generalizing z with
  | nil => rfl
  | cons vs vss ih =>
    rw [List.map_cons, List.flatten_cons, lastVertex_append]
    simp only [Vtx.sum, lastVertex]
    rw [ih (z + (vs.map (·.1)).sum), lastVertex_shift z vs]
    rfl

theorem sum_sums (vss : List (List (Vtx K))) : ((vss.map Vtx.sum).map (·.1)).sum = (vss.flatten.map (·.1)).sum := by
  induction vss with
  | nil => rfl
  | cons vs vss ih =>
    simp only [List.map_cons, List.sum_cons, List.flatten_cons, List.map_append, List.sum_append, ih]
    rfl

theorem Vtx.sum_one (v : Vtx K) : Vtx.sum [v] = v := by
  obtain ⟨l, fv, bv⟩ := v
  cases fv <;> cases bv <;> simp [Vtx.sum, firstVertex, lastVertex]

/-! ## Trees -/

mutual
theorem Elem.Tidy.denV {air : Bool} : ∀ {e : Elem (Ext K)}, e.Tidy air → ∀ {vs : List (Vtx K)}, ItemVtxs e.items vs → DenV e.mat (Vtx.sum vs)
  | .leaf m, _, vs, hv => by
    cases hv with
    | cons h1 h2 => cases h2; rw [Vtx.sum_one]; exact h1
  | .group m c es, h, vs, hv => by
    unfold Elem.Tidy at h
    have hv' : ItemVtxs (itemsList es) vs := hv
    obtain ⟨vss, h1, h2⟩ := TidyList.denV h.1 hv'
    obtain ⟨t0, h6, h7⟩ := h.2.1
    dsimp only at h6 h7
    have e1 := DenV.of_list (List.forall₂_map_right_iff.2 h2) h6
    rw [firstVertex_sums, lastVertex_sums, sum_sums, h1] at e1
    rw [Elem.mat, h7]
    exact e1.of_refresh
theorem TidyList.denV {air : Bool} : ∀ {es : List (Elem (Ext K))}, TidyList air es → ∀ {vs : List (Vtx K)}, ItemVtxs (itemsList es) vs →
    ∃ vss : List (List (Vtx K)), vss.flatten = vs ∧ List.Forall₂ (fun (e : Elem (Ext K)) (v : List (Vtx K)) => DenV e.mat (Vtx.sum v)) es vss
  | [], _, vs, hv => by cases hv; exact ⟨[], rfl, .nil⟩
  | e :: es, ht, vs, hv => by
    unfold TidyList at ht
    unfold itemsList at hv
    obtain ⟨s1, s2, rfl, h1, h2⟩ := hv.split
    obtain ⟨vss, h3, h4⟩ := TidyList.denV ht.2 h2
    exact ⟨s1 :: vss, by rw [List.flatten_cons, h3], .cons (Elem.Tidy.denV ht.1 h1) h4⟩
end

theorem itemsList_append {F : Type} (es fs : List (Elem F)) : itemsList (es ++ fs) = itemsList es ++ itemsList fs := by
  induction es with
  | nil => rfl
  | cons e es ih => simp [itemsList, ih]

mutual
/-- Flipping a tree reverses its single elements and exchanges the vertices of each. -/
theorem Elem.Tidy.swap {air : Bool} : ∀ {e : Elem (Ext K)}, e.Tidy air → ∀ {vs : List (Vtx K)}, ItemVtxs e.items vs → ∀ {e' : Elem (Ext K)},
    e.flip = (e', .ok ()) → ItemVtxs e'.items (vs.map Vtx.swap).reverse
  | .leaf m, _, vs, hv, e', hf => by
    unfold Elem.flip at hf
    simp only [Prod.mk.injEq] at hf
    obtain ⟨rfl, -⟩ := hf
    obtain ⟨h4, h5, h6⟩ := m.flip_vertices
    cases hv with
    | cons h1 h2 => cases h2; exact .cons ⟨h6.trans h1.L, h4.trans h1.bv, h5.trans h1.fv⟩ .nil
  | .group m c es, h, vs, hv, e', hf => by
    have ht := h
    unfold Elem.Tidy at h
    obtain ⟨es', h2⟩ := TidyList.flip h.1
    have hv' : ItemVtxs (itemsList es) vs := hv
    have h3 := TidyList.swap h.1 hv' h2
    obtain ⟨t, -, h4, -⟩ := flip_group ht h2
    rw [h4] at hf
    simp only [Prod.mk.injEq, and_true] at hf
    subst hf
    exact h3
theorem TidyList.swap {air : Bool} : ∀ {es : List (Elem (Ext K))}, TidyList air es → ∀ {vs : List (Vtx K)}, ItemVtxs (itemsList es) vs →
    ∀ {es' : List (Elem (Ext K))}, List.Forall₂ (FlipOf air) es es' → ItemVtxs (itemsList es'.reverse) (vs.map Vtx.swap).reverse
  | [], _, vs, hv, _, .nil => by cases hv; exact .nil
  | e :: es, ht, vs, hv, _, .cons (b := e') (l₂ := es') h1 h2 => by
    unfold TidyList at ht
    unfold itemsList at hv
    obtain ⟨s1, s2, rfl, h3, h4⟩ := hv.split
    have h5 := Elem.Tidy.swap ht.1 h3 h1.flip
    have h6 := TidyList.swap ht.2 h4 h2
    rw [List.reverse_cons, itemsList_append, List.map_append, List.reverse_append]
    refine h6.append ?_
    simpa [itemsList] using h5
end

/-! ## Exchanged vertices -/

theorem swap_sum (vs : List (Vtx K)) : ((vs.map Vtx.swap).map (·.1)).sum = (vs.map (·.1)).sum := by
  simp [Vtx.swap, Function.comp_def]

theorem lastVertex_none {vs : List (Vtx K)} {z : K} : lastVertex z vs = none ↔ vs.any (fun w => w.2.2.isSome) = false := by
  induction vs generalizing z with
  | nil => simp [lastVertex]
  | cons v vs ih =>
    obtain ⟨l, fv, bv⟩ := v
    simp only [lastVertex, List.any_cons, Bool.or_eq_false_iff, ← ih (z := z + l)]
    cases lastVertex (z + l) vs <;> cases bv <;> simp

theorem firstVertex_swap (vs : List (Vtx K)) :
    firstVertex 0 (vs.map Vtx.swap).reverse = (lastVertex 0 vs).map fun x => (vs.map (·.1)).sum - x - backShift vs := by
  induction vs with
  | nil => rfl
  | cons v vs ih =>
    obtain ⟨l, fv, bv⟩ := v
    rw [List.map_cons, List.reverse_cons, firstVertex_append, ih]
    simp only [lastVertex, List.map_reverse, List.sum_reverse, swap_sum]
    rw [lastVertex_shift (0 + l)]
    cases h : lastVertex 0 vs with
    | some w =>
      have h' : vs.any (fun w => w.2.2.isSome) = true := by
        by_contra hx
        rw [lastVertex_none.2 (Bool.eq_false_iff.2 hx)] at h
        cases h
      cases bv <;> simp [backShift, h'] <;> ring
    | none =>
      have h' := lastVertex_none.1 h
      cases bv with
      | none => simp [Vtx.swap, firstVertex]
      | some b => simp [Vtx.swap, firstVertex, backShift, h']

theorem lastVertex_swap (vs : List (Vtx K)) :
    lastVertex 0 (vs.map Vtx.swap).reverse = (firstVertex 0 vs).map fun x => (vs.map (·.1)).sum - x - frontShift vs := by
  induction vs with
  | nil => rfl
  | cons v vs ih =>
    obtain ⟨l, fv, bv⟩ := v
    rw [List.map_cons, List.reverse_cons, lastVertex_append, ih]
    simp only [List.map_reverse, List.sum_reverse, swap_sum]
    cases fv with
    | some f => simp [Vtx.swap, lastVertex, firstVertex, frontShift]
    | none =>
      simp only [Vtx.swap, lastVertex, firstVertex, Option.map_none, frontShift]
      rw [firstVertex_shift (0 + l)]
      cases firstVertex 0 vs with
      | none => rfl
      | some w => simp

end RT
