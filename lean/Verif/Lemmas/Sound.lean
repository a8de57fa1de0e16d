import Verif.Lemmas.Trace
import Verif.Lemmas.Build

/-! # Trees whose headers agree with their elements, and the value of a trace through them -/

set_option linter.unusedSectionVars false

namespace RT
open PyNum Ext
variable {K : Type} [Field K] [LinearOrder K] [IsStrictOrderedRing K]

mutual
/-- finite entries, no axicon, and the header of a group has the entries and the length of the chain of its elements -/
def Elem.Sound : Elem (Ext K) → Prop
  | .leaf m => Den m m.sys ∧ m.Linear
  | .group m _ es => SoundList es ∧ Den m m.sys ∧ m.sys.SameABCD (Sys.chain (Sys.one 1) (sysList es)) ∧
      (m.kind = .group ∨ m.kind = .objective)
/-- every element is sound -/
def SoundList : List (Elem (Ext K)) → Prop
  | [] => True
  | e :: es => e.Sound ∧ SoundList es
end

theorem SoundList_iff {es : List (Elem (Ext K))} : SoundList es ↔ ∀ e ∈ es, e.Sound := by
  induction es with
  | nil => simp [SoundList]
  | cons e es ih => simp [SoundList, ih]

theorem SoundList_append {es fs : List (Elem (Ext K))} : SoundList (es ++ fs) ↔ SoundList es ∧ SoundList fs := by
  simp only [SoundList_iff, List.mem_append]
  exact ⟨fun h => ⟨fun e he => h e (.inl he), fun e he => h e (.inr he)⟩,
    fun h e he => he.elim (h.1 e) (h.2 e)⟩

theorem Elem.Sound.den {e : Elem (Ext K)} (h : e.Sound) : Den e.mat e.mat.sys := by
  cases e with
  | leaf m => unfold Elem.Sound at h; exact h.1
  | group m c es => unfold Elem.Sound at h; exact h.2.1

theorem SoundList.den {es : List (Elem (Ext K))} (h : SoundList es) : DenList es (sysList es) := by
  induction es with
  | nil => exact .nil
  | cons e es ih => unfold SoundList at h; exact .cons h.1.den (ih h.2)

theorem Elem.Sound.leaf_of_isSpace {e : Elem (Ext K)} (h : e.Sound) (hs : e.isSpace = true) : ∃ m, e = .leaf m := by
  cases e with
  | leaf m => exact ⟨m, rfl⟩
  | group m c es =>
    unfold Elem.Sound at h
    unfold Elem.isSpace Elem.mat at hs
    rcases h.2.2.2 with hk | hk <;> simp [hk] at hs

theorem Elem.Sound.setIndices {e : Elem (Ext K)} (h : e.Sound) (hs : e.isSpace = true) (n : K) :
    (e.setIndices (fin n)).Sound := by
  obtain ⟨m, rfl⟩ := h.leaf_of_isSpace hs
  unfold Elem.Sound at h
  unfold Elem.setIndices Elem.Sound
  have hd := h.1
  exact ⟨⟨hd.A, hd.B, hd.C, hd.D, hd.L, rfl, rfl⟩, h.2⟩

theorem append_sound {g g' : Group (Ext K)} {e : Elem (Ext K)} (hg : SoundList g.elems) (he : e.Sound)
    (h : g.append e = (g', .ok ())) : SoundList g'.elems := by
  rcases g.append_cases e with ⟨h', -⟩ | ⟨e', h', -, hl⟩
  · rw [h'] at h; simp at h
  · have e1 : g'.elems = g.elems ++ [e'] := by
      have := Group.push_elems g e'
      rw [← h', h] at this; exact this
    rw [e1, SoundList_append]
    refine ⟨hg, ?_⟩
    cases hlast : g.elems.getLast? with
    | none =>
      have hnil : g.elems = [] := List.getLast?_eq_none_iff.1 hlast
      have h2 : g.append e = g.push e := by
        unfold Group.append; rw [hnil]; rfl
      have h3 := Group.push_elems g e
      rw [← h2, h, e1, hnil] at h3
      simp only [List.nil_append, List.cons.injEq, and_true] at h3
      subst h3
      exact ⟨he, trivial⟩
    | some last =>
      have hls : last.Sound := SoundList_iff.1 hg last (List.mem_of_getLast? hlast)
      rcases hl last hlast with ⟨rfl, -⟩ | ⟨hs, rfl⟩
      · exact ⟨he, trivial⟩
      · rw [hls.den.nb]
        exact ⟨he.setIndices hs _, trivial⟩

theorem appendAll_sound {g g' : Group (Ext K)} {es : List (Elem (Ext K))} (hg : SoundList g.elems) (he : SoundList es)
    (h : g.appendAll es = (g', .ok ())) : SoundList g'.elems := by
  induction es generalizing g with
  | nil =>
    simp only [Group.appendAll, Prod.mk.injEq, and_true] at h
    subst h; exact hg
  | cons e es ih =>
    obtain ⟨g1, h1, h2⟩ := Group.appendAll_cons_ok h
    unfold SoundList at he
    exact ih (append_sound hg he.1 h1) he.2 h2

theorem fresh_sound {g : Group (Ext K)} (hf : g.Fresh) (hg : SoundList g.elems)
    (hk : g.mat.kind = .group ∨ g.mat.kind = .objective) : g.toElem.Sound := by
  obtain ⟨t, ht, hm⟩ := hf
  obtain ⟨u, h1, h2⟩ := transferMatrixList_chain hg.den one_den ht
  have hd : Den g.mat u := by
    rw [hm]; exact ⟨h1.A, h1.B, h1.C, h1.D, h1.L, h1.nf, h1.nb⟩
  unfold Group.toElem Elem.Sound
  rw [hd.sys]
  exact ⟨hg, hd, h2, hk⟩

theorem new_sound {es : List (Elem (Ext K))} {label : String} {g : Group (Ext K)} (h : Group.new es label = .ok g)
    (hs : SoundList es) : g.toElem.Sound := by
  have h1 := Group.new_eq h
  refine fresh_sound (Group.new_fresh h) (appendAll_sound (g := Group.empty label) (by simp [Group.empty, SoundList]) hs h1)
    (.inl ?_)
  have := Group.appendAll_kind (Group.empty label) es
  rw [h1] at this
  rw [this]; rfl

/-! ## No cached trace in a system just built -/

theorem Elem.noCache_of_forget {F : Type} [PyNum F] {e e' : Elem F} (h : e'.forget = e.forget) (hc : e.NoCache) :
    e'.NoCache := by
  have key : ∀ (e : Elem F), e.forget.NoCache ↔ e.NoCache := by
    intro e
    unfold Elem.forget
    split_ifs
    · cases e <;> simp [Elem.setIndices, Elem.NoCache]
    · rfl
  rw [← key, h, key]; exact hc

theorem new_noCache {F : Type} [PyNum F] {es : List (Elem F)} {label : String} {g : Group F}
    (h : Group.new es label = .ok g) (hs : NoCacheList es) : g.toElem.NoCache := by
  unfold Group.toElem Elem.NoCache
  refine ⟨?_, ?_⟩
  · have key : ∀ (es : List (Elem F)) (g g' : Group F), g.appendAll es = (g', .ok ()) → g'.cache = g.cache := by
      intro es
      induction es with
      | nil => intro g g' h; simp only [Group.appendAll, Prod.mk.injEq, and_true] at h; rw [h]
      | cons e es ih =>
        intro g g' h
        obtain ⟨g1, h1, h2⟩ := Group.appendAll_cons_ok h
        rw [ih g1 g' h2]
        rcases g.append_cases e with ⟨h', -⟩ | ⟨e', h', -⟩
        · rw [h'] at h1; simp at h1
        · rw [h'] at h1
          have : (g.push e').1.cache = g.cache := by unfold Group.push; dsimp only; split <;> rfl
          rw [h1] at this; exact this
    rw [key es _ g (Group.new_eq h)]; rfl
  · rw [NoCacheList_iff] at hs ⊢
    intro e he
    have h3 : e.forget ∈ g.elems.map Elem.forget := List.mem_map_of_mem he
    rw [Group.new_elems h] at h3
    obtain ⟨e', he', heq⟩ := List.mem_map.1 h3
    exact Elem.noCache_of_forget heq.symm (hs e' he')

/-! ## Lengths of the elements of a system just built -/

/-- no element has a negative length -/
def NonNegItems (is : List (Item (Ext K))) : Prop := ∀ m, Item.leaf m ∈ is → 0 ≤ m.sys.len

theorem itemsList_mem {F : Type} {es : List (Elem F)} {i : Item F} :
    i ∈ itemsList es ↔ ∃ e ∈ es, i ∈ e.items := by
  induction es with
  | nil => simp [itemsList]
  | cons e es ih => simp [itemsList, ih]

theorem nonNegItems_of_forget {e e' : Elem (Ext K)} (h : e'.forget = e.forget)
    (hc : NonNegItems e.items) : NonNegItems e'.items := by
  have key : ∀ (e : Elem (Ext K)), NonNegItems e.forget.items ↔ NonNegItems e.items := by
    intro e
    unfold Elem.forget
    split_ifs
    · cases e <;> simp [Elem.setIndices, Elem.items, NonNegItems, Mat.sys]
    · rfl
  rw [← key, h, key]; exact hc

theorem new_nonNeg {es : List (Elem (Ext K))} {label : String} {g : Group (Ext K)}
    (h : Group.new es label = .ok g) (hs : NonNegItems (itemsList es)) : NonNegItems g.toElem.items := by
  unfold Group.toElem Elem.items
  intro m hm
  simp only [List.mem_cons, reduceCtorEq, false_or] at hm
  obtain ⟨e, he, hme⟩ := itemsList_mem.1 hm
  have h3 : e.forget ∈ g.elems.map Elem.forget := List.mem_map_of_mem he
  rw [Group.new_elems h] at h3
  obtain ⟨e', he', heq⟩ := List.mem_map.1 h3
  refine nonNegItems_of_forget heq.symm (fun m' hm' => ?_) m hme
  exact hs m' (itemsList_mem.2 ⟨e', he', hm'⟩)

theorem leaf_facts {m : Mat (Ext K)} {s : Sys K} (hd : Den m s) (hl : m.Linear) :
    (Elem.leaf m).Sound ∧ (Elem.leaf m).NoCache ∧ (0 ≤ s.len → NonNegItems (Elem.leaf m).items) := by
  have hs := hd.sys
  refine ⟨?_, trivial, fun h => ?_⟩
  · unfold Elem.Sound; rw [hs]; exact ⟨hd, hl⟩
  · intro m' hm'
    simp only [Elem.items, List.mem_singleton, Item.leaf.injEq] at hm'
    subst hm'; rw [hs]; exact h

mutual
/-- Every program that runs gives a sound tree, without cached traces. -/
theorem build_sound : ∀ {p : Part K} {e : Elem (Ext K)}, p.build = .ok e →
    e.Sound ∧ e.NoCache ∧ (p.NonNeg → NonNegItems e.items)
  | .space d n diam, e, hb => by
    unfold Part.build at hb
    obtain ⟨m, h1, rfl⟩ := Except.map_ok hb
    obtain ⟨-, -, rfl⟩ := mkSpace_ok h1
    exact leaf_facts (spaceMat_den d n _) (by simp [Mat.Linear, spaceMat])
  | .lens f diam, e, hb => by
    unfold Part.build at hb
    obtain ⟨m, h1, rfl⟩ := Except.map_ok hb
    obtain ⟨-, -, rfl⟩ := mkLens_ok h1
    obtain ⟨h2, h3, h4⟩ := leaf_facts (lensMat_den f (optInf diam)) (by simp [Mat.Linear, lensMat])
    exact ⟨h2, h3, fun _ => h4 (le_refl _)⟩
  | .mirror R diam, e, hb => by
    unfold Part.build at hb
    obtain ⟨m, h1, rfl⟩ := Except.map_ok hb
    obtain ⟨-, -, rfl⟩ := mkCurvedMirror_ok h1
    obtain ⟨h2, h3, h4⟩ := leaf_facts (mirrorMat_den R (optInf diam)) (by simp [Mat.Linear, mirrorMat])
    exact ⟨h2, h3, fun _ => h4 (le_refl _)⟩
  | .interface n1 n2 R diam, e, hb => by
    unfold Part.build at hb
    obtain ⟨m, h1, rfl⟩ := Except.map_ok hb
    obtain ⟨-, -, -, rfl⟩ := mkDielectric_ok h1
    obtain ⟨h2, h3, h4⟩ := leaf_facts (interfaceMat_den n1 n2 (optInf R) (optInf diam)) (by simp [Mat.Linear, interfaceMat])
    exact ⟨h2, h3, fun _ => h4 (le_refl _)⟩
  | .thickLens n R1 R2 t diam, e, hb => by
    unfold Part.build at hb
    obtain ⟨m, h1, rfl⟩ := Except.map_ok hb
    obtain ⟨hn, -, -, -, rfl⟩ := mkThickOf_ok h1
    obtain ⟨h2, h3, h4⟩ := leaf_facts (thickMat_den (.thickLens (fin n) (optInf R1) (optInf R2)) (optInf R1) (optInf R2) t
      (optInf diam) hn) (by simp [Mat.Linear, thickMat])
    refine ⟨h2, h3, fun h => h4 ?_⟩
    rw [Sys.thick_eq _ _ _ hn]; exact h
  | .slab n t diam, e, hb => by
    unfold Part.build mkSlab at hb
    obtain ⟨m, h1, rfl⟩ := Except.map_ok hb
    obtain ⟨hn, -, -, -, rfl⟩ := mkThickOf_ok (R1 := none) (R2 := none) h1
    obtain ⟨h2, h3, h4⟩ := leaf_facts (thickMat_den (.slab (fin n) inf inf) (optInf none) (optInf none) t
      (optInf diam) hn) (by simp [Mat.Linear, thickMat])
    refine ⟨h2, h3, fun h => h4 ?_⟩
    rw [Sys.thick_eq _ _ _ hn]; exact h
  | .aperture diam na label, e, hb => by
    unfold Part.build at hb
    obtain ⟨m, h1, rfl⟩ := Except.map_ok hb
    obtain ⟨-, -, rfl⟩ := mkAperture_ok h1
    obtain ⟨h2, h3, h4⟩ := leaf_facts (apertureMat_den (optInf diam) (optInf na) label) (by simp [Mat.Linear, apertureMat])
    exact ⟨h2, h3, fun _ => h4 (le_refl _)⟩
  | .matrix s fv bv diam, e, hb => by
    unfold Part.build at hb
    obtain ⟨m, h1, rfl⟩ := Except.map_ok hb
    obtain ⟨-, -, -, rfl⟩ := init_ok_facts (genericMat_den s fv bv diam) h1
    have hd := genericMat_den s fv bv diam
    exact leaf_facts (m := { genericMat s fv bv diam with isFlipped := false })
      (s := s) ⟨hd.A, hd.B, hd.C, hd.D, hd.L, hd.nf, hd.nb⟩ (by simp [Mat.Linear, genericMat, Mat.one])
  | .group label ps, e, hb => by
    unfold Part.build at hb
    split at hb
    · simp at hb
    · next es hes =>
      obtain ⟨g, hnew, rfl⟩ := Except.map_ok hb
      obtain ⟨h1, h2, h3⟩ := buildList_sound hes
      exact ⟨new_sound hnew h1, new_noCache hnew h2, fun h => new_nonNeg hnew (h3 (by unfold Part.NonNeg at h; exact h))⟩
theorem buildList_sound : ∀ {ps : List (Part K)} {es : List (Elem (Ext K))}, Part.buildList ps = .ok es →
    SoundList es ∧ NoCacheList es ∧ (Part.NonNegList ps → NonNegItems (itemsList es))
  | [], es, hb => by
    simp only [Part.buildList, Except.ok.injEq] at hb; subst hb
    exact ⟨trivial, trivial, fun _ m hm => by simp [itemsList] at hm⟩
  | p :: ps, es, hb => by
    unfold Part.buildList at hb
    split at hb
    · simp at hb
    · next e he =>
      split at hb
      · simp at hb
      · next es' hes =>
        simp only [Except.ok.injEq] at hb; subst hb
        obtain ⟨h1, h2, h3⟩ := build_sound he
        obtain ⟨h4, h5, h6⟩ := buildList_sound hes
        refine ⟨⟨h1, h4⟩, ⟨h2, h5⟩, fun h => ?_⟩
        unfold Part.NonNegList at h
        intro m hm
        unfold itemsList at hm
        rcases List.mem_append.1 hm with hm | hm
        · exact h3 h.1 m hm
        · exact h6 h.2 m hm
end

/-! ## The value of a trace -/

/-- the systems met -/
def itemSys : List (Item (Ext K)) → List (Sys K)
  | [] => []
  | .dup :: is => itemSys is
  | .leaf m :: is => m.sys :: itemSys is

theorem itemSys_append (is js : List (Item (Ext K))) : itemSys (is ++ js) = itemSys is ++ itemSys js := by
  induction is with
  | nil => rfl
  | cons i is ih => cases i <;> simp [itemSys, ih]

/-- all the elements have finite entries and are linear -/
def SoundItems (is : List (Item (Ext K))) : Prop := ∀ m, Item.leaf m ∈ is → Den m m.sys ∧ m.Linear

theorem SoundItems.linear {is : List (Item (Ext K))} (h : SoundItems is) : LinearItems is := fun m hm => (h m hm).2

/-- action of a list of systems, and their length -/
def outAll (l : List (Sys K)) (r : K × K) : K × K := l.foldl (fun r t => t.out r) r

mutual
theorem Elem.Sound.items : ∀ {e : Elem (Ext K)}, e.Sound → SoundItems e.items ∧
    (∀ r, outAll (itemSys e.items) r = e.mat.sys.out r) ∧ ((itemSys e.items).map Sys.len).sum = e.mat.sys.len
  | .leaf m, h => by
    unfold Elem.Sound at h
    refine ⟨?_, ?_, ?_⟩
    · intro m' hm'
      simp only [Elem.items, List.mem_singleton, Item.leaf.injEq] at hm'
      subst hm'; exact h
    · intro r; rfl
    · simp [Elem.items, itemSys, Elem.mat]
  | .group m c es, h => by
    unfold Elem.Sound at h
    obtain ⟨h1, h2, h3, -⟩ := h
    obtain ⟨e1, e2, e3⟩ := SoundList.items h1
    refine ⟨?_, ?_, ?_⟩
    · intro m' hm'
      simp only [Elem.items, List.mem_cons, reduceCtorEq, false_or] at hm'
      exact e1 m' hm'
    · intro r
      simp only [Elem.items, itemSys, Elem.mat]
      rw [e2, h3.out, Sys.chain_out, Sys.one_out]; rfl
    · simp only [Elem.items, itemSys, Elem.mat]
      rw [e3, h3.2.2.2.2, Sys.chain_len]
      simp [Sys.one]
theorem SoundList.items : ∀ {es : List (Elem (Ext K))}, SoundList es → SoundItems (itemsList es) ∧
    (∀ r, outAll (itemSys (itemsList es)) r = outAll (sysList es) r) ∧
    ((itemSys (itemsList es)).map Sys.len).sum = ((sysList es).map Sys.len).sum
  | [], _ => ⟨fun m hm => by simp [itemsList] at hm, fun r => rfl, rfl⟩
  | e :: es, h => by
    unfold SoundList at h
    obtain ⟨a1, a2, a3⟩ := Elem.Sound.items h.1
    obtain ⟨b1, b2, b3⟩ := SoundList.items h.2
    unfold itemsList
    refine ⟨?_, ?_, ?_⟩
    · intro m hm
      rcases List.mem_append.1 hm with hm | hm
      · exact a1 m hm
      · exact b1 m hm
    · intro r
      rw [itemSys_append]
      have : outAll (itemSys e.items ++ itemSys (itemsList es)) r =
          outAll (itemSys (itemsList es)) (outAll (itemSys e.items) r) := by simp [outAll]
      rw [this, a2, b2]; rfl
    · rw [itemSys_append]
      simp only [List.map_append, List.sum_append, a3, b3, sysList, List.map_cons, List.sum_cons]
end

theorem runTrace_blocked {F : Type} [PyNum F] (is : List (Item F)) {r : Ray F} (h : r.isBlocked = true) :
    ∀ s ∈ runTrace is r, s = r := by
  induction is with
  | nil => simp [runTrace]
  | cons i is ih =>
    intro s hs
    cases i with
    | dup =>
      simp only [runTrace, List.mem_cons] at hs
      rcases hs with hs | hs
      · exact hs
      · exact ih s hs
    | leaf m =>
      simp only [runTrace, h, if_true, List.mem_append, List.mem_cons] at hs
      rcases hs with hs | hs | hs
      · split_ifs at hs
        · simpa using hs
        · simp at hs
      · exact hs
      · exact ih s hs

theorem FinRay.settle {r : Ray (Ext K)} {y θ z : K} (h : FinRay r y θ z) (is : List (Item (Ext K))) :
    FinRay (RT.settle is r) y θ z := ⟨h.y, h.theta, h.z⟩

/-- The last ray of a trace, when it is not blocked. -/
theorem runTrace_last {is : List (Item (Ext K))} (hs : SoundItems is) {r : Ray (Ext K)} {y θ z : K}
    (hr : FinRay r y θ z) (hb : ((runTrace is r).getLast?.getD r).isBlocked = false) :
    FinRay ((runTrace is r).getLast?.getD r) (outAll (itemSys is) (y, θ)).1 (outAll (itemSys is) (y, θ)).2
      (z + ((itemSys is).map Sys.len).sum) := by
  have hlast : ∀ (r0 : Ray (Ext K)) (l : List (Ray (Ext K))) (d : Ray (Ext K)),
      (r0 :: l).getLast?.getD d = l.getLast?.getD r0 := by
    intro r0 l d
    cases l with
    | nil => rfl
    | cons x l => simp [List.getLast?_cons]
  induction is generalizing r y θ z with
  | nil => simpa [runTrace, outAll, itemSys] using hr
  | cons i is ih =>
    have hs' : SoundItems is := fun m hm => hs m (List.mem_cons_of_mem _ hm)
    cases i with
    | dup =>
      simp only [runTrace, hlast] at hb ⊢
      exact ih hs' hr hb
    | leaf m =>
      obtain ⟨hd, hl⟩ := hs m (by simp)
      have e1 : (runTrace (.leaf m :: is) r).getLast?.getD r =
          (runTrace is (if r.isBlocked then r else settle is (m.mulRayBase r))).getLast?.getD
            (if r.isBlocked then r else settle is (m.mulRayBase r)) := by
        simp only [runTrace]
        split_ifs <;> simp only [List.cons_append, List.nil_append, hlast]
      rw [e1] at hb ⊢
      by_cases hrb : r.isBlocked = true
      · exfalso
        simp only [hrb, if_true] at hb
        have : ((runTrace is r).getLast?.getD r) = r := by
          cases hx : (runTrace is r).getLast? with
          | none => rfl
          | some x => exact runTrace_blocked is hrb x (List.mem_of_getLast? hx)
        rw [this, hrb] at hb; simp at hb
      · rw [Bool.not_eq_true] at hrb
        simp only [hrb, Bool.false_eq_true, if_false] at hb ⊢
        have h1 := mulRay_den hd hl hr hrb
        rw [hl.mulRay] at h1
        have h2 := ih hs' (h1.settle is) hb
        have e2 : z + ((itemSys (.leaf m :: is)).map Sys.len).sum =
            m.sys.len + z + ((itemSys is).map Sys.len).sum := by simp [itemSys]; ring
        rw [e2]
        exact h2

/-- Positions along a trace. -/
theorem runTrace_z {is : List (Item (Ext K))} (hs : SoundItems is) (hn : NonNegItems is) {r : Ray (Ext K)} {y θ z : K}
    (hr : FinRay r y θ z) :
    ∃ zs : List K, (runTrace is r).map Ray.z = zs.map fin ∧ (z :: zs).Pairwise (· ≤ ·) := by
  induction is generalizing r y θ z with
  | nil => exact ⟨[], by simp [runTrace]⟩
  | cons i is ih =>
    have hs' : SoundItems is := fun m hm => hs m (List.mem_cons_of_mem _ hm)
    have hn' : NonNegItems is := fun m hm => hn m (List.mem_cons_of_mem _ hm)
    have cons_le : ∀ {x x' : K} {zs : List K}, x ≤ x' → (x' :: zs).Pairwise (· ≤ ·) → (x :: x' :: zs).Pairwise (· ≤ ·) := by
      intro x x' zs h1 h2
      refine List.pairwise_cons.2 ⟨fun w hw => ?_, h2⟩
      rcases List.mem_cons.1 hw with rfl | hw
      · exact h1
      · exact h1.trans ((List.pairwise_cons.1 h2).1 w hw)
    cases i with
    | dup =>
      obtain ⟨zs, h1, h2⟩ := ih hs' hn' hr
      exact ⟨z :: zs, by simp [runTrace, h1, hr.z], cons_le (le_refl _) h2⟩
    | leaf m =>
      obtain ⟨hd, hl⟩ := hs m (by simp)
      have h0 : 0 ≤ m.sys.len := hn m (by simp)
      obtain ⟨y', θ', z', hr', hzz⟩ : ∃ y' θ' z',
          FinRay (if r.isBlocked then r else settle is (m.mulRayBase r)) y' θ' z' ∧ z ≤ z' := by
        by_cases hrb : r.isBlocked = true
        · exact ⟨y, θ, z, by simpa [hrb] using hr, le_refl _⟩
        · rw [Bool.not_eq_true] at hrb
          have h1 := mulRay_den hd hl hr hrb
          rw [hl.mulRay] at h1
          simp only [hrb, Bool.false_eq_true, if_false]
          exact ⟨_, _, _, h1.settle is, by linarith⟩
      obtain ⟨zs, h1, h2⟩ := ih hs' hn' hr'
      simp only [runTrace]
      by_cases hL : (0 <. m.L) = true
      · refine ⟨z :: z' :: zs, ?_, cons_le (le_refl _) (cons_le hzz h2)⟩
        rw [if_pos hL]
        simp [h1, hr'.z, hr.z]
      · refine ⟨z' :: zs, ?_, cons_le hzz h2⟩
        rw [if_neg hL]
        simp [h1, hr'.z]

end RT
