import Verif.Lemmas.FlipTree
import Verif.Lemmas.RayDen
import Verif.Lemmas.Sound

/-! # Vertices of flipped trees -/

set_option linter.unusedSectionVars false

namespace RT
open PyNum Ext
variable {K : Type} [Field K] [LinearOrder K] [IsStrictOrderedRing K]

/-- length and vertices seen from the other side -/
def Vtx.mir (v : Vtx K) : Vtx K := (v.1, v.2.2.map (v.1 - ·), v.2.1.map (v.1 - ·))

theorem firstVertex_append (z : K) (vs ws : List (Vtx K)) :
    firstVertex z (vs ++ ws) =
      match firstVertex z vs with | some v => some v | none => firstVertex (z + (vs.map (·.1)).sum) ws := by
  induction vs generalizing z with
  | nil => simp [firstVertex]
  | cons v vs ih =>
    obtain ⟨l, fv, bv⟩ := v
    cases fv with
    | some v => simp [firstVertex]
    | none => simp only [List.cons_append, firstVertex, ih, List.map_cons, List.sum_cons, add_assoc]

theorem lastVertex_append (z : K) (vs ws : List (Vtx K)) :
    lastVertex z (vs ++ ws) =
      match lastVertex (z + (vs.map (·.1)).sum) ws with | some v => some v | none => lastVertex z vs := by
  induction vs generalizing z with
  | nil => simp only [List.nil_append, List.map_nil, List.sum_nil, add_zero]; cases lastVertex z ws <;> rfl
  | cons v vs ih =>
    obtain ⟨l, fv, bv⟩ := v
    simp only [List.cons_append, lastVertex, ih, List.map_cons, List.sum_cons, add_assoc]
    cases lastVertex (z + (l + (vs.map (·.1)).sum)) ws <;> simp

theorem mir_sum (vs : List (Vtx K)) : ((vs.map Vtx.mir).map (·.1)).sum = (vs.map (·.1)).sum := by
  simp [Vtx.mir, Function.comp_def]

theorem firstVertex_mir (vs : List (Vtx K)) :
    firstVertex 0 (vs.map Vtx.mir).reverse = (lastVertex 0 vs).map ((vs.map (·.1)).sum - ·) := by
  induction vs with
  | nil => rfl
  | cons v vs ih =>
    obtain ⟨l, fv, bv⟩ := v
    rw [List.map_cons, List.reverse_cons, firstVertex_append, ih]
    simp only [lastVertex, List.map_reverse, List.sum_reverse, mir_sum]
    rw [lastVertex_shift (0 + l)]
    cases lastVertex 0 vs with
    | some w => simp
    | none =>
      cases bv with
      | none => simp [Vtx.mir, firstVertex]
      | some b => simp [Vtx.mir, firstVertex]; ring

theorem lastVertex_mir (vs : List (Vtx K)) :
    lastVertex 0 (vs.map Vtx.mir).reverse = (firstVertex 0 vs).map ((vs.map (·.1)).sum - ·) := by
  induction vs with
  | nil => rfl
  | cons v vs ih =>
    obtain ⟨l, fv, bv⟩ := v
    rw [List.map_cons, List.reverse_cons, lastVertex_append, ih]
    simp only [List.map_reverse, List.sum_reverse, mir_sum]
    cases fv with
    | some f => simp [Vtx.mir, lastVertex, firstVertex]; ring
    | none =>
      simp only [Vtx.mir, lastVertex, firstVertex, Option.map_none]
      rw [firstVertex_shift (0 + l)]
      cases firstVertex 0 vs with
      | none => rfl
      | some w => simp

theorem Mat.flip_vertices {F : Type} [PyNum F] (m : Mat F) :
    m.flip.1.frontVertex = m.backVertex ∧ m.flip.1.backVertex = m.frontVertex ∧ m.flip.1.L = m.L := by
  unfold Mat.flip Mat.flip.flipThick
  dsimp only
  split <;> (try split) <;> (try split) <;> (try split) <;> (try split) <;> exact ⟨rfl, rfl, rfl⟩

mutual
/-- every vertex is in the middle of its element -/
def Elem.Centered : Elem (Ext K) → Prop
  | .leaf m => ∃ v : Vtx K, DenV m v ∧ v.2.1.map (v.1 - ·) = v.2.1 ∧ v.2.2.map (v.1 - ·) = v.2.2
  | .group _ _ es => CenteredList es
/-- in every element -/
def CenteredList : List (Elem (Ext K)) → Prop
  | [] => True
  | e :: es => e.Centered ∧ CenteredList es
end

theorem CenteredList_iff {es : List (Elem (Ext K))} : CenteredList es ↔ ∀ e ∈ es, e.Centered := by
  induction es with
  | nil => simp [CenteredList]
  | cons e es ih => simp [CenteredList, ih]

theorem DenV.of_refresh {m t : Mat (Ext K)} {v : Vtx K} (h : DenV t v) : DenV (m.refresh t) v := ⟨h.L, h.fv, h.bv⟩

theorem DenV.of_list {es : List (Elem (Ext K))} {vs : List (Vtx K)} {t : Mat (Ext K)}
    (hv : List.Forall₂ (fun e v => DenV e.mat v) es vs) (ht : transferMatrixList es inf Mat.one = .ok t) :
    DenV t ((vs.map (·.1)).sum, firstVertex 0 vs, lastVertex 0 vs) := by
  have h0 : DenV (Mat.one : Mat (Ext K)) (0, none, none) := by constructor <;> simp [Mat.one]
  have := transferMatrixList_denV hv h0 ht
  refine ⟨by simpa using this.L, by simpa [firstVertex] using this.fv, ?_⟩
  have := this.bv
  simp only [lastVertex, add_zero] at this
  rw [this]
  cases lastVertex 0 vs <;> rfl

mutual
/-- The vertices of the flipped tree are those of the tree seen from the other side. -/
theorem Elem.Tidy.vertices {air : Bool} : ∀ {e : Elem (Ext K)}, e.Tidy air → e.Centered → ∀ {e' : Elem (Ext K)},
    e.flip = (e', .ok ()) → ∃ v, DenV e.mat v ∧ DenV e'.mat v.mir
  | .leaf m, h, hc, e', hf => by
    unfold Elem.Centered at hc
    obtain ⟨v, h1, h2, h3⟩ := hc
    unfold Elem.flip at hf
    simp only [Prod.mk.injEq] at hf
    obtain ⟨rfl, -⟩ := hf
    obtain ⟨h4, h5, h6⟩ := m.flip_vertices
    refine ⟨v, h1, ?_, ?_, ?_⟩
    · exact h6.trans h1.L
    · exact h4.trans (h1.bv.trans (congrArg _ h3.symm))
    · exact h5.trans (h1.fv.trans (congrArg _ h2.symm))
  | .group m c es, h, hc, e', hf => by
    have ht := h
    unfold Elem.Tidy at h
    unfold Elem.Centered at hc
    obtain ⟨es', h2⟩ := TidyList.flip h.1
    obtain ⟨vs, h8, h9⟩ := TidyList.vertices h.1 hc h2
    obtain ⟨t, h3, h4, h5⟩ := flip_group ht h2
    rw [h4] at hf
    simp only [Prod.mk.injEq, and_true] at hf
    subst hf
    obtain ⟨t0, h6, h7⟩ := h.2.1
    dsimp only at h6 h7
    have h9' : List.Forall₂ (fun e v => DenV e.mat v) es'.reverse (vs.map Vtx.mir).reverse :=
      List.forall₂_reverse_iff.2 (List.forall₂_map_right_iff.2 h9)
    have e1 := DenV.of_list h8 h6
    have e2 := DenV.of_list h9' h3
    refine ⟨_, by rw [Elem.mat, h7]; exact e1.of_refresh, ?_⟩
    rw [Elem.mat]
    refine DenV.of_refresh ?_
    rw [firstVertex_mir, lastVertex_mir, List.map_reverse, List.sum_reverse, mir_sum] at e2
    exact e2
theorem TidyList.vertices {air : Bool} : ∀ {es : List (Elem (Ext K))}, TidyList air es → CenteredList es →
    ∀ {es' : List (Elem (Ext K))}, List.Forall₂ (FlipOf air) es es' →
    ∃ vs : List (Vtx K), List.Forall₂ (fun e v => DenV e.mat v) es vs ∧
      List.Forall₂ (fun (e : Elem (Ext K)) (v : Vtx K) => DenV e.mat v.mir) es' vs
  | [], _, _, _, .nil => ⟨[], .nil, .nil⟩
  | e :: es, ht, hc, _, .cons h1 h2 => by
    unfold TidyList at ht
    unfold CenteredList at hc
    obtain ⟨v, h3, h4⟩ := Elem.Tidy.vertices ht.1 hc.1 h1.flip
    obtain ⟨vs, h5, h6⟩ := TidyList.vertices ht.2 hc.2 h2
    exact ⟨v :: vs, .cons h3 h5, .cons h4 h6⟩
end

/-- a property of elements that the index of a space does not change is kept when they are put in a group -/
theorem append_forall {P : Elem (Ext K) → Prop} (hP : ∀ e n, e.isSpace = true → P e → P (e.setIndices n))
    {g g' : Group (Ext K)} {e : Elem (Ext K)} (hg : ∀ x ∈ g.elems, P x) (he : P e) (h : g.append e = (g', .ok ())) :
    ∀ x ∈ g'.elems, P x := by
  have h1 : ∃ e', g'.elems = g.elems ++ [e'] ∧ P e' := by
    unfold Group.append at h
    split at h
    · exact ⟨e, by rw [← Group.push_elems, h], he⟩
    · next last _ =>
      split at h
      · split at h
        · next hs => exact ⟨_, by rw [← Group.push_elems, h], hP e _ hs he⟩
        · simp at h
      · exact ⟨e, by rw [← Group.push_elems, h], he⟩
  obtain ⟨e', h2, h3⟩ := h1
  rw [h2]
  intro x hx
  simp only [List.mem_append, List.mem_singleton] at hx
  rcases hx with hx | rfl
  · exact hg x hx
  · exact h3

theorem new_forall {P : Elem (Ext K) → Prop} (hP : ∀ e n, e.isSpace = true → P e → P (e.setIndices n))
    {es : List (Elem (Ext K))} {label : String} {g : Group (Ext K)} (h : Group.new es label = .ok g)
    (he : ∀ e ∈ es, P e) : ∀ e ∈ g.elems, P e := by
  have key : ∀ (es : List (Elem (Ext K))) (g0 : Group (Ext K)), (∀ x ∈ g0.elems, P x) → (∀ e ∈ es, P e) →
      g0.appendAll es = (g, .ok ()) → ∀ e ∈ g.elems, P e := by
    intro es
    induction es with
    | nil => intro g0 h0 _ h; simp only [Group.appendAll, Prod.mk.injEq, and_true] at h; subst h; exact h0
    | cons a as ih =>
      intro g0 h0 ha h
      obtain ⟨g1, h1, h2⟩ := Group.appendAll_cons_ok h
      exact ih g1 (append_forall hP h0 (ha a (by simp)) h1) (fun e he => ha e (by simp [he])) h2
  exact key es _ (by simp [Group.empty]) he (Group.new_eq h)

theorem Elem.Centered.setIndices {e : Elem (Ext K)} (n : Ext K) (h : e.Centered) : (e.setIndices n).Centered := by
  cases e with
  | group m c es => exact h
  | leaf m =>
    unfold Elem.setIndices
    unfold Elem.Centered at h ⊢
    obtain ⟨v, h1, h2⟩ := h
    exact ⟨v, ⟨h1.L, h1.fv, h1.bv⟩, h2⟩

mutual
theorem build_centered : ∀ {p : Part K}, p.Centered → ∀ {e : Elem (Ext K)}, p.build = .ok e → e.Centered
  | .space d n diam, hv, e, hb => by
    unfold Part.build at hb
    obtain ⟨m, h1, rfl⟩ := Except.map_ok hb
    obtain ⟨hn, hd, rfl⟩ := mkSpace_ok h1
    exact ⟨(d, none, none), ⟨rfl, rfl, rfl⟩, rfl, rfl⟩
  | .lens f diam, hv, e, hb => by
    unfold Part.build at hb
    obtain ⟨m, h1, rfl⟩ := Except.map_ok hb
    obtain ⟨hn, hd, rfl⟩ := mkLens_ok h1
    exact ⟨(0, some 0, some 0), ⟨zero_eq, congrArg some zero_eq, congrArg some zero_eq⟩, by simp, by simp⟩
  | .mirror f diam, hv, e, hb => by
    unfold Part.build at hb
    obtain ⟨m, h1, rfl⟩ := Except.map_ok hb
    obtain ⟨hn, hd, rfl⟩ := mkCurvedMirror_ok h1
    exact ⟨(0, some 0, some 0), ⟨zero_eq, congrArg some zero_eq, congrArg some zero_eq⟩, by simp, by simp⟩
  | .interface n1 n2 R diam, hv, e, hb => by
    unfold Part.build at hb
    obtain ⟨m, h1, rfl⟩ := Except.map_ok hb
    obtain ⟨hn, hR, hd, rfl⟩ := mkDielectric_ok h1
    exact ⟨(0, some 0, some 0), ⟨zero_eq, congrArg some zero_eq, congrArg some zero_eq⟩, by simp, by simp⟩
  | .thickLens n R1 R2 t diam, hv, e, hb => by
    unfold Part.build at hb
    obtain ⟨m, h1, rfl⟩ := Except.map_ok hb
    obtain ⟨hn, hR1, hR2, hd, rfl⟩ := mkThickOf_ok h1
    unfold Part.Centered at hv
    exact ⟨(t, some 0, some t), ⟨rfl, congrArg some zero_eq, rfl⟩, by simp [hv], by simp [hv]⟩
  | .slab n t diam, hv, e, hb => by
    unfold Part.build mkSlab at hb
    obtain ⟨m, h1, rfl⟩ := Except.map_ok hb
    obtain ⟨hn, hR1, hR2, hd, rfl⟩ := mkThickOf_ok (R1 := none) (R2 := none) h1
    unfold Part.Centered at hv
    exact ⟨(t, some 0, some t), ⟨rfl, congrArg some zero_eq, rfl⟩, by simp [hv], by simp [hv]⟩
  | .aperture diam na label, hv, e, hb => by
    unfold Part.build at hb
    obtain ⟨m, h1, rfl⟩ := Except.map_ok hb
    obtain ⟨hn, hd, rfl⟩ := mkAperture_ok h1
    exact ⟨(0, none, none), ⟨zero_eq, rfl, rfl⟩, rfl, rfl⟩
  | .matrix s fv bv diam, hv, e, hb => by
    unfold Part.build at hb
    obtain ⟨m, h1, rfl⟩ := Except.map_ok hb
    unfold Part.Centered at hv
    have hd := genericMat_den s fv bv diam
    obtain ⟨h2, -, -, h3⟩ := init_ok_facts hd h1
    have h4 : m = genericMat s fv bv diam := h3
    subst h4
    have key : ∀ o : Option K, (∀ v ∈ o, v + v = s.len) → o.map (s.len - ·) = o := by
      intro o ho
      cases o with
      | none => rfl
      | some v => simp [← ho v rfl]
    exact ⟨(s.len, fv, bv), ⟨rfl, rfl, rfl⟩, key fv hv.1, key bv hv.2⟩
  | .group label ps, hv, e, hb => by
    unfold Part.build at hb
    split at hb
    · simp at hb
    · next fs hf =>
      obtain ⟨g, h1, rfl⟩ := Except.map_ok hb
      unfold Part.Centered at hv
      unfold Group.toElem Elem.Centered
      exact CenteredList_iff.2 (new_forall (fun e n _ h => h.setIndices n) h1 (CenteredList_iff.1 (buildList_centered hv hf)))
theorem buildList_centered : ∀ {ps : List (Part K)}, Part.CenteredList ps → ∀ {es : List (Elem (Ext K))},
    Part.buildList ps = .ok es → CenteredList es
  | [], _, es, h => by
    simp only [Part.buildList, Except.ok.injEq] at h; subst h; trivial
  | p :: ps, hv, es, h => by
    unfold Part.buildList at h
    split at h
    · simp at h
    · next e he =>
      split at h
      · simp at h
      · next fs hf =>
        simp only [Except.ok.injEq] at h
        subst h
        unfold Part.CenteredList at hv
        exact ⟨build_centered hv.1 he, buildList_centered hv.2 hf⟩
end

mutual
theorem Elem.Tidy.sound {air : Bool} : ∀ {e : Elem (Ext K)}, e.Tidy air → e.Sound
  | .leaf m, h => by
    unfold Elem.Tidy at h
    exact ⟨h.flip.good.den, h.flip.linear⟩
  | .group m c es, h => by
    unfold Elem.Tidy at h
    have hh := h.2.1.header h.1.ok h.2.2.1
    exact ⟨TidyList.sound h.1, hh.den, hh.same, .inl h.2.2.2⟩
theorem TidyList.sound {air : Bool} : ∀ {es : List (Elem (Ext K))}, TidyList air es → SoundList es
  | [], _ => trivial
  | a :: as, h => by
    unfold TidyList at h
    exact ⟨Elem.Tidy.sound h.1, TidyList.sound h.2⟩
end

mutual
theorem Elem.Tidy.noCache {air : Bool} : ∀ {e : Elem (Ext K)}, e.Tidy air → e.NoCache → ∀ {e' : Elem (Ext K)},
    e.flip = (e', .ok ()) → e'.NoCache
  | .leaf m, _, _, e', hf => by
    unfold Elem.flip at hf
    simp only [Prod.mk.injEq] at hf
    obtain ⟨rfl, -⟩ := hf
    trivial
  | .group m c es, h, hc, e', hf => by
    have ht := h
    unfold Elem.Tidy at h
    unfold Elem.NoCache at hc
    obtain ⟨es', h2⟩ := TidyList.flip h.1
    obtain ⟨t, h3, h4, h5⟩ := flip_group ht h2
    rw [h4] at hf
    simp only [Prod.mk.injEq, and_true] at hf
    subst hf
    unfold Elem.NoCache
    refine ⟨hc.1, NoCacheList_iff.2 fun e he => ?_⟩
    exact TidyList.noCache h.1 hc.2 h2 e (by simpa using he)
theorem TidyList.noCache {air : Bool} : ∀ {es : List (Elem (Ext K))}, TidyList air es → NoCacheList es →
    ∀ {es' : List (Elem (Ext K))}, List.Forall₂ (FlipOf air) es es' → ∀ e ∈ es', e.NoCache
  | [], _, _, _, .nil, e, he => by simp at he
  | a :: as, ht, hc, _ :: _, .cons h1 h2, e, he => by
    unfold TidyList at ht
    unfold NoCacheList at hc
    rcases List.mem_cons.1 he with heq | he
    · rw [heq]; exact Elem.Tidy.noCache ht.1 hc.1 h1.flip
    · exact TidyList.noCache ht.2 hc.2 h2 e he
end

/-- the last ray of the trace through a system without caches, when it is not blocked -/
theorem through_sound {e : Elem (Ext K)} (h1 : e.Sound) (h2 : e.NoCache) {a : Nat} {h : Heap (Ext K)}
    (ha : a < h.length) {y θ z : K} (hr : FinRay (h.get a) y θ z)
    (hopen : ((e.traceH a h).2.1.get (e.traceThroughH a h).1).isBlocked = false) :
    FinRay ((e.traceH a h).2.1.get (e.traceThroughH a h).1) (e.mat.sys.outY y θ) (e.mat.sys.outθ y θ)
      (z + e.mat.sys.len) := by
  obtain ⟨i1, i2, i3⟩ := h1.items
  obtain ⟨q1, q2⟩ := e.traceH_eq h2 a h
  have hs := runH_spec e.items i1.linear ha
  rw [← q1, ← q2] at hs
  obtain ⟨e1, e2⟩ := hs
  have hl : (e.traceH a h).2.1.get (e.traceThroughH a h).1 =
      (runTrace e.items (settle e.items (h.get a))).getLast?.getD (settle e.items (h.get a)) := by
    rw [← e1]
    unfold Elem.traceThroughH Heap.deref
    rw [List.getLast?_map]
    cases hx : (e.traceH a h).1.getLast? with
    | none => exact e2
    | some l => rfl
  rw [hl] at hopen ⊢
  have := runTrace_last i1 (hr.settle e.items) hopen
  rw [i2, i3] at this
  exact this

end RT
