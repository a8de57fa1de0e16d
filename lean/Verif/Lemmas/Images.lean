import Verif.Model.Images
import Verif.Lemmas.Efficiency
import Verif.Props.Derived
import Verif.Props.SubPath

/-! # A system cut at one of its spaces -/

set_option linter.unusedSectionVars false

namespace RT
open PyNum Ext
variable {K : Type} [Field K] [LinearOrder K] [IsStrictOrderedRing K]

theorem buildList_append {ps qs : List (Part K)} {es : List (Elem (Ext K))} (h : Part.buildList (ps ++ qs) = .ok es) :
    ∃ es1 es2, es = es1 ++ es2 ∧ Part.buildList ps = .ok es1 ∧ Part.buildList qs = .ok es2 := by
  induction ps generalizing es with
  | nil => exact ⟨[], es, rfl, rfl, h⟩
  | cons p ps ih =>
    rw [List.cons_append] at h
    unfold Part.buildList at h
    split at h
    · simp at h
    · next e he =>
      split at h
      · simp at h
      · next es' hes =>
        simp only [Except.ok.injEq] at h; subst h
        obtain ⟨es1, es2, rfl, h1, h2⟩ := ih hes
        refine ⟨e :: es1, es2, rfl, ?_, h2⟩
        unfold Part.buildList
        rw [he, h1]

/-- the lengths of the stages, added -/
def totalLength (ss : List (Stage K)) : K := (ss.map Stage.len).sum

theorem itemStages_split {is js : List (Item (Ext K))} {ss : List (Stage K)} (h : ItemStages (is ++ js) ss) :
    ∃ s1 s2, ss = s1 ++ s2 ∧ ItemStages is s1 ∧ ItemStages js s2 := by
  unfold ItemStages at h
  rw [leaves_append] at h
  refine ⟨ss.take (leaves is).length, ss.drop (leaves is).length, by simp, ?_, ?_⟩
  · exact (List.forall₂_take_append _ _ _ h.flip).flip
  · exact (List.forall₂_drop_append _ _ _ h.flip).flip

mutual
theorem Elem.Good.total : ∀ {e : Elem (Ext K)}, e.Good → ∀ {ss : List (Stage K)}, ItemStages e.items ss →
    e.mat.sys.len = totalLength ss
  | .leaf m, h, ss, hs => by
    unfold Elem.Good at h
    unfold ItemStages at hs
    simp only [Elem.items, leaves] at hs
    cases hs with
    | cons h1 h2 =>
      cases h2
      have := h1.L
      rw [h.den.L] at this
      simpa [totalLength, Elem.mat] using this
  | .group m c es, h, ss, hs => by
    unfold Elem.Good at h
    have hs' : ItemStages (itemsList es) ss := by
      unfold ItemStages at hs ⊢
      simpa [Elem.items, leaves] using hs
    rw [← GoodList.total h.1 hs', lengthOf]
    have := h.2.same.2.2.2.2
    simp only [Elem.mat]
    rw [this]
    have e : ∀ (ss : List (Sys K)) (a : Sys K), (Sys.chain a ss).len = a.len + (ss.map Sys.len).sum := by
      intro ss
      induction ss with
      | nil => intro a; simp [Sys.chain]
      | cons s ss ih => intro a; change (Sys.chain (a.andThen s) ss).len = _; rw [ih]; simp [Sys.andThen, add_assoc]
    rw [e]
    simp [Sys.one, sysList]
theorem GoodList.total : ∀ {es : List (Elem (Ext K))}, GoodList es → ∀ {ss : List (Stage K)}, ItemStages (itemsList es) ss →
    lengthOf es = totalLength ss
  | [], _, ss, hs => by
    unfold ItemStages at hs
    simp only [itemsList, leaves] at hs
    cases hs
    simp [totalLength, lengthOf, sysList]
  | e :: es, h, ss, hs => by
    unfold GoodList at h
    unfold itemsList at hs
    obtain ⟨s1, s2, rfl, h1, h2⟩ := itemStages_split hs
    rw [lengthOf_cons, Elem.Good.total h.1 h1, GoodList.total h.2 h2]
    simp [totalLength]
end

/-- the part is not a group -/
def Part.Single : Part K → Prop
  | .group _ _ => False
  | _ => True

theorem Part.Single.leaf {p : Part K} (h : p.Single) {e : Elem (Ext K)} (hb : p.build = .ok e) : ∃ m, e = .leaf m := by
  cases p with
  | group label ps => exact absurd h (by simp [Part.Single])
  | _ =>
    unfold Part.build at hb
    obtain ⟨m, -, rfl⟩ := Except.map_ok hb
    exact ⟨m, rfl⟩

theorem forget_leaf {e f : Elem (Ext K)} (h : e.forget = f.forget) (hf : ∃ m, f = .leaf m) : ∃ m, e = .leaf m := by
  obtain ⟨m, rfl⟩ := hf
  cases e with
  | leaf m' => exact ⟨m', rfl⟩
  | group m' c es =>
    exfalso
    unfold Elem.forget at h
    split_ifs at h <;> simp [Elem.setIndices] at h

theorem forget_space {e : Elem (Ext K)} {d n : K} {diam : Ext K}
    (h : e.forget = (Elem.leaf (spaceMat (fin d) (fin n) diam)).forget)
    (hair : e.mat.frontIndex = fin 1 ∧ e.mat.backIndex = fin 1) : e = .leaf (spaceMat (fin d) (fin 1) diam) := by
  obtain ⟨m, rfl⟩ := forget_leaf h ⟨_, rfl⟩
  have hs : (Elem.leaf (spaceMat (fin d) (fin n) diam : Mat (Ext K))).isSpace = true := rfl
  unfold Elem.forget at h
  rw [if_pos hs] at h
  split_ifs at h with h1
  · simp only [Elem.setIndices, spaceMat, Elem.leaf.injEq, Mat.mk.injEq] at h
    obtain ⟨h1, h2, h3, h4, h5, h6, h7, h8, h9, h10, h11, h12, h13⟩ := h
    simp only [Elem.mat] at hair
    rw [Elem.leaf.injEq]
    cases m
    simp_all [spaceMat]
  · exfalso
    apply h1
    rw [h]
    rfl

/-- **Cutting a path in air at one of its spaces.** -/
theorem group_cut {label : String} {qs rs : List (Part K)} {d n : K} {diam : Option K} {g : Group (Ext K)}
    (hb : (Part.group label (qs ++ .space d n diam :: rs)).build = .ok g.toElem) (hair : EdgesInAir g.elems) :
    ∃ pre post, g.elems = pre ++ .leaf (spaceMat (fin d) (fin 1) (optInf diam)) :: post ∧
      ItemStages (itemsList pre) (Part.stagesList qs) ∧ ItemStages (itemsList post) (Part.stagesList rs) ∧
      ((∀ q ∈ qs, q.Single) → ∀ e ∈ pre, ∃ m, e = .leaf m) ∧
      ((∀ r ∈ rs, r.Single) → ∀ e ∈ post, ∃ m, e = .leaf m) := by
  unfold Part.build at hb
  split at hb
  · simp at hb
  · next es hes =>
    obtain ⟨g', hnew, hg'⟩ := Except.map_ok hb
    have hel : g.elems = g'.elems := by
      unfold Group.toElem at hg'
      simp only [Elem.group.injEq] at hg'
      exact hg'.2.2.symm ▸ rfl
    have hfo := Group.new_elems hnew
    rw [← hel] at hfo
    obtain ⟨es1, es2', rfl, h1, h2⟩ := buildList_append hes
    unfold Part.buildList at h2
    split at h2
    · simp at h2
    · next e he =>
      split at h2
      · simp at h2
      · next es2 hes2 =>
        simp only [Except.ok.injEq] at h2; subst h2
        rw [List.map_append, List.map_cons] at hfo
        obtain ⟨pre, l2, hsplit, hp1, hp2⟩ := List.map_eq_append_iff.1 hfo
        obtain ⟨x, post, rfl, hx, hp3⟩ := List.map_eq_cons_iff.1 hp2
        unfold Part.build at he
        obtain ⟨m, hm, rfl⟩ := Except.map_ok he
        obtain ⟨-, -, rfl⟩ := mkSpace_ok hm
        have hxe := forget_space hx (hair x (by rw [hsplit]; simp))
        refine ⟨pre, post, by rw [hsplit, hxe], itemStages_congr hp1 (buildList_stages h1),
          itemStages_congr hp3 (buildList_stages hes2), ?_, ?_⟩
        · intro hq e he
          have hmem : e.forget ∈ es1.map Elem.forget := by rw [← hp1]; exact List.mem_map_of_mem he
          obtain ⟨f, hf, hfe⟩ := List.mem_map.1 hmem
          obtain ⟨q, hq', hqb⟩ := buildList_mem h1 f hf
          exact forget_leaf hfe.symm ((hq q hq').leaf hqb)
        · intro hq e he
          have hmem : e.forget ∈ es2.map Elem.forget := by rw [← hp3]; exact List.mem_map_of_mem he
          obtain ⟨f, hf, hfe⟩ := List.mem_map.1 hmem
          obtain ⟨q, hq', hqb⟩ := buildList_mem hes2 f hf
          exact forget_leaf hfe.symm ((hq q hq').leaf hqb)

theorem stages_nonneg {p : Part K} (h : p.NonNeg) : ∀ s ∈ p.stages, 0 ≤ s.len := by
  have : ∀ {ps : List (Prim K)} {ss : List (Stage K)}, Pieces ps ss → ∀ s ∈ ss, 0 ≤ s.len := by
    intro ps ss h
    induction h with
    | nil => simp
    | cons h0 _ h2 _ _ ih =>
      intro s hs
      rcases List.mem_cons.1 hs with rfl | hs
      · rw [← h2]; exact extent_nonneg h0
      · exact ih s hs
  exact this (Part.pieces h)

end RT
