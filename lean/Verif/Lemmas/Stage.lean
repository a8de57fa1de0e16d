import Verif.Lemmas.Many
import Verif.Spec.Stage

/-! # Traces through a built system, in terms of its stages -/

set_option linter.unusedSectionVars false

namespace RT
open PyNum Ext
variable {K : Type} [Field K] [LinearOrder K] [IsStrictOrderedRing K]

/-- the elements met by a trace -/
def leaves {F : Type} : List (Item F) → List (Mat F)
  | [] => []
  | .dup :: is => leaves is
  | .leaf m :: is => m :: leaves is

theorem leaves_append {F : Type} (is js : List (Item F)) : leaves (is ++ js) = leaves is ++ leaves js := by
  induction is with
  | nil => rfl
  | cons i is ih => cases i <;> simp [leaves, ih]

/-- the element `m` behaves as the stage `st` -/
structure StageOf (m : Mat (Ext K)) (st : Stage K) : Prop where
  A : m.A = fin st.a
  B : m.B = fin st.b
  C : m.C = fin st.c
  D : m.D = fin st.d
  L : m.L = fin st.len
  diam : m.apertureDiameter = optInf st.diam
  na : m.apertureNA = optInf st.na
  linear : m.Linear
  diam_pos : ∀ D, st.diam = some D → 0 < D
  na_pos : ∀ N, st.na = some N → 0 < N

theorem StageOf.of_den {m : Mat (Ext K)} {s : Sys K} {diam na : Option K} (hd : Den m s) (hl : m.Linear)
    (h1 : m.apertureDiameter = optInf diam) (h2 : m.apertureNA = optInf na) (h3 : DiamOk (optInf diam : Ext K))
    (h4 : ∀ N, na = some N → 0 < N := by simp) : StageOf m (s.stage diam na) := by
  refine ⟨hd.A, hd.B, hd.C, hd.D, hd.L, h1, h2, hl, ?_, h4⟩
  rintro D hD
  change diam = some D at hD
  subst hD
  exact diamOk_fin.1 h3

/-- the stages of the items -/
def ItemStages (is : List (Item (Ext K))) (ss : List (Stage K)) : Prop := List.Forall₂ StageOf (leaves is) ss

theorem ItemStages.append {is js : List (Item (Ext K))} {ss ts : List (Stage K)} (h1 : ItemStages is ss)
    (h2 : ItemStages js ts) : ItemStages (is ++ js) (ss ++ ts) := by
  unfold ItemStages; rw [leaves_append]; exact List.rel_append h1 h2

theorem itemStages_single {m : Mat (Ext K)} {st : Stage K} (h : StageOf m st) :
    ItemStages (Elem.leaf m).items [st] := .cons h .nil

theorem itemStages_forget {e : Elem (Ext K)} {ss : List (Stage K)} :
    ItemStages e.forget.items ss ↔ ItemStages e.items ss := by
  unfold Elem.forget
  split_ifs
  · cases e with
    | group m c es => simp [Elem.setIndices, Elem.items, ItemStages, leaves]
    | leaf m =>
      have key : ∀ st, StageOf { m with frontIndex := (0 : Ext K), backIndex := 0 } st ↔ StageOf m st := fun st =>
        ⟨fun h => ⟨h.A, h.B, h.C, h.D, h.L, h.diam, h.na, h.linear, h.diam_pos, h.na_pos⟩,
         fun h => ⟨h.A, h.B, h.C, h.D, h.L, h.diam, h.na, h.linear, h.diam_pos, h.na_pos⟩⟩
      simp only [Elem.setIndices, Elem.items, ItemStages, leaves]
      constructor
      · intro h; cases h with | cons h1 h2 => exact .cons ((key _).1 h1) h2
      · intro h; cases h with | cons h1 h2 => exact .cons ((key _).2 h1) h2
  · rfl

theorem itemStages_congr {es fs : List (Elem (Ext K))} (h : es.map Elem.forget = fs.map Elem.forget)
    {ss : List (Stage K)} (hs : ItemStages (itemsList fs) ss) : ItemStages (itemsList es) ss := by
  induction fs generalizing es ss with
  | nil =>
    simp only [List.map_nil, List.map_eq_nil_iff] at h
    subst h; exact hs
  | cons f fs ih =>
    cases es with
    | nil => simp at h
    | cons e es =>
      simp only [List.map_cons, List.cons.injEq] at h
      unfold itemsList at hs ⊢
      unfold ItemStages at hs
      rw [leaves_append] at hs
      obtain ⟨s1, s2, rfl, h1, h2⟩ : ∃ s1 s2, ss = s1 ++ s2 ∧ List.Forall₂ StageOf (leaves f.items) s1 ∧
          List.Forall₂ StageOf (leaves (itemsList fs)) s2 := by
        refine ⟨ss.take (leaves f.items).length, ss.drop (leaves f.items).length, by simp, ?_, ?_⟩
        · exact (List.forall₂_take_append _ _ _ hs.flip).flip
        · exact (List.forall₂_drop_append _ _ _ hs.flip).flip
      refine ItemStages.append ?_ (ih h.2 h2)
      rw [← itemStages_forget, h.1, itemStages_forget]
      exact h1

mutual
/-- The elements of a built system behave as its stages. -/
theorem build_stages : ∀ {p : Part K} {e : Elem (Ext K)}, p.build = .ok e → ItemStages e.items p.stages
  | .space d n diam, e, hb => by
    unfold Part.build at hb
    obtain ⟨m, h1, rfl⟩ := Except.map_ok hb
    obtain ⟨-, h2, rfl⟩ := mkSpace_ok h1
    exact itemStages_single (.of_den (spaceMat_den d n _) (by simp [Mat.Linear, spaceMat]) rfl rfl h2)
  | .lens f diam, e, hb => by
    unfold Part.build at hb
    obtain ⟨m, h1, rfl⟩ := Except.map_ok hb
    obtain ⟨-, h2, rfl⟩ := mkLens_ok h1
    exact itemStages_single (.of_den (lensMat_den f (optInf diam)) (by simp [Mat.Linear, lensMat]) rfl rfl h2)
  | .mirror R diam, e, hb => by
    unfold Part.build at hb
    obtain ⟨m, h1, rfl⟩ := Except.map_ok hb
    obtain ⟨-, h2, rfl⟩ := mkCurvedMirror_ok h1
    exact itemStages_single (.of_den (mirrorMat_den R (optInf diam)) (by simp [Mat.Linear, mirrorMat]) rfl rfl h2)
  | .interface n1 n2 R diam, e, hb => by
    unfold Part.build at hb
    obtain ⟨m, h1, rfl⟩ := Except.map_ok hb
    obtain ⟨-, -, h2, rfl⟩ := mkDielectric_ok h1
    have hd := interfaceMat_den n1 n2 (optInf R) (optInf diam)
    rw [curv_optInf] at hd
    exact itemStages_single (.of_den hd (by simp [Mat.Linear, interfaceMat]) rfl rfl h2)
  | .thickLens n R1 R2 t diam, e, hb => by
    unfold Part.build at hb
    obtain ⟨m, h1, rfl⟩ := Except.map_ok hb
    obtain ⟨hn, -, -, h2, rfl⟩ := mkThickOf_ok h1
    have hd := thickMat_den (.thickLens (fin n) (optInf R1) (optInf R2)) (optInf R1) (optInf R2) t (optInf diam) hn
    rw [curv_optInf, curv_optInf] at hd
    exact itemStages_single (.of_den hd (by simp [Mat.Linear, thickMat]) rfl rfl h2)
  | .slab n t diam, e, hb => by
    unfold Part.build mkSlab at hb
    obtain ⟨m, h1, rfl⟩ := Except.map_ok hb
    obtain ⟨hn, -, -, h2, rfl⟩ := mkThickOf_ok (R1 := none) (R2 := none) h1
    have hd := thickMat_den (.slab (fin n) inf inf) (optInf none) (optInf none) t (optInf diam) hn
    rw [curv_optInf] at hd
    exact itemStages_single (.of_den hd (by simp [Mat.Linear, thickMat]) rfl rfl h2)
  | .aperture diam na label, e, hb => by
    unfold Part.build at hb
    obtain ⟨m, h1, rfl⟩ := Except.map_ok hb
    obtain ⟨h2, h3, rfl⟩ := mkAperture_ok h1
    exact itemStages_single (.of_den (apertureMat_den (optInf diam) (optInf na) label)
      (by simp [Mat.Linear, apertureMat]) rfl rfl h2 (by rintro N rfl; exact diamOk_fin.1 h3))
  | .matrix s fv bv diam, e, hb => by
    unfold Part.build at hb
    obtain ⟨m, h1, rfl⟩ := Except.map_ok hb
    obtain ⟨h2, -, -, rfl⟩ := init_ok_facts (genericMat_den s fv bv diam) h1
    have hd := genericMat_den s fv bv diam
    exact itemStages_single (.of_den (s := s) ⟨hd.A, hd.B, hd.C, hd.D, hd.L, hd.nf, hd.nb⟩
      (by simp [Mat.Linear, genericMat, Mat.one]) rfl rfl h2)
  | .group label ps, e, hb => by
    unfold Part.build at hb
    split at hb
    · simp at hb
    · next es hes =>
      obtain ⟨g, hnew, rfl⟩ := Except.map_ok hb
      exact itemStages_congr (Group.new_elems hnew) (buildList_stages hes)
theorem buildList_stages : ∀ {ps : List (Part K)} {es : List (Elem (Ext K))}, Part.buildList ps = .ok es →
    ItemStages (itemsList es) (Part.stagesList ps)
  | [], es, hb => by
    simp only [Part.buildList, Except.ok.injEq] at hb; subst hb; exact .nil
  | p :: ps, es, hb => by
    unfold Part.buildList at hb
    split at hb
    · simp at hb
    · next e he =>
      split at hb
      · simp at hb
      · next es' hes =>
        simp only [Except.ok.injEq] at hb; subst hb
        exact (build_stages he).append (buildList_stages hes)
end

/-! ## What a trace does, stage by stage -/

theorem half_optInf (o : Option K) : half (optInf o : Ext K) = optInf (o.map (· / 2)) := by
  cases o with
  | none => simp [half, optInf, infOf]
  | some x => simp [half, optInf]

theorem optInf_lt (o : Option K) (x : K) : ((optInf o : Ext K) <. fin x) = true ↔ ∃ D, o = some D ∧ D < x := by
  cases o <;> simp [optInf]

theorem StageOf.stops {m : Mat (Ext K)} {st : Stage K} (h : StageOf m st) {r : Ray (Ext K)} {y θ z : K}
    (hr : FinRay r y θ z) : m.stops r = true ↔ st.Stops (y, θ) := by
  unfold Mat.stops Stage.Stops
  rw [Bool.or_eq_true, h.diam, h.na, hr.y, hr.theta, abs_fin, abs_fin, half_optInf, optInf_lt, optInf_lt]
  refine or_congr ?_ Iff.rfl
  cases st.diam <;> simp

theorem StageOf.stopsEntry {m : Mat (Ext K)} {st : Stage K} (h : StageOf m st) {r : Ray (Ext K)} {y θ z : K}
    (hr : FinRay r y θ z) (hs : m.stopsEntry r = true) : st.Stops (y, θ) := by
  rw [← h.stops hr]
  unfold Mat.stopsEntry at hs
  unfold Mat.stops
  simp only [Bool.and_eq_true] at hs
  simp [hs.2]

theorem StageOf.out {m : Mat (Ext K)} {st : Stage K} (h : StageOf m st) {r : Ray (Ext K)} {y θ z : K}
    (hr : FinRay r y θ z) (hb : r.isBlocked = false) :
    FinRay (m.mulRayBase r) (st.out (y, θ)).1 (st.out (y, θ)).2 (z + st.len) ∧
    ((m.mulRayBase r).isBlocked = true ↔ st.Stops (y, θ)) ∧
    (m.mulRayBase r).apertureDiameter = optInf st.diam := by
  refine ⟨⟨?_, ?_, ?_⟩, ?_, ?_⟩
  · simp [Mat.mulRayBase, hb, h.A, h.B, hr.y, hr.theta, Stage.out]
  · simp [Mat.mulRayBase, hb, h.C, h.D, hr.y, hr.theta, Stage.out]
  · simp [Mat.mulRayBase, hb, h.L, hr.z, add_comm]
  · rw [← h.stops hr]
    simp only [Mat.mulRayBase, hb, Bool.false_eq_true, if_false]
    split_ifs with h1 <;> simp [h1]
  · simp [Mat.mulRayBase, hb, h.diam]

theorem entryStops_stage {is : List (Item (Ext K))} {ss : List (Stage K)} (h : ItemStages is ss) {r : Ray (Ext K)}
    {y θ z : K} (hr : FinRay r y θ z) (hs : entryStops is r = true) : Blocked ss (y, θ) := by
  induction is with
  | nil => simp [entryStops] at hs
  | cons i is ih =>
    cases i with
    | dup => exact ih h hs
    | leaf m =>
      cases h with
      | cons h1 h2 => exact .inl (h1.stopsEntry hr hs)

theorem getLast?_cons_getD' {α : Type} (r0 : α) (l : List α) (d : α) :
    (r0 :: l).getLast?.getD d = l.getLast?.getD r0 := by
  cases l with
  | nil => rfl
  | cons x l => simp [List.getLast?_cons]

theorem runTrace_leaf_last {F : Type} [PyNum F] (m : Mat F) (is : List (Item F)) (r : Ray F) :
    (runTrace (.leaf m :: is) r).getLast?.getD r =
      (runTrace is (if r.isBlocked then r else settle is (m.mulRayBase r))).getLast?.getD
        (if r.isBlocked then r else settle is (m.mulRayBase r)) := by
  simp only [runTrace]
  split_ifs <;> simp only [List.cons_append, List.nil_append, getLast?_cons_getD']

/-- A traced ray ends blocked when some stage stops it, and only then. -/
theorem runTrace_blocked_iff {is : List (Item (Ext K))} {ss : List (Stage K)} (h : ItemStages is ss)
    {r : Ray (Ext K)} {y θ z : K} (hr : FinRay r y θ z) (hset : entryStops is r = true → r.isBlocked = true) :
    ((runTrace is r).getLast?.getD r).isBlocked = true ↔ r.isBlocked = true ∨ Blocked ss (y, θ) := by
  induction is generalizing ss r y θ z with
  | nil => cases h; simp [runTrace, Blocked]
  | cons i is ih =>
    cases i with
    | dup =>
      simp only [runTrace, getLast?_cons_getD']
      exact ih h hr hset
    | leaf m =>
      rw [runTrace_leaf_last]
      cases h with
      | @cons _ st _ ss h1 h2 =>
        by_cases hb : r.isBlocked = true
        · simp only [hb, if_true, true_or, iff_true]
          cases hx : (runTrace is r).getLast? with
          | none => exact hb
          | some x => rw [Option.getD_some, runTrace_blocked is hb x (List.mem_of_getLast? hx)]; exact hb
        · rw [Bool.not_eq_true] at hb
          obtain ⟨o1, o2, -⟩ := h1.out hr hb
          simp only [hb, Bool.false_eq_true, if_false, false_or]
          rw [ih h2 (o1.settle is)]
          · simp only [settle, Bool.or_eq_true, o2, Blocked]
            constructor
            · rintro ((h | h) | h)
              · exact .inl h
              · exact .inr (entryStops_stage h2 o1 h)
              · exact .inr h
            · rintro (h | h)
              · exact .inl (.inl h)
              · exact .inr h
          · intro he
            rw [entryStops_congr is (r := settle is (m.mulRayBase r)) (s := m.mulRayBase r) rfl] at he
            simp [settle, he]

/-- The same for the trace of a new ray. -/
theorem traceV_blocked_iff {is : List (Item (Ext K))} {ss : List (Stage K)} (h : ItemStages is ss)
    {r : Ray (Ext K)} {y θ z : K} (hr : FinRay r y θ z) (hb : r.isBlocked = false) :
    (lastV is r).isBlocked = true ↔ Blocked ss (y, θ) := by
  have key := runTrace_blocked_iff h (hr.settle is) (by
    intro he
    rw [entryStops_congr is (r := settle is r) (s := r) rfl] at he
    simp [settle, he])
  unfold lastV traceV
  cases hx : (runTrace is (settle is r)).getLast? with
  | some x =>
    rw [hx, Option.getD_some] at key
    rw [Option.getD_some, key]
    simp only [settle, hb, Bool.false_or, or_iff_right_iff_imp]
    exact entryStops_stage h hr
  | none =>
    have : leaves is = [] := by
      cases is with
      | nil => rfl
      | cons i is =>
        cases i <;> simp [runTrace] at hx
    unfold ItemStages at h
    rw [this] at h
    cases h
    simp [Blocked, hb]

/-! ## The trail of a ray through thin openings -/

/-- The planes a ray crosses, up to the one that stops it: position, height and diameter. -/
noncomputable def trail : List (Stage K) → K → K × K → List (K × K × Option K)
  | [], _, _ => []
  | s :: ss, z, r => (z + s.len, (s.out r).1, s.diam) ::
      (open Classical in if s.Stops r then [] else trail ss (z + s.len) (s.out r))

theorem thin_stopsEntry {m : Mat (Ext K)} {st : Stage K} (h : StageOf m st) (ht : st.diam ≠ none → st.len = 0)
    (r : Ray (Ext K)) : m.stopsEntry r = false := by
  unfold Mat.stopsEntry
  cases hd : st.diam with
  | none =>
    rw [h.diam, hd]
    have : half (optInf (none : Option K) : Ext K) = pinf := by simp [half, optInf, infOf]
    rw [this]; simp
  | some D =>
    rw [h.L, ht (by simp [hd])]
    simp

theorem thin_entryStops {is : List (Item (Ext K))} {ss : List (Stage K)} (h : ItemStages is ss) (ht : ThinOpenings ss)
    (r : Ray (Ext K)) : entryStops is r = false := by
  induction is with
  | nil => rfl
  | cons i is ih =>
    cases i with
    | dup => exact ih h
    | leaf m =>
      cases h with
      | cons h1 h2 => exact thin_stopsEntry h1 (fun hd => (ht _ (by simp) hd).2.2) r

/-- the values of an entry of the trace -/
def SeenAt (s : Ray (Ext K)) (o : K × K × Option K) : Prop :=
  s.z = fin o.1 ∧ s.y = fin o.2.1 ∧ s.apertureDiameter = optInf o.2.2

/-- The trace shows the trail and nothing else. -/
theorem runTrace_trail {is : List (Item (Ext K))} {ss : List (Stage K)} (h : ItemStages is ss) (ht : ThinOpenings ss)
    {r : Ray (Ext K)} {y θ z : K} (hr : FinRay r y θ z) (hb : r.isBlocked = false) :
    (∀ s ∈ runTrace is r, s = r ∨ ∃ o ∈ trail ss z (y, θ), SeenAt s o) ∧
    (∀ o ∈ trail ss z (y, θ), ∃ s ∈ runTrace is r, SeenAt s o) := by
  induction is generalizing ss r y θ z with
  | nil => cases h; simp [runTrace, trail]
  | cons i is ih =>
    cases i with
    | dup =>
      obtain ⟨i1, i2⟩ := ih h ht hr hb
      simp only [runTrace, List.mem_cons]
      refine ⟨?_, fun o ho => ?_⟩
      · rintro s (rfl | hs)
        · exact .inl rfl
        · exact i1 s hs
      · obtain ⟨s, h1, h2⟩ := i2 o ho
        exact ⟨s, .inr h1, h2⟩
    | leaf m =>
      cases h with
      | @cons _ st _ ss h1 h2 =>
        have ht' : ThinOpenings ss := fun s hs => ht s (List.mem_cons_of_mem _ hs)
        obtain ⟨o1, o2, o3⟩ := h1.out hr hb
        have hset : settle is (m.mulRayBase r) = m.mulRayBase r := by
          unfold settle; rw [thin_entryStops h2 ht']; simp
        have hseen : SeenAt (m.mulRayBase r) (z + st.len, (st.out (y, θ)).1, st.diam) := ⟨o1.z, o1.y, o3⟩
        simp only [runTrace, hb, Bool.false_eq_true, if_false, hset, trail, List.mem_append, List.mem_cons]
        have hpre : ∀ s ∈ (if 0 <. m.L then [r] else []), s = r := by
          intro s hs; split_ifs at hs
          · simpa using hs
          · simp at hs
        by_cases hst : st.Stops (y, θ)
        · have hbl := o2.2 hst
          rw [if_pos hst]
          refine ⟨?_, ?_⟩
          · rintro s (hs | rfl | hs)
            · exact .inl (hpre s hs)
            · exact .inr ⟨_, .inl rfl, hseen⟩
            · rw [runTrace_blocked is hbl s hs]
              exact .inr ⟨_, .inl rfl, hseen⟩
          · rintro o (rfl | ho)
            · exact ⟨_, .inr (.inl rfl), hseen⟩
            · simp at ho
        · have hbl : (m.mulRayBase r).isBlocked = false := by
            rw [← Bool.not_eq_true, o2]; exact hst
          rw [if_neg hst]
          obtain ⟨i1, i2⟩ := ih h2 ht' o1 hbl
          refine ⟨?_, ?_⟩
          · rintro s (hs | rfl | hs)
            · exact .inl (hpre s hs)
            · exact .inr ⟨_, .inl rfl, hseen⟩
            · rcases i1 s hs with rfl | ⟨o, h3, h4⟩
              · exact .inr ⟨_, .inl rfl, hseen⟩
              · exact .inr ⟨o, .inr h3, h4⟩
          · rintro o (rfl | ho)
            · exact ⟨_, .inr (.inl rfl), hseen⟩
            · obtain ⟨s, h3, h4⟩ := i2 o ho
              exact ⟨s, .inr (.inr h3), h4⟩

theorem trail_mem {ss : List (Stage K)} {z : K} {r : K × K} {o : K × K × Option K} :
    o ∈ trail ss z r ↔ ∃ (i : Nat) (s : Stage K), (crossed ss r)[i]? = some s ∧
      o = (z + zBefore ss i + s.len, (s.out (rayBefore ss i r)).1, s.diam) := by
  induction ss generalizing z r with
  | nil => simp [trail, crossed]
  | cons s ss ih =>
    simp only [trail, crossed, List.mem_cons]
    constructor
    · rintro (rfl | h)
      · exact ⟨0, s, rfl, by simp [zBefore, rayBefore]⟩
      · split_ifs at h ⊢ with hs
        · simp at h
        · obtain ⟨i, t, h1, h2⟩ := ih.1 h
          exact ⟨i + 1, t, by simpa using h1, by rw [h2]; simp [zBefore, rayBefore, add_assoc]⟩
    · rintro ⟨i, t, h1, h2⟩
      cases i with
      | zero =>
        simp only [List.getElem?_cons_zero, Option.some.injEq] at h1
        subst h1
        exact .inl (by rw [h2]; simp [zBefore, rayBefore])
      | succ i =>
        right
        split_ifs at h1 ⊢ with hs
        · simp at h1
        · exact ih.2 ⟨i, t, by simpa using h1, by rw [h2]; simp [zBefore, rayBefore, add_assoc]⟩

end RT
