import Verif.Props.Profile
import Verif.Lemmas.Stage
import Verif.Props.Cardinal
import Verif.Lemmas.Matched
import Verif.Lemmas.Behind

/-! # C138: units of length do not matter for rays -/

set_option linter.unusedSectionVars false

namespace RT
open PyNum Ext
variable {K : Type} [Field K] [LinearOrder K] [IsStrictOrderedRing K]

mutual
/-- the same system with all lengths written in a unit `s` times smaller -/
def Part.inUnit (s : K) : Part K → Part K
  | .space d n diam => .space (s * d) n (diam.map (s * ·))
  | .lens f diam => .lens (s * f) (diam.map (s * ·))
  | .mirror R diam => .mirror (s * R) (diam.map (s * ·))
  | .interface n1 n2 R diam => .interface n1 n2 (R.map (s * ·)) (diam.map (s * ·))
  | .thickLens n R1 R2 t diam => .thickLens n (R1.map (s * ·)) (R2.map (s * ·)) (s * t) (diam.map (s * ·))
  | .slab n t diam => .slab n (s * t) (diam.map (s * ·))
  | .aperture diam na label => .aperture (diam.map (s * ·)) na label
  | .matrix m fv bv diam => .matrix ⟨m.a, s * m.b, m.c / s, m.d, s * m.len, m.nf, m.nb⟩ (fv.map (s * ·)) (bv.map (s * ·)) (diam.map (s * ·))
  | .group label ps => .group label (Part.inUnitList s ps)
/-- of successive parts -/
def Part.inUnitList (s : K) : List (Part K) → List (Part K)
  | [] => []
  | p :: ps => p.inUnit s :: Part.inUnitList s ps
end

/-- a stage with lengths in another unit -/
def Stage.inUnit (s : K) (t : Stage K) : Stage K := ⟨t.a, s * t.b, t.c / s, t.d, s * t.len, t.diam.map (s * ·), t.na⟩

theorem curvature_inUnit {s : K} (R : Option K) : curvature (R.map (s * ·)) = curvature R / s := by
  cases R with
  | none => simp [curvature]
  | some R => simp [curvature, mul_inv, div_eq_mul_inv, mul_comm]

theorem thick_inUnit {s : K} (hs : s ≠ 0) (n k1 k2 t : K) (diam : Option K) :
    (Sys.thick n (k1 / s) (k2 / s) (s * t)).stage (diam.map (s * ·)) none = ((Sys.thick n k1 k2 t).stage diam none).inUnit s := by
  obtain ⟨c1, rfl⟩ : ∃ c, k1 = s * c := ⟨k1 / s, by field_simp⟩
  obtain ⟨c2, rfl⟩ : ∃ c, k2 = s * c := ⟨k2 / s, by field_simp⟩
  rw [mul_div_cancel_left₀ _ hs, mul_div_cancel_left₀ _ hs]
  simp only [Stage.inUnit, Sys.stage, Sys.thick, Sys.andThen, Sys.interface, Sys.space, Stage.mk.injEq]
  refine ⟨by ring, by ring, ?_, by ring, by ring, trivial, trivial⟩
  rw [eq_div_iff hs]
  ring

mutual
theorem stages_inUnit {s : K} (hs : s ≠ 0) : ∀ p : Part K, (p.inUnit s).stages = p.stages.map (Stage.inUnit s)
  | .space d n diam => by simp [Part.inUnit, Part.stages, Stage.inUnit, Sys.stage, Sys.space]
  | .lens f diam => by simp [Part.inUnit, Part.stages, Stage.inUnit, Sys.stage, Sys.lens]; try (field_simp)
  | .mirror R diam => by simp [Part.inUnit, Part.stages, Stage.inUnit, Sys.stage, Sys.mirror]; try (field_simp)
  | .interface n1 n2 R diam => by simp [Part.inUnit, Part.stages, Stage.inUnit, Sys.stage, Sys.interface, curvature_inUnit]; try (field_simp)
  | .thickLens n R1 R2 t diam => by
    simp only [Part.inUnit, Part.stages, curvature_inUnit, thick_inUnit hs, List.map_cons, List.map_nil]
  | .slab n t diam => by
    have h := thick_inUnit hs n 0 0 t diam
    rw [zero_div] at h
    simp only [Part.inUnit, Part.stages, h, List.map_cons, List.map_nil]
  | .aperture diam na label => by simp [Part.inUnit, Part.stages, Stage.inUnit, Sys.stage, Sys.one]
  | .matrix m fv bv diam => by simp [Part.inUnit, Part.stages, Stage.inUnit, Sys.stage]
  | .group label ps => by simpa [Part.inUnit, Part.stages] using stagesList_inUnit hs ps
theorem stagesList_inUnit {s : K} (hs : s ≠ 0) : ∀ ps : List (Part K), Part.stagesList (Part.inUnitList s ps) = (Part.stagesList ps).map (Stage.inUnit s)
  | [] => rfl
  | p :: ps => by simp [Part.inUnitList, Part.stagesList, stages_inUnit hs p, stagesList_inUnit hs ps]
end

theorem Stage.out_inUnit {s : K} (hs : s ≠ 0) (t : Stage K) (r : K × K) : (t.inUnit s).out (s * r.1, r.2) = (s * (t.out r).1, (t.out r).2) := by
  simp only [Stage.out, Stage.inUnit, Prod.mk.injEq]
  constructor
  · ring
  · field_simp

theorem Stage.stops_inUnit {s : K} (hs : 0 < s) (t : Stage K) (r : K × K) : (t.inUnit s).Stops (s * r.1, r.2) ↔ t.Stops r := by
  unfold Stage.Stops Stage.inUnit
  refine or_congr ?_ Iff.rfl
  simp only [Option.map_eq_some_iff]
  constructor
  · rintro ⟨_, ⟨D, hD, rfl⟩, h⟩
    refine ⟨D, hD, ?_⟩
    rw [abs_mul, abs_of_pos hs, mul_div_assoc] at h
    exact lt_of_mul_lt_mul_left h hs.le
  · rintro ⟨D, hD, h⟩
    refine ⟨s * D, ⟨D, hD, rfl⟩, ?_⟩
    rw [abs_mul, abs_of_pos hs, mul_div_assoc]
    exact mul_lt_mul_of_pos_left h hs

theorem blocked_inUnit {s : K} (hs : 0 < s) : ∀ (ss : List (Stage K)) (r : K × K), Blocked (ss.map (Stage.inUnit s)) (s * r.1, r.2) ↔ Blocked ss r
  | [], _ => Iff.rfl
  | t :: ss, r => by
    simp only [List.map_cons, Blocked, Stage.stops_inUnit hs, Stage.out_inUnit hs.ne']
    rw [blocked_inUnit hs ss (t.out r)]

theorem outStages_inUnit {s : K} (hs : s ≠ 0) : ∀ (ss : List (Stage K)) (r : K × K),
    outStages (ss.map (Stage.inUnit s)) (s * r.1, r.2) = (s * (outStages ss r).1, (outStages ss r).2)
  | [], _ => rfl
  | t :: ss, r => by
    have h := outStages_inUnit hs ss (t.out r)
    simp only [outStages, List.map_cons, List.foldl_cons, Stage.out_inUnit hs] at h ⊢
    exact h

theorem stagesLen_inUnit {s : K} (ss : List (Stage K)) : stagesLen (ss.map (Stage.inUnit s)) = s * stagesLen ss := by
  induction ss with
  | nil => simp [stagesLen]
  | cons t ss ih =>
    simp only [stagesLen, List.map_cons, List.sum_cons] at ih ⊢
    rw [ih, mul_add]; rfl

/-- **C138**: in exact numbers, writing all lengths of a system and of a ray in another unit changes nothing but the unit of the result: the ray is stopped
in one exactly when it is stopped in the other, and if it is not, its height and position are those of the other in the new unit, with the same angle. -/
theorem C138_through {s : K} (hs : 0 < s) {p : Part K} {e e' : Elem (Ext K)} (hb : p.build = .ok e) (hb' : (p.inUnit s).build = .ok e') {a b : Nat}
    {h k : Heap (Ext K)} (ha : a < h.length) (hb1 : b < k.length) {y θ z : K} (hr : FinRay (h.get a) y θ z) (hopen : (h.get a).isBlocked = false)
    (hr' : FinRay (k.get b) (s * y) θ (s * z)) (hopen' : (k.get b).isBlocked = false) :
    (((e'.traceH b k).2.1.get (e'.traceThroughH b k).1).isBlocked = true ↔ ((e.traceH a h).2.1.get (e.traceThroughH a h).1).isBlocked = true) ∧
    (((e.traceH a h).2.1.get (e.traceThroughH a h).1).isBlocked = false → ∃ y' θ' z',
      FinRay ((e.traceH a h).2.1.get (e.traceThroughH a h).1) y' θ' z' ∧
      FinRay ((e'.traceH b k).2.1.get (e'.traceThroughH b k).1) (s * y') θ' (s * z')) := by
  obtain ⟨s1, s2⟩ := through_stages (build_stages hb) (build_sound hb).2.1 ha hr hopen
  obtain ⟨t1, t2⟩ := through_stages (build_stages hb') (build_sound hb').2.1 hb1 hr' hopen'
  rw [stages_inUnit hs.ne'] at t1 t2
  have hbl := blocked_inUnit hs p.stages (y, θ)
  have hout := outStages_inUnit hs.ne' p.stages (y, θ)
  simp only at hbl hout
  refine ⟨by rw [t1, s1, hbl], fun hf => ?_⟩
  have hn : ¬ Blocked p.stages (y, θ) := fun hc => by rw [s1.2 hc] at hf; cases hf
  have f1 := s2 hn
  have f2 := t2 (fun hc => hn (hbl.1 hc))
  rw [hout, stagesLen_inUnit, ← mul_add] at f2
  exact ⟨_, _, _, f1, f2⟩

/-- **C138**: a group of any number of spaces and lenses in air can be made in every unit. -/
theorem C138_made {s : K} (hs : 0 < s) {ps : List (Part K)} (hp : ∀ p ∈ ps, p.Simple) (label : String) :
    (∃ e, (Part.group label ps).build = .ok e) ∧ ∃ e', ((Part.group label ps).inUnit s).build = .ok e' := by
  obtain ⟨e, h1, -⟩ := simple_group hp label
  have hd : ∀ {diam : Option K}, DiamOk (optInf diam : Ext K) → DiamOk (optInf (diam.map (s * ·)) : Ext K) := by
    intro diam h
    cases diam with
    | none => exact h
    | some D => exact diamOk_fin.2 (mul_pos hs (diamOk_fin.1 h))
  have hq : ∀ {ps : List (Part K)}, (∀ p ∈ ps, p.Simple) → ∀ p ∈ Part.inUnitList s ps, p.Simple := by
    intro ps
    induction ps with
    | nil => simp [Part.inUnitList]
    | cons q qs ih =>
      intro h p hp
      simp only [Part.inUnitList, List.mem_cons] at hp
      rcases hp with rfl | hp
      · cases h q (by simp) with
        | space d diam h1 => exact .space _ _ (hd h1)
        | lens diam h0 h1 => exact .lens _ (mul_ne_zero hs.ne' h0) (hd h1)
      · exact ih (fun p hp => h p (by simp [hp])) p hp
  obtain ⟨e', h2, -⟩ := simple_group (hq hp) label
  exact ⟨⟨e, h1⟩, e', h2⟩

/-! ## Whole traces -/

/-- the same element in the other unit -/
inductive UnitItem (s : K) : Item (Ext K) → Item (Ext K) → Prop
  | dup : UnitItem s .dup .dup
  | leaf {m m' : Mat (Ext K)} {st : Stage K} : StageOf m st → StageOf m' (st.inUnit s) → UnitItem s (.leaf m) (.leaf m')

theorem unitItem_setIndices {s : K} {m m' : Mat (Ext K)} (n n' k k' : Ext K) (h : UnitItem s (.leaf m) (.leaf m')) :
    UnitItem s (.leaf { m with frontIndex := n, backIndex := k }) (.leaf { m' with frontIndex := n', backIndex := k' }) := by
  cases h with
  | leaf h1 h2 =>
    exact .leaf (m := { m with frontIndex := n, backIndex := k }) (m' := { m' with frontIndex := n', backIndex := k' })
      ⟨h1.A, h1.B, h1.C, h1.D, h1.L, h1.diam, h1.na, h1.linear, h1.diam_pos, h1.na_pos⟩
      ⟨h2.A, h2.B, h2.C, h2.D, h2.L, h2.diam, h2.na, h2.linear, h2.diam_pos, h2.na_pos⟩

/-- the same elements in the other unit -/
def UnitItems (s : K) : List (Item (Ext K)) → List (Item (Ext K)) → Prop := List.Forall₂ (UnitItem s)

theorem unitItems_forget {s : K} {e f : Elem (Ext K)} : UnitItems s e.forget.items f.forget.items ↔ UnitItems s e.items f.items := by
  have key : ∀ {e : Elem (Ext K)}, (∃ m, e = .leaf m ∧ ∃ n k, e.forget = .leaf { m with frontIndex := n, backIndex := k }) ∨
      (∃ g c es, e = .group g c es ∧ e.forget.items = e.items) := by
    intro e
    cases e with
    | leaf m =>
      refine .inl ⟨m, rfl, ?_⟩
      unfold Elem.forget
      split
      · exact ⟨0, 0, rfl⟩
      · exact ⟨m.frontIndex, m.backIndex, rfl⟩
    | group g c es =>
      refine .inr ⟨g, c, es, rfl, ?_⟩
      unfold Elem.forget
      split <;> rfl
  rcases key (e := e) with ⟨m, rfl, n, k, h1⟩ | ⟨g, c, es, rfl, h1⟩ <;> rcases key (e := f) with ⟨m', rfl, n', k', h2⟩ | ⟨g', c', es', rfl, h2⟩
  · rw [h1, h2]
    simp only [Elem.items, UnitItems, List.forall₂_cons, List.forall₂_nil_right_iff, and_true]
    exact ⟨fun h => unitItem_setIndices (m := { m with frontIndex := n, backIndex := k }) (m' := { m' with frontIndex := n', backIndex := k' }) m.frontIndex m'.frontIndex m.backIndex m'.backIndex h, unitItem_setIndices n n' k k'⟩
  · rw [h1, h2]
    constructor <;> intro h <;> cases h with | cons h _ => cases h
  · rw [h1, h2]
    constructor <;> intro h <;> cases h with | cons h _ => cases h
  · rw [h1, h2]

theorem unitItems_congr {s : K} {es es' : List (Elem (Ext K))} (h : List.Forall₂ (fun e f => UnitItems s e.items f.items) es es') :
    ∀ {fs fs' : List (Elem (Ext K))}, fs.map Elem.forget = es.map Elem.forget → fs'.map Elem.forget = es'.map Elem.forget →
      UnitItems s (itemsList fs) (itemsList fs') := by
  induction h with
  | nil =>
    intro fs fs' h1 h2
    simp only [List.map_nil, List.map_eq_nil_iff] at h1 h2
    subst h1; subst h2
    exact .nil
  | @cons e e' es es' he _ ih =>
    intro fs fs' h1 h2
    cases fs with
    | nil => simp at h1
    | cons f fs =>
      cases fs' with
      | nil => simp at h2
      | cons f' fs' =>
        simp only [List.map_cons, List.cons.injEq] at h1 h2
        unfold itemsList
        refine List.rel_append ?_ (ih h1.2 h2.2)
        rw [← UnitItems, ← unitItems_forget, h1.1, h2.1, unitItems_forget]
        exact he

theorem unit_single {s : K} (hs : s ≠ 0) {p : Part K} (hp : p.Single) (hp' : (p.inUnit s).Single) {e e' : Elem (Ext K)} (hb : p.build = .ok e)
    (hb' : (p.inUnit s).build = .ok e') : UnitItems s e.items e'.items := by
  have h1 := build_stages hb
  have h2 := build_stages hb'
  rw [stages_inUnit hs] at h2
  obtain ⟨m, rfl⟩ := hp.leaf hb
  obtain ⟨m', rfl⟩ := hp'.leaf hb'
  simp only [Elem.items, ItemStages, leaves] at h1 h2
  generalize p.stages = ss at h1 h2
  cases h1 with
  | cons h1 h3 =>
    cases h3
    cases h2 with
    | cons h2 _ => exact .cons (.leaf h1 h2) .nil

mutual
theorem unit_items {s : K} (hs : s ≠ 0) : ∀ {p : Part K} {e e' : Elem (Ext K)}, p.build = .ok e → (p.inUnit s).build = .ok e' →
    UnitItems s e.items e'.items
  | .space d n diam, _, _, hb, hb' => unit_single (p := .space d n diam) hs (by simp [Part.Single]) (by simp [Part.inUnit, Part.Single]) hb hb'
  | .lens f diam, _, _, hb, hb' => unit_single (p := .lens f diam) hs (by simp [Part.Single]) (by simp [Part.inUnit, Part.Single]) hb hb'
  | .mirror R diam, _, _, hb, hb' => unit_single (p := .mirror R diam) hs (by simp [Part.Single]) (by simp [Part.inUnit, Part.Single]) hb hb'
  | .interface n1 n2 R diam, _, _, hb, hb' => unit_single (p := .interface n1 n2 R diam) hs (by simp [Part.Single]) (by simp [Part.inUnit, Part.Single]) hb hb'
  | .thickLens n R1 R2 t diam, _, _, hb, hb' => unit_single (p := .thickLens n R1 R2 t diam) hs (by simp [Part.Single]) (by simp [Part.inUnit, Part.Single]) hb hb'
  | .slab n t diam, _, _, hb, hb' => unit_single (p := .slab n t diam) hs (by simp [Part.Single]) (by simp [Part.inUnit, Part.Single]) hb hb'
  | .aperture diam na label, _, _, hb, hb' => unit_single (p := .aperture diam na label) hs (by simp [Part.Single]) (by simp [Part.inUnit, Part.Single]) hb hb'
  | .matrix m fv bv diam, _, _, hb, hb' => unit_single (p := .matrix m fv bv diam) hs (by simp [Part.Single]) (by simp [Part.inUnit, Part.Single]) hb hb'
  | .group label ps, e, e', hb, hb' => by
    unfold Part.inUnit at hb'
    unfold Part.build at hb hb'
    split at hb
    · simp at hb
    · next es hes =>
      split at hb'
      · simp at hb'
      · next es' hes' =>
        obtain ⟨g, hg, rfl⟩ := Except.map_ok hb
        obtain ⟨g', hg', rfl⟩ := Except.map_ok hb'
        have f1 := Group.appendAll_elems (Group.new_eq hg)
        have f2 := Group.appendAll_elems (Group.new_eq hg')
        simp only [Group.empty, List.map_nil, List.nil_append] at f1 f2
        unfold Group.toElem Elem.items
        exact .cons .dup (unitItems_congr (unit_itemsList hs hes hes') f1 f2)
theorem unit_itemsList {s : K} (hs : s ≠ 0) : ∀ {ps : List (Part K)} {es es' : List (Elem (Ext K))}, Part.buildList ps = .ok es →
    Part.buildList (Part.inUnitList s ps) = .ok es' → List.Forall₂ (fun e f => UnitItems s e.items f.items) es es'
  | [], es, es', h, h' => by
    simp only [Part.buildList, Part.inUnitList, Except.ok.injEq] at h h'
    subst h; subst h'
    exact .nil
  | p :: ps, es, es', h, h' => by
    unfold Part.inUnitList at h'
    unfold Part.buildList at h h'
    split at h
    · simp at h
    · next e he =>
      split at h
      · simp at h
      · next fs hfs =>
        split at h'
        · simp at h'
        · next e' he' =>
          split at h'
          · simp at h'
          · next fs' hfs' =>
            simp only [Except.ok.injEq] at h h'
            subst h; subst h'
            exact .cons (unit_items hs he he') (unit_itemsList hs hfs hfs')
end

/-- the same ray in the other unit -/
def SameRay (s : K) (r r' : Ray (Ext K)) : Prop :=
  ∃ y θ z, FinRay r y θ z ∧ FinRay r' (s * y) θ (s * z) ∧ r.isBlocked = r'.isBlocked

theorem same_entry {s : K} (hs : 0 < s) {is is' : List (Item (Ext K))} (h : UnitItems s is is') {r r' : Ray (Ext K)} (hr : SameRay s r r') :
    entryStops is r = entryStops is' r' := by
  induction h with
  | nil => rfl
  | cons h _ ih =>
    cases h with
    | dup => exact ih
    | @leaf m m' st h1 h2 =>
      obtain ⟨y, θ, z, f1, f2, -⟩ := hr
      rw [entryStops, entryStops, Bool.eq_iff_iff, stopsEntry_iff h1 f1, stopsEntry_iff h2 f2]
      have hl : 0 < (st.inUnit s).len ↔ 0 < st.len := mul_pos_iff_of_pos_left hs
      have hd := Stage.stops_inUnit hs ({ st with na := none } : Stage K) (y, θ)
      simp only [Stage.Stops, Stage.inUnit, reduceCtorEq, false_and, exists_false, or_false] at hd
      rw [hl]
      exact and_congr Iff.rfl hd.symm

theorem same_settle {s : K} (hs : 0 < s) {is is' : List (Item (Ext K))} (h : UnitItems s is is') {r r' : Ray (Ext K)} (hr : SameRay s r r') :
    SameRay s (settle is r) (settle is' r') := by
  have he := same_entry hs h hr
  obtain ⟨y, θ, z, f1, f2, hb⟩ := hr
  exact ⟨y, θ, z, f1.settle is, f2.settle is', by simp only [settle, he, hb]⟩

theorem same_mul {s : K} (hs : 0 < s) {m m' : Mat (Ext K)} {st : Stage K} (h1 : StageOf m st) (h2 : StageOf m' (st.inUnit s)) {r r' : Ray (Ext K)}
    (hr : SameRay s r r') : SameRay s (m.mulRayBase r) (m'.mulRayBase r') := by
  obtain ⟨y, θ, z, f1, f2, hb⟩ := hr
  by_cases hc : r.isBlocked = true
  · have hc' : r'.isBlocked = true := hb ▸ hc
    unfold Mat.mulRayBase
    rw [if_pos hc, if_pos hc']
    exact ⟨y, θ, z, f1, f2, hb⟩
  · have hc' : ¬ r'.isBlocked = true := hb ▸ hc
    have hst : m.stops r = m'.stops r' := by
      rw [Bool.eq_iff_iff, h1.stops f1, h2.stops f2]
      exact (Stage.stops_inUnit hs st (y, θ)).symm
    have ho := Stage.out_inUnit hs.ne' st (y, θ)
    simp only [Stage.out, Prod.mk.injEq] at ho
    unfold Mat.mulRayBase
    rw [if_neg hc, if_neg hc']
    refine ⟨st.a * y + st.b * θ, st.c * y + st.d * θ, st.len + z, ⟨?_, ?_, ?_⟩, ⟨?_, ?_, ?_⟩, ?_⟩
    · simp only [h1.A, h1.B, f1.y, f1.theta]; rfl
    · simp only [h1.C, h1.D, f1.y, f1.theta]; rfl
    · simp only [h1.L, f1.z]; rfl
    · simp only [h2.A, h2.B, f2.y, f2.theta]; rw [← ho.1]; rfl
    · simp only [h2.C, h2.D, f2.y, f2.theta]; rw [← ho.2]; rfl
    · simp only [h2.L, f2.z]; rw [mul_add]; rfl
    · simp only [hst, hb]

theorem same_run {s : K} (hs : 0 < s) {is is' : List (Item (Ext K))} (h : UnitItems s is is') : ∀ {r r' : Ray (Ext K)}, SameRay s r r' →
    List.Forall₂ (SameRay s) (runTrace is r) (runTrace is' r') := by
  induction h with
  | nil => exact fun _ => .nil
  | @cons i i' is is' h ht ih =>
    intro r r' hr
    cases h with
    | dup => exact .cons hr (ih hr)
    | @leaf m m' st h1 h2 =>
      have hl : ((0 : Ext K) <. m.L) = ((0 : Ext K) <. m'.L) := by
        rw [Bool.eq_iff_iff, h1.L, h2.L, zero_eq, lt_fin, lt_fin, decide_eq_true_eq, decide_eq_true_eq]
        exact (mul_pos_iff_of_pos_left hs).symm
      have hn : SameRay s (if r.isBlocked then r else settle is (m.mulRayBase r)) (if r'.isBlocked then r' else settle is' (m'.mulRayBase r')) := by
        have hb : r.isBlocked = r'.isBlocked := by obtain ⟨_, _, _, -, -, hb⟩ := hr; exact hb
        rw [← hb]
        split
        · exact hr
        · exact same_settle hs ht (same_mul hs h1 h2 hr)
      simp only [runTrace]
      rw [← hl]
      refine List.rel_append ?_ (.cons hn (ih hn))
      split
      · exact .cons hr .nil
      · exact .nil

/-- **C138 for whole traces**: ray by ray, the trace in the other unit is the trace, with heights and positions in the new unit, the same angles, and the
same rays marked as blocked. -/
theorem C138_trace {s : K} (hs : 0 < s) {p : Part K} {e e' : Elem (Ext K)} (hb : p.build = .ok e) (hb' : (p.inUnit s).build = .ok e') {a b : Nat}
    {h k : Heap (Ext K)} (ha : a < h.length) (hb1 : b < k.length) (hr : SameRay s (h.get a) (k.get b)) :
    List.Forall₂ (SameRay s) ((e.traceH a h).2.1.deref (e.traceH a h).1) ((e'.traceH b k).2.1.deref (e'.traceH b k).1) := by
  have h1 := build_sound hb
  have h2 := build_sound hb'
  obtain ⟨q1, q2⟩ := e.traceH_eq h1.2.1 a h
  obtain ⟨q3, q4⟩ := e'.traceH_eq h2.2.1 b k
  rw [q1, q2, q3, q4, (runH_spec e.items h1.1.items.1.linear ha).1, (runH_spec e'.items h2.1.items.1.linear hb1).1]
  have hi := unit_items hs.ne' hb hb'
  exact same_run hs hi (same_settle hs hi hr)

/-- **C138, negated for foci**: the tolerance of `hasPower` is not in the unit of the system. Every lens, in a unit small enough, is said to have no
focus, although it has one in its own unit. -/
theorem C138_focus_violated {s f : K} (hs : 0 < s) (hf : |f| < 100000) (hsf : 100000 ≤ s * |f|) {diam : Option K} {e e' : Elem (Ext K)}
    (hb : (Part.lens f diam).build = .ok e) (hb' : ((Part.lens f diam).inUnit s).build = .ok e') (z : K) :
    e.mat.hasPower = true ∧ e'.mat.focusPositions (fin z) = .ok none := by
  have key : ∀ {f : K} {diam : Option K} {e : Elem (Ext K)}, (Part.lens f diam).build = .ok e → f ≠ 0 ∧ e.mat.hasPower = decide (1 / 100000 < |(-1 / f : K)|) := by
    intro f diam e hb
    unfold Part.build at hb
    obtain ⟨m, h1, rfl⟩ := Except.map_ok hb
    obtain ⟨h0, -, rfl⟩ := mkLens_ok h1
    exact ⟨h0, by simp [Mat.hasPower, isNotZero, Elem.mat, lensMat, eps_eq]⟩
  obtain ⟨h0, h1⟩ := key hb
  obtain ⟨-, h2⟩ := key hb'
  have hp : 0 < |f| := abs_pos.2 h0
  constructor
  · rw [h1, decide_eq_true_iff, abs_div, abs_neg, abs_one]
    exact one_div_lt_one_div_of_lt hp hf
  · have h3 : e'.mat.hasPower = false := by
      rw [h2, decide_eq_false_iff_not, not_lt, abs_div, abs_neg, abs_one, abs_mul, abs_of_pos hs]
      exact one_div_le_one_div_of_le (by norm_num) hsf
    unfold Mat.focusPositions
    rw [h3]
    rfl

/-- a lens in a group with a space and an opening, in millimetres -/
def bench : Part ℚ := .group "" [.space 100 1 none, .lens 50 (some 25), .group "" [.slab (3/2) 10 (some 30), .aperture (some 5) none "", .thickLens (3/2) (some 40) none 4 none]]

/-- The hypotheses hold for this system in millimetres and in micrometres; the lens of 50 mm has no focus in nanometres. -/
theorem C138_example : (match bench.build, (bench.inUnit 1000).build with | .ok _, .ok _ => true | _, _ => false) = true ∧
    ((100000 : ℚ) ≤ 1000000 * |50| ∧ |(50 : ℚ)| < 100000) := by
  refine ⟨by decide +kernel, ?_⟩
  norm_num

end RT
