import Verif.Props.Derived
import Verif.Props.Graphics
import Verif.Lemmas.Lenses

/-! # C37: the largest diameter of any system just built -/

set_option linter.unusedSectionVars false

namespace RT
open PyNum Ext
variable {K : Type} [Field K] [LinearOrder K] [IsStrictOrderedRing K]

/-! ## What the code gives, without the code -/

mutual
/-- the diameter shown for a system: 4 for a `Lens`, its own diameter for any other element; for a group in which some element has a finite
diameter, the largest diameter shown for its elements; 8 for any other group that has elements; infinite (`none`) for an empty group -/
def Part.shown : Part K → Option K
  | .lens _ _ => some 4
  | .space _ _ D | .mirror _ D | .interface _ _ _ D | .thickLens _ _ _ _ D | .slab _ _ D | .aperture D _ _ | .matrix _ _ _ D => D
  | .group _ ps =>
    if (Part.stagesList ps).any (fun s => s.diam.isSome) then some (Part.shownMax ps)
    else if ps = [] then none else some 8
/-- the largest of the finite diameters shown for the elements of a list, 0 when there is none -/
def Part.shownMax : List (Part K) → K
  | [] => 0
  | p :: ps => max (p.shown.getD 0) (Part.shownMax ps)
end

mutual
/-- a system and, for a group, everything in it, at any depth -/
def Part.inside : Part K → List (Part K)
  | .group label ps => .group label ps :: Part.insideList ps
  | p => [p]
/-- of the elements of a list -/
def Part.insideList : List (Part K) → List (Part K)
  | [] => []
  | p :: ps => p.inside ++ Part.insideList ps
end

/-- the diameter given for an element that is neither a `Lens` nor a group -/
def Part.own : Part K → Option K
  | .lens _ _ | .group _ _ => none
  | .space _ _ D | .mirror _ D | .interface _ _ _ D | .thickLens _ _ _ _ D | .slab _ _ D | .aperture D _ _ | .matrix _ _ _ D => D

/-- no element of the group, at any depth, has a finite diameter -/
def Part.Unbounded (p : Part K) : Prop := ∀ s ∈ p.stages, s.diam = none

/-! ## Lemmas -/

theorem shownMax_nonneg : ∀ ps : List (Part K), 0 ≤ Part.shownMax ps
  | [] => by simp [Part.shownMax]
  | p :: ps => by rw [Part.shownMax]; exact le_max_of_le_right (shownMax_nonneg ps)

theorem largestDiameter_forget (e : Elem (Ext K)) : e.forget.largestDiameter = e.largestDiameter := by
  unfold Elem.forget
  split_ifs
  · cases e <;> simp only [Elem.setIndices, Elem.largestDiameter, Mat.largestDiameter]
  · rfl

theorem halfHeight_congr {m n : Mat (Ext K)} (hk : m.kind = n.kind) (hd : m.apertureDiameter = n.apertureDiameter) :
    m.displayHalfHeight.1 = n.displayHalfHeight.1 := by
  unfold Mat.displayHalfHeight
  rw [hk, hd]
  cases h : (n.apertureDiameter !=. inf) <;> cases n.kind <;> simp only [if_true, if_false, Bool.false_eq_true]

theorem halfHeight_forget (e : Elem (Ext K)) : e.forget.mat.displayHalfHeight.1 = e.mat.displayHalfHeight.1 := by
  unfold Elem.forget
  split_ifs
  · cases e <;> exact halfHeight_congr rfl rfl
  · rfl

theorem largestDiameterList_forget : ∀ {es fs : List (Elem (Ext K))}, es.map Elem.forget = fs.map Elem.forget → ∀ x,
    largestDiameterList es x = largestDiameterList fs x
  | [], [], _, x => rfl
  | [], f :: fs, h, x => by simp at h
  | e :: es, [], h, x => by simp at h
  | e :: es, f :: fs, h, x => by
    simp only [List.map_cons, List.cons.injEq] at h
    have he : e.largestDiameter = f.largestDiameter := by
      rw [← largestDiameter_forget e, h.1, largestDiameter_forget f]
    unfold largestDiameterList
    simp only [he, largestDiameterList_forget h.2]

theorem hasFinite_forget (e : Elem (Ext K)) : e.forget.hasFiniteApertureDiameter = e.hasFiniteApertureDiameter := by
  unfold Elem.forget
  split_ifs
  · cases e <;> simp only [Elem.setIndices, Elem.hasFiniteApertureDiameter, Mat.hasFiniteApertureDiameter]
  · rfl

theorem shown_isSome {p : Part K} (h : p.stages.any (fun s => s.diam.isSome) = true) : p.shown.isSome = true := by
  cases p with
  | group label ps =>
    rw [Part.stages] at h
    rw [Part.shown, if_pos h]; rfl
  | lens f D => simp [Part.shown]
  | _ => simpa [Part.stages, Part.shown, Sys.stage] using h

/-- a single element shows this diameter -/
theorem leaf_shown {m : Mat (Ext K)} {D : Option K} (hd : m.apertureDiameter = optInf D) (hk : m.NotLens) (ho : DiamOk (optInf D : Ext K)) :
    m.largestDiameter = optInf D ∧ (∀ x, D = some x → 0 < x) ∧ (m.apertureDiameter = pinf → m.displayHalfHeight.1 = fin 4) := by
  refine ⟨?_, ?_, fun h => ((C37_halfHeight m).2 h).2 hk⟩
  · unfold Mat.largestDiameter
    split
    · next f hh h => exact absurd h (hk f hh)
    · exact hd
  · rintro x rfl; exact diamOk_fin.1 ho

/-- an element of this kind and diameter, alone -/
theorem single_shown {m : Mat (Ext K)} {D : Option K} (hd : m.apertureDiameter = optInf D) (hk : m.NotLens) (ho : DiamOk (optInf D : Ext K)) :
    (Elem.leaf m).largestDiameter = optInf D ∧ (∀ x, D = some x → 0 < x) ∧
      ((Elem.leaf m).hasFiniteApertureDiameter = false → (Elem.leaf m).mat.displayHalfHeight.1 = fin 4) := by
  obtain ⟨h1, h2, h3⟩ := leaf_shown hd hk ho
  refine ⟨by simpa only [Elem.largestDiameter] using h1, h2, fun h => h3 ?_⟩
  unfold Elem.hasFiniteApertureDiameter Mat.hasFiniteApertureDiameter at h
  cases D with
  | none => exact hd
  | some x => rw [hd] at h; simp [optInf] at h

mutual
theorem build_shown : ∀ {p : Part K} {e : Elem (Ext K)}, p.build = .ok e →
    e.largestDiameter = optInf p.shown ∧ (∀ x, p.shown = some x → 0 < x) ∧ (e.hasFiniteApertureDiameter = false → e.mat.displayHalfHeight.1 = fin 4)
  | .space d n diam, e, hb => by
    unfold Part.build at hb
    obtain ⟨m, h1, rfl⟩ := Except.map_ok hb
    obtain ⟨-, h2, rfl⟩ := mkSpace_ok h1
    rw [Part.shown]
    exact single_shown rfl (by simp [Mat.NotLens, spaceMat]) h2
  | .lens f diam, e, hb => by
    unfold Part.build at hb
    obtain ⟨m, h1, rfl⟩ := Except.map_ok hb
    obtain ⟨-, h2, rfl⟩ := mkLens_ok h1
    rw [Part.shown]
    refine ⟨by simp [Elem.largestDiameter, Mat.largestDiameter, lensMat, optInf], by simp, fun h => ?_⟩
    unfold Elem.hasFiniteApertureDiameter Mat.hasFiniteApertureDiameter at h
    have hd : (lensMat f (optInf diam) : Mat (Ext K)).apertureDiameter = optInf diam := rfl
    cases diam with
    | none => exact (((C37_halfHeight _).2 rfl).1 _ _ rfl).trans (by simp)
    | some x => rw [hd] at h; simp [optInf] at h
  | .mirror R diam, e, hb => by
    unfold Part.build at hb
    obtain ⟨m, h1, rfl⟩ := Except.map_ok hb
    obtain ⟨-, h2, rfl⟩ := mkCurvedMirror_ok h1
    rw [Part.shown]
    exact single_shown rfl (by simp [Mat.NotLens, mirrorMat]) h2
  | .interface n1 n2 R diam, e, hb => by
    unfold Part.build at hb
    obtain ⟨m, h1, rfl⟩ := Except.map_ok hb
    obtain ⟨-, -, h2, rfl⟩ := mkDielectric_ok h1
    rw [Part.shown]
    exact single_shown rfl (by simp [Mat.NotLens, interfaceMat]) h2
  | .thickLens n R1 R2 t diam, e, hb => by
    unfold Part.build at hb
    obtain ⟨m, h1, rfl⟩ := Except.map_ok hb
    obtain ⟨hn, -, -, h2, rfl⟩ := mkThickOf_ok h1
    rw [Part.shown]
    exact single_shown rfl (by simp [Mat.NotLens, thickMat]) h2
  | .slab n t diam, e, hb => by
    unfold Part.build mkSlab at hb
    obtain ⟨m, h1, rfl⟩ := Except.map_ok hb
    obtain ⟨hn, -, -, h2, rfl⟩ := mkThickOf_ok (R1 := none) (R2 := none) h1
    rw [Part.shown]
    exact single_shown rfl (by simp [Mat.NotLens, thickMat]) h2
  | .aperture diam na label, e, hb => by
    unfold Part.build at hb
    obtain ⟨m, h1, rfl⟩ := Except.map_ok hb
    obtain ⟨h2, h3, rfl⟩ := mkAperture_ok h1
    rw [Part.shown]
    exact single_shown rfl (by simp [Mat.NotLens, apertureMat]) h2
  | .matrix s fv bv diam, e, hb => by
    unfold Part.build at hb
    obtain ⟨m, h1, rfl⟩ := Except.map_ok hb
    obtain ⟨h2, -, -, rfl⟩ := init_ok_facts (genericMat_den s fv bv diam) h1
    rw [Part.shown]
    exact single_shown rfl (by simp [Mat.NotLens, genericMat, Mat.one]) h2
  | .group label ps, e, hb => by
    have hfin := C37_hasFinite hb
    unfold Part.build at hb
    split at hb
    · simp at hb
    · next es hes =>
      obtain ⟨g, hnew, rfl⟩ := Except.map_ok hb
      obtain ⟨-, -, k1, -, k2, -⟩ := new_kept hnew
      have h4 : g.mat.displayHalfHeight.1 = fin 4 := ((C37_halfHeight g.mat).2 k1).2 (by simp [k2])
      obtain ⟨ih1, ih2, ih3, ih4⟩ := buildList_shown hes
      have hel := Group.new_elems hnew
      have hany : (Part.stagesList ps).any (fun s => s.diam.isSome) = g.toElem.hasFiniteApertureDiameter := by
        rw [Bool.eq_iff_iff, hfin, List.any_eq_true]
        simp only [Option.isSome_iff_ne_none, Part.stages]
      have hlist : g.toElem.hasFiniteApertureDiameter = hasFiniteApertureList g.elems := rfl
      rw [Part.shown, hany]
      refine ⟨?_, ?_, fun _ => h4⟩
      · rw [hlist]
        unfold Group.toElem Elem.largestDiameter
        by_cases hf : hasFiniteApertureList g.elems = true
        · rw [if_pos hf, if_pos hf, largestDiameterList_forget hel, zero_eq, ih1 0 le_rfl, max_eq_right (shownMax_nonneg ps)]
          rfl
        · rw [if_neg hf, if_neg hf]
          cases hg : g.elems with
          | nil =>
            rw [hg] at hel
            have : es = [] := by cases es <;> simp_all
            rw [if_pos (ih3.1 this)]; rfl
          | cons x xs =>
            rw [hg] at hel
            cases es with
            | nil => simp at hel
            | cons y ys =>
              simp only [List.map_cons, List.cons.injEq] at hel
              rw [if_neg (fun h => by simpa using ih3.2 h)]
              have hy : y.hasFiniteApertureDiameter = false := by
                rw [hg] at hf
                unfold hasFiniteApertureList at hf
                have : x.hasFiniteApertureDiameter = y.hasFiniteApertureDiameter := by
                  rw [← hasFinite_forget x, hel.1, hasFinite_forget y]
                rw [← this]
                by_contra hc
                rw [if_pos (by simpa using hc)] at hf
                exact hf rfl
              dsimp only
              rw [← halfHeight_forget x, hel.1, halfHeight_forget y, ih4 y (by simp) hy]
              simp [optInf]
              norm_num
      · intro x hx
        by_cases hf : g.toElem.hasFiniteApertureDiameter = true
        · rw [if_pos hf] at hx
          simp only [Option.some.injEq] at hx
          rw [← hx]
          exact ih2 (hany.trans hf)
        · rw [if_neg hf] at hx
          split_ifs at hx
          simp only [Option.some.injEq] at hx
          rw [← hx]; norm_num
theorem buildList_shown : ∀ {ps : List (Part K)} {es : List (Elem (Ext K))}, Part.buildList ps = .ok es →
    (∀ M : K, 0 ≤ M → largestDiameterList es (fin M) = fin (max M (Part.shownMax ps))) ∧
    ((Part.stagesList ps).any (fun s => s.diam.isSome) = true → 0 < Part.shownMax ps) ∧ (es = [] ↔ ps = []) ∧
    (∀ e ∈ es.head?, e.hasFiniteApertureDiameter = false → e.mat.displayHalfHeight.1 = fin 4)
  | [], es, hb => by
    simp only [Part.buildList, Except.ok.injEq] at hb; subst hb
    exact ⟨fun M h0 => by simp [largestDiameterList, Part.shownMax, h0], by simp [Part.stagesList], by simp, by simp⟩
  | p :: ps, es, hb => by
    unfold Part.buildList at hb
    split at hb
    · simp at hb
    · next e he =>
      split at hb
      · simp at hb
      · next es' hes =>
        simp only [Except.ok.injEq] at hb; subst hb
        obtain ⟨h1, h2, h3⟩ := build_shown he
        obtain ⟨ih, ih2, -⟩ := buildList_shown hes
        refine ⟨fun M h0 => ?_, fun h => ?_, by simp, ?_⟩
        · unfold largestDiameterList Part.shownMax
          rw [h1]
          cases hp : p.shown with
          | none =>
            have : ((optInf none : Ext K) !=. inf) = false := rfl
            simp only [this, Bool.false_and, Bool.false_eq_true, if_false, Option.getD_none]
            rw [ih M h0, max_eq_right (shownMax_nonneg ps)]
          | some x =>
            have hx := h2 x hp
            have e1 : ((optInf (some x) : Ext K) !=. inf) = true := rfl
            have e2 : ((fin M : Ext K) <. optInf (some x)) = decide (M < x) := rfl
            simp only [e1, e2, Bool.true_and, Option.getD_some]
            by_cases hlt : M < x
            · rw [if_pos (decide_eq_true hlt)]
              rw [show (optInf (some x) : Ext K) = fin x from rfl, ih x hx.le, ← max_assoc, max_eq_right hlt.le]
            · rw [if_neg (by simpa using hlt), ih M h0, ← max_assoc, max_eq_left (not_lt.1 hlt)]
        · unfold Part.shownMax
          rw [Part.stagesList, List.any_append, Bool.or_eq_true] at h
          rcases h with h | h
          · obtain ⟨x, hx⟩ := Option.isSome_iff_exists.1 (shown_isSome h)
            rw [hx]
            exact lt_max_of_lt_left (h2 x hx)
          · exact lt_max_of_lt_right (ih2 h)
        · intro e' he'
          simp only [List.head?_cons, Option.mem_def, Option.some.injEq] at he'
          subst he'
          exact h3
end

/-- where a diameter that is shown may come from: an element, a `Lens`, or a group without finite diameter -/
def ShownBy (qs : List (Part K)) (x : K) : Prop :=
  (∃ q ∈ qs, q.own = some x) ∨ (x = 4 ∧ ∃ f D, .lens f D ∈ qs) ∨
    (x = 8 ∧ ∃ label ps, .group label ps ∈ qs ∧ ps ≠ [] ∧ (Part.group label ps).Unbounded)

theorem ShownBy.mono {qs rs : List (Part K)} {x : K} (h : ShownBy qs x) (hs : ∀ q ∈ qs, q ∈ rs) : ShownBy rs x := by
  rcases h with ⟨q, hq, e⟩ | ⟨e, f, D, hq⟩ | ⟨e, l, ps, hq, hu⟩
  · exact .inl ⟨q, hs q hq, e⟩
  · exact .inr (.inl ⟨e, f, D, hs _ hq⟩)
  · exact .inr (.inr ⟨e, l, ps, hs _ hq, hu⟩)

theorem inside_self (p : Part K) : p ∈ p.inside := by
  cases p <;> simp [Part.inside]

mutual
theorem shown_range : ∀ (p : Part K) (x : K), p.shown = some x → x = 0 ∨ ShownBy p.inside x
  | .lens f D, x, h => by
    simp only [Part.shown, Option.some.injEq] at h
    exact .inr (.inr (.inl ⟨h.symm, f, D, inside_self _⟩))
  | .space _ _ _, x, h | .mirror _ _, x, h | .interface _ _ _ _, x, h | .thickLens _ _ _ _ _, x, h | .slab _ _ _, x, h
  | .aperture _ _ _, x, h | .matrix _ _ _ _, x, h => by
    rw [Part.shown] at h
    exact .inr (.inl ⟨_, inside_self _, h⟩)
  | .group label ps, x, h => by
    rw [Part.shown] at h
    split_ifs at h with h1 h2
    · simp only [Option.some.injEq] at h
      rw [← h]
      refine (shownMax_range ps).imp_right fun h0 => h0.mono fun q hq => ?_
      simp only [Part.inside, List.mem_cons]; exact .inr hq
    · simp only [Option.some.injEq] at h
      refine .inr (.inr (.inr ⟨h.symm, label, ps, inside_self _, h2, fun s hs => ?_⟩))
      rw [Part.stages] at hs
      by_contra hc
      exact h1 (List.any_eq_true.2 ⟨s, hs, by simpa [Option.isSome_iff_ne_none] using hc⟩)
theorem shownMax_range : ∀ (ps : List (Part K)), Part.shownMax ps = 0 ∨ ShownBy (Part.insideList ps) (Part.shownMax ps)
  | [] => by simp [Part.shownMax]
  | p :: ps => by
    have hr := (shownMax_range ps).imp_right fun h => h.mono (rs := Part.insideList (p :: ps)) fun q hq => by
      rw [Part.insideList]; exact List.mem_append_right _ hq
    rw [Part.shownMax]
    rcases max_cases (p.shown.getD 0) (Part.shownMax ps) with ⟨e, -⟩ | ⟨e, -⟩
    · rw [e]
      cases hp : p.shown with
      | none => exact .inl rfl
      | some x =>
        exact (shown_range p x hp).imp_right fun h => h.mono fun q hq => by
          rw [Part.insideList]; exact List.mem_append_left _ hq
    · rw [e]; exact hr
end

mutual
theorem shown_covers : ∀ (p : Part K) {q : Part K}, q ∈ p.inside → ∀ D, q.own = some D → p.stages.any (fun s => s.diam.isSome) = true ∧
    ∃ x, p.shown = some x ∧ D ≤ x
  | .lens f D, q, h, x, hx => by
    simp only [Part.inside, List.mem_singleton] at h
    subst h
    simp [Part.own] at hx
  | .space _ _ _, q, h, x, hx | .mirror _ _, q, h, x, hx | .interface _ _ _ _, q, h, x, hx | .thickLens _ _ _ _ _, q, h, x, hx
  | .slab _ _ _, q, h, x, hx | .aperture _ _ _, q, h, x, hx | .matrix _ _ _ _, q, h, x, hx => by
    simp only [Part.inside, List.mem_singleton] at h
    subst h
    simp only [Part.own] at hx
    subst hx
    exact ⟨by simp [Part.stages, Sys.stage], x, by rw [Part.shown], le_rfl⟩
  | .group label ps, q, h, x, hx => by
    simp only [Part.inside, List.mem_cons] at h
    rcases h with rfl | h
    · simp [Part.own] at hx
    · obtain ⟨h1, h2⟩ := shownMax_covers ps h x hx
      exact ⟨by rw [Part.stages]; exact h1, _, by rw [Part.shown, if_pos h1], h2⟩
theorem shownMax_covers : ∀ (ps : List (Part K)) {q : Part K}, q ∈ Part.insideList ps → ∀ D, q.own = some D →
    (Part.stagesList ps).any (fun s => s.diam.isSome) = true ∧ D ≤ Part.shownMax ps
  | [], q, h, D, hD => by simp [Part.insideList] at h
  | p :: ps, q, h, D, hD => by
    rw [Part.insideList, List.mem_append] at h
    rw [Part.stagesList, List.any_append, Bool.or_eq_true, Part.shownMax]
    rcases h with h | h
    · obtain ⟨h1, x, h2, h3⟩ := shown_covers p h D hD
      rw [h2]
      exact ⟨.inl h1, le_max_of_le_left h3⟩
    · obtain ⟨h1, h2⟩ := shownMax_covers ps h D hD
      exact ⟨.inr h1, le_max_of_le_right h2⟩
end

/-! ## C37 -/

/-- **C37**, for every system described by a `Part`, of any depth, with `Lens` or not: `largestDiameter` of the system just built is the
diameter shown for it. -/
theorem C37_largestDiameter {p : Part K} {e : Elem (Ext K)} (hb : p.build = .ok e) : e.largestDiameter = optInf p.shown :=
  (build_shown hb).1

/-- **C37**, for every system just built: `largestDiameter` is infinite, and then no element other than a `Lens` has a finite diameter; or it is
finite, and then no element other than a `Lens` has a larger finite diameter, and it is the diameter of such an
element, or 4 in a system that has a `Lens`, or 8 in a system that has a group without finite diameter. -/
theorem C37_range {p : Part K} {e : Elem (Ext K)} (hb : p.build = .ok e) :
    (e.largestDiameter = pinf ∧ (∀ q ∈ p.inside, q.own = none)) ∨
    ∃ M, e.largestDiameter = fin M ∧ 0 < M ∧ (∀ q ∈ p.inside, ∀ D, q.own = some D → D ≤ M) ∧ ShownBy p.inside M := by
  obtain ⟨h1, h2, -⟩ := build_shown hb
  cases hs : p.shown with
  | none =>
    refine .inl ⟨by rw [h1, hs]; rfl, fun q hq => ?_⟩
    cases ho : q.own with
    | none => rfl
    | some D =>
      obtain ⟨-, x, hx, -⟩ := shown_covers p hq D ho
      rw [hs] at hx; simp at hx
  | some M =>
    refine .inr ⟨M, by rw [h1, hs]; rfl, h2 M hs, fun q hq D hD => ?_, ?_⟩
    · obtain ⟨-, x, hx, hle⟩ := shown_covers p hq D hD
      rw [hs] at hx; cases hx; exact hle
    · exact (shown_range p M hs).resolve_left (h2 M hs).ne'

/-- A group with a `Lens` of diameter 50, a space of diameter 3 and a group without finite diameter: 8 is shown. Without the inner group, 4. -/
example : (Part.group "" [.lens 10 (some (50 : ℚ)), .space 10 1 (some 3), .group "" [.lens 5 none]]).build.map Elem.largestDiameter =
      .ok (fin 8) ∧
    (Part.group "" [.lens 10 (some (50 : ℚ)), .space 10 1 (some 3), .group "" []]).build.map Elem.largestDiameter = .ok (fin 4) := by
  decide +kernel

/-! ## C77 -/

/-- **C77**, for every group with elements, of any depth: the black box is as long as the group, centred on the axis, and as high as the
diameter shown for the group, which is at least every finite diameter of the elements other than `Lens`. -/
theorem C77_box [PyMath (Ext K)] [PyTrig (Ext K)] {label : String} {ps : List (Part K)} (hne : ps ≠ []) {g : Group (Ext K)}
    (hb : (Part.group label ps).build = .ok g.toElem) (x minSize : Ext K) :
    ∃ M, g.toElem.graphic x minSize = .ok (some ⟨x, [.box x (fin (-(M / 2))) g.mat.L (fin M)]⟩) ∧ 0 < M ∧
      (∀ q ∈ (Part.group label ps).inside, ∀ D, q.own = some D → D ≤ M) ∧ ShownBy (Part.group label ps).inside M := by
  have h0 : (Part.group label ps).shown ≠ none := by
    rw [Part.shown]
    split_ifs <;> simp
  rcases C37_range hb with ⟨h1, -⟩ | ⟨M, h1, h2, h3, h4⟩
  · rw [C37_largestDiameter hb] at h1
    cases hs : (Part.group label ps).shown with
    | none => exact absurd hs h0
    | some x => rw [hs] at h1; simp [optInf] at h1
  · refine ⟨M, ?_, h2, h3, h4⟩
    have hh : half (fin M : Ext K) = fin (M / 2) := half_optInf (some M)
    have hne : ((fin (M / 2) : Ext K) ==. inf) = false := rfl
    have hL : g.toElem.mat.L = g.mat.L := rfl
    change Except.ok (some (⟨x, [blackBox g.toElem x]⟩ : Graphic (Ext K))) = _
    unfold blackBox
    rw [h1, hh]
    dsimp only
    rw [hne, if_neg (by simp), hL, neg_fin, ofNat_eq, fin_mul_fin]
    congr 6
    ring

end RT
