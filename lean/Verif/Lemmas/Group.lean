import Verif.Lemmas.Chain
import Verif.Spec.PyList

/-! # Editing groups -/

set_option linter.unusedSectionVars false

namespace RT
open PyNum Ext

section generic
variable {F : Type} [PyNum F]

/-- An element apart from the index of a `Space`, which a group may change. -/
def Elem.forget (e : Elem F) : Elem F := if e.isSpace then e.setIndices 0 else e

theorem Elem.isSpace_setIndices (e : Elem F) (n : F) : (e.setIndices n).isSpace = e.isSpace := by
  cases e <;> rfl

theorem Elem.setIndices_setIndices (e : Elem F) (n k : F) : (e.setIndices n).setIndices k = e.setIndices k := by
  cases e <;> rfl

theorem Elem.forget_setIndices {e : Elem F} (h : e.isSpace = true) (n : F) : (e.setIndices n).forget = e.forget := by
  simp [Elem.forget, Elem.isSpace_setIndices, h, Elem.setIndices_setIndices]

theorem Elem.setIndices_front (e : Elem F) (n : F) : (e.setIndices n).mat.frontIndex = n := by cases e <;> rfl

/-- the header of the group is the one computed from its elements -/
def Group.Fresh (g : Group F) : Prop :=
  ∃ t, transferMatrixList g.elems inf Mat.one = .ok t ∧ g.mat = g.mat.refresh t

theorem Group.push_elems (g : Group F) (e : Elem F) : (g.push e).1.elems = g.elems ++ [e] := by
  unfold Group.push; dsimp only; split <;> rfl

theorem Group.push_kind (g : Group F) (e : Elem F) : (g.push e).1.mat.kind = g.mat.kind := by
  unfold Group.push; dsimp only; split <;> rfl

theorem Group.push_fresh {g : Group F} {e : Elem F} (h : (g.push e).2 = .ok ()) : (g.push e).1.Fresh := by
  unfold Group.push at h ⊢
  dsimp only at h ⊢
  cases ht : transferMatrixList (g.elems ++ [e]) inf Mat.one with
  | error x => simp [ht] at h
  | ok t => exact ⟨t, ht, rfl⟩

/-- what `append` does: refuse, or push the element, possibly with another index -/
theorem Group.append_cases (g : Group F) (e : Elem F) :
    (g.append e = (g, .error .valueError) ∧ e.isSpace = false ∧
      ∃ last, g.elems.getLast? = some last ∧ (last.mat.backIndex !=. e.mat.frontIndex) = true) ∨
    ∃ e', g.append e = g.push e' ∧ e'.forget = e.forget ∧
      ∀ last, g.elems.getLast? = some last →
        (e' = e ∧ (last.mat.backIndex !=. e.mat.frontIndex) = false) ∨
        (e.isSpace = true ∧ e' = e.setIndices last.mat.backIndex) := by
  unfold Group.append
  cases hl : g.elems.getLast? with
  | none => right; exact ⟨e, rfl, rfl, by simp⟩
  | some last =>
    cases h1 : last.mat.backIndex !=. e.mat.frontIndex with
    | false => right; exact ⟨e, by simp [h1], rfl, fun l hl' => .inl ⟨rfl, by cases hl'; exact h1⟩⟩
    | true =>
      cases h2 : e.isSpace with
      | false => left; exact ⟨by simp [h1], rfl, last, rfl, h1⟩
      | true =>
        right
        refine ⟨e.setIndices last.mat.backIndex, by simp [h1], Elem.forget_setIndices h2 _, ?_⟩
        simp

theorem Group.append_kind (g : Group F) (e : Elem F) : (g.append e).1.mat.kind = g.mat.kind := by
  rcases g.append_cases e with ⟨h, -⟩ | ⟨e', h, -⟩
  · rw [h]
  · rw [h, Group.push_kind]

theorem Group.append_fresh {g : Group F} {e : Elem F} (h : (g.append e).2 = .ok ()) : (g.append e).1.Fresh := by
  rcases g.append_cases e with ⟨h', -⟩ | ⟨e', h', -⟩
  · simp [h'] at h
  · rw [h'] at h ⊢; exact Group.push_fresh h

theorem Group.append_elems {g : Group F} {e : Elem F} (h : (g.append e).2 = .ok ()) :
    (g.append e).1.elems.map Elem.forget = g.elems.map Elem.forget ++ [e.forget] := by
  rcases g.append_cases e with ⟨h', -⟩ | ⟨e', h', he, -⟩
  · simp [h'] at h
  · rw [h', Group.push_elems]; simp [he]

theorem Group.appendAll_kind (g : Group F) (es : List (Elem F)) : (g.appendAll es).1.mat.kind = g.mat.kind := by
  induction es generalizing g with
  | nil => rfl
  | cons e es ih =>
    have hk := g.append_kind e
    unfold Group.appendAll
    split
    · next g1 heq => rw [ih, ← hk, heq]
    · next g1 x heq => rw [← hk, heq]

theorem Group.appendAll_cons_ok {g g' : Group F} {e : Elem F} {es : List (Elem F)}
    (h : g.appendAll (e :: es) = (g', .ok ())) :
    ∃ g1, g.append e = (g1, .ok ()) ∧ g1.appendAll es = (g', .ok ()) := by
  unfold Group.appendAll at h
  split at h
  · next g1 heq => exact ⟨g1, heq, h⟩
  · next g1 x heq => simp at h

theorem Group.appendAll_elems {g g' : Group F} {es : List (Elem F)} (h : g.appendAll es = (g', .ok ())) :
    g'.elems.map Elem.forget = g.elems.map Elem.forget ++ es.map Elem.forget := by
  induction es generalizing g with
  | nil => simp only [Group.appendAll, Prod.mk.injEq, and_true] at h; simp [h]
  | cons e es ih =>
    obtain ⟨g1, h1, h2⟩ := Group.appendAll_cons_ok h
    have h3 := Group.append_elems (g := g) (e := e) (by rw [h1])
    rw [h1] at h3
    rw [ih h2, h3]; simp

theorem Group.appendAll_fresh {g g' : Group F} {es : List (Elem F)} (h : g.appendAll es = (g', .ok ()))
    (hne : es ≠ [] ∨ g.Fresh) : g'.Fresh := by
  induction es generalizing g with
  | nil =>
    simp only [Group.appendAll, Prod.mk.injEq, and_true] at h
    rw [← h]; simpa using hne
  | cons e es ih =>
    obtain ⟨g1, h1, h2⟩ := Group.appendAll_cons_ok h
    refine ih h2 (.inr ?_)
    have := Group.append_fresh (g := g) (e := e) (by rw [h1])
    rwa [h1] at this

theorem Group.empty_fresh (label : String) : (Group.empty label : Group F).Fresh := ⟨Mat.one, rfl, rfl⟩

theorem Group.new_eq {es : List (Elem F)} {label : String} {g : Group F} (h : Group.new es label = .ok g) :
    (Group.empty label).appendAll es = (g, .ok ()) := by
  unfold Group.new at h
  split at h
  · next g' heq => simp only [Except.ok.injEq] at h; rw [← h]; exact heq
  · simp at h

theorem Group.new_elems {es : List (Elem F)} {label : String} {g : Group F} (h : Group.new es label = .ok g) :
    g.elems.map Elem.forget = es.map Elem.forget := by
  have := Group.appendAll_elems (Group.new_eq h)
  simpa [Group.empty] using this

theorem Group.new_fresh {es : List (Elem F)} {label : String} {g : Group F} (h : Group.new es label = .ok g) :
    g.Fresh := Group.appendAll_fresh (Group.new_eq h) (.inr (Group.empty_fresh label))

theorem Group.rebuild_elems {g g' : Group F} {es : List (Elem F)} (h : g.rebuild es = (g', .ok ())) :
    g'.elems.map Elem.forget = es.map Elem.forget := by
  have := Group.appendAll_elems h
  simpa using this

theorem Group.rebuild_fresh {g g' : Group F} {es : List (Elem F)} (h : g.rebuild es = (g', .ok ()))
    (hne : g'.elems ≠ []) : g'.Fresh := by
  refine Group.appendAll_fresh h (.inl ?_)
  rintro rfl
  have := Group.rebuild_elems h
  simp [hne] at this

/-! ## Positions -/

theorem pyClamp_eq (i : Int) (n : Nat) : pyClamp i n = pySlot n i := by
  unfold pyClamp pySlot
  split_ifs <;> omega

theorem pyIndex_eq (i : Int) (n : Nat) :
    (PyValid n i → pyIndex i n = some (pyPlace n i) ∧ pyPlace n i < n) ∧ (¬ PyValid n i → pyIndex i n = none) := by
  unfold pyIndex pyPlace PyValid
  refine ⟨fun h => ?_, fun h => ?_⟩
  · split_ifs <;> first | omega | (refine ⟨congrArg some ?_, ?_⟩ <;> omega)
  · split_ifs <;> first | rfl | omega

end generic

/-! ## Exact numbers -/

section exact
variable {K : Type} [Field K] [LinearOrder K] [IsStrictOrderedRing K]

theorem Sys.SameABCD.trans {s t u : Sys K} (h : s.SameABCD t) (h' : t.SameABCD u) : s.SameABCD u := by
  obtain ⟨a1, a2, a3, a4, a5⟩ := h
  obtain ⟨b1, b2, b3, b4, b5⟩ := h'
  exact ⟨a1.trans b1, a2.trans b2, a3.trans b3, a4.trans b4, a5.trans b5⟩

theorem Sys.SameABCD.chain {s s' : Sys K} (h : s.SameABCD s') (l : List (Sys K)) :
    (s.chain l).SameABCD (s'.chain l) := by
  induction l generalizing s s' with
  | nil => exact h
  | cons x l ih =>
    obtain ⟨h1, h2, h3, h4, h5⟩ := h
    refine @ih (s.andThen x) (s'.andThen x) ?_
    simp [Sys.SameABCD, Sys.andThen, h1, h2, h3, h4, h5]

/-- A product accepted by the constructor at each step has the entries and the length of the chain. -/
theorem transferMatrixList_chain {es : List (Elem (Ext K))} {ss : List (Sys K)} (hd : DenList es ss)
    {acc t : Mat (Ext K)} {s0 : Sys K} (ha : Den acc s0) (ht : transferMatrixList es pinf acc = .ok t) :
    ∃ u, Den t u ∧ u.SameABCD (s0.chain ss) := by
  induction hd generalizing acc s0 with
  | nil =>
    simp only [transferMatrixList, Except.ok.injEq] at ht
    exact ⟨s0, ht ▸ ha, rfl, rfl, rfl, rfl, rfl⟩
  | @cons e s es ss he _ ih =>
    unfold transferMatrixList at ht
    rw [he.L] at ht
    simp only [le_fin_pinf, if_true, pinf_sub_fin] at ht
    cases hm : e.mat.mulMatrix acc with
    | error x => simp [hm] at ht
    | ok p =>
      simp only [hm] at ht
      have hp : Den (e.mat.mulRaw acc) (s0.glue s) := mulRaw_den he ha
      rw [← mulMatrix_ok hm] at hp
      obtain ⟨u, h1, h2⟩ := ih hp ht
      exact ⟨u, h1, h2.trans (Sys.SameABCD.chain (s := s0.glue s) (s' := s0.andThen s) ⟨rfl, rfl, rfl, rfl, rfl⟩ ss)⟩

theorem Sys.chain_toMatrix (s : Sys K) (l : List (Sys K)) :
    (s.chain l).toMatrix = (l.map Sys.toMatrix).reverse.prod * s.toMatrix := by
  induction l generalizing s with
  | nil => simp [Sys.chain]
  | cons t l ih =>
    have : (s.chain (t :: l)) = (s.andThen t).chain l := rfl
    rw [this, ih, Sys.andThen_toMatrix]
    simp [mul_assoc]

theorem Sys.chain_len (s : Sys K) (l : List (Sys K)) : (s.chain l).len = s.len + (l.map Sys.len).sum := by
  induction l generalizing s with
  | nil => simp [Sys.chain]
  | cons t l ih =>
    have : (s.chain (t :: l)) = (s.andThen t).chain l := rfl
    rw [this, ih]
    simp [Sys.andThen, add_assoc]

/-- the back index of each element is the front index of the next -/
def Adjacent (a b : Elem (Ext K)) : Prop := a.mat.backIndex = b.mat.frontIndex

theorem ne_false_eq {x y : Ext K} (h : (x !=. y) = false) : x = y := by
  have : (x ==. y) = true := by simpa using h
  exact eq_of_eq this

theorem append_adjacent {g : Group (Ext K)} (e : Elem (Ext K)) (h : g.elems.IsChain Adjacent) :
    (g.append e).1.elems.IsChain Adjacent := by
  rcases g.append_cases e with ⟨h', -⟩ | ⟨e', h', -, hl⟩
  · rw [h']; exact h
  · rw [h', Group.push_elems]
    refine List.IsChain.append h (by simp) ?_
    intro x hx y hy
    simp only [List.head?_cons, Option.mem_def, Option.some.injEq] at hy
    subst hy
    rcases hl x hx with ⟨rfl, h2⟩ | ⟨-, rfl⟩
    · exact ne_false_eq h2
    · exact (Elem.setIndices_front e _).symm

theorem appendAll_adjacent {g : Group (Ext K)} (es : List (Elem (Ext K))) (h : g.elems.IsChain Adjacent) :
    (g.appendAll es).1.elems.IsChain Adjacent := by
  induction es generalizing g with
  | nil => exact h
  | cons e es ih =>
    have := append_adjacent e h
    unfold Group.appendAll
    split
    · next g1 heq => rw [heq] at this; exact ih this
    · next g1 x heq => rw [heq] at this; exact this

theorem rebuild_adjacent (g : Group (Ext K)) (es : List (Elem (Ext K))) :
    (g.rebuild es).1.elems.IsChain Adjacent := appendAll_adjacent es (by simp)

theorem appendFlipped_adjacent {g : Group (Ext K)} (es : List (Elem (Ext K) × Except PyErr Unit))
    (h : g.elems.IsChain Adjacent) : (g.appendFlipped es).1.elems.IsChain Adjacent := by
  induction es generalizing g with
  | nil => exact h
  | cons p es ih =>
    obtain ⟨e, r⟩ := p
    cases r with
    | error x => exact h
    | ok u =>
      have := append_adjacent e h
      unfold Group.appendFlipped
      split
      · next g1 heq => rw [heq] at this; exact ih this
      · next g1 x heq => rw [heq] at this; exact this

theorem finishFlip_elems {F : Type} [PyNum F] (r : Group F × Except PyErr Unit) :
    (Group.finishFlip r).1.elems = r.1.elems := by
  obtain ⟨g, r⟩ := r
  unfold Group.finishFlip
  cases r with
  | error x => rfl
  | ok u => dsimp only; split <;> rfl

end exact
end RT
