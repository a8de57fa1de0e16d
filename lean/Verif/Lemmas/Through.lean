import Verif.Lemmas.Stage

/-! # What comes out of a system, in terms of its stages -/

set_option linter.unusedSectionVars false

namespace RT
open PyNum Ext
variable {K : Type} [Field K] [LinearOrder K] [IsStrictOrderedRing K]

/-- the length of stages -/
def stagesLen (ss : List (Stage K)) : K := (ss.map Stage.len).sum

/-- The ray after the stages. -/
def outStages (ss : List (Stage K)) (r : K × K) : K × K := ss.foldl (fun r s => s.out r) r

/-- The last ray of a trace, when it is not blocked, by stages. -/
theorem runTrace_stage_last {is : List (Item (Ext K))} {ss : List (Stage K)} (hs : ItemStages is ss) {r : Ray (Ext K)} {y θ z : K}
    (hr : FinRay r y θ z) (hb : ((runTrace is r).getLast?.getD r).isBlocked = false) :
    FinRay ((runTrace is r).getLast?.getD r) (outStages ss (y, θ)).1 (outStages ss (y, θ)).2 (z + stagesLen ss) := by
  induction is generalizing ss r y θ z with
  | nil => cases hs; simpa [runTrace, outStages, stagesLen] using hr
  | cons i is ih =>
    cases i with
    | dup =>
      simp only [runTrace, getLast?_cons_getD'] at hb ⊢
      exact ih hs hr hb
    | leaf m =>
      rw [runTrace_leaf_last] at hb ⊢
      cases hs with
      | @cons _ st _ ss h1 h2 =>
        by_cases hrb : r.isBlocked = true
        · exfalso
          simp only [hrb, if_true] at hb
          cases hx : (runTrace is r).getLast? with
          | none => rw [hx, Option.getD_none, hrb] at hb; cases hb
          | some x =>
            rw [hx, Option.getD_some, runTrace_blocked is hrb x (List.mem_of_getLast? hx), hrb] at hb; cases hb
        · rw [Bool.not_eq_true] at hrb
          obtain ⟨o1, -, -⟩ := h1.out hr hrb
          simp only [hrb, Bool.false_eq_true, if_false] at hb ⊢
          have := ih h2 (o1.settle is) hb
          have e : z + stagesLen (st :: ss) = z + st.len + stagesLen ss := by
            simp only [stagesLen, List.map_cons, List.sum_cons]
            ring
          rw [e]
          exact this

/-- What `traceThrough` returns for an element without caches: it is blocked when a stage stops the ray; otherwise it is the ray after the
stages. -/
theorem through_stages {e : Elem (Ext K)} {ss : List (Stage K)} (hs : ItemStages e.items ss) (h2 : e.NoCache) {a : Nat} {h : Heap (Ext K)}
    (ha : a < h.length) {y θ z : K} (hr : FinRay (h.get a) y θ z) (hb : (h.get a).isBlocked = false) :
    (((e.traceH a h).2.1.get (e.traceThroughH a h).1).isBlocked = true ↔ Blocked ss (y, θ)) ∧
    (¬ Blocked ss (y, θ) → FinRay ((e.traceH a h).2.1.get (e.traceThroughH a h).1) (outStages ss (y, θ)).1 (outStages ss (y, θ)).2
      (z + stagesLen ss)) := by
  have hlin : LinearItems e.items := by
    intro m hm
    have : m ∈ leaves e.items := by
      generalize e.items = is at hm
      induction is with
      | nil => cases hm
      | cons i is ih =>
        cases i with
        | dup => simp only [List.mem_cons, reduceCtorEq, false_or] at hm; exact ih hm
        | leaf m' =>
          simp only [List.mem_cons, Item.leaf.injEq] at hm
          rcases hm with rfl | hm
          · simp [leaves]
          · exact List.mem_cons_of_mem _ (ih hm)
    unfold ItemStages at hs
    generalize leaves e.items = l at hs this
    induction hs with
    | nil => cases this
    | cons h1 _ ih =>
      rcases List.mem_cons.1 this with rfl | hm
      · exact h1.linear
      · exact ih hm
  obtain ⟨q1, q2⟩ := e.traceH_eq h2 a h
  have hsp := runH_spec e.items hlin ha
  rw [← q1, ← q2] at hsp
  obtain ⟨e1, e2⟩ := hsp
  have hl : (e.traceH a h).2.1.get (e.traceThroughH a h).1 =
      (runTrace e.items (settle e.items (h.get a))).getLast?.getD (settle e.items (h.get a)) := by
    rw [← e1]
    unfold Elem.traceThroughH Heap.deref
    rw [List.getLast?_map]
    cases hx : (e.traceH a h).1.getLast? with
    | none => exact e2
    | some l => rfl
  have hset : entryStops e.items (settle e.items (h.get a)) = true → (settle e.items (h.get a)).isBlocked = true := by
    intro he
    rw [entryStops_congr e.items (r := settle e.items (h.get a)) (s := h.get a) rfl] at he
    simp [settle, he]
  have key := runTrace_blocked_iff hs (hr.settle e.items) hset
  have key' : ((settle e.items (h.get a)).isBlocked = true ∨ Blocked ss (y, θ)) ↔ Blocked ss (y, θ) := by
    simp only [settle, hb, Bool.false_or, or_iff_right_iff_imp]
    exact entryStops_stage hs hr
  rw [hl, key, key']
  refine ⟨Iff.rfl, fun hn => runTrace_stage_last hs (hr.settle e.items) ?_⟩
  rw [Bool.eq_false_iff]
  intro hx
  exact hn (key'.1 (key.1 hx))

end RT
