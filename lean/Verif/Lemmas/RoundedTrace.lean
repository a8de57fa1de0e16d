import Verif.Lemmas.Rounded

/-! # Traces in rounded arithmetic -/

set_option linter.unusedSectionVars false

namespace RT
open PyNum Ext
variable {K : Type} [Field K] [LinearOrder K] [IsStrictOrderedRing K]
variable {rnd : K → K} {u : K}

theorem NearRay.settle {k : ℕ} {r : Ray (Fl K rnd)} {e m : K × K} {z Z : K} (h : NearRay u k r e m z Z) (is : List (Item (Fl K rnd))) :
    NearRay u k (settle is r) e m z Z := ⟨h.y, h.theta, h.z⟩

theorem stopsEntry_stops {F : Type} [PyNum F] {m : Mat F} {r : Ray F} (h : m.stops r = false) : m.stopsEntry r = false := by
  unfold Mat.stops at h
  rw [Bool.or_eq_false_iff] at h
  simp [Mat.stopsEntry, h.1]

theorem entryStops_clears (hr : Rounding rnd u) {is : List (Item (Fl K rnd))} {ss : List (RStage K)} (h : ItemRStages u is ss) {k : ℕ}
    {r : Ray (Fl K rnd)} {e M : K × K} {z Z : K} (hn : NearRay u k r e M z Z) (hc : Clears u k ss e M) : entryStops is r = false := by
  induction is with
  | nil => rfl
  | cons i is ih =>
    cases i with
    | dup => exact ih h
    | leaf m =>
      cases h with
      | cons h1 h2 => exact stopsEntry_stops (h1.clears hr hn hc.1 hc.2.1)

theorem runTrace_clears (hr : Rounding rnd u) {is : List (Item (Fl K rnd))} {ss : List (RStage K)} (h : ItemRStages u is ss) {k : ℕ}
    {r : Ray (Fl K rnd)} {e M : K × K} {z Z : K} (hn : NearRay u k r e M z Z) (hb : r.isBlocked = false) (hc : Clears u k ss e M) :
    ((runTrace is r).getLast?.getD r).isBlocked = false ∧
    NearRay u (k + roundings ss) ((runTrace is r).getLast?.getD r) (exactOut ss e) (majOut ss M) (z + exactLen ss) (Z + majLen ss) := by
  induction is generalizing ss k r e M z Z with
  | nil => cases h; simpa [runTrace, roundings, exactOut, majOut, exactLen, majLen] using ⟨hb, hn⟩
  | cons i is ih =>
    cases i with
    | dup =>
      simp only [runTrace, getLast?_cons_getD']
      exact ih h hn hb hc
    | leaf m =>
      rw [runTrace_leaf_last]
      cases h with
      | @cons _ s _ ss h1 h2 =>
        obtain ⟨c1, c2, c3⟩ := hc
        have hst := h1.clears hr hn c1 c2
        have ho := h1.out hr hn hb
        simp only [hb, Bool.false_eq_true, if_false]
        have hb' : (settle is (m.mulRayBase r)).isBlocked = false := by
          simp only [settle, Bool.or_eq_false_iff]
          exact ⟨by simp [Mat.mulRayBase, hb, hst], entryStops_clears hr h2 ho c3⟩
        obtain ⟨q1, q2⟩ := ih h2 (ho.settle is) hb' c3
        refine ⟨q1, ?_⟩
        have e1 : k + roundings (s :: ss) = k + s.ops + 2 + roundings ss := by simp only [roundings, List.map_cons, List.sum_cons]; omega
        have e2 : z + exactLen (s :: ss) = z + s.exact.len + exactLen ss := by simp only [exactLen, List.map_cons, List.sum_cons]; ring
        have e3 : Z + majLen (s :: ss) = Z + s.maj.len + majLen ss := by simp only [majLen, List.map_cons, List.sum_cons]; ring
        rw [e1, e2, e3]
        exact q2

theorem last_of_blocked {F : Type} [PyNum F] (is : List (Item F)) {r : Ray F} (hb : r.isBlocked = true) :
    ((runTrace is r).getLast?.getD r).isBlocked = true := by
  cases hx : (runTrace is r).getLast? with
  | none => exact hb
  | some x => rw [Option.getD_some, runTrace_blocked is hb x (List.mem_of_getLast? hx)]; exact hb

theorem runTrace_hits (hr : Rounding rnd u) {is : List (Item (Fl K rnd))} {ss : List (RStage K)} (h : ItemRStages u is ss)
    (hpos : ∀ s ∈ ss, ∀ D, s.exact.diam = some D → 0 < D) {k : ℕ} {r : Ray (Fl K rnd)} {e M : K × K} {z Z : K}
    (hn : NearRay u k r e M z Z) (hc : Hits u k ss e M) : ((runTrace is r).getLast?.getD r).isBlocked = true := by
  induction is generalizing ss k r e M z Z with
  | nil => cases h; exact hc.elim
  | cons i is ih =>
    cases i with
    | dup =>
      simp only [runTrace, getLast?_cons_getD']
      exact ih h hpos hn hc
    | leaf m =>
      by_cases hb : r.isBlocked = true
      · exact last_of_blocked _ hb
      rw [Bool.not_eq_true] at hb
      rw [runTrace_leaf_last]
      cases h with
      | @cons _ s _ ss h1 h2 =>
        simp only [hb, Bool.false_eq_true, if_false]
        have ho := h1.out hr hn hb
        have stop : ∀ hs : m.stops r = true,
            ((runTrace is (settle is (m.mulRayBase r))).getLast?.getD (settle is (m.mulRayBase r))).isBlocked = true := by
          intro hs
          apply last_of_blocked
          simp [settle, Mat.mulRayBase, hb, hs]
        rcases hc with c | c | c
        · exact stop (h1.hits hr hn (.inl c) (hpos s (by simp)))
        · exact stop (h1.hits hr hn (.inr c) (hpos s (by simp)))
        · exact ih h2 (fun s' hs' => hpos s' (List.mem_cons_of_mem _ hs')) (ho.settle is) c

theorem ItemRStages.linear {is : List (Item (Fl K rnd))} {ss : List (RStage K)} (h : ItemRStages u is ss) : LinearItems is := by
  intro m hm
  have : m ∈ leaves is := by
    clear h
    induction is with
    | nil => cases hm
    | cons i is ih =>
      cases i with
      | dup => simp only [List.mem_cons, reduceCtorEq, false_or] at hm; exact ih hm
      | leaf m' =>
        simp only [List.mem_cons, Item.leaf.injEq] at hm
        rcases hm with rfl | hm
        · simp [leaves]
        · exact List.mem_cons_of_mem _ (ih hm)
  unfold ItemRStages at h
  generalize leaves is = l at h this
  induction h with
  | nil => cases this
  | cons h1 _ ih =>
    rcases List.mem_cons.1 this with rfl | hm
    · exact h1.linear
    · exact ih hm

/-- What `traceThrough` returns, for any kind of numbers and an element without caches. -/
theorem through_eq {F : Type} [PyNum F] {e : Elem F} (hlin : LinearItems e.items) (h2 : e.NoCache) {a : Nat} {h : Heap F} (ha : a < h.length) :
    (e.traceH a h).2.1.get (e.traceThroughH a h).1 =
      (runTrace e.items (settle e.items (h.get a))).getLast?.getD (settle e.items (h.get a)) := by
  obtain ⟨q1, q2⟩ := e.traceH_eq h2 a h
  have hsp := runH_spec e.items hlin ha
  rw [← q1, ← q2] at hsp
  obtain ⟨e1, e2⟩ := hsp
  rw [← e1]
  unfold Elem.traceThroughH Heap.deref
  rw [List.getLast?_map]
  cases hx : (e.traceH a h).1.getLast? with
  | none => exact e2
  | some l => rfl

end RT
