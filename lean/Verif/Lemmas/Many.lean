import Verif.Lemmas.Sound

/-! # Tracing many rays through a system without nested groups -/

set_option linter.unusedSectionVars false

namespace RT
open PyNum
variable {F : Type} [PyNum F]

/-- a single element, or a group of single elements; no axicon -/
def Elem.Flat : Elem F → Prop
  | .leaf m => m.Linear
  | .group _ _ es => ∀ e ∈ es, ∃ m, e = .leaf m ∧ m.Linear

/-- the cached trace -/
def Elem.cacheOf : Elem F → Option (Nat × List Nat)
  | .leaf _ => none
  | .group _ c _ => c

/-- values of the trace of a new ray through steps -/
def traceV (is : List (Item F)) (r : Ray F) : List (Ray F) := runTrace is (settle is r)

theorem flat_noCacheList {es : List (Elem F)} (h : ∀ e ∈ es, ∃ m, e = .leaf m ∧ m.Linear) : NoCacheList es := by
  rw [NoCacheList_iff]
  intro e he
  obtain ⟨m, rfl, -⟩ := h e he
  trivial

theorem flat_linear {es : List (Elem F)} (h : ∀ e ∈ es, ∃ m, e = .leaf m ∧ m.Linear) : LinearItems (itemsList es) := by
  intro m hm
  obtain ⟨e, he, hme⟩ := itemsList_mem.1 hm
  obtain ⟨m', rfl, hl⟩ := h e he
  simp only [Elem.items, List.mem_singleton, Item.leaf.injEq] at hme
  subst hme; exact hl

theorem flat_traceListH {es : List (Elem F)} (h : ∀ e ∈ es, ∃ m, e = .leaf m ∧ m.Linear) (a : Nat) (hp : Heap F) :
    (traceListH es a hp).2.2 = es := by
  induction es generalizing a hp with
  | nil => rfl
  | cons e es ih =>
    obtain ⟨m, rfl, -⟩ := h e (by simp)
    unfold traceListH
    simp only [Elem.traceH]
    rw [ih (fun e he => h e (List.mem_cons_of_mem _ he))]

/-- What holds between two traces, `h0` being the heap at the beginning of the session and `all` the rays traced in it. -/
structure ManyInv (is : List (Item F)) (all : List Nat) (h0 h : Heap F) (e : Elem F) : Prop where
  flat : e.Flat
  items : e.items = is
  len : h0.length ≤ h.length
  old : ∀ c, c < h0.length → h.get c = h0.get c ∨ h.get c = settle is (h0.get c)
  cache : ∀ last t, e.cacheOf = some (last, t) → last ∈ all ∧ last < h0.length ∧
    h.get last = settle is (h0.get last) ∧ (∀ c ∈ t, c = last ∨ (h0.length ≤ c ∧ c < h.length)) ∧ t ≠ [] ∧
    h.deref t = traceV is (h0.get last)

theorem eq_congr {r r' s s' : Ray F} (h1 : r.y = r'.y) (h2 : r.theta = r'.theta) (h3 : s.y = s'.y)
    (h4 : s.theta = s'.theta) : r.eq s = r'.eq s' := by simp [Ray.eq, h1, h2, h3, h4]

theorem many_run {is : List (Item F)} {all : List Nat} {h0 h : Heap F} {e : Elem F} (hI : ManyInv is all h0 h e)
    (hl : LinearItems is) {a : Nat} (ha : a < h0.length) :
    (∀ c, h0.length ≤ c → c < h.length → (runH is a h).2.get c = h.get c) ∧
    h0.length ≤ (runH is a h).2.length ∧ h.length ≤ (runH is a h).2.length ∧
    (∀ c, c < h0.length → (runH is a h).2.get c = h0.get c ∨ (runH is a h).2.get c = settle is (h0.get c)) ∧
    (∀ c, c < h0.length → h.get c = settle is (h0.get c) → (runH is a h).2.get c = settle is (h0.get c)) ∧
    (runH is a h).2.get a = settle is (h0.get a) ∧
    (∀ c ∈ (runH is a h).1, c = a ∨ (h0.length ≤ c ∧ c < (runH is a h).2.length)) ∧
    (runH is a h).2.deref (runH is a h).1 = traceV is (h0.get a) := by
  have ha' : a < h.length := ha.trans_le hI.len
  obtain ⟨f1, f2, f3, -, -, -⟩ := runH_frame is ha'
  obtain ⟨s1, s2⟩ := runH_spec is hl ha'
  have hset : settle is (h.get a) = settle is (h0.get a) := by
    rcases hI.old a ha with h1 | h1
    · rw [h1]
    · rw [h1, settle_settle]
  rw [hset] at s1 s2
  refine ⟨fun c h1 h2 => f2 c h2 (by omega), hI.len.trans f1, f1, ?_, ?_, s2, ?_, s1⟩
  · intro c hc
    by_cases hca : c = a
    · subst hca; exact .inr s2
    · rw [f2 c (hc.trans_le hI.len) hca]; exact hI.old c hc
  · intro c hc hs
    by_cases hca : c = a
    · subst hca; exact s2
    · rw [f2 c (hc.trans_le hI.len) hca]; exact hs
  · intro c hc
    rcases f3 c hc with h1 | h1
    · exact .inl h1
    · exact .inr ⟨hI.len.trans h1.1, h1.2⟩

/-- One trace of the session. -/
theorem many_step {is : List (Item F)} {all : List Nat} {h0 h : Heap F} {e : Elem F} (hI : ManyInv is all h0 h e)
    (hcomp : ∀ a ∈ all, ∀ b ∈ all, (h0.get a).eq (h0.get b) = true → h0.get a = h0.get b)
    {a : Nat} (haa : a ∈ all) (ha : a < h0.length) :
    ManyInv is all h0 (e.traceH a h).2.1 (e.traceH a h).2.2 ∧
    (∀ c, h0.length ≤ c → c < h.length → (e.traceH a h).2.1.get c = h.get c) ∧
    h.length ≤ (e.traceH a h).2.1.length ∧
    (∀ c, c < h0.length → h.get c = settle is (h0.get c) → (e.traceH a h).2.1.get c = settle is (h0.get c)) ∧
    (∀ c ∈ (e.traceH a h).1, c < (e.traceH a h).2.1.length ∧
      (c < h0.length → (e.traceH a h).2.1.get c = settle is (h0.get c))) ∧
    (e.traceH a h).1 ≠ [] ∧
    (e.traceH a h).2.1.deref (e.traceH a h).1 = traceV is (h0.get a) := by
  have hfl := hI.flat
  have hit := hI.items
  cases e with
  | leaf m =>
    have hl : LinearItems is := by
      rw [← hit]
      intro m' hm'
      simp only [Elem.items, List.mem_singleton, Item.leaf.injEq] at hm'
      subst hm'; exact hfl
    obtain ⟨r1, r2, r2', r3, r4, r5, r6, r7⟩ := many_run hI hl ha
    obtain ⟨e1, e2⟩ := Elem.traceH_eq (.leaf m) trivial a h
    have e3 : ((Elem.leaf m).traceH a h).2.2 = .leaf m := rfl
    rw [hit] at e1 e2
    rw [e1, e2, e3]
    refine ⟨⟨hfl, hit, r2, r3, by intro last t h; simp [Elem.cacheOf] at h⟩, r1, r2', r4, ?_, ?_, r7⟩
    · intro c hc
      rcases r6 c hc with rfl | h1
      · exact ⟨ha.trans_le r2, fun _ => r5⟩
      · exact ⟨h1.2, fun h2 => by omega⟩
    · rw [← e1]
      simp only [Elem.traceH]
      rw [m.traceH_fst]; split_ifs <;> simp
  | group m c es =>
    have hl : LinearItems is := by
      rw [← hit]
      intro m' hm'
      simp only [Elem.items, List.mem_cons, reduceCtorEq, false_or] at hm'
      exact flat_linear hfl m' hm'
    unfold Elem.traceH
    cases hhit : cacheHit c a h with
    | some t =>
      dsimp only
      unfold cacheHit at hhit
      cases c with
      | none => simp at hhit
      | some lt =>
        obtain ⟨last, t'⟩ := lt
        dsimp only at hhit
        split_ifs at hhit with hq
        simp only [Option.some.injEq] at hhit
        subst hhit
        obtain ⟨c1, c2, c3, c4, c5, c6⟩ := hI.cache last t' rfl
        have hyθ : ∀ c, c < h0.length → (h.get c).y = (h0.get c).y ∧ (h.get c).theta = (h0.get c).theta := by
          intro c hc
          rcases hI.old c hc with h1 | h1 <;> rw [h1] <;> exact ⟨rfl, rfl⟩
        have hsame : h0.get a = h0.get last := by
          refine hcomp a haa last c1 ?_
          rw [← eq_congr (hyθ a ha).1 (hyθ a ha).2 (hyθ last c2).1 (hyθ last c2).2]; exact hq
        refine ⟨hI, fun _ _ _ => rfl, le_refl _, fun _ _ h => h, ?_, c5, by rw [c6, hsame]⟩
        intro c hc
        rcases c4 c hc with rfl | h1
        · exact ⟨c2.trans_le hI.len, fun _ => c3⟩
        · exact ⟨h1.2, fun h2 => by omega⟩
    | none =>
      dsimp only
      obtain ⟨r1, r2, r2', r3, r4, r5, r6, r7⟩ := many_run hI hl ha
      obtain ⟨e1, e2⟩ := traceListH_eq es (flat_noCacheList hfl) a h
      have e3 := flat_traceListH hfl a h
      have hru : runH is a h = (a :: (traceListH es a h).1, (traceListH es a h).2.1) := by
        rw [← hit, e1, e2]; rfl
      rw [hru] at r1 r2 r2' r3 r4 r5 r6 r7
      dsimp only at r1 r2 r2' r3 r4 r5 r6 r7
      rw [e3]
      refine ⟨⟨hfl, hit, r2, r3, ?_⟩, r1, r2', r4, ?_, by simp, r7⟩
      · intro last t hc
        simp only [Elem.cacheOf, Option.some.injEq, Prod.mk.injEq] at hc
        obtain ⟨rfl, rfl⟩ := hc
        exact ⟨haa, ha, r5, r6, by simp, r7⟩
      · intro c hc
        rcases r6 c hc with rfl | h1
        · exact ⟨ha.trans_le r2, fun _ => r5⟩
        · exact ⟨h1.2, fun h2 => by omega⟩

/-- A whole session of traces: each of them, read at the end, is the trace of a new ray through new elements. -/
theorem many_traces {is : List (Item F)} {all : List Nat} {h0 : Heap F}
    (hcomp : ∀ a ∈ all, ∀ b ∈ all, (h0.get a).eq (h0.get b) = true → h0.get a = h0.get b)
    (hall : ∀ a ∈ all, a < h0.length) (as : List Nat) (has : as ⊆ all) {h : Heap F} {e : Elem F}
    (hI : ManyInv is all h0 h e) :
    ManyInv is all h0 (e.traceManyH as h).2.1 (e.traceManyH as h).2.2 ∧
    (∀ c, h0.length ≤ c → c < h.length → (e.traceManyH as h).2.1.get c = h.get c) ∧
    (∀ c, c < h0.length → h.get c = settle is (h0.get c) → (e.traceManyH as h).2.1.get c = settle is (h0.get c)) ∧
    (e.traceManyH as h).1.map (e.traceManyH as h).2.1.deref = as.map fun a => traceV is (h0.get a) := by
  induction as generalizing h e with
  | nil => exact ⟨hI, fun _ _ _ => rfl, fun _ _ h => h, rfl⟩
  | cons a as ih =>
    have haa : a ∈ all := has (by simp)
    obtain ⟨s1, s2, s2', s3, s4, s5, s6⟩ := many_step hI hcomp haa (hall a haa)
    obtain ⟨i1, i2, i3, i4⟩ := ih (fun x hx => has (List.mem_cons_of_mem _ hx)) s1
    unfold Elem.traceManyH
    dsimp only
    refine ⟨i1, ?_, fun c hc h' => i3 c hc (s3 c hc h'), ?_⟩
    · intro c h1 h2
      rw [i2 c h1 (by omega), s2 c h1 h2]
    · simp only [List.map_cons, i4, List.cons.injEq, and_true]
      rw [← s6]
      unfold Heap.deref
      refine List.map_congr_left fun c hc => ?_
      obtain ⟨h1, h2⟩ := s4 c hc
      by_cases hc0 : c < h0.length
      · rw [i3 c hc0 (h2 hc0), h2 hc0]
      · exact i2 c (by omega) h1

/-- the last value -/
def lastV (is : List (Item F)) (r : Ray F) : Ray F := (traceV is r).getLast?.getD r

theorem traceManyThroughH_cons (e : Elem F) (a : Nat) (as : List Nat) (h : Heap F) :
    e.traceManyThroughH (a :: as) h =
      (if ((e.traceH a h).2.1.get ((e.traceH a h).1.getLast?.getD a)).isNotBlocked then
          (e.traceH a h).1.getLast?.getD a :: ((e.traceH a h).2.2.traceManyThroughH as (e.traceH a h).2.1).1
        else ((e.traceH a h).2.2.traceManyThroughH as (e.traceH a h).2.1).1,
       ((e.traceH a h).2.2.traceManyThroughH as (e.traceH a h).2.1).2) := rfl

/-- `traceManyThrough`: the last values that are not blocked, in order. -/
theorem many_through {is : List (Item F)} {all : List Nat} {h0 : Heap F}
    (hcomp : ∀ a ∈ all, ∀ b ∈ all, (h0.get a).eq (h0.get b) = true → h0.get a = h0.get b)
    (hall : ∀ a ∈ all, a < h0.length) (as : List Nat) (has : as ⊆ all) {h : Heap F} {e : Elem F}
    (hI : ManyInv is all h0 h e) :
    ManyInv is all h0 (e.traceManyThroughH as h).2.1 (e.traceManyThroughH as h).2.2 ∧
    (∀ c, h0.length ≤ c → c < h.length → (e.traceManyThroughH as h).2.1.get c = h.get c) ∧
    (∀ c, c < h0.length → h.get c = settle is (h0.get c) →
      (e.traceManyThroughH as h).2.1.get c = settle is (h0.get c)) ∧
    (e.traceManyThroughH as h).2.1.deref (e.traceManyThroughH as h).1 =
      (as.map fun a => lastV is (h0.get a)).filter Ray.isNotBlocked := by
  induction as generalizing h e with
  | nil => exact ⟨hI, fun _ _ _ => rfl, fun _ _ h => h, rfl⟩
  | cons a as ih =>
    have haa : a ∈ all := has (by simp)
    obtain ⟨s1, s2, s2', s3, s4, s5, s6⟩ := many_step hI hcomp haa (hall a haa)
    obtain ⟨i1, i2, i3, i4⟩ := ih (fun x hx => has (List.mem_cons_of_mem _ hx)) s1
    rw [traceManyThroughH_cons]
    refine ⟨i1, ?_, fun c hc h' => i3 c hc (s3 c hc h'), ?_⟩
    · intro c h1 h2
      rw [i2 c h1 (by omega), s2 c h1 h2]
    · obtain ⟨l, hl⟩ : ∃ l, (e.traceH a h).1.getLast? = some l := by
        cases hx : (e.traceH a h).1.getLast? with
        | none => exact absurd (List.getLast?_eq_none_iff.1 hx) s5
        | some l => exact ⟨l, rfl⟩
      have hlv : (e.traceH a h).2.1.get l = lastV is (h0.get a) := by
        unfold lastV
        rw [← s6]
        unfold Heap.deref
        rw [List.getLast?_map, hl]; rfl
      rw [hl]
      simp only [Option.getD_some, List.map_cons]
      have hfin : (e.traceH a h).2.2.traceManyThroughH as (e.traceH a h).2.1 |>.2.1.get l = (e.traceH a h).2.1.get l := by
        obtain ⟨h1, h2⟩ := s4 l (List.mem_of_getLast? hl)
        by_cases hc0 : l < h0.length
        · rw [i3 l hc0 (h2 hc0), h2 hc0]
        · exact i2 l (by omega) h1
      rw [hlv]
      cases hb : (lastV is (h0.get a)).isNotBlocked with
      | true =>
        rw [if_pos rfl, List.filter_cons_of_pos (by exact hb), ← i4]
        unfold Heap.deref
        rw [List.map_cons, ← hlv, ← hfin]
      | false =>
        rw [if_neg (by simp), List.filter_cons_of_neg (by simp [hb]), ← i4]

/-- the beginning of a session: no trace is cached -/
theorem many_start {e : Elem F} (hf : e.Flat) (hc : e.NoCache) (all : List Nat) (h0 : Heap F) :
    ManyInv e.items all h0 h0 e := by
  refine ⟨hf, rfl, le_refl _, fun _ _ => .inl rfl, ?_⟩
  intro last t h
  cases e with
  | leaf m => simp [Elem.cacheOf] at h
  | group m c es =>
    unfold Elem.NoCache at hc
    simp [Elem.cacheOf, hc.1] at h

end RT
