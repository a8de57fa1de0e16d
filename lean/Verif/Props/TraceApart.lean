import Verif.Props.TraceNested

/-! # C11, C12, C13 for nested groups, rays that are stopped included

A group inside a group returns what it remembers when a ray arrives with the height and the angle of the ray that came before. Here: when no two different rays of the session arrive like
that at a group inside, every trace is that of a new copy, whatever is stopped. -/

set_option linter.unusedSectionVars false

namespace RT
open PyNum Ext
variable {F : Type} [PyNum F]

/-- The ray that comes out of the steps, before the next element looks at it. -/
def arrive : List (Item F) → Ray F → Ray F
  | [], r => r
  | .dup :: is, r => arrive is r
  | .leaf m :: is, r =>
    if r.isBlocked || m.stopsEntry r then arrive is { r with isBlocked := true } else arrive is (m.mulRayBase r)

theorem arrive_append (is js : List (Item F)) (r : Ray F) : arrive (is ++ js) r = arrive js (arrive is r) := by
  induction is generalizing r with
  | nil => rfl
  | cons i is ih =>
    cases i with
    | dup => exact ih r
    | leaf m =>
      simp only [List.cons_append, arrive]
      split_ifs <;> exact ih _

theorem stopsEntry_block (m : Mat F) (r : Ray F) (b : Bool) : m.stopsEntry { r with isBlocked := b } = m.stopsEntry r := rfl

theorem arrive_blocked : ∀ (is : List (Item F)) {r : Ray F}, r.isBlocked = true → arrive is r = r
  | [], _, _ => rfl
  | .dup :: is, _, h => arrive_blocked is h
  | .leaf m :: is, r, h => by
    have e1 : { r with isBlocked := true } = r := by cases r; simp_all
    simp only [arrive, h, Bool.true_or, if_true]
    rw [e1]; exact arrive_blocked is h

/-- What comes out does not depend on whether the ray is seen before or after its first element looked at it. -/
theorem arrive_settle : ∀ (is js : List (Item F)) (r : Ray F),
    (arrive is (settle (is ++ js) r)).y = (arrive is r).y ∧ (arrive is (settle (is ++ js) r)).theta = (arrive is r).theta
  | [], _, _ => ⟨rfl, rfl⟩
  | .dup :: is, js, r => arrive_settle is js r
  | .leaf m :: is, js, r => by
    have e1 : settle ((.leaf m :: is) ++ js) r = { r with isBlocked := r.isBlocked || m.stopsEntry r } := rfl
    rw [e1]
    cases hb : (r.isBlocked || m.stopsEntry r) with
    | true => simp only [arrive, hb, if_true, Bool.true_or]; exact ⟨trivial, trivial⟩
    | false =>
      rw [Bool.or_eq_false_iff] at hb
      have e2 : { r with isBlocked := false } = r := by
        obtain ⟨hb1, -⟩ := hb
        cases r; simp_all
      rw [e2]; exact ⟨rfl, rfl⟩

/-- The last object of the steps holds what comes out. -/
theorem runH_arrive (is : List (Item F)) (hl : LinearItems is) {a : Nat} {h : Heap F} (ha : a < h.length) :
    (runH is a h).1.getLast?.getD a < (runH is a h).2.length ∧
    (runH is a h).2.get ((runH is a h).1.getLast?.getD a) = arrive is (h.get a) := by
  induction is generalizing a h with
  | nil => exact ⟨ha, rfl⟩
  | cons i is ih =>
    have hl' : LinearItems is := fun m hm => hl m (List.mem_cons_of_mem _ hm)
    cases i with
    | dup =>
      simp only [runH, getLast?_cons_getD, arrive]
      exact ih hl' ha
    | leaf m =>
      have hm : m.Linear := hl m (by simp)
      simp only [runH]
      rw [getLast?_append_getD, m.traceH_last, m.traceH_snd]
      have ha' : a < (m.entered a h).length := by rw [m.entered_length]; exact ha
      have hg := m.entered_get h ha
      by_cases hb : ((m.entered a h).get a).isBlocked = true
      · obtain ⟨e1, -, -, -, e5⟩ := m.mulRayH_blocked _ ha' hb
        rw [e1, e5 hm]
        have := ih hl' ha'
        rw [hg] at hb
        have hb' : ((h.get a).isBlocked || m.stopsEntry (h.get a)) = true := hb
        rw [hg] at this
        simp only [arrive, hb', if_true]
        rw [hb'] at this
        exact this
      · rw [Bool.not_eq_true] at hb
        have hb' : ((h.get a).isBlocked || m.stopsEntry (h.get a)) = false := by rw [hg] at hb; exact hb
        rw [m.mulRayH_open _ ha' hb]
        have hb2 : (m.entered a h).length < (m.entered a h ++ [m.mulRay ((m.entered a h).get a)]).length := by simp
        have := ih hl' hb2
        rw [Heap.get_append_eq, hg, hm.mulRay, hb'] at this
        rw [Bool.or_eq_false_iff] at hb'
        have e2 : { h.get a with isBlocked := false } = h.get a := by
          obtain ⟨hb1, -⟩ := hb'
          cases hr : h.get a
          rw [hr] at hb1
          simp_all
        rw [e2] at this
        simp only [arrive, hb'.1, hb'.2, Bool.or_false, Bool.false_eq_true, if_false]
        rw [hg, hm.mulRay, hb'.1, hb'.2, Bool.or_false, e2]
        exact this

/-- At no group of the steps do the two rays arrive with the same height and angle. -/
def ApartAll (is : List (Item F)) (r s : Ray F) : Prop := ∀ pre post, is = pre ++ .dup :: post → (arrive pre r).eq (arrive pre s) = false

theorem ApartAll.left {is js : List (Item F)} {r s : Ray F} (h : ApartAll (is ++ js) r s) : ApartAll is r s := by
  rintro pre post rfl
  exact h pre (post ++ js) (by simp)

theorem ApartAll.right {is js : List (Item F)} {r s : Ray F} (h : ApartAll (is ++ js) r s) : ApartAll js (arrive is r) (arrive is s) := by
  rintro pre post rfl
  have := h (is ++ pre) post (by simp)
  rwa [arrive_append, arrive_append] at this

mutual
/-- What each group remembers is a ray with the height and angle with which the given ray arrives there. -/
def Elem.Arrived (s : Option (Ray F)) (h : Heap F) : Elem F → Prop
  | .leaf _ => True
  | .group _ c es => (∀ last t, c = some (last, t) → last < h.length ∧ ∃ r, s = some r ∧ (h.get last).y = r.y ∧ (h.get last).theta = r.theta) ∧ ArrivedList s h es
/-- in successive elements -/
def ArrivedList (s : Option (Ray F)) (h : Heap F) : List (Elem F) → Prop
  | [] => True
  | e :: es => e.Arrived s h ∧ ArrivedList (s.map (arrive e.items)) h es
end

mutual
theorem Elem.Arrived.mono {h h1 : Heap F} (hk : HeapKeeps h h1) : ∀ {e : Elem F} {s : Option (Ray F)}, e.Arrived s h → e.Arrived s h1
  | .leaf _, _, _ => trivial
  | .group _ c es, s, hr => by
    simp only [Elem.Arrived] at hr ⊢
    refine ⟨fun last t hc => ?_, ArrivedList.mono hk hr.2⟩
    obtain ⟨h2, r, h3, h4, h5⟩ := hr.1 last t hc
    obtain ⟨b, h6, -⟩ := hk.2 last h2
    exact ⟨h2.trans_le hk.1, r, h3, by rw [h6]; exact h4, by rw [h6]; exact h5⟩
theorem ArrivedList.mono {h h1 : Heap F} (hk : HeapKeeps h h1) : ∀ {es : List (Elem F)} {s : Option (Ray F)}, ArrivedList s h es → ArrivedList s h1 es
  | [], _, _ => trivial
  | e :: es, s, hr => by
    simp only [ArrivedList] at hr ⊢
    exact ⟨Elem.Arrived.mono hk hr.1, ArrivedList.mono hk hr.2⟩
end

mutual
theorem NoCache.arrived (h : Heap F) : ∀ {e : Elem F} (s : Option (Ray F)), e.NoCache → e.Arrived s h
  | .leaf _, _, _ => trivial
  | .group _ c es, s, hr => by
    simp only [Elem.NoCache, Elem.Arrived] at hr ⊢
    exact ⟨fun last t hc => (by rw [hr.1] at hc; cases hc), NoCacheList.arrived h s hr.2⟩
theorem NoCacheList.arrived (h : Heap F) : ∀ {es : List (Elem F)} (s : Option (Ray F)), NoCacheList es → ArrivedList s h es
  | [], _, _ => trivial
  | e :: es, s, hr => by
    simp only [NoCacheList, ArrivedList] at hr ⊢
    exact ⟨NoCache.arrived h s hr.1, NoCacheList.arrived h _ hr.2⟩
end

mutual
/-- Nothing remembered is used. -/
theorem Elem.traceH_apart : ∀ (e : Elem F) (s : Option (Ray F)) {a : Nat} {h : Heap F}, a < h.length → LinearItems e.items → e.Arrived s h →
    (∀ r, s = some r → ApartAll e.items (h.get a) r) →
    (e.traceH a h).1 = (runH e.items a h).1 ∧ (e.traceH a h).2.1 = (runH e.items a h).2 ∧ (e.traceH a h).2.2.Arrived (some (h.get a)) (e.traceH a h).2.1
  | .leaf m, s, a, h, _, _, _, _ => by simp [Elem.traceH, Elem.items, runH, Elem.Arrived]
  | .group m c es, s, a, h, ha, hl, hr, hap => by
    simp only [Elem.Arrived] at hr
    have hl' : LinearItems (itemsList es) := fun m hm => hl m (by simp [Elem.items, hm])
    have hmiss : cacheHit c a h = none := by
      unfold cacheHit
      rcases c with _ | ⟨last, t⟩
      · rfl
      · obtain ⟨-, r, h3, h4, h5⟩ := hr.1 last t rfl
        have h6 : (h.get a).eq r = false := hap r h3 [] (itemsList es) (by simp [Elem.items])
        rw [eq_congr (s := r) (s' := h.get last) rfl rfl h4.symm h5.symm] at h6
        simp [h6]
    obtain ⟨h1, h2, h3⟩ := traceListH_apart es s ha hl' hr.2 (fun r hs => by
      have := hap r hs
      exact ApartAll.right (is := [.dup]) this)
    have hk := traceListH_keeps hl' a h
    unfold Elem.traceH
    rw [hmiss]
    simp only [Elem.items, runH, Elem.Arrived]
    refine ⟨by rw [h1], h2, fun last t hc => ?_, h3⟩
    simp only [Option.some.injEq, Prod.mk.injEq] at hc
    obtain ⟨rfl, -⟩ := hc
    obtain ⟨b, h6, -⟩ := hk.2 a ha
    exact ⟨ha.trans_le hk.1, _, rfl, by rw [h6], by rw [h6]⟩
theorem traceListH_apart : ∀ (es : List (Elem F)) (s : Option (Ray F)) {a : Nat} {h : Heap F}, a < h.length → LinearItems (itemsList es) → ArrivedList s h es →
    (∀ r, s = some r → ApartAll (itemsList es) (h.get a) r) →
    (traceListH es a h).1 = (runH (itemsList es) a h).1 ∧ (traceListH es a h).2.1 = (runH (itemsList es) a h).2 ∧
      ArrivedList (some (h.get a)) (traceListH es a h).2.1 (traceListH es a h).2.2
  | [], s, a, h, _, _, _, _ => by simp [traceListH, itemsList, runH, ArrivedList]
  | e :: es, s, a, h, ha, hl, hr, hap => by
    simp only [ArrivedList] at hr
    rw [itemsList] at hl hap
    have hl1 : LinearItems e.items := fun m hm => hl m (by simp [hm])
    have hl2 : LinearItems (itemsList es) := fun m hm => hl m (by simp [hm])
    obtain ⟨h1, h2, h3⟩ := Elem.traceH_apart e s ha hl1 hr.1 (fun r hs => (hap r hs).left)
    have hit := Elem.traceH_items e a h
    have hk1 := Elem.traceH_keeps hl1 a h
    obtain ⟨l1, l2⟩ := runH_arrive e.items hl1 ha
    unfold traceListH itemsList
    rw [runH_append]
    rw [← h1, ← h2] at l1 l2 ⊢
    rcases hx : e.traceH a h with ⟨t, h', e'⟩
    rw [hx] at h3 hit hk1 l1 l2
    simp only at h3 hit hk1 l1 l2 ⊢
    obtain ⟨k1, k2, k3⟩ := traceListH_apart es (s.map (arrive e.items)) l1 hl2 (hr.2.mono hk1) (by
      intro r hs
      cases s with
      | none => cases hs
      | some r' =>
        simp only [Option.map_some, Option.some.injEq] at hs
        subst hs
        rw [l2]
        exact (hap r' rfl).right)
    have hk2 := traceListH_keeps hl2 (t.getLast?.getD a) h'
    refine ⟨by rw [k1], k2, ?_⟩
    simp only [ArrivedList]
    rw [l2] at k3
    rw [hit]
    exact ⟨h3.mono hk2, k3⟩
end

/-- What holds between two traces, `h0` being the heap at the beginning of the session and `all` the rays traced in it. -/
structure ApartInv (is : List (Item F)) (all : List Nat) (h0 h : Heap F) (e : Elem F) : Prop where
  items : e.items = is
  len : h0.length ≤ h.length
  old : ∀ c, c < h0.length → h.get c = h0.get c ∨ h.get c = settle is (h0.get c)
  inner : ∀ m c es, e = .group m c es → ∃ s, ArrivedList s h es ∧
    ∀ r, s = some r → ∃ last t, c = some (last, t) ∧ (r = h0.get last ∨ r = settle is (h0.get last))
  cache : ∀ last t, e.cacheOf = some (last, t) → last ∈ all ∧ last < h0.length ∧
    h.get last = settle is (h0.get last) ∧ (∀ c ∈ t, c = last ∨ (h0.length ≤ c ∧ c < h.length)) ∧ t ≠ [] ∧
    h.deref t = traceV is (h0.get last)

theorem apart_run {is : List (Item F)} {all : List Nat} {h0 h : Heap F} {e : Elem F} (hI : ApartInv is all h0 h e)
    (hl : LinearItems is) {a : Nat} (ha : a < h0.length) :
    (∀ c, h0.length ≤ c → c < h.length → (runH is a h).2.get c = h.get c) ∧
    h0.length ≤ (runH is a h).2.length ∧ h.length ≤ (runH is a h).2.length ∧
    (∀ c, c < h0.length → (runH is a h).2.get c = h0.get c ∨ (runH is a h).2.get c = settle is (h0.get c)) ∧
    (∀ c, c < h0.length → h.get c = settle is (h0.get c) → (runH is a h).2.get c = settle is (h0.get c)) ∧
    (runH is a h).2.get a = settle is (h0.get a) ∧
    (∀ c ∈ (runH is a h).1, c = a ∨ (h0.length ≤ c ∧ c < (runH is a h).2.length)) ∧
    (runH is a h).2.deref (runH is a h).1 = traceV is (h0.get a) := by
  have ha' : a < h.length := ha.trans_le hI.len
  obtain ⟨f1, f2, f3, -, -, -⟩ := runH_frame is ha'
  obtain ⟨s1, s2⟩ := runH_spec is hl ha'
  have hset : settle is (h.get a) = settle is (h0.get a) := by
    rcases hI.old a ha with h1 | h1
    · rw [h1]
    · rw [h1, settle_settle]
  rw [hset] at s1 s2
  refine ⟨fun c h1 h2 => f2 c h2 (by omega), hI.len.trans f1, f1, ?_, ?_, s2, ?_, s1⟩
  · intro c hc
    by_cases hca : c = a
    · subst hca; exact .inr s2
    · rw [f2 c (hc.trans_le hI.len) hca]; exact hI.old c hc
  · intro c hc hs
    by_cases hca : c = a
    · subst hca; exact s2
    · rw [f2 c (hc.trans_le hI.len) hca]; exact hs
  · intro c hc
    rcases f3 c hc with h1 | h1
    · exact .inl h1
    · exact .inr ⟨hI.len.trans h1.1, h1.2⟩

/-- Blocking a ray as the first element does leaves it apart from the others. -/
theorem ApartAll.settle {is : List (Item F)} {r s r' s' : Ray F} (h : ApartAll is r s) (hr : r' = r ∨ r' = settle is r) (hs : s' = s ∨ s' = settle is s) :
    ApartAll is r' s' := by
  rintro pre post rfl
  have key : ∀ {r r' : Ray F}, r' = r ∨ r' = RT.settle (pre ++ .dup :: post) r → (arrive pre r').y = (arrive pre r).y ∧ (arrive pre r').theta = (arrive pre r).theta := by
    intro r r' hr
    rcases hr with rfl | rfl
    · exact ⟨rfl, rfl⟩
    · exact arrive_settle pre (.dup :: post) r
  rw [eq_congr (key hr).1 (key hr).2 (key hs).1 (key hs).2]
  exact h pre post rfl

/-- One trace of the session. -/
theorem apart_step {is : List (Item F)} {all : List Nat} {h0 h : Heap F} {e : Elem F} (hI : ApartInv is all h0 h e)
    (hcomp : ∀ a ∈ all, ∀ b ∈ all, (h0.get a).eq (h0.get b) = true → h0.get a = h0.get b)
    (hl : LinearItems is) (hap : ∀ a ∈ all, ∀ b ∈ all, (h0.get a).eq (h0.get b) = false → ApartAll is.tail (h0.get a) (h0.get b))
    {a : Nat} (haa : a ∈ all) (ha : a < h0.length) :
    ApartInv is all h0 (e.traceH a h).2.1 (e.traceH a h).2.2 ∧
    (∀ c, h0.length ≤ c → c < h.length → (e.traceH a h).2.1.get c = h.get c) ∧
    h.length ≤ (e.traceH a h).2.1.length ∧
    (∀ c, c < h0.length → h.get c = settle is (h0.get c) → (e.traceH a h).2.1.get c = settle is (h0.get c)) ∧
    (∀ c ∈ (e.traceH a h).1, c < (e.traceH a h).2.1.length ∧
      (c < h0.length → (e.traceH a h).2.1.get c = settle is (h0.get c))) ∧
    (e.traceH a h).1 ≠ [] ∧
    (e.traceH a h).2.1.deref (e.traceH a h).1 = traceV is (h0.get a) := by
  have hit := hI.items
  cases e with
  | leaf m =>
    obtain ⟨r1, r2, r2', r3, r4, r5, r6, r7⟩ := apart_run hI hl ha
    obtain ⟨e1, e2⟩ := Elem.traceH_eq (.leaf m) trivial a h
    have e3 : ((Elem.leaf m).traceH a h).2.2 = .leaf m := rfl
    rw [hit] at e1 e2
    rw [e1, e2, e3]
    refine ⟨⟨hit, r2, r3, (by intro m c es h; cases h), by intro last t h; simp [Elem.cacheOf] at h⟩, r1, r2', r4, ?_, ?_, r7⟩
    · intro c hc
      rcases r6 c hc with rfl | h1
      · exact ⟨ha.trans_le r2, fun _ => r5⟩
      · exact ⟨h1.2, fun h2 => by omega⟩
    · rw [← e1]
      simp only [Elem.traceH]
      rw [m.traceH_fst]; split_ifs <;> simp
  | group m c es =>
    have hyθ : ∀ c, c < h0.length → (h.get c).y = (h0.get c).y ∧ (h.get c).theta = (h0.get c).theta := by
      intro c hc
      rcases hI.old c hc with h1 | h1 <;> rw [h1] <;> exact ⟨rfl, rfl⟩
    have hle : LinearItems (itemsList es) := by
      intro m' hm'
      exact hl m' (by rw [← hit]; simp [Elem.items, hm'])
    unfold Elem.traceH
    cases hhit : cacheHit c a h with
    | some t =>
      dsimp only
      unfold cacheHit at hhit
      cases c with
      | none => simp at hhit
      | some lt =>
        obtain ⟨last, t'⟩ := lt
        dsimp only at hhit
        split_ifs at hhit with hq
        simp only [Option.some.injEq] at hhit
        subst hhit
        obtain ⟨c1, c2, c3, c4, c5, c6⟩ := hI.cache last t' rfl
        have hsame : h0.get a = h0.get last := by
          refine hcomp a haa last c1 ?_
          rw [← eq_congr (hyθ a ha).1 (hyθ a ha).2 (hyθ last c2).1 (hyθ last c2).2]; exact hq
        refine ⟨hI, fun _ _ _ => rfl, le_refl _, fun _ _ h => h, ?_, c5, by rw [c6, hsame]⟩
        intro c hc
        rcases c4 c hc with rfl | h1
        · exact ⟨c2.trans_le hI.len, fun _ => c3⟩
        · exact ⟨h1.2, fun h2 => by omega⟩
    | none =>
      dsimp only
      obtain ⟨r1, r2, r2', r3, r4, r5, r6, r7⟩ := apart_run hI hl ha
      obtain ⟨s, i1, i2⟩ := hI.inner m c es rfl
      have hset : ∀ r, RT.settle is r = RT.settle (itemsList es) r := fun r => by rw [← hit]; rfl
      obtain ⟨e1, e2, e3⟩ := traceListH_apart es s (ha.trans_le hI.len) hle i1 (by
        intro r hr
        obtain ⟨last, t, hc, h1⟩ := i2 r hr
        obtain ⟨c1, c2, -⟩ := hI.cache last t (by rw [hc]; rfl)
        have hq : (h0.get a).eq (h0.get last) = false := by
          rw [← eq_congr (hyθ a ha).1 (hyθ a ha).2 (hyθ last c2).1 (hyθ last c2).2]
          rw [hc] at hhit
          unfold cacheHit at hhit
          simpa using hhit
        have h2 := hap a haa last c1 hq
        rw [← hit] at h2
        have h3 := hI.old a ha
        rw [hset] at h1 h3
        exact ApartAll.settle h2 h3 h1)
      have hru : runH is a h = (a :: (traceListH es a h).1, (traceListH es a h).2.1) := by
        rw [← hit, e1, e2]; rfl
      rw [hru] at r1 r2 r2' r3 r4 r5 r6 r7
      dsimp only at r1 r2 r2' r3 r4 r5 r6 r7
      refine ⟨⟨?_, r2, r3, ?_, ?_⟩, r1, r2', r4, ?_, by simp, r7⟩
      · rw [← hit]
        simp only [Elem.items, traceListH_items]
      · intro m' c' es' he
        cases he
        refine ⟨_, e3, fun r hr => ?_⟩
        simp only [Option.some.injEq] at hr
        subst hr
        exact ⟨a, _, rfl, hI.old a ha⟩
      · intro last t hc
        simp only [Elem.cacheOf, Option.some.injEq, Prod.mk.injEq] at hc
        obtain ⟨rfl, rfl⟩ := hc
        exact ⟨haa, ha, r5, r6, by simp, r7⟩
      · intro c hc
        rcases r6 c hc with rfl | h1
        · exact ⟨ha.trans_le r2, fun _ => r5⟩
        · exact ⟨h1.2, fun h2 => by omega⟩

/-- A whole session of traces: each of them, read at the end, is the trace of a new ray through new elements. -/
theorem apart_traces {is : List (Item F)} {all : List Nat} {h0 : Heap F}
    (hcomp : ∀ a ∈ all, ∀ b ∈ all, (h0.get a).eq (h0.get b) = true → h0.get a = h0.get b)
    (hl : LinearItems is) (hap : ∀ a ∈ all, ∀ b ∈ all, (h0.get a).eq (h0.get b) = false → ApartAll is.tail (h0.get a) (h0.get b))
    (hall : ∀ a ∈ all, a < h0.length) (as : List Nat) (has : as ⊆ all) {h : Heap F} {e : Elem F}
    (hI : ApartInv is all h0 h e) :
    ApartInv is all h0 (e.traceManyH as h).2.1 (e.traceManyH as h).2.2 ∧
    (∀ c, h0.length ≤ c → c < h.length → (e.traceManyH as h).2.1.get c = h.get c) ∧
    (∀ c, c < h0.length → h.get c = settle is (h0.get c) → (e.traceManyH as h).2.1.get c = settle is (h0.get c)) ∧
    (e.traceManyH as h).1.map (e.traceManyH as h).2.1.deref = as.map fun a => traceV is (h0.get a) := by
  induction as generalizing h e with
  | nil => exact ⟨hI, fun _ _ _ => rfl, fun _ _ h => h, rfl⟩
  | cons a as ih =>
    have haa : a ∈ all := has (by simp)
    obtain ⟨s1, s2, s2', s3, s4, s5, s6⟩ := apart_step hI hcomp hl hap haa (hall a haa)
    obtain ⟨i1, i2, i3, i4⟩ := ih (fun x hx => has (List.mem_cons_of_mem _ hx)) s1
    unfold Elem.traceManyH
    dsimp only
    refine ⟨i1, ?_, fun c hc h' => i3 c hc (s3 c hc h'), ?_⟩
    · intro c h1 h2
      rw [i2 c h1 (by omega), s2 c h1 h2]
    · simp only [List.map_cons, i4, List.cons.injEq, and_true]
      rw [← s6]
      unfold Heap.deref
      refine List.map_congr_left fun c hc => ?_
      obtain ⟨h1, h2⟩ := s4 c hc
      by_cases hc0 : c < h0.length
      · rw [i3 c hc0 (h2 hc0), h2 hc0]
      · exact i2 c (by omega) h1

/-- `traceManyThrough`: the last values that are not blocked, in order. -/
theorem apart_through {is : List (Item F)} {all : List Nat} {h0 : Heap F}
    (hcomp : ∀ a ∈ all, ∀ b ∈ all, (h0.get a).eq (h0.get b) = true → h0.get a = h0.get b)
    (hl : LinearItems is) (hap : ∀ a ∈ all, ∀ b ∈ all, (h0.get a).eq (h0.get b) = false → ApartAll is.tail (h0.get a) (h0.get b))
    (hall : ∀ a ∈ all, a < h0.length) (as : List Nat) (has : as ⊆ all) {h : Heap F} {e : Elem F}
    (hI : ApartInv is all h0 h e) :
    ApartInv is all h0 (e.traceManyThroughH as h).2.1 (e.traceManyThroughH as h).2.2 ∧
    (∀ c, h0.length ≤ c → c < h.length → (e.traceManyThroughH as h).2.1.get c = h.get c) ∧
    (∀ c, c < h0.length → h.get c = settle is (h0.get c) →
      (e.traceManyThroughH as h).2.1.get c = settle is (h0.get c)) ∧
    (e.traceManyThroughH as h).2.1.deref (e.traceManyThroughH as h).1 =
      (as.map fun a => lastV is (h0.get a)).filter Ray.isNotBlocked := by
  induction as generalizing h e with
  | nil => exact ⟨hI, fun _ _ _ => rfl, fun _ _ h => h, rfl⟩
  | cons a as ih =>
    have haa : a ∈ all := has (by simp)
    obtain ⟨s1, s2, s2', s3, s4, s5, s6⟩ := apart_step hI hcomp hl hap haa (hall a haa)
    obtain ⟨i1, i2, i3, i4⟩ := ih (fun x hx => has (List.mem_cons_of_mem _ hx)) s1
    rw [traceManyThroughH_cons]
    refine ⟨i1, ?_, fun c hc h' => i3 c hc (s3 c hc h'), ?_⟩
    · intro c h1 h2
      rw [i2 c h1 (by omega), s2 c h1 h2]
    · obtain ⟨l, hl⟩ : ∃ l, (e.traceH a h).1.getLast? = some l := by
        cases hx : (e.traceH a h).1.getLast? with
        | none => exact absurd (List.getLast?_eq_none_iff.1 hx) s5
        | some l => exact ⟨l, rfl⟩
      have hlv : (e.traceH a h).2.1.get l = lastV is (h0.get a) := by
        unfold lastV
        rw [← s6]
        unfold Heap.deref
        rw [List.getLast?_map, hl]; rfl
      rw [hl]
      simp only [Option.getD_some, List.map_cons]
      have hfin : (e.traceH a h).2.2.traceManyThroughH as (e.traceH a h).2.1 |>.2.1.get l = (e.traceH a h).2.1.get l := by
        obtain ⟨h1, h2⟩ := s4 l (List.mem_of_getLast? hl)
        by_cases hc0 : l < h0.length
        · rw [i3 l hc0 (h2 hc0), h2 hc0]
        · exact i2 l (by omega) h1
      rw [hlv]
      cases hb : (lastV is (h0.get a)).isNotBlocked with
      | true =>
        rw [if_pos rfl, List.filter_cons_of_pos (by exact hb), ← i4]
        unfold Heap.deref
        rw [List.map_cons, ← hlv, ← hfin]
      | false =>
        rw [if_neg (by simp), List.filter_cons_of_neg (by simp [hb]), ← i4]


theorem apart_start {e : Elem F} (hc : e.NoCache) (all : List Nat) (h0 : Heap F) : ApartInv e.items all h0 h0 e := by
  refine ⟨rfl, le_refl _, fun _ _ => .inl rfl, ?_, ?_⟩
  · rintro m c es rfl
    unfold Elem.NoCache at hc
    exact ⟨none, NoCacheList.arrived h0 none hc.2, fun r hr => by cases hr⟩
  · intro last t h
    cases e with
    | leaf m => simp [Elem.cacheOf] at h
    | group m c es =>
      unfold Elem.NoCache at hc
      simp [Elem.cacheOf, hc.1] at h

/-- The session: at no group inside do two rays that differ arrive with the same height and angle. -/
structure ApartSession (e : Elem F) (h : Heap F) (as : List Nat) : Prop where
  exist : ∀ a ∈ as, a < h.length
  same : Compatible h as
  apart : ∀ a ∈ as, ∀ b ∈ as, (h.get a).eq (h.get b) = false → ApartAll e.items.tail (h.get a) (h.get b)

/-- **C11** for groups nested in any way, no axicon, whatever is stopped: when no two rays that differ arrive at a group inside with the same height and angle, each trace of the
session is what a newly built copy returns for a new ray with the same values. Without this condition it is violated (`C11_violated_nested`). -/
theorem C11_apart_partial {e : Elem F} (hn : e.NoCache) (hl : LinearItems e.items) {h : Heap F} {as : List Nat} (hs : ApartSession e h as) :
    (e.traceManyH as h).1.map (e.traceManyH as h).2.1.deref = as.map fun a => e.freshTrace (h.get a) := by
  rw [(apart_traces hs.same hl hs.apart hs.exist as (List.Subset.refl _) (apart_start hn as h)).2.2.2]
  exact List.map_congr_left fun a _ => (freshTrace_eq hn hl _).symm

/-- **C12** in the same sessions: `traceManyThrough` returns, in order, the last ray of each input ray that gets through, and nothing else. -/
theorem C12_apart_partial {e : Elem F} (hn : e.NoCache) (hl : LinearItems e.items) {h : Heap F} {as : List Nat} (hs : ApartSession e h as) :
    (e.traceManyThroughH as h).2.1.deref (e.traceManyThroughH as h).1 =
      (as.map fun a => e.freshThrough (h.get a)).filter Ray.isNotBlocked := by
  rw [(apart_through hs.same hl hs.apart hs.exist as (List.Subset.refl _) (apart_start hn as h)).2.2.2]
  congr 1
  exact List.map_congr_left fun a _ => (freshThrough_eq hn hl _).symm

/-- **C13** in the same sessions: for every number of processes and whether the pool works or not, the rays returned are the same, up to their order, as with
`traceManyThrough`. -/
theorem C13_apart_partial {e : Elem F} (hn : e.NoCache) (hl : LinearItems e.items) {h : Heap F} {as : List Nat} (hs : ApartSession e h as)
    (processes : Int) (poolWorks : Bool) :
    (e.traceManyThroughInParallel as h processes poolWorks).Perm
      ((e.traceManyThroughH as h).2.1.deref (e.traceManyThroughH as h).1) := by
  unfold Elem.traceManyThroughInParallel
  split_ifs with hcond
  · have hp : 0 < processes.toNat := by omega
    have h1 : ∀ i, ((e.traceManyThroughH (pyStride as i processes.toNat) h).2.1.deref (e.traceManyThroughH (pyStride as i processes.toNat) h).1) =
        ((pyStride as i processes.toNat).map fun a => e.freshThrough (h.get a)).filter Ray.isNotBlocked := by
      intro i
      have hsub : ∀ a ∈ pyStride as i processes.toNat, a ∈ as := by
        intro a ha
        unfold pyStride at ha
        obtain ⟨k, -, hk⟩ := List.mem_filterMap.1 ha
        split_ifs at hk
        exact List.mem_of_getElem? hk
      exact C12_apart_partial hn hl ⟨fun a ha => hs.exist a (hsub a ha), fun a ha b hb => hs.same a (hsub a ha) b (hsub b hb),
        fun a ha b hb => hs.apart a (hsub a ha) b (hsub b hb)⟩
    simp only [h1]
    rw [C12_apart_partial hn hl hs, ← List.filter_flatMap, ← List.map_flatMap]
    exact ((stride_perm as hp).map _).filter _
  · exact List.Perm.refl _

/-- The condition, computed. -/
def apartB : List (Item F) → Ray F → Ray F → Bool
  | [], _, _ => true
  | .dup :: is, r, s => !(r.eq s) && apartB is r s
  | .leaf m :: is, r, s => apartB is (arrive [.leaf m] r) (arrive [.leaf m] s)

theorem apartB_iff : ∀ (is : List (Item F)) (r s : Ray F), apartB is r s = true → ApartAll is r s
  | [], r, s, _ => by rintro (_ | ⟨i, pre⟩) post h <;> cases h
  | .dup :: is, r, s, hb => by
    simp only [apartB, Bool.and_eq_true, Bool.not_eq_true'] at hb
    rintro (_ | ⟨i, pre⟩) post h
    · exact hb.1
    · simp only [List.cons_append, List.cons.injEq] at h
      obtain ⟨rfl, rfl⟩ := h
      exact apartB_iff _ r s hb.2 pre post rfl
  | .leaf m :: is, r, s, hb => by
    simp only [apartB] at hb
    rintro (_ | ⟨i, pre⟩) post h
    · cases h
    · simp only [List.cons_append, List.cons.injEq] at h
      obtain ⟨rfl, rfl⟩ := h
      have := apartB_iff _ _ _ hb pre post rfl
      rw [← arrive_append, ← arrive_append] at this
      exact this

/-- Three rays through the aperture, the space and the group of `C11_violated_nested`: one is stopped, and they meet the condition. The two rays of `C11_violated_nested` do not. -/
example : withBuilt nestedPart (fun e =>
    ([Ray.new (fin 0) (fin (1/10)), Ray.new (fin 5) (fin (1/5)), Ray.new (fin (1/2)) (fin 0)].map fun r => (e.freshThrough r).isBlocked,
     apartB e.items.tail (Ray.new (fin 0) (fin (1/10))) (Ray.new (fin 5) (fin (1/5))) && apartB e.items.tail (Ray.new (fin 0) (fin (1/10))) (Ray.new (fin (1/2)) (fin 0)) &&
       apartB e.items.tail (Ray.new (fin 5) (fin (1/5))) (Ray.new (fin (1/2)) (fin 0)),
     apartB e.items.tail (Ray.new (fin 0) (fin (1/10))) (Ray.new (fin 5) (fin (1/10))))) =
    .ok ([false, true, false], true, false) := by decide +kernel

end RT
