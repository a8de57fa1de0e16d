import Verif.Props.Trace
import Verif.Model.Binary64

/-! # C11, C12, C13 for nested groups, axicons included, when no ray is stopped

What goes wrong with nested groups (`C11_violated_nested`) comes from rays that are stopped or that start at other positions. Here is the rest: sessions of rays that start at the
same position and that all get through. -/

set_option linter.unusedSectionVars false

namespace RT
open PyNum Ext
variable {F : Type} [PyNum F]

/-- What a ray carries besides its height, its angle and whether it is blocked. -/
def Ray.stamp (r : Ray F) : F × F × Option F := (r.z, r.apertureDiameter, r.wavelength)

/-- The values of a trace along which nothing is stopped. -/
def clearTrace : List (Item F) → Ray F → List (Ray F)
  | [], _ => []
  | .dup :: is, r => r :: clearTrace is r
  | .leaf m :: is, r => (if 0 <. m.L then [r] else []) ++ m.mulRay r :: clearTrace is (m.mulRay r)

/-- The last ray. -/
def clearLast : List (Item F) → Ray F → Ray F
  | [], r => r
  | .dup :: is, r => clearLast is r
  | .leaf m :: is, r => clearLast is (m.mulRay r)

/-- The ray is not blocked, and no element stops it at its entrance or at its exit. -/
def Clear : List (Item F) → Ray F → Prop
  | [], r => r.isBlocked = false
  | .dup :: is, r => Clear is r
  | .leaf m :: is, r => r.isBlocked = false ∧ (0 <. m.L → (half m.apertureDiameter <. PyNum.abs r.y) = false) ∧ m.stops r = false ∧ Clear is (m.mulRay r)

/-- What a ray with a stamp carries after the steps. -/
def stampAfter : List (Item F) → F × F × Option F → F × F × Option F
  | [], s => s
  | .dup :: is, s => stampAfter is s
  | .leaf m :: is, s => stampAfter is (m.L + s.1, m.apertureDiameter, none)

theorem clearTrace_append (is js : List (Item F)) (r : Ray F) : clearTrace (is ++ js) r = clearTrace is r ++ clearTrace js (clearLast is r) := by
  induction is generalizing r with
  | nil => rfl
  | cons i is ih => cases i <;> simp [clearTrace, clearLast, ih]

theorem clearLast_append (is js : List (Item F)) (r : Ray F) : clearLast (is ++ js) r = clearLast js (clearLast is r) := by
  induction is generalizing r with
  | nil => rfl
  | cons i is ih => cases i <;> simp [clearLast, ih]

theorem Clear.start {is : List (Item F)} {r : Ray F} (h : Clear is r) : r.isBlocked = false := by
  induction is generalizing r with
  | nil => exact h
  | cons i is ih => cases i with
    | dup => exact ih h
    | leaf m => exact h.1

theorem clear_append {is js : List (Item F)} {r : Ray F} (h : Clear (is ++ js) r) : Clear is r ∧ Clear js (clearLast is r) := by
  induction is generalizing r with
  | nil => exact ⟨h.start, h⟩
  | cons i is ih => cases i with
    | dup => exact ih h
    | leaf m =>
      obtain ⟨h1, h2, h3, h4⟩ := h
      exact ⟨⟨h1, h2, h3, (ih h4).1⟩, (ih h4).2⟩

theorem mulRay_clear {m : Mat F} {r : Ray F} (hb : r.isBlocked = false) (hs : m.stops r = false) :
    (m.mulRay r).isBlocked = false ∧ (m.mulRay r).stamp = (m.L + r.stamp.1, m.apertureDiameter, none) := by
  have h1 : (m.mulRayBase r).isBlocked = false ∧ (m.mulRayBase r).stamp = (m.L + r.stamp.1, m.apertureDiameter, none) := by
    unfold Mat.mulRayBase Ray.stamp
    simp [hb, hs]
  unfold Mat.mulRay
  split
  · exact h1
  · exact h1

theorem Clear.last {is : List (Item F)} {r : Ray F} (h : Clear is r) :
    (clearLast is r).isBlocked = false ∧ (clearLast is r).stamp = stampAfter is r.stamp := by
  induction is generalizing r with
  | nil => exact ⟨h, rfl⟩
  | cons i is ih => cases i with
    | dup => exact ih h
    | leaf m =>
      obtain ⟨h1, h2, h3, h4⟩ := h
      have := ih h4
      rw [(mulRay_clear h1 h3).2] at this
      exact this

theorem clearTrace_last {is : List (Item F)} {r : Ray F} : (clearTrace is r).getLast?.getD r = clearLast is r := by
  have key : ∀ (l l' : List (Ray F)) (x : Ray F), (l ++ l').getLast?.getD x = l'.getLast?.getD (l.getLast?.getD x) := by
    intro l l' x
    cases l' with
    | nil => simp
    | cons y l' => rw [List.getLast?_append]; simp
  induction is generalizing r with
  | nil => rfl
  | cons i is ih => cases i with
    | dup =>
      have := key [r] (clearTrace is r) r
      simp only [List.singleton_append, List.getLast?_singleton, Option.getD_some] at this
      rw [clearTrace, this, ih]; rfl
    | leaf m =>
      have := key ((if 0 <. m.L then [r] else []) ++ [m.mulRay r]) (clearTrace is (m.mulRay r)) r
      rw [List.append_assoc, List.singleton_append] at this
      rw [clearTrace, this, List.getLast?_append]
      simp [ih, clearLast]

theorem Clear.all {is : List (Item F)} {r : Ray F} (h : Clear is r) : ∀ s ∈ clearTrace is r, s.isBlocked = false := by
  induction is generalizing r with
  | nil => simp [clearTrace]
  | cons i is ih => cases i with
    | dup =>
      intro s hs
      rcases List.mem_cons.1 hs with rfl | hs
      · exact Clear.start (is := is) h
      · exact ih h s hs
    | leaf m =>
      obtain ⟨h1, h2, h3, h4⟩ := h
      intro s hs
      rw [clearTrace, List.mem_append, List.mem_cons] at hs
      rcases hs with hs | rfl | hs
      · split_ifs at hs
        · rw [List.mem_singleton.1 hs]; exact h1
        · cases hs
      · exact h4.start
      · exact ih h4 s hs

/-- An element that does not stop a ray creates its output. -/
theorem leaf_clear {m : Mat F} {a : Nat} {h : Heap F} (ha : a < h.length) (hb : (h.get a).isBlocked = false)
    (he : 0 <. m.L → (half m.apertureDiameter <. PyNum.abs (h.get a).y) = false) :
    m.traceH a h = ((if 0 <. m.L then [a] else []) ++ [h.length], h ++ [m.mulRay (h.get a)]) := by
  have h1 : m.mulRayH a h = (h.length, h ++ [m.mulRay (h.get a)]) := by
    unfold Mat.mulRayH Mat.mulRay Mat.mulRayBaseH
    split
    · next n alpha hk =>
      simp only [hb, Bool.false_eq_true, if_false, hk]
      rw [Heap.get_append_eq, Heap.get_append_lt _ _ ha]
      simp
    · simp only [hb, Bool.false_eq_true, if_false]
  unfold Mat.traceH
  by_cases hL : 0 <. m.L
  · have h2 : m.markEntry a h = h := by
      unfold Mat.markEntry
      rw [he hL]; rfl
    simp only [if_pos hL, h2, h1, List.singleton_append]
  · simp only [if_neg hL, h1, List.nil_append]

/-- The addresses exist, and hold these rays. -/
def HoldRays (h : Heap F) (t : List Nat) (l : List (Ray F)) : Prop := (∀ x ∈ t, x < h.length) ∧ h.deref t = l

theorem get_prefix {h h1 : Heap F} (hp : h <+: h1) {a : Nat} (ha : a < h.length) : h1.get a = h.get a := by
  obtain ⟨l, rfl⟩ := hp
  exact Heap.get_append_lt h l ha

theorem HoldRays.mono {h h1 : Heap F} (hp : h <+: h1) {t : List Nat} {l : List (Ray F)} (ht : HoldRays h t l) : HoldRays h1 t l := by
  refine ⟨fun x hx => (ht.1 x hx).trans_le hp.length_le, ?_⟩
  rw [← ht.2]
  exact List.map_congr_left fun x hx => get_prefix hp (ht.1 x hx)

theorem HoldRays.append {h : Heap F} {t t' : List Nat} {l l' : List (Ray F)} (h1 : HoldRays h t l) (h2 : HoldRays h t' l') :
    HoldRays h (t ++ t') (l ++ l') :=
  ⟨fun x hx => (List.mem_append.1 hx).elim (h1.1 x) (h2.1 x), by rw [← h1.2, ← h2.2]; exact List.map_append⟩

theorem HoldRays.last {h : Heap F} {t : List Nat} {l : List (Ray F)} (ht : HoldRays h t l) {a : Nat} (ha : a < h.length) :
    t.getLast?.getD a < h.length ∧ h.get (t.getLast?.getD a) = l.getLast?.getD (h.get a) := by
  rw [← ht.2]
  unfold Heap.deref
  rw [List.getLast?_map]
  cases h1 : t.getLast? with
  | none => exact ⟨ha, rfl⟩
  | some x => exact ⟨ht.1 x (List.mem_of_getLast? h1), rfl⟩

mutual
/-- What each group remembers is the trace of a ray that arrived with the stamp of this place. -/
def Elem.Knows (s : F × F × Option F) (h : Heap F) : Elem F → Prop
  | .leaf _ => True
  | .group _ none es => KnowsList s h es
  | .group _ (some (last, t)) es => (last < h.length ∧ (h.get last).stamp = s ∧ (h.get last).isBlocked = false ∧
      HoldRays h t (h.get last :: clearTrace (itemsList es) (h.get last))) ∧ KnowsList s h es
/-- in successive elements -/
def KnowsList (s : F × F × Option F) (h : Heap F) : List (Elem F) → Prop
  | [] => True
  | e :: es => e.Knows s h ∧ KnowsList (stampAfter e.items s) h es
end

mutual
theorem Elem.Knows.mono {h h1 : Heap F} (hp : h <+: h1) : ∀ {e : Elem F} {s : F × F × Option F}, e.Knows s h → e.Knows s h1
  | .leaf _, _, _ => trivial
  | .group _ none es, s, hr => by
    simp only [Elem.Knows] at hr ⊢; exact KnowsList.mono hp hr
  | .group _ (some (last, t)) es, s, hr => by
    simp only [Elem.Knows] at hr ⊢
    obtain ⟨⟨h1, h2, h3, h4⟩, hr⟩ := hr
    rw [get_prefix hp h1]
    exact ⟨⟨h1.trans_le hp.length_le, h2, h3, h4.mono hp⟩, KnowsList.mono hp hr⟩
theorem KnowsList.mono {h h1 : Heap F} (hp : h <+: h1) : ∀ {es : List (Elem F)} {s : F × F × Option F}, KnowsList s h es → KnowsList s h1 es
  | [], _, _ => trivial
  | e :: es, s, hr => by
    simp only [KnowsList] at hr ⊢
    exact ⟨Elem.Knows.mono hp hr.1, KnowsList.mono hp hr.2⟩
end

mutual
theorem NoCache.knows (h : Heap F) : ∀ {e : Elem F} (s : F × F × Option F), e.NoCache → e.Knows s h
  | .leaf _, _, _ => trivial
  | .group _ none es, s, hr => by simp only [Elem.NoCache, Elem.Knows] at hr ⊢; exact NoCacheList.knows h s hr.2
  | .group _ (some _) es, s, hr => by simp [Elem.NoCache] at hr
theorem NoCacheList.knows (h : Heap F) : ∀ {es : List (Elem F)} (s : F × F × Option F), NoCacheList es → KnowsList s h es
  | [], _, _ => trivial
  | e :: es, s, hr => by
    simp only [NoCacheList, KnowsList] at hr ⊢
    exact ⟨NoCache.knows h s hr.1, NoCacheList.knows h _ hr.2⟩
end

/-- Numbers that are found equal are equal. -/
def EqSame (F : Type) [PyNum F] : Prop := ∀ x y : F, (x ==. y) = true → x = y

theorem Ray.eq_same (hF : EqSame F) {r s : Ray F} (h : r.eq s = true) (h1 : r.stamp = s.stamp) (h2 : r.isBlocked = false) (h3 : s.isBlocked = false) : r = s := by
  unfold Ray.eq at h
  unfold Ray.stamp at h1
  simp only [Prod.mk.injEq] at h1
  obtain ⟨y, θ, z, b, d, w⟩ := r
  obtain ⟨y', θ', z', b', d', w'⟩ := s
  simp only at h h1 h2 h3
  have e1 : y = y' := by
    apply hF
    by_contra hn
    rw [if_pos (by simpa using hn)] at h
    cases h
  have e2 : θ = θ' := by
    apply hF
    by_contra hn
    split_ifs at h with h1 h2
    simp [hn] at h2
  rw [e1, e2, h1.1, h1.2.1, h1.2.2, h2, h3]

mutual
theorem Elem.traceH_clear (hF : EqSame F) : ∀ (e : Elem F) {a : Nat} {h : Heap F}, a < h.length → e.Knows (h.get a).stamp h → Clear e.items (h.get a) →
    h <+: (e.traceH a h).2.1 ∧ (e.traceH a h).2.2.Knows (h.get a).stamp (e.traceH a h).2.1 ∧
      HoldRays (e.traceH a h).2.1 (e.traceH a h).1 (clearTrace e.items (h.get a))
  | .leaf m, a, h, ha, _, hc => by
    simp only [Elem.items, Clear] at hc
    obtain ⟨h1, h2, h3, -⟩ := hc
    simp only [Elem.traceH, leaf_clear ha h1 h2, Elem.items, clearTrace]
    refine ⟨List.prefix_append _ _, trivial, ?_⟩
    have e1 : HoldRays (h ++ [m.mulRay (h.get a)]) [h.length] [m.mulRay (h.get a)] :=
      ⟨by simp, by simp [Heap.deref, Heap.get_append_eq]⟩
    split_ifs
    · refine HoldRays.append ⟨fun x hx => ?_, ?_⟩ e1
      · rw [List.mem_singleton.1 hx]; simp; omega
      · simp [Heap.deref, Heap.get_append_lt _ _ ha]
    · exact e1
  | .group m c es, a, h, ha, hk, hc => by
    have hkl : KnowsList (h.get a).stamp h es := by
      rcases c with _ | ⟨last, t⟩
      · simpa only [Elem.Knows] using hk
      · simp only [Elem.Knows] at hk; exact hk.2
    unfold Elem.traceH
    cases hh : cacheHit c a h with
    | some t =>
      refine ⟨List.prefix_rfl, hk, ?_⟩
      unfold cacheHit at hh
      rcases c with _ | ⟨last, t'⟩
      · cases hh
      · simp only at hh
        split_ifs at hh with he
        simp only [Option.some.injEq] at hh
        subst hh
        simp only [Elem.Knows] at hk
        obtain ⟨⟨-, h2, h3, h4⟩, -⟩ := hk
        rw [Ray.eq_same hF he h2.symm (Clear.start (is := itemsList es) hc) h3]
        exact h4
    | none =>
      obtain ⟨h1, h2, h3⟩ := traceListH_clear hF es ha hkl hc
      have h4 : HoldRays (traceListH es a h).2.1 (a :: (traceListH es a h).1) (h.get a :: clearTrace (itemsList es) (h.get a)) :=
        HoldRays.append (t := [a]) (l := [h.get a]) ⟨fun x hx => by rw [List.mem_singleton.1 hx]; exact ha.trans_le h1.length_le,
          by simp [Heap.deref, get_prefix h1 ha]⟩ h3
      refine ⟨h1, ?_, h4⟩
      simp only [Elem.Knows]
      rw [get_prefix h1 ha, traceListH_items]
      exact ⟨⟨ha.trans_le h1.length_le, rfl, Clear.start (is := itemsList es) hc, h4⟩, h2⟩
theorem traceListH_clear (hF : EqSame F) : ∀ (es : List (Elem F)) {a : Nat} {h : Heap F}, a < h.length → KnowsList (h.get a).stamp h es →
    Clear (itemsList es) (h.get a) →
    h <+: (traceListH es a h).2.1 ∧ KnowsList (h.get a).stamp (traceListH es a h).2.1 (traceListH es a h).2.2 ∧
      HoldRays (traceListH es a h).2.1 (traceListH es a h).1 (clearTrace (itemsList es) (h.get a))
  | [], a, h, _, _, _ => by
    simp only [traceListH, itemsList, clearTrace]
    exact ⟨List.prefix_rfl, trivial, by simp, rfl⟩
  | e :: es, a, h, ha, hk, hc => by
    simp only [KnowsList] at hk
    rw [itemsList] at hc
    obtain ⟨hc1, hc2⟩ := clear_append hc
    obtain ⟨h1, h2, h3⟩ := Elem.traceH_clear hF e ha hk.1 hc1
    have hit := Elem.traceH_items e a h
    unfold traceListH itemsList
    rcases hx : e.traceH a h with ⟨t, h', e'⟩
    rw [hx] at h1 h2 h3 hit
    simp only at h1 h2 h3 hit ⊢
    obtain ⟨l1, l2⟩ := h3.last (ha.trans_le h1.length_le)
    rw [get_prefix h1 ha, clearTrace_last] at l2
    have hst := hc1.last.2
    rw [← l2] at hst hc2
    obtain ⟨k1, k2, k3⟩ := traceListH_clear hF es l1 (by rw [hst]; exact hk.2.mono h1) hc2
    rcases hy : traceListH es (t.getLast?.getD a) h' with ⟨t2, h'', es'⟩
    rw [hy] at k1 k2 k3
    simp only at k1 k2 k3 ⊢
    refine ⟨h1.trans k1, ?_, ?_⟩
    · simp only [KnowsList]
      rw [hit]
      rw [hst] at k2
      exact ⟨h2.mono k1, k2⟩
    · rw [clearTrace_append]
      rw [l2] at k3
      exact (h3.mono k1).append k3
end

/-- A new copy, for a ray that is not stopped. -/
theorem freshTrace_clear (hF : EqSame F) {e : Elem F} (hn : e.NoCache) {r : Ray F} (hc : Clear e.items r) :
    e.freshTrace r = clearTrace e.items r ∧ e.freshThrough r = clearLast e.items r := by
  obtain ⟨h1, -, h3⟩ := Elem.traceH_clear hF e (a := 0) (h := [r]) (by simp) (NoCache.knows _ _ hn) hc
  refine ⟨h3.2, ?_⟩
  have h4 := (h3.last (a := 0) (by have := h1.length_le; simp at this; omega)).2
  rw [get_prefix (a := 0) h1 (by simp)] at h4
  exact h4.trans clearTrace_last

/-- Steps never unblock a ray. -/
theorem runH_blocked : ∀ (is : List (Item F)) (a : Nat) (h : Heap F) {c : Nat}, c < h.length → (h.get c).isBlocked = true →
    c < (runH is a h).2.length ∧ ((runH is a h).2.get c).isBlocked = true
  | [], a, h, c, hc, hb => ⟨hc, hb⟩
  | .dup :: is, a, h, c, hc, hb => runH_blocked is a h hc hb
  | .leaf m :: is, a, h, c, hc, hb => by
    have h1 : ∀ (h : Heap F), c < h.length → (h.get c).isBlocked = true → c < (m.mulRayH a h).2.length ∧ ((m.mulRayH a h).2.get c).isBlocked = true := by
      intro h hc hb
      have h2 : c < (m.mulRayBaseH a h).2.length ∧ ((m.mulRayBaseH a h).2.get c).isBlocked = true := by
        unfold Mat.mulRayBaseH
        split_ifs
        · exact ⟨hc, hb⟩
        · exact ⟨by simp; omega, by rw [Heap.get_append_lt _ _ hc]; exact hb⟩
      unfold Mat.mulRayH
      split
      · simp only
        refine ⟨by rw [List.length_set]; exact h2.1, ?_⟩
        by_cases hcb : c = (m.mulRayBaseH a h).1
        · rw [← hcb, Heap.get_set_eq _ _ h2.1]; exact h2.2
        · rw [Heap.get_set_ne _ _ hcb]; exact h2.2
      · exact h2
    have h3 : c < (m.markEntry a h).length ∧ ((m.markEntry a h).get c).isBlocked = true := by
      unfold Mat.markEntry
      split_ifs
      · refine ⟨by rw [Heap.block_length]; exact hc, ?_⟩
        by_cases hca : c = a
        · subst hca; rw [Heap.get_block_eq _ hc]
        · rw [Heap.get_block_ne _ hca]; exact hb
      · exact ⟨hc, hb⟩
    have h4 : c < (m.traceH a h).2.length ∧ ((m.traceH a h).2.get c).isBlocked = true := by
      unfold Mat.traceH
      split_ifs
      · exact h1 _ h3.1 h3.2
      · exact h1 _ hc hb
    exact runH_blocked is _ _ h4.1 h4.2

/-- A ray that is stopped, or blocked from the start, has a blocked ray in its trace. -/
theorem runH_stopped : ∀ (is : List (Item F)) {a : Nat} {h : Heap F}, a < h.length → is ≠ [] ∨ (h.get a).isBlocked = false → ¬ Clear is (h.get a) →
    ∃ c ∈ (runH is a h).1, ((runH is a h).2.get c).isBlocked = true
  | [], a, h, ha, hn, hc => by
    simp only [ne_eq, not_true_eq_false, false_or] at hn
    exact absurd hn hc
  | .dup :: is, a, h, ha, hn, hc => by
    cases hb : (h.get a).isBlocked with
    | true => exact ⟨a, by simp [runH], (runH_blocked is a h ha hb).2⟩
    | false =>
      obtain ⟨c, h1, h2⟩ := runH_stopped is ha (.inr hb) hc
      exact ⟨c, by simp [runH, h1], h2⟩
  | .leaf m :: is, a, h, ha, hn, hc => by
    have key : ∀ c ∈ (m.traceH a h).1, c < (m.traceH a h).2.length → ((m.traceH a h).2.get c).isBlocked = true →
        ∃ c ∈ (runH (.leaf m :: is) a h).1, ((runH (.leaf m :: is) a h).2.get c).isBlocked = true := fun c h1 h2 h3 =>
      ⟨c, by simp only [runH, List.mem_append]; exact .inl h1, (runH_blocked is _ _ h2 h3).2⟩
    have ret : ∀ h : Heap F, (h.get a).isBlocked = true → a < h.length → (m.mulRayH a h).1 = a ∧ a < (m.mulRayH a h).2.length ∧
        ((m.mulRayH a h).2.get a).isBlocked = true := by
      intro h hb ha
      unfold Mat.mulRayH Mat.mulRayBaseH
      split
      · simp only [hb, if_true]
        exact ⟨trivial, by rw [List.length_set]; exact ha, by rw [Heap.get_set_eq _ _ ha]⟩
      · simp only [hb, if_true]
        exact ⟨trivial, ha, trivial⟩
    have clearCase : (h.get a).isBlocked = false → (0 <. m.L → (half m.apertureDiameter <. PyNum.abs (h.get a).y) = false) →
        ∃ c ∈ (runH (.leaf m :: is) a h).1, ((runH (.leaf m :: is) a h).2.get c).isBlocked = true := by
      intro hb he
      have h1 := leaf_clear (m := m) ha hb he
      have h2 : (h ++ [m.mulRay (h.get a)]).get h.length = m.mulRay (h.get a) := Heap.get_append_eq _ _
      by_cases hs : m.stops (h.get a) = true
      · refine key h.length (by rw [h1]; simp) (by rw [h1]; simp) ?_
        rw [h1]
        simp only
        rw [h2]
        have h3 : (m.mulRayBase (h.get a)).isBlocked = true := by
          unfold Mat.mulRayBase
          rw [hb]
          simp [hs]
        unfold Mat.mulRay
        split
        · exact h3
        · exact h3
      · have hs' : m.stops (h.get a) = false := by simpa using hs
        have h3 : ¬ Clear is ((h ++ [m.mulRay (h.get a)]).get h.length) := by
          rw [h2]
          exact fun h4 => hc ⟨hb, he, hs', h4⟩
        obtain ⟨c, h4, h5⟩ := runH_stopped is (a := h.length) (h := h ++ [m.mulRay (h.get a)]) (by simp)
          (.inr (by rw [h2]; exact (mulRay_clear hb hs').1)) h3
        have h6 : (m.traceH a h).1.getLast?.getD a = h.length := by rw [h1]; simp
        refine ⟨c, ?_, ?_⟩
        · simp only [runH, List.mem_append]
          rw [h6, h1]; exact .inr h4
        · simp only [runH]
          rw [h6, h1]; exact h5
    by_cases hL : 0 <. m.L
    · by_cases hb : ((m.markEntry a h).get a).isBlocked = true
      · have h1 := ret (m.markEntry a h) hb (by unfold Mat.markEntry; split_ifs <;> simp [ha])
        refine key a ?_ ?_ ?_ <;> unfold Mat.traceH <;> simp only [if_pos hL]
        · simp
        · exact h1.2.1
        · exact h1.2.2
      · have he : (half m.apertureDiameter <. PyNum.abs (h.get a).y) = false := by
          by_contra he
          rw [Bool.not_eq_false] at he
          unfold Mat.markEntry at hb
          rw [if_pos he, Heap.get_block_eq _ ha] at hb
          exact hb rfl
        have hb' : (h.get a).isBlocked = false := by
          unfold Mat.markEntry at hb
          rw [he] at hb
          simpa using hb
        exact clearCase hb' (fun _ => he)
    · by_cases hb : (h.get a).isBlocked = true
      · have h1 := ret h hb ha
        refine key a ?_ ?_ ?_ <;> unfold Mat.traceH <;> simp only [if_neg hL]
        · simp [h1.1]
        · exact h1.2.1
        · exact h1.2.2
      · exact clearCase (by simpa using hb) (fun h => absurd h hL)

theorem items_ne_nil (e : Elem F) : e.items ≠ [] := by
  cases e <;> simp [Elem.items]

/-- The rays of which a new copy gives a trace without any blocked ray are those that nothing stops. -/
theorem clear_of_fresh {e : Elem F} (hn : e.NoCache) {r : Ray F} (h : ∀ s ∈ e.freshTrace r, s.isNotBlocked = true) : Clear e.items r := by
  by_contra hc
  obtain ⟨e1, e2⟩ := e.traceH_eq hn 0 [r]
  obtain ⟨c, h1, h2⟩ := runH_stopped e.items (a := 0) (h := [r]) (by simp) (.inl (items_ne_nil e)) hc
  rw [← e1] at h1
  rw [← e2] at h2
  have := h (((e.traceNew r []).2.1).get c) (List.mem_map_of_mem h1)
  unfold Ray.isNotBlocked at this
  change (!((e.traceH 0 [r]).2.1.get c).isBlocked) = true at this
  rw [h2] at this
  cases this

theorem many_clear (hF : EqSame F) {s : F × F × Option F} : ∀ (as : List Nat) {e : Elem F} {h : Heap F}, e.Knows s h →
    (∀ a ∈ as, a < h.length ∧ (h.get a).stamp = s ∧ Clear e.items (h.get a)) →
    h <+: (e.traceManyH as h).2.1 ∧
    (e.traceManyH as h).1.map (e.traceManyH as h).2.1.deref = as.map (fun a => clearTrace e.items (h.get a)) ∧
    (∀ t ∈ (e.traceManyH as h).1, ∀ x ∈ t, x < (e.traceManyH as h).2.1.length)
  | [], e, h, _, _ => ⟨List.prefix_rfl, rfl, by simp [Elem.traceManyH]⟩
  | a :: as, e, h, hk, ha => by
    obtain ⟨ha1, ha2, ha3⟩ := ha a (by simp)
    obtain ⟨h1, h2, h3⟩ := Elem.traceH_clear hF e ha1 (by rw [ha2]; exact hk) ha3
    have hit := Elem.traceH_items e a h
    unfold Elem.traceManyH
    rcases hx : e.traceH a h with ⟨t, h', e'⟩
    rw [hx] at h1 h2 h3 hit
    simp only at h1 h2 h3 hit ⊢
    rw [ha2] at h2
    have ih := many_clear hF as h2 (fun b hb => by
      obtain ⟨k1, k2, k3⟩ := ha b (by simp [hb])
      rw [get_prefix h1 k1, hit]
      exact ⟨k1.trans_le h1.length_le, k2, k3⟩)
    rcases hy : e'.traceManyH as h' with ⟨ts, h'', e''⟩
    rw [hy] at ih
    simp only at ih ⊢
    obtain ⟨k1, k2, k3⟩ := ih
    have k4 := h3.mono k1
    refine ⟨h1.trans k1, ?_, fun t' ht' => ?_⟩
    · rw [List.map_cons, List.map_cons, k2, k4.2, hit]
      congr 1
      exact List.map_congr_left fun b hb => by rw [get_prefix h1 (ha b (by simp [hb])).1]
    · rcases List.mem_cons.1 ht' with rfl | ht'
      · exact k4.1
      · exact k3 t' ht'

theorem through_clear (hF : EqSame F) {s : F × F × Option F} : ∀ (as : List Nat) {e : Elem F} {h : Heap F}, e.Knows s h →
    (∀ a ∈ as, a < h.length ∧ (h.get a).stamp = s ∧ Clear e.items (h.get a)) →
    h <+: (e.traceManyThroughH as h).2.1 ∧
    HoldRays (e.traceManyThroughH as h).2.1 (e.traceManyThroughH as h).1 (as.map (fun a => clearLast e.items (h.get a)))
  | [], e, h, _, _ => ⟨List.prefix_rfl, by simp [Elem.traceManyThroughH], rfl⟩
  | a :: as, e, h, hk, ha => by
    obtain ⟨ha1, ha2, ha3⟩ := ha a (by simp)
    obtain ⟨h1, h2, h3⟩ := Elem.traceH_clear hF e ha1 (by rw [ha2]; exact hk) ha3
    have hit := Elem.traceH_items e a h
    unfold Elem.traceManyThroughH Elem.traceThroughH
    rcases hx : e.traceH a h with ⟨t, h', e'⟩
    rw [hx] at h1 h2 h3 hit
    simp only at h1 h2 h3 hit ⊢
    rw [ha2] at h2
    obtain ⟨l1, l2⟩ := h3.last (ha1.trans_le h1.length_le)
    rw [get_prefix h1 ha1, clearTrace_last] at l2
    have ih := through_clear hF as h2 (fun b hb => by
      obtain ⟨k1, k2, k3⟩ := ha b (by simp [hb])
      rw [get_prefix h1 k1, hit]
      exact ⟨k1.trans_le h1.length_le, k2, k3⟩)
    rcases hy : e'.traceManyThroughH as h' with ⟨ts, h'', e''⟩
    rw [hy] at ih
    simp only at ih ⊢
    obtain ⟨k1, k2⟩ := ih
    refine ⟨h1.trans k1, ?_⟩
    rw [if_pos (by rw [l2]; simp [Ray.isNotBlocked, ha3.last.1]), List.map_cons]
    refine HoldRays.append (t := [_]) (l := [_]) ⟨fun x hx => ?_, ?_⟩ ?_
    · rw [List.mem_singleton.1 hx]; exact l1.trans_le k1.length_le
    · simp only [Heap.deref, List.map_cons, List.map_nil]
      rw [get_prefix k1 l1, l2]
    · have : as.map (fun a => clearLast e.items (h.get a)) = as.map (fun a => clearLast e'.items (h'.get a)) := by
        rw [hit]
        exact List.map_congr_left fun b hb => by rw [get_prefix h1 (ha b (by simp [hb])).1]
      rw [this]
      exact k2

/-- The rays of a session start at the same position (with the same diameter and wavelength attributes, as rays created together have), and a new copy of the elements stops none. -/
structure ClearSession (e : Elem F) (h : Heap F) (as : List Nat) : Prop where
  exist : ∀ a ∈ as, a < h.length
  same : ∀ a ∈ as, ∀ b ∈ as, (h.get a).z = (h.get b).z ∧ (h.get a).apertureDiameter = (h.get b).apertureDiameter ∧ (h.get a).wavelength = (h.get b).wavelength
  clear : ∀ a ∈ as, ∀ s ∈ e.freshTrace (h.get a), s.isNotBlocked = true

theorem ClearSession.start {e : Elem F} (hn : e.NoCache) {h : Heap F} {as : List Nat} (hs : ClearSession e h as) :
    ∃ s, e.Knows s h ∧ ∀ a ∈ as, a < h.length ∧ (h.get a).stamp = s ∧ Clear e.items (h.get a) := by
  cases as with
  | nil => exact ⟨(Ray.new 0 0).stamp, NoCache.knows _ _ hn, by simp⟩
  | cons a as =>
    refine ⟨(h.get a).stamp, NoCache.knows _ _ hn, fun b hb => ⟨hs.exist b hb, ?_, clear_of_fresh hn (hs.clear b hb)⟩⟩
    obtain ⟨h1, h2, h3⟩ := hs.same b hb a (by simp)
    unfold Ray.stamp
    rw [h1, h2, h3]

/-- **C11** for groups nested in any way, with axicons, when no ray is stopped and all start at the same position: in any session of traces, of any ray objects, traced any number of
times, each trace is what a newly built copy returns for a new ray with the same values. -/
theorem C11_nested_partial (hF : EqSame F) {e : Elem F} (hn : e.NoCache) {h : Heap F} {as : List Nat} (hs : ClearSession e h as) :
    (e.traceManyH as h).1.map (e.traceManyH as h).2.1.deref = as.map fun a => e.freshTrace (h.get a) := by
  obtain ⟨s, hk, ha⟩ := hs.start hn
  rw [(many_clear hF as hk ha).2.1]
  exact List.map_congr_left fun a hm => (freshTrace_clear hF hn (ha a hm).2.2).1.symm

/-- **C12** in the same sessions: `traceManyThrough` returns the last ray of every input ray, in order. -/
theorem C12_nested_partial (hF : EqSame F) {e : Elem F} (hn : e.NoCache) {h : Heap F} {as : List Nat} (hs : ClearSession e h as) :
    (e.traceManyThroughH as h).2.1.deref (e.traceManyThroughH as h).1 = as.map fun a => e.freshThrough (h.get a) := by
  obtain ⟨s, hk, ha⟩ := hs.start hn
  rw [(through_clear hF as hk ha).2.2]
  exact List.map_congr_left fun a hm => (freshTrace_clear hF hn (ha a hm).2.2).2.symm

/-- **C13** in the same sessions: for every number of processes and whether the pool works or not, the rays returned are the same, up to their order. -/
theorem C13_nested_partial (hF : EqSame F) {e : Elem F} (hn : e.NoCache) {h : Heap F} {as : List Nat} (hs : ClearSession e h as) (processes : Int) (poolWorks : Bool) :
    (e.traceManyThroughInParallel as h processes poolWorks).Perm (as.map fun a => e.freshThrough (h.get a)) := by
  unfold Elem.traceManyThroughInParallel
  split_ifs with hcond
  · have hp : 0 < processes.toNat := by omega
    have h1 : ∀ i, ((e.traceManyThroughH (pyStride as i processes.toNat) h).2.1.deref (e.traceManyThroughH (pyStride as i processes.toNat) h).1) =
        (pyStride as i processes.toNat).map fun a => e.freshThrough (h.get a) := by
      intro i
      have hsub : ∀ a ∈ pyStride as i processes.toNat, a ∈ as := by
        intro a ha
        unfold pyStride at ha
        obtain ⟨k, -, hk⟩ := List.mem_filterMap.1 ha
        split_ifs at hk
        exact List.mem_of_getElem? hk
      exact C12_nested_partial hF hn ⟨fun a ha => hs.exist a (hsub a ha), fun a ha b hb => hs.same a (hsub a ha) b (hsub b hb),
        fun a ha => hs.clear a (hsub a ha)⟩
    simp only [h1]
    rw [← List.map_flatMap]
    exact (stride_perm as hp).map _
  · rw [C12_nested_partial hF hn hs]

/-- The numbers of the exact model. -/
theorem eqSame_ext {K : Type} [Field K] [LinearOrder K] [IsStrictOrderedRing K] : EqSame (Ext K) := by
  intro x y h
  cases x <;> cases y <;> simp_all

/-- Rounded numbers. -/
theorem eqSame_fl {K : Type} [Field K] [LinearOrder K] [IsStrictOrderedRing K] {rnd : K → K} : EqSame (Fl K rnd) := by
  intro x y h
  have := eqSame_ext x.val y.val h
  cases x; cases y; simp_all

/-- Binary64 numbers. -/
theorem eqSame_b64 : EqSame B64 := by
  intro x y h
  have := eqSame_ext x.val y.val h
  cases x; cases y; simp_all

/-- A space and a lens in a group with an aperture in a group, and three rays that get through, two of which are equal. -/
example : withBuilt (.group "" [.space (10 : ℚ) 1 none, .group "" [.lens 5 (some 10), .group "" [.space 5 1 (some 10), .aperture (some 4) none ""]]]) (fun e =>
    [Ray.new (fin 1) (fin 0), Ray.new (fin 0) (fin (1/10)), Ray.new (fin 1) (fin 0)].all fun r => (e.freshTrace r).all Ray.isNotBlocked && (r.z ==. fin 0)) =
      .ok true := by decide +kernel

end RT
