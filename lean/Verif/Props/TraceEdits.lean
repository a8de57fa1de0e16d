import Verif.Props.Trace
import Verif.Lemmas.FlipShift

/-! # C11: sessions of traces between which the elements change

The elements of the path are single elements, no axicon. -/

set_option linter.unusedSectionVars false

namespace RT
open PyNum Ext

section generic
variable {F : Type} [PyNum F]

/-- single elements, no axicon -/
def FlatList (es : List (Elem F)) : Prop := ∀ e ∈ es, ∃ m, e = .leaf m ∧ m.Linear

/-- what a newly built path with the same elements returns for a new ray with these values -/
def Group.freshTrace (g : Group F) (r : Ray F) : List (Ray F) := (Group.toElem { g with cache := none }).freshTrace r

/-- The states of a path, with the ray objects that exist: it begins without anything remembered; then rays are created, any object is traced, and
elements are replaced, moved, removed and added in any way. The mark says whether the elements were changed since the last trace that was computed, and the ray is the one of that
trace, as it was when traced. A trace that is not computed changes nothing: no rule is needed for it. -/
inductive RaySession : Bool → Option (Ray F) → Group F → Heap F → Prop
  | start {g : Group F} (h : Heap F) : g.cache = none → FlatList g.elems → RaySession false none g h
  | create {c : Bool} {seen : Option (Ray F)} {g : Group F} {h : Heap F} (r : Ray F) : RaySession c seen g h → RaySession c seen g (h ++ [r])
  | trace {c : Bool} {seen : Option (Ray F)} {g : Group F} {h : Heap F} {a : Nat} : RaySession c seen g h → a < h.length → cacheHit g.cache a h = none →
      RaySession false (some (h.get a)) (g.traceH a h).2.2 (g.traceH a h).2.1
  | change {c : Bool} {seen : Option (Ray F)} {g g1 : Group F} {h : Heap F} : RaySession c seen g h → g1.cache = g.cache → FlatList g1.elems →
      RaySession true seen g1 h

/-- A trace that is not computed changes neither the path nor the rays. -/
theorem C11_recalled {g : Group F} {a : Nat} {h : Heap F} {t : List Nat} (hc : cacheHit g.cache a h = some t) : g.traceH a h = (t, h, g) := by
  unfold Group.traceH
  rw [hc]

theorem groupTrace_miss {g : Group F} (hf : FlatList g.elems) {a : Nat} {h : Heap F} (ha : a < h.length) (hc : cacheHit g.cache a h = none) :
    (g.traceH a h).2.1.deref (g.traceH a h).1 = traceV (.dup :: itemsList g.elems) (h.get a) ∧
    (g.traceH a h).2.1.get a = settle (.dup :: itemsList g.elems) (h.get a) ∧
    (∀ x ∈ (g.traceH a h).1, x < (g.traceH a h).2.1.length) ∧ h.length ≤ (g.traceH a h).2.1.length ∧
    (g.traceH a h).2.2 = { g with cache := some (a, (g.traceH a h).1) } := by
  have hn : (Elem.group g.mat none g.elems).NoCache := ⟨rfl, flat_noCacheList hf⟩
  obtain ⟨e1, e2⟩ := Elem.traceH_eq _ hn a h
  have hl : LinearItems (Elem.group g.mat none g.elems).items := flat_items_linear (e := Elem.group g.mat none g.elems) hf
  obtain ⟨s1, s2⟩ := runH_spec _ hl ha
  obtain ⟨f1, f2, f3, -, -, -⟩ := runH_frame (Elem.group g.mat none g.elems).items ha
  have k1 : (g.traceH a h).1 = ((Elem.group g.mat none g.elems).traceH a h).1 := by
    unfold Group.traceH
    rw [hc]
    simp [Elem.traceH, cacheHit]
  have k2 : (g.traceH a h).2.1 = ((Elem.group g.mat none g.elems).traceH a h).2.1 := by
    unfold Group.traceH
    rw [hc]
    simp [Elem.traceH, cacheHit]
  rw [k1, k2, e1, e2]
  refine ⟨s1, s2, ?_, f1, ?_⟩
  · intro x hx
    rcases f3 x hx with rfl | h1
    · omega
    · exact h1.2
  · rw [← e1, ← k1]
    unfold Group.traceH
    rw [hc]
    simp only
    rw [flat_traceListH hf]

theorem groupFresh_eq {g : Group F} (hf : FlatList g.elems) (r : Ray F) : g.freshTrace r = traceV (.dup :: itemsList g.elems) r :=
  freshTrace_eq (e := Elem.group g.mat none g.elems) ⟨rfl, flat_noCacheList hf⟩ (flat_items_linear (e := Elem.group g.mat none g.elems) hf) r

/-- what a session keeps -/
structure RayInv (c : Bool) (seen : Option (Ray F)) (g : Group F) (h : Heap F) : Prop where
  flat : FlatList g.elems
  cache : ∀ last t, g.cache = some (last, t) → ∃ r0, seen = some r0 ∧ last < h.length ∧ (∀ x ∈ t, x < h.length) ∧
    (h.get last).y = r0.y ∧ (h.get last).theta = r0.theta ∧
    (c = false → h.get last = settle (.dup :: itemsList g.elems) r0 ∧ h.deref t = traceV (.dup :: itemsList g.elems) r0)

theorem RaySession.inv {c : Bool} {seen : Option (Ray F)} {g : Group F} {h : Heap F} (hs : RaySession c seen g h) : RayInv c seen g h := by
  induction hs with
  | start h hc hf => exact ⟨hf, fun last t e => by rw [hc] at e; simp at e⟩
  | @create c seen g h r _ ih =>
    refine ⟨ih.flat, fun last t e => ?_⟩
    obtain ⟨r0, k1, k2, k3, k4, k5, k6⟩ := ih.cache last t e
    have hd : ∀ x, x < h.length → (h ++ [r] : Heap F).get x = h.get x := fun x hx => Heap.get_append_lt h [r] hx
    refine ⟨r0, k1, by simp; omega, fun x hx => by have := k3 x hx; simp; omega, by rw [hd _ k2]; exact k4, by rw [hd _ k2]; exact k5, fun hc => ?_⟩
    obtain ⟨k7, k8⟩ := k6 hc
    refine ⟨by rw [hd _ k2]; exact k7, ?_⟩
    rw [← k8]
    exact List.map_congr_left fun x hx => hd x (k3 x hx)
  | @trace c seen g h a _ ha hm ih =>
    obtain ⟨m1, m2, m3, m4, m5⟩ := groupTrace_miss ih.flat ha hm
    have he : (g.traceH a h).2.2.elems = g.elems := by rw [m5]
    have hca : (g.traceH a h).2.2.cache = some (a, (g.traceH a h).1) := by rw [m5]
    refine ⟨by rw [he]; exact ih.flat, fun last t e => ?_⟩
    rw [hca] at e
    simp only [Option.some.injEq, Prod.mk.injEq] at e
    obtain ⟨rfl, rfl⟩ := e
    rw [he]
    exact ⟨_, rfl, by omega, m3, by rw [m2]; rfl, by rw [m2]; rfl, fun _ => ⟨m2, m1⟩⟩
  | change _ hcache hf ih =>
    refine ⟨hf, fun last t e => ?_⟩
    rw [hcache] at e
    obtain ⟨r0, k1, k2, k3, k4, k5, -⟩ := ih.cache last t e
    exact ⟨r0, k1, k2, k3, k4, k5, fun h => by simp at h⟩

/-- **C11** with changes of the elements: after any history, also just after a change, tracing a ray object whose height or angle differs from those of the last trace
computed gives what a newly built path with the elements as they are now returns for a new ray with these values. Missing: nested groups, axicons, and the rays equal to the last
one, for which it is violated (`C11_stale`). -/
theorem C11_edits_partial {c : Bool} {seen : Option (Ray F)} {g : Group F} {h : Heap F} (hs : RaySession c seen g h) {a : Nat} (ha : a < h.length)
    (hne : ∀ r0, seen = some r0 → (h.get a).eq r0 = false) : (g.traceH a h).2.1.deref (g.traceH a h).1 = g.freshTrace (h.get a) := by
  have hI := hs.inv
  have hm : cacheHit g.cache a h = none := by
    unfold cacheHit
    rcases hg : g.cache with _ | ⟨last, t⟩
    · rfl
    · obtain ⟨r0, k1, -, -, k4, k5, -⟩ := hI.cache last t hg
      simp only
      rw [if_neg]
      rw [eq_congr (r' := h.get a) rfl rfl k4 k5, hne r0 k1]
      simp
  rw [groupFresh_eq hI.flat]
  exact (groupTrace_miss hI.flat ha hm).1

/-- **C11** with changes: when no change is pending, the same for every ray object which is the last one, or equal to it as it was when traced, or of another height or angle. -/
theorem C11_settled_partial {seen : Option (Ray F)} {g : Group F} {h : Heap F} (hs : RaySession false seen g h) {a : Nat} (ha : a < h.length)
    (hcomp : ∀ r0, seen = some r0 → (h.get a).eq r0 = true → h.get a = r0 ∨ ∃ t, g.cache = some (a, t)) :
    (g.traceH a h).2.1.deref (g.traceH a h).1 = g.freshTrace (h.get a) := by
  have hI := hs.inv
  cases hm : cacheHit g.cache a h with
  | none =>
    rw [groupFresh_eq hI.flat]
    exact (groupTrace_miss hI.flat ha hm).1
  | some t =>
    rw [C11_recalled hm, groupFresh_eq hI.flat]
    simp only
    unfold cacheHit at hm
    rcases hg : g.cache with _ | ⟨last, t'⟩
    · rw [hg] at hm; simp at hm
    · rw [hg] at hm
      simp only at hm
      split_ifs at hm with hq
      simp only [Option.some.injEq] at hm
      subst hm
      obtain ⟨r0, k1, k2, k3, k4, k5, k6⟩ := hI.cache last t' hg
      obtain ⟨k7, k8⟩ := k6 rfl
      rw [k8]
      rw [eq_congr (r' := h.get a) rfl rfl k4 k5] at hq
      rcases hcomp r0 k1 hq with e | ⟨t, e⟩
      · rw [e]
      · rw [hg] at e
        simp only [Option.some.injEq, Prod.mk.injEq] at e
        rw [← e.1, k7]
        unfold traceV
        rw [settle_settle]

/-- `append` is such a change, whether it is accepted or refused. -/
theorem C11_append {c : Bool} {seen : Option (Ray F)} {g : Group F} {h : Heap F} (hs : RaySession c seen g h) {m : Mat F} (hm : m.Linear) :
    RaySession true seen (g.append (.leaf m)).1 h := by
  have hf := hs.inv.flat
  have hset : ∀ n, ∃ m' : Mat F, (Elem.leaf m).setIndices n = .leaf m' ∧ m'.Linear := fun n => ⟨_, rfl, hm⟩
  have hpush : ∀ e' : Elem F, (g.push e').1.cache = g.cache ∧ (g.push e').1.elems = g.elems ++ [e'] := by
    intro e'
    unfold Group.push
    dsimp only
    split <;> exact ⟨rfl, rfl⟩
  have key : ∀ e' : Elem F, (∃ m', e' = .leaf m' ∧ m'.Linear) → RaySession true seen (g.push e').1 h := fun e' he' =>
    .change hs (hpush e').1 fun x hx => by
      rw [(hpush e').2, List.mem_append, List.mem_singleton] at hx
      rcases hx with hx | rfl
      · exact hf x hx
      · exact he'
  unfold Group.append
  split
  · exact key _ ⟨m, rfl, hm⟩
  · split_ifs
    · exact key _ (hset _)
    · exact .change hs rfl hf
    · exact key _ ⟨m, rfl, hm⟩

/-- number of entries of the trace through steps -/
def entries : List (Item F) → Nat
  | [] => 0
  | .dup :: is => 1 + entries is
  | .leaf m :: is => (if 0 <. m.L then 2 else 1) + entries is

theorem runTrace_count : ∀ (is : List (Item F)) (r : Ray F), (runTrace is r).length = entries is
  | [], r => rfl
  | .dup :: is, r => by rw [runTrace, List.length_cons, runTrace_count is, entries, Nat.add_comm]
  | .leaf m :: is, r => by
    rw [runTrace, List.length_append, List.length_cons, runTrace_count is, entries]
    split_ifs <;> simp <;> omega

theorem entries_append : ∀ is js : List (Item F), entries (is ++ js) = entries is + entries js
  | [], js => by simp [entries]
  | .dup :: is, js => by rw [List.cons_append, entries, entries_append is, entries]; omega
  | .leaf m :: is, js => by rw [List.cons_append, entries, entries_append is, entries]; omega

/-- **C11** is violated by every element appended: tracing the last ray object again gives its former trace, which is too short. (The ray is not a `nan`.) -/
theorem C11_stale {c : Bool} {seen : Option (Ray F)} {g : Group F} {h : Heap F} (hs : RaySession c seen g h) {a : Nat} (ha : a < h.length)
    (hm : cacheHit g.cache a h = none) (hr : (h.get a).eq (h.get a) = true) {m : Mat F} (hl : m.Linear) {g2 : Group F}
    (hg : (g.traceH a h).2.2.append (.leaf m) = (g2, .ok ())) :
    g2.traceH a (g.traceH a h).2.1 = ((g.traceH a h).1, (g.traceH a h).2.1, g2) ∧
    (g2.traceH a (g.traceH a h).2.1).2.1.deref (g2.traceH a (g.traceH a h).2.1).1 ≠ g2.freshTrace ((g.traceH a h).2.1.get a) := by
  obtain ⟨m1, m2, m3, m4, m5⟩ := groupTrace_miss hs.inv.flat ha hm
  have hs2 : RaySession true (some (h.get a)) g2 (g.traceH a h).2.1 := by
    have := C11_append (hs.trace ha hm) hl
    rwa [hg] at this
  have hap : ∃ m', g2.cache = some (a, (g.traceH a h).1) ∧ g2.elems = g.elems ++ [.leaf m'] := by
    generalize hg1 : (g.traceH a h).2.2 = g1 at hg
    have hc1 : g1.cache = some (a, (g.traceH a h).1) := by rw [← hg1, m5]
    have he1 : g1.elems = g.elems := by rw [← hg1, m5]
    have hpush : ∀ e' : Elem F, (g1.push e').1.cache = g1.cache ∧ (g1.push e').1.elems = g1.elems ++ [e'] := by
      intro e'
      unfold Group.push
      dsimp only
      split <;> exact ⟨rfl, rfl⟩
    have e2 : g2 = (g1.append (.leaf m)).1 := by rw [hg]
    have e3 : (g1.append (.leaf m)).2 = .ok () := by rw [hg]
    rw [← hc1, ← he1, e2]
    unfold Group.append at e3 ⊢
    split
    · exact ⟨m, hpush _⟩
    · rename_i last hlast
      rw [hlast] at e3
      simp only at e3
      split_ifs at e3 ⊢ with c1 c2
      · exact ⟨_, hpush _⟩
      · exact ⟨m, hpush _⟩
  obtain ⟨m', hc2, he2⟩ := hap
  have hit : cacheHit g2.cache a (g.traceH a h).2.1 = some (g.traceH a h).1 := by
    unfold cacheHit
    rw [hc2]
    simp only
    rw [if_pos]
    rw [m2]
    exact hr
  have e := C11_recalled hit
  refine ⟨e, ?_⟩
  rw [e, groupFresh_eq hs2.inv.flat]
  simp only
  intro hx
  have := congrArg List.length hx
  rw [m1] at this
  unfold traceV at this
  rw [runTrace_count, runTrace_count, he2, itemsList_append] at this
  simp only [entries, entries_append, itemsList, Elem.items, List.append_nil] at this
  split_ifs at this <;> omega

end generic

/-- the hypotheses are met: a space of 10; a ray is traced; a lens is appended; another ray gets the trace through both, the same ray the old trace -/
example : (do
    let s ← mkSpace (fin 10 : Ext ℚ) 1 pinf
    let l ← mkLens (fin 5) pinf
    let g ← Group.new [.leaf s] ""
    let h := [Ray.new (fin 1) (fin 0), Ray.new (fin 2) (fin 0)]
    let (_, h1, g1) := g.traceH 0 h
    let g2 := (g1.append (.leaf l)).1
    pure (((g2.traceH 1 h1).2.1.deref (g2.traceH 1 h1).1 == g2.freshTrace (h1.get 1)), ((g2.traceH 0 h1).2.1.deref (g2.traceH 0 h1).1 == g2.freshTrace (h1.get 0)))) =
    (.ok (true, false) : Except PyErr (Bool × Bool)) := by decide +kernel

end RT
