import Verif.Lemmas.Many

/-! # C06-C13: tracing rays -/

set_option linter.unusedSectionVars false

namespace RT
open PyNum Ext

section generic
variable {F : Type} [PyNum F]

/-! ## C06 -/

/-- **C06.** In the trace of any ray through any tree of elements without cached traces (axicons included): when an entry is
blocked, every later entry is the very same ray object. In particular it is blocked and has the same `y`, `theta` and
`z`. -/
theorem C06_blocked_tail {e : Elem F} (he : e.NoCache) {a : Nat} {h : Heap F} (ha : a < h.length) :
    (e.traceH a h).1.Pairwise fun x y => ((e.traceH a h).2.1.get x).isBlocked = true → y = x := by
  obtain ⟨e1, e2⟩ := e.traceH_eq he a h
  obtain ⟨-, -, -, -, h5, -⟩ := runH_frame e.items ha
  rw [e1, e2]
  exact (List.pairwise_cons.1 h5).2.imp fun h hb => (h hb).symm

/-- **C06.** `traceThrough` is blocked exactly when some entry of the trace is. -/
theorem C06_through {e : Elem F} (he : e.NoCache) {a : Nat} {h : Heap F} (ha : a < h.length) :
    ((e.traceH a h).2.1.get (e.traceThroughH a h).1).isBlocked = true ↔
      ∃ r ∈ (e.traceH a h).2.1.deref (e.traceH a h).1, r.isBlocked = true := by
  have hp := C06_blocked_tail he ha
  have hne : (e.traceH a h).1 ≠ [] := by
    cases e with
    | leaf m => simp only [Elem.traceH]; rw [m.traceH_fst]; split_ifs <;> simp
    | group m c es =>
      unfold Elem.NoCache at he
      obtain ⟨rfl, -⟩ := he
      simp [Elem.traceH, cacheHit]
  obtain ⟨l, hl⟩ : ∃ l, (e.traceH a h).1.getLast? = some l := by
    cases hx : (e.traceH a h).1.getLast? with
    | none => exact absurd (List.getLast?_eq_none_iff.1 hx) hne
    | some l => exact ⟨l, rfl⟩
  unfold Elem.traceThroughH
  rw [hl]
  simp only [Option.getD_some, Heap.deref, List.mem_map]
  constructor
  · intro hb
    exact ⟨_, ⟨l, List.mem_of_getLast? hl, rfl⟩, hb⟩
  · rintro ⟨r, ⟨c, hc, rfl⟩, hb⟩
    obtain ⟨t, ht⟩ : ∃ t, (e.traceH a h).1 = t ++ [l] := by
      obtain ⟨t, ht⟩ := List.getLast?_eq_some_iff.1 hl
      exact ⟨t, ht⟩
    rw [ht] at hp hc
    rcases List.mem_append.1 hc with hc | hc
    · have := (List.pairwise_append.1 hp).2.2 c hc l (by simp) hb
      rw [this]; exact hb
    · simp only [List.mem_singleton] at hc
      subst hc; exact hb

/-! ## C09 -/

/-- **C09** is violated by every element with a length: only the entrance is checked. A ray that enters inside the aperture and
the numerical aperture comes out unblocked, whatever its height at the exit. -/
theorem C09_violated {m : Mat F} {r : Ray F} (hb : r.isBlocked = false)
    (hy : (half m.apertureDiameter <. PyNum.abs r.y) = false) (hna : (m.apertureNA <. PyNum.abs r.theta) = false)
    (h : Heap F) :
    (((Elem.leaf m).traceNew r h).2.1.get ((Elem.leaf m).traceThroughH h.length (h ++ [r])).1).isBlocked = false := by
  have hlen : h.length < (h ++ [r]).length := by simp
  have hg : (h ++ [r] : Heap F).get h.length = r := Heap.get_append_eq h r
  have he : (m.entered h.length (h ++ [r])).get h.length = r := by
    rw [m.entered_get _ hlen, hg]
    cases r
    simp_all [Mat.stopsEntry]
  have hlen' : h.length < (m.entered h.length (h ++ [r])).length := by rw [m.entered_length]; exact hlen
  unfold Elem.traceNew Elem.traceThroughH Elem.traceH
  dsimp only
  rw [m.traceH_last, m.traceH_snd, m.mulRayH_open _ hlen' (by rw [he]; exact hb), he]
  dsimp only
  rw [Heap.get_append_eq]
  have h1 : (m.mulRayBase r).isBlocked = false := by simp [Mat.mulRayBase, Mat.stops, hb, hy, hna]
  unfold Mat.mulRay
  split <;> exact h1

/-! ## C10 -/

/-- objects keep everything but their blocked state, which can only be set -/
def HeapKeeps (h h' : Heap F) : Prop :=
  h.length ≤ h'.length ∧ ∀ c, c < h.length →
    ∃ b, h'.get c = { h.get c with isBlocked := b } ∧ ((h.get c).isBlocked = true → b = true)

theorem HeapKeeps.refl (h : Heap F) : HeapKeeps h h := ⟨le_refl _, fun _ _ => ⟨_, rfl, id⟩⟩

theorem HeapKeeps.trans {h h' h'' : Heap F} (h1 : HeapKeeps h h') (h2 : HeapKeeps h' h'') : HeapKeeps h h'' := by
  refine ⟨h1.1.trans h2.1, fun c hc => ?_⟩
  obtain ⟨b, e1, e2⟩ := h1.2 c hc
  obtain ⟨b', e3, e4⟩ := h2.2 c (hc.trans_le h1.1)
  refine ⟨b', by rw [e3, e1], fun hb => e4 ?_⟩
  rw [e1]; exact e2 hb

theorem traceH_keeps {m : Mat F} (hl : m.Linear) (a : Nat) (h : Heap F) : HeapKeeps h (m.traceH a h).2 := by
  rw [m.traceH_snd]
  have h1 : HeapKeeps h (m.entered a h) := by
    refine ⟨(m.entered_length a h).ge, fun c hc => ?_⟩
    by_cases hca : c = a
    · subst hca
      refine ⟨_, m.entered_get h hc, fun hb => by simp [hb]⟩
    · exact ⟨_, m.entered_get_ne h hca, id⟩
  refine h1.trans ?_
  have h2 : m.mulRayH a (m.entered a h) = m.mulRayBaseH a (m.entered a h) := by
    unfold Mat.mulRayH
    cases hk : m.kind <;> simp only
    exact absurd hk (hl _ _)
  rw [h2]
  unfold Mat.mulRayBaseH
  split_ifs
  · exact HeapKeeps.refl _
  · exact ⟨by simp, fun c hc => ⟨_, Heap.get_append_lt _ _ hc, id⟩⟩

mutual
theorem Elem.traceH_keeps : ∀ {e : Elem F}, LinearItems e.items → ∀ (a : Nat) (h : Heap F), HeapKeeps h (e.traceH a h).2.1
  | .leaf m, hl, a, h => by
    unfold Elem.traceH
    exact RT.traceH_keeps (hl m (by simp [Elem.items])) a h
  | .group m c es, hl, a, h => by
    unfold Elem.traceH
    split
    · exact HeapKeeps.refl h
    · exact traceListH_keeps (fun m hm => hl m (by simp [Elem.items, hm])) a h
theorem traceListH_keeps : ∀ {es : List (Elem F)}, LinearItems (itemsList es) → ∀ (a : Nat) (h : Heap F),
    HeapKeeps h (traceListH es a h).2.1
  | [], _, a, h => HeapKeeps.refl h
  | e :: es, hl, a, h => by
    unfold traceListH
    exact (Elem.traceH_keeps (fun m hm => hl m (by simp [itemsList, hm])) a h).trans
      (traceListH_keeps (fun m hm => hl m (by simp [itemsList, hm])) _ _)
end

/-- **C10**, without axicon and except for the blocked state: whatever was traced before (the caches are arbitrary), tracing keeps
the height, angle and position of every ray object that exists, and never unblocks one. -/
theorem C10_values_partial {e : Elem F} (hl : LinearItems e.items) (a : Nat) (h : Heap F) {c : Nat} (hc : c < h.length) :
    ((e.traceH a h).2.1.get c).y = (h.get c).y ∧ ((e.traceH a h).2.1.get c).theta = (h.get c).theta ∧
    ((e.traceH a h).2.1.get c).z = (h.get c).z ∧
    ((h.get c).isBlocked = true → ((e.traceH a h).2.1.get c).isBlocked = true) := by
  obtain ⟨b, h1, h2⟩ := (Elem.traceH_keeps hl a h).2 c hc
  rw [h1]
  exact ⟨rfl, rfl, rfl, h2⟩

/-- **C10**, for elements that are thin where light enters or wide enough: the object is exactly as before. -/
theorem C10_unchanged_partial {e : Elem F} (he : e.NoCache) (hl : LinearItems e.items) {a : Nat} {h : Heap F}
    (ha : a < h.length) (hs : entryStops e.items (h.get a) = false) {c : Nat} (hc : c < h.length) :
    (e.traceH a h).2.1.get c = h.get c := by
  obtain ⟨-, e2⟩ := e.traceH_eq he a h
  rw [e2]
  by_cases hca : c = a
  · subst hca
    rw [(runH_spec e.items hl ha).2]
    cases hr : h.get c
    rw [hr] at hs
    simp [settle, hs]
  · exact (runH_frame e.items ha).2.1 c hc hca

/-! ## C11, C12 and C13 -/

/-- what a newly built copy of the elements returns for a newly created ray -/
def Elem.freshTrace (e : Elem F) (r : Ray F) : List (Ray F) := ((e.traceNew r []).2.1).deref (e.traceNew r []).1

/-- the last ray of it -/
def Elem.freshThrough (e : Elem F) (r : Ray F) : Ray F :=
  ((e.traceNew r []).2.1).get (e.traceThroughH 0 [r]).1

theorem flat_items_linear {e : Elem F} (hf : e.Flat) : LinearItems e.items := by
  cases e with
  | leaf m =>
    intro m' hm'
    simp only [Elem.items, List.mem_singleton, Item.leaf.injEq] at hm'
    subst hm'; exact hf
  | group m c es =>
    intro m' hm'
    simp only [Elem.items, List.mem_cons, reduceCtorEq, false_or] at hm'
    exact flat_linear hf m' hm'

theorem freshTrace_eq {e : Elem F} (hc : e.NoCache) (hl : LinearItems e.items) (r : Ray F) :
    e.freshTrace r = traceV e.items r := by
  unfold Elem.freshTrace Elem.traceNew
  obtain ⟨e1, e2⟩ := e.traceH_eq hc 0 [r]
  have h1 : (([] : Heap F).length) = 0 := rfl
  have h2 : (([] : Heap F) ++ [r]) = [r] := rfl
  rw [h1, h2, e1, e2]
  exact (runH_spec e.items hl (by simp)).1

theorem trace_ne_nil {e : Elem F} (hc : e.NoCache) (a : Nat) (h : Heap F) : (e.traceH a h).1 ≠ [] := by
  cases e with
  | leaf m => simp only [Elem.traceH]; rw [m.traceH_fst]; split_ifs <;> simp
  | group m c es =>
    unfold Elem.NoCache at hc
    obtain ⟨rfl, -⟩ := hc
    simp [Elem.traceH, cacheHit]

theorem freshThrough_eq {e : Elem F} (hc : e.NoCache) (hl : LinearItems e.items) (r : Ray F) :
    e.freshThrough r = lastV e.items r := by
  have h1 := freshTrace_eq hc hl r
  unfold lastV
  rw [← h1]
  unfold Elem.freshTrace Elem.freshThrough Heap.deref Elem.traceThroughH
  obtain ⟨l, hl⟩ : ∃ l, (e.traceNew r []).1.getLast? = some l := by
    cases hx : (e.traceNew r []).1.getLast? with
    | none => exact absurd (List.getLast?_eq_none_iff.1 hx) (trace_ne_nil hc _ _)
    | some l => exact ⟨l, rfl⟩
  rw [List.getLast?_map, hl]
  have h2 : (e.traceH 0 [r]).1.getLast? = some l := hl
  rw [h2]; rfl

/-- rays with the same height and angle do not differ otherwise -/
def Compatible (h : Heap F) (as : List Nat) : Prop :=
  ∀ a ∈ as, ∀ b ∈ as, (h.get a).eq (h.get b) = true → h.get a = h.get b

/-- **C11** for a single element or a group of single elements, no axicon: in any session of traces, of any ray objects, traced any
number of times, each trace is what a newly built copy returns for a new ray with the same values. Missing: nested
groups, rays that differ only by their position or blocked state, edits between the traces, axicons. The first three
are violated (`C11_violated_nested`, `C11_violated_position`, `C11_violated_edit`). -/
theorem C11_session_partial {e : Elem F} (hf : e.Flat) (hc : e.NoCache) {h : Heap F} {as : List Nat}
    (has : ∀ a ∈ as, a < h.length) (hcomp : Compatible h as) :
    (e.traceManyH as h).1.map (e.traceManyH as h).2.1.deref = as.map fun a => e.freshTrace (h.get a) := by
  have := (many_traces hcomp has as (fun _ h => h) (many_start hf hc as h)).2.2.2
  rw [this]
  exact List.map_congr_left fun a _ => (freshTrace_eq hc (flat_items_linear hf) _).symm

/-- **C12** for a single element or a group of single elements, no axicon: `traceManyThrough` returns, in order, the last ray of each
input ray that gets through, and nothing else. Missing: as for C11; nested groups violate it
(`C12_violated`). -/
theorem C12_filter_partial {e : Elem F} (hf : e.Flat) (hc : e.NoCache) {h : Heap F} {as : List Nat}
    (has : ∀ a ∈ as, a < h.length) (hcomp : Compatible h as) :
    (e.traceManyThroughH as h).2.1.deref (e.traceManyThroughH as h).1 =
      (as.map fun a => e.freshThrough (h.get a)).filter Ray.isNotBlocked := by
  have := (many_through hcomp has as (fun _ h => h) (many_start hf hc as h)).2.2.2
  rw [this]
  congr 1
  exact List.map_congr_left fun a _ => (freshThrough_eq hc (flat_items_linear hf) _).symm

/-- The slices `l[0::p]`, `l[1::p]`, ..., `l[p-1::p]` contain each element of `l` once. -/
theorem stride_perm {α : Type} (l : List α) {p : Nat} (hp : 0 < p) :
    ((List.range p).flatMap fun i => pyStride l i p).Perm l := by
  have h1 : ∀ (ks : List Nat), ((List.range p).flatMap fun i => ks.filter fun k => k % p = i).Perm ks := by
    intro ks
    rw [List.perm_iff_count]
    intro a
    rw [List.count_flatMap]
    have : (List.map (List.count a ∘ fun i => ks.filter fun k => k % p = i) (List.range p)) =
        (List.range p).map fun i => if a % p = i then ks.count a else 0 := by
      refine List.map_congr_left fun i _ => ?_
      simp only [Function.comp]
      split_ifs with h
      · exact List.count_filter (by simpa using h)
      · exact List.count_eq_zero_of_not_mem (by simp [h])
    rw [this]
    have h2 : ∀ (is : List Nat), is.Nodup → a % p ∈ is →
        (is.map fun i => if a % p = i then ks.count a else 0).sum = ks.count a := by
      intro is hn hm
      induction is with
      | nil => simp at hm
      | cons i is ih =>
        simp only [List.map_cons, List.sum_cons]
        rw [List.nodup_cons] at hn
        by_cases hi : a % p = i
        · have h0 : (is.map fun i => if a % p = i then ks.count a else 0).sum = 0 := by
            refine List.sum_eq_zero fun x hx => ?_
            obtain ⟨j, hj, rfl⟩ := List.mem_map.1 hx
            rw [if_neg]
            rintro rfl
            exact hn.1 (hi ▸ hj)
          rw [if_pos hi, h0, add_zero]
        · rw [if_neg hi, zero_add]
          exact ih hn.2 ((List.mem_cons.1 hm).resolve_left hi)
    exact h2 _ List.nodup_range (List.mem_range.2 (Nat.mod_lt _ hp))
  have h2 : ∀ i, i < p → pyStride l i p = ((List.range l.length).filter fun k => k % p = i).filterMap fun k => l[k]? := by
    intro i hi
    unfold pyStride
    rw [List.filterMap_filter]
    congr 1
    funext k
    have hiff : (i ≤ k ∧ (k - i) % p = 0) ↔ k % p = i := by
      constructor
      · rintro ⟨h1, h2⟩
        obtain ⟨q, hq⟩ := Nat.dvd_of_mod_eq_zero h2
        have : k = i + p * q := by omega
        rw [this, Nat.add_mul_mod_self_left, Nat.mod_eq_of_lt hi]
      · rintro rfl
        refine ⟨Nat.mod_le _ _, ?_⟩
        exact Nat.sub_mod_eq_zero_of_mod_eq (by rw [Nat.mod_mod])
    by_cases hk : k % p = i
    · simp [hk, hiff.2 hk]
    · have : ¬ (i ≤ k ∧ (k - i) % p = 0) := fun h => hk (hiff.1 h)
      simp [hk, this]
  have h3 : ((List.range p).flatMap fun i => pyStride l i p) =
      ((List.range p).flatMap fun i => (List.range l.length).filter fun k => k % p = i).filterMap fun k => l[k]? := by
    rw [List.filterMap_flatMap]
    exact List.flatMap_congr fun i hi => h2 i (List.mem_range.1 hi)
  rw [h3]
  refine ((h1 (List.range l.length)).filterMap _).trans ?_
  have h4 : (List.range l.length).filterMap (fun k => l[k]?) = l := by
    have : ∀ (l : List α), (List.range l.length).filterMap (fun k => l[k]?) = l := by
      intro l
      induction l with
      | nil => rfl
      | cons x l ih =>
        rw [List.length_cons, List.range_succ_eq_map, List.filterMap_cons]
        simp only [List.getElem?_cons_zero, List.filterMap_map]
        congr 1
    exact this l
  rw [h4]

/-- **C13** for a single element or a group of single elements, no axicon: for every number of processes and whether the pool of
processes works or not, the rays returned are the same, up to their order, as with `traceManyThrough`.
Missing: nested groups, which violate it (`C13_violated`), and axicons. -/
theorem C13_parallel_partial {e : Elem F} (hf : e.Flat) (hc : e.NoCache) {h : Heap F} {as : List Nat}
    (has : ∀ a ∈ as, a < h.length) (hcomp : Compatible h as) (processes : Int) (poolWorks : Bool) :
    (e.traceManyThroughInParallel as h processes poolWorks).Perm
      ((e.traceManyThroughH as h).2.1.deref (e.traceManyThroughH as h).1) := by
  unfold Elem.traceManyThroughInParallel
  split_ifs with hcond
  · have hp : 0 < processes.toNat := by omega
    have h1 : ∀ i, ((e.traceManyThroughH (pyStride as i processes.toNat) h).2.1.deref
        (e.traceManyThroughH (pyStride as i processes.toNat) h).1) =
        ((pyStride as i processes.toNat).map fun a => e.freshThrough (h.get a)).filter Ray.isNotBlocked := by
      intro i
      have hsub : ∀ a ∈ pyStride as i processes.toNat, a ∈ as := by
        intro a ha
        unfold pyStride at ha
        obtain ⟨k, -, hk⟩ := List.mem_filterMap.1 ha
        split_ifs at hk
        exact List.mem_of_getElem? hk
      exact C12_filter_partial hf hc (fun a ha => has a (hsub a ha))
        (fun a ha b hb => hcomp a (hsub a ha) b (hsub b hb))
    simp only [h1]
    rw [C12_filter_partial hf hc has hcomp]
    have h2 : ((List.range processes.toNat).flatMap fun i =>
        ((pyStride as i processes.toNat).map fun a => e.freshThrough (h.get a)).filter Ray.isNotBlocked) =
        (((List.range processes.toNat).flatMap fun i => pyStride as i processes.toNat).map
          fun a => e.freshThrough (h.get a)).filter Ray.isNotBlocked := by
      rw [List.map_flatMap, List.filter_flatMap]
    rw [h2]
    exact (((stride_perm as hp).map _).filter _)
  · exact List.Perm.refl _

end generic

section exact
variable {K : Type} [Field K] [LinearOrder K] [IsStrictOrderedRing K]

/-! ## C07 and C08 -/

theorem trace_values {p : Part K} {e : Elem (Ext K)} (hb : p.build = .ok e) {a : Nat} {h : Heap (Ext K)}
    (ha : a < h.length) :
    (e.traceH a h).2.1.deref (e.traceH a h).1 = runTrace e.items (settle e.items (h.get a)) ∧
    (e.traceH a h).2.1.get a = settle e.items (h.get a) := by
  obtain ⟨h1, h2, -⟩ := build_sound hb
  obtain ⟨e1, e2⟩ := e.traceH_eq h2 a h
  rw [e1, e2]
  exact runH_spec e.items h1.items.1.linear ha

/-- **C07.** For every system built by a program, however nested, and every finite ray: when the last ray of the trace is not blocked,
it has the height, the angle and the position that the matrix of the system gives. -/
theorem C07_trace_matrix {p : Part K} {e : Elem (Ext K)} (hb : p.build = .ok e) {a : Nat} {h : Heap (Ext K)}
    (ha : a < h.length) {y θ z : K} (hr : FinRay (h.get a) y θ z)
    (hopen : ((e.traceH a h).2.1.get (e.traceThroughH a h).1).isBlocked = false) :
    ∃ s : Sys K, Den e.mat s ∧
      FinRay ((e.traceH a h).2.1.get (e.traceThroughH a h).1) (s.a * y + s.b * θ) (s.c * y + s.d * θ) (z + s.len) := by
  obtain ⟨h1, h2, -⟩ := build_sound hb
  obtain ⟨e1, e2⟩ := trace_values hb ha
  obtain ⟨i1, i2, i3⟩ := h1.items
  have hl : (e.traceH a h).2.1.get (e.traceThroughH a h).1 =
      (runTrace e.items (settle e.items (h.get a))).getLast?.getD (settle e.items (h.get a)) := by
    rw [← e1]
    unfold Elem.traceThroughH Heap.deref
    rw [List.getLast?_map]
    cases hx : (e.traceH a h).1.getLast? with
    | none => exact e2
    | some l => rfl
  rw [hl] at hopen ⊢
  have := runTrace_last i1 (hr.settle e.items) hopen
  rw [i2, i3] at this
  exact ⟨e.mat.sys, h1.den, this⟩

/-- **C08.** With lengths that are not negative, the positions along the trace never decrease, from the position of the input ray
to, when the ray is not blocked, that position plus the length of the system. -/
theorem C08_positions {p : Part K} (hn : p.NonNeg) {e : Elem (Ext K)} (hb : p.build = .ok e) {a : Nat}
    {h : Heap (Ext K)} (ha : a < h.length) {y θ z : K} (hr : FinRay (h.get a) y θ z) :
    ∃ zs : List K, ((e.traceH a h).2.1.deref (e.traceH a h).1).map Ray.z = zs.map fin ∧
      (z :: zs).Pairwise (· ≤ ·) ∧
      (((e.traceH a h).2.1.get (e.traceThroughH a h).1).isBlocked = false →
        ∃ L, e.mat.L = fin L ∧ zs.getLast? = some (z + L)) := by
  obtain ⟨h1, h2, h3⟩ := build_sound hb
  obtain ⟨e1, e2⟩ := trace_values hb ha
  obtain ⟨i1, -, -⟩ := h1.items
  obtain ⟨zs, z1, z2⟩ := runTrace_z i1 (h3 hn) (hr.settle e.items)
  refine ⟨zs, by rw [e1]; exact z1, z2, fun hopen => ?_⟩
  obtain ⟨s, s1, s2⟩ := C07_trace_matrix hb ha hr hopen
  refine ⟨s.len, s1.L, ?_⟩
  have hx : ((e.traceH a h).2.1.deref (e.traceH a h).1).getLast? =
      some ((e.traceH a h).2.1.get (e.traceThroughH a h).1) := by
    unfold Elem.traceThroughH Heap.deref
    rw [List.getLast?_map]
    cases hl : (e.traceH a h).1.getLast? with
    | none => exact absurd (List.getLast?_eq_none_iff.1 hl) (trace_ne_nil h2 _ _)
    | some l => rfl
  have hy : (zs.map (fin : K → Ext K)).getLast? = some (fin (z + s.len)) := by
    rw [← z1, ← e1, List.getLast?_map, hx, Option.map_some, s2.z]
  rw [List.getLast?_map] at hy
  cases hq : zs.getLast? with
  | none => rw [hq] at hy; simp at hy
  | some w => rw [hq] at hy; simpa using hy

/-- **C08.** The trace through a group starts with the input ray itself. -/
theorem C08_first {label : String} {ps : List (Part K)} {e : Elem (Ext K)} (hb : (Part.group label ps).build = .ok e)
    (a : Nat) (h : Heap (Ext K)) : (e.traceH a h).1.head? = some a := by
  obtain ⟨-, h2, -⟩ := build_sound hb
  unfold Part.build at hb
  split at hb
  · simp at hb
  · obtain ⟨g, -, rfl⟩ := Except.map_ok hb
    unfold Group.toElem Elem.NoCache at h2
    unfold Group.toElem Elem.traceH
    rw [h2.1]; rfl

end exact

/-! ## Examples and counterexamples -/

/-- what a program observes: build, then run -/
def withBuilt {α : Type} (p : Part ℚ) (f : Elem (Ext ℚ) → α) : Except PyErr α := p.build.map f

/-- a nested system with a lens, an aperture, a thick lens and a nested group -/
def tracePart : Part ℚ :=
  .group "path" [.space 10 1 none, .lens 5 (some 20), .group "inner" [.space 3 1 none, .aperture (some 4) none "a"],
    .thickLens (3/2) (some 10) none 4 (some 8), .space 2 1 (some 50)]

/-- The hypotheses of the theorems above are met: the ray `(1, 1/10)` gets through `tracePart`, the ray `(30, 1/10)` is
blocked in it. -/
example : withBuilt tracePart (fun e =>
    (((e.traceH 0 [Ray.new (fin 1) (fin (1/10))]).2.1.get (e.traceThroughH 0 [Ray.new (fin 1) (fin (1/10))]).1).isBlocked,
     ((e.traceH 0 [Ray.new (fin 30) (fin (1/10))]).2.1.get (e.traceThroughH 0 [Ray.new (fin 30) (fin (1/10))]).1).isBlocked))
    = .ok (false, true) := by decide +kernel

example : tracePart.NonNeg := by simp [tracePart, Part.NonNeg, Part.NonNegList]

/-- **C09**: a ray leaving a space of diameter 2 at the height 5 is not blocked. -/
theorem C09_violated_example :
    withBuilt (.space 10 1 (some 2)) (fun e => (e.freshTrace (Ray.new (fin 0) (fin (1/2)))).map
      fun r => (r.y, r.isBlocked)) = .ok [(fin 0, false), (fin 5, false)] := by decide +kernel

/-- **C10** is violated: the caller's ray is blocked by the entrance of a space. -/
theorem C10_violated :
    withBuilt (.group "" [.space 10 1 (some 2)]) (fun e =>
      ((e.traceH 0 [Ray.new (fin 3) (fin 0)]).2.1.get 0).isBlocked) = .ok true := by decide +kernel

/-- **C10** is violated also by an axicon after an aperture: the angle of a ray that the caller holds, blocked before, is
changed. -/
theorem C10_violated_axicon :
    ((mkAxicon (fin (1/10)) (fin (3/2)) pinf).map fun m =>
      (((Elem.leaf m).traceH 0 [{ Ray.new (fin 3) (fin 0) with isBlocked := true }]).2.1.get (0 : Nat)).theta) =
      (.ok (fin (-1/20)) : Except PyErr (Ext ℚ)) := by
  decide +kernel

/-- an aperture, then a space, then a nested group -/
def nestedPart : Part ℚ :=
  .group "" [.aperture (some 2) none "", .space 50 1 none, .group "" [.lens 10 none]]

/-- **C11** is violated by nested groups. The ray `(5, 1/10)` is blocked by the aperture when it is traced first, but not
when it is traced after `(0, 1/10)`: the nested group returns the cached trace of another ray. -/
theorem C11_violated_nested :
    withBuilt nestedPart (fun e =>
      ((e.freshTrace (Ray.new (fin 5) (fin (1/10)))).getLast?.map Ray.isBlocked,
       (e.traceManyH [0, 1] [Ray.new (fin 0) (fin (1/10)), Ray.new (fin 5) (fin (1/10))]).1.map fun t =>
        ((e.traceManyH [0, 1] [Ray.new (fin 0) (fin (1/10)), Ray.new (fin 5) (fin (1/10))]).2.1.deref t).getLast?.map
          Ray.isBlocked)) =
    .ok (some true, [some false, some false]) := by decide +kernel

/-- **C11** is violated by rays that differ by their position only: the second trace has the positions of the first. -/
theorem C11_violated_position :
    withBuilt (.group "" [.space 10 1 none]) (fun e =>
      (e.traceManyH [0, 1] [Ray.new (fin 1) (fin 0), Ray.new (fin 1) (fin 0) (fin 100)]).1.map fun t =>
        ((e.traceManyH [0, 1] [Ray.new (fin 1) (fin 0), Ray.new (fin 1) (fin 0) (fin 100)]).2.1.deref t).map Ray.z) =
    .ok [[fin 0, fin 0, fin 10], [fin 0, fin 0, fin 10]] := by decide +kernel

/-- **C11** is violated by edits: after `append`, tracing the same ray again ignores the new element. -/
theorem C11_violated_edit :
    ((Part.group "" [.space 10 1 none]).build.map fun e =>
      match (e.traceH 0 [Ray.new (fin 1) (fin 0)]).2.2 with
      | .leaf _ => none
      | .group m c es =>
        match mkLens (fin 5 : Ext ℚ) pinf with
        | .error _ => none
        | .ok l =>
          let g : Group (Ext ℚ) := ((⟨m, c, es⟩ : Group (Ext ℚ)).append (.leaf l)).1
          let new : Group (Ext ℚ) := { g with cache := none }
          some (((g.traceH 0 [Ray.new (fin 1) (fin 0)]).1.length),
            (new.toElem.freshTrace (Ray.new (fin 1) (fin 0))).length)) =
    .ok (some (3, 4)) := by decide +kernel

/-- **C12** is violated by nested groups: a ray that does not get through is returned. -/
theorem C12_violated :
    withBuilt nestedPart (fun e =>
      ((e.traceManyThroughH [0, 1] [Ray.new (fin 0) (fin (1/10)), Ray.new (fin 5) (fin (1/10))]).1.length,
       ([Ray.new (fin 0) (fin (1/10)), Ray.new (fin 5) (fin (1/10))].filter
        fun r => (e.freshThrough r).isNotBlocked).length)) = .ok (2, 1) := by decide +kernel

/-- **C13** is violated by nested groups: two processes return one ray, one process two. -/
theorem C13_violated :
    withBuilt nestedPart (fun e =>
      ((e.traceManyThroughInParallel [0, 1] [Ray.new (fin 0) (fin (1/10)), Ray.new (fin 5) (fin (1/10))] 1 true).length,
       (e.traceManyThroughInParallel [0, 1] [Ray.new (fin 0) (fin (1/10)), Ray.new (fin 5) (fin (1/10))] 2 true).length))
    = .ok (2, 1) := by decide +kernel

/-- The hypotheses of the theorems on sessions are met by a group of a lens, a space and an aperture, and rays some of which
are equal. -/
example : withBuilt (.group "" [.lens 10 (some 20), .space 5 1 (some 20), .aperture (some 4) none ""]) (fun e =>
    (match e with
      | .leaf _ => false
      | .group _ c es => c.isNone && es.all fun e => match e with | .leaf m => (match m.kind with | .axicon .. => false | _ => true) | _ => false)) =
    .ok true ∧
    Compatible [Ray.new (fin (1 : ℚ)) (fin 0), Ray.new (fin 3) (fin 0), Ray.new (fin 1) (fin 0)] [0, 1, 2, 0] := by
  refine ⟨by decide +kernel, ?_⟩
  unfold Compatible
  decide +kernel

end RT
