import Verif.Props.Rays
import Verif.Lemmas.Matched

/-! # C49–C52, C66: iterating over collections, random sources, saving, histograms -/

set_option linter.unusedSectionVars false

namespace RT
open PyNum Ext

/-! ## C49 -/

section generic
variable {F : Type} [PyNum F]

theorem Rays.next_some {s : Rays F} {r : Ray F} (h : s.rays[s.iteration]? = some r) :
    s.next = (some r, { s with iteration := s.iteration + 1 }) := by
  unfold Rays.next; rw [h]

theorem Rays.next_none {s : Rays F} (h : s.rays.length ≤ s.iteration) : s.next = (none, s) := by
  unfold Rays.next; rw [List.getElem?_eq_none h]

theorem Rays.forEach_neutral {body : Ray F → Rays F → Rays F}
    (hb : ∀ r s, (body r s).rays = s.rays ∧ (body r s).iteration = s.iteration) :
    ∀ (fuel : Nat) (s : Rays F), s.rays.length - s.iteration < fuel →
      (Rays.forEach body fuel s).1 = s.rays.drop s.iteration ∧ (Rays.forEach body fuel s).2.rays = s.rays ∧
      (s.iteration ≤ s.rays.length → (Rays.forEach body fuel s).2.iteration = s.rays.length)
  | 0, s, h => by omega
  | fuel + 1, s, h => by
    unfold Rays.forEach
    by_cases hi : s.iteration < s.rays.length
    · rw [Rays.next_some (List.getElem?_eq_getElem hi)]
      simp only
      obtain ⟨h1, h2⟩ := hb s.rays[s.iteration] { s with iteration := s.iteration + 1 }
      obtain ⟨i1, i2, i3⟩ := Rays.forEach_neutral hb fuel (body s.rays[s.iteration] { s with iteration := s.iteration + 1 })
        (by rw [h1, h2]; simp only; omega)
      simp only [h1, h2] at i1 i2 i3
      refine ⟨?_, i2, fun _ => i3 (by omega)⟩
      rw [i1]
      exact (List.drop_eq_getElem_cons hi).symm
    · rw [Rays.next_none (by omega)]
      simp only
      refine ⟨?_, trivial, fun h => by omega⟩
      rw [List.drop_of_length_le (by omega)]

/-- **C49**: a loop over a collection whose body does not iterate over it visits every ray once, in order. Missing from the
property: bodies that iterate over the collection. -/
theorem C49_loop_partial {body : Ray F → Rays F → Rays F}
    (hb : ∀ r s, (body r s).rays = s.rays ∧ (body r s).iteration = s.iteration) (s : Rays F) {fuel : Nat}
    (hf : s.rays.length < fuel) : (Rays.forLoop body fuel s).1 = s.rays := by
  unfold Rays.forLoop
  obtain ⟨h, -⟩ := Rays.forEach_neutral hb fuel s.iter (by simpa [Rays.iter] using hf)
  simpa [Rays.iter] using h

theorem Rays.forEach_exhausting {body : Ray F → Rays F → Rays F} {s : Rays F} {r : Ray F} {l : List (Ray F)} (hs : s.rays = r :: l)
    (hi : s.iteration = 0)
    (hb : ((body r { s with iteration := 1 }).rays.length ≤ (body r { s with iteration := 1 }).iteration)) (fuel : Nat) :
    (Rays.forEach body (fuel + 2) s).1 = [r] := by
  unfold Rays.forEach
  rw [Rays.next_some (r := r) (by rw [hs, hi]; rfl)]
  simp only [hi]
  unfold Rays.forEach
  rw [Rays.next_none hb]

/-- **C49** is violated: a loop over a collection inside a loop over the same collection: the outer loop visits only the first ray. -/
theorem C49_violated_nested {s : Rays F} {r : Ray F} {l : List (Ray F)} (hs : s.rays = r :: l) {inner : Ray F → Rays F → Rays F}
    (hb : ∀ r s, (inner r s).rays = s.rays ∧ (inner r s).iteration = s.iteration) (fuel : Nat) {fuel' : Nat}
    (hf : s.rays.length < fuel') :
    (Rays.forLoop (fun _ t => (Rays.forLoop inner fuel' t).2) (fuel + 2) s).1 = [r] := by
  refine Rays.forEach_exhausting (s := s.iter) hs rfl ?_ fuel
  obtain ⟨-, h2, h3⟩ := Rays.forEach_neutral hb fuel' ({ s.iter with iteration := 1 } : Rays F).iter (by simpa [Rays.iter] using hf)
  unfold Rays.forLoop
  rw [h2, h3 (by simp [Rays.iter])]

/-- **C49** is violated: computing the heights of a collection for the first time inside a loop over it ends the loop. -/
theorem C49_violated_query {s : Rays F} {r : Ray F} {l : List (Ray F)} (hs : s.rays = r :: l) (hc : s.yCache = none) (fuel : Nat) :
    (Rays.forLoop (fun _ t => t.yValues.2) (fuel + 2) s).1 = [r] := by
  refine Rays.forEach_exhausting (s := s.iter) hs rfl ?_ fuel
  unfold Rays.yValues Rays.iter
  simp [hc]

theorem GroupLoop.forEach_neutral {body : Elem F → GroupLoop F → GroupLoop F}
    (hb : ∀ r s, (body r s).group.elems = s.group.elems ∧ (body r s).iteration = s.iteration) :
    ∀ (fuel : Nat) (s : GroupLoop F), s.group.elems.length - s.iteration < fuel →
      (GroupLoop.forEach body fuel s).1 = s.group.elems.drop s.iteration ∧
      (GroupLoop.forEach body fuel s).2.group.elems = s.group.elems ∧
      (s.iteration ≤ s.group.elems.length → (GroupLoop.forEach body fuel s).2.iteration = s.group.elems.length)
  | 0, s, h => by omega
  | fuel + 1, s, h => by
    unfold GroupLoop.forEach GroupLoop.next
    by_cases hi : s.iteration < s.group.elems.length
    · rw [List.getElem?_eq_getElem hi]
      simp only
      obtain ⟨h1, h2⟩ := hb s.group.elems[s.iteration] { s with iteration := s.iteration + 1 }
      obtain ⟨i1, i2, i3⟩ := GroupLoop.forEach_neutral hb fuel
        (body s.group.elems[s.iteration] { s with iteration := s.iteration + 1 }) (by rw [h1, h2]; simp only; omega)
      simp only [h1, h2] at i1 i2 i3
      refine ⟨?_, i2, fun _ => i3 (by omega)⟩
      rw [i1]
      exact (List.drop_eq_getElem_cons hi).symm
    · rw [List.getElem?_eq_none (by omega)]
      simp only
      refine ⟨?_, trivial, fun h => by omega⟩
      rw [List.drop_of_length_le (by omega)]

/-- **C49**: the same for groups of elements. -/
theorem C49_group_partial {body : Elem F → GroupLoop F → GroupLoop F}
    (hb : ∀ r s, (body r s).group.elems = s.group.elems ∧ (body r s).iteration = s.iteration) (s : GroupLoop F) {fuel : Nat}
    (hf : s.group.elems.length < fuel) : (GroupLoop.forLoop body fuel s).1 = s.group.elems := by
  unfold GroupLoop.forLoop
  obtain ⟨h, -⟩ := GroupLoop.forEach_neutral hb fuel s.iter (by simpa [GroupLoop.iter] using hf)
  simpa [GroupLoop.iter] using h

/-- **C49** is violated in the same way for groups. -/
theorem C49_violated_group {s : GroupLoop F} {e : Elem F} {l : List (Elem F)} (hs : s.group.elems = e :: l)
    {inner : Elem F → GroupLoop F → GroupLoop F}
    (hb : ∀ r s, (inner r s).group.elems = s.group.elems ∧ (inner r s).iteration = s.iteration) (fuel : Nat) {fuel' : Nat}
    (hf : s.group.elems.length < fuel') :
    (GroupLoop.forLoop (fun _ t => (GroupLoop.forLoop inner fuel' t).2) (fuel + 2) s).1 = [e] := by
  obtain ⟨-, h2, h3⟩ := GroupLoop.forEach_neutral hb fuel' ({ s.iter with iteration := 1 } : GroupLoop F).iter
    (by simpa [GroupLoop.iter] using hf)
  have h4 : s.group.elems[0]? = some e := by rw [hs]; rfl
  unfold GroupLoop.forLoop GroupLoop.forEach
  have h5 : s.iter.next = (some e, { s.iter with iteration := 1 }) := by
    unfold GroupLoop.next GroupLoop.iter
    simp only [h4, zero_add]
  rw [h5]
  simp only
  unfold GroupLoop.forEach
  have h6 : ∀ t : GroupLoop F, t.group.elems.length ≤ t.iteration → t.next = (none, t) := by
    intro t ht
    unfold GroupLoop.next
    rw [List.getElem?_eq_none ht]
  rw [h6 _ (by rw [h2, h3 (by simp [GroupLoop.iter])])]

/-! ## C50 -/

namespace RandomRays

/-- where the random numbers of ray number `k` start -/
def posAt (f : Nat → Ray F × Nat) : Nat → Nat
  | 0 => 0
  | k + 1 => (f (posAt f k)).2

/-- Ray number `k` of the source: it depends only on the stream of random numbers. -/
def nth (f : Nat → Ray F × Nat) (k : Nat) : Ray F := (f (posAt f k)).1

/-- the invariant of a source -/
structure Inv (f : Nat → Ray F × Nat) (n : Int) (s : RandomRays F) : Prop where
  max : s.maxCount = n
  rays : s.rays = (List.range s.rays.length).map (nth f)
  le : s.rays.length ≤ n.toNat
  pos : s.pos = posAt f s.rays.length
  cache : ∀ l, s.yCache = some l → l = (List.range n.toNat).map fun k => (nth f k).y

variable {draw : Nat → Except PyErr (Ray F × Nat)} {f : Nat → Ray F × Nat} {n : Int}

theorem inv_new : Inv f n (new n) := ⟨rfl, rfl, Nat.zero_le _, rfl, by simp [new]⟩

theorem grow_inv (hd : ∀ p, draw p = .ok (f p)) : ∀ (k : Nat) {s : RandomRays F}, Inv f n s → s.rays.length + k ≤ n.toNat →
    ∃ s', grow draw k s = (.ok (), s') ∧ Inv f n s' ∧ s'.rays.length = s.rays.length + k ∧ s'.iteration = s.iteration
  | 0, s, h, _ => ⟨s, rfl, h, rfl, rfl⟩
  | k + 1, s, h, hk => by
    have hne : ¬ (s.rays.length : Int) = s.maxCount := by rw [h.max]; omega
    have h1 : Inv f n { s with rays := s.rays ++ [(f s.pos).1], pos := (f s.pos).2, yCache := none } := by
      refine ⟨h.max, ?_, by simp; omega, ?_, by simp⟩
      · simp only [List.length_append, List.length_singleton, List.range_succ, List.map_append, List.map_singleton]
        rw [← h.rays]
        simp [nth, h.pos]
      · simp [posAt, h.pos]
    obtain ⟨s', h2, h3, h4, h5⟩ := grow_inv hd k h1 (by simp; omega)
    refine ⟨s', ?_, h3, by rw [h4]; simp; omega, h5⟩
    unfold grow randomRay
    rw [if_neg hne, hd]
    exact h2

theorem getItem_inv (hd : ∀ p, draw p = .ok (f p)) {s : RandomRays F} (h : Inv f n s) (i : Int) :
    (getItem draw s i).1 = (if -n ≤ i ∧ i < n then .ok (nth f (if i < 0 then i + n else i).toNat) else .error .indexError) ∧
    Inv f n (getItem draw s i).2 ∧ (getItem draw s i).2.iteration = s.iteration := by
  unfold getItem
  simp only [h.max]
  by_cases hr : -n ≤ i ∧ i < n
  · have hk : ¬ ((if i < 0 then i + n else i) < 0 ∨ n ≤ if i < 0 then i + n else i) := by split_ifs <;> omega
    rw [if_neg hk, if_pos hr]
    push Not at hk
    generalize (if i < 0 then i + n else i) = k at *
    rcases Nat.lt_or_ge k.toNat s.rays.length with hlt | hge
    · have : k.toNat + 1 - s.rays.length = 0 := by omega
      rw [this, grow]
      simp only
      rw [h.rays, List.getElem?_map, List.getElem?_range hlt]
      exact ⟨rfl, h, rfl⟩
    · obtain ⟨s', h1, h2, h3, h4⟩ := grow_inv hd (k.toNat + 1 - s.rays.length) h (by omega)
      rw [h1]
      simp only
      have hlt : k.toNat < s'.rays.length := by omega
      rw [h2.rays, List.getElem?_map, List.getElem?_range hlt]
      exact ⟨rfl, h2, h4⟩
  · have hk : ((if i < 0 then i + n else i) < 0 ∨ n ≤ if i < 0 then i + n else i) := by split_ifs <;> omega
    rw [if_pos hk, if_neg hr]
    exact ⟨rfl, h, rfl⟩

theorem next_inv (hd : ∀ p, draw p = .ok (f p)) {s : RandomRays F} (h : Inv f n s) :
    (s.iteration < n.toNat → (next draw s).1 = .ok (some (nth f s.iteration)) ∧ (next draw s).2.iteration = s.iteration + 1) ∧
    (n.toNat ≤ s.iteration → next draw s = (.ok none, s)) ∧ Inv f n (next draw s).2 := by
  unfold next
  rw [h.max]
  by_cases hi : n ≤ (s.iteration : Int)
  · rw [if_pos hi]
    exact ⟨fun h => by omega, fun _ => rfl, h⟩
  · rw [if_neg hi]
    obtain ⟨h1, h2, h3⟩ := getItem_inv hd h (s.iteration : Int)
    rw [if_pos (by omega), if_neg (by omega)] at h1
    simp only [Int.toNat_natCast] at h1
    cases hg : getItem draw s (s.iteration : Int) with
    | mk a s1 =>
      rw [hg] at h1 h2 h3
      simp only at h1 h2 h3
      subst h1
      simp only
      exact ⟨fun _ => by simp [h3], fun h => by omega, ⟨h2.max, h2.rays, h2.le, h2.pos, h2.cache⟩⟩

theorem collect_inv (hd : ∀ p, draw p = .ok (f p)) : ∀ (fuel : Nat) {s : RandomRays F}, Inv f n s → n.toNat < s.iteration + fuel →
    ∃ s', collect draw fuel s = (.ok ((List.range' s.iteration (n.toNat - s.iteration)).map (nth f)), s') ∧ Inv f n s'
  | 0, s, h, hf => by
    have : n.toNat - s.iteration = 0 := by omega
    exact ⟨s, by rw [this]; rfl, h⟩
  | fuel + 1, s, h, hf => by
    obtain ⟨h1, h2, h3⟩ := next_inv hd h
    unfold collect
    rcases Nat.lt_or_ge s.iteration n.toNat with hlt | hge
    · obtain ⟨h4, h5⟩ := h1 hlt
      cases hn : next draw s with
      | mk a s1 =>
        rw [hn] at h3 h4 h5
        simp only at h3 h4 h5
        subst h4
        simp only
        obtain ⟨s', h6, h7⟩ := collect_inv hd fuel h3 (by omega)
        rw [h6]
        refine ⟨s', ?_, h7⟩
        simp only
        rw [h5, show n.toNat - s.iteration = (n.toNat - (s.iteration + 1)) + 1 by omega, List.range'_succ]
        rfl
    · rw [h2 hge]
      have : n.toNat - s.iteration = 0 := by omega
      exact ⟨s, by rw [this]; rfl, h⟩

theorem collect_all (hd : ∀ p, draw p = .ok (f p)) {s : RandomRays F} (h : Inv f n s) {fuel : Nat} (hf : n.toNat < fuel) :
    ∃ s', collect draw fuel s.iter = (.ok ((List.range n.toNat).map (nth f)), s') ∧ Inv f n s' := by
  have h1 : Inv f n s.iter := ⟨h.max, h.rays, h.le, h.pos, h.cache⟩
  obtain ⟨s', h2, h3⟩ := collect_inv hd fuel h1 (by simp [iter]; omega)
  refine ⟨s', ?_, h3⟩
  rw [h2]
  simp [iter, List.range_eq_range']

theorem yValues_inv (hd : ∀ p, draw p = .ok (f p)) {s : RandomRays F} (h : Inv f n s) :
    (yValues draw s).1 = .ok ((List.range n.toNat).map fun k => (nth f k).y) ∧ Inv f n (yValues draw s).2 := by
  unfold yValues
  cases hc : s.yCache with
  | some l => exact ⟨by rw [h.cache l hc], h⟩
  | none =>
    rw [h.max]
    obtain ⟨s', h1, h2⟩ := collect_all hd h (Nat.lt_succ_self n.toNat)
    rw [h1]
    refine ⟨by simp [Function.comp_def], ⟨h2.max, h2.rays, h2.le, h2.pos, ?_⟩⟩
    intro l hl
    simp only [Option.some.injEq] at hl
    rw [← hl]
    simp [Function.comp_def]

/-- What a program does with a random source. -/
inductive Op where
  | getItem (i : Int)
  | iter
  | next
  | yValues

/-- the state after an operation -/
def Op.run (draw : Nat → Except PyErr (Ray F × Nat)) : Op → RandomRays F → RandomRays F
  | .getItem i, s => (RandomRays.getItem draw s i).2
  | .iter, s => s.iter
  | .next, s => (RandomRays.next draw s).2
  | .yValues, s => (RandomRays.yValues draw s).2

/-- the state after a sequence of operations on a new source -/
def after (draw : Nat → Except PyErr (Ray F × Nat)) (n : Int) (ops : List Op) : RandomRays F :=
  ops.foldl (fun s op => op.run draw s) (new n)

theorem after_inv (hd : ∀ p, draw p = .ok (f p)) (ops : List Op) : Inv f n (after draw n ops) := by
  have key : ∀ (ops : List Op) (s : RandomRays F), Inv f n s → Inv f n (ops.foldl (fun s op => op.run draw s) s) := by
    intro ops
    induction ops with
    | nil => intro s h; exact h
    | cons op ops ih =>
      intro s h
      refine ih _ ?_
      cases op with
      | getItem i => exact (getItem_inv hd h i).2.1
      | iter => exact ⟨h.max, h.rays, h.le, h.pos, h.cache⟩
      | next => exact (next_inv hd h).2.2
      | yValues => exact (yValues_inv hd h).2
  exact key ops _ inv_new

/-- **C50**: after any sequence of accesses and iterations, an index in `[-maxCount, maxCount)` gives the ray fixed once and for all by the
random numbers, another index raises `IndexError`. -/
theorem C50_stable (hd : ∀ p, draw p = .ok (f p)) (n : Int) (ops : List Op) (i : Int) :
    (RandomRays.getItem draw (after draw n ops) i).1 =
      (if -n ≤ i ∧ i < n then .ok (nth f (if i < 0 then i + n else i).toNat) else .error .indexError) :=
  (getItem_inv hd (after_inv hd ops) i).1

/-- **C50**: after any sequence of operations, iterating over the source gives its `maxCount` rays in order, `len` is
`maxCount`, and the heights are those of all its rays. -/
theorem C50_iterate (hd : ∀ p, draw p = .ok (f p)) (n : Int) (ops : List Op) :
    (collect draw (n.toNat + 1) (after draw n ops).iter).1 = .ok ((List.range n.toNat).map (nth f)) ∧
    (after draw n ops).len = n ∧
    (RandomRays.yValues draw (after draw n ops)).1 = .ok ((List.range n.toNat).map fun k => (nth f k).y) := by
  have h := after_inv (n := n) hd ops
  obtain ⟨s', h1, -⟩ := collect_all hd h (Nat.lt_succ_self n.toNat)
  exact ⟨by rw [h1], h.max, (yValues_inv hd h).1⟩

/-- **C50**: and `next` in an iteration gives the next ray, whatever was accessed in between. -/
theorem C50_next (hd : ∀ p, draw p = .ok (f p)) (n : Int) (ops : List Op) :
    (RandomRays.next draw (after draw n ops)).1 =
      .ok (if (after draw n ops).iteration < n.toNat then some (nth f (after draw n ops).iteration) else none) ∧
    ∀ i, (Op.run draw (.getItem i) (after draw n ops)).iteration = (after draw n ops).iteration := by
  have h := after_inv (n := n) hd ops
  obtain ⟨h1, h2, -⟩ := next_inv hd h
  refine ⟨?_, fun i => (getItem_inv hd h i).2.2⟩
  split_ifs with hi
  · exact (h1 hi).1
  · rw [h2 (by omega)]

/-- **C52** is violated for random sources: only the rays made so far are saved (none if none was asked). -/
theorem C52_violated_random (n : Int) : (new n : RandomRays F).save = [] ∧ (new n : RandomRays F).len = n := ⟨rfl, rfl⟩

end RandomRays

end generic

section exact
variable {K : Type} [Field K] [LinearOrder K] [IsStrictOrderedRing K]

theorem between_bounds {lo hi u : K} (h : lo ≤ hi) (h0 : 0 ≤ u) (h1 : u ≤ 1) :
    ∃ x, between (fin lo) (fin hi) (fin u) = fin x ∧ lo ≤ x ∧ x ≤ hi := by
  refine ⟨lo + u * (hi - lo), by simp [between], ?_, ?_⟩
  · have := mul_nonneg h0 (sub_nonneg.2 h); linarith
  · have := mul_le_mul_of_nonneg_right h1 (sub_nonneg.2 h); linarith

/-- a ray within bounds -/
def Within (r : Ray (Ext K)) (yMin yMax thetaMin thetaMax : K) : Prop :=
  ∃ y theta, r = Ray.new (fin y) (fin theta) ∧ yMin ≤ y ∧ y ≤ yMax ∧ thetaMin ≤ theta ∧ theta ≤ thetaMax

/-- **C50**: rays of `RandomUniformRays` are within the bounds, for all random numbers in [0, 1]; a ray can always be drawn. -/
theorem C50_bounds_uniform {yMin yMax thetaMin thetaMax : K} (hy : yMin ≤ yMax) (ht : thetaMin ≤ thetaMax) {u : Nat → K}
    (hu : ∀ i, 0 ≤ u i ∧ u i ≤ 1) (pos : Nat) :
    ∃ r, drawUniform ⟨fin yMin, fin yMax, fin thetaMin, fin thetaMax⟩ (fun i => fin (u i)) pos = .ok (r, pos + 2) ∧
      Within r yMin yMax thetaMin thetaMax := by
  obtain ⟨y, h1, h2, h3⟩ := between_bounds hy (hu (pos + 1)).1 (hu (pos + 1)).2
  obtain ⟨t, h4, h5, h6⟩ := between_bounds ht (hu pos).1 (hu pos).2
  exact ⟨_, rfl, y, t, by simp only [h1, h4], h2, h3, h5, h6⟩

/-- **C50**: rays of `RandomLambertianRays` are within the bounds; drawing a ray ends exactly when one of the angles tried is accepted. -/
theorem C50_bounds_lambertian {yMin yMax thetaMin thetaMax : K} (hy : yMin ≤ yMax) (ht : thetaMin ≤ thetaMax) {u : Nat → K}
    (hu : ∀ i, 0 ≤ u i ∧ u i ≤ 1) (cos : Ext K → Ext K) (fuel pos : Nat) :
    (∀ r p, drawLambertian cos ⟨fin yMin, fin yMax, fin thetaMin, fin thetaMax⟩ (fun i => fin (u i)) fuel pos = .ok (r, p) →
      Within r yMin yMax thetaMin thetaMax) ∧
    (drawLambertian cos ⟨fin yMin, fin yMax, fin thetaMin, fin thetaMax⟩ (fun i => fin (u i)) fuel pos = .error .nonTermination ↔
      ∀ j < fuel, (fin (u (pos + 2 * j + 1)) <. cos (between (fin thetaMin) (fin thetaMax) (fin (u (pos + 2 * j))))) = false) := by
  induction fuel generalizing pos with
  | zero => simp [drawLambertian]
  | succ fuel ih =>
    unfold drawLambertian
    simp only
    split_ifs with h
    · constructor
      · intro r p hr
        simp only [Except.ok.injEq, Prod.mk.injEq] at hr
        obtain ⟨rfl, -⟩ := hr
        obtain ⟨y, h1, h2, h3⟩ := between_bounds hy (hu (pos + 2)).1 (hu (pos + 2)).2
        obtain ⟨t, h4, h5, h6⟩ := between_bounds ht (hu pos).1 (hu pos).2
        exact ⟨y, t, by simp only [h1, h4], h2, h3, h5, h6⟩
      · constructor
        · intro hc; simp at hc
        · intro hc
          have := hc 0 (by omega)
          simp only [mul_zero, add_zero] at this
          rw [this] at h; simp at h
    · obtain ⟨i1, i2⟩ := ih (pos + 2)
      refine ⟨i1, i2.trans ⟨fun hj j hlt => ?_, fun hj j hlt => ?_⟩⟩
      · cases j with
        | zero => simpa using h
        | succ j =>
          have := hj j (by omega)
          rw [show pos + 2 * (j + 1) + 1 = pos + 2 + 2 * j + 1 by ring, show pos + 2 * (j + 1) = pos + 2 + 2 * j by ring]
          exact this
      · have := hj (j + 1) (by omega)
        rw [show pos + 2 * (j + 1) + 1 = pos + 2 + 2 * j + 1 by ring, show pos + 2 * (j + 1) = pos + 2 + 2 * j by ring] at this
        exact this

/-- **C50**: the same for `GaussianProfileUniformRays`. -/
theorem C50_bounds_gaussian {yMin yMax thetaMin thetaMax : K} (hy : yMin ≤ yMax) (ht : thetaMin ≤ thetaMax) {u : Nat → K}
    (hu : ∀ i, 0 ≤ u i ∧ u i ≤ 1) (profile : Ext K → Ext K) (fuel pos : Nat) :
    (∀ r p, drawGaussian profile ⟨fin yMin, fin yMax, fin thetaMin, fin thetaMax⟩ (fun i => fin (u i)) fuel pos = .ok (r, p) →
      Within r yMin yMax thetaMin thetaMax) ∧
    (drawGaussian profile ⟨fin yMin, fin yMax, fin thetaMin, fin thetaMax⟩ (fun i => fin (u i)) fuel pos = .error .nonTermination ↔
      ∀ j < fuel, (fin (u (pos + 2 * j + 1)) <. profile (between (fin yMin) (fin yMax) (fin (u (pos + 2 * j))))) = false) := by
  induction fuel generalizing pos with
  | zero => simp [drawGaussian]
  | succ fuel ih =>
    unfold drawGaussian
    simp only
    split_ifs with h
    · constructor
      · intro r p hr
        simp only [Except.ok.injEq, Prod.mk.injEq] at hr
        obtain ⟨rfl, -⟩ := hr
        obtain ⟨t, h1, h2, h3⟩ := between_bounds ht (hu (pos + 2)).1 (hu (pos + 2)).2
        obtain ⟨y, h4, h5, h6⟩ := between_bounds hy (hu pos).1 (hu pos).2
        exact ⟨y, t, by simp only [h1, h4], h5, h6, h2, h3⟩
      · constructor
        · intro hc; simp at hc
        · intro hc
          have := hc 0 (by omega)
          simp only [mul_zero, add_zero] at this
          rw [this] at h; simp at h
    · obtain ⟨i1, i2⟩ := ih (pos + 2)
      refine ⟨i1, i2.trans ⟨fun hj j hlt => ?_, fun hj j hlt => ?_⟩⟩
      · cases j with
        | zero => simpa using h
        | succ j =>
          have := hj j (by omega)
          rw [show pos + 2 * (j + 1) + 1 = pos + 2 + 2 * j + 1 by ring, show pos + 2 * (j + 1) = pos + 2 + 2 * j by ring]
          exact this
      · have := hj (j + 1) (by omega)
        rw [show pos + 2 * (j + 1) + 1 = pos + 2 + 2 * j + 1 by ring, show pos + 2 * (j + 1) = pos + 2 + 2 * j by ring] at this
        exact this

/-- a source of three rays, asked in disorder -/
example : let u : Nat → Ext ℚ := fun i => fin (1 / (i + 1))
    let b : Bounds (Ext ℚ) := ⟨fin 0, fin 6, fin 0, fin 12⟩
    ((RandomRays.after (drawUniform b u) 3 [.getItem 1, .next, .getItem 0]).rays.map fun r => (r.y, r.theta)) =
      [(fin 3, fin 12), (fin (3 / 2), fin 4)] := by decide +kernel

end exact

/-! ## C51 -/

section generic
variable {F : Type} [PyNum F]

/-- **C51**: made from a list, a tuple or another collection, a collection has exactly the rays given; anything else than rays is
refused. Missing from the property: iterators that can be used only once. -/
theorem C51_exact_partial (it : Rays.Iterable F) (h : it.again = true) :
    (∀ rays : List (Ray F), it.items = rays.map some → Rays.new (some it) = .ok (Rays.ofList rays)) ∧
    (none ∈ it.items → Rays.new (some it) = .error .typeError) := by
  constructor
  · intro rays hr
    have h1 : it.items.all Option.isSome = true := by rw [hr]; simp
    unfold Rays.new
    simp only [h1, if_true, h]
    rw [hr]
    simp [List.filterMap_map]
  · intro hn
    have h1 : it.items.all Option.isSome = false := by
      rw [List.all_eq_false]
      exact ⟨none, hn, by simp⟩
    unfold Rays.new
    simp [h1]

/-- **C51**: the collection starts without anything cached and `len` is the number of rays. -/
theorem C51_fresh (rays : List (Ray F)) : (Rays.ofList rays).rays = rays ∧ (Rays.ofList rays).len = rays.length ∧
    (Rays.ofList rays).iteration = 0 ∧ (∀ k : Nat, k < rays.length → (Rays.ofList rays).getItem k = match rays[k]? with
      | some r => .ok r | none => .error .indexError) := by
  refine ⟨rfl, rfl, rfl, fun k hk => ?_⟩
  unfold Rays.getItem Rays.ofList
  simp only
  rw [if_neg (by omega), if_neg (by omega), Int.toNat_natCast]
  cases rays[k]? <;> rfl

/-- **C51** is violated: made from an iterator that can be used only once (a generator), a collection is always empty. -/
theorem C51_violated (it : Rays.Iterable F) (h : it.again = false) (hr : none ∉ it.items) :
    Rays.new (some it) = .ok (Rays.ofList []) := by
  have h1 : it.items.all Option.isSome = true := by
    rw [List.all_eq_true]
    intro x hx
    cases x with
    | none => exact absurd hx hr
    | some r => rfl
  unfold Rays.new
  simp [h1, h]

/-! ## C52 -/

/-- **C52**: loading what a collection saved gives the same rays, or adds them after the current ones; other contents are refused with
`IOError` and change nothing. -/
theorem C52_rays (s t : Rays F) : ((t.load (some s.save) false).1.rays = s.rays) ∧
    ((t.load (some s.save) true).1.rays = t.rays ++ s.rays) ∧ ((t.load (some s.save) false).2 = .ok ()) ∧
    ∀ a, t.load none a = (t, .error .ioError) := ⟨rfl, rfl, rfl, fun _ => rfl⟩

/-- **C52** is violated for groups: loading a file saved from a group without elements empties the group but keeps its matrix. -/
theorem C52_violated_empty (g : Group F) : (g.load [] false).1.elems = [] ∧ (g.load [] false).1.mat = g.mat ∧
    (g.load [] false).2 = .ok () := ⟨rfl, rfl, rfl⟩

end generic

section exact
variable {K : Type} [Field K] [LinearOrder K] [IsStrictOrderedRing K]

/-- same matrix, length, vertices and indices -/
def SameHeader (m m' : Mat (Ext K)) : Prop := m.A = m'.A ∧ m.B = m'.B ∧ m.C = m'.C ∧ m.D = m'.D ∧ m.L = m'.L ∧
  m.frontVertex = m'.frontVertex ∧ m.backVertex = m'.backVertex ∧ m.frontIndex = m'.frontIndex ∧ m.backIndex = m'.backIndex

theorem load_exact {es : List (Elem (Ext K))} {label : String} {g : Group (Ext K)} (hnew : Group.new es label = .ok g)
    (hg : OkList g.elems) (hne : g.elems ≠ []) (t : Group (Ext K)) :
    ∃ t', t.load g.elems false = (t', .ok ()) ∧ t'.elems = g.elems ∧ SameHeader t'.mat g.mat := by
  have hc : g.elems.IsChain Adjacent := by
    have := appendAll_adjacent (g := Group.empty label) es (by simp [Group.empty])
    rw [Group.new_eq hnew] at this
    exact this
  obtain ⟨t', h3, h4⟩ := appendAll_exact (g := ({ t with elems := [] } : Group (Ext K))) (es := g.elems) (by simpa using hg) (by simpa using hc)
  have h4 : t'.elems = g.elems := by simpa using h4
  refine ⟨t', by unfold Group.load; exact h3, h4, ?_⟩
  have f1 : t'.Fresh := Group.appendAll_fresh h3 (.inl hne)
  have f2 : g.Fresh := Group.new_fresh hnew
  obtain ⟨t1, a1, a2⟩ := f1
  obtain ⟨t2, b1, b2⟩ := f2
  rw [h4] at a1
  rw [a1] at b1
  simp only [Except.ok.injEq] at b1
  subst b1
  rw [a2, b2]
  exact ⟨rfl, rfl, rfl, rfl, rfl, rfl, rfl, rfl, rfl⟩

/-- **C52**: loading, into any group, what a group made by a program saved gives a group with the same elements and the same
matrix, length, vertices and indices. Missing from the property: groups without elements. -/
theorem C52_group_partial {label : String} {ps : List (Part K)} (hv : Part.ValidList ps) {m : Mat (Ext K)} {c} {es : List (Elem (Ext K))}
    (hb : (Part.group label ps).build = .ok (.group m c es)) (hc : (Elem.group m c es).Clean) (hne : es ≠ []) (t : Group (Ext K)) :
    ∃ t', t.load es false = (t', .ok ()) ∧ t'.elems = es ∧ SameHeader t'.mat m := by
  obtain ⟨hgood, -⟩ := build_good (p := .group label ps) hv hb hc
  unfold Elem.Good at hgood
  have hok : OkList es := fun e he => ⟨(GoodList_iff.1 hgood.1 e he).den, (GoodList_iff.1 hgood.1 e he).lawful⟩
  unfold Part.build at hb
  split at hb
  · simp at hb
  · obtain ⟨g, hg, he⟩ := Except.map_ok hb
    simp only [Group.toElem, Elem.group.injEq] at he
    obtain ⟨rfl, rfl, rfl⟩ := he
    exact load_exact hg hok hne t

/-- groups of spaces and lenses in air meet the hypotheses -/
example : ∃ e, (Part.group "g" [.space (10 : ℚ) 1 none, .lens 5 (some 25), .space 10 1 none]).build = .ok e ∧ e.Clean ∧
    (Part.group "g" [.space (10 : ℚ) 1 none, .lens 5 (some 25), .space 10 1 none]).Valid := by
  refine simple_group ?_ "g"
  intro p hp
  simp only [List.mem_cons, List.not_mem_nil, or_false] at hp
  rcases hp with rfl | rfl | rfl
  · exact .space _ _ (by simp [DiamOk, optInf])
  · exact .lens _ (by norm_num) (by simp [DiamOk, optInf])
  · exact .space _ _ (by simp [DiamOk, optInf])

/-! ## C66 -/

theorem pyMin_spec {l : List K} (h : l ≠ []) : ∃ m, pyMin (l.map fin) = .ok (fin m) ∧ m ∈ l ∧ ∀ x ∈ l, m ≤ x := by
  obtain ⟨x, xs, rfl⟩ := List.exists_cons_of_ne_nil h
  have key : ∀ (xs : List K) (x : K), ∃ m, (xs.map fin).foldl (fun m v => if v <. m then v else m) (fin x : Ext K) = fin m ∧
      m ∈ x :: xs ∧ ∀ y ∈ x :: xs, m ≤ y := by
    intro xs
    induction xs with
    | nil => intro x; exact ⟨x, rfl, by simp, by simp⟩
    | cons y ys ih =>
      intro x
      simp only [List.map_cons, List.foldl_cons, lt_fin, decide_eq_true_eq]
      split_ifs with hlt
      · obtain ⟨m, h1, h2, h3⟩ := ih y
        refine ⟨m, h1, by simp only [List.mem_cons] at h2 ⊢; tauto, fun z hz => ?_⟩
        rcases List.mem_cons.1 hz with rfl | hz
        · exact (h3 y (by simp)).trans hlt.le
        · exact h3 z hz
      · obtain ⟨m, h1, h2, h3⟩ := ih x
        refine ⟨m, h1, by simp only [List.mem_cons] at h2 ⊢; tauto, fun z hz => ?_⟩
        rcases List.mem_cons.1 hz with rfl | hz
        · exact h3 z (by simp)
        · rcases List.mem_cons.1 hz with rfl | hz
          · exact (h3 x (by simp)).trans (not_lt.1 hlt)
          · exact h3 z (by simp [hz])
  obtain ⟨m, h1, h2, h3⟩ := key xs x
  exact ⟨m, by simp only [pyMin, List.map_cons, h1], h2, h3⟩

theorem pyMax_spec {l : List K} (h : l ≠ []) : ∃ m, pyMax (l.map fin) = .ok (fin m) ∧ m ∈ l ∧ ∀ x ∈ l, x ≤ m := by
  obtain ⟨x, xs, rfl⟩ := List.exists_cons_of_ne_nil h
  have key : ∀ (xs : List K) (x : K), ∃ m, (xs.map fin).foldl (fun m v => if m <. v then v else m) (fin x : Ext K) = fin m ∧
      m ∈ x :: xs ∧ ∀ y ∈ x :: xs, y ≤ m := by
    intro xs
    induction xs with
    | nil => intro x; exact ⟨x, rfl, by simp, by simp⟩
    | cons y ys ih =>
      intro x
      simp only [List.map_cons, List.foldl_cons, lt_fin, decide_eq_true_eq]
      split_ifs with hlt
      · obtain ⟨m, h1, h2, h3⟩ := ih y
        refine ⟨m, h1, by simp only [List.mem_cons] at h2 ⊢; tauto, fun z hz => ?_⟩
        rcases List.mem_cons.1 hz with rfl | hz
        · exact hlt.le.trans (h3 y (by simp))
        · exact h3 z hz
      · obtain ⟨m, h1, h2, h3⟩ := ih x
        refine ⟨m, h1, by simp only [List.mem_cons] at h2 ⊢; tauto, fun z hz => ?_⟩
        rcases List.mem_cons.1 hz with rfl | hz
        · exact h3 z (by simp)
        · rcases List.mem_cons.1 hz with rfl | hz
          · exact (not_lt.1 hlt).trans (h3 x (by simp))
          · exact h3 z (by simp [hz])
  obtain ⟨m, h1, h2, h3⟩ := key xs x
  exact ⟨m, by simp only [pyMax, List.map_cons, h1], h2, h3⟩

/-- number of values between two bounds, included -/
def countBetween (values : List K) (lo hi : K) : Nat := (values.filter fun v => decide (lo ≤ v) && decide (v ≤ hi)).length

theorem binCounts_sum (values : List K) : ∀ (a : K) (edges : List K) (hi : K), edges ≠ [] → (a :: edges).Pairwise (· ≤ ·) →
    edges.getLast? = some hi → (binCounts (values.map fin) ((a :: edges).map (fin : K → Ext K))).sum = countBetween values a hi
  | a, [], hi, h, _, _ => absurd rfl h
  | a, [b], hi, _, _, hl => by
    simp only [List.getLast?_singleton, Option.some.injEq] at hl
    subst hl
    simp [binCounts, countBetween, List.filter_map, Function.comp_def]
  | a, b :: c :: rest, hi, _, hp, hl => by
    have hp' : (b :: c :: rest).Pairwise (· ≤ ·) := (List.pairwise_cons.1 hp).2
    have hl' : (c :: rest).getLast? = some hi := by rwa [List.getLast?_cons_cons] at hl
    have hab : a ≤ b := (List.pairwise_cons.1 hp).1 b (by simp)
    have hbh : b ≤ hi := (List.pairwise_cons.1 hp').1 hi (List.mem_of_getLast? hl')
    have ih := binCounts_sum values b (c :: rest) hi (by simp) hp' hl'
    simp only [List.map_cons] at ih
    simp only [List.map_cons, binCounts, List.sum_cons, ih]
    simp only [List.filter_map, List.length_map, countBetween]
    clear ih
    induction values with
    | nil => rfl
    | cons v vs ihv =>
      simp only [List.filter_cons, Function.comp_apply, le_fin, lt_fin] at ihv ⊢
      by_cases h1 : a ≤ v
      · by_cases h2 : v < b
        · have h3 : ¬ b ≤ v := not_le.2 h2
          have h4 : v ≤ hi := h2.le.trans hbh
          simp only [h1, h2, h3, h4, decide_true, decide_false, Bool.and_self, Bool.false_and, if_true, List.length_cons,
            Bool.false_eq_true, if_false]
          omega
        · have h3 : b ≤ v := not_lt.1 h2
          by_cases h4 : v ≤ hi
          · simp only [h1, h2, h3, h4, decide_true, decide_false, Bool.and_self, Bool.and_false, if_true, List.length_cons,
              Bool.false_eq_true, if_false]
            omega
          · simp only [h1, h2, h3, h4, decide_true, decide_false, Bool.and_false, Bool.false_eq_true, if_false]
            exact ihv
      · have h3 : ¬ b ≤ v := fun h => h1 (hab.trans h)
        simp only [h1, h3, decide_false, Bool.false_and, Bool.false_eq_true, if_false]
        exact ihv

theorem binCounts_length (values : List (Ext K)) : ∀ edges : List (Ext K), (binCounts values edges).length = edges.length - 1
  | [] => rfl
  | [_] => rfl
  | [_, _] => rfl
  | _ :: b :: c :: rest => by
    have := binCounts_length values (b :: c :: rest)
    simp only [binCounts, List.length_cons, this]
    omega

theorem middles_length : ∀ edges : List (Ext K), (middles edges).length = edges.length - 1
  | [] => rfl
  | [_] => rfl
  | _ :: b :: rest => by
    have := middles_length (b :: rest)
    simp only [middles, List.length_cons, this]
    omega

theorem spaced_mono {lo hi : K} (h : lo ≤ hi) {n : ℕ} (hn : 2 ≤ n) {i j : ℕ} (hij : i ≤ j) : spaced lo hi n i ≤ spaced lo hi n j := by
  unfold spaced
  rw [if_neg (by omega), if_neg (by omega)]
  have h2 : (2 : K) ≤ n := by exact_mod_cast hn
  have h3 : (0 : K) ≤ (hi - lo) / (n - 1) := div_nonneg (by linarith) (by linarith)
  have h4 : (i : K) ≤ j := by exact_mod_cast hij
  have := mul_le_mul_of_nonneg_right h4 h3
  linarith

/-- the bounds really used: equal bounds are moved apart -/
def widened (lo hi : K) : K × K := if lo = hi then (lo - 1 / 2, hi + 1 / 2) else (lo, hi)

/-- **C66**: a histogram of `bins` bins between two bounds has as many counts and as many positions as bins, and the counts
add up to the number of values between the bounds. -/
theorem C66_counts (values : List K) {bins : Int} (hb : 1 ≤ bins) {lo hi : K} (h : lo ≤ hi) :
    ∃ xs counts, histogram (values.map fin) bins (fin lo) (fin hi) = .ok (xs, counts) ∧
      xs.length = bins.toNat ∧ counts.length = bins.toNat ∧
      counts.sum = countBetween values (widened lo hi).1 (widened lo hi).2 := by
  have e1 : (if (fin lo : Ext K) ==. fin hi then fin lo - lit (1 / 2) else fin lo) = fin (widened lo hi).1 := by
    unfold widened
    rw [lit_eq]
    by_cases hc : lo = hi <;> simp [hc]
  have e2 : (if (fin lo : Ext K) ==. fin hi then fin hi + lit (1 / 2) else fin hi) = fin (widened lo hi).2 := by
    unfold widened
    rw [lit_eq]
    by_cases hc : lo = hi <;> simp [hc]
  have hw : (widened lo hi).1 ≤ (widened lo hi).2 := by
    unfold widened
    split_ifs with hc
    · simp only; subst hc
      have : (0 : K) < 1 / 2 := by norm_num
      linarith
    · exact h
  generalize hlo : (widened lo hi).1 = lo' at *
  generalize hhi : (widened lo hi).2 = hi' at *
  have hcond : ((fin lo : Ext K) ==. -inf || fin hi ==. inf || fin hi ==. -inf || fin lo ==. inf) = false := by simp
  have hhist : histogram (values.map fin) bins (fin lo) (fin hi) = .ok
      (middles ((List.range (bins + 1).toNat).map fun i => (fin (spaced lo' hi' (bins + 1).toNat i) : Ext K)),
       binCounts (values.map fin) ((List.range (bins + 1).toNat).map fun i => (fin (spaced lo' hi' (bins + 1).toNat i) : Ext K))) := by
    unfold histogram
    rw [if_neg (by omega)]
    simp only [le_fin, h, decide_true, Bool.not_true, Bool.false_eq_true, if_false, hcond, e1, e2]
    rw [linspace_eq _ _ (by omega)]
  refine ⟨_, _, hhist, ?_, ?_, ?_⟩
  · rw [middles_length]; simp; omega
  · rw [binCounts_length]; simp; omega
  · obtain ⟨m, hm⟩ : ∃ m, (bins + 1).toNat = m + 2 := ⟨(bins - 1).toNat, by omega⟩
    rw [hm]
    have e3 : (List.range (m + 2)).map (fun i => (fin (spaced lo' hi' (m + 2) i) : Ext K)) =
        (lo' :: (List.range (m + 1)).map fun i => spaced lo' hi' (m + 2) (i + 1)).map fin := by
      rw [List.range_succ_eq_map]
      simp [spaced_first, Function.comp_def]
    rw [e3]
    refine binCounts_sum values lo' _ hi' (by simp) ?_ ?_
    · have : (lo' :: (List.range (m + 1)).map fun i => spaced lo' hi' (m + 2) (i + 1)) =
          (List.range (m + 2)).map fun i => spaced lo' hi' (m + 2) i := by
        rw [List.range_succ_eq_map (n := m + 1)]
        simp [spaced_first, Function.comp_def]
      rw [this, List.pairwise_map]
      refine (List.pairwise_lt_range (n := m + 2)).imp ?_
      intro i j hij
      exact spaced_mono hw (by omega) hij.le
    · rw [List.range_succ, List.map_append, List.map_singleton, List.getLast?_append]
      have := spaced_last lo' hi' (n := m + 2) (by omega)
      simp only [show m + 2 - 1 = m + 1 by omega] at this
      simp [this]

/-- **C66**: with the default bounds, every ray of a collection is counted exactly once: the counts add up to the number of rays. -/
theorem C66_every_ray {l : List (Ray (Ext K))} {ys : List K} (hl : l.map Ray.y = ys.map fin) (hne : l ≠ []) {bins : Int} (hb : 1 ≤ bins) :
    ∃ xs counts, ((Rays.ofList l).rayCountHistogram (some bins) none none).1 = .ok (some (xs, counts)) ∧
      xs.length = bins.toNat ∧ counts.length = bins.toNat ∧ counts.sum = l.length := by
  have hys : ys ≠ [] := by
    rintro rfl
    simp at hl; exact hne hl
  obtain ⟨lo, h1, h2, h3⟩ := pyMin_spec hys
  obtain ⟨hi, h4, h5, h6⟩ := pyMax_spec hys
  obtain ⟨xs, counts, c1, c2, c3, c4⟩ := C66_counts ys hb (h3 hi h5)
  have hof : Rays.histogramOf (l.map Ray.y) (some bins) none none = .ok (xs, counts) := by
    rw [Rays.histogramOf_eq, hl]
    simp only [Rays.bound, h1, h4, Option.getD_some, c1]
  have hb : (Rays.ofList l).Bare := ⟨rfl, rfl, rfl, rfl, rfl, rfl⟩
  obtain ⟨k1, -, -⟩ := Rays.countHistogram_spec hb.coherent (some bins) none none (.inl ⟨_, hof⟩)
  refine ⟨xs, counts, ?_, c2, c3, ?_⟩
  · rw [k1]
    change (Rays.histogramOf (l.map Ray.y) (some bins) none none).map some = _
    rw [hof]; rfl
  · have hall : countBetween ys (widened lo hi).1 (widened lo hi).2 = ys.length := by
      unfold countBetween
      rw [List.filter_eq_self.2]
      intro v hv
      have a1 := h3 v hv
      have a2 := h6 v hv
      have : (0 : K) < 1 / 2 := by norm_num
      unfold widened
      split_ifs <;> simp only [Bool.and_eq_true, decide_eq_true_eq] <;> constructor <;> linarith
    rw [c4, hall]
    have := congrArg List.length hl
    simpa using this.symm

/-- three rays in two bins -/
example : ((Rays.ofList [Ray.new (fin (0 : ℚ)) (fin 0), Ray.new (fin 4) (fin 0), Ray.new (fin 1) (fin 0)]).rayCountHistogram (some 2) none none).1 =
    .ok (some ([fin 1, fin 3], [2, 1])) := by decide +kernel

end exact
end RT
