import Verif.Spec.Exits
import Verif.Props.Imaging

/-! # C30, C33, C34 for all openings, also those with a length -/

set_option linter.unusedSectionVars false

namespace RT
open PyNum Ext

variable {K : Type} [Field K] [LinearOrder K] [IsStrictOrderedRing K]

theorem StageOf.stopsEntry_iff {m : Mat (Ext K)} {st : Stage K} (h : StageOf m st) {r : Ray (Ext K)} {y θ z : K}
    (hr : FinRay r y θ z) : m.stopsEntry r = true ↔ st.StopsEntry (y, θ) := by
  unfold Mat.stopsEntry Stage.StopsEntry
  rw [Bool.and_eq_true, h.diam, h.L, hr.y, abs_fin, half_optInf, optInf_lt, zero_eq, lt_fin, decide_eq_true_iff]
  refine and_congr Iff.rfl ?_
  cases st.diam <;> simp

theorem Stage.StopsEntry.stops {s : Stage K} {r : K × K} (h : s.StopsEntry r) : s.Stops r := .inl h.2

/-- The trace of a ray shows the ray itself, the exits, and nothing else. -/
theorem runTrace_exits {is : List (Item (Ext K))} {ss : List (Stage K)} (h : ItemStages is ss)
    {r : Ray (Ext K)} {y θ z : K} (hr : FinRay r y θ z) (hb : r.isBlocked = false) :
    (∀ s ∈ runTrace is (settle is r), s = settle is r ∨ ∃ o ∈ exits ss z (y, θ), SeenAt s o) ∧
    (∀ o ∈ exits ss z (y, θ), ∃ s ∈ runTrace is (settle is r), SeenAt s o) := by
  induction is generalizing ss r y θ z with
  | nil => cases h; simp [runTrace, exits]
  | cons i is ih =>
    cases i with
    | dup =>
      obtain ⟨i1, i2⟩ := ih h hr hb
      have hset : settle (Item.dup :: is) r = settle is r := rfl
      simp only [runTrace, List.mem_cons, hset]
      refine ⟨?_, fun o ho => ?_⟩
      · rintro s (rfl | hs)
        · exact .inl rfl
        · exact i1 s hs
      · obtain ⟨s, h1, h2⟩ := i2 o ho
        exact ⟨s, .inr h1, h2⟩
    | leaf m =>
      cases h with
      | @cons _ st _ ss h1 h2 =>
        have hent := h1.stopsEntry_iff hr
        by_cases hse : st.StopsEntry (y, θ)
        · have hbl : (settle (Item.leaf m :: is) r).isBlocked = true := by
            simp [settle, entryStops, hent.2 hse]
          refine ⟨fun s hs => .inl (runTrace_blocked _ hbl s hs), ?_⟩
          unfold exits; rw [if_pos hse]; simp
        · have hset : settle (Item.leaf m :: is) r = r := by
            have : m.stopsEntry r = false := by rw [← Bool.not_eq_true, hent]; exact hse
            simp [settle, entryStops, this]
          rw [hset]
          obtain ⟨o1, o2, o3⟩ := h1.out hr hb
          have o1' := o1.settle is
          have hseen : SeenAt (settle is (m.mulRayBase r)) (z + st.len, (st.out (y, θ)).1, st.diam) := ⟨o1'.z, o1'.y, o3⟩
          unfold exits
          rw [if_neg hse]
          simp only [runTrace, hb, Bool.false_eq_true, if_false, List.mem_append, List.mem_cons]
          have hpre : ∀ s ∈ (if 0 <. m.L then [r] else []), s = r := by
            intro s hs; split_ifs at hs
            · simpa using hs
            · simp at hs
          by_cases hst : st.Stops (y, θ)
          · have hbl : (settle is (m.mulRayBase r)).isBlocked = true := by simp [settle, o2.2 hst]
            rw [if_pos hst]
            refine ⟨?_, ?_⟩
            · rintro s (hs | rfl | hs)
              · exact .inl (hpre s hs)
              · exact .inr ⟨_, .inl rfl, hseen⟩
              · rw [runTrace_blocked is hbl s hs]
                exact .inr ⟨_, .inl rfl, hseen⟩
            · rintro o (rfl | ho)
              · exact ⟨_, .inr (.inl rfl), hseen⟩
              · simp at ho
          · have hbl : (m.mulRayBase r).isBlocked = false := by
              rw [← Bool.not_eq_true, o2]; exact hst
            rw [if_neg hst]
            obtain ⟨i1, i2⟩ := ih h2 o1 hbl
            refine ⟨?_, ?_⟩
            · rintro s (hs | rfl | hs)
              · exact .inl (hpre s hs)
              · exact .inr ⟨_, .inl rfl, hseen⟩
              · rcases i1 s hs with rfl | ⟨o, h3, h4⟩
                · exact .inr ⟨_, .inl rfl, hseen⟩
                · exact .inr ⟨o, .inr h3, h4⟩
            · rintro o (rfl | ho)
              · exact ⟨_, .inr (.inl rfl), hseen⟩
              · obtain ⟨s, h3, h4⟩ := i2 o ho
                exact ⟨s, .inr (.inr h3), h4⟩

theorem exits_pos {is : List (Item (Ext K))} {ss : List (Stage K)} (h : ItemStages is ss) {z : K} {r : K × K} :
    ∀ o ∈ exits ss z r, ∀ D, o.2.2 = some D → 0 < D := by
  have hpos : ∀ s ∈ ss, ∀ D, s.diam = some D → 0 < D := by
    intro s hs
    obtain ⟨j, hj⟩ := List.getElem?_of_mem hs
    have := List.forall₂_iff_get.1 h
    obtain ⟨hjl, hje⟩ := List.getElem?_eq_some_iff.1 hj
    have h4 := this.2 j (by rw [this.1]; exact hjl) hjl
    rw [List.get_eq_getElem, List.get_eq_getElem, hje] at h4
    exact h4.diam_pos
  clear h
  induction ss generalizing z r with
  | nil => simp [exits]
  | cons s ss ih =>
    intro o ho
    unfold exits at ho
    split_ifs at ho with h1 h2
    · simp at ho
    · simp only [List.mem_cons, List.not_mem_nil, or_false] at ho
      subst ho; exact hpos s (by simp)
    · rcases List.mem_cons.1 ho with rfl | ho
      · exact hpos s (by simp)
      · exact ih (fun t ht => hpos t (List.mem_cons_of_mem _ ht)) o ho

/-- **C30**, what `apertureStop()` returns for every path, also with openings that have a length and acceptance angles: among the places where
the probe ray `Ray(0, 0.1)` leaves an opening, one where the ratio of its height to the diameter is largest; position 0 and an infinite
diameter when it leaves all openings on the axis. Entrances are never compared. -/
theorem C30_exits {label : String} {ps : List (Part K)} {g : Group (Ext K)} (hb : (Part.group label ps).build = .ok g.toElem)
    {ss : List (Stage K)} (hss : ss = (Part.group label ps).stages) (hfin : ∃ s ∈ ss, s.diam ≠ none) :
    (g.apertureStop.run (newTrace g) = .ok (some (fin 0), pinf) ∧
      ∀ z y D, (z, y, some D) ∈ exits ss 0 (0, 1 / 10) → y = 0) ∨
    ∃ z y D, (z, y, some D) ∈ exits ss 0 (0, 1 / 10) ∧ g.apertureStop.run (newTrace g) = .ok (some (fin z), fin D) ∧ y ≠ 0 ∧
      ∀ z' y' D', (z', y', some D') ∈ exits ss 0 (0, 1 / 10) → |y'| / D' ≤ |y| / D := by
  have hst : ItemStages g.toElem.items ss := by rw [hss]; exact build_stages hb
  have hf : hasFiniteApertureList g.elems = true := (hasFinite_stages hst).2 hfin
  obtain ⟨t1, t2⟩ := runTrace_exits hst (finRay_new (K := K) 0 (1 / 10)) rfl
  have hpos := exits_pos hst (z := (0 : K)) (r := (0, 1 / 10))
  have seen : ∀ z y D, (z, y, some D) ∈ exits ss 0 (0, 1 / 10) → 0 < D ∧
      ∃ x ∈ newTrace g (fin 0) (fin (1 / 10)), EntryAt x z y (some D) := by
    intro z y D ho
    have hD := hpos _ ho D rfl
    obtain ⟨x, hx, h1, h2, h3⟩ := t2 _ ho
    exact ⟨hD, x, hx, h1, h2, h3, fun d hd => by cases hd; exact hD⟩
  rcases apertureStop_run hst hf with ⟨h1, h2⟩ | ⟨x, hx, z, y, D, h1, h2, h3, h4⟩
  · refine .inl ⟨h1, fun z y D ho => ?_⟩
    obtain ⟨hD, x, hx, he⟩ := seen z y D ho
    have := h2 x hx _ _ _ he
    simp only [ratioOf] at this
    rw [div_le_iff₀ hD, zero_mul] at this
    exact abs_nonpos_iff.1 this
  · right
    refine ⟨z, y, D, ?_, h2, ?_, fun z' y' D' ho => ?_⟩
    · rcases t1 x hx with h5 | ⟨o, ho, hs1, hs2, hs3⟩
      · have := h1.diam
        rw [h5] at this
        simp [settle, Ray.new, optInf] at this
      · rw [h1.z] at hs1; rw [h1.y] at hs2; rw [h1.diam] at hs3
        simp only [Ext.fin.injEq] at hs1 hs2
        obtain ⟨oz, oy, od⟩ := o
        dsimp only at hs1 hs2 hs3
        subst hs1 hs2
        cases od with
        | none => simp [optInf] at hs3
        | some D' =>
          simp only [optInf, Ext.fin.injEq] at hs3
          rw [hs3]; exact ho
    · rintro rfl
      simp [ratioOf] at h3
    · obtain ⟨-, x', hx', he⟩ := seen z' y' D' ho
      exact h4 x' hx' _ _ _ he

/-- **C30** is violated by openings with a length, because their entrances are not compared: a tube of diameter 30 in converging light stops
the ray of angle 0.2 at its entrance, but no stop is reported. -/
theorem C30_entrance_violated :
    withPath [.space 100 1 none, .lens 50 none, .space 100 1 (some 30)] (fun g => g.apertureStop.run (newTrace g)) =
      .ok (.ok (some (fin 0), pinf)) ∧
    withPath [.space 100 1 none, .lens 50 none, .space 100 1 (some 30)]
      (fun g => ((newTrace g (fin 0) (fin (2 / 10))).getLast?.map fun r => (r.z, r.y, r.isBlocked))) =
      .ok (some (fin 100, fin 20, true)) := by
  constructor <;> decide +kernel

open Classical in
/-- where the stage number `i` that stops a ray first is seen in the trace, and with which diameter -/
theorem firstBlocked_exits {is : List (Item (Ext K))} {ss : List (Stage K)} (h : ItemStages is ss) {r : Ray (Ext K)} {y θ z : K}
    {d0 : Option K} (hr : FinRay r y θ z) (hd : r.apertureDiameter = optInf d0) (hb : r.isBlocked = false) (hbl : Blocked ss (y, θ)) :
    ∃ i s, StopsFirst ss (y, θ) i s ∧ Group.firstBlocked (runTrace is (settle is r)) =
      if s.StopsEntry (rayBefore ss i (y, θ)) then
        (some (fin (z + zBefore ss i)), if i = 0 then optInf d0 else optInf (diamBefore ss i))
      else (some (fin (z + zBefore ss i + s.len)), optInf s.diam) := by
  induction is generalizing ss r y θ z d0 with
  | nil => cases h; simp [Blocked] at hbl
  | cons i is ih =>
    cases i with
    | dup =>
      obtain ⟨i, s, h1, h2⟩ := ih h hr hd hb hbl
      refine ⟨i, s, h1, ?_⟩
      have hset : settle (Item.dup :: is) r = settle is r := rfl
      simp only [runTrace, hset]
      rw [← h2]
      by_cases hbs : (settle is r).isBlocked = true
      · have hall := runTrace_blocked is hbs
        cases hrt : runTrace is (settle is r) with
        | nil =>
          exfalso
          rw [hrt] at h2
          have : Group.firstBlocked ([] : List (Ray (Ext K))) = (none, inf) := rfl
          rw [this] at h2
          split_ifs at h2 <;> simp at h2
        | cons x xs =>
          rw [hrt] at hall
          have := hall x (by simp)
          simp [this, Group.firstBlocked, hbs]
      · rw [Bool.not_eq_true] at hbs
        exact firstBlocked_all hbs [settle is r] (by simp) _
    | leaf m =>
      cases h with
      | @cons _ st _ ss h1 h2 =>
        have hent := h1.stopsEntry_iff hr
        by_cases hse : st.StopsEntry (y, θ)
        · refine ⟨0, st, ⟨rfl, hse.stops, fun j t hj => absurd hj (Nat.not_lt_zero _)⟩, ?_⟩
          have hbs : (settle (Item.leaf m :: is) r).isBlocked = true := by simp [settle, entryStops, hent.2 hse]
          have hL : (0 <. m.L) = true := by rw [h1.L, zero_eq, lt_fin, decide_eq_true_iff]; exact hse.1
          simp only [runTrace, hL, if_true, List.singleton_append]
          rw [Group.firstBlocked, if_pos hbs]
          have e1 : rayBefore (st :: ss) 0 (y, θ) = (y, θ) := rfl
          rw [e1, if_pos hse]
          simp [settle, hr.z, hd, zBefore]
        · have hset : settle (Item.leaf m :: is) r = r := by
            have : m.stopsEntry r = false := by rw [← Bool.not_eq_true, hent]; exact hse
            simp [settle, entryStops, this]
          rw [hset]
          obtain ⟨o1, o2, o3⟩ := h1.out hr hb
          have hpre : ∀ s ∈ (if 0 <. m.L then [r] else []), s = r := by
            intro s hs; split_ifs at hs
            · simpa using hs
            · simp at hs
          simp only [runTrace, hb, Bool.false_eq_true, if_false]
          rw [firstBlocked_all hb _ hpre]
          by_cases hst : st.Stops (y, θ)
          · refine ⟨0, st, ⟨rfl, hst, fun j t hj => absurd hj (Nat.not_lt_zero _)⟩, ?_⟩
            have hbs : (settle is (m.mulRayBase r)).isBlocked = true := by simp [settle, o2.2 hst]
            have e1 : rayBefore (st :: ss) 0 (y, θ) = (y, θ) := rfl
            rw [Group.firstBlocked, if_pos hbs, e1, if_neg hse, (o1.settle is).z]
            simp [zBefore, settle, o3]
          · have hbl' : (m.mulRayBase r).isBlocked = false := by
              rw [← Bool.not_eq_true, o2]; exact hst
            have hB : Blocked ss (st.out (y, θ)) := hbl.resolve_left hst
            obtain ⟨i, s, ⟨q1, q2, q3⟩, h3⟩ := ih h2 o1 o3 hbl' hB
            refine ⟨i + 1, s, ⟨q1, q2, ?_⟩, ?_⟩
            · intro j t hj hjt
              cases j with
              | zero =>
                simp only [List.getElem?_cons_zero, Option.some.injEq] at hjt
                subst hjt; exact hst
              | succ j => exact q3 j t (by omega) hjt
            · have e1 : rayBefore (st :: ss) (i + 1) (y, θ) = rayBefore ss i (st.out (y, θ)) := by simp [rayBefore]
              have e2 : z + zBefore (st :: ss) (i + 1) = z + st.len + zBefore ss i := by simp [zBefore, add_assoc]
              have e3 : (if i = 0 then optInf st.diam else optInf (diamBefore ss i) : Ext K) = optInf (diamBefore (st :: ss) (i + 1)) := by
                cases i <;> simp [diamBefore]
              rw [e1, e2, if_neg (Nat.succ_ne_zero i), ← e3, ← h3]
              by_cases hbs : (settle is (m.mulRayBase r)).isBlocked = true
              · have hall := runTrace_blocked is hbs
                cases hrt : runTrace is (settle is (m.mulRayBase r)) with
                | nil =>
                  exfalso
                  rw [hrt] at h3
                  have : Group.firstBlocked ([] : List (Ray (Ext K))) = (none, inf) := rfl
                  rw [this] at h3
                  split_ifs at h3 <;> simp at h3
                | cons x xs =>
                  rw [hrt] at hall
                  have := hall x (by simp)
                  simp [this, Group.firstBlocked, hbs]
              · rw [Bool.not_eq_true] at hbs
                rw [Group.firstBlocked, hbs]
                simp

open Classical in
/-- **C34**, the field stop of every path whose chief rays exist, also with openings that have a length: the position and diameter of the element
that is the first to block a chief ray starting less than `2 p` above the field, where it is left; but an element with a length that blocks
this ray at its entrance is reported there, with the diameter of the element before. -/
theorem C34_fieldStop_all [Archimedean K] {label : String} {ps : List (Part K)} {g : Group (Ext K)}
    (h : HasChiefs label ps g) {ss : List (Stage K)} (hss : ss = (Part.group label ps).stages) {p H Y : K} (hp : 0 < p)
    (hY : ∀ y θ, IsChief g y θ → (Blocked ss (y, θ) ↔ Y < |y|)) (hYp : 75 / 2 * p ≤ Y) :
    ∃ N, ∀ fuel, N ≤ fuel →
      (2 / 3 * H - 100 * p < Y ∧ (g.fieldStop (fin p) (fin H) fuel).run (newTrace g) = .ok (none, pinf)) ∨
      ∃ y θ i s, IsChief g y θ ∧ Y < y ∧ y ≤ Y + 2 * p ∧ StopsFirst ss (y, θ) i s ∧
        (g.fieldStop (fin p) (fin H) fuel).run (newTrace g) = .ok (
          if s.StopsEntry (rayBefore ss i (y, θ)) then (some (fin (zBefore ss i)), optInf (diamBefore ss i))
          else (some (fin (zBefore ss i + s.len)), optInf s.diam)) := by
  subst hss
  obtain ⟨κ, z, D, h1, h2, hz, hs, hf, hne, hblk⟩ := h.facts
  obtain ⟨o, ⟨N, q1⟩, q2⟩ := search_ends (H := H) (sw := true)
    (blk := fun y => decide (Blocked (Part.group label ps).stages (y, κ * y))) (fun y => by simpa using hY y _ (h1 y)) hp hYp 0
  refine ⟨N, fun fuel hfuel => ?_⟩
  have s1 := fieldStop_eq h1 hne hblk hs hz hf p H fuel
  rw [q1 fuel hfuel] at s1
  cases o with
  | timeout => exact q2.elim
  | beyond => exact .inl ⟨q2, s1⟩
  | found y =>
    simp only [Right, if_true] at q2
    have hbl := (hY y _ (h1 y)).2 (q2.1.trans_le (le_abs_self y))
    right
    obtain ⟨i, s, f1, f2⟩ := firstBlocked_exits (d0 := none) (build_stages h.build) (finRay_new y (κ * y)) rfl rfl hbl
    refine ⟨y, _, i, s, h1 y, q2.1, q2.2, f1, ?_⟩
    rw [s1]
    dsimp only
    unfold newTrace traceV
    rw [f2]
    have e : (if i = 0 then optInf none else optInf (diamBefore (Part.group label ps).stages i) : Ext K) =
        optInf (diamBefore (Part.group label ps).stages i) := by cases i <;> simp [diamBefore]
    simp only [zero_add, e]

/-- **C34** is violated by openings with a length: the field of this path is limited by a thick lens of diameter 20, and the field stop is
reported with an infinite diameter, that of the space before. -/
theorem C34_thick_violated :
    withPath [.space 100 1 none, .aperture (some 1) none "", .space 100 1 none, .thickLens (3 / 2) (some 100) (some (-100)) 10 (some 20)]
      (fun g => (g.fieldStop (fin (1 / 10)) (fin 10000) 100).run (newTrace g)) = .ok (.ok (some (fin 200), pinf)) := by
  decide +kernel

open Classical in
/-- **C33**, for which paths the searches return: exactly when no chief ray from a height up to 37.5 times the precision is blocked. -/
theorem C33_iff [Archimedean K] {label : String} {ps : List (Part K)} {g : Group (Ext K)}
    (h : HasChiefs label ps g) {p H : K} (hp : 0 < p) (hH : 150 * p ≤ H) :
    (∃ fuel, (g.fieldOfView (fin p) (fin H) fuel).run (newTrace g) ≠ .error .nonTermination) ↔
      ∀ y θ, IsChief g y θ → |y| ≤ 75 / 2 * p → ¬ Blocked (Part.group label ps).stages (y, θ) := by
  constructor
  · rintro ⟨fuel, hfuel⟩ y θ hc hy hbl
    apply hfuel
    rcases h.edge with he | ⟨Y, hY, he⟩
    · exact absurd hbl (he y θ hc)
    · have hYy := (he y θ hc).1 hbl
      obtain ⟨κ, -, -, h1, -⟩ := h.facts
      -- a height between `Y` and `|y|`
      have hm : Y < (Y + |y|) / 2 := by linarith
      have hm2 : (Y + |y|) / 2 < 75 / 2 * p := by linarith
      refine (C33_diverges_violated h hp hH ⟨(Y + |y|) / 2, _, h1 _, ?_, ?_⟩ fuel).2.2
      · rwa [abs_of_nonneg (by linarith)]
      · rw [he _ _ (h1 _), abs_of_nonneg (by linarith)]; exact hm
  · intro hbig
    obtain ⟨N, hN⟩ := C33_terminates_partial (H := H) h hp hbig
    exact ⟨N, (hN N le_rfl).2.2⟩

end RT
