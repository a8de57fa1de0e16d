import Verif.Spec.Drawn
import Verif.Props.Images
import Verif.Props.Lines
import Verif.Props.Display

/-! # Rays traced both ways from an object -/

set_option linter.unusedSectionVars false

namespace RT
open PyNum Ext
variable {K : Type} [Field K] [LinearOrder K] [IsStrictOrderedRing K]

/-! ## The points of a trace -/

theorem zBefore_cons (s : Stage K) (ss : List (Stage K)) (i : Nat) : zBefore (s :: ss) (i + 1) = s.len + zBefore ss i := by
  simp [zBefore]

theorem rayBefore_cons (s : Stage K) (ss : List (Stage K)) (i : Nat) (r : K × K) :
    rayBefore (s :: ss) (i + 1) r = rayBefore ss i (s.out r) := by simp [rayBefore]

theorem shown_zero {ss : List (Stage K)} {r : K × K} :
    ShownAt ss 0 r ↔ ∀ s ∈ ss.head?, 0 < s.len → ¬ ∃ D, s.diam = some D ∧ D / 2 < |r.1| := by
  cases ss <;> simp [ShownAt, rayBefore]

theorem shown_succ {s : Stage K} {ss : List (Stage K)} {i : Nat} {r : K × K} :
    ShownAt (s :: ss) (i + 1) r ↔ ¬ s.Stops r ∧ ShownAt ss i (s.out r) := by
  unfold ShownAt
  constructor
  · rintro ⟨h1, h2, h3⟩
    refine ⟨h2 0 (by omega) s rfl, by simpa using h1, ?_, ?_⟩
    · intro j hj t ht
      have := h2 (j + 1) (by omega) t (by simpa using ht)
      rwa [rayBefore_cons] at this
    · intro t ht
      have := h3 t (by simpa using ht)
      rwa [rayBefore_cons] at this
  · rintro ⟨h1, h2, h3, h4⟩
    refine ⟨by simpa using h2, ?_, ?_⟩
    · intro j hj t ht
      cases j with
      | zero =>
        simp only [List.getElem?_cons_zero, Option.some.injEq] at ht
        subst ht; exact h1
      | succ j =>
        rw [rayBefore_cons]
        exact h3 j (by omega) t (by simpa using ht)
    · intro t ht
      rw [rayBefore_cons]
      exact h4 t (by simpa using ht)

theorem stopsEntry_iff {m : Mat (Ext K)} {st : Stage K} (h : StageOf m st) {r : Ray (Ext K)} {y θ z : K} (hr : FinRay r y θ z) :
    m.stopsEntry r = true ↔ 0 < st.len ∧ ∃ D, st.diam = some D ∧ D / 2 < |y| := by
  unfold Mat.stopsEntry
  rw [Bool.and_eq_true, h.L, h.diam, hr.y, abs_fin, half_optInf, optInf_lt, zero_eq, lt_fin, decide_eq_true_eq]
  cases st.diam <;> simp

theorem entryStops_iff {is : List (Item (Ext K))} {ss : List (Stage K)} (h : ItemStages is ss) {r : Ray (Ext K)} {y θ z : K}
    (hr : FinRay r y θ z) : entryStops is r = false ↔ ShownAt ss 0 (y, θ) := by
  rw [shown_zero]
  induction is with
  | nil => cases h; simp [entryStops]
  | cons i is ih =>
    cases i with
    | dup => exact ih h
    | leaf m =>
      cases h with
      | cons h1 h2 =>
        simp only [entryStops, List.head?_cons, Option.mem_some_iff, forall_eq']
        rw [← Bool.not_eq_true, stopsEntry_iff h1 hr]
        exact not_and

theorem shown_first {ss : List (Stage K)} {i : Nat} {r : K × K} (h : ShownAt ss i r) : ShownAt ss 0 r := by
  cases i with
  | zero => exact h
  | succ i =>
    rw [shown_zero]
    intro s hs _ hD
    exact h.2.1 0 (by omega) s (by cases ss <;> simp_all) (.inl (by simpa [rayBefore] using hD))

theorem not_blocked_shown {ss : List (Stage K)} {r : K × K} (h : ¬ Blocked ss r) : ShownAt ss 0 r := by
  rw [shown_zero]
  intro s hs _ hD
  cases ss with
  | nil => simp at hs
  | cons t ss =>
    simp only [List.head?_cons, Option.mem_some_iff] at hs
    subst hs
    exact h (.inl (.inl hD))

/-- the place of a ray of a trace -/
def finPoint (p : K × K) : Ext K × Ext K := (fin p.1, fin p.2)

/-- The rays of a trace that are not blocked, and whether there is one that is. -/
theorem trace_points {is : List (Item (Ext K))} {ss : List (Stage K)} (h : ItemStages is ss) {r : Ray (Ext K)} {y θ z : K}
    (hr : FinRay r y θ z) (hb : r.isBlocked = false) (hset : entryStops is r = false) :
    (∃ idx : List Nat, idx.Pairwise (· ≤ ·) ∧ (∀ i, i ∈ idx ↔ ShownAt ss i (y, θ)) ∧
      ((r :: runTrace is r).filter fun q => !q.isBlocked).map (fun q => (q.z, q.y)) =
        idx.map fun i => finPoint (z + zBefore ss i, (rayBefore ss i (y, θ)).1)) ∧
    ((∃ q ∈ runTrace is r, q.isBlocked = true) ↔ Blocked ss (y, θ)) := by
  induction is generalizing ss r y θ z with
  | nil =>
    cases h
    refine ⟨⟨[0], by simp, ?_, ?_⟩, by simp [runTrace, Blocked]⟩
    · intro i
      simp only [List.mem_singleton]
      constructor
      · rintro rfl; simp [ShownAt]
      · intro h; simpa using h.1
    · simp [runTrace, hb, finPoint, zBefore, rayBefore, hr.y, hr.z]
  | cons i is ih =>
    cases i with
    | dup =>
      obtain ⟨⟨idx, i1, i2, i3⟩, i4⟩ := ih h hr hb hset
      refine ⟨⟨0 :: idx, by simpa using i1, ?_, ?_⟩, ?_⟩
      · intro j
        rw [List.mem_cons, i2]
        constructor
        · rintro (rfl | h')
          · exact (entryStops_iff h hr).1 hset
          · exact h'
        · exact .inr
      · simp only [runTrace] at i3 ⊢
        rw [List.filter_cons_of_pos (by simp [hb]), List.map_cons, i3, List.map_cons]
        simp [finPoint, zBefore, rayBefore, hr.y, hr.z]
      · rw [← i4]
        simp [runTrace, hb]
    | leaf m =>
      have h0 := (entryStops_iff h hr).1 hset
      cases h with
      | @cons _ st _ ss h1 h2 =>
        obtain ⟨o1, o2, -⟩ := h1.out hr hb
        have o3 := o1.settle is
        have hpt : finPoint (z + zBefore (st :: ss) 0, (rayBefore (st :: ss) 0 (y, θ)).1) = (r.z, r.y) := by
          simp [finPoint, zBefore, rayBefore, hr.y, hr.z]
        have hpre : ∃ pre : List Nat, pre.length = (if 0 <. m.L then [r] else []).length ∧ (∀ i ∈ pre, i = 0) := by
          refine ⟨List.replicate _ 0, List.length_replicate, fun i hi => List.eq_of_mem_replicate hi⟩
        obtain ⟨pre, p1, p2⟩ := hpre
        have p3 : ((if 0 <. m.L then [r] else []).filter fun q => !q.isBlocked).map (fun q => (q.z, q.y)) =
            pre.map fun i => finPoint (z + zBefore (st :: ss) i, (rayBefore (st :: ss) i (y, θ)).1) := by
          split_ifs at p1 ⊢
          · obtain ⟨a, rfl⟩ := List.length_eq_one_iff.1 p1
            rw [p2 a (by simp), List.map_singleton, hpt]
            simp [hb]
          · obtain rfl := List.length_eq_zero_iff.1 p1
            rfl
        have p4 : ∀ q ∈ (if 0 <. m.L then [r] else []), q.isBlocked = false := by
          intro q hq
          split_ifs at hq
          · simp only [List.mem_singleton] at hq; rw [hq]; exact hb
          · simp at hq
        simp only [runTrace, hb, Bool.false_eq_true, if_false]
        set r1 := settle is (m.mulRayBase r) with hr1
        by_cases hb1 : r1.isBlocked = true
        · have hall := runTrace_blocked is hb1
          have hbl : Blocked (st :: ss) (y, θ) := by
            rw [hr1] at hb1
            simp only [settle, Bool.or_eq_true, o2] at hb1
            rcases hb1 with hb1 | hb1
            · exact .inl hb1
            · exact .inr (entryStops_stage h2 o1 hb1)
          have hno : ∀ i, ¬ ShownAt (st :: ss) (i + 1) (y, θ) := by
            intro i hi
            rw [shown_succ] at hi
            rw [hr1] at hb1
            simp only [settle, Bool.or_eq_true, o2] at hb1
            rcases hb1 with hb1 | hb1
            · exact hi.1 hb1
            · have := (entryStops_iff h2 o1).2 (shown_first hi.2)
              rw [this] at hb1; simp at hb1
          refine ⟨⟨0 :: pre, ?_, ?_, ?_⟩, ?_⟩
          · refine List.pairwise_cons.2 ⟨fun _ _ => Nat.zero_le _, ?_⟩
            refine List.pairwise_of_forall_mem_list fun a ha b hb => ?_
            rw [p2 a ha]; exact Nat.zero_le _
          · intro j
            rw [List.mem_cons]
            constructor
            · rintro (rfl | hj)
              · exact h0
              · rw [p2 j hj]; exact h0
            · intro hj
              cases j with
              | zero => exact .inl rfl
              | succ j => exact absurd hj (hno j)
          · have hnil : (r1 :: runTrace is r1).filter (fun q => !q.isBlocked) = [] := by
              rw [List.filter_eq_nil_iff]
              intro q hq
              rcases List.mem_cons.1 hq with rfl | hq
              · simp [hb1]
              · rw [hall q hq]; simp [hb1]
            rw [List.filter_cons_of_pos (by simp [hb]), List.filter_append, hnil, List.append_nil, List.map_cons, p3,
              List.map_cons, hpt]
          · exact ⟨fun _ => hbl, fun _ => ⟨r1, by simp, hb1⟩⟩
        · rw [Bool.not_eq_true] at hb1
          have hnb := hb1
          rw [hr1] at hnb
          simp only [settle, Bool.or_eq_false_iff] at hnb
          have hns : ¬ st.Stops (y, θ) := by rw [← o2]; simp [hnb.1]
          have hset1 : entryStops is r1 = false := by
            rw [entryStops_congr is (r := r1) (s := m.mulRayBase r) rfl]; exact hnb.2
          obtain ⟨⟨idx, i1, i2, i3⟩, i4⟩ := ih h2 o3 hb1 hset1
          refine ⟨⟨0 :: pre ++ idx.map (· + 1), ?_, ?_, ?_⟩, ?_⟩
          · rw [List.cons_append]
            refine List.pairwise_cons.2 ⟨fun _ _ => Nat.zero_le _, ?_⟩
            refine List.pairwise_append.2 ⟨?_, ?_, ?_⟩
            · refine List.pairwise_of_forall_mem_list fun a ha b hb => ?_
              rw [p2 a ha]; exact Nat.zero_le _
            · rw [List.pairwise_map]
              exact i1.imp fun h => by omega
            · intro a ha b _
              rw [p2 a ha]; exact Nat.zero_le _
          · intro j
            rw [List.cons_append, List.mem_cons, List.mem_append, List.mem_map]
            constructor
            · rintro (rfl | hj | ⟨k, hk, rfl⟩)
              · exact h0
              · rw [p2 j hj]; exact h0
              · exact shown_succ.2 ⟨hns, (i2 k).1 hk⟩
            · intro hj
              cases j with
              | zero => exact .inl rfl
              | succ j => exact .inr (.inr ⟨j, (i2 j).2 (shown_succ.1 hj).2, rfl⟩)
          · rw [List.filter_cons_of_pos (by simp [hb]), List.filter_append, List.map_cons, List.map_append, p3, i3,
              List.cons_append, List.map_cons, hpt, List.map_append, List.map_map]
            congr 2
            refine List.map_congr_left fun j _ => ?_
            simp only [Function.comp_apply, zBefore_cons, rayBefore_cons, add_assoc]
          · simp only [Blocked, hns, false_or]
            rw [← i4]
            constructor
            · rintro ⟨q, hq, hqb⟩
              rcases List.mem_append.1 hq with hq | hq
              · rw [p4 q hq] at hqb; simp at hqb
              · rcases List.mem_cons.1 hq with rfl | hq
                · rw [hb1] at hqb; simp at hqb
                · exact ⟨q, hq, hqb⟩
            · rintro ⟨q, hq, hqb⟩
              exact ⟨q, by simp [hq], hqb⟩

/-- What is plotted of the trace of a new ray, its positions being changed by `φ`. -/
theorem plotted_drawn {is : List (Item (Ext K))} {ss : List (Stage K)} (h : ItemStages is ss) {r : Ray (Ext K)} {y θ : K}
    (hr : FinRay r y θ 0) (hb : r.isBlocked = false) (rb : Bool) {dir : K} (x : K) {f : Ray (Ext K) → Ray (Ext K)} {φ : Ext K → Ext K}
    (hf : ∀ q, (f q).isBlocked = q.isBlocked ∧ (f q).y = q.y ∧ (f q).z = φ q.z)
    (hφ : ∀ i, φ (fin (zBefore ss i)) = fin (dir * zBefore ss i)) :
    ∃ pts : List (K × K), Drawn ss rb dir x (y, θ) pts ∧
      (plotted rb ((traceV (.dup :: is) r).map f)).1.map (· + fin x) = pts.map (fun p => fin p.1) ∧
      (plotted rb ((traceV (.dup :: is) r).map f)).2 = pts.map (fun p => fin p.2) := by
  set t := (traceV (.dup :: is) r).map f with ht
  have hpf : (t.filter fun q => !q.isBlocked) = ((traceV (.dup :: is) r).filter fun q => !q.isBlocked).map f := by
    rw [ht, List.filter_map]
    congr 1
    refine List.filter_congr fun q _ => ?_
    simp [(hf q).1]
  by_cases hset : entryStops is r = true
  · have hsb : (settle (.dup :: is) r).isBlocked = true := by simp [settle, entryStops, hset]
    have hall := runTrace_blocked (.dup :: is) hsb
    have hno : ∀ i, ¬ ShownAt ss i (y, θ) := by
      intro i hi
      have := (entryStops_iff h hr).2 (shown_first hi)
      rw [this] at hset; simp at hset
    have hnil : (t.filter fun q => !q.isBlocked) = [] := by
      rw [hpf, List.map_eq_nil_iff, List.filter_eq_nil_iff]
      intro q hq
      rw [hall q hq]; simp [hsb]
    refine ⟨[], ⟨[], .nil, fun i => ?_, rfl⟩, ?_⟩
    · simp [hno i]
    · have hpl : plotted rb t = ([], []) := by
        cases rb
        · simp only [plotted, rearrangeForPlotting, plotLoop_false, hnil]; rfl
        · simp only [plotted, rearrangeForPlotting, plotLoop_true]
          rw [if_pos]
          rw [List.any_eq_true]
          refine ⟨f (settle (.dup :: is) r), ?_, by rw [(hf _).1]; exact hsb⟩
          rw [ht]
          exact List.mem_map_of_mem (by simp [traceV, runTrace])
      rw [hpl]; simp
  · rw [Bool.not_eq_true] at hset
    have hse : settle (.dup :: is) r = r := by
      have : entryStops (.dup :: is) r = false := hset
      simp [settle, this]
    have htv : traceV (.dup :: is) r = r :: runTrace is r := by
      unfold traceV; rw [hse]; rfl
    obtain ⟨⟨idx, i1, i2, i3⟩, i4⟩ := trace_points h hr hb hset
    rw [htv] at hpf ht
    have i5 : (t.filter fun q => !q.isBlocked).map (fun q => (q.z, q.y)) =
        idx.map fun i => finPoint (dir * zBefore ss i, (rayBefore ss i (y, θ)).1) := by
      rw [hpf, List.map_map]
      have e1 : ((fun q : Ray (Ext K) => (q.z, q.y)) ∘ f) = (fun p : Ext K × Ext K => (φ p.1, p.2)) ∘ fun q => (q.z, q.y) := by
        funext q
        simp only [Function.comp_apply]
        rw [(hf q).2.1, (hf q).2.2]
      rw [e1, ← List.map_map, i3, List.map_map]
      refine List.map_congr_left fun i _ => ?_
      simp only [Function.comp_apply, finPoint, zero_add, hφ]
    have i6 : (∃ q ∈ t, q.isBlocked = true) ↔ Blocked ss (y, θ) := by
      rw [← i4, ht]
      constructor
      · rintro ⟨q, hq, hqb⟩
        obtain ⟨q', hq', rfl⟩ := List.mem_map.1 hq
        rw [(hf q').1] at hqb
        rcases List.mem_cons.1 hq' with rfl | hq'
        · rw [hb] at hqb; simp at hqb
        · exact ⟨q', hq', hqb⟩
      · rintro ⟨q, hq, hqb⟩
        exact ⟨f q, List.mem_map_of_mem (List.mem_cons_of_mem _ hq), by rw [(hf q).1]; exact hqb⟩
    have hz : (t.filter fun q => !q.isBlocked).map Ray.z = idx.map fun i => fin (dir * zBefore ss i) := by
      have := congrArg (List.map Prod.fst) i5
      simpa [List.map_map, Function.comp_def, finPoint] using this
    have hy : (t.filter fun q => !q.isBlocked).map Ray.y = idx.map fun i => fin (rayBefore ss i (y, θ)).1 := by
      have := congrArg (List.map Prod.snd) i5
      simpa [List.map_map, Function.comp_def, finPoint] using this
    have hpts : (plotted rb t).1 = (t.filter fun q => !q.isBlocked).map Ray.z ∧
        (plotted rb t).2 = (t.filter fun q => !q.isBlocked).map Ray.y ∨ rb = true ∧ Blocked ss (y, θ) := by
      cases rb
      · simp [plotted, rearrangeForPlotting, plotLoop_false]
      · by_cases hbl : Blocked ss (y, θ)
        · exact .inr ⟨rfl, hbl⟩
        · left
          have hnb : ∀ q ∈ t, q.isBlocked = false := by
            intro q hq
            by_contra hc
            rw [Bool.not_eq_false] at hc
            exact hbl (i6.1 ⟨q, hq, hc⟩)
          have e1 : (t.filter fun q => !q.isBlocked) = t := List.filter_eq_self.2 fun q hq => by simp [hnb q hq]
          rw [e1]
          simp only [plotted, rearrangeForPlotting, plotLoop_true]
          rw [if_neg (by
            rw [List.any_eq_true]
            rintro ⟨q, hq, hqb⟩
            rw [hnb q hq] at hqb; simp at hqb)]
          simp
    by_cases hc : rb = true ∧ Blocked ss (y, θ)
    · refine ⟨[], ⟨[], .nil, fun i => by simp [hc.1, hc.2], rfl⟩, ?_⟩
      have : plotted rb t = ([], []) := by
        rw [hc.1]
        simp only [plotted, rearrangeForPlotting, plotLoop_true]
        rw [if_pos]
        rw [List.any_eq_true]
        exact i6.2 hc.2
      rw [this]; simp
    · obtain ⟨h1, h2⟩ := hpts.resolve_right hc
      refine ⟨_, ⟨idx, i1, fun i => ?_, rfl⟩, ?_, ?_⟩
      · rw [i2]
        constructor
        · intro hi
          exact ⟨hi, fun hrb hbl => hc ⟨hrb, hbl⟩⟩
        · exact And.left
      · rw [h1, hz, List.map_map, List.map_map]
        refine List.map_congr_left fun i _ => ?_
        simp [add_comm]
      · rw [h2, hy, List.map_map]
        rfl

/-! ## The objects -/

theorem many_step_addr {F : Type} [PyNum F] {is : List (Item F)} {all : List Nat} {h0 h : Heap F} {e : Elem F}
    (hI : ManyInv is all h0 h e) {a : Nat} (haa : a ∈ all) (ha : a < h0.length) :
    ∀ c ∈ (e.traceH a h).1, c ∈ all ∨ h0.length ≤ c := by
  have hfl := hI.flat
  have ha' : a < h.length := ha.trans_le hI.len
  have key : ∀ js : List (Item F), ∀ c ∈ (runH js a h).1, c ∈ all ∨ h0.length ≤ c := by
    intro js c hc
    rcases (runH_frame js ha').2.2.1 c hc with rfl | h1
    · exact .inl haa
    · exact .inr (hI.len.trans h1.1)
  cases e with
  | leaf m =>
    obtain ⟨e1, -⟩ := Elem.traceH_eq (.leaf m) trivial a h
    rw [e1]; exact key _
  | group m c es =>
    unfold Elem.traceH
    cases hhit : cacheHit c a h with
    | some t =>
      dsimp only
      unfold cacheHit at hhit
      cases c with
      | none => simp at hhit
      | some lt =>
        obtain ⟨last, t'⟩ := lt
        dsimp only at hhit
        split_ifs at hhit with hq
        simp only [Option.some.injEq] at hhit
        subst hhit
        obtain ⟨c1, -, -, c4, -⟩ := hI.cache last t' rfl
        intro c hc
        rcases c4 c hc with rfl | h1
        · exact .inl c1
        · exact .inr h1.1
    | none =>
      dsimp only
      obtain ⟨e1, -⟩ := traceListH_eq es (flat_noCacheList hfl) a h
      rw [e1]
      intro c hc
      rcases List.mem_cons.1 hc with rfl | hc
      · exact .inl haa
      · exact key _ c hc

theorem many_addr {F : Type} [PyNum F] {is : List (Item F)} {all : List Nat} {h0 : Heap F}
    (hcomp : ∀ a ∈ all, ∀ b ∈ all, (h0.get a).eq (h0.get b) = true → h0.get a = h0.get b)
    (hall : ∀ a ∈ all, a < h0.length) (as : List Nat) (has : as ⊆ all) {h : Heap F} {e : Elem F}
    (hI : ManyInv is all h0 h e) :
    h.length ≤ (e.traceManyH as h).2.1.length ∧
    ∀ t ∈ (e.traceManyH as h).1, ∀ c ∈ t, c < (e.traceManyH as h).2.1.length ∧ (c ∈ all ∨ h0.length ≤ c) := by
  induction as generalizing h e with
  | nil => exact ⟨le_refl _, by simp [Elem.traceManyH]⟩
  | cons a as ih =>
    have haa : a ∈ all := has (by simp)
    obtain ⟨s1, s2, s2', s3, s4, s5, s6⟩ := many_step hI hcomp haa (hall a haa)
    have s7 := many_step_addr hI haa (hall a haa)
    obtain ⟨i1, i2⟩ := ih (fun x hx => has (List.mem_cons_of_mem _ hx)) s1
    unfold Elem.traceManyH
    dsimp only
    refine ⟨s2'.trans i1, ?_⟩
    intro t ht c hc
    rcases List.mem_cons.1 ht with rfl | ht
    · exact ⟨(s4 c hc).1.trans_le i1, s7 c hc⟩
    · exact i2 t ht c hc

theorem backwards_backwards (r : Ray (Ext K)) : r.backwards.backwards = r.backwards := by
  unfold Ray.backwards
  congr 1
  dsimp only
  cases r.z <;> simp [abs_nonneg]

theorem turnBack_get (as : List Nat) (h : Heap (Ext K)) :
    (h.turnBack as).length = h.length ∧
    ∀ c, c < h.length → (h.turnBack as).get c = if c ∈ as then (h.get c).backwards else h.get c := by
  induction as generalizing h with
  | nil => exact ⟨rfl, fun c _ => by simp [Heap.turnBack]⟩
  | cons a as ih =>
    obtain ⟨i1, i2⟩ := ih (h.set a (h.get a).backwards)
    have e : h.turnBack (a :: as) = Heap.turnBack (h.set a (h.get a).backwards) as := rfl
    rw [e]
    refine ⟨by rw [i1]; simp, ?_⟩
    intro c hc
    rw [i2 c (by simpa using hc)]
    by_cases hca : c = a
    · subst hca
      rw [Heap.get_set_eq _ _ hc]
      split_ifs <;> simp_all [backwards_backwards]
    · rw [Heap.get_set_ne _ _ hca]
      simp [hca]

theorem new_cache {F : Type} [PyNum F] {es : List (Elem F)} {label : String} {g : Group F}
    (h : Group.new es label = .ok g) : g.cache = none := by
  have key : ∀ (es : List (Elem F)) (g g' : Group F), g.appendAll es = (g', .ok ()) → g'.cache = g.cache := by
    intro es
    induction es with
    | nil => intro g g' h; simp only [Group.appendAll, Prod.mk.injEq, and_true] at h; rw [h]
    | cons e es ih =>
      intro g g' h
      obtain ⟨g1, h1, h2⟩ := Group.appendAll_cons_ok h
      rw [ih g1 g' h2]
      rcases g.append_cases e with ⟨h', -⟩ | ⟨e', h', -⟩
      · rw [h'] at h1; simp at h1
      · rw [h'] at h1
        have : (g.push e').1.cache = g.cache := by unfold Group.push; dsimp only; split <;> rfl
        rw [h1] at this; exact this
  rw [key es _ g (Group.new_eq h)]; rfl

theorem subPath_cache {F : Type} [PyNum F] {g s : Group F} {z : F} {bw : Bool} (h : g.subPath z bw = .ok s) : s.cache = none := by
  unfold Group.subPath at h
  split at h
  · simp at h
  · exact new_cache h

/-- Elements without group, which have stages, are ready for a session of traces. -/
theorem flat_of_stages {g : Group (Ext K)} (hl : ∀ e ∈ g.elems, ∃ m, e = .leaf m) {ss : List (Stage K)}
    (hs : ItemStages (itemsList g.elems) ss) : g.toElem.Flat := by
  intro e he
  obtain ⟨m, rfl⟩ := hl e he
  refine ⟨m, rfl, ?_⟩
  have hm : m ∈ leaves (itemsList g.elems) := by
    have : ∀ is : List (Item (Ext K)), Item.leaf m ∈ is → m ∈ leaves is := by
      intro is
      induction is with
      | nil => simp
      | cons i is ih =>
        cases i with
        | dup => intro h; simp only [List.mem_cons, reduceCtorEq, false_or] at h; exact ih h
        | leaf m' =>
          intro h
          simp only [List.mem_cons, Item.leaf.injEq] at h
          rcases h with rfl | h
          · simp [leaves]
          · simp [leaves, ih h]
    exact this _ (itemsList_mem.2 ⟨_, he, by simp [Elem.items]⟩)
  unfold ItemStages at hs
  obtain ⟨i, hi, hi'⟩ := List.getElem_of_mem hm
  have := hs.get (i := i) hi (by rw [← hs.length_eq]; exact hi)
  rw [List.get_eq_getElem, hi'] at this
  exact this.linear

/-- Nothing is stopped at the entrance of a free space. -/
theorem settle_gap {is : List (Item (Ext K))} {d : K} {ss : List (Stage K)} (h : ItemStages is (gapStage d :: ss))
    (r : Ray (Ext K)) : settle is r = r := by
  have key : entryStops is r = false := by
    induction is with
    | nil => rfl
    | cons i is ih =>
      cases i with
      | dup => exact ih h
      | leaf m =>
        cases h with
        | cons h1 h2 =>
          have hd : m.apertureDiameter = pinf := h1.diam
          have hh : half (pinf : Ext K) = pinf := half_optInf none
          simp only [entryStops, Mat.stopsEntry, hd, hh]
          cases r.y <;> simp
  simp [settle, key]

/-- a new ray -/
def newRay (r : K × K) : Ray (Ext K) := Ray.new (fin r.1) (fin r.2)

theorem newRay_fin (r : K × K) : FinRay (newRay r) r.1 r.2 0 :=
  ⟨rfl, rfl, by simp [newRay, Ray.new]⟩

theorem newRay_eq {r s : K × K} (h : (newRay r).eq (newRay s) = true) : newRay r = newRay s := by
  unfold Ray.eq newRay Ray.new at h
  simp only [eq_fin] at h
  have h1 : r.1 = s.1 := by
    by_contra hc
    simp [hc] at h
  have h2 : r.2 = s.2 := by
    by_contra hc
    simp [h1, hc] at h
  unfold newRay
  rw [h1, h2]

/-- The traces in one path in which nothing is cached. -/
theorem traceMany_new {g : Group (Ext K)} (hl : ∀ e ∈ g.elems, ∃ m, e = .leaf m) (hc : g.cache = none) {ss : List (Stage K)}
    (hs : ItemStages (itemsList g.elems) ss) {rays : List (K × K)} {as : List Nat} {h : Heap (Ext K)} (has : ∀ a ∈ as, a < h.length)
    (hrays : as.map h.get = rays.map newRay) :
    let T := g.toElem.traceManyH as h
    T.1.map T.2.1.deref = rays.map (fun r => traceV g.toElem.items (newRay r)) ∧
    (∀ t ∈ T.1, ∀ c ∈ t, c < T.2.1.length ∧ (c ∈ as ∨ h.length ≤ c)) ∧ h.length ≤ T.2.1.length ∧
    ∀ c, c < h.length → T.2.1.get c = h.get c ∨ T.2.1.get c = settle g.toElem.items (h.get c) := by
  intro T
  have hflat := flat_of_stages hl hs
  have hnc : g.toElem.NoCache := ⟨hc, flat_noCacheList hflat⟩
  have hnew : ∀ a ∈ as, ∃ r, h.get a = newRay r := by
    intro a ha
    have : h.get a ∈ rays.map newRay := by rw [← hrays]; exact List.mem_map_of_mem ha
    obtain ⟨r, -, hr⟩ := List.mem_map.1 this
    exact ⟨r, hr.symm⟩
  have hcomp : ∀ a ∈ as, ∀ b ∈ as, (h.get a).eq (h.get b) = true → h.get a = h.get b := by
    intro a ha b hb he
    obtain ⟨r, hr⟩ := hnew a ha
    obtain ⟨s, hs⟩ := hnew b hb
    rw [hr, hs] at he ⊢
    exact newRay_eq he
  have hI := many_start hflat hnc as h
  obtain ⟨m1, -, -, m4⟩ := many_traces hcomp has as (List.Subset.refl _) hI
  obtain ⟨n1, n2⟩ := many_addr hcomp has as (List.Subset.refl _) hI
  refine ⟨?_, n2, n1, m1.old⟩
  rw [m4]
  have : (as.map fun a => traceV g.toElem.items (h.get a)) = (as.map h.get).map (traceV g.toElem.items) := by
    rw [List.map_map]; rfl
  rw [this, hrays, List.map_map]; rfl

theorem backwards_newRay (r : K × K) : (newRay r).backwards = newRay r := by
  simp [newRay, Ray.backwards, Ray.new]

/-- The traces both ways. -/
theorem rayTraces_spec {g sf sb : Group (Ext K)} {x : K} (hx : x ≠ 0) (hf : g.subPath (fin x) = .ok sf)
    (hb : g.subPath (fin x) true = .ok sb) (lf : ∀ e ∈ sf.elems, ∃ m, e = .leaf m) (lb : ∀ e ∈ sb.elems, ∃ m, e = .leaf m)
    {df db : K} {ssf ssb : List (Stage K)} (stf : ItemStages (itemsList sf.elems) (gapStage df :: ssf))
    (stb : ItemStages (itemsList sb.elems) (gapStage db :: ssb)) {rays : List (K × K)} {as : List Nat} {h : Heap (Ext K)}
    (has : ∀ a ∈ as, a < h.length) (hrays : as.map h.get = rays.map newRay) :
    ∃ ts h', g.rayTraces (fin x) as h = .ok (ts, h') ∧ ts.map h'.deref =
      rays.map (fun r => (traceV sf.toElem.items (newRay r)).map id) ++
        rays.map (fun r => (traceV sb.toElem.items (newRay r)).map Ray.backwards) := by
  obtain ⟨f1, f2, f3, f4⟩ := traceMany_new lf (subPath_cache hf) stf has hrays
  set Tf := sf.toElem.traceManyH as h with hTf
  have f5 : ∀ c, c < h.length → Tf.2.1.get c = h.get c := by
    intro c hc
    rcases f4 c hc with h1 | h1
    · exact h1
    · rw [h1]; exact settle_gap (is := sf.toElem.items) stf _
  have hrays1 : as.map Tf.2.1.get = rays.map newRay := by
    rw [← hrays]
    exact List.map_congr_left fun a ha => f5 a (has a ha)
  obtain ⟨b1, b2, b3, b4⟩ := traceMany_new lb (subPath_cache hb) stb (fun a ha => (has a ha).trans_le f3) hrays1
  set Tb := sb.toElem.traceManyH as Tf.2.1 with hTb
  have b5 : ∀ c, c < Tf.2.1.length → Tb.2.1.get c = Tf.2.1.get c := by
    intro c hc
    rcases b4 c hc with h1 | h1
    · exact h1
    · rw [h1]; exact settle_gap (is := sb.toElem.items) stb _
  obtain ⟨t1, t2⟩ := turnBack_get Tb.1.flatten Tb.2.1
  have hx' : ((fin x : Ext K) !=. 0) = true := by simp [hx]
  refine ⟨Tf.1 ++ Tb.1, Tb.2.1.turnBack Tb.1.flatten, ?_, ?_⟩
  · unfold Group.rayTraces
    rw [hx', if_pos rfl, hf]
    dsimp only
    rw [hb]
  · rw [List.map_append]
    congr 1
    · have e1 : Tf.1.map (Tb.2.1.turnBack Tb.1.flatten).deref = Tf.1.map Tf.2.1.deref := by
        refine List.map_congr_left fun t ht => ?_
        unfold Heap.deref
        refine List.map_congr_left fun c hc => ?_
        obtain ⟨c1, c2⟩ := f2 t ht c hc
        rw [t2 c (c1.trans_le b3), b5 c c1]
        split_ifs with hm
        · obtain ⟨t', ht', hct'⟩ := List.mem_flatten.1 hm
          have hca : c ∈ as := by
            rcases (b2 t' ht' c hct').2 with h1 | h1
            · exact h1
            · omega
          have : Tf.2.1.get c ∈ rays.map newRay := by rw [← hrays1]; exact List.mem_map_of_mem hca
          obtain ⟨r, -, hr⟩ := List.mem_map.1 this
          rw [← hr, backwards_newRay]
        · rfl
      rw [e1, f1]
      simp
    · have e1 : Tb.1.map (Tb.2.1.turnBack Tb.1.flatten).deref = (Tb.1.map Tb.2.1.deref).map (List.map Ray.backwards) := by
        rw [List.map_map]
        refine List.map_congr_left fun t ht => ?_
        simp only [Heap.deref, Function.comp_apply, List.map_map]
        refine List.map_congr_left fun c hc => ?_
        rw [t2 c (b2 t ht c hc).1, if_pos (List.mem_flatten.2 ⟨t, ht, hc⟩)]
        rfl
      rw [e1, b1, List.map_map]
      rfl

/-- The lines: one for each trace with something to show. -/
theorem rayLines_points {C : Type} {round : Ext K → Int} (hr : Nearest round) (rb : Bool) {colors : List C} (hc : 2 ≤ colors.length)
    {dz : K} {ts : List (List (Ray (Ext K)))} {pts : List (List (K × K))}
    (hp : List.Forall₂ (fun t p => (plotted rb t).1.map (· + fin dz) = p.map (fun p => fin p.1) ∧
      (plotted rb t).2 = p.map (fun p => fin p.2)) ts pts) :
    ∃ ls, rayLines round rb colors (fin dz) ts = .ok ls ∧ List.Forall₂ (fun p l => l.x = p.map (fun p => fin p.1) ∧
      l.y = p.map (fun p => fin p.2)) (pts.filter fun p => !p.isEmpty) (ls : List (RayLine (Ext K) C)) := by
  have hfirst : FirstFinite rb ts := by
    intro t ht y0 hy
    obtain ⟨i, hi, rfl⟩ := List.getElem_of_mem ht
    have := hp.get hi (by rw [← hp.length_eq]; exact hi)
    simp only [List.get_eq_getElem] at this
    rw [this.2] at hy
    simp only [List.head?_map, Option.mem_def, Option.map_eq_some_iff] at hy
    obtain ⟨p, -, rfl⟩ := hy
    exact ⟨_, rfl⟩
  have key : ∀ {R : List (Ray (Ext K)) → RayLine (Ext K) C → Prop} {ls : List (RayLine (Ext K) C)}
      (_ : ∀ t l, R t l → l.x = (plotted rb t).1.map (· + fin dz) ∧ l.y = (plotted rb t).2)
      (_ : List.Forall₂ R (ts.filter fun t => !(plotted rb t).2.isEmpty) ls),
      List.Forall₂ (fun p l => l.x = p.map (fun p => fin p.1) ∧ l.y = p.map (fun p => fin p.2))
        (pts.filter fun p => !p.isEmpty) ls := by
    intro R ls hR hls
    clear hfirst
    induction hp generalizing ls with
    | nil => simp only [List.filter_nil] at hls ⊢; cases hls; exact .nil
    | @cons t p ts pts h1 h2 ih =>
      have he : (plotted rb t).2.isEmpty = p.isEmpty := by rw [h1.2]; cases p <;> rfl
      cases hpe : p.isEmpty with
      | true =>
        rw [List.filter_cons_of_neg (by simp [he, hpe])] at hls
        rw [List.filter_cons_of_neg (by simp [hpe])]
        exact ih hls
      | false =>
        rw [List.filter_cons_of_pos (by simp [he, hpe])] at hls
        rw [List.filter_cons_of_pos (by simp [hpe])]
        cases hls with
        | cons g1 g2 =>
          obtain ⟨r1, r2⟩ := hR _ _ g1
          exact .cons ⟨by rw [r1, h1.1], by rw [r2, h1.2]⟩ (ih g2)
  by_cases hoff : ∃ y, StartsAt rb ts y ∧ y ≠ 0
  · obtain ⟨M, ls, h1, -, -, h2⟩ := C73_lines hr rb (colors := colors) (by rintro rfl; simp at hc) (fin dz) hfirst hoff
    exact ⟨ls, h1, key (fun t l h => ⟨h.1, h.2.1⟩) h2⟩
  · push Not at hoff
    obtain ⟨ls, h1, h2⟩ := C73_axial (round := round) hc (fin dz) hfirst hoff
    exact ⟨ls, h1, key (fun t l h => ⟨h.1, h.2.1⟩) h2⟩

end RT
