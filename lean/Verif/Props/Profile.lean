import Verif.Model.Profile
import Verif.Spec.Profile
import Verif.Props.Rays
import Verif.Lemmas.Through
import Verif.Lemmas.Images

/-! # C99, C100: profiles of many traces, and messages of progress -/

set_option linter.unusedSectionVars false

namespace RT
open PyNum Ext
variable {K : Type} [Field K] [LinearOrder K] [IsStrictOrderedRing K]

theorem alongLoop_past {z : K} (l : List (Ray (Ext K))) (last c : Ray (Ext K)) (h : ∀ r ∈ l, ∃ y θ z0, FinRay r y θ z0 ∧ z0 < z) :
    Ray.alongLoop (fin z) last c l = last := by
  induction l generalizing c with
  | nil => rfl
  | cons r l ih =>
    obtain ⟨y, θ, z0, h1, h2⟩ := h r (by simp)
    rw [alongLoop_pass h1 h2]
    exact ih _ fun s hs => h s (by simp [hs])

theorem entryStops_upTo {is : List (Item (Ext K))} {ss : List (Stage K)} (h : ItemStages is ss) {r : Ray (Ext K)} {y θ z : K}
    (hr : FinRay r y θ z) (hs : entryStops is r = true) {x : K} (hx : 0 ≤ x) : StoppedUpTo ss (y, θ) x := by
  induction is with
  | nil => simp [entryStops] at hs
  | cons i is ih =>
    cases i with
    | dup => exact ih h hs
    | leaf m =>
      cases h with
      | cons h1 h2 => exact ⟨hx, .inl (h1.stopsEntry hr hs)⟩

theorem settle_open {is : List (Item (Ext K))} {ss : List (Stage K)} (h : ItemStages is ss) {r : Ray (Ext K)} {y θ z : K}
    (hr : FinRay r y θ z) (hb : r.isBlocked = false) {x : K} (hx : 0 ≤ x) (hn : ¬ StoppedUpTo ss (y, θ) x) : (settle is r).isBlocked = false := by
  simp only [settle, hb, Bool.false_or]
  rw [Bool.eq_false_iff]
  exact fun hs => hn (entryStops_upTo h hr hs hx)

/-- The loop of `Ray.along` over the trace of a ray that is not stopped up to `z`. -/
theorem alongLoop_reach {is : List (Item (Ext K))} {ss : List (Stage K)} (h : ItemStages is ss) {r : Ray (Ext K)}
    {y θ z0 z : K} (hr : FinRay r y θ z0) (hrb : r.isBlocked = false) (hns : ¬ StoppedUpTo ss (y, θ) (z - z0))
    (h0 : z0 < z) (hz : z ≤ z0 + (ss.map Stage.len).sum) (hn : ∀ s ∈ ss, 0 ≤ s.len) (hi : ¬ Inside ss (z - z0)) (last c : Ray (Ext K)) :
    ∃ y' θ', FinRay (Ray.alongLoop (fin z) last c (runTrace is r)) y' θ' z ∧
      (Ray.alongLoop (fin z) last c (runTrace is r)).isBlocked = false ∧ OnPath ss (y, θ) (z - z0) (y', θ') := by
  induction is generalizing ss r y θ z0 c with
  | nil =>
    cases h
    simp at hz
    exact absurd h0 (not_lt.2 hz)
  | cons i is ih =>
    cases i with
    | dup =>
      rw [runTrace, alongLoop_pass hr h0]
      exact ih h hr hrb hns h0 hz hn hi r
    | leaf m =>
      obtain ⟨st, ss, h1, h2, rfl⟩ : ∃ st ss', StageOf m st ∧ ItemStages is ss' ∧ ss = st :: ss' := by
        cases h with | cons a b => exact ⟨_, _, a, b, rfl⟩
      obtain ⟨o1, ob, -⟩ := h1.out hr hrb
      have o2 := o1.settle is
      have hlen : 0 ≤ st.len := hn st (by simp)
      have hn' : ∀ s ∈ ss, 0 ≤ s.len := fun s hs => hn s (by simp [hs])
      simp only [List.map_cons, List.sum_cons] at hz
      simp only [Inside, not_or] at hi
      have hi2 : ¬ Inside ss (z - (z0 + st.len)) := by rw [← sub_sub]; exact hi.2
      simp only [StoppedUpTo, not_and, not_or] at hns
      obtain ⟨ns1, ns2⟩ := hns (by linarith)
      rw [sub_sub] at ns2
      have hmb : (m.mulRayBase r).isBlocked = false := by
        rw [Bool.eq_false_iff]; exact fun hx => ns1 (ob.1 hx)
      -- the ray after this element
      have key : ∀ c', ((st.len = 0 ∨ c' = r) → ∃ y' θ', FinRay (Ray.alongLoop (fin z) last c' (settle is (m.mulRayBase r) :: runTrace is (settle is (m.mulRayBase r)))) y' θ' z ∧
          (Ray.alongLoop (fin z) last c' (settle is (m.mulRayBase r) :: runTrace is (settle is (m.mulRayBase r)))).isBlocked = false ∧
          OnPath (st :: ss) (y, θ) (z - z0) (y', θ')) := by
        intro c' hc'
        rcases lt_trichotomy z (z0 + st.len) with hlt | heq | hgt
        · have hc : c' = r := by
            rcases hc' with h | h
            · exfalso; linarith
            · exact h
          subst hc
          rw [alongLoop_before o2 hlt]
          obtain ⟨a1, a2⟩ := C47_at hr z
          refine ⟨_, _, a1, a2.trans hrb, .inr (.inl ⟨?_, by linarith, by linarith, rfl⟩)⟩
          by_contra hg
          exact hi.1 ⟨hg, by linarith, by linarith⟩
        · subst heq
          rw [alongLoop_here o2]
          refine ⟨_, _, o2, settle_open h2 o1 hmb (sub_self (z0 + st.len)).ge ns2, .inr (.inr ?_)⟩
          have : z0 + st.len - z0 - st.len = 0 := by ring
          rw [this]
          cases ss with
          | nil => exact ⟨rfl, rfl⟩
          | cons s ss => exact .inl ⟨rfl, rfl⟩
        · rw [alongLoop_pass o2 hgt]
          obtain ⟨y', θ', b1, b2, b3⟩ := ih h2 o2 (settle_open h2 o1 hmb (by linarith) ns2) ns2 hgt (by linarith) hn' hi2 (settle is (m.mulRayBase r))
          refine ⟨y', θ', b1, b2, .inr (.inr ?_)⟩
          rw [sub_sub]; exact b3
      simp only [runTrace, hrb, Bool.false_eq_true, if_false]
      by_cases hL : (0 <. m.L) = true
      · rw [if_pos hL, List.cons_append, List.nil_append, alongLoop_pass hr h0]
        exact key r (.inr rfl)
      · rw [if_neg hL, List.nil_append]
        refine key c (.inl ?_)
        rw [h1.L] at hL
        simp at hL
        exact le_antisymm hL hlen

theorem runTrace_blocked_past {is : List (Item (Ext K))} {r : Ray (Ext K)} {y θ z0 z : K} (hr : FinRay r y θ z0) (hb : r.isBlocked = true)
    (h0 : z0 < z) (last c : Ray (Ext K)) : Ray.alongLoop (fin z) last c (runTrace is r) = last := by
  apply alongLoop_past
  intro s hs
  rw [runTrace_blocked is hb s hs]
  exact ⟨y, θ, z0, hr, h0⟩

/-- The loop of `Ray.along` over the trace of a ray that is stopped before `z` goes to the end. -/
theorem alongLoop_stopped {is : List (Item (Ext K))} {ss : List (Stage K)} (h : ItemStages is ss) {r : Ray (Ext K)}
    {y θ z0 z : K} (hr : FinRay r y θ z0) (hset : entryStops is r = true → r.isBlocked = true) (hs : StoppedBefore ss (y, θ) (z - z0))
    (hn : ∀ s ∈ ss, 0 ≤ s.len) (hna : ThinNA ss) (last c : Ray (Ext K)) :
    Ray.alongLoop (fin z) last c (runTrace is r) = last := by
  induction is generalizing ss r y θ z0 c with
  | nil => cases h; exact hs.elim
  | cons i is ih =>
    have h0 : z0 < z := by
      cases ss with
      | nil => exact hs.elim
      | cons s ss => have := hs.1; linarith
    by_cases hrb : r.isBlocked = true
    · exact runTrace_blocked_past hr hrb h0 last c
    rw [Bool.not_eq_true] at hrb
    cases i with
    | dup =>
      rw [runTrace, alongLoop_pass hr h0]
      exact ih h hr hset hs hn hna r
    | leaf m =>
      obtain ⟨st, ss, h1, h2, rfl⟩ : ∃ st ss', StageOf m st ∧ ItemStages is ss' ∧ ss = st :: ss' := by
        cases h with | cons a b => exact ⟨_, _, a, b, rfl⟩
      obtain ⟨o1, ob, -⟩ := h1.out hr hrb
      have o2 := o1.settle is
      have hlen : 0 ≤ st.len := hn st (by simp)
      have hn' : ∀ s ∈ ss, 0 ≤ s.len := fun s hs => hn s (by simp [hs])
      have hna' : ThinNA ss := fun s hs => hna s (by simp [hs])
      have hout : z0 + st.len < z → Ray.alongLoop (fin z) last (settle is (m.mulRayBase r)) (runTrace is (settle is (m.mulRayBase r))) = last := by
        intro hlt
        rcases hs.2 with hst | hrest
        · have hmb := ob.2 hst
          exact runTrace_blocked_past o2 (by simp [settle, hmb]) hlt _ _
        · rw [sub_sub] at hrest
          refine ih h2 o2 (fun he => ?_) hrest hn' hna' _
          have : entryStops is (m.mulRayBase r) = true := by rwa [entryStops_congr is (r := settle is (m.mulRayBase r)) (s := m.mulRayBase r) rfl] at he
          simp [settle, this]
      have hpos : z0 + st.len < z := by
        rcases hs.2 with hst | hrest
        · have hent : m.stopsEntry r = false := by
            rw [Bool.eq_false_iff]; intro hc
            have := hset hc
            rw [hrb] at this; cases this
          have hzero : st.len = 0 := by
            by_contra hne
            have hlt : 0 < st.len := lt_of_le_of_ne hlen (Ne.symm hne)
            rcases hst with ⟨D, hD, hlt'⟩ | ⟨N, hN, -⟩
            · have h3 : m.stopsEntry r = true := by
                unfold Mat.stopsEntry
                rw [Bool.and_eq_true, h1.L, h1.diam, hr.y, abs_fin, half_optInf, optInf_lt, hD]
                exact ⟨by simpa using hlt, _, rfl, hlt'⟩
              rw [h3] at hent; cases hent
            · exact hne (hna st (by simp) (by simp [hN]))
          rw [hzero, add_zero]; exact h0
        · cases ss with
          | nil => exact hrest.elim
          | cons s ss => have := hrest.1; linarith
      simp only [runTrace, hrb, Bool.false_eq_true, if_false]
      by_cases hL : (0 <. m.L) = true
      · rw [if_pos hL, List.cons_append, List.nil_append, alongLoop_pass hr h0, alongLoop_pass o2 hpos]
        exact hout hpos
      · rw [if_neg hL, List.nil_append, alongLoop_pass o2 hpos]
        exact hout hpos

mutual
theorem stages_thinNA : ∀ (p : Part K), ThinNA p.stages
  | .space .. | .lens .. | .mirror .. | .interface .. | .thickLens .. | .slab .. | .matrix .. => by
    unfold Part.stages; intro s hs h; rw [List.mem_singleton] at hs; subst hs; exact absurd rfl h
  | .aperture .. => by unfold Part.stages; intro s hs h; rw [List.mem_singleton] at hs; subst hs; rfl
  | .group label ps => by unfold Part.stages; exact stagesList_thinNA ps
theorem stagesList_thinNA : ∀ (ps : List (Part K)), ThinNA (Part.stagesList ps)
  | [] => by unfold Part.stagesList; intro s hs; cases hs
  | p :: ps => by
    unfold Part.stagesList; intro s hs
    rcases List.mem_append.1 hs with h | h
    · exact stages_thinNA p s h
    · exact stagesList_thinNA ps s h
end

/-- `t` is what `trace` returns for a ray of height `y` and angle `θ` at `z0`, that is not blocked. -/
def IsTraceOf (e : Elem (Ext K)) (y θ z0 : K) (t : List (Ray (Ext K))) : Prop :=
  ∃ (a : Nat) (h : Heap (Ext K)), a < h.length ∧ FinRay (h.get a) y θ z0 ∧ (h.get a).isBlocked = false ∧
    t = (e.traceH a h).2.1.deref (e.traceH a h).1

theorem along_cons {l : List (Ray (Ext K))} (hne : l ≠ []) (w : Ext K) : ∃ x, Ray.along l w = .ok (Ray.alongLoop w (l.getLast hne) x l) := by
  obtain ⟨x, xs, rfl⟩ := List.exists_cons_of_ne_nil hne
  exact ⟨x, rfl⟩

/-- The trace of a ray, in a form that can be followed. -/
theorem IsTraceOf.run {p : Part K} {e : Elem (Ext K)} (hb : p.build = .ok e) {y θ z0 : K} {t : List (Ray (Ext K))} (ht : IsTraceOf e y θ z0 t) :
    ∃ r0, FinRay r0 y θ z0 ∧ r0.isBlocked = false ∧ t = runTrace e.items (settle e.items r0) ∧ t ≠ [] ∧
      ((t.getLast?.getD (settle e.items r0)).isBlocked = true ↔ Blocked p.stages (y, θ)) ∧
      (¬ Blocked p.stages (y, θ) → FinRay (t.getLast?.getD (settle e.items r0)) (outStages p.stages (y, θ)).1 (outStages p.stages (y, θ)).2
        (z0 + stagesLen p.stages)) := by
  obtain ⟨a, h, ha, hr, hopen, rfl⟩ := ht
  obtain ⟨-, h2, -⟩ := build_sound hb
  obtain ⟨e1, e2⟩ := trace_values hb ha
  obtain ⟨s1, s2⟩ := through_stages (build_stages hb) h2 ha hr hopen
  have hne : (e.traceH a h).2.1.deref (e.traceH a h).1 ≠ [] := by
    simp only [Heap.deref, ne_eq, List.map_eq_nil_iff]
    exact trace_ne_nil h2 _ _
  have hl : (e.traceH a h).2.1.get (e.traceThroughH a h).1 =
      ((e.traceH a h).2.1.deref (e.traceH a h).1).getLast?.getD (settle e.items (h.get a)) := by
    unfold Elem.traceThroughH Heap.deref
    rw [List.getLast?_map]
    cases hx : (e.traceH a h).1.getLast? with
    | none => exact e2
    | some l => rfl
  rw [hl] at s1 s2
  exact ⟨_, hr, hopen, e1, hne, s1, s2⟩

/-- **C47**: `Ray.along(trace, z)` for a ray that is not stopped by any element that starts at `z` or before, at any position in the system that
is not strictly inside a thick element: the ray on the path at that position. -/
theorem C47_reach_partial {p : Part K} (hn : p.NonNeg) {e : Elem (Ext K)} (hb : p.build = .ok e) {y θ z0 z : K} {t : List (Ray (Ext K))}
    (ht : IsTraceOf e y θ z0 t) (hns : ¬ StoppedUpTo p.stages (y, θ) (z - z0)) (h0 : z0 ≤ z)
    (hz : z ≤ z0 + (p.stages.map Stage.len).sum) (hi : ¬ Inside p.stages (z - z0)) :
    ∃ out y' θ', Ray.along t (fin z) = .ok out ∧ FinRay out y' θ' z ∧ out.isBlocked = false ∧ OnPath p.stages (y, θ) (z - z0) (y', θ') := by
  obtain ⟨r0, hr0, hb0, htr, hne, -, -⟩ := ht.run hb
  have hst := build_stages hb
  have hnl := stages_nonneg hn
  have hr := hr0.settle e.items
  have hrb := settle_open hst hr0 hb0 (sub_nonneg.2 h0) hns
  obtain ⟨x, hal⟩ := along_cons hne (fin z)
  rw [hal]
  generalize t.getLast hne = last
  subst htr
  generalize settle e.items r0 = r at *
  rcases h0.lt_or_eq with hlt | rfl
  · obtain ⟨y', θ', b1, b2, b3⟩ := alongLoop_reach hst hr hrb hns hlt hz hnl hi last x
    exact ⟨_, y', θ', rfl, b1, b2, b3⟩
  · -- at the position of the ray
    rw [sub_self] at hns ⊢
    have start : ∀ ss : List (Stage K), OnPath ss (y, θ) 0 (y, θ) := by
      intro ss; cases ss with
      | nil => exact ⟨rfl, rfl⟩
      | cons s ss => exact .inl ⟨rfl, rfl⟩
    cases hit : e.items with
    | nil => rw [hit] at hne; exact absurd rfl hne
    | cons i is =>
      cases i with
      | dup =>
        simp only [runTrace]
        exact ⟨_, y, θ, rfl, by rw [alongLoop_here hr]; exact hr, by rw [alongLoop_here hr]; exact hrb, start _⟩
      | leaf m =>
        rw [hit] at hst
        generalize p.stages = ss at *
        cases hst with
        | @cons _ st _ ss h1 h2 =>
          simp only [runTrace, hrb, Bool.false_eq_true, if_false]
          by_cases hL : (0 <. m.L) = true
          · rw [if_pos hL, List.cons_append, List.nil_append]
            exact ⟨_, y, θ, rfl, by rw [alongLoop_here hr]; exact hr, by rw [alongLoop_here hr]; exact hrb, start _⟩
          · rw [if_neg hL, List.nil_append]
            have hlen : st.len = 0 := by
              rw [h1.L] at hL
              simp at hL
              exact le_antisymm hL (hnl st (by simp))
            obtain ⟨o1, ob, -⟩ := h1.out hr hrb
            simp only [StoppedUpTo, le_refl, true_and, not_or, hlen, sub_zero] at hns
            have hmb : (m.mulRayBase r).isBlocked = false := by
              rw [Bool.eq_false_iff]; exact fun hx => hns.1 (ob.1 hx)
            rw [hlen, add_zero] at o1
            have o2 := o1.settle is
            refine ⟨_, _, _, rfl, by rw [alongLoop_here o2]; exact o2, by rw [alongLoop_here o2]; exact settle_open h2 o1 hmb le_rfl hns.2, .inr (.inr ?_)⟩
            rw [hlen, sub_self]
            cases ss with
            | nil => exact ⟨rfl, rfl⟩
            | cons s ss => exact .inl ⟨rfl, rfl⟩

/-- **C47**: for a ray that is stopped by an element that starts before `z`, what `Ray.along` returns is blocked. -/
theorem C47_stopped {p : Part K} (hn : p.NonNeg) {e : Elem (Ext K)} (hb : p.build = .ok e) {y θ z0 z : K} {t : List (Ray (Ext K))}
    (ht : IsTraceOf e y θ z0 t) (hs : StoppedBefore p.stages (y, θ) (z - z0)) :
    ∃ out, Ray.along t (fin z) = .ok out ∧ out.isBlocked = true := by
  obtain ⟨r0, hr0, hb0, htr, hne, hbl, -⟩ := ht.run hb
  obtain ⟨x, hal⟩ := along_cons hne (fin z)
  have hlast := hbl.2 hs.upTo.blocked
  rw [List.getLast?_eq_some_getLast hne, Option.getD_some] at hlast
  refine ⟨_, hal, ?_⟩
  generalize t.getLast hne = last at *
  subst htr
  rw [alongLoop_stopped (build_stages hb) (hr0.settle e.items) (fun he => ?_) hs (stages_nonneg hn) (stages_thinNA p) last x]
  · exact hlast
  · have : entryStops e.items r0 = true := by rwa [entryStops_congr e.items (r := settle e.items r0) (s := r0) rfl] at he
    simp [settle, this]

/-! ## C99 -/

open Classical in
/-- **C99**. `profileFromRayTraces(traces, z)` for the traces of a list of rays, at a position in the system that is not strictly inside a thick
element and where no ray is stopped: exactly the rays that were not stopped before `z`, in order, each on its path at `z`. -/
theorem C99_profile_partial {p : Part K} (hn : p.NonNeg) {e : Elem (Ext K)} (hb : p.build = .ok e) {z0 z : K} {rs : List (K × K)}
    {ts : List (List (Ray (Ext K)))} (ht : List.Forall₂ (fun r t => IsTraceOf e r.1 r.2 z0 t) rs ts) (h0 : z0 ≤ z)
    (hz : z ≤ z0 + (p.stages.map Stage.len).sum) (hi : ¬ Inside p.stages (z - z0))
    (hat : ∀ r ∈ rs, StoppedUpTo p.stages r (z - z0) → StoppedBefore p.stages r (z - z0)) :
    ∃ out, profileFromRayTraces ts (fin z) = .ok out ∧
      List.Forall₂ (fun r o => ∃ y' θ', FinRay o y' θ' z ∧ o.isBlocked = false ∧ OnPath p.stages r (z - z0) (y', θ'))
        (rs.filter fun r => ¬ StoppedBefore p.stages r (z - z0)) out := by
  induction ht with
  | nil => exact ⟨[], rfl, .nil⟩
  | @cons r t rs ts h1 _ ih =>
    obtain ⟨out, e1, e2⟩ := ih fun r' hr' => hat r' (by simp [hr'])
    by_cases hs : StoppedBefore p.stages r (z - z0)
    · obtain ⟨o, a1, a2⟩ := C47_stopped hn hb h1 hs
      refine ⟨out, by simp [profileFromRayTraces, a1, e1, a2], ?_⟩
      rw [List.filter_cons_of_neg (by simpa using hs)]
      exact e2
    · obtain ⟨o, y', θ', a1, a2, a3, a4⟩ := C47_reach_partial hn hb h1 (fun hc => hs (hat r (by simp) hc)) h0 hz hi
      refine ⟨o :: out, by simp [profileFromRayTraces, a1, e1, a3], ?_⟩
      rw [List.filter_cons_of_pos (by simpa using hs)]
      exact .cons ⟨y', θ', a2, a3, a4⟩ e2

theorem along_inf {l : List (Ray (Ext K))} (hne : l ≠ []) (h : ∀ r ∈ l, ∃ z, r.z = fin z) : Ray.along l (inf : Ext K) = .ok (l.getLast hne) := by
  obtain ⟨x, hal⟩ := along_cons hne (inf : Ext K)
  rw [hal]
  congr 1
  generalize l.getLast hne = last
  clear hal hne
  induction l generalizing x with
  | nil => rfl
  | cons r l ih =>
    obtain ⟨z, hz⟩ := h r (by simp)
    rw [Ray.alongLoop, hz]
    have h1 : ((fin z : Ext K) ==. inf) = false := rfl
    have h2 : ((inf : Ext K) <. fin z) = false := rfl
    rw [h1, h2]
    exact ih (fun s hs => h s (by simp [hs])) r

theorem runTrace_finite {is : List (Item (Ext K))} {ss : List (Stage K)} (h : ItemStages is ss) {r : Ray (Ext K)} {y θ z : K} (hr : FinRay r y θ z) :
    ∀ x ∈ runTrace is r, ∃ y θ z, FinRay x y θ z := by
  induction is generalizing ss r y θ z with
  | nil => intro x hx; cases hx
  | cons i is ih =>
    intro x hx
    cases i with
    | dup =>
      rcases List.mem_cons.1 hx with rfl | hx
      · exact ⟨_, _, _, hr⟩
      · exact ih h hr x hx
    | leaf m =>
      cases h with
      | @cons _ st _ ss h1 h2 =>
        obtain ⟨y', θ', z', hr'⟩ : ∃ y' θ' z', FinRay (if r.isBlocked then r else settle is (m.mulRayBase r)) y' θ' z' := by
          by_cases hb : r.isBlocked = true
          · rw [if_pos hb]; exact ⟨_, _, _, hr⟩
          · rw [if_neg hb]; rw [Bool.not_eq_true] at hb; exact ⟨_, _, _, (h1.out hr hb).1.settle is⟩
        simp only [runTrace, List.mem_append, List.mem_cons] at hx
        rcases hx with hx | rfl | hx
        · split_ifs at hx
          · rw [List.mem_singleton] at hx; subst hx; exact ⟨_, _, _, hr⟩
          · cases hx
        · exact ⟨_, _, _, hr'⟩
        · exact ih h2 hr' x hx

open Classical in
/-- Without a position, the profile is that at the end: exactly the rays that get through, in order, as they come out. -/
theorem C99_end {p : Part K} {e : Elem (Ext K)} (hb : p.build = .ok e) {z0 : K} {rs : List (K × K)}
    {ts : List (List (Ray (Ext K)))} (ht : List.Forall₂ (fun r t => IsTraceOf e r.1 r.2 z0 t) rs ts) :
    ∃ out, profileFromRayTraces ts (inf : Ext K) = .ok out ∧
      List.Forall₂ (fun r o => FinRay o (outStages p.stages r).1 (outStages p.stages r).2 (z0 + stagesLen p.stages) ∧ o.isBlocked = false)
        (rs.filter fun r => ¬ Blocked p.stages r) out := by
  induction ht with
  | nil => exact ⟨[], rfl, .nil⟩
  | @cons r t rs ts h1 _ ih =>
    obtain ⟨out, e1, e2⟩ := ih
    obtain ⟨r0, hr0, hb0, htr, hne, hbl, hfin⟩ := h1.run hb
    have hall : ∀ x ∈ t, ∃ z, x.z = fin z := by
      intro x hx
      rw [htr] at hx
      obtain ⟨_, _, z, hx'⟩ := runTrace_finite (build_stages hb) (hr0.settle e.items) x hx
      exact ⟨z, hx'.z⟩
    have hal := along_inf hne hall
    rw [List.getLast?_eq_some_getLast hne, Option.getD_some] at hbl hfin
    by_cases hs : Blocked p.stages r
    · refine ⟨out, by rw [profileFromRayTraces, hal]; simp only [e1, hbl.2 hs, if_true], ?_⟩
      rw [List.filter_cons_of_neg (by simpa using hs)]
      exact e2
    · have hnb : (t.getLast hne).isBlocked = false := by
        rw [Bool.eq_false_iff]; exact fun hx => hs (hbl.1 hx)
      refine ⟨t.getLast hne :: out, by rw [profileFromRayTraces, hal]; simp only [e1, hnb, Bool.false_eq_true, if_false], ?_⟩
      rw [List.filter_cons_of_pos (by simpa using hs)]
      exact .cons ⟨hfin hs, hnb⟩ e2

/-- An empty trace makes the whole profile fail. -/
theorem C99_empty {F : Type} [PyNum F] (ts ts' : List (List (Ray F))) (z : F) (h : ∀ t ∈ ts, t ≠ []) :
    profileFromRayTraces (ts ++ [] :: ts') z = .error .indexError := by
  induction ts with
  | nil => rfl
  | cons t ts ih =>
    obtain ⟨x, xs, rfl⟩ := List.exists_cons_of_ne_nil (h t (by simp))
    simp only [List.cons_append, profileFromRayTraces, Ray.along]
    rw [ih fun t ht => h t (by simp [ht])]

/-- a space, an aperture and a space -/
def profilePart : Part ℚ := .group "" [.space 10 1 none, .aperture (some 4) none "", .space 10 1 none]

/-- what `trace` returns for a ray that starts at 0 -/
def traceOf (e : Elem (Ext ℚ)) (y θ : ℚ) : List (Ray (Ext ℚ)) :=
  (e.traceH 0 [Ray.new (fin y) (fin θ)]).2.1.deref (e.traceH 0 [Ray.new (fin y) (fin θ)]).1

theorem traceOf_isTraceOf (e : Elem (Ext ℚ)) (y θ : ℚ) : IsTraceOf e y θ 0 (traceOf e y θ) :=
  ⟨0, _, by simp, ⟨rfl, rfl, rfl⟩, rfl, rfl⟩

/-- the profile of three rays at `z`: the heights -/
def profileAt (z : Ext ℚ) : Option (List (Ext ℚ)) :=
  match profilePart.build with
  | .ok e => (profileFromRayTraces [traceOf e 1 0, traceOf e 3 0, traceOf e 1 (1 / 5)] z).toOption.map (·.map Ray.y)
  | .error _ => none

/-- The hypotheses of the theorems hold for three rays in this system, at 5 (all three are there) and at 15 (one is left). -/
theorem C99_example : profileAt (fin 5) = some [fin 1, fin 3, fin 2] ∧ profileAt (fin 15) = some [fin 1] ∧
    profileAt inf = some [fin 1] ∧ StoppedBefore profilePart.stages (3, 0) 15 ∧ ¬ StoppedUpTo profilePart.stages (3, 0) 5 ∧
    ¬ StoppedUpTo profilePart.stages (1, 0) 15 ∧ ¬ Inside profilePart.stages 15 := by
  refine ⟨by decide +kernel, by decide +kernel, by decide +kernel, ?_, ?_, ?_, ?_⟩ <;>
    norm_num [profilePart, Part.stages, Part.stagesList, Inside, Stage.Gap, Sys.stage, Sys.space, Sys.one, StoppedBefore, StoppedUpTo, Stage.Stops, Stage.out] <;> simp

/-- At the position of the aperture the rays that it stops are still counted; past the end the rays are those at the end of the system, not at the
position asked for. -/
theorem C99_violated : profileAt (fin 10) = some [fin 1, fin 3, fin 3] ∧ profileAt (fin 1000) = profileAt (fin 20) := by
  refine ⟨by decide +kernel, by decide +kernel⟩

/-! ## C100 -/

/-- what the messages must be, from the position `i` reached with the next message expected at `log` -/
theorem progressLoop_spec {n : Nat} (hn : 10000 ≤ n) (left i log : Nat) (h : i + left = n) (hl : log ≤ n) (hi : i < log ∨ i = n) (h0 : 10000 ≤ log) :
    ∃ l, progressLoop n left ⟨i, log⟩ = .ok l ∧ l.Pairwise (· < ·) ∧ (∀ m ∈ l, i < m ∧ m ≤ n) ∧ (left ≠ 0 → l.getLast? = some n) := by
  induction left generalizing i log with
  | zero => exact ⟨[], rfl, .nil, by simp, by simp⟩
  | succ left ih =>
    have hi' : i < log := by omega
    unfold progressLoop Progress.display
    have hlog : log ≠ 0 := by omega
    simp only [hlog, if_false]
    by_cases hm : (i + 1) % log = 0
    · have he : i + 1 = log := by
        have := Nat.div_add_mod (i + 1) log
        rw [hm] at this
        have h1 : (i + 1) / log ≠ 0 := by intro hc; rw [hc] at this; omega
        have h2 : (i + 1) / log ≤ 1 := by
          rw [Nat.div_le_iff_le_mul_add_pred (by omega)]; omega
        have h3 : (i + 1) / log = 1 := le_antisymm h2 (Nat.pos_of_ne_zero h1)
        rw [h3] at this; omega
      have hn0 : n ≠ 0 := by omega
      simp only [hm, if_true, hn0, if_false]
      obtain ⟨l, e1, e2, e3, e4⟩ := ih (i + 1) (if log * 3 > n then n else log * 3) (by omega) (by split_ifs <;> omega) (by split_ifs <;> omega)
        (by split_ifs <;> omega)
      rw [e1]
      refine ⟨(i + 1) :: l, rfl, List.pairwise_cons.2 ⟨fun m hm => (e3 m hm).1, e2⟩, ?_, fun _ => ?_⟩
      · intro m hm
        rcases List.mem_cons.1 hm with rfl | hm
        · omega
        · have := e3 m hm; omega
      · by_cases hleft : left = 0
        · subst hleft
          unfold progressLoop at e1
          cases e1
          simp; omega
        · have := e4 hleft
          cases l with
          | nil => simp at this
          | cons x l => rw [List.getLast?_cons_cons]; exact this
    · simp only [hm, if_false]
      obtain ⟨l, e1, e2, e3, e4⟩ := ih (i + 1) log (by omega) hl (by
        by_contra hc
        push Not at hc
        have : i + 1 = log := by omega
        rw [this, Nat.mod_self] at hm
        exact hm rfl) h0
      rw [e1]
      refine ⟨l, rfl, e2, fun m hm => by have := e3 m hm; omega, fun _ => e4 ?_⟩
      intro hc
      subst hc
      have : i + 1 = log := by omega
      rw [this, Nat.mod_self] at hm
      exact hm rfl

/-- **C100**. While `n ≥ 10000` rays are traced, the messages of progress never fail, they count up, and the last one says that all the `n` rays are
done. -/
theorem C100_progress {n : Nat} (hn : 10000 ≤ n) :
    ∃ l, progressMessages n = .ok l ∧ l.Pairwise (· < ·) ∧ (∀ m ∈ l, 0 < m ∧ m ≤ n) ∧ l.getLast? = some n := by
  obtain ⟨l, e1, e2, e3, e4⟩ := progressLoop_spec hn n 0 10000 (by omega) hn (by omega) le_rfl
  exact ⟨l, e1, e2, e3, e4 (by omega)⟩

theorem progressLoop_mem {n : Nat} (left i log : Nat) (h : i + left = n) (hl : log ≤ n) (hi : i < log ∨ i = n) (h0 : 10000 ≤ log)
    {l : List Nat} (hk : progressLoop n left ⟨i, log⟩ = .ok l) (m : Nat) :
    m ∈ l ↔ i < m ∧ (m = n ∨ ∃ k, m = log * 3 ^ k ∧ m < n) := by
  induction left generalizing i log l with
  | zero =>
    cases hk
    simp only [List.not_mem_nil, false_iff]
    rintro ⟨h1, h2 | ⟨k, h2, h3⟩⟩ <;> omega
  | succ left ih =>
    have hi' : i < log := by omega
    unfold progressLoop Progress.display at hk
    have hlog : log ≠ 0 := by omega
    simp only [hlog, if_false] at hk
    by_cases hm : i + 1 = log
    · have hn0 : n ≠ 0 := by omega
      have hmod : (i + 1) % log = 0 := by rw [hm, Nat.mod_self]
      simp only [hmod, if_true, hn0, if_false] at hk
      split at hk
      · cases hk
      · next l' hl' =>
        simp only [Except.ok.injEq] at hk
        subst hk
        have key := ih (i + 1) _ (by omega) (by split_ifs <;> omega) (by split_ifs <;> omega) (by split_ifs <;> omega) hl'
        simp only [Option.toList_some, List.singleton_append, List.mem_cons, key]
        constructor
        · rintro (rfl | ⟨h1, h2 | ⟨k, h2, h3⟩⟩)
          · refine ⟨by omega, ?_⟩
            by_cases hc : i + 1 = n
            · exact .inl hc
            · exact .inr ⟨0, by simpa using hm, by omega⟩
          · exact ⟨by omega, .inl h2⟩
          · refine ⟨by omega, .inr ⟨k + 1, ?_, h3⟩⟩
            split_ifs at h2 with hc
            · exfalso
              have : 1 ≤ 3 ^ k := Nat.one_le_pow _ _ (by omega)
              nlinarith
            · rw [h2]; ring
        · rintro ⟨h1, h2 | ⟨k, h2, h3⟩⟩
          · by_cases hc : m = i + 1
            · exact .inl hc
            · exact .inr ⟨by omega, .inl h2⟩
          · cases k with
            | zero => left; rw [h2, hm]; ring
            | succ k =>
              have hpow : 1 ≤ 3 ^ k := Nat.one_le_pow _ _ (by omega)
              have hm3 : m = log * 3 * 3 ^ k := by rw [h2]; ring
              right
              refine ⟨by rw [hm3]; nlinarith, .inr ⟨k, ?_, h3⟩⟩
              rw [if_neg (by nlinarith)]
              exact hm3
    · have hmod : (i + 1) % log ≠ 0 := by rw [Nat.mod_eq_of_lt (by omega)]; omega
      simp only [hmod, if_false] at hk
      split at hk
      · cases hk
      · next l' hl' =>
        simp only [Except.ok.injEq] at hk
        subst hk
        have key := ih (i + 1) log (by omega) hl (by omega) h0 hl'
        simp only [Option.toList_none, List.nil_append, key]
        refine ⟨fun hx => ⟨by omega, hx.2⟩, fun hx => ⟨?_, hx.2⟩⟩
        rcases hx with ⟨h1, h2 | ⟨k, h2, h3⟩⟩
        · omega
        · have hpow : 1 ≤ 3 ^ k := Nat.one_le_pow _ _ (by omega)
          have : log ≤ m := by rw [h2]; nlinarith
          omega

/-- The messages are printed after 10000 rays, then three times as many, and so on, and at the end. -/
theorem C100_when {n : Nat} (hn : 10000 ≤ n) {l : List Nat} (hl : progressMessages n = .ok l) (m : Nat) :
    m ∈ l ↔ m = n ∨ ∃ k, m = 10000 * 3 ^ k ∧ m < n := by
  rw [progressLoop_mem n 0 10000 (by omega) hn (by omega) le_rfl hl m]
  refine ⟨fun h => h.2, fun h => ⟨?_, h⟩⟩
  rcases h with rfl | ⟨k, rfl, -⟩
  · omega
  · positivity

/-- 100000 rays: four messages -/
example : (100000 : Nat) ≥ 10000 ∧ 10000 * 3 ^ 2 < 100000 := by decide

theorem progressLoop_quiet {n : Nat} (left i : Nat) (h : i + left < 10000) : progressLoop n left ⟨i, 10000⟩ = .ok [] := by
  induction left generalizing i with
  | zero => rfl
  | succ left ih =>
    unfold progressLoop Progress.display
    have hm : (i + 1) % 10000 ≠ 0 := by rw [Nat.mod_eq_of_lt (by omega)]; omega
    simp only [hm, if_false, show (10000 : Nat) ≠ 0 by decide]
    rw [ih (i + 1) (by omega)]
    rfl

/-- With fewer rays nothing is printed, and nothing fails, not even without any ray. -/
theorem C100_quiet {n : Nat} (hn : n < 10000) : progressMessages n = .ok [] :=
  progressLoop_quiet n 0 (by omega)

end RT
