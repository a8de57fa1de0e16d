import Verif.Model.BeamObjects
import Verif.Lemmas.Trace
import Verif.Props.Beam

/-! # C109: tracing beam objects again

The specification is `Elem.traceBeam`, the trace of a beam through elements that remember nothing (C38 to C42 are about it). -/

set_option linter.unusedSectionVars false

namespace RT
open PyNum Ext
variable {F : Type} [PyNum F] [PyMath F]

/-- The objects at the addresses `t` are the beams `l`. -/
def HoldBeams (h : List (Beam F)) (t : List Nat) (l : List (Beam F)) : Prop := t.map (fun a => h[a]?) = l.map some

/-- The answer `r`, addresses or exception, is the expected one. -/
def AnswerIs (h : List (Beam F)) (r : Except PyErr (List Nat)) : Except PyErr (List (Beam F)) → Prop
  | .error x => r = .error x
  | .ok l => ∃ t, r = .ok t ∧ HoldBeams h t l

theorem prefix_get {α : Type} {h h1 : List α} (hp : h <+: h1) {a : Nat} {b : α} (hb : h[a]? = some b) : h1[a]? = some b := by
  obtain ⟨t, rfl⟩ := hp
  rw [List.getElem?_append_left (List.getElem?_eq_some_iff.1 hb).1, hb]

theorem HoldBeams.mono {h h1 : List (Beam F)} (hp : h <+: h1) {t : List Nat} {l : List (Beam F)} (ht : HoldBeams h t l) : HoldBeams h1 t l := by
  induction t generalizing l with
  | nil => cases l with
    | nil => rfl
    | cons b l => simp [HoldBeams] at ht
  | cons a t ih => cases l with
    | nil => simp [HoldBeams] at ht
    | cons b l =>
      simp only [HoldBeams, List.map_cons, List.cons.injEq] at ht ⊢
      exact ⟨prefix_get hp ht.1, ih ht.2⟩

theorem HoldBeams.append {h : List (Beam F)} {t t' : List Nat} {l l' : List (Beam F)} (h1 : HoldBeams h t l) (h2 : HoldBeams h t' l') :
    HoldBeams h (t ++ t') (l ++ l') := by
  unfold HoldBeams at *; rw [List.map_append, List.map_append, h1, h2]

theorem HoldBeams.last {h : List (Beam F)} {t : List Nat} {l : List (Beam F)} (ht : HoldBeams h t l) {a : Nat} {b : Beam F} (hb : h[a]? = some b) :
    h[t.getLast?.getD a]? = some (l.getLast?.getD b) := by
  have e : (t.map (fun a => h[a]?)).getLast? = (l.map some).getLast? := by rw [ht]
  rw [List.getLast?_map, List.getLast?_map] at e
  cases h1 : t.getLast? with
  | none =>
    cases h2 : l.getLast? with
    | none => simpa using hb
    | some y => rw [h1, h2] at e; simp at e
  | some x =>
    cases h2 : l.getLast? with
    | none => rw [h1, h2] at e; simp at e
    | some y => rw [h1, h2] at e; simpa using e

mutual
/-- What the groups remember is right: the trace of the object remembered. -/
def Elem.Recalls (h : List (Beam F)) : Elem F → Prop
  | .leaf _ => True
  | .group _ none es => RecallsList h es
  | .group _ (some (last, t)) es => (∃ b l, h[last]? = some b ∧ traceBeamList es b = .ok l ∧ HoldBeams h t (b :: l)) ∧ RecallsList h es
/-- in every element -/
def RecallsList (h : List (Beam F)) : List (Elem F) → Prop
  | [] => True
  | e :: es => e.Recalls h ∧ RecallsList h es
end

theorem RecallsList_iff {h : List (Beam F)} {es : List (Elem F)} : RecallsList h es ↔ ∀ e ∈ es, e.Recalls h := by
  induction es with
  | nil => simp [RecallsList]
  | cons e es ih => simp [RecallsList, ih]

mutual
theorem Elem.Recalls.mono {h h1 : List (Beam F)} (hp : h <+: h1) : ∀ {e : Elem F}, e.Recalls h → e.Recalls h1
  | .leaf _, _ => trivial
  | .group _ none es, hr => by
    simp only [Elem.Recalls] at hr ⊢; exact RecallsList.mono hp hr
  | .group _ (some (last, t)) es, hr => by
    simp only [Elem.Recalls] at hr ⊢
    obtain ⟨⟨b, l, h1, h2, h3⟩, hr⟩ := hr
    exact ⟨⟨b, l, prefix_get hp h1, h2, h3.mono hp⟩, RecallsList.mono hp hr⟩
theorem RecallsList.mono {h h1 : List (Beam F)} (hp : h <+: h1) : ∀ {es : List (Elem F)}, RecallsList h es → RecallsList h1 es
  | [], _ => trivial
  | e :: es, hr => by
    simp only [RecallsList] at hr ⊢
    exact ⟨Elem.Recalls.mono hp hr.1, RecallsList.mono hp hr.2⟩
end

mutual
theorem NoCache.recalls (h : List (Beam F)) : ∀ {e : Elem F}, e.NoCache → e.Recalls h
  | .leaf _, _ => trivial
  | .group _ none es, hr => by simp only [Elem.NoCache, Elem.Recalls] at hr ⊢; exact NoCacheList.recalls h hr.2
  | .group _ (some _) es, hr => by simp [Elem.NoCache] at hr
theorem NoCacheList.recalls (h : List (Beam F)) : ∀ {es : List (Elem F)}, NoCacheList es → RecallsList h es
  | [], _ => trivial
  | e :: es, hr => by
    simp only [NoCacheList, RecallsList] at hr ⊢
    exact ⟨NoCache.recalls h hr.1, NoCacheList.recalls h hr.2⟩
end

/-- `e1` is `e` but for what is remembered: every beam has the same trace. -/
def Elem.Traces (e e1 : Elem F) : Prop := ∀ b, e1.traceBeam b = e.traceBeam b

mutual
theorem traceBeamH_ok : ∀ (e : Elem F) {a : Nat} {h : List (Beam F)} {b : Beam F}, e.Recalls h → h[a]? = some b →
    h <+: (e.traceBeamH a h).2.1 ∧ (e.traceBeamH a h).2.2.Recalls (e.traceBeamH a h).2.1 ∧ e.Traces (e.traceBeamH a h).2.2 ∧
      AnswerIs (e.traceBeamH a h).2.1 (e.traceBeamH a h).1 (e.traceBeam b)
  | .leaf m, a, h, b, _, hb => by
    simp only [Elem.traceBeamH, hb, Elem.traceBeam]
    cases hm : m.mulBeam b with
    | error x => exact ⟨List.prefix_rfl, trivial, fun _ => rfl, rfl⟩
    | ok b1 => exact ⟨List.prefix_append _ _, trivial, fun _ => rfl, _, rfl, by simp [HoldBeams]⟩
  | .group m none es, a, h, b, hr, hb => by
    simp only [Elem.Recalls] at hr
    obtain ⟨h1, h2, h3, h4⟩ := traceBeamListH_ok es hr hb
    rcases hx : traceBeamListH es a h with ⟨r, h', es'⟩
    rw [hx] at h1 h2 h3 h4
    simp only at h1 h2 h3 h4
    have ht : ∀ c', (Elem.group m none es).Traces (.group m c' es') := fun c' b' => by simp only [Elem.traceBeam, h3 b']
    cases hl : traceBeamList es b with
    | error x =>
      rw [hl] at h4
      simp only [AnswerIs] at h4
      subst h4
      simp only [Elem.traceBeamH, hx, Elem.traceBeam, hl]
      exact ⟨h1, by simpa only [Elem.Recalls] using h2, ht _, rfl⟩
    | ok l =>
      rw [hl] at h4
      obtain ⟨t, rfl, h5⟩ := h4
      simp only [Elem.traceBeamH, hx, Elem.traceBeam, hl]
      have h6 : HoldBeams h' (a :: t) (b :: l) := HoldBeams.append (t := [a]) (l := [b]) (by simp [HoldBeams, prefix_get h1 hb]) h5
      refine ⟨h1, ?_, ht _, _, rfl, h6⟩
      simp only [Elem.Recalls]
      exact ⟨⟨b, l, prefix_get h1 hb, by rw [h3 b, hl], h6⟩, h2⟩
  | .group m (some (last, t0)) es, a, h, b, hr, hb => by
    simp only [Elem.Recalls] at hr
    obtain ⟨⟨b0, l0, r1, r2, r3⟩, hr⟩ := hr
    by_cases ha : a = last
    · subst ha
      rw [hb] at r1
      simp only [Option.some.injEq] at r1
      subst r1
      simp only [Elem.traceBeamH, if_true, Elem.traceBeam, r2]
      refine ⟨List.prefix_rfl, ?_, fun _ => rfl, _, rfl, r3⟩
      simp only [Elem.Recalls]
      exact ⟨⟨b, l0, hb, r2, r3⟩, hr⟩
    · obtain ⟨h1, h2, h3, h4⟩ := traceBeamListH_ok es hr hb
      rcases hx : traceBeamListH es a h with ⟨r, h', es'⟩
      rw [hx] at h1 h2 h3 h4
      simp only at h1 h2 h3 h4
      have ht : ∀ c c', (Elem.group m c es).Traces (.group m c' es') := fun c c' b' => by simp only [Elem.traceBeam, h3 b']
      cases hl : traceBeamList es b with
      | error x =>
        rw [hl] at h4
        simp only [AnswerIs] at h4
        subst h4
        simp only [Elem.traceBeamH, if_neg ha, hx, Elem.traceBeam, hl]
        refine ⟨h1, ?_, ht _ _, rfl⟩
        simp only [Elem.Recalls]
        exact ⟨⟨b0, l0, prefix_get h1 r1, by rw [h3 b0, r2], r3.mono h1⟩, h2⟩
      | ok l =>
        rw [hl] at h4
        obtain ⟨t, rfl, h5⟩ := h4
        simp only [Elem.traceBeamH, if_neg ha, hx, Elem.traceBeam, hl]
        have h6 : HoldBeams h' (a :: t) (b :: l) := HoldBeams.append (t := [a]) (l := [b]) (by simp [HoldBeams, prefix_get h1 hb]) h5
        refine ⟨h1, ?_, ht _ _, _, rfl, h6⟩
        simp only [Elem.Recalls]
        exact ⟨⟨b, l, prefix_get h1 hb, by rw [h3 b, hl], h6⟩, h2⟩
theorem traceBeamListH_ok : ∀ (es : List (Elem F)) {a : Nat} {h : List (Beam F)} {b : Beam F}, RecallsList h es → h[a]? = some b →
    h <+: (traceBeamListH es a h).2.1 ∧ RecallsList (traceBeamListH es a h).2.1 (traceBeamListH es a h).2.2 ∧
      (∀ b', traceBeamList (traceBeamListH es a h).2.2 b' = traceBeamList es b') ∧
      AnswerIs (traceBeamListH es a h).2.1 (traceBeamListH es a h).1 (traceBeamList es b)
  | [], a, h, b, _, _ => by
    simp only [traceBeamListH, traceBeamList]
    exact ⟨List.prefix_rfl, trivial, fun _ => trivial, [], rfl, rfl⟩
  | e :: es, a, h, b, hr, hb => by
    simp only [RecallsList] at hr
    obtain ⟨h1, h2, h3, h4⟩ := traceBeamH_ok e hr.1 hb
    rcases hx : e.traceBeamH a h with ⟨r, h', e'⟩
    rw [hx] at h1 h2 h3 h4
    simp only at h1 h2 h3 h4
    cases hl : e.traceBeam b with
    | error x =>
      rw [hl] at h4
      simp only [AnswerIs] at h4
      subst h4
      simp only [traceBeamListH, hx, traceBeamList, hl]
      refine ⟨h1, ⟨h2, hr.2.mono h1⟩, fun b' => ?_, rfl⟩
      rw [h3 b']
    | ok l =>
      rw [hl] at h4
      obtain ⟨t, rfl, h5⟩ := h4
      obtain ⟨k1, k2, k3, k4⟩ := traceBeamListH_ok es (hr.2.mono h1) (h5.last (prefix_get h1 hb))
      rcases hy : traceBeamListH es (t.getLast?.getD a) h' with ⟨r2, h'', es'⟩
      rw [hy] at k1 k2 k3 k4
      simp only at k1 k2 k3 k4
      have ht : ∀ b', traceBeamList (e' :: es') b' = traceBeamList (e :: es) b' := fun b' => by
        rw [traceBeamList, traceBeamList, h3 b']
        cases e.traceBeam b' with
        | error x => rfl
        | ok t => simp only [k3]
      cases hl2 : traceBeamList es (l.getLast?.getD b) with
      | error x =>
        rw [hl2] at k4
        simp only [AnswerIs] at k4
        subst k4
        simp only [traceBeamListH, hx, hy, traceBeamList, hl, hl2]
        exact ⟨h1.trans k1, ⟨h2.mono k1, k2⟩, ht, rfl⟩
      | ok l2 =>
        rw [hl2] at k4
        obtain ⟨t2, rfl, k5⟩ := k4
        simp only [traceBeamListH, hx, hy, traceBeamList, hl, hl2]
        exact ⟨h1.trans k1, ⟨h2.mono k1, k2⟩, ht, _, rfl, (h5.mono k1).append k5⟩
end

/-- The states a path can be in, with the beam objects that exist: it begins without anything remembered; then beams are created and traced, and elements are replaced, moved, removed
and added in any way (`append`, `insert`, `pop`, `path[i] = …`), elements that come from elsewhere having traced no beam. The mark says whether the elements were changed and no other
beam was traced since. -/
inductive BeamSession : Bool → Group F → List (Beam F) → Prop
  | start {g : Group F} (h : List (Beam F)) : g.toElem.NoCache → BeamSession false g h
  | create {c : Bool} {g : Group F} {h : List (Beam F)} (b : Beam F) : BeamSession c g h → BeamSession c g (h ++ [b])
  | trace {g g1 : Group F} {h h1 : List (Beam F)} {a : Nat} {r : Except PyErr (List Nat)} : BeamSession false g h → a < h.length →
      g.toElem.traceBeamH a h = (r, h1, g1.toElem) → BeamSession false g1 h1
  | another {g g1 : Group F} {h h1 : List (Beam F)} {a : Nat} {t : List Nat} : BeamSession true g h → a < h.length → (∀ t, g.cache ≠ some (a, t)) →
      g.toElem.traceBeamH a h = (.ok t, h1, g1.toElem) → BeamSession false g1 h1
  | change {c : Bool} {g g1 : Group F} {h : List (Beam F)} : BeamSession c g h → g1.cache = g.cache → (∀ e ∈ g1.elems, e ∈ g.elems ∨ e.NoCache) →
      BeamSession true g1 h

theorem toElem_traceBeam (g : Group F) (b : Beam F) : g.toElem.traceBeam b = (traceBeamList g.elems b).map (b :: ·) := by
  simp only [Group.toElem, Elem.traceBeam]
  cases traceBeamList g.elems b <;> rfl

/-- A group that does not remember the object works as if it remembered nothing. -/
theorem traceBeamH_forget {g : Group F} {a : Nat} (hc : ∀ t, g.cache ≠ some (a, t)) (h : List (Beam F)) :
    (g.toElem.traceBeamH a h).1 = (({ g with cache := none } : Group F).toElem.traceBeamH a h).1 ∧
    (g.toElem.traceBeamH a h).2.1 = (({ g with cache := none } : Group F).toElem.traceBeamH a h).2.1 ∧
    (∀ t, (g.toElem.traceBeamH a h).1 = .ok t → (g.toElem.traceBeamH a h).2.2 = (({ g with cache := none } : Group F).toElem.traceBeamH a h).2.2) := by
  unfold Group.toElem
  rcases hg : g.cache with _ | ⟨last, t0⟩
  · exact ⟨rfl, rfl, fun _ _ => rfl⟩
  · have hne : a ≠ last := fun e => hc t0 (by rw [hg, e])
    simp only [Elem.traceBeamH, if_neg hne]
    rcases traceBeamListH g.elems a h with ⟨r | r, h', es'⟩
    · exact ⟨rfl, rfl, fun t ht => by simp at ht⟩
    · exact ⟨rfl, rfl, fun _ _ => rfl⟩

theorem BeamSession.recalls {c : Bool} {g : Group F} {h : List (Beam F)} (hs : BeamSession c g h) :
    RecallsList h g.elems ∧ (c = false → g.toElem.Recalls h) := by
  induction hs with
  | @start g h hn =>
    have := NoCache.recalls h hn
    refine ⟨?_, fun _ => this⟩
    unfold Group.toElem at hn
    simp only [Elem.NoCache] at hn
    exact NoCacheList.recalls h hn.2
  | create b _ ih =>
    exact ⟨ih.1.mono (List.prefix_append _ _), fun e => (ih.2 e).mono (List.prefix_append _ _)⟩
  | @trace g g1 h h1 a r _ ha ht ih =>
    have h2 := (traceBeamH_ok g.toElem (ih.2 rfl) (List.getElem?_eq_getElem ha)).2.1
    rw [ht] at h2
    refine ⟨?_, fun _ => h2⟩
    unfold Group.toElem at h2
    rcases hc : g1.cache with _ | ⟨l, t⟩
    · rw [hc] at h2; simpa only [Elem.Recalls] using h2
    · rw [hc] at h2; simp only [Elem.Recalls] at h2; exact h2.2
  | @another g g1 h h1 a t _ ha hc ht ih =>
    obtain ⟨e1, e2, e3⟩ := traceBeamH_forget hc h
    have hr : ({ g with cache := none } : Group F).toElem.Recalls h := by
      unfold Group.toElem; simp only [Elem.Recalls]; exact ih.1
    have h2 := (traceBeamH_ok _ hr (List.getElem?_eq_getElem ha)).2.1
    rw [← e2, ← e3 t (by rw [ht]), ht] at h2
    refine ⟨?_, fun _ => h2⟩
    unfold Group.toElem at h2
    rcases hc : g1.cache with _ | ⟨l, t⟩
    · rw [hc] at h2; simpa only [Elem.Recalls] using h2
    · rw [hc] at h2; simp only [Elem.Recalls] at h2; exact h2.2
  | change _ hcache hes ih =>
    refine ⟨RecallsList_iff.2 fun e he => ?_, fun e => by simp at e⟩
    rcases hes e he with h | h
    · exact RecallsList_iff.1 ih.1 e h
    · exact NoCache.recalls _ h

/-- **C109** After any history of creations, traces and changes followed by the trace of another beam, tracing any beam object that exists, also a beam of an earlier trace, gives the
trace of this beam through the elements as they are, or the same exception. Groups inside the path are covered at any depth. -/
theorem C109_session {g : Group F} {h : List (Beam F)} (hs : BeamSession false g h) {a : Nat} {b : Beam F} (hb : h[a]? = some b) :
    AnswerIs (g.toElem.traceBeamH a h).2.1 (g.toElem.traceBeamH a h).1 (g.toElem.traceBeam b) :=
  (traceBeamH_ok g.toElem (hs.recalls.2 rfl) hb).2.2.2

/-- After any history, also just after a change: the same for every object that is not the last one traced. -/
theorem C109_another {c : Bool} {g : Group F} {h : List (Beam F)} (hs : BeamSession c g h) {a : Nat} {b : Beam F} (hb : h[a]? = some b)
    (hc : ∀ t, g.cache ≠ some (a, t)) : AnswerIs (g.toElem.traceBeamH a h).2.1 (g.toElem.traceBeamH a h).1 (g.toElem.traceBeam b) := by
  obtain ⟨e1, e2, -⟩ := traceBeamH_forget hc h
  have hr : ({ g with cache := none } : Group F).toElem.Recalls h := by
    unfold Group.toElem; simp only [Elem.Recalls]; exact hs.recalls.1
  have := (traceBeamH_ok _ hr hb).2.2.2
  rw [e1, e2]
  rw [toElem_traceBeam] at this ⊢
  exact this

/-- Tracing changes no beam that exists. -/
theorem C109_kept {g : Group F} {h : List (Beam F)} (hs : BeamSession false g h) {a : Nat} (ha : a < h.length) :
    h <+: (g.toElem.traceBeamH a h).2.1 :=
  (traceBeamH_ok g.toElem (hs.recalls.2 rfl) (List.getElem?_eq_getElem ha)).1

/-- `append` is such a change. -/
theorem C109_append {c : Bool} {g : Group F} {h : List (Beam F)} (hs : BeamSession c g h) {e : Elem F} (he : e.NoCache) :
    BeamSession true (g.append e).1 h := by
  have hset : ∀ n, (e.setIndices n).NoCache := by
    intro n
    cases e with
    | leaf m => trivial
    | group m k es => simpa only [Elem.setIndices, Elem.NoCache] using he
  have hpush : ∀ e' : Elem F, (g.push e').1.cache = g.cache ∧ (g.push e').1.elems = g.elems ++ [e'] := by
    intro e'
    unfold Group.push
    dsimp only
    split <;> exact ⟨rfl, rfl⟩
  have key : ∀ e' : Elem F, e'.NoCache → BeamSession true (g.push e').1 h := fun e' he' =>
    .change hs (hpush e').1 fun x hx => by
      rw [(hpush e').2, List.mem_append, List.mem_singleton] at hx
      rcases hx with hx | rfl
      · exact .inl hx
      · exact .inr he'
  unfold Group.append
  split
  · exact key e he
  · split_ifs
    · exact key _ (hset _)
    · exact .change hs rfl fun x hx => .inl hx
    · exact key e he

/-- **C109** is violated by every change: after it, tracing the same object again gives the trace of before, whatever the elements are now. -/
theorem C109_violated {g g1 g2 : Group F} {h h1 : List (Beam F)} {a : Nat} {t : List Nat} (ht : g.toElem.traceBeamH a h = (.ok t, h1, g1.toElem))
    (hc : g2.cache = g1.cache) : g2.toElem.traceBeamH a h1 = (.ok t, h1, g2.toElem) := by
  have key : g1.cache = some (a, t) := by
    unfold Group.toElem at ht
    rcases hg : g.cache with _ | ⟨last, t0⟩
    · rw [hg] at ht
      simp only [Elem.traceBeamH] at ht
      rcases hx : traceBeamListH g.elems a h with ⟨r | r, h', es'⟩
      · rw [hx] at ht; simp at ht
      · rw [hx] at ht
        simp only [Prod.mk.injEq, Except.ok.injEq, Elem.group.injEq] at ht
        obtain ⟨rfl, -, -, ht, -⟩ := ht
        exact ht.symm
    · rw [hg] at ht
      simp only [Elem.traceBeamH] at ht
      by_cases ha : a = last
      · rw [if_pos ha] at ht
        simp only [Prod.mk.injEq, Except.ok.injEq, Elem.group.injEq] at ht
        obtain ⟨rfl, -, -, ht, -⟩ := ht
        rw [← ht, ha]
      · rw [if_neg ha] at ht
        rcases hx : traceBeamListH g.elems a h with ⟨r | r, h', es'⟩
        · rw [hx] at ht; simp at ht
        · rw [hx] at ht
          simp only [Prod.mk.injEq, Except.ok.injEq, Elem.group.injEq] at ht
          obtain ⟨rfl, -, -, ht, -⟩ := ht
          exact ht.symm
  unfold Group.toElem
  rw [hc, key]
  simp only [Elem.traceBeamH, if_true]

theorem traceBeamList_snoc {m : Mat F} : ∀ {es : List (Elem F)} {b : Beam F} {l : List (Beam F)}, traceBeamList (es ++ [.leaf m]) b = .ok l →
    ∃ l0 b1, traceBeamList es b = .ok l0 ∧ l = l0 ++ [b1]
  | [], b, l, hl => by
    simp only [List.nil_append, traceBeamList, Elem.traceBeam] at hl
    rcases hm : m.mulBeam b with x | b1
    · rw [hm] at hl; simp at hl
    · rw [hm] at hl
      simp only [Except.ok.injEq] at hl
      exact ⟨[], b1, by rw [traceBeamList], by rw [← hl]; rfl⟩
  | e :: es, b, l, hl => by
    rw [List.cons_append, traceBeamList] at hl
    rw [traceBeamList]
    rcases he : e.traceBeam b with x | t
    · rw [he] at hl; simp at hl
    · rw [he] at hl
      simp only at hl ⊢
      rcases hr : traceBeamList (es ++ [.leaf m]) (t.getLast?.getD b) with x | ts
      · rw [hr] at hl; simp at hl
      · rw [hr] at hl
        simp only [Except.ok.injEq] at hl
        obtain ⟨l0, b1, h1, h2⟩ := traceBeamList_snoc hr
        exact ⟨t ++ l0, b1, by rw [h1], by rw [← hl, h2, List.append_assoc]⟩

/-- **C109** After a beam was traced and an element was appended, tracing the same beam object again is always wrong: the trace still ends before the new element. -/
theorem C109_stale {g g1 g2 : Group F} {h h1 : List (Beam F)} (hs : BeamSession false g h) {a : Nat} {b : Beam F} (hb : h[a]? = some b) {t : List Nat}
    (ht : g.toElem.traceBeamH a h = (.ok t, h1, g1.toElem)) {m : Mat F} (hg : g1.append (.leaf m) = (g2, .ok ())) :
    g2.toElem.traceBeamH a h1 = (.ok t, h1, g2.toElem) ∧ ¬ AnswerIs h1 (g2.toElem.traceBeamH a h1).1 (g2.toElem.traceBeam b) := by
  have hap : ∃ m', g2.cache = g1.cache ∧ g2.elems = g1.elems ++ [.leaf m'] := by
    have hpush : ∀ e' : Elem F, (g1.push e').1.cache = g1.cache ∧ (g1.push e').1.elems = g1.elems ++ [e'] := by
      intro e'
      unfold Group.push
      dsimp only
      split <;> exact ⟨rfl, rfl⟩
    have e2 : g2 = (g1.append (.leaf m)).1 := by rw [hg]
    have e3 : (g1.append (.leaf m)).2 = .ok () := by rw [hg]
    rw [e2]
    unfold Group.append at e3 ⊢
    split
    · exact ⟨m, hpush _⟩
    · rename_i last hlast
      rw [hlast] at e3
      simp only at e3
      split_ifs at e3 ⊢ with c1 c2
      · exact ⟨_, hpush _⟩
      · exact ⟨m, hpush _⟩
  obtain ⟨m', hc, he⟩ := hap
  have hv := C109_violated ht hc
  refine ⟨hv, ?_⟩
  rw [hv]
  obtain ⟨-, -, h3, h4⟩ := traceBeamH_ok g.toElem (hs.recalls.2 rfl) hb
  rw [ht] at h3 h4
  simp only at h3 h4
  rw [← h3 b, toElem_traceBeam] at h4
  rw [toElem_traceBeam, he]
  simp only
  rcases hn : traceBeamList (g1.elems ++ [.leaf m']) b with x | l
  · rw [hn]; exact fun e => by cases e
  · obtain ⟨l0, b1, h5, h6⟩ := traceBeamList_snoc hn
    rw [h5] at h4
    rw [hn]
    obtain ⟨t', e1, h4⟩ := h4
    simp only [Except.ok.injEq] at e1
    subst e1
    rintro ⟨t', e1, h7⟩
    simp only [Except.ok.injEq] at e1
    subst e1
    have l1 := congrArg List.length h4
    have l2 := congrArg List.length h7
    simp only [List.length_map, List.length_cons, h6, List.length_append, List.length_nil] at l1 l2
    omega

/-- What is left of a path after tracing a beam is a path. -/
theorem traceBeamH_group (g : Group F) (a : Nat) (h : List (Beam F)) : ∃ g1 : Group F, (g.toElem.traceBeamH a h).2.2 = g1.toElem := by
  have key : ∀ m c (es : List (Elem F)), ∃ g1 : Group F, Elem.group m c es = g1.toElem := fun m c es => ⟨⟨m, c, es⟩, rfl⟩
  unfold Group.toElem
  rcases g.cache with _ | ⟨last, t0⟩
  · simp only [Elem.traceBeamH]
    rcases traceBeamListH g.elems a h with ⟨r | r, h', es'⟩ <;> exact key _ _ _
  · simp only [Elem.traceBeamH]
    split_ifs
    · exact key _ _ _
    · rcases traceBeamListH g.elems a h with ⟨r | r, h', es'⟩ <;> exact key _ _ _

/-- Such sessions exist for every path that C38 is about: the path is built, a beam is created and traced, and the last object of its trace is the beam of C38. -/
theorem C109_path {label : String} {ps : List (Part ℝ)} (hv : (Part.group label ps).Valid) (hp : (Part.group label ps).PosMedia) {e : Elem (Ext ℝ)}
    (hb : (Part.group label ps).build = .ok e) (hc : e.Clean) {n : ℝ} (hn : 0 < n) (hi : e.mat.frontIndex = fin n) {q : ℂ} (hq : 0 < q.im) {wl : ℝ} (hl : 0 < wl)
    (z : ℝ) (c : Bool) :
    ∃ (g g1 : Group (Ext ℝ)) (h1 : List (Beam (Ext ℝ))) (t : List Nat) (n' : ℝ) (c1 : Bool), e = g.toElem ∧ BeamSession false g [beamOf q wl z n c] ∧
      g.toElem.traceBeamH 0 [beamOf q wl z n c] = (.ok t, h1, g1.toElem) ∧ BeamSession false g1 h1 ∧ e.mat.backIndex = fin n' ∧
      h1[t.getLast?.getD 0]? = some (beamOf (beamAfter (Part.group label ps).stages q) wl (z + (Part.group label ps).length) n' c1) := by
  obtain ⟨n', c1, -, hn', ht, -⟩ := C38_trace hv hp hb hc hn hi hq hl z c
  have hno := (build_sound hb).2.1
  obtain ⟨g, rfl⟩ : ∃ g : Group (Ext ℝ), e = g.toElem := by
    unfold Part.build at hb
    split at hb
    · cases hb
    · obtain ⟨g, -, rfl⟩ := Except.map_ok hb
      exact ⟨g, rfl⟩
  have hs : BeamSession false g [beamOf q wl z n c] := .start _ hno
  have hb0 : ([beamOf q wl z n c] : List (Beam (Ext ℝ)))[0]? = some (beamOf q wl z n c) := rfl
  have ha := C109_session hs hb0
  have hk := C109_kept hs (a := 0) (by simp)
  unfold Elem.traceThroughBeam at ht
  rcases hx : g.toElem.traceBeam (beamOf q wl z n c) with x | l
  · rw [hx] at ht; cases ht
  · rw [hx] at ht ha
    simp only [Except.ok.injEq] at ht
    obtain ⟨t, h1, h2⟩ := ha
    obtain ⟨g1, hg1⟩ := traceBeamH_group g 0 [beamOf q wl z n c]
    have he : g.toElem.traceBeamH 0 [beamOf q wl z n c] = (.ok t, (g.toElem.traceBeamH 0 [beamOf q wl z n c]).2.1, g1.toElem) := by
      rw [← h1, ← hg1]
    refine ⟨g, g1, _, t, n', c1, rfl, hs, he, .trace hs (by simp) he, hn', ?_⟩
    rw [h2.last (prefix_get hk hb0), ht]

end RT
