import Verif.Model.Imaging
import Verif.Lemmas.Stage
import Verif.Lemmas.Search
import Verif.Props.Cut
import Verif.Props.Cardinal

/-! # Facts about the programs of `Model/Imaging.lean` -/

set_option linter.unusedSectionVars false

namespace RT
open PyNum

/-! ## Running programs -/

namespace Prog
variable {F α β : Type}

theorem run_bind (tr : F → F → List (Ray F)) (p : Prog F α) (f : α → Prog F β) :
    (p >>= f).run tr = (match p.run tr with | .ok a => (f a).run tr | .error x => .error x) := by
  change (p.bind f).run tr = _
  induction p with
  | done r => cases r <;> rfl
  | trace y θ k ih => exact ih _

@[simp] theorem run_pure (tr : F → F → List (Ray F)) (a : α) : (pure a : Prog F α).run tr = .ok a := rfl
@[simp] theorem run_lift (tr : F → F → List (Ray F)) (r : Except PyErr α) : (lift r : Prog F α).run tr = r := rfl
@[simp] theorem run_raise (tr : F → F → List (Ray F)) (x : PyErr) : (raise x : Prog F α).run tr = .error x := rfl
@[simp] theorem run_ask (tr : F → F → List (Ray F)) (y θ : F) : (ask y θ : Prog F _).run tr = .ok (tr y θ) := rfl

end Prog

/-- the trace of a new ray `Ray(y, theta)` through new elements -/
def newTrace {F : Type} [PyNum F] (g : Group F) (y θ : F) : List (Ray F) := traceV g.toElem.items (Ray.new y θ)

section agreement
variable {K : Type} [Field K] [LinearOrder K] [IsStrictOrderedRing K]
open Ext

/-- What holds of a path between two questions of a program: the cached trace is the trace of a new ray. -/
structure Coherent (g0 : Group (Ext K)) (g : Group (Ext K)) (h : Heap (Ext K)) : Prop where
  elems : g.elems = g0.elems
  mat : g.mat = g0.mat
  cache : ∀ last t, g.cache = some (last, t) → last < h.length ∧ (∀ c ∈ t, c < h.length) ∧
    h.deref t = newTrace g0 (h.get last).y (h.get last).theta

theorem coherent_items {g0 g : Group (Ext K)} {h : Heap (Ext K)} (hc : Coherent g0 g h) :
    g.toElem.items = g0.toElem.items := by
  unfold Group.toElem; simp only [Elem.items, hc.elems]

theorem traceNew_coherent {g0 g : Group (Ext K)} {h : Heap (Ext K)} (hf : g0.toElem.Flat) (hc : Coherent g0 g h)
    (y θ : Ext K) :
    (g.traceNew (Ray.new y θ) h).2.1.deref (g.traceNew (Ray.new y θ) h).1 = newTrace g0 y θ ∧
    Coherent g0 (g.traceNew (Ray.new y θ) h).2.2 (g.traceNew (Ray.new y θ) h).2.1 := by
  have hfl : ∀ e ∈ g.elems, ∃ m, e = .leaf m ∧ m.Linear := by rw [hc.elems]; exact hf
  have ha : h.length < (h ++ [Ray.new y θ]).length := by simp
  have hga : Heap.get (h ++ [Ray.new y θ]) h.length = Ray.new y θ := Heap.get_append_eq h _
  have hold : ∀ c, c < h.length → Heap.get (h ++ [Ray.new y θ]) c = h.get c := fun c hcl => Heap.get_append_lt h _ hcl
  unfold Group.traceNew Group.traceH
  cases hhit : cacheHit g.cache h.length (h ++ [Ray.new y θ]) with
  | some t =>
    dsimp only
    unfold cacheHit at hhit
    cases hcc : g.cache with
    | none => rw [hcc] at hhit; simp at hhit
    | some lt =>
      obtain ⟨last, t'⟩ := lt
      rw [hcc] at hhit
      dsimp only at hhit
      split_ifs at hhit with hq
      simp only [Option.some.injEq] at hhit
      subst hhit
      obtain ⟨c1, c2, c3⟩ := hc.cache last t' hcc
      have hder : Heap.deref (h ++ [Ray.new y θ]) t' = h.deref t' :=
        List.map_congr_left fun c hcm => hold c (c2 c hcm)
      rw [hga, hold last c1] at hq
      unfold Ray.eq at hq
      have e1 : y = (h.get last).y ∧ θ = (h.get last).theta := by
        split_ifs at hq with q1 q2
        simp only [Bool.not_eq_true', Bool.not_eq_false] at q1 q2
        exact ⟨eq_of_eq q1, eq_of_eq q2⟩
      refine ⟨by rw [hder, c3, ← e1.1, ← e1.2], ⟨hc.elems, hc.mat, ?_⟩⟩
      intro l t hlt
      obtain ⟨d1, d2, d3⟩ := hc.cache l t hlt
      refine ⟨by simp; omega, fun c hcm => by have := d2 c hcm; simp; omega, ?_⟩
      rw [hold l d1, ← d3]
      exact List.map_congr_left fun c hcm => hold c (d2 c hcm)
  | none =>
    dsimp only
    obtain ⟨e1, e2⟩ := traceListH_eq g.elems (flat_noCacheList hfl) h.length (h ++ [Ray.new y θ])
    have e3 := flat_traceListH hfl h.length (h ++ [Ray.new y θ])
    have hl : LinearItems g0.toElem.items := by
      rw [← coherent_items hc]
      intro m' hm'
      simp only [Group.toElem, Elem.items, List.mem_cons, reduceCtorEq, false_or] at hm'
      exact flat_linear hfl m' hm'
    have hru : runH g0.toElem.items h.length (h ++ [Ray.new y θ]) =
        (h.length :: (traceListH g.elems h.length (h ++ [Ray.new y θ])).1,
          (traceListH g.elems h.length (h ++ [Ray.new y θ])).2.1) := by
      rw [← coherent_items hc, e1, e2]; rfl
    obtain ⟨s1, s2⟩ := runH_spec g0.toElem.items hl ha
    obtain ⟨f1, f2, f3, -⟩ := runH_frame g0.toElem.items ha
    rw [hru, hga] at s1 s2
    rw [hru] at f1 f2 f3
    dsimp only at s1 s2 f1 f2 f3
    refine ⟨s1, ⟨by rw [e3]; exact hc.elems, hc.mat, ?_⟩⟩
    intro l t hlt
    simp only [Option.some.injEq, Prod.mk.injEq] at hlt
    obtain ⟨rfl, rfl⟩ := hlt
    refine ⟨lt_of_lt_of_le ha f1, ?_, ?_⟩
    · intro c hcm
      rcases f3 c hcm with rfl | h'
      · exact lt_of_lt_of_le ha f1
      · exact h'.2
    · rw [s1, s2]; rfl

/-- Methods of a path without nested groups answer as if each ray were traced anew, whatever was asked before. -/
theorem runH_eq_run {α : Type} (prog : Prog (Ext K) α) {g0 g : Group (Ext K)} {h : Heap (Ext K)} (hf : g0.toElem.Flat)
    (hc : Coherent g0 g h) :
    (prog.runH g h).1 = prog.run (newTrace g0) ∧ Coherent g0 (prog.runH g h).2.1 (prog.runH g h).2.2 := by
  induction prog generalizing g h with
  | done r => exact ⟨rfl, hc⟩
  | trace y θ k ih =>
    obtain ⟨h1, h2⟩ := traceNew_coherent hf hc y θ
    unfold Prog.runH Prog.run
    dsimp only
    rw [h1]
    exact ih _ h2

theorem coherent_start {g : Group (Ext K)} (hc : g.toElem.NoCache) (h : Heap (Ext K)) : Coherent g g h := by
  refine ⟨rfl, rfl, ?_⟩
  intro l t hlt
  unfold Group.toElem Elem.NoCache at hc
  rw [hc.1] at hlt; simp at hlt

/-! ## The aperture stop -/

/-- height over diameter, 0 when the diameter is infinite -/
def ratioOf (y : K) : Option K → K
  | none => 0
  | some D => |y| / D

/-- an entry of a trace with ordinary values and a positive diameter, and their values -/
structure EntryAt (s : Ray (Ext K)) (z y : K) (D : Option K) : Prop where
  z : s.z = fin z
  y : s.y = fin y
  diam : s.apertureDiameter = optInf D
  pos : ∀ d, D = some d → 0 < d

theorem EntryAt.quot {s : Ray (Ext K)} {z y : K} {D : Option K} (h : EntryAt s z y D) :
    ∃ q : K, pyDiv s.y s.apertureDiameter = .ok (fin q) ∧ |q| = ratioOf y D := by
  rw [h.y, h.diam]
  cases D with
  | none => exact ⟨0, by simp [optInf, pyDiv_pinf], by simp [ratioOf]⟩
  | some D =>
    have := h.pos D rfl
    refine ⟨y / D, pyDiv_fin _ _ this.ne', ?_⟩
    rw [abs_div, abs_of_pos this]; rfl

theorem stopLoop_spec (l : List (Ray (Ext K))) (hl : ∀ s ∈ l, ∃ z y D, EntryAt s z y D) (m : K) (z0 d0 : Ext K) :
    (Group.stopLoop l (fin m) z0 d0 = .ok (z0, d0) ∧ ∀ s ∈ l, ∀ z y D, EntryAt s z y D → ratioOf y D ≤ m) ∨
    (∃ s ∈ l, ∃ z y D, EntryAt s z y D ∧ Group.stopLoop l (fin m) z0 d0 = .ok (fin z, optInf D) ∧
      m < ratioOf y D ∧ ∀ s' ∈ l, ∀ z' y' D', EntryAt s' z' y' D' → ratioOf y' D' ≤ ratioOf y D) := by
  have uniq : ∀ {s : Ray (Ext K)} {z y z' y' : K} {D D' : Option K}, EntryAt s z y D → EntryAt s z' y' D' →
      ratioOf y D = ratioOf y' D' := by
    intro s z y z' y' D D' h1 h2
    obtain ⟨q, e1, e2⟩ := h1.quot
    obtain ⟨q', e1', e2'⟩ := h2.quot
    rw [e1] at e1'
    simp only [Except.ok.injEq, Ext.fin.injEq] at e1'
    rw [← e2, ← e2', e1']
  induction l generalizing m z0 d0 with
  | nil => exact .inl ⟨rfl, by simp⟩
  | cons r l ih =>
    obtain ⟨z, y, D, hr⟩ := hl r (by simp)
    have hl' : ∀ s ∈ l, ∃ z y D, EntryAt s z y D := fun s hs => hl s (List.mem_cons_of_mem _ hs)
    obtain ⟨q, e1, e2⟩ := hr.quot
    unfold Group.stopLoop
    rw [e1]
    simp only [bind, Except.bind, abs_fin, lt_fin, e2, decide_eq_true_eq]
    split_ifs with hm
    · rw [hr.z, hr.diam]
      rcases ih hl' (ratioOf y D) (fin z) (optInf D) with ⟨h1, h2⟩ | ⟨s, hs, z1, y1, D1, h1, h2, h3, h4⟩
      · refine .inr ⟨r, by simp, z, y, D, hr, h1, hm, ?_⟩
        intro s' hs' z' y' D' h'
        rcases List.mem_cons.1 hs' with rfl | hs'
        · exact (uniq h' hr).le
        · exact h2 s' hs' z' y' D' h'
      · refine .inr ⟨s, List.mem_cons_of_mem _ hs, z1, y1, D1, h1, h2, hm.trans h3, ?_⟩
        intro s' hs' z' y' D' h'
        rcases List.mem_cons.1 hs' with rfl | hs'
        · rw [uniq h' hr]; exact h3.le
        · exact h4 s' hs' z' y' D' h'
    · rw [not_lt] at hm
      rcases ih hl' m z0 d0 with ⟨h1, h2⟩ | ⟨s, hs, z1, y1, D1, h1, h2, h3, h4⟩
      · refine .inl ⟨h1, ?_⟩
        intro s' hs' z' y' D' h'
        rcases List.mem_cons.1 hs' with rfl | hs'
        · rw [uniq h' hr]; exact hm
        · exact h2 s' hs' z' y' D' h'
      · refine .inr ⟨s, List.mem_cons_of_mem _ hs, z1, y1, D1, h1, h2, h3, ?_⟩
        intro s' hs' z' y' D' h'
        rcases List.mem_cons.1 hs' with rfl | hs'
        · rw [uniq h' hr]; exact hm.trans h3.le
        · exact h4 s' hs' z' y' D' h'

/-- All the entries of a trace have ordinary values. -/
theorem runTrace_entries {is : List (Item (Ext K))} {ss : List (Stage K)} (h : ItemStages is ss) {r : Ray (Ext K)}
    {y θ z : K} {D : Option K} (hr : FinRay r y θ z) (hd : r.apertureDiameter = optInf D) (hp : ∀ d, D = some d → 0 < d) :
    ∀ s ∈ runTrace is r, ∃ z' y' D', EntryAt s z' y' D' := by
  have hself : EntryAt r z y D := ⟨hr.z, hr.y, hd, hp⟩
  induction is generalizing ss r y θ z D with
  | nil => simp [runTrace]
  | cons i is ih =>
    cases i with
    | dup =>
      simp only [runTrace, List.mem_cons]
      rintro s (rfl | hs)
      · exact ⟨_, _, _, hself⟩
      · exact ih h hr hd hp hself s hs
    | leaf m =>
      cases h with
      | @cons _ st _ ss h1 h2 =>
        intro s hs
        by_cases hb : r.isBlocked = true
        · rw [runTrace_blocked _ hb s hs]; exact ⟨_, _, _, hself⟩
        · rw [Bool.not_eq_true] at hb
          obtain ⟨o1, -, o3⟩ := h1.out hr hb
          have o1' := o1.settle is
          have hnew : EntryAt (settle is (m.mulRayBase r)) (z + st.len) (st.out (y, θ)).1 st.diam :=
            ⟨o1'.z, o1'.y, o3, h1.diam_pos⟩
          simp only [runTrace, hb, Bool.false_eq_true, if_false, List.mem_append, List.mem_cons] at hs
          rcases hs with hs | rfl | hs
          · have : s = r := by
              split_ifs at hs
              · simpa using hs
              · simp at hs
            rw [this]; exact ⟨_, _, _, hself⟩
          · exact ⟨_, _, _, hnew⟩
          · exact ih h2 o1' o3 h1.diam_pos hnew s hs

theorem finRay_new (y θ : K) : FinRay (Ray.new (fin y) (fin θ)) y θ 0 := ⟨rfl, rfl, by simp [Ray.new]⟩

theorem newTrace_entries {g : Group (Ext K)} {ss : List (Stage K)} (h : ItemStages g.toElem.items ss) (y θ : K) :
    ∀ s ∈ newTrace g (fin y) (fin θ), ∃ z' y' D', EntryAt s z' y' D' :=
  runTrace_entries h ((finRay_new y θ).settle _) (D := none) rfl (by simp)

/-- What `apertureStop()` answers, for any path: the probe's largest ratio of height to diameter. -/
theorem apertureStop_run {g : Group (Ext K)} {ss : List (Stage K)} (h : ItemStages g.toElem.items ss)
    (hf : hasFiniteApertureList g.elems = true) :
    (g.apertureStop.run (newTrace g) = .ok (some (fin 0), pinf) ∧
      ∀ s ∈ newTrace g (fin 0) (fin (1 / 10)), ∀ z y D, EntryAt s z y D → ratioOf y D ≤ 0) ∨
    (∃ s ∈ newTrace g (fin 0) (fin (1 / 10)), ∃ z y D, EntryAt s z y (some D) ∧
      g.apertureStop.run (newTrace g) = .ok (some (fin z), fin D) ∧ 0 < ratioOf y (some D) ∧
      ∀ s' ∈ newTrace g (fin 0) (fin (1 / 10)), ∀ z' y' D', EntryAt s' z' y' D' → ratioOf y' D' ≤ ratioOf y (some D)) := by
  have e0 : (lit (1 / 10) : Ext K) = fin (1 / 10) := by rw [lit_eq]; norm_num
  have e : g.apertureStop.run (newTrace g) =
      (match Group.stopLoop (newTrace g (fin 0) (fin (1 / 10))) (fin 0) (fin 0) pinf with
        | .ok s => .ok (some s.1, s.2) | .error x => .error x) := by
    unfold Group.apertureStop
    rw [if_pos hf]
    simp only [Prog.run_bind, Prog.run_ask, Prog.run_lift, Prog.run_pure, e0, zero_eq, inf_eq]
    cases Group.stopLoop (newTrace g (fin 0) (fin (1 / 10))) (fin 0) (fin 0) pinf <;> rfl
  rcases stopLoop_spec _ (newTrace_entries h 0 (1 / 10)) 0 (fin 0) pinf with ⟨h1, h2⟩ | ⟨s, hs, z, y, D, h1, h2, h3, h4⟩
  · left
    rw [e, h1]
    exact ⟨rfl, h2⟩
  · right
    cases D with
    | none => simp [ratioOf] at h3
    | some D =>
      refine ⟨s, hs, z, y, D, h1, ?_, h3, h4⟩
      rw [e, h2]; rfl

/-! ## Finite apertures -/

mutual
theorem hasFinite_iff {F : Type} [PyNum F] : ∀ (e : Elem F), e.hasFiniteApertureDiameter = true ↔
    ∃ m ∈ leaves e.items, m.hasFiniteApertureDiameter = true
  | .leaf m => by simp [Elem.hasFiniteApertureDiameter, Elem.items, leaves]
  | .group m c es => by
    simp only [Elem.hasFiniteApertureDiameter, Elem.items, leaves]
    exact hasFiniteList_iff es
theorem hasFiniteList_iff {F : Type} [PyNum F] : ∀ (es : List (Elem F)), hasFiniteApertureList es = true ↔
    ∃ m ∈ leaves (itemsList es), m.hasFiniteApertureDiameter = true
  | [] => by simp [hasFiniteApertureList, itemsList, leaves]
  | e :: es => by
    simp only [hasFiniteApertureList, itemsList, leaves_append, List.mem_append]
    have h1 := hasFinite_iff e
    have h2 := hasFiniteList_iff es
    split_ifs with h
    · simp only [true_iff]
      obtain ⟨m, hm, hd⟩ := h1.1 h
      exact ⟨m, .inl hm, hd⟩
    · rw [h2]
      constructor
      · rintro ⟨m, hm, hd⟩; exact ⟨m, .inr hm, hd⟩
      · rintro ⟨m, hm | hm, hd⟩
        · exact absurd (h1.2 ⟨m, hm, hd⟩) h
        · exact ⟨m, hm, hd⟩
end

theorem stage_finite {m : Mat (Ext K)} {st : Stage K} (h : StageOf m st) :
    m.hasFiniteApertureDiameter = true ↔ st.diam ≠ none := by
  unfold Mat.hasFiniteApertureDiameter
  rw [h.diam]
  cases st.diam <;> simp [optInf]

theorem forall₂_exists {α β : Type} {R : α → β → Prop} {p : α → Prop} {q : β → Prop} {l : List α} {l' : List β}
    (h : List.Forall₂ R l l') (hpq : ∀ a b, R a b → (p a ↔ q b)) : (∃ a ∈ l, p a) ↔ ∃ b ∈ l', q b := by
  induction h with
  | nil => simp
  | cons hab _ ih => simp only [List.mem_cons, exists_eq_or_imp, ih, hpq _ _ hab]

theorem hasFinite_stages {e : Elem (Ext K)} {ss : List (Stage K)} (h : ItemStages e.items ss) :
    e.hasFiniteApertureDiameter = true ↔ ∃ s ∈ ss, s.diam ≠ none := by
  rw [hasFinite_iff]
  exact forall₂_exists h fun a b hab => stage_finite hab

/-! ## Rays from the axis -/

theorem Stage.out_smul (s : Stage K) (k : K) (r : K × K) :
    s.out (k * r.1, k * r.2) = (k * (s.out r).1, k * (s.out r).2) := by
  simp only [Stage.out, Prod.mk.injEq]
  constructor <;> ring

theorem rayBefore_smul (ss : List (Stage K)) (i : Nat) (k : K) (r : K × K) :
    rayBefore ss i (k * r.1, k * r.2) = (k * (rayBefore ss i r).1, k * (rayBefore ss i r).2) := by
  unfold rayBefore
  induction ss.take i generalizing r with
  | nil => rfl
  | cons s l ih =>
    simp only [List.foldl_cons]
    rw [s.out_smul, ih]

theorem rayBefore_prefix {ss ts : List (Stage K)} (h : ts <+: ss) {i : Nat} (hi : i ≤ ts.length) (r : K × K) :
    rayBefore ts i r = rayBefore ss i r := by
  obtain ⟨us, rfl⟩ := h
  unfold rayBefore
  rw [List.take_append_of_le_length hi]

/-! ## The stop, and the matrix up to it -/

theorem newTrace_z {p : Part K} (hn : p.NonNeg) {g : Group (Ext K)} (hb : p.build = .ok g.toElem) (y θ : K) :
    ∀ s ∈ newTrace g (fin y) (fin θ), ∃ z, s.z = fin z ∧ 0 ≤ z := by
  obtain ⟨h1, h2, h3⟩ := build_sound hb
  obtain ⟨zs, e1, e2⟩ := runTrace_z h1.items.1 (h3 hn) ((finRay_new y θ).settle g.toElem.items)
  intro s hs
  have : s.z ∈ (newTrace g (fin y) (fin θ)).map Ray.z := List.mem_map_of_mem hs
  unfold newTrace traceV at this
  rw [e1] at this
  obtain ⟨z, hz, he⟩ := List.mem_map.1 this
  exact ⟨z, he.symm, (List.pairwise_cons.1 e2).1 z hz⟩

/-- A stop with a finite diameter is not before the path, and its diameter is positive. -/
theorem apertureStop_pos {p : Part K} (hn : p.NonNeg) {g : Group (Ext K)} (hb : p.build = .ok g.toElem) {z D : K}
    (hs : g.apertureStop.run (newTrace g) = .ok (some (fin z), fin D)) : 0 ≤ z ∧ 0 < D := by
  by_cases hf : hasFiniteApertureList g.elems = true
  · rcases apertureStop_run (build_stages hb) hf with ⟨h1, -⟩ | ⟨s, hs', z', y, D', h1, h2, -, -⟩
    · rw [h1] at hs; simp at hs
    · rw [h2] at hs
      simp only [Except.ok.injEq, Prod.mk.injEq, Option.some.injEq, Ext.fin.injEq] at hs
      obtain ⟨rfl, rfl⟩ := hs
      obtain ⟨z'', e1, e2⟩ := newTrace_z hn hb 0 (1 / 10) s hs'
      rw [h1.z] at e1
      simp only [Ext.fin.injEq] at e1
      exact ⟨by rw [e1]; exact e2, h1.pos D' rfl⟩
  · unfold Group.apertureStop at hs
    rw [if_neg hf] at hs
    simp at hs

theorem isImaging_den {m : Mat (Ext K)} {s : Sys K} (h : Den m s) : m.isImaging = true ↔ |s.b| < 1 / 100000 := by
  unfold Mat.isImaging
  rw [h.B]
  simp [isAlmostZero, lit_eq, eps_eq]

/-- the matrix up to the stop -/
theorem toStop_eq {g : Group (Ext K)} {z : K} {D : Ext K} {t : Mat (Ext K)}
    (hs : g.apertureStop.run (newTrace g) = .ok (some (fin z), D)) (ht : g.transferMatrix (fin z) = .ok t) :
    g.toStop.run (newTrace g) = .ok (if t.isImaging then none else some (t, D)) := by
  unfold Group.toStop
  simp only [Prog.run_bind, hs, Prog.run_lift, ht]
  split_ifs <;> rfl

theorem toStop_error {g : Group (Ext K)} {z : K} {D : Ext K} {x : PyErr}
    (hs : g.apertureStop.run (newTrace g) = .ok (some (fin z), D)) (ht : g.transferMatrix (fin z) = .error x) :
    g.toStop.run (newTrace g) = .error x := by
  unfold Group.toStop
  simp only [Prog.run_bind, hs, Prog.run_lift, ht]

theorem chiefRay_eq {g : Group (Ext K)} {t : Mat (Ext K)} {s : Sys K} {D : Ext K}
    (h : g.toStop.run (newTrace g) = .ok (some (t, D))) (hd : Den t s) (hB : s.b ≠ 0) (y : K) :
    (g.chiefRay (fin y)).run (newTrace g) = .ok (some (Ray.new (fin y) (fin (-s.a * y / s.b)))) := by
  unfold Group.chiefRay
  simp only [Prog.run_bind, h, Prog.run_lift]
  rw [hd.A, hd.B, neg_fin, fin_mul_fin, pyDiv_fin _ _ hB]
  rfl

theorem chiefRay_none {g : Group (Ext K)} (h : g.toStop.run (newTrace g) = .ok none) (y : Ext K) :
    (g.chiefRay y).run (newTrace g) = .ok none := by
  unfold Group.chiefRay
  simp only [Prog.run_bind, h, Prog.run_pure]

theorem marginalRays_none {g : Group (Ext K)} (h : g.toStop.run (newTrace g) = .ok none) (y : Ext K) :
    (g.marginalRays y).run (newTrace g) = .ok none := by
  unfold Group.marginalRays
  simp only [Prog.run_bind, h, Prog.run_pure]

theorem marginalRays_eq {g : Group (Ext K)} {t : Mat (Ext K)} {s : Sys K} {D : K}
    (h : g.toStop.run (newTrace g) = .ok (some (t, fin D))) (hd : Den t s) (hB : s.b ≠ 0) (y : K) :
    (g.marginalRays (fin y)).run (newTrace g) = .ok (some
      (if (D / 2 - s.a * y) / s.b < (-D / 2 - s.a * y) / s.b then
        (Ray.new (fin y) (fin ((-D / 2 - s.a * y) / s.b)), Ray.new (fin y) (fin ((D / 2 - s.a * y) / s.b)))
      else (Ray.new (fin y) (fin ((D / 2 - s.a * y) / s.b)), Ray.new (fin y) (fin ((-D / 2 - s.a * y) / s.b))))) := by
  have e1 : ∀ x : K, half (fin x : Ext K) = fin (x / 2) := fun x => by simp [half]
  unfold Group.marginalRays
  simp only [Prog.run_bind, h, Prog.run_lift]
  rw [hd.A, hd.B, neg_fin, e1, e1, fin_mul_fin, fin_sub_fin, fin_sub_fin, pyDiv_fin _ _ hB, pyDiv_fin _ _ hB]
  dsimp only
  rw [lt_fin]
  split_ifs with h1 h2 h2
  · rfl
  · simp at h1; exact absurd h1 h2
  · simp at h1; exact absurd h2 (not_lt.2 h1)
  · rfl

end agreement
end RT
