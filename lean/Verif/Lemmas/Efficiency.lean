import Verif.Props.Derived
import Verif.Model.Efficiency

/-! # The optical invariant up to its factor, and the height of a ray where an element starts -/

set_option linter.unusedSectionVars false

namespace RT
open PyNum Ext
variable {K : Type} [Field K] [LinearOrder K] [IsStrictOrderedRing K]

/-- The same index is used for all pairs of rays at a given position. -/
theorem opticalInvariant_factor {label : String} {ps : List (Part K)} (hv : (Part.group label ps).Valid)
    (hnn : (Part.group label ps).NonNeg) {e : Elem (Ext K)}
    (hb : (Part.group label ps).build = .ok e) (hc : e.Clean) {z : K} (hz : 0 ≤ z)
    (hvis : Visible (Part.group label ps).prims z) :
    ∃ n : K, (n = 1 ∨ e.mat.frontIndex = fin n) ∧ ∀ (h : Heap (Ext K)) (a1 a2 : Nat) (y1 θ1 z1 y2 θ2 z2 : K), a2 < h.length →
      FinRay (h.get a1) y1 θ1 z1 → FinRay (h.get a2) y2 θ2 z2 →
      (h.get a1).isBlocked = false → (h.get a2).isBlocked = false →
      (e.opticalInvariantH a1 a2 (fin z) h).1 = .ok (fin (n * (θ1 * y2 - y1 * θ2))) := by
  obtain ⟨hg, hp⟩ := build_good hv hb hc
  have hn : ∀ q ∈ e.prims, 0 ≤ q.len := by rw [hp]; exact hnn.nonneg
  obtain ⟨m, c, es, rfl⟩ : ∃ m c es, e = .group m c es := by
    unfold Part.build at hb
    split at hb
    · simp at hb
    · obtain ⟨g, -, h3⟩ := Except.map_ok hb
      exact ⟨_, _, _, h3.symm⟩
  rw [← hp] at hvis
  unfold Elem.Good at hg
  unfold Elem.prims at hn hvis
  rcases GoodList.cut hg.1 hn hz hg.2.matched one_den
    ⟨Sys.one_lawful one_ne_zero, .inl ⟨one_isId 1, rfl, rfl, rfl⟩⟩ with ⟨t, u, a3, a4, a5, a6, a7, -⟩ | ⟨-, a8⟩
  swap
  · rw [← rayAt_isSome _ _ (0, 0), a8] at hvis; simp at hvis
  have ht : (Elem.group m c es).transferMatrix (fin z) = .ok t := by unfold Elem.transferMatrix; exact a3
  obtain ⟨o1, o2⟩ := transferMatrixList_open a3 ⟨rfl, rfl⟩
  have hlin : t.Linear := by intro n al; rw [o2]; simp
  refine ⟨u.nf, a7.elim (fun i => .inl i.2) (fun i => .inr (by rw [i]; exact hg.2.den.nf)), fun h a1 a2 y1 θ1 z1 y2 θ2 z2 l2 hr1 hr2 b1 b2 => ?_⟩
  obtain ⟨q1, e1, f1⟩ := traceThroughH_open a4 hlin o1 hr1 b1
  have g2 : Heap.get (h ++ [q1]) a2 = h.get a2 := Heap.get_append_lt h [q1] l2
  obtain ⟨q2, e2, f2⟩ := traceThroughH_open (h := h ++ [q1]) a4 hlin o1 (by rw [g2]; exact hr2) (by rw [g2]; exact b2)
  unfold Elem.opticalInvariantH
  rw [ht]
  dsimp only
  rw [e1]
  dsimp only
  rw [e2]
  dsimp only
  rw [Heap.get_append_eq (h ++ [q1]) q2, Heap.get_append_lt (h ++ [q1]) [q2] (a := h.length) (by simp),
    Heap.get_append_eq h q1, f1.y, f1.theta, f2.y, f2.theta, a4.nb]
  simp only [fin_mul_fin, fin_sub_fin, Except.ok.injEq, Ext.fin.injEq]
  have hdet := a5.2.2
  rw [eq_div_iff a5.2.1] at hdet
  rw [← hdet]
  simp only [Sys.outY, Sys.outθ, Sys.det]
  ring

/-- At the start of `qs` a ray has its height. -/
def StartKeeps (qs : List (Prim K)) : Prop := ∀ r q, rayAt qs 0 r = some q → q.1 = r.1

/-- What has no thickness keeps the heights. -/
def Stage.Flat (s : Stage K) : Prop := s.len = 0 → s.a = 1 ∧ s.b = 0

/-- Each stage with the surfaces and gaps it is made of. -/
inductive Pieces : List (Prim K) → List (Stage K) → Prop
  | nil : Pieces [] []
  | cons {ps qs : List (Prim K)} {s : Stage K} {ss : List (Stage K)} (h0 : ∀ p ∈ ps, 0 ≤ p.len)
      (h1 : ∀ r, through ps r = s.out r) (h2 : extent ps = s.len)
      (h3 : s.Flat → ∀ rest, StartKeeps rest → StartKeeps (ps ++ rest)) (h : Pieces qs ss) : Pieces (ps ++ qs) (s :: ss)

theorem Pieces.append {ps qs : List (Prim K)} {ss ts : List (Stage K)} (h : Pieces ps ss) (h' : Pieces qs ts) :
    Pieces (ps ++ qs) (ss ++ ts) := by
  induction h with
  | nil => exact h'
  | cons h0 h1 h2 h3 _ ih => rw [List.append_assoc, List.cons_append]; exact .cons h0 h1 h2 h3 ih

theorem Pieces.single {ps : List (Prim K)} {s : Stage K} (h0 : ∀ p ∈ ps, 0 ≤ p.len)
    (h1 : ∀ r, through ps r = s.out r) (h2 : extent ps = s.len)
    (h3 : s.Flat → ∀ rest, StartKeeps rest → StartKeeps (ps ++ rest)) : Pieces ps [s] := by
  have := Pieces.cons h0 h1 h2 h3 .nil
  rwa [List.append_nil] at this

theorem pieces_surf {s : Sys K} (hl : s.len = 0) (d n : Option K) :
    Pieces [.surf s] [s.stage d n] := by
  refine .single (by simp [Prim.len]) (fun r => rfl) (by simp [extent, Prim.len, Sys.stage, hl]) ?_
  intro hf rest hr r q hq
  obtain ⟨h1, h2⟩ := hf (by simp [Sys.stage, hl])
  simp only [Sys.stage] at h1 h2
  simp only [List.cons_append, List.nil_append, rayAt] at hq
  rw [hr _ _ hq]
  simp [Prim.out, Sys.outY, h1, h2]

theorem pieces_thick {n k1 k2 t : K} (ht : 0 ≤ t) (d na : Option K) :
    Pieces [.surf (Sys.interface 1 n k1), .gap t, .surf (Sys.interface n 1 k2)] [(Sys.thick n k1 k2 t).stage d na] := by
  refine .single ?_ ?_ ?_ ?_
  · simp [Prim.len, ht]
  · intro r
    simp only [through, List.foldl, Prim.out, Stage.out, Sys.stage, Sys.thick, Sys.andThen, Sys.outY, Sys.outθ, Sys.space,
      Sys.interface, Prod.mk.injEq]
    constructor <;> ring
  · simp [extent, Prim.len, Sys.stage, Sys.thick, Sys.andThen, Sys.space, Sys.interface]
  · intro _ rest hr r q hq
    simp only [List.cons_append, List.nil_append, rayAt] at hq
    split_ifs at hq with h
    · have h0 : t = 0 := le_antisymm h ht
      subst h0
      rw [sub_zero] at hq
      rw [hr _ _ hq]
      simp [Prim.out, Sys.outY, Sys.interface]
    · simp only [Option.some.injEq] at hq
      subst hq
      simp [Prim.out, Sys.outY, Sys.interface]

mutual
theorem Part.pieces : ∀ {p : Part K}, p.NonNeg → Pieces p.prims p.stages
  | .space d n diam, h => by
    simp only [Part.NonNeg] at h
    unfold Part.prims Part.stages
    refine .single (by simpa [Prim.len] using h) ?_ ?_ ?_
    · intro r
      simp [through, Prim.out, Stage.out, Sys.stage, Sys.space]
    · simp [extent, Prim.len, Sys.stage, Sys.space]
    · intro _ rest hr r q hq
      simp only [List.cons_append, List.nil_append, rayAt] at hq
      split_ifs at hq with h'
      · have h0 : d = 0 := le_antisymm h' h
        subst h0
        rw [sub_zero] at hq
        rw [hr _ _ hq]
        simp [Prim.out]
      · simp only [Option.some.injEq] at hq
        subst hq
        simp
  | .lens f diam, _ => pieces_surf rfl _ _
  | .mirror R diam, _ => pieces_surf rfl _ _
  | .interface n1 n2 R diam, _ => pieces_surf rfl _ _
  | .thickLens n R1 R2 t diam, h => pieces_thick h _ _
  | .slab n t diam, h => pieces_thick h _ _
  | .aperture diam na _, _ => pieces_surf rfl _ _
  | .matrix s _ _ diam, h => by
    simp only [Part.NonNeg] at h
    unfold Part.prims Part.stages
    split_ifs with h0
    · exact pieces_surf h0 _ _
    · refine .single (by simpa [Prim.len] using h) (fun r => rfl) (by simp [extent, Prim.len, Sys.stage]) ?_
      intro _ rest hr r q hq
      simp only [List.cons_append, List.nil_append, rayAt] at hq
      rw [if_neg (fun hh => h0 (le_antisymm hh h))] at hq
      simp at hq
  | .group _ ps, h => Part.piecesList h
theorem Part.piecesList : ∀ {ps : List (Part K)}, Part.NonNegList ps → Pieces (Part.primsList ps) (Part.stagesList ps)
  | [], _ => .nil
  | _ :: _, h => (Part.pieces h.1).append (Part.piecesList h.2)
end

theorem Pieces.start {ps : List (Prim K)} {ss : List (Stage K)} (h : Pieces ps ss) (hf : ∀ s ∈ ss, s.Flat) :
    StartKeeps ps := by
  induction h with
  | nil => intro r q hq; simp only [rayAt, Option.some.injEq] at hq; rw [hq]
  | cons h0 h1 h2 h3 _ ih => exact h3 (hf _ (by simp)) _ (ih fun s hs => hf s (by simp [hs]))

theorem Pieces.extent_nonneg {ps : List (Prim K)} {ss : List (Stage K)} (h : Pieces ps ss) (i : Nat) :
    0 ≤ zBefore ss i := by
  induction h generalizing i with
  | nil => simp [zBefore]
  | cons h0 h1 h2 h3 _ ih =>
    cases i with
    | zero => simp [zBefore]
    | succ i =>
      have := ih i
      have hl := RT.extent_nonneg h0
      rw [h2] at hl
      simp only [zBefore, List.take_succ_cons, List.map_cons, List.sum_cons] at this ⊢
      linarith

/-- The height of a ray where stage `i` starts, seen from the path of the ray. -/
theorem Pieces.height {ps : List (Prim K)} {ss : List (Stage K)} (h : Pieces ps ss) (hf : ∀ s ∈ ss, s.Flat) (i : Nat)
    (r q : K × K) (hq : rayAt ps (zBefore ss i) r = some q) : q.1 = (rayBefore ss i r).1 := by
  induction h generalizing i r with
  | nil => simp only [rayAt, Option.some.injEq] at hq; rw [← hq]; simp [rayBefore]
  | @cons ps qs s ss h0 h1 h2 h3 h' ih =>
    cases i with
    | zero =>
      simp only [zBefore, List.take_zero, List.map_nil, List.sum_nil] at hq
      exact (Pieces.cons h0 h1 h2 h3 h').start hf _ _ hq
    | succ i =>
      have e : zBefore (s :: ss) (i + 1) = s.len + zBefore ss i := by simp [zBefore]
      have hz := h'.extent_nonneg i
      rw [e, rayAt_append_ge h0 _ (by rw [h2]; linarith), h2, add_sub_cancel_left, h1] at hq
      exact ih (fun t ht => hf t (by simp [ht])) i _ hq

end RT
