import Verif.Lemmas.Build
import Verif.Lemmas.Trace

/-! # C18, C19, C29: systems cut at a position -/

set_option linter.unusedSectionVars false

namespace RT
open PyNum Ext
variable {K : Type} [Field K] [LinearOrder K] [IsStrictOrderedRing K]

/-! ## A decidable check that a program builds a clean tree, for examples -/

mutual
/-- `Elem.Clean`, computed -/
def Elem.cleanB : Elem (Ext K) → Bool
  | .leaf _ => true
  | .group m _ es => firstB m es && cleanListB es
/-- `CleanList`, computed -/
def cleanListB : List (Elem (Ext K)) → Bool
  | [] => true
  | e :: es => e.cleanB && cleanListB es
/-- `FirstIndex`, computed -/
def firstB (m : Mat (Ext K)) : List (Elem (Ext K)) → Bool
  | [] => true
  | e :: _ => decide (m.frontIndex = e.mat.frontIndex)
end

theorem firstB_iff (m : Mat (Ext K)) (es : List (Elem (Ext K))) : firstB m es = true → FirstIndex m es := by
  cases es with
  | nil => intro _ e he; simp at he
  | cons e es =>
    intro h x hx
    simp only [List.head?_cons, Option.mem_def, Option.some.injEq] at hx
    subst hx
    simpa [firstB] using h

mutual
theorem Elem.cleanB_iff : ∀ (e : Elem (Ext K)), e.cleanB = true → e.Clean
  | .leaf _ => fun _ => trivial
  | .group m c es => fun h => by
    simp only [Elem.cleanB, Bool.and_eq_true] at h
    exact ⟨firstB_iff m es h.1, cleanListB_iff es h.2⟩
theorem cleanListB_iff : ∀ (es : List (Elem (Ext K))), cleanListB es = true → CleanList es
  | [] => fun _ => trivial
  | e :: es => fun h => by
    simp only [cleanListB, Bool.and_eq_true] at h
    exact ⟨Elem.cleanB_iff e h.1, cleanListB_iff es h.2⟩
end

/-- the program runs and every group reports the index of its first element -/
def Part.runsB (p : Part K) : Bool :=
  match p.build with
  | .ok e => e.cleanB
  | .error _ => false

theorem Part.runsB_iff {p : Part K} (h : p.runsB = true) : ∃ e, p.build = .ok e ∧ e.Clean := by
  unfold Part.runsB at h
  split at h
  · next e he => exact ⟨e, he, Elem.cleanB_iff e h⟩
  · cases h

/-- A microscope-like system used in the examples: spaces, lenses, a thick lens, a slab, an interface into glass, a
nested group, an aperture and a black box of length 3. -/
def samplePart : Part ℚ :=
  .group "sample" [.space 10 1 none, .lens 5 (some 20), .group "inner" [.space 3 1 none, .thickLens (3/2) (some 10) none 4 none,
    .aperture (some 7) none "a"], .matrix ⟨1, 3, 0, 1, 3, 1, 1⟩ none none none, .slab (3/2) 2 none,
    .interface 1 (3/2) (some (-20)) none, .space 8 1 none]

theorem samplePart_runs : ∃ e, samplePart.build = .ok e ∧ e.Clean := Part.runsB_iff (by decide +kernel)

theorem samplePart_valid : samplePart.Valid ∧ samplePart.NonNeg := by
  simp [samplePart, Part.Valid, Part.ValidList, Part.NonNeg, Part.NonNegList, Sys.Lawful, Sys.det]

/-! ## C18 -/

/-- **C18.** For any system built by a program from the elements of the library (nested groups included) and any
`0 ≤ z`: when `z` is not strictly inside a black box, the matrix up to `z` has length `z` (or the length of the system
when `z` is beyond its end) and sends every ray `(height, angle)` to the ray found at `z` on its path; when it is,
`TypeError` is raised. -/
theorem C18_cut {p : Part K} (hv : p.Valid) (hnn : p.NonNeg) {e : Elem (Ext K)} (hb : p.build = .ok e) (hc : e.Clean)
    {z : K} (hz : 0 ≤ z) :
    (Visible p.prims z → ∃ t s, e.transferMatrix (fin z) = .ok t ∧ Den t s ∧ s.Lawful ∧ s.len = min z p.length ∧
      ∀ y θ, rayAt p.prims z (y, θ) = some (s.outY y θ, s.outθ y θ)) ∧
    (¬ Visible p.prims z → e.transferMatrix (fin z) = .error .typeError) := by
  obtain ⟨hg, hp⟩ := build_good hv hb hc
  have hn : ∀ q ∈ e.prims, 0 ≤ q.len := by rw [hp]; exact hnn.nonneg
  obtain ⟨h1, h2⟩ := hg.prims
  unfold Part.length
  rw [← hp]
  by_cases hlt : z < e.mat.sys.len
  · rcases hg.cut hn hz hlt with ⟨t, u, a1, a2, a3, a4, -, a6⟩ | ⟨a1, a2⟩
    · have hvis : Visible e.prims z := by
        rw [← rayAt_isSome e.prims z (0, 0), a6]; rfl
      refine ⟨fun _ => ⟨t, u, a1, a2, a3, ?_, fun y θ => a6 (y, θ)⟩, fun h => absurd hvis h⟩
      rw [a4, h2, min_eq_left hlt.le]
    · have hvis : ¬ Visible e.prims z := by
        rw [← rayAt_isSome e.prims z (0, 0), a2]; simp
      exact ⟨fun h => absurd h hvis, fun _ => a1⟩
  · have hle := not_lt.1 hlt
    have hend : ∀ r, rayAt e.prims z r = some (e.mat.sys.out r) := by
      intro r; rw [rayAt_end hn (by rw [h2]; exact hle), h1]
    have hvis : Visible e.prims z := by
      rw [← rayAt_isSome e.prims z (0, 0), hend]; rfl
    refine ⟨fun _ => ?_, fun h => absurd hvis h⟩
    cases e with
    | leaf m =>
      unfold Elem.Good at hg
      change m.sys.len ≤ z at hle
      refine ⟨m, m.sys, ?_, hg.den, hg.lawful, ?_, fun y θ => hend (y, θ)⟩
      · have hL := hg.den.L
        have hle' : (m.L ≤. fin z) = true := by rw [hL]; simpa using hle
        have hlt' : (fin z <. m.L) = false := by rw [hL]; simpa using hle
        unfold Elem.transferMatrix Mat.transferMatrix
        split
        · rw [if_neg (by simp [hlt'])]; rfl
        · rw [if_pos hle']; rfl
        · rw [if_pos hle']; rfl
        · split
          · rfl
          · rfl
      · rw [h2]; exact (min_eq_right hle).symm
    | group m c es =>
      unfold Elem.Good at hg
      unfold Elem.prims at hn h2 ⊢
      unfold Elem.transferMatrix
      rcases GoodList.cut hg.1 hn hz hg.2.matched one_den
        ⟨Sys.one_lawful one_ne_zero, .inl ⟨one_isId 1, rfl, rfl, rfl⟩⟩ with ⟨t, u, a1, a2, a3, a4, -, a6⟩ | ⟨a1, a2⟩
      · refine ⟨t, u, a1, a2, a3, by rw [a4]; simp [Sys.one], fun y θ => ?_⟩
        have := a6 (y, θ)
        rw [Sys.one_out] at this
        exact this
      · have := hend (0, 0)
        unfold Elem.prims at this
        rw [a2] at this; cases this

/-- beyond the end, the loop of a group never cuts an element -/
theorem transferMatrixList_ge {es : List (Elem (Ext K))} (hg : GoodList es) (hn : ∀ q ∈ primsList es, 0 ≤ q.len)
    {z : K} (hz : extent (primsList es) ≤ z) (acc : Mat (Ext K)) :
    transferMatrixList es (fin z) acc = transferMatrixList es pinf acc := by
  induction es generalizing z acc with
  | nil => rfl
  | cons e es ih =>
    unfold GoodList at hg
    unfold primsList at hn hz
    have h2 := hg.1.prims.2
    have hn2 : ∀ q ∈ primsList es, 0 ≤ q.len := fun p hp => hn p (by simp [hp])
    rw [extent_append, h2] at hz
    have hpos := extent_nonneg hn2
    have hle : e.mat.sys.len ≤ z := by linarith
    unfold transferMatrixList
    rw [hg.1.den.L]
    simp only [le_fin, hle, decide_true, le_fin_pinf, if_true, fin_sub_fin, pinf_sub_fin]
    split
    · rfl
    · exact ih hg.2 hn2 (by linarith) _

/-- **C18.** At the end of the system and beyond (also with the default `upTo=inf`), the transfer matrix is the matrix of
the system: same entries, length, vertices and indices. -/
theorem C18_full {p : Part K} (hv : p.Valid) (hnn : p.NonNeg) {e : Elem (Ext K)} (hb : p.build = .ok e) (hc : e.Clean)
    {z : Option K} (hz : ∀ x, z = some x → p.length ≤ x) :
    ∃ t, e.transferMatrix (optInf z) = .ok t ∧ t.A = e.mat.A ∧ t.B = e.mat.B ∧ t.C = e.mat.C ∧ t.D = e.mat.D ∧
      t.L = e.mat.L ∧ t.frontVertex = e.mat.frontVertex ∧ t.backVertex = e.mat.backVertex ∧
      t.frontIndex = e.mat.frontIndex ∧ t.backIndex = e.mat.backIndex := by
  obtain ⟨hg, hp⟩ := build_good hv hb hc
  have hn : ∀ q ∈ e.prims, 0 ≤ q.len := by rw [hp]; exact hnn.nonneg
  obtain ⟨h1, h2⟩ := hg.prims
  unfold Part.length at hz
  rw [← hp, h2] at hz
  cases e with
  | leaf m =>
    unfold Elem.Good at hg
    change ∀ x, z = some x → m.sys.len ≤ x at hz
    refine ⟨m, ?_, rfl, rfl, rfl, rfl, rfl, rfl, rfl, rfl, rfl⟩
    have hL := hg.den.L
    have hle' : (m.L ≤. optInf z) = true := by
      rw [hL]
      cases z with
      | none => rfl
      | some x => simpa [optInf] using hz x rfl
    have hlt' : (optInf z <. m.L) = false := by
      rw [hL]
      cases z with
      | none => rfl
      | some x => simpa [optInf] using hz x rfl
    unfold Elem.transferMatrix Mat.transferMatrix
    split
    · rw [if_neg (by simp [hlt'])]; rfl
    · rw [if_pos hle']; rfl
    · rw [if_pos hle']; rfl
    · split
      · rfl
      · rfl
  | group m c es =>
    have hfr : ∃ t, transferMatrixList es inf Mat.one = .ok t ∧ m = m.refresh t := by
      cases p with
      | group label ps =>
        unfold Part.build at hb
        split at hb
        · simp at hb
        · obtain ⟨g, h1, h3⟩ := Except.map_ok hb
          obtain ⟨t, ht, hm⟩ := Group.new_fresh h1
          simp only [Group.toElem, Elem.group.injEq] at h3
          rw [← h3.1, ← h3.2.2]
          exact ⟨t, ht, hm⟩
      | _ =>
        unfold Part.build at hb
        obtain ⟨a, -, h⟩ := Except.map_ok hb
        cases h
    obtain ⟨t, ht, hm⟩ := hfr
    unfold Elem.Good at hg
    unfold Elem.prims at hn h2
    unfold Elem.transferMatrix
    have hm' : (Elem.group m c es).mat = m.refresh t := hm
    rw [hm']
    refine ⟨t, ?_, rfl, rfl, rfl, rfl, rfl, rfl, rfl, rfl, rfl⟩
    cases z with
    | none => exact ht
    | some x =>
      have := transferMatrixList_ge hg.1 hn (z := x) (by rw [h2]; exact hz x rfl) Mat.one
      rw [← inf_eq, ht] at this
      exact this

/-- `samplePart` meets the hypotheses: at 15 one is inside the thick lens, at 18 inside the black box. -/
example : (samplePart.Valid ∧ samplePart.NonNeg) ∧ (∃ e, samplePart.build = .ok e ∧ e.Clean) ∧ Visible samplePart.prims 15 ∧
    ¬ Visible samplePart.prims 18 ∧ samplePart.length = 30 := by
  refine ⟨samplePart_valid, samplePart_runs, ?_, ?_, ?_⟩
  · norm_num [samplePart, Part.prims, Part.primsList, Visible]
  · norm_num [samplePart, Part.prims, Part.primsList, Visible]
  · norm_num [samplePart, Part.prims, Part.primsList, Part.length, extent, Prim.len]

/-! ## C19 -/

/-- a matrix without apertures lets the ray through: a new ray object is created and nothing else changes -/
theorem traceThroughH_open {m : Mat (Ext K)} {u : Sys K} (hd : Den m u) (hl : m.Linear) (h1 : m.apertureDiameter = pinf)
    {a : Nat} {h : Heap (Ext K)} {y θ z : K} (hr : FinRay (h.get a) y θ z) (hb : (h.get a).isBlocked = false) :
    ∃ r, m.traceThroughH a h = (h.length, h ++ [r]) ∧ FinRay r (u.outY y θ) (u.outθ y θ) (u.len + z) := by
  have hk : m.mulRayH a h = (h.length, h ++ [m.mulRayBase (h.get a)]) := by
    have : m.mulRayH a h = m.mulRayBaseH a h := by
      unfold Mat.mulRayH
      cases hk : m.kind <;> simp
      exact absurd hk (hl _ _)
    rw [this]
    simp [Mat.mulRayBaseH, hb]
  have hm : m.markEntry a h = h := by
    unfold Mat.markEntry
    rw [h1, hr.y]
    simp [half, infOf]
  have hden := mulRay_den hd hl hr hb
  rw [hl.mulRay] at hden
  refine ⟨_, ?_, hden⟩
  unfold Mat.traceThroughH Mat.traceH
  rw [hm, hk]
  split_ifs <;> simp [hk]

/-- what a group returns as a partial matrix has no aperture -/
theorem transferMatrixList_open {es : List (Elem (Ext K))} {z : Ext K} {acc t : Mat (Ext K)}
    (h : transferMatrixList es z acc = .ok t) (ha : acc.apertureDiameter = pinf ∧ acc.kind = .matrix) :
    t.apertureDiameter = pinf ∧ t.kind = .matrix := by
  induction es generalizing z acc with
  | nil => simp only [transferMatrixList, Except.ok.injEq] at h; subst h; exact ha
  | cons e es ih =>
    unfold transferMatrixList at h
    split at h
    · split at h
      · simp at h
      · next p hp => refine ih h ?_; rw [mulMatrix_ok hp]; exact ⟨rfl, rfl⟩
    · split at h
      · simp at h
      · rw [mulMatrix_ok h]; exact ⟨rfl, rfl⟩

/-- **C19.** For any path built by a program, any two rays and any position `z` that can be seen: the optical invariant is
`n (θ₁ y₂ - y₁ θ₂)`, computed at the entrance with the index `n` of the first medium, unless the system up to `z` is the
identity, where the index is taken to be 1. What is missing for the full property is that last case
(`C19_violated`). -/
theorem C19_value_partial {label : String} {ps : List (Part K)} (hv : (Part.group label ps).Valid)
    (hnn : (Part.group label ps).NonNeg) {e : Elem (Ext K)}
    (hb : (Part.group label ps).build = .ok e) (hc : e.Clean) {z : K} (hz : 0 ≤ z)
    (hvis : Visible (Part.group label ps).prims z)
    {h : Heap (Ext K)} {a1 a2 : Nat} (l2 : a2 < h.length) {y1 θ1 z1 y2 θ2 z2 : K}
    (hr1 : FinRay (h.get a1) y1 θ1 z1) (hr2 : FinRay (h.get a2) y2 θ2 z2)
    (b1 : (h.get a1).isBlocked = false) (b2 : (h.get a2).isBlocked = false) :
    ∃ t n, e.transferMatrix (fin z) = .ok t ∧ e.mat.frontIndex = fin n ∧
      ((e.opticalInvariantH a1 a2 (fin z) h).1 = .ok (fin (n * (θ1 * y2 - y1 * θ2))) ∨
       (t.isIdentity = true ∧ (e.opticalInvariantH a1 a2 (fin z) h).1 = .ok (fin (θ1 * y2 - y1 * θ2)))) := by
  obtain ⟨hg, hp⟩ := build_good hv hb hc
  have hn : ∀ q ∈ e.prims, 0 ≤ q.len := by rw [hp]; exact hnn.nonneg
  obtain ⟨m, c, es, rfl⟩ : ∃ m c es, e = .group m c es := by
    unfold Part.build at hb
    split at hb
    · simp at hb
    · obtain ⟨g, -, h3⟩ := Except.map_ok hb
      exact ⟨_, _, _, h3.symm⟩
  rw [← hp] at hvis
  unfold Elem.Good at hg
  unfold Elem.prims at hn hvis
  rcases GoodList.cut hg.1 hn hz hg.2.matched one_den
    ⟨Sys.one_lawful one_ne_zero, .inl ⟨one_isId 1, rfl, rfl, rfl⟩⟩ with ⟨t, u, a3, a4, a5, a6, a7, -⟩ | ⟨-, a8⟩
  swap
  · rw [← rayAt_isSome _ _ (0, 0), a8] at hvis; simp at hvis
  have ht : (Elem.group m c es).transferMatrix (fin z) = .ok t := by unfold Elem.transferMatrix; exact a3
  obtain ⟨o1, o2⟩ := transferMatrixList_open a3 ⟨rfl, rfl⟩
  have hlin : t.Linear := by intro n al; rw [o2]; simp
  obtain ⟨q1, e1, f1⟩ := traceThroughH_open a4 hlin o1 hr1 b1
  have g2 : Heap.get (h ++ [q1]) a2 = h.get a2 := Heap.get_append_lt h [q1] l2
  obtain ⟨q2, e2, f2⟩ := traceThroughH_open (h := h ++ [q1]) a4 hlin o1 (by rw [g2]; exact hr2) (by rw [g2]; exact b2)
  have hval : ((Elem.group m c es).opticalInvariantH a1 a2 (fin z) h).1 =
      .ok (fin (u.nf * (θ1 * y2 - y1 * θ2))) := by
    unfold Elem.opticalInvariantH
    rw [ht]
    dsimp only
    rw [e1]
    dsimp only
    rw [e2]
    dsimp only
    rw [Heap.get_append_eq (h ++ [q1]) q2, Heap.get_append_lt (h ++ [q1]) [q2] (a := h.length) (by simp),
      Heap.get_append_eq h q1, f1.y, f1.theta, f2.y, f2.theta, a4.nb]
    simp only [fin_mul_fin, fin_sub_fin, Except.ok.injEq, Ext.fin.injEq]
    have hdet := a5.2.2
    rw [eq_div_iff a5.2.1] at hdet
    rw [← hdet]
    simp only [Sys.outY, Sys.outθ, Sys.det]
    ring
  refine ⟨t, m.sys.nf, ht, hg.2.den.nf, ?_⟩
  rcases a7 with ⟨i1, i2⟩ | i2
  · right
    refine ⟨(isIdentity_den a4).2 i1, ?_⟩
    rw [hval, i2, one_mul]
  · left; rw [hval, i2]

/-- **C19.** When the first medium is air, the optical invariant is the same at every visible position. -/
theorem C19_air_partial {label : String} {ps : List (Part K)} (hv : (Part.group label ps).Valid)
    (hnn : (Part.group label ps).NonNeg) {e : Elem (Ext K)}
    (hb : (Part.group label ps).build = .ok e) (hc : e.Clean) (hair : e.mat.frontIndex = fin 1) {z z' : K} (hz : 0 ≤ z)
    (hz' : 0 ≤ z') (hvis : Visible (Part.group label ps).prims z) (hvis' : Visible (Part.group label ps).prims z')
    {h : Heap (Ext K)} {a1 a2 : Nat} (l2 : a2 < h.length) {y1 θ1 z1 y2 θ2 z2 : K}
    (hr1 : FinRay (h.get a1) y1 θ1 z1) (hr2 : FinRay (h.get a2) y2 θ2 z2)
    (b1 : (h.get a1).isBlocked = false) (b2 : (h.get a2).isBlocked = false) :
    (e.opticalInvariantH a1 a2 (fin z) h).1 = (e.opticalInvariantH a1 a2 (fin z') h).1 ∧
    (e.opticalInvariantH a1 a2 (fin z) h).1 = .ok (fin (θ1 * y2 - y1 * θ2)) := by
  have key : ∀ z : K, 0 ≤ z → Visible (Part.group label ps).prims z →
      (e.opticalInvariantH a1 a2 (fin z) h).1 = .ok (fin (θ1 * y2 - y1 * θ2)) := by
    intro z hz hvis
    obtain ⟨t, n, -, hn, h1⟩ := C19_value_partial hv hnn hb hc hz hvis l2 hr1 hr2 b1 b2
    rw [hair] at hn
    simp only [Ext.fin.injEq] at hn
    subst hn
    rcases h1 with h1 | ⟨-, h1⟩
    · rw [h1, one_mul]
    · exact h1
  exact ⟨(key z hz hvis).trans (key z' hz' hvis').symm, key z hz hvis⟩

/-- **C19** is violated when the path starts in a medium of index 3/2: at `z = 0` the optical invariant is computed with the
index 1 and is 2, at `z = 5` it is 3. -/
theorem C19_violated :
    (((Part.group "" [.space (10 : ℚ) (3/2) none]).build.map fun e =>
      ((e.opticalInvariantH 0 1 (fin 0) [Ray.new (fin 0) (fin 1), Ray.new (fin 2) (fin 0)]).1,
       (e.opticalInvariantH 0 1 (fin 5) [Ray.new (fin 0) (fin 1), Ray.new (fin 2) (fin 0)]).1))) =
    .ok (.ok (fin 2), .ok (fin 3)) := by decide +kernel

/-- **C19** is violated by a single element with an aperture: a ray that the aperture stops keeps its input values at the
exit but not inside. -/
theorem C19_aperture_violated :
    (((Part.space (10 : ℚ) 1 (some 2)).build.map fun e =>
      ((e.opticalInvariantH 0 1 (fin 5) [Ray.new (fin 0) (fin 1), Ray.new (fin 2) (fin 1)]).1,
       (e.opticalInvariantH 0 1 (fin 10) [Ray.new (fin 0) (fin 1), Ray.new (fin 2) (fin 1)]).1))) =
    .ok (.ok (fin 2), .ok (fin (-8))) := by decide +kernel

/-- `samplePart` starts in air: the hypotheses of `C19_air_partial` are met. -/
example : ∃ e, samplePart.build = .ok e ∧ e.Clean ∧ e.mat.frontIndex = fin 1 := by
  obtain ⟨e, h1, h2⟩ := samplePart_runs
  refine ⟨e, h1, h2, ?_⟩
  have : (samplePart.build.map fun e => e.mat.frontIndex) = .ok (fin 1) := by decide +kernel
  rw [h1] at this
  simpa [Except.map] using this

/-! ## C29 -/

theorem thickLens_group {n : K} {R1 R2 : Option K} {t : K} {d1 d2 d3 : Option K} {label : String} {g : Elem (Ext K)}
    (hg : (Part.group label [.interface 1 n R1 d1, .space t n d2, .interface n 1 R2 d3]).build = .ok g) :
    g.Good ∧ g.prims = [.surf (Sys.interface 1 n (curvature R1)), .gap t, .surf (Sys.interface n 1 (curvature R2))] ∧
    g.mat.frontIndex = fin 1 := by
  have hg0 := hg
  unfold Part.build at hg
  split at hg
  · simp at hg
  · next es hes =>
    obtain ⟨g', hnew, rfl⟩ := Except.map_ok hg
    have hn : n ≠ 0 := by
      unfold Part.buildList at hes
      split at hes
      · simp at hes
      · next e he =>
        unfold Part.build at he
        obtain ⟨m, h1, -⟩ := Except.map_ok he
        exact (mkDielectric_ok h1).1
    have hv : Part.ValidList [Part.interface 1 n R1 d1, .space t n d2, .interface n 1 R2 d3] := by
      simp [Part.ValidList, Part.Valid, hn]
    have hleaf : ∀ e ∈ es, ∃ m, e = Elem.leaf m := by
      intro e he
      obtain ⟨p, hp, hb⟩ := buildList_mem hes e he
      simp only [List.mem_cons, List.not_mem_nil, or_false] at hp
      rcases hp with rfl | rfl | rfl <;>
      · unfold Part.build at hb
        obtain ⟨m, -, h⟩ := Except.map_ok hb
        exact ⟨m, h.symm⟩
    have hcl : CleanList es := by
      rw [CleanList_iff]
      intro e he
      obtain ⟨m, rfl⟩ := hleaf e he
      trivial
    obtain ⟨hgl, hpl⟩ := buildList_good hv hes hcl
    have hhead : ∃ m, es.head? = some (.leaf m) ∧ m.frontIndex = fin 1 := by
      unfold Part.buildList at hes
      split at hes
      · simp at hes
      · next e he =>
        split at hes
        · simp at hes
        · simp only [Except.ok.injEq] at hes
          subst hes
          unfold Part.build at he
          obtain ⟨m, h1, rfl⟩ := Except.map_ok he
          exact ⟨m, rfl, by rw [(mkDielectric_ok h1).2.2.2]; rfl⟩
    obtain ⟨m, hm1, hm2⟩ := hhead
    have hclean := new_leaves_clean hnew hleaf hgl (by
      rw [hm1]; intro e he
      simp only [Option.mem_def, Option.some.injEq] at he
      subst he; exact hm2)
    have hv' : (Part.group label [.interface 1 n R1 d1, .space t n d2, .interface n 1 R2 d3]).Valid := by
      unfold Part.Valid; exact hv
    obtain ⟨h1, h2⟩ := build_good hv' hg0 hclean
    refine ⟨h1, ?_, ?_⟩
    · rw [h2]; simp [Part.prims, Part.primsList]
    · unfold Group.toElem Elem.Clean at hclean
      have h3 : g'.elems.head? = some (.leaf m) := by
        cases es with
        | nil => simp at hm1
        | cons e es =>
          rw [Group.new_head hnew]
          simpa using hm1
      have := hclean.1 (.leaf m) (by rw [h3]; rfl)
      change g'.mat.frontIndex = _
      rw [this]; exact hm2

/-- **C29.** A thick lens has the entries, the length and the indices of its two surfaces separated by glass, put in a
group. -/
theorem C29_thickLens {n : K} {R1 R2 : Option K} {t : K} {diam d1 d2 d3 : Option K} {label : String} {e g : Elem (Ext K)}
    (he : (Part.thickLens n R1 R2 t diam).build = .ok e)
    (hg : (Part.group label [.interface 1 n R1 d1, .space t n d2, .interface n 1 R2 d3]).build = .ok g) :
    e.mat.A = g.mat.A ∧ e.mat.B = g.mat.B ∧ e.mat.C = g.mat.C ∧ e.mat.D = g.mat.D ∧ e.mat.L = g.mat.L ∧
    e.mat.frontIndex = g.mat.frontIndex ∧ e.mat.backIndex = g.mat.backIndex := by
  obtain ⟨h1, h2, h3⟩ := thickLens_group hg
  have he0 := he
  unfold Part.build at he
  obtain ⟨m, h4, rfl⟩ := Except.map_ok he
  have h5 := (mkThickOf_ok h4).2.2.2.2
  obtain ⟨h6, h7⟩ := build_good (p := Part.thickLens n R1 R2 t diam) trivial he0 trivial
  refine good_eq h6 h1 (h7.trans h2.symm) ?_
  rw [h3, h5]
  simp [Elem.mat, thickMat, Mat.one]

/-- **C29.** The same for a slab, with flat surfaces. -/
theorem C29_slab {n t : K} {diam d1 d2 d3 : Option K} {label : String} {e g : Elem (Ext K)}
    (he : (Part.slab n t diam).build = .ok e)
    (hg : (Part.group label [.interface 1 n none d1, .space t n d2, .interface n 1 none d3]).build = .ok g) :
    e.mat.A = g.mat.A ∧ e.mat.B = g.mat.B ∧ e.mat.C = g.mat.C ∧ e.mat.D = g.mat.D ∧ e.mat.L = g.mat.L ∧
    e.mat.frontIndex = g.mat.frontIndex ∧ e.mat.backIndex = g.mat.backIndex := by
  obtain ⟨h1, h2, h3⟩ := thickLens_group hg
  have he0 := he
  unfold Part.build mkSlab at he
  obtain ⟨m, h4, rfl⟩ := Except.map_ok he
  have h5 := (mkThickOf_ok (R1 := none) (R2 := none) h4).2.2.2.2
  obtain ⟨h6, h7⟩ := build_good (p := Part.slab n t diam) trivial he0 trivial
  refine good_eq h6 h1 (h7.trans h2.symm) ?_
  rw [h3, h5]
  simp [Elem.mat, thickMat, Mat.one]

/-- **C29.** Cutting a thick lens strictly inside gives its first surface followed by `z` of glass. -/
theorem C29_cut {n : K} {R1 R2 : Option K} {t : K} {diam : Option K} {e : Elem (Ext K)}
    (he : (Part.thickLens n R1 R2 t diam).build = .ok e) {z : K} (hz : z < t) :
    ∃ p, e.transferMatrix (fin z) = .ok p ∧
      Den p ((Sys.interface 1 n (curvature R1)).andThen (Sys.space z n)) := by
  unfold Part.build at he
  obtain ⟨m, h4, rfl⟩ := Except.map_ok he
  obtain ⟨hn, hR1, -, hd, rfl⟩ := mkThickOf_ok h4
  have hl1 : (Sys.interface 1 n (curv (optInf R1))).Lawful := Sys.interface_lawful _ one_ne_zero hn
  have hl2 : (Sys.space z n).Lawful := Sys.space_lawful z hn
  rw [← curv_optInf]
  refine ⟨_, ?_, mulRaw_den_matched (spaceMat_den z n (optInf diam))
    (interfaceMat_den 1 n (optInf R1) (optInf diam)) hl2 hl1 rfl⟩
  have e1 := mulMatrix_matched (spaceMat_den z n (optInf diam))
    (interfaceMat_den 1 n (optInf R1) (optInf diam)) hl2 hl1 rfl
  have e2 : mkDielectric 1 (fin n) (optInf R1) (optInf diam) = .ok (interfaceMat 1 n (optInf R1) (optInf diam)) := by
    rw [one_eq]; exact mkDielectric_eq one_ne_zero hn hR1 hd
  have hle : ((thickMat (.thickLens (fin n) (optInf R1) (optInf R2)) n (optInf R1) (optInf R2) t (optInf diam)).L ≤. fin z)
      = false := by
    change (fin t ≤. fin z) = false
    simpa using hz
  unfold Elem.transferMatrix Mat.transferMatrix
  change (if _ then _ else _) = _
  rw [if_neg (by simp [hle])]
  change (mkSpace (fin z) (fin n) (optInf diam) >>= fun s => mkDielectric 1 (fin n) (optInf R1) (optInf diam) >>= fun i =>
    s.mulMatrix i) = _
  rw [mkSpace_eq z hn hd, e2]
  exact e1

/-- **C29.** Flipping a thick lens gives the matrix of the lens with its surfaces exchanged and turned round:
`ThickLens(n, -R2, -R1, t)`, which is the reversed sequence of its flipped surfaces. -/
theorem C29_flip {n : K} {R1 R2 : Option K} {t : K} {diam : Option K} {e : Elem (Ext K)}
    (he : (Part.thickLens n R1 R2 t diam).build = .ok e) :
    e.flip.2 = .ok () ∧
    Den e.flip.1.mat (((Sys.interface 1 n (-curvature R2)).andThen (Sys.space t n)).andThen
      (Sys.interface n 1 (-curvature R1))) := by
  unfold Part.build at he
  obtain ⟨m, h4, rfl⟩ := Except.map_ok he
  obtain ⟨hn, hR1, hR2, hd, rfl⟩ := mkThickOf_ok h4
  obtain ⟨a1, b1⟩ := hR1.neg
  obtain ⟨a2, b2⟩ := hR2.neg
  unfold Elem.flip
  have hL : (thickMat (.thickLens (fin n) (optInf R1) (optInf R2)) n (optInf R1) (optInf R2) t (optInf diam)).flipBase.L =
    fin t := rfl
  have key : (thickMat (.thickLens (fin n) (optInf R1) (optInf R2)) n (optInf R1) (optInf R2) t (optInf diam)).flip =
      ({ thickMat (.thickLens (fin n) (-optInf R2) (-optInf R1)) n (-optInf R2) (-optInf R1) t (optInf diam) with
          isFlipped := true, frontVertex := some (fin t), backVertex := some 0 }, .ok ()) := by
    change Mat.flip.flipThick _ _ _ _ _ = _
    unfold Mat.flip.flipThick
    simp only [hL, thickA_eq t hn a2, thickB_eq t hn, thickC_eq t hn a2 a1, thickD_eq t hn a1]
    rfl
  rw [key]
  refine ⟨rfl, ?_⟩
  have := thickMat_den (.thickLens (fin n) (-optInf R2) (-optInf R1)) (-optInf R2) (-optInf R1) t (optInf diam) hn
  rw [b1, b2, curv_optInf, curv_optInf] at this
  exact ⟨this.A, this.B, this.C, this.D, this.L, this.nf, this.nb⟩

/-- The hypotheses of the theorems above are met. -/
example : (∃ e, (Part.thickLens (3/2 : ℚ) (some 10) none 4 (some 25)).build = .ok e ∧ e.Clean) ∧
    (∃ e, (Part.group "" [.interface 1 (3/2 : ℚ) (some 10) none, .space 4 (3/2) none,
      .interface (3/2) 1 none none]).build = .ok e ∧ e.Clean) ∧
    (∃ e, (Part.slab (3/2 : ℚ) 4 (some 25)).build = .ok e ∧ e.Clean) :=
  ⟨Part.runsB_iff (by decide +kernel), Part.runsB_iff (by decide +kernel), Part.runsB_iff (by decide +kernel)⟩

end RT
