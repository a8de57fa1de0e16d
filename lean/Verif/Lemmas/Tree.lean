import Verif.Lemmas.Group
import Verif.Lemmas.RayDen
import Verif.Lemmas.Elements
import Verif.Spec.Path

/-! # Consistent trees of elements -/

set_option linter.unusedSectionVars false

namespace RT
open PyNum Ext
variable {K : Type} [Field K] [LinearOrder K] [IsStrictOrderedRing K]

/-- the paraxial system read from the attributes -/
def Mat.sys (m : Mat (Ext K)) : Sys K :=
  ⟨m.A.val, m.B.val, m.C.val, m.D.val, m.L.val, m.frontIndex.val, m.backIndex.val⟩

theorem Den.sys {m : Mat (Ext K)} {s : Sys K} (h : Den m s) : m.sys = s := by
  simp [Mat.sys, h.A, h.B, h.C, h.D, h.L, h.nf, h.nb]

/-- action on `(height, angle)` -/
def Sys.out (s : Sys K) (r : K × K) : K × K := (s.outY r.1 r.2, s.outθ r.1 r.2)

theorem Sys.andThen_out (s t : Sys K) (r : K × K) : (s.andThen t).out r = t.out (s.out r) :=
  Prod.ext (Sys.andThen_outY s t r.1 r.2) (Sys.andThen_outθ s t r.1 r.2)

theorem Sys.SameABCD.out {s t : Sys K} (h : s.SameABCD t) (r : K × K) : s.out r = t.out r := by
  obtain ⟨a, b, c, d, -⟩ := h
  simp [Sys.out, Sys.outY, Sys.outθ, a, b, c, d]

theorem Sys.chain_out (s : Sys K) (l : List (Sys K)) (r : K × K) :
    (s.chain l).out r = l.foldl (fun r t => t.out r) (s.out r) := by
  induction l generalizing s with
  | nil => rfl
  | cons t l ih =>
    have : s.chain (t :: l) = (s.andThen t).chain l := rfl
    rw [this, ih, Sys.andThen_out]; rfl

theorem Sys.one_out (n : K) (r : K × K) : (Sys.one n).out r = r := by
  simp [Sys.out, Sys.outY, Sys.outθ, Sys.one]

theorem Sys.IsId.out {s : Sys K} (h : s.IsId) (r : K × K) : s.out r = r := by
  obtain ⟨a, b, c, d⟩ := h
  simp [Sys.out, Sys.outY, Sys.outθ, a, b, c, d]

/-- What makes a single element consistent: finite entries with the determinant of its indices, and entries
agreeing with the parameters its class keeps. -/
structure Mat.Good (m : Mat (Ext K)) : Prop where
  den : Den m m.sys
  lawful : m.sys.Lawful
  space : m.kind = .space → m.sys = Sys.space m.sys.len m.sys.nf
  thick : ∀ n R1 R2, m.kind = .thickLens n R1 R2 → ∃ k, n = fin k ∧ k ≠ 0 ∧ RadiusOk R1 ∧ RadiusOk R2 ∧
    DiamOk m.apertureDiameter ∧ m.sys = Sys.thick k (curv R1) (curv R2) m.sys.len
  slab : ∀ n R1 R2, m.kind = .slab n R1 R2 → ∃ k, n = fin k ∧ k ≠ 0 ∧ RadiusOk R1 ∧ RadiusOk R2 ∧
    curv R1 = 0 ∧ curv R2 = 0 ∧
    DiamOk m.apertureDiameter ∧ m.sys = Sys.thick k (curv R1) (curv R2) m.sys.len
  dielectric : ∀ n1 n2 R, m.kind = .dielectric n1 n2 R → RadiusOk R ∧ n1 = fin m.sys.nf ∧ n2 = fin m.sys.nb ∧
    m.sys = Sys.interface m.sys.nf m.sys.nb (curv R)

/-- the header of a group computed from consistent, index-matched elements, and reporting the index of its first
medium (a group of identities only reports 1 whatever the medium) -/
structure HeaderOk (m : Mat (Ext K)) (ss : List (Sys K)) : Prop where
  den : Den m m.sys
  lawful : m.sys.Lawful
  same : m.sys.SameABCD (Sys.chain (Sys.one 1) ss)
  matched : Sys.Matched m.sys.nf ss
  nb : m.sys.nb = Sys.endIndex m.sys.nf ss
  kind : m.kind = .group ∨ m.kind = .objective

mutual
/-- consistent element -/
def Elem.Good : Elem (Ext K) → Prop
  | .leaf m => m.Good
  | .group m _ es => GoodList es ∧ HeaderOk m (es.map fun e => e.mat.sys)
/-- consistent elements -/
def GoodList : List (Elem (Ext K)) → Prop
  | [] => True
  | e :: es => e.Good ∧ GoodList es
end

theorem GoodList_iff {es : List (Elem (Ext K))} : GoodList es ↔ ∀ e ∈ es, e.Good := by
  induction es with
  | nil => simp [GoodList]
  | cons e es ih => simp [GoodList, ih]

theorem Elem.Good.den {e : Elem (Ext K)} (h : e.Good) : Den e.mat e.mat.sys := by
  cases e with
  | leaf m => unfold Elem.Good at h; exact h.den
  | group m c es => unfold Elem.Good at h; exact h.2.den

theorem Elem.Good.lawful {e : Elem (Ext K)} (h : e.Good) : e.mat.sys.Lawful := by
  cases e with
  | leaf m => unfold Elem.Good at h; exact h.lawful
  | group m c es => unfold Elem.Good at h; exact h.2.lawful

/-- the systems of the elements -/
def sysList (es : List (Elem (Ext K))) : List (Sys K) := es.map fun e => e.mat.sys

theorem GoodList.den {es : List (Elem (Ext K))} (h : GoodList es) : DenList es (sysList es) := by
  induction es with
  | nil => exact .nil
  | cons e es ih => unfold GoodList at h; exact .cons h.1.den (ih h.2)

theorem GoodList.lawful {es : List (Elem (Ext K))} (h : GoodList es) : ∀ s ∈ sysList es, s.Lawful := by
  rw [GoodList_iff] at h
  simp only [sysList, List.mem_map]
  rintro s ⟨e, he, rfl⟩
  exact (h e he).lawful

open Classical in
/-- what light meets in a single element -/
noncomputable def Mat.prims (m : Mat (Ext K)) : List (Prim K) :=
  match m.kind with
  | .space => [.gap m.sys.len]
  | .thickLens n R1 R2 =>
    [.surf (Sys.interface 1 n.val (curv R1)), .gap m.sys.len, .surf (Sys.interface n.val 1 (curv R2))]
  | .slab n R1 R2 =>
    [.surf (Sys.interface 1 n.val (curv R1)), .gap m.sys.len, .surf (Sys.interface n.val 1 (curv R2))]
  | _ => if m.sys.len = 0 then [.surf m.sys] else [.block m.sys]

mutual
/-- what light meets in an element -/
noncomputable def Elem.prims : Elem (Ext K) → List (Prim K)
  | .leaf m => m.prims
  | .group _ _ es => primsList es
/-- what light meets in successive elements -/
noncomputable def primsList : List (Elem (Ext K)) → List (Prim K)
  | [] => []
  | e :: es => e.prims ++ primsList es
end

theorem Mat.Good.prims {m : Mat (Ext K)} (h : m.Good) :
    (∀ r, through m.prims r = m.sys.out r) ∧ extent m.prims = m.sys.len := by
  have hth : ∀ (k k1 k2 t : K) (r : K × K),
      through [.surf (Sys.interface 1 k k1), .gap t, .surf (Sys.interface k 1 k2)] r =
        (Sys.thick k k1 k2 t).out r := by
    intro k k1 k2 t r
    simp only [Sys.thick, Sys.andThen_out]
    simp [through, Prim.out, Sys.out, Sys.space, Sys.outY, Sys.outθ]
  unfold Mat.prims
  split
  · next hk =>
    refine ⟨fun r => ?_, by simp [extent, Prim.len]⟩
    rw [h.space hk]
    simp [through, Prim.out, Sys.out, Sys.space, Sys.outY, Sys.outθ]
  · next n R1 R2 hk =>
    obtain ⟨k, rfl, -, -, -, -, hs⟩ := h.thick n R1 R2 hk
    refine ⟨fun r => ?_, by simp [extent, Prim.len]⟩
    rw [Ext.val_fin, hth, ← hs]
  · next n R1 R2 hk =>
    obtain ⟨k, rfl, -, -, -, -, -, -, hs⟩ := h.slab n R1 R2 hk
    refine ⟨fun r => ?_, by simp [extent, Prim.len]⟩
    rw [Ext.val_fin, hth, ← hs]
  · split_ifs with h0
    · exact ⟨fun r => rfl, by simp [extent, Prim.len, h0]⟩
    · exact ⟨fun r => rfl, by simp [extent, Prim.len]⟩

mutual
theorem Elem.Good.prims : ∀ {e : Elem (Ext K)}, e.Good →
    (∀ r, through e.prims r = e.mat.sys.out r) ∧ extent e.prims = e.mat.sys.len
  | .leaf m, h => by unfold Elem.Good at h; unfold Elem.prims; exact h.prims
  | .group m c es, h => by
    unfold Elem.Good at h
    unfold Elem.prims
    obtain ⟨h1, h2⟩ := GoodList.prims h.1
    refine ⟨fun r => ?_, ?_⟩
    · rw [h1]
      exact ((h.2.same.out r).trans (by rw [Sys.chain_out, Sys.one_out]; rfl)).symm
    · rw [h2]
      have := h.2.same.2.2.2.2
      rw [Sys.chain_len] at this
      change _ = m.sys.len
      rw [this]; simp [Sys.one, sysList]
theorem GoodList.prims : ∀ {es : List (Elem (Ext K))}, GoodList es →
    (∀ r, through (primsList es) r = (sysList es).foldl (fun r t => t.out r) r) ∧
    extent (primsList es) = ((sysList es).map Sys.len).sum
  | [], _ => ⟨fun r => rfl, by simp [primsList, extent, sysList]⟩
  | e :: es, h => by
    unfold GoodList at h
    obtain ⟨h1, h2⟩ := Elem.Good.prims h.1
    obtain ⟨h3, h4⟩ := GoodList.prims h.2
    unfold primsList
    refine ⟨fun r => ?_, ?_⟩
    · rw [through_append, h1, h3]; rfl
    · rw [extent_append, h2, h4]; simp [sysList]
end

/-! ## Cutting -/

theorem Sys.glue_out (s t : Sys K) (r : K × K) : (s.glue t).out r = t.out (s.out r) := by
  rw [← Sys.andThen_out]; rfl

theorem Sys.glue_lawful' {s t : Sys K} (hs : s.Lawful) (ht : t.Lawful) (h : s.IsId ∨ t.IsId ∨ s.nb = t.nf) :
    (s.glue t).Lawful := by
  rcases h with h | h | h
  · exact Sys.glue_lawful hs ht (.inl h)
  · unfold Sys.Lawful
    rw [Sys.glue_det, h.det_eq, mul_one]
    simpa [Sys.glue, h, Sys.Lawful] using hs
  · exact Sys.glue_lawful hs ht (.inr h)

theorem mulMatrix_glue' {m r : Mat (Ext K)} {s t : Sys K} (hm : Den m t) (hr : Den r s)
    (hs : s.Lawful) (ht : t.Lawful) (h : s.IsId ∨ t.IsId ∨ s.nb = t.nf) :
    m.mulMatrix r = .ok (m.mulRaw r) ∧ Den (m.mulRaw r) (s.glue t) ∧ (s.glue t).Lawful := by
  have hd : Den (m.mulRaw r) (s.glue t) := mulRaw_den hm hr
  have hl := Sys.glue_lawful' hs ht h
  refine ⟨?_, hd, hl⟩
  unfold Mat.mulMatrix
  rw [init_lawful hd hl rfl rfl]
  rfl

/-- cutting a single element strictly inside -/
theorem Mat.Good.cut {m : Mat (Ext K)} (h : m.Good) {z : K} (h0 : 0 ≤ z) (hz : z < m.sys.len) :
    (∃ p u, m.transferMatrix (fin z) = .ok p ∧ Den p u ∧ u.Lawful ∧ u.len = z ∧ u.nf = m.sys.nf ∧
      ∀ r, rayAt m.prims z r = some (u.out r)) ∨
    (m.transferMatrix (fin z) = .error .typeError ∧ ∀ r, rayAt m.prims z r = none) := by
  have hL := h.den.L
  have hne : m.sys.len ≠ 0 := (lt_of_le_of_lt h0 hz).ne'
  have hthick : ∀ (k : K) (R1 : Ext K) (k2 : K), k ≠ 0 → RadiusOk R1 → DiamOk m.apertureDiameter →
      ∃ s i p u, mkSpace (fin z) (fin k) m.apertureDiameter = .ok s ∧
        mkDielectric 1 (fin k) R1 m.apertureDiameter = .ok i ∧
        s.mulMatrix i = .ok p ∧ Den p u ∧ u.Lawful ∧ u.len = z ∧ u.nf = 1 ∧
        ∀ r, rayAt [.surf (Sys.interface 1 k (curv R1)), .gap m.sys.len, .surf (Sys.interface k 1 k2)] z r =
          some (u.out r) := by
    intro k R1 k2 hk hR hdm
    have hl1 : (Sys.interface 1 k (curv R1)).Lawful := Sys.interface_lawful _ one_ne_zero hk
    have hl2 : (Sys.space z k).Lawful := Sys.space_lawful z hk
    have e1 := mulMatrix_matched (spaceMat_den z k m.apertureDiameter)
      (interfaceMat_den 1 k R1 m.apertureDiameter) hl2 hl1 rfl
    have e2 := mulRaw_den_matched (spaceMat_den z k m.apertureDiameter)
      (interfaceMat_den 1 k R1 m.apertureDiameter) hl2 hl1 rfl
    refine ⟨_, _, _, _, mkSpace_eq z hk hdm, ?_, e1, e2, hl1.andThen hl2 rfl, ?_, rfl, fun r => ?_⟩
    · rw [one_eq]; exact mkDielectric_eq one_ne_zero hk hR hdm
    · simp [Sys.andThen, Sys.interface, Sys.space]
    · rw [Sys.andThen_out]
      simp [rayAt, not_le.2 hz, Prim.out, Sys.out, Sys.space, Sys.outY, Sys.outθ]
  unfold Mat.transferMatrix Mat.prims
  split
  · next hk =>
    left
    have hs := h.space hk
    have hnf : m.sys.nf ≠ 0 := h.lawful.1
    refine ⟨_, _, ?_, spaceMat_den z m.sys.nf pinf, Sys.space_lawful z hnf, rfl, rfl, fun r => ?_⟩
    · rw [hL, h.den.nf]
      simp only [lt_fin, hz, decide_true, if_true]
      exact mkSpace_eq z hnf diamOk_pinf
    · simp [hk, rayAt, not_le.2 hz, Sys.out, Sys.space, Sys.outY, Sys.outθ]
  · next n R1 R2 hk =>
    left
    obtain ⟨k, rfl, hk0, hR1, -, hdm, hs⟩ := h.thick n R1 R2 hk
    obtain ⟨s, i, p, u, e1, e2, e3, e4, e5, e6, e7, e8⟩ := hthick k R1 (curv R2) hk0 hR1 hdm
    refine ⟨p, u, ?_, e4, e5, e6, ?_, by simpa only [hk, Ext.val_fin] using e8⟩
    · rw [hL]
      simp only [le_fin, not_le.2 hz, decide_false, Bool.false_eq_true, if_false, bind, Except.bind, e1, e2, e3]
    · rw [e7, hs]; rfl
  · next n R1 R2 hk =>
    left
    obtain ⟨k, rfl, hk0, hR1, -, hc, -, hdm, hs⟩ := h.slab n R1 R2 hk
    obtain ⟨s, i, p, u, e1, e2, e3, e4, e5, e6, e7, e8⟩ := hthick k pinf (curv R2) hk0 radiusOk_pinf hdm
    refine ⟨p, u, ?_, e4, e5, e6, ?_, ?_⟩
    · rw [hL]
      simp only [le_fin, not_le.2 hz, decide_false, Bool.false_eq_true, if_false, bind, Except.bind, e1, inf_eq,
        e2, e3]
    · rw [e7, hs]; rfl
    · simp only [hk]; rw [hc]; exact e8
  · right
    have h1 : (m.L ==. 0) = false := by rw [hL]; simp [hne]
    have h2 : (m.L ≤. fin z) = false := by rw [hL]; simp [hz]
    refine ⟨by rw [if_neg (by rw [h1]; simp), if_neg (by rw [h2]; simp)]; rfl, fun r => ?_⟩
    split <;> simp_all [rayAt]

/-- the product of what has been traversed: the identity with the indices of `Matrix()` as long as only identities
were met, else it runs from the first medium `n` to the current one `cur` -/
def Acc (acc : Sys K) (n cur : K) : Prop :=
  acc.Lawful ∧ ((acc.IsId ∧ acc.nf = 1 ∧ acc.nb = 1 ∧ cur = n) ∨ (acc.nf = n ∧ acc.nb = cur))

theorem Acc.glue {acc t : Sys K} {n cur : K} (h : Acc acc n cur) (ht : t.Lawful) (hc : t.nf = cur) :
    Acc (acc.glue t) n t.nb := by
  obtain ⟨hl, h⟩ := h
  have hcond : acc.IsId ∨ t.IsId ∨ acc.nb = t.nf := by
    rcases h with h | h
    · exact .inl h.1
    · exact .inr (.inr (h.2.trans hc.symm))
  refine ⟨Sys.glue_lawful' hl ht hcond, ?_⟩
  by_cases b : t.IsId
  · have e : t.nb = cur := by rw [← ht.nf_eq_nb b, hc]
    rcases h with ⟨h1, h2, h3, h4⟩ | ⟨h1, h2⟩
    · left
      refine ⟨(Sys.glue_isId_left h1).2 b, ?_, ?_, e.trans h4⟩ <;> simp [Sys.glue, b, h2, h3]
    · right; simp [Sys.glue, b, h1, h2, e]
  · right
    rcases h with ⟨h1, h2, h3, h4⟩ | ⟨h1, h2⟩
    · simp [Sys.glue, b, h1, hc, h4]
    · refine ⟨?_, by simp [Sys.glue, b]⟩
      by_cases a : acc.IsId
      · have := hl.nf_eq_nb a
        simp only [Sys.glue, b, a, if_true, if_false]
        rw [hc, ← h2, ← this, h1]
      · simp [Sys.glue, b, a, h1]

/-- the last, partial factor -/
theorem Acc.glue_part {acc p : Sys K} {n cur : K} (h : Acc acc n cur)
    (hc : p.IsId ∨ p.nf = cur) :
    (acc.IsId ∨ p.IsId ∨ acc.nb = p.nf) ∧
    (((acc.glue p).IsId ∧ (acc.glue p).nf = 1) ∨ (acc.glue p).nf = n) := by
  obtain ⟨hl, h⟩ := h
  have hcond : acc.IsId ∨ p.IsId ∨ acc.nb = p.nf := by
    rcases h with h | h
    · exact .inl h.1
    · rcases hc with hc | hc
      · exact .inr (.inl hc)
      · exact .inr (.inr (h.2.trans hc.symm))
  refine ⟨hcond, ?_⟩
  by_cases b : p.IsId
  · rcases h with ⟨h1, h2, h3, h4⟩ | ⟨h1, h2⟩
    · left; exact ⟨(Sys.glue_isId_left h1).2 b, by simp [Sys.glue, b, h2]⟩
    · right; simp [Sys.glue, b, h1]
  · right
    have hc := hc.resolve_left b
    rcases h with ⟨h1, h2, h3, h4⟩ | ⟨h1, h2⟩
    · simp [Sys.glue, b, h1, hc, h4]
    · by_cases a : acc.IsId
      · have := hl.nf_eq_nb a
        simp only [Sys.glue, b, a, if_true, if_false]
        rw [hc, ← h2, ← this, h1]
      · simp [Sys.glue, b, a, h1]

/-- the answer of a cut: the system up to `z`, or `TypeError` inside a black box -/
def CutAnswer (res : Except PyErr (Mat (Ext K))) (ps : List (Prim K)) (z : K) (acc : Sys K) (n : K) : Prop :=
  (∃ t u, res = .ok t ∧ Den t u ∧ u.Lawful ∧ u.len = acc.len + min z (extent ps) ∧
    ((u.IsId ∧ u.nf = 1) ∨ u.nf = n) ∧ ∀ r, rayAt ps z (acc.out r) = some (u.out r)) ∨
  (res = .error .typeError ∧ ∀ r, rayAt ps z r = none)

theorem extent_le {ps : List (Prim K)} {p : Prim K} (h : ∀ p ∈ ps, 0 ≤ p.len) (hp : p ∈ ps) : p.len ≤ extent ps :=
  List.single_le_sum (by simpa using h) _ (List.mem_map_of_mem hp)

mutual
theorem Elem.Good.cut : ∀ {e : Elem (Ext K)}, e.Good → (∀ p ∈ e.prims, 0 ≤ p.len) →
    ∀ {z : K}, 0 ≤ z → z < e.mat.sys.len →
    (∃ p u, e.transferMatrix (fin z) = .ok p ∧ Den p u ∧ u.Lawful ∧ u.len = z ∧ (u.IsId ∨ u.nf = e.mat.sys.nf) ∧
      ∀ r, rayAt e.prims z r = some (u.out r)) ∨
    (e.transferMatrix (fin z) = .error .typeError ∧ ∀ r, rayAt e.prims z r = none)
  | .leaf m, h, _, z, h0, hz => by
    unfold Elem.Good at h
    unfold Elem.transferMatrix Elem.prims
    rcases h.cut h0 hz with ⟨p, u, h1, h2, h3, h4, h5, h6⟩ | h'
    · exact .inl ⟨p, u, h1, h2, h3, h4, .inr h5, h6⟩
    · exact .inr h'
  | .group m c es, h, hn, z, h0, hz => by
    have hp := (Elem.Good.prims h).2
    unfold Elem.Good at h
    unfold Elem.prims at hn hp ⊢
    unfold Elem.transferMatrix
    rcases GoodList.cut h.1 hn h0 h.2.matched one_den
      ⟨Sys.one_lawful one_ne_zero, .inl ⟨one_isId 1, rfl, rfl, rfl⟩⟩ with
      ⟨t, u, h1, h2, h3, h4, h5, h6⟩ | h'
    · left
      refine ⟨t, u, h1, h2, h3, ?_, ?_, fun r => by simpa [Sys.one_out] using h6 r⟩
      · rw [h4, hp, min_eq_left]
        · simp [Sys.one]
        · exact hz.le
      · rcases h5 with h5 | h5
        · exact .inl h5.1
        · exact .inr h5
    · exact .inr h'
theorem GoodList.cut : ∀ {es : List (Elem (Ext K))}, GoodList es → (∀ p ∈ primsList es, 0 ≤ p.len) →
    ∀ {z : K}, 0 ≤ z → ∀ {cur : K}, Sys.Matched cur (sysList es) →
    ∀ {acc : Mat (Ext K)} {a : Sys K}, Den acc a → ∀ {n : K}, Acc a n cur →
    CutAnswer (transferMatrixList es (fin z) acc) (primsList es) z a n
  | [], _, _, z, h0, cur, hm, acc, a, ha, n, hacc => by
    left
    refine ⟨acc, a, rfl, ha, hacc.1, ?_, ?_, fun r => rfl⟩
    · simp [primsList, extent, h0]
    · rcases hacc.2 with h | h
      · exact .inl ⟨h.1, h.2.1⟩
      · exact .inr h.1
  | e :: es, h, hn, z, h0, cur, hm, acc, a, ha, n, hacc => by
    unfold GoodList at h
    unfold primsList at hn ⊢
    obtain ⟨hp1, hp2⟩ := h.1.prims
    have hn1 : ∀ p ∈ e.prims, 0 ≤ p.len := fun p hp => hn p (by simp [hp])
    have hn2 : ∀ p ∈ primsList es, 0 ≤ p.len := fun p hp => hn p (by simp [hp])
    have hd := h.1.den
    have hl := h.1.lawful
    obtain ⟨hm1, hm2⟩ := hm
    unfold transferMatrixList
    by_cases hz : e.mat.sys.len ≤ z
    · have hle : (e.mat.L ≤. fin z) = true := by rw [hd.L]; simpa using hz
      have hcond : a.IsId ∨ e.mat.sys.IsId ∨ a.nb = e.mat.sys.nf := by
        rcases hacc.2 with h | h
        · exact .inl h.1
        · exact .inr (.inr (h.2.trans hm1.symm))
      obtain ⟨e1, e2, e3⟩ := mulMatrix_glue' hd ha hacc.1 hl hcond
      rw [if_pos hle, e1, hd.L]
      simp only [fin_sub_fin]
      have hz' : extent e.prims ≤ z := by rw [hp2]; exact hz
      have ih := GoodList.cut h.2 hn2 (sub_nonneg.2 hz) hm2 e2 (hacc.glue hl hm1)
      rcases ih with ⟨t, u, h1, h2, h3, h4, h5, h6⟩ | ⟨h1, h2⟩
      · left
        refine ⟨t, u, h1, h2, h3, ?_, h5, fun r => ?_⟩
        · rw [h4, extent_append, hp2]
          have : (a.glue e.mat.sys).len = a.len + e.mat.sys.len := rfl
          rw [this]
          have : min z (e.mat.sys.len + extent (primsList es)) =
              e.mat.sys.len + min (z - e.mat.sys.len) (extent (primsList es)) := by
            rw [← min_add_add_left]; simp
          rw [this, add_assoc]
        · rw [rayAt_append_ge hn1 _ hz', hp1, hp2, ← h6 r, Sys.glue_out]
      · right
        refine ⟨h1, fun r => ?_⟩
        rw [rayAt_append_ge hn1 _ hz', hp2]
        exact h2 _
    · have hlt := not_le.1 hz
      have hle : (e.mat.L ≤. fin z) = false := by rw [hd.L]; simpa using hlt
      rw [if_neg (by simp [hle])]
      have hlt' : z < extent e.prims := by rw [hp2]; exact hlt
      rcases Elem.Good.cut h.1 hn1 h0 hlt with ⟨p, u, h1, h2, h3, h4, h5, h6⟩ | ⟨h1, h2⟩
      · left
        rw [h1]
        have h5' : u.IsId ∨ u.nf = cur := by rw [← hm1]; exact h5
        obtain ⟨e0, e4⟩ := hacc.glue_part h5'
        obtain ⟨e1, e2, e3⟩ := mulMatrix_glue' h2 ha hacc.1 h3 e0
        refine ⟨_, _, e1, e2, e3, ?_, e4, fun r => ?_⟩
        · have : (a.glue u).len = a.len + u.len := rfl
          rw [this, h4, extent_append, hp2, min_eq_left]
          have := extent_nonneg hn2
          linarith
        · rw [rayAt_append_lt _ h0 hlt', h6, Sys.glue_out]
      · right
        rw [h1]
        refine ⟨rfl, fun r => ?_⟩
        rw [rayAt_append_lt _ h0 hlt']
        exact h2 r
end

end RT
