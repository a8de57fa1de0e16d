import Verif.Lemmas.Den

/-! # Products of chains of elements -/

set_option linter.unusedSectionVars false

namespace RT
open PyNum Ext
variable {K : Type} [Field K] [LinearOrder K] [IsStrictOrderedRing K]

open Classical in
/-- The system described by the code for "`s` first, then `t`": the indices of an identity are ignored. -/
noncomputable def Sys.glue (s t : Sys K) : Sys K :=
  { (s.andThen t) with
    nf := if t.IsId then s.nf else if s.IsId then t.nf else s.nf
    nb := if t.IsId then s.nb else if s.IsId then t.nb else t.nb }

theorem Sys.glue_eq {s t : Sys K} (h : s.nb = t.nf) (hs : s.Lawful) (ht : t.Lawful) :
    s.glue t = s.andThen t := by
  have e1 : s.IsId → s.nf = s.nb := hs.nf_eq_nb
  have e2 : t.IsId → t.nf = t.nb := ht.nf_eq_nb
  unfold Sys.glue Sys.andThen
  simp only [Sys.mk.injEq, true_and]
  by_cases a : s.IsId <;> by_cases b : t.IsId <;> simp_all

theorem Sys.glue_det (s t : Sys K) : (s.glue t).det = s.det * t.det := Sys.andThen_det s t

theorem Sys.IsId.det_eq {s : Sys K} (h : s.IsId) : s.det = 1 := by
  obtain ⟨h1, h2, h3, h4⟩ := h; simp [Sys.det, h1, h2, h3, h4]

theorem Sys.glue_lawful {s t : Sys K} (hs : s.Lawful) (ht : t.Lawful) (h : s.IsId ∨ s.nb = t.nf) :
    (s.glue t).Lawful := by
  rcases h with h | h
  · unfold Sys.Lawful
    rw [Sys.glue_det, h.det_eq, one_mul]
    by_cases b : t.IsId
    · simpa [Sys.glue, b, b.det_eq, h.det_eq, Sys.Lawful] using hs
    · simpa [Sys.glue, b, h, Sys.Lawful] using ht
  · rw [Sys.glue_eq h hs ht]; exact hs.andThen ht h

theorem Sys.glue_isId_left {s t : Sys K} (hs : s.IsId) : (s.glue t).IsId ↔ t.IsId := by
  obtain ⟨h1, h2, h3, h4⟩ := hs
  simp [Sys.IsId, Sys.glue, Sys.andThen, h1, h2, h3, h4]

theorem mulMatrix_glue {m r : Mat (Ext K)} {s t : Sys K} (hm : Den m t) (hr : Den r s)
    (hs : s.Lawful) (ht : t.Lawful) (h : s.IsId ∨ s.nb = t.nf) :
    m.mulMatrix r = .ok (m.mulRaw r) ∧ Den (m.mulRaw r) (s.glue t) := by
  have hd : Den (m.mulRaw r) (s.glue t) := mulRaw_den hm hr
  refine ⟨?_, hd⟩
  unfold Mat.mulMatrix
  rw [init_lawful hd (Sys.glue_lawful hs ht h) rfl rfl]
  rfl

/-- `es` are finite elements standing for the systems `ss`. -/
abbrev DenList (es : List (Elem (Ext K))) (ss : List (Sys K)) : Prop :=
  List.Forall₂ (fun e s => Den e.mat s) es ss

/-- The product computed by the code for a chain of consistent, index-matched elements. -/
noncomputable def Sys.glueAll (s : Sys K) (ss : List (Sys K)) : Sys K := ss.foldl Sys.glue s

theorem transferMatrixList_glue {es : List (Elem (Ext K))} {ss : List (Sys K)} (hd : DenList es ss)
    (hl : ∀ s ∈ ss, s.Lawful) {n : K} (hm : Sys.Matched n ss)
    {acc : Mat (Ext K)} {s0 : Sys K} (ha : Den acc s0) (h0 : s0.Lawful) (h : s0.IsId ∨ s0.nb = n) :
    ∃ t, transferMatrixList es pinf acc = .ok t ∧ Den t (s0.glueAll ss) ∧ (s0.glueAll ss).Lawful ∧
      (es ≠ [] → t.apertureDiameter = pinf ∧ t.apertureNA = pinf ∧ t.kind = .matrix) := by
  induction hd generalizing n acc s0 with
  | nil => exact ⟨acc, rfl, ha, h0, by simp⟩
  | @cons e s es ss he _ ih =>
    obtain ⟨hnf, hm⟩ := hm
    have hs : s.Lawful := hl s (by simp)
    have h' : s0.IsId ∨ s0.nb = s.nf := by rw [hnf]; exact h
    obtain ⟨hok, hden⟩ := mulMatrix_glue he ha h0 hs h'
    have hnext : (s0.glue s).IsId ∨ (s0.glue s).nb = s.nb := by
      by_cases b : s.IsId
      · rcases h' with h' | h'
        · left; exact (Sys.glue_isId_left h').2 b
        · right; simp [Sys.glue, b, h', hs.nf_eq_nb b]
      · right; simp [Sys.glue, b]
    obtain ⟨t, h1, h2, h3, h4⟩ := ih (fun s hs => hl s (by simp [hs])) hm hden
      (Sys.glue_lawful h0 hs h') hnext
    refine ⟨t, ?_, h2, h3, fun _ => ?_⟩
    · unfold transferMatrixList
      rw [he.L]
      simp only [le_fin_pinf, if_true, hok, pinf_sub_fin, h1]
    · by_cases hes : es = []
      · subst hes
        simp only [transferMatrixList, Except.ok.injEq] at h1
        subst h1
        exact ⟨rfl, rfl, rfl⟩
      · exact h4 hes

theorem Sys.glueAll_sameABCD (s s' : Sys K) (h : s.SameABCD s') (ss : List (Sys K)) :
    (s.glueAll ss).SameABCD (s'.chain ss) := by
  induction ss generalizing s s' with
  | nil => exact h
  | cons t ss ih =>
    refine ih _ _ ?_
    obtain ⟨h1, h2, h3, h4, h5⟩ := h
    simp [SameABCD, glue, andThen, h1, h2, h3, h4, h5]

theorem Sys.glueAll_allId {s : Sys K} {ss : List (Sys K)} (h : ∀ t ∈ ss, t.IsId) :
    (s.glueAll ss).nf = s.nf ∧ (s.glueAll ss).nb = s.nb := by
  induction ss generalizing s with
  | nil => exact ⟨rfl, rfl⟩
  | cons t ss ih =>
    have := @ih (s.glue t) (fun u hu => h u (by simp [hu]))
    have ht : t.IsId := h t (by simp)
    simpa [glueAll, glue, ht] using this

theorem Sys.glueAll_matched {s : Sys K} {ss : List (Sys K)} (hs : s.Lawful) (hl : ∀ t ∈ ss, t.Lawful)
    (hm : Matched s.nb ss) : s.glueAll ss = s.chain ss ∧ (s.chain ss).nf = s.nf ∧
      (s.chain ss).nb = endIndex s.nb ss := by
  induction ss generalizing s with
  | nil => exact ⟨rfl, rfl, rfl⟩
  | cons t ss ih =>
    obtain ⟨h1, h2⟩ := hm
    have ht := hl t (by simp)
    have := @ih (s.andThen t) (hs.andThen ht h1.symm) (fun u hu => hl u (by simp [hu])) h2
    simp only [glueAll, chain, List.foldl_cons, glue_eq h1.symm hs ht]
    exact this

theorem Sys.glueAll_nonId {s : Sys K} {ss : List (Sys K)} {n : K} (hs : s.IsId) (h0 : s.Lawful)
    (hl : ∀ t ∈ ss, t.Lawful) (hm : Matched n ss) (h : ∃ t ∈ ss, ¬ t.IsId) :
    (s.glueAll ss).nf = n ∧ (s.glueAll ss).nb = endIndex n ss := by
  induction ss generalizing s n with
  | nil => simp at h
  | cons t ss ih =>
    obtain ⟨h1, h2⟩ := hm
    have ht := hl t (by simp)
    by_cases b : t.IsId
    · have h3 : ∃ u ∈ ss, ¬ u.IsId := by
        obtain ⟨u, hu, hid⟩ := h
        rcases List.mem_cons.1 hu with rfl | hu
        · exact absurd b hid
        · exact ⟨u, hu, hid⟩
      have := @ih (s.glue t) t.nb ((glue_isId_left hs).2 b) (glue_lawful h0 ht (.inl hs))
        (fun u hu => hl u (by simp [hu])) h2 h3
      simp only [glueAll, List.foldl_cons, endIndex]
      rw [← h1, ht.nf_eq_nb b]
      exact this
    · have hnb : (s.glue t).nb = t.nb := by simp [glue, b]
      have hnf : (s.glue t).nf = t.nf := by simp [glue, b, hs]
      have := @glueAll_matched _ _ _ _ (s.glue t) ss (glue_lawful h0 ht (.inl hs))
        (fun u hu => hl u (by simp [hu])) (by rw [hnb]; exact h2)
      simp only [glueAll, List.foldl_cons, endIndex] at this ⊢
      rw [this.1, this.2.1, this.2.2, hnb, hnf]
      exact ⟨h1, rfl⟩

theorem one_den : Den (Mat.one : Mat (Ext K)) (Sys.one 1) := by
  constructor <;> simp [Mat.one, Sys.one]

theorem one_isId (n : K) : (Sys.one n).IsId := ⟨rfl, rfl, rfl, rfl⟩

/-- The full transfer matrix of a list of consistent, index-matched elements is accepted and is the product. -/
theorem fullTransfer {es : List (Elem (Ext K))} {ss : List (Sys K)} (hd : DenList es ss)
    (hl : ∀ s ∈ ss, s.Lawful) {n : K} (hm : Sys.Matched n ss) :
    ∃ t u, transferMatrixList es inf Mat.one = .ok t ∧ Den t u ∧ u.Lawful ∧
      u.SameABCD (Sys.chain (Sys.one 1) ss) ∧
      ((∀ s ∈ ss, s.IsId) → u.nf = 1 ∧ u.nb = 1) ∧
      ((∃ s ∈ ss, ¬ s.IsId) → u.nf = n ∧ u.nb = Sys.endIndex n ss) ∧
      t.apertureDiameter = pinf ∧ t.apertureNA = pinf ∧ t.kind = .matrix := by
  have h1 : (Sys.one (1 : K)).Lawful := Sys.one_lawful one_ne_zero
  obtain ⟨t, h2, h3, h4, h5⟩ := transferMatrixList_glue hd hl hm one_den h1 (.inl (one_isId 1))
  refine ⟨t, _, h2, h3, h4, Sys.glueAll_sameABCD _ _ ⟨rfl, rfl, rfl, rfl, rfl⟩ _, Sys.glueAll_allId,
    Sys.glueAll_nonId (one_isId 1) h1 hl hm, ?_⟩
  by_cases hes : es = []
  · subst hes
    simp only [transferMatrixList, Except.ok.injEq] at h2
    subst h2
    exact ⟨rfl, rfl, rfl⟩
  · exact h5 hes

end RT
