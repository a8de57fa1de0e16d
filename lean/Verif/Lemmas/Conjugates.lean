import Verif.Lemmas.Imaging

/-! # The loop of `intermediateConjugates()` and the largest diameter -/

set_option linter.unusedSectionVars false

namespace RT
open PyNum Ext
variable {K : Type} [Field K] [LinearOrder K] [IsStrictOrderedRing K]

/-- The plane at `P` is an image of the plane at 0 through the first `i` stages, with magnification `M`: all rays of a point
of height `y` meet at the height `M y` of the plane (extended if it is not behind them). -/
def ConjugateAfter (ss : List (Stage K)) (i : Nat) (P M : K) : Prop :=
  ∀ y θ, (rayBefore ss i (y, θ)).1 + (P - zBefore ss i) * (rayBefore ss i (y, θ)).2 = M * y

/-! ## Single elements in a row -/

mutual
theorem transferMatrices_leaves {F : Type} : ∀ (e : Elem F), e.transferMatrices = leaves e.items
  | .leaf m => by simp [Elem.transferMatrices, Elem.items, leaves]
  | .group m c es => by
    simp only [Elem.transferMatrices, Elem.items, leaves]
    exact transferMatricesList_leaves es
theorem transferMatricesList_leaves {F : Type} : ∀ (es : List (Elem F)), transferMatricesList es = leaves (itemsList es)
  | [] => rfl
  | e :: es => by
    simp only [transferMatricesList, itemsList, leaves_append]
    rw [transferMatrices_leaves e, transferMatricesList_leaves es]
end

theorem matched_append {n : K} {ss ts : List (Sys K)} (h1 : Sys.Matched n ss) (h2 : Sys.Matched (Sys.endIndex n ss) ts) :
    Sys.Matched n (ss ++ ts) ∧ Sys.endIndex n (ss ++ ts) = Sys.endIndex (Sys.endIndex n ss) ts := by
  induction ss generalizing n with
  | nil => exact ⟨h2, rfl⟩
  | cons s ss ih =>
    obtain ⟨a, b⟩ := ih h1.2 h2
    exact ⟨⟨h1.1, a⟩, b⟩

mutual
/-- The single elements of a consistent tree are consistent and index-matched. -/
theorem Elem.Good.flat : ∀ {e : Elem (Ext K)}, e.Good →
    (∀ m ∈ leaves e.items, m.Good) ∧ Sys.Matched e.mat.sys.nf ((leaves e.items).map Mat.sys) ∧
      Sys.endIndex e.mat.sys.nf ((leaves e.items).map Mat.sys) = e.mat.sys.nb
  | .leaf m, h => by
    unfold Elem.Good at h
    simp [Elem.items, leaves, h, Sys.Matched, Sys.endIndex, Elem.mat]
  | .group m c es, h => by
    unfold Elem.Good at h
    obtain ⟨h1, h2⟩ := h
    obtain ⟨a, b, c⟩ := GoodList.flat h1 h2.matched
    simp only [Elem.items, leaves]
    exact ⟨a, b, c.trans h2.nb.symm⟩
theorem GoodList.flat : ∀ {es : List (Elem (Ext K))}, GoodList es → ∀ {n : K}, Sys.Matched n (sysList es) →
    (∀ m ∈ leaves (itemsList es), m.Good) ∧ Sys.Matched n ((leaves (itemsList es)).map Mat.sys) ∧
      Sys.endIndex n ((leaves (itemsList es)).map Mat.sys) = Sys.endIndex n (sysList es)
  | [], _, n, _ => by simp [itemsList, leaves, Sys.Matched, sysList]
  | e :: es, h, n, hm => by
    unfold GoodList at h
    obtain ⟨hm1, hm2⟩ := hm
    obtain ⟨a1, b1, c1⟩ := Elem.Good.flat h.1
    obtain ⟨a2, b2, c2⟩ := GoodList.flat h.2 hm2
    simp only [itemsList, leaves_append, List.map_append]
    rw [hm1] at b1 c1
    obtain ⟨d1, d2⟩ := matched_append b1 (by rw [c1]; exact b2)
    refine ⟨?_, d1, ?_⟩
    · intro m hm
      rcases List.mem_append.1 hm with hm | hm
      · exact a1 m hm
      · exact a2 m hm
    · rw [d2, c1, c2]; rfl
end

/-! ## The loop -/

/-- two planes the code does not distinguish -/
def Near (p q : K × K) : Prop := |p.1 - q.1| < 1 / 1000 ∧ |p.2 - q.2| < 1 / 1000

/-- a plane as computed -/
def finPlane (p : K × K) : Ext K × Ext K := (fin p.1, fin p.2)

theorem planeKnown_iff (planes : List (K × K)) (P M : K) :
    planeKnown (planes.map finPlane) (fin P) (fin M) = true ↔ ∃ q ∈ planes, Near q (P, M) := by
  have e : (lit (1 / 1000) : Ext K) = fin (1 / 1000) := by rw [lit_eq]; norm_num
  simp only [planeKnown, List.any_map, List.any_eq_true, Function.comp, finPlane, areAbsolutelyAlmostEqual, e,
    Bool.and_eq_true, Near]
  simp

/-- For a lawful system the conjugate plane is unique; it exists when `d ≠ 0`. -/
theorem conjugate_unique {t : Sys K} (ht : t.Lawful) {x M : K} :
    (∀ y θ, t.outY y θ + x * t.outθ y θ = M * y) ↔ t.d ≠ 0 ∧ x = -t.b / t.d ∧ M = t.a + x * t.c := by
  have hdet : t.det ≠ 0 := by rw [ht.2.2]; exact div_ne_zero ht.1 ht.2.1
  constructor
  · intro h
    have h1 := h 0 1
    have h2 := h 1 0
    simp only [Sys.outY, Sys.outθ, mul_zero, mul_one, zero_add, add_zero] at h1 h2
    have hd : t.d ≠ 0 := by
      intro hd
      apply hdet
      rw [hd] at h1
      simp only [mul_zero, add_zero] at h1
      simp [Sys.det, hd, h1]
    exact ⟨hd, by field_simp; linear_combination h1, h2.symm⟩
  · rintro ⟨hd, rfl, rfl⟩ y θ
    simp only [Sys.outY, Sys.outθ]
    field_simp
    ring

theorem conjugatesLoop_spec {ms : List (Mat (Ext K))} {ss : List (Stage K)} (hst : List.Forall₂ StageOf ms ss)
    (hg : ∀ m ∈ ms, m.Good) {cur : K} (hm : Sys.Matched cur (ms.map Mat.sys)) {acc : Mat (Ext K)} {a : Sys K}
    (ha : Den acc a) {n : K} (hacc : Acc a n cur) (old : List (K × K)) :
    ∃ new : List (K × K), conjugatesLoop ms acc (old.map finPlane) = .ok ((old ++ new).map finPlane) ∧
      (∀ q ∈ new, q.1 ≠ 0 ∧ ∃ i, 0 < i ∧ i ≤ ss.length ∧
        ∀ r, (rayBefore ss i (a.out r)).1 + (q.1 - (a.len + zBefore ss i)) * (rayBefore ss i (a.out r)).2 = q.2 * r.1) ∧
      (∀ i P M, 0 < i → i ≤ ss.length → P ≠ 0 →
        (∀ r, (rayBefore ss i (a.out r)).1 + (P - (a.len + zBefore ss i)) * (rayBefore ss i (a.out r)).2 = M * r.1) →
        ∃ q ∈ old ++ new, q = (P, M) ∨ Near q (P, M)) ∧
      (old.Pairwise (fun p q => ¬ Near p q) → (old ++ new).Pairwise (fun p q => ¬ Near p q)) := by
  induction hst generalizing cur acc a old with
  | nil =>
    refine ⟨[], by simp [conjugatesLoop], by simp, ?_, by simp⟩
    intro i P M h1 h2; simp at h2; omega
  | @cons m st ms ss h1 h2 ih =>
    have hmg := hg m (by simp)
    obtain ⟨hm1, hm2⟩ := hm
    have hcond : a.IsId ∨ m.sys.IsId ∨ a.nb = m.sys.nf := by
      rcases hacc.2 with h | h
      · exact .inl h.1
      · exact .inr (.inr (h.2.trans hm1.symm))
    obtain ⟨e1, e2, e3⟩ := mulMatrix_glue' hmg.den ha hacc.1 hmg.lawful hcond
    have hout : ∀ r, (a.glue m.sys).out r = st.out (a.out r) := by
      intro r
      rw [Sys.glue_out]
      have hA := h1.A; have hB := h1.B; have hC := h1.C; have hD := h1.D
      rw [hmg.den.A] at hA; rw [hmg.den.B] at hB; rw [hmg.den.C] at hC; rw [hmg.den.D] at hD
      simp only [Ext.fin.injEq] at hA hB hC hD
      simp [Sys.out, Sys.outY, Sys.outθ, Stage.out, hA, hB, hC, hD]
    have hlen : (a.glue m.sys).len = a.len + st.len := by
      have hL := h1.L
      rw [hmg.den.L] at hL
      simp only [Ext.fin.injEq] at hL
      change a.len + m.sys.len = _
      rw [hL]
    set t := a.glue m.sys with ht
    have ihh := ih (fun m' h' => hg m' (by simp [h'])) hm2 e2 (hacc.glue hmg.lawful hm1)
    -- the planes after this element and after the next ones
    have shift : ∀ i P M, (∀ r, (rayBefore (st :: ss) (i + 1) (a.out r)).1 +
          (P - (a.len + zBefore (st :: ss) (i + 1))) * (rayBefore (st :: ss) (i + 1) (a.out r)).2 = M * r.1) ↔
        (∀ r, (rayBefore ss i (t.out r)).1 + (P - (t.len + zBefore ss i)) * (rayBefore ss i (t.out r)).2 = M * r.1) := by
      intro i P M
      refine forall_congr' fun r => ?_
      rw [hout, hlen]
      simp [rayBefore, zBefore, add_assoc]
    have first : ∀ P M, (∀ r, (rayBefore (st :: ss) 1 (a.out r)).1 +
          (P - (a.len + zBefore (st :: ss) 1)) * (rayBefore (st :: ss) 1 (a.out r)).2 = M * r.1) ↔
        t.d ≠ 0 ∧ P - t.len = -t.b / t.d ∧ M = t.a + (P - t.len) * t.c := by
      intro P M
      rw [shift 0, ← conjugate_unique e3]
      constructor
      · intro h y θ
        have := h (y, θ)
        simpa [rayBefore, zBefore, Sys.out] using this
      · rintro h ⟨y, θ⟩
        have := h y θ
        simpa [rayBefore, zBefore, Sys.out] using this
    -- assembling
    have glue : ∀ (old' : List (K × K)) (mid : List (K × K)), old' = old ++ mid →
        conjugatesLoop (m :: ms) acc (old.map finPlane) = conjugatesLoop ms (m.mulRaw acc) (old'.map finPlane) →
        (∀ q ∈ mid, q.1 ≠ 0 ∧ t.d ≠ 0 ∧ q.1 - t.len = -t.b / t.d ∧ q.2 = t.a + (q.1 - t.len) * t.c) →
        (∀ P M, P ≠ 0 → t.d ≠ 0 → P - t.len = -t.b / t.d → M = t.a + (P - t.len) * t.c →
          ∃ q ∈ old', q = (P, M) ∨ Near q (P, M)) →
        (old.Pairwise (fun p q => ¬ Near p q) → old'.Pairwise (fun p q => ¬ Near p q)) →
        ∃ new : List (K × K), conjugatesLoop (m :: ms) acc (old.map finPlane) = .ok ((old ++ new).map finPlane) ∧
          (∀ q ∈ new, q.1 ≠ 0 ∧ ∃ i, 0 < i ∧ i ≤ (st :: ss).length ∧
            ∀ r, (rayBefore (st :: ss) i (a.out r)).1 +
              (q.1 - (a.len + zBefore (st :: ss) i)) * (rayBefore (st :: ss) i (a.out r)).2 = q.2 * r.1) ∧
          (∀ i P M, 0 < i → i ≤ (st :: ss).length → P ≠ 0 →
            (∀ r, (rayBefore (st :: ss) i (a.out r)).1 +
              (P - (a.len + zBefore (st :: ss) i)) * (rayBefore (st :: ss) i (a.out r)).2 = M * r.1) →
            ∃ q ∈ old ++ new, q = (P, M) ∨ Near q (P, M)) ∧
          (old.Pairwise (fun p q => ¬ Near p q) → (old ++ new).Pairwise (fun p q => ¬ Near p q)) := by
      rintro old' mid hold hloop hmid hcomp hpair
      obtain ⟨new, n1, n2, n3, n4⟩ := ihh old'
      refine ⟨mid ++ new, ?_, ?_, ?_, ?_⟩
      · rw [hloop, n1, hold, List.append_assoc]
      · intro q hq
        rcases List.mem_append.1 hq with hq | hq
        · obtain ⟨q1, q2, q3, q4⟩ := hmid q hq
          exact ⟨q1, 1, by simp, by simp, (first _ _).2 ⟨q2, q3, q4⟩⟩
        · obtain ⟨q1, i, q2, q3, q4⟩ := n2 q hq
          exact ⟨q1, i + 1, by simp, by simp; omega, (shift _ _ _).2 q4⟩
      · intro i P M hi hi' hP hr
        rw [← List.append_assoc, ← hold]
        cases i with
        | zero => omega
        | succ i =>
          cases i with
          | zero =>
            obtain ⟨q1, q2, q3⟩ := (first P M).1 hr
            obtain ⟨q, hq, hq'⟩ := hcomp P M hP q1 q2 q3
            exact ⟨q, List.mem_append_left _ hq, hq'⟩
          | succ i =>
            exact n3 (i + 1) P M (by omega) (by simp at hi'; omega) hP ((shift _ _ _).1 hr)
      · rw [← List.append_assoc, ← hold]
        exact fun h => n4 (hpair h)
    have hcl : conjugatesLoop (m :: ms) acc (old.map finPlane) =
        (match (m.mulRaw acc).forwardConjugate with
         | .error x => .error x
         | .ok (distance, conjugate) =>
          match conjugate with
          | some c =>
            if ((m.mulRaw acc).L + distance) !=. 0 then
              if planeKnown (old.map finPlane) ((m.mulRaw acc).L + distance) c.A then
                conjugatesLoop ms (m.mulRaw acc) (old.map finPlane)
              else conjugatesLoop ms (m.mulRaw acc) (old.map finPlane ++ [((m.mulRaw acc).L + distance, c.A)])
            else conjugatesLoop ms (m.mulRaw acc) (old.map finPlane)
          | none => conjugatesLoop ms (m.mulRaw acc) (old.map finPlane)) := by
      rw [conjugatesLoop, e1]
      simp only [bind, Except.bind]
      cases (m.mulRaw acc).forwardConjugate with
      | error x => rfl
      | ok v => obtain ⟨v1, v2⟩ := v; cases v2 <;> rfl
    by_cases hd : t.d = 0
    · refine glue old [] (by simp) ?_ (by simp) (fun P M _ h => absurd hd h) id
      rw [hcl]
      unfold Mat.forwardConjugate
      rw [e2.D, hd]
      simp [pure, Except.pure]
    · obtain ⟨c, q1, q2⟩ := forwardConjugate_eq e2 e3.accepted hd
      rw [q1] at hcl
      simp only [e2.L, fin_add_fin, q2.A] at hcl
      have hA : (t.andThen (Sys.space (-t.b / t.d) t.nb)).a = t.a + (-t.b / t.d) * t.c := by
        simp [Sys.andThen, Sys.space]
      rw [hA] at hcl
      by_cases hP : t.len + -t.b / t.d = 0
      · refine glue old [] (by simp) ?_ (by simp) ?_ id
        · rw [hcl]; simp [hP]
        · intro P M h0 _ h3 _
          exact absurd (by linear_combination h3 + hP) h0
      · by_cases hk : ∃ q ∈ old, Near q (t.len + -t.b / t.d, t.a + (-t.b / t.d) * t.c)
        · refine glue old [] (by simp) ?_ (by simp) ?_ id
          · rw [hcl, (planeKnown_iff _ _ _).2 hk]; simp [hP]
          · intro P M h0 _ h3 h4
            obtain ⟨q, hq, hq'⟩ := hk
            refine ⟨q, hq, .inr ?_⟩
            rw [h4, h3, show P = t.len + -t.b / t.d by linear_combination h3]
            exact hq'
        · have hkn : planeKnown (old.map finPlane) (fin (t.len + -t.b / t.d)) (fin (t.a + (-t.b / t.d) * t.c)) = false := by
            rw [← Bool.not_eq_true, planeKnown_iff]; exact hk
          refine glue (old ++ [(t.len + -t.b / t.d, t.a + (-t.b / t.d) * t.c)]) _ rfl ?_ ?_ ?_ ?_
          · rw [hcl, hkn]; simp [hP, finPlane]
          · intro q hq
            simp only [List.mem_singleton] at hq
            subst hq
            exact ⟨hP, hd, by ring, by ring⟩
          · intro P M h0 _ h3 h4
            refine ⟨_, List.mem_append_right _ (List.mem_singleton.2 rfl), .inl ?_⟩
            rw [h4, h3, show P = t.len + -t.b / t.d by linear_combination h3]
          · intro hp
            rw [List.pairwise_append]
            refine ⟨hp, by simp, fun p hp' q hq => ?_⟩
            simp only [List.mem_singleton] at hq
            subst hq
            exact fun hn => hk ⟨p, hp', hn⟩

/-! ## The largest diameter -/

/-- the element is not a `Lens` -/
def Mat.NotLens {F : Type} (m : Mat F) : Prop := ∀ f h, m.kind ≠ .lens f h

mutual
/-- Every group inside the element has a finite diameter somewhere. -/
def Elem.InnerFinite {F : Type} [PyNum F] : Elem F → Prop
  | .leaf _ => True
  | .group _ _ es => hasFiniteApertureList es = true ∧ InnerFiniteList es
/-- of successive elements -/
def InnerFiniteList {F : Type} [PyNum F] : List (Elem F) → Prop
  | [] => True
  | e :: es => e.InnerFinite ∧ InnerFiniteList es
end

/-- The value is the largest finite diameter of the elements, or infinite when there is none. -/
def IsLargest (ms : List (Mat (Ext K))) (x : Ext K) : Prop :=
  (x = pinf ∧ ∀ m ∈ ms, m.apertureDiameter = pinf) ∨
  ∃ M, x = fin M ∧ (∃ m ∈ ms, m.apertureDiameter = fin M) ∧ ∀ m ∈ ms, ∀ D, m.apertureDiameter = fin D → D ≤ M

/-- infinite, or finite and positive -/
def DiamForm (x : Ext K) : Prop := x = pinf ∨ ∃ D, x = fin D ∧ 0 < D

mutual
theorem largest_spec : ∀ (e : Elem (Ext K)), (∀ m ∈ leaves e.items, m.NotLens ∧ DiamForm m.apertureDiameter) →
    e.InnerFinite → IsLargest (leaves e.items) e.largestDiameter
  | .leaf m, h, _ => by
    obtain ⟨h1, h2⟩ := h m (by simp [Elem.items, leaves])
    have e : m.largestDiameter = m.apertureDiameter := by
      unfold Mat.largestDiameter
      split
      · next f hh hk => exact absurd hk (h1 f hh)
      · rfl
    simp only [Elem.largestDiameter, Elem.items, leaves, e]
    rcases h2 with h2 | ⟨D, h2, -⟩
    · exact .inl ⟨h2, by simp [h2]⟩
    · exact .inr ⟨D, h2, by simp [h2], by simp [h2]⟩
  | .group m c es, h, hf => by
    unfold Elem.InnerFinite at hf
    have hl : leaves (Elem.group m c es).items = leaves (itemsList es) := by simp [Elem.items, leaves]
    rw [hl] at h ⊢
    unfold Elem.largestDiameter
    rw [if_pos hf.1]
    right
    obtain ⟨M, h1, h2, h3, h4⟩ := largestList_spec es h hf.2 0 le_rfl
    rw [zero_eq, h1]
    obtain ⟨x, hx, hd⟩ := (hasFiniteList_iff es).1 hf.1
    have : ∃ D, x.apertureDiameter = fin D ∧ 0 < D := by
      rcases (h x hx).2 with hp | hp
      · unfold Mat.hasFiniteApertureDiameter at hd; rw [hp] at hd; simp at hd
      · exact hp
    obtain ⟨D, hD, hD0⟩ := this
    refine ⟨M, rfl, ?_, h3⟩
    rcases h4 with h4 | h4
    · have := h3 x hx D hD; rw [h4] at this; exact absurd this (not_le.2 hD0)
    · exact h4
theorem largestList_spec : ∀ (es : List (Elem (Ext K))),
    (∀ m ∈ leaves (itemsList es), m.NotLens ∧ DiamForm m.apertureDiameter) → InnerFiniteList es → ∀ (M0 : K), 0 ≤ M0 →
    ∃ M, largestDiameterList es (fin M0) = fin M ∧ M0 ≤ M ∧
      (∀ m ∈ leaves (itemsList es), ∀ D, m.apertureDiameter = fin D → D ≤ M) ∧
      (M = M0 ∨ ∃ m ∈ leaves (itemsList es), m.apertureDiameter = fin M)
  | [], _, _, M0, _ => ⟨M0, by simp [largestDiameterList], le_rfl, by simp [itemsList, leaves], .inl rfl⟩
  | e :: es, h, hf, M0, h0 => by
    unfold InnerFiniteList at hf
    simp only [itemsList, leaves_append, List.mem_append] at h ⊢
    have he := largest_spec e (fun m hm => h m (.inl hm)) hf.1
    have hes := largestList_spec es (fun m hm => h m (.inr hm)) hf.2
    unfold largestDiameterList
    rcases he with ⟨h1, h2⟩ | ⟨D, h1, ⟨x, hx, hxd⟩, h3⟩
    · rw [h1]
      obtain ⟨M, a1, a2, a3, a4⟩ := hes M0 h0
      refine ⟨M, by simpa using a1, a2, ?_, ?_⟩
      · rintro m (hm | hm) D hD
        · rw [h2 m hm] at hD; simp at hD
        · exact a3 m hm D hD
      · exact a4.imp_right fun ⟨m, hm, hd⟩ => ⟨m, .inr hm, hd⟩
    · rw [h1]
      by_cases hlt : M0 < D
      · obtain ⟨M, a1, a2, a3, a4⟩ := hes D (h0.trans hlt.le)
        refine ⟨M, by simpa [hlt] using a1, hlt.le.trans a2, ?_, ?_⟩
        · rintro m (hm | hm) D' hD
          · exact (h3 m hm D' hD).trans a2
          · exact a3 m hm D' hD
        · rcases a4 with rfl | ⟨m, hm, hd⟩
          · exact .inr ⟨x, .inl hx, hxd⟩
          · exact .inr ⟨m, .inr hm, hd⟩
      · obtain ⟨M, a1, a2, a3, a4⟩ := hes M0 h0
        refine ⟨M, by simpa [hlt] using a1, a2, ?_, ?_⟩
        · rintro m (hm | hm) D' hD
          · exact (h3 m hm D' hD).trans ((not_lt.1 hlt).trans a2)
          · exact a3 m hm D' hD
        · exact a4.imp_right fun ⟨m, hm, hd⟩ => ⟨m, .inr hm, hd⟩
end

end RT
