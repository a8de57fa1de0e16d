import Verif.Lemmas.RoundedInvariant

/-! # The index after the beginning of a system with media, in rounded arithmetic -/

set_option linter.unusedSectionVars false

namespace RT
open PyNum Ext Fl
variable {K : Type} [Field K] [LinearOrder K] [IsStrictOrderedRing K]
variable {rnd : K → K} {u : K}

mutual
/-- The elements inside follow each other, from a medium of index `n`. -/
def Elem.Chain (u : K) : Elem (Fl K rnd) → Part K → K → Prop
  | .group _ _ es, .group _ ps, n => ∃ n', chainList u es ps n n'
  | _, _, _ => True
/-- of a list of elements, from `n` to `n'` -/
def chainList (u : K) : List (Elem (Fl K rnd)) → List (Part K) → K → K → Prop
  | [], [], n, n' => n' = n
  | e :: es, p :: ps, n, n' => ∃ k, MediumElem u e p.rmat n k ∧ p.Between u n k ∧ e.Chain u p n ∧ chainList u es ps k n'
  | _, _, _, _ => False
end

theorem chain_append : ∀ {es : List (Elem (Fl K rnd))} {ps : List (Part K)} {n m k : K} {e : Elem (Fl K rnd)} {p : Part K}, chainList u es ps n m →
    MediumElem u e p.rmat m k → p.Between u m k → e.Chain u p m → chainList u (es ++ [e]) (ps ++ [p]) n k
  | [], [], n, m, k, e, p, h, h1, h2, h3 => by
    unfold chainList at h; subst h
    refine ⟨k, h1, h2, h3, ?_⟩
    unfold chainList; rfl
  | [], _ :: _, _, _, _, _, _, h, _, _, _ => h.elim
  | _ :: _, [], _, _, _, _, _, h, _, _, _ => h.elim
  | x :: es, q :: ps, n, m, k, e, p, h, h1, h2, h3 => by
    obtain ⟨j, a1, a2, a3, a4⟩ := h
    exact ⟨j, a1, a2, a3, chain_append a4 h1 h2 h3⟩

theorem chain_last : ∀ {es : List (Elem (Fl K rnd))} {ps : List (Part K)} {n m : K}, chainList u es ps n m → ∀ e, es.getLast? = some e →
    e.mat.backIndex = num m
  | [], _, _, _, _, e, he => by simp at he
  | _ :: _, [], _, _, h, _, _ => h.elim
  | [x], q :: ps, n, m, h, e, he => by
    obtain ⟨j, a1, a2, a3, a4⟩ := h
    cases ps with
    | nil =>
      unfold chainList at a4; subst a4
      simp only [List.getLast?_singleton, Option.some.injEq] at he
      subst he; exact a1.back
    | cons _ _ => exact a4.elim
  | x :: y :: es, q :: ps, n, m, h, e, he => by
    obtain ⟨j, a1, a2, a3, a4⟩ := h
    rw [List.getLast?_cons_cons] at he
    exact chain_last a4 e he

/-- elements before they are appended -/
def readyChain (u : K) : Bool → List (Elem (Fl K rnd)) → List (Part K) → K → Prop
  | _, [], [], _ => True
  | first, e :: es, p :: ps, n => ∃ k, Ready u first e p.rmat n k ∧ p.Between u n k ∧ e.Chain u p n ∧ readyChain u false es ps k
  | _, _, _, _ => False

theorem appendAll_chain {es : List (Elem (Fl K rnd))} : ∀ {ps : List (Part K)} {first : Bool} {n : K}, readyChain u first es ps n →
    ∀ {g g' : Group (Fl K rnd)} {qs : List (Part K)} {n0 : K}, chainList u g.elems qs n0 n → (first = false → g.elems ≠ []) →
    g.appendAll es = (g', .ok ()) → ∃ n', chainList u g'.elems (qs ++ ps) n0 n' := by
  induction es with
  | nil =>
    intro ps first n hr g g' qs n0 hg _ h
    cases ps with
    | cons _ _ => exact hr.elim
    | nil =>
      simp only [Group.appendAll, Prod.mk.injEq, and_true] at h
      subst h; rw [List.append_nil]; exact ⟨n, hg⟩
  | cons e es ih =>
    intro ps first n hr g g' qs n0 hg hfirst h
    cases ps with
    | nil => exact hr.elim
    | cons p ps =>
      obtain ⟨k, he, hbt, hch, hrest⟩ := hr
      obtain ⟨e', h1, he', hch'⟩ : ∃ e', g.append e = g.push e' ∧ MediumElem u e' p.rmat n k ∧ e'.Chain u p n := by
        unfold Group.append
        cases hl : g.elems.getLast? with
        | none =>
          rcases he with he | ⟨hf, -⟩
          · exact ⟨e, rfl, he, hch⟩
          · exact absurd (List.getLast?_eq_none_iff.1 hl) (hfirst hf)
        | some last =>
          have hb := chain_last hg last hl
          rcases he with he | ⟨hf, h2, h3, h4, h5⟩
          · refine ⟨e, ?_, he, hch⟩
            simp only [hb, he.front]
            have : ((num n : Fl K rnd) !=. num n) = false := by
              show (!((num n : Fl K rnd) ==. num n)) = false
              rw [eq_num]; simp
            rw [this]; rfl
          · by_cases hne : (last.mat.backIndex !=. e.mat.frontIndex) = true
            · refine ⟨e.setIndices (num n), ?_, h5, ?_⟩
              · dsimp only; rw [if_pos hne, if_pos h2, hb]
              · cases e with
                | leaf m => unfold Elem.setIndices Elem.Chain; trivial
                | group m c es => unfold Elem.setIndices; unfold Elem.Chain at hch ⊢; cases p <;> exact hch
            · have hne' : (last.mat.backIndex !=. e.mat.frontIndex) = false := by simpa using hne
              obtain ⟨j, k1, k2⟩ := h4
              have hk : n = j := by
                rw [hb, k1] at hne'
                change (!((num n : Fl K rnd) ==. num j)) = false at hne'
                rw [eq_num] at hne'
                simpa using hne'
              subst hk
              refine ⟨e, by dsimp only; rw [if_neg hne], ⟨?_, k1, ?_, h5.det, ?_, h5.nonzero⟩, hch⟩
              · have := h5.near
                cases e <;> exact ⟨this.A, this.B, this.C, this.D, this.L⟩
              · rw [k2, h3]
              · intro _; exact h3.symm
      unfold Group.appendAll at h
      rw [h1] at h
      unfold Group.push at h
      dsimp only at h
      cases ht : transferMatrixList (g.elems ++ [e']) inf Mat.one with
      | error x => rw [ht] at h; cases h
      | ok t =>
        rw [ht] at h
        dsimp only at h
        obtain ⟨n', hn'⟩ := ih hrest (g := { g with elems := g.elems ++ [e'], mat := g.mat.refresh t }) (chain_append hg he' hbt hch') (by simp) h
        refine ⟨n', ?_⟩
        rwa [List.append_assoc, List.singleton_append] at hn'

mutual
/-- A system with media, as it is built. -/
theorem buildR_chain (hr : Rounding rnd u) : ∀ {p : Part K} {n n' : K}, p.Between u n n' → ∀ {e : Elem (Fl K rnd)}, p.buildR rnd = .ok e → e.Chain u p n
  | .space .., _, _, _, e, _ => by cases e <;> (unfold Elem.Chain; trivial)
  | .lens .., _, _, _, e, _ => by cases e <;> (unfold Elem.Chain; trivial)
  | .mirror .., _, _, _, e, _ => by cases e <;> (unfold Elem.Chain; trivial)
  | .interface .., _, _, _, e, _ => by cases e <;> (unfold Elem.Chain; trivial)
  | .thickLens .., _, _, _, e, _ => by cases e <;> (unfold Elem.Chain; trivial)
  | .slab .., _, _, _, e, _ => by cases e <;> (unfold Elem.Chain; trivial)
  | .aperture .., _, _, _, e, _ => by cases e <;> (unfold Elem.Chain; trivial)
  | .matrix .., _, _, _, e, _ => by cases e <;> (unfold Elem.Chain; trivial)
  | .group label ps, n, n', h, e, hb => by
    unfold Part.Between at h
    obtain ⟨hn, h⟩ := h
    unfold Part.buildR Part.buildWith at hb
    split at hb
    · simp at hb
    · next es hes =>
      obtain ⟨g, hnew, rfl⟩ := Except.map_ok hb
      unfold Group.new at hnew
      split at hnew
      · next g' hg' =>
        simp only [Except.ok.injEq] at hnew
        subst hnew
        have h0 : chainList u (Group.empty label : Group (Fl K rnd)).elems [] n n := by
          change chainList u [] [] n n
          unfold chainList; rfl
        obtain ⟨k, hk⟩ := appendAll_chain (buildListR_chain hr h hes) h0 (by simp) hg'
        exact ⟨k, hk⟩
      · cases hnew
theorem buildListR_chain (hr : Rounding rnd u) : ∀ {ps : List (Part K)} {first : Bool} {acc : RStage K} {n0 n n' : K},
    Part.BetweenList u first acc n0 n ps n' → ∀ {es : List (Elem (Fl K rnd))}, Part.buildListWith num optNum ps = .ok es → readyChain u first es ps n
  | [], _, _, _, _, _, _, es, hb => by
    simp only [Part.buildListWith, Except.ok.injEq] at hb; subst hb; trivial
  | p :: ps, first, acc, n0, n, n', h, es, hb => by
    unfold Part.BetweenList at h
    obtain ⟨m, h1, h2, h3, h4⟩ := h
    unfold Part.buildListWith at hb
    split at hb
    · simp at hb
    · next e he =>
      split at hb
      · simp at hb
      · next es' hes =>
        simp only [Except.ok.injEq] at hb; subst hb
        obtain ⟨e', e1, e2, e3⟩ := buildR_media (rnd := rnd) hr h1
        have : e' = e := by
          have := e1.symm.trans he
          simpa using this
        subst this
        refine ⟨m, ?_, h1, buildR_chain hr h1 he, buildListR_chain hr h4 hes⟩
        rcases h2 with h2 | ⟨h2, h2'⟩
        · exact .inl (e2 h2)
        · obtain ⟨r1, r2, r3, r4⟩ := e3 h2'
          exact .inr ⟨h2, r1, r2, r3, r4⟩
end

/-! ## The index at the end of the beginning of a system -/

/-- The index after `m`, from a medium of index `n0`: the right one up to the error on the determinant, or (`top = false`) the matrix was computed as the identity. -/
def AfterMedia (u : K) (top : Bool) (n0 : K) (m : Mat (Fl K rnd)) (s : RStage K) : Prop :=
  (top = false ∧ m.isIdentity = true) ∨ ∃ n, m.backIndex = num n ∧ |n * s.exact.dt - n0| ≤ |n| * s.detErr u

theorem detErr_nonneg (hu : 0 ≤ u) {m : Mat (Fl K rnd)} {s : RStage K} (h : NearMat u m s) : 0 ≤ s.detErr u :=
  mul_nonneg (relErr_nonneg hu _) (add_nonneg (mul_nonneg h.A.nonneg h.D.nonneg) (mul_nonneg h.B.nonneg h.C.nonneg))

theorem after_exact (hu : 0 ≤ u) {top : Bool} {m : Mat (Fl K rnd)} {s : RStage K} (h : NearMat u m s) {n n0 : K} (hb : m.backIndex = num n) (hn : n ≠ 0)
    (hd : s.exact.dt = n0 / n) : AfterMedia u top n0 m s := by
  refine .inr ⟨n, hb, ?_⟩
  rw [hd, mul_div_cancel₀ _ hn, sub_self, abs_zero]
  exact mul_nonneg (abs_nonneg _) (detErr_nonneg hu h)

theorem detErr_media (hu : 0 ≤ u) {m q : Mat (Fl K rnd)} {s0 s : RStage K} (h0 : NearMat u m s0) (h : NearMat u q s) :
    |s0.exact.dt| * s.detErr u ≤ (s0.andThen s).detErr u := by
  have h1 := h0.perm
  have a1 := h0.A.nonneg
  have a2 := h0.B.nonneg
  have a3 := h0.C.nonneg
  have a4 := h0.D.nonneg
  have b1 := h.A.nonneg
  have b2 := h.B.nonneg
  have b3 := h.C.nonneg
  have b4 := h.D.nonneg
  unfold RStage.detErr
  rw [mul_left_comm]
  refine relErr_grow hu ?_ (by positivity) ?_
  · simp only [RStage.andThen]; omega
  · simp only [RStage.andThen, Stage.andThen]
    have e : (s.maj.a * s0.maj.a + s.maj.b * s0.maj.c) * (s.maj.c * s0.maj.b + s.maj.d * s0.maj.d) +
        (s.maj.a * s0.maj.b + s.maj.b * s0.maj.d) * (s.maj.c * s0.maj.a + s.maj.d * s0.maj.c) =
        (s0.maj.a * s0.maj.d + s0.maj.b * s0.maj.c) * (s.maj.a * s.maj.d + s.maj.b * s.maj.c) +
        2 * (s.maj.a * s.maj.c * (s0.maj.a * s0.maj.b)) + 2 * (s.maj.b * s.maj.d * (s0.maj.c * s0.maj.d)) := by ring
    rw [e]
    have p1 : 0 ≤ s.maj.a * s.maj.d + s.maj.b * s.maj.c := by positivity
    have p2 := mul_le_mul_of_nonneg_right h1 p1
    have p3 : 0 ≤ s.maj.a * s.maj.c * (s0.maj.a * s0.maj.b) := by positivity
    have p4 : 0 ≤ s.maj.b * s.maj.d * (s0.maj.c * s0.maj.d) := by positivity
    linarith

theorem identity_mul (hr : Rounding rnd u) {acc q : Mat (Fl K rnd)} {s0 s : RStage K} (h0 : NearMat u acc s0) (h : NearMat u q s) (i0 : acc.isIdentity = true)
    (i : q.isIdentity = true) : (q.mulRaw acc).isIdentity = true := by
  obtain ⟨a1, a2, a3, a4⟩ := identity_coeffs hr h i
  obtain ⟨b1, b2, b3, b4⟩ := identity_coeffs hr h0 i0
  refine identity_of_coeffs hr ?_
  simp only [Mat.mulRaw, a1, a2, a3, a4, b1, b2, b3, b4, num_mul, num_add, mul_one, mul_zero, hr.one, hr.zero, add_zero,
    zero_add, and_self]

theorem AfterMedia.mul (hr : Rounding rnd u) {top b : Bool} {acc q : Mat (Fl K rnd)} {s0 s : RStage K} {n0 n : K} (h0 : NearMat u acc s0) (h : NearMat u q s)
    (ha : (top = false ∧ acc.isIdentity = true) ∨ acc.backIndex = num n) (hn : n ≠ 0) (hd : s0.exact.dt = n0 / n)
    (hq : AfterMedia u b n q s) : AfterMedia u top n0 (q.mulRaw acc) (s0.andThen s) := by
  have hdt : (s0.andThen s).exact.dt = n0 / n * s.exact.dt := by
    change (s0.exact.andThen s.exact).dt = _
    rw [Stage.andThen_dt, hd]
  have hg := detErr_media hr.nonneg h0 h
  rw [hd] at hg
  by_cases hi : q.isIdentity = true
  · rcases ha with ⟨ht, ha⟩ | ha
    · exact .inl ⟨ht, identity_mul hr h0 h ha hi⟩
    · refine .inr ⟨n, by simp [Mat.mulRaw, Mat.mulBackIndex, hi, ha], ?_⟩
      obtain ⟨x, hx, hb⟩ := h.determinant hr
      rw [identity_det hr (identity_coeffs hr h hi)] at hx
      obtain rfl := num_inj hx
      rw [hdt, show n * (n0 / n * s.exact.dt) - n0 = n0 / n * n * (s.exact.dt - 1) by field_simp, abs_mul, abs_mul, mul_comm |n0 / n|, mul_assoc]
      refine mul_le_mul_of_nonneg_left (le_trans ?_ hg) (abs_nonneg _)
      refine mul_le_mul_of_nonneg_left ?_ (abs_nonneg _)
      rw [abs_sub_comm]; exact hb
  · rcases hq with ⟨-, hq⟩ | ⟨n', h1, h2⟩
    · exact absurd hq hi
    · refine .inr ⟨n', by simp [Mat.mulRaw, Mat.mulBackIndex, hi, h1], ?_⟩
      rw [hdt, show n' * (n0 / n * s.exact.dt) - n0 = n0 / n * (n' * s.exact.dt - n) by field_simp, abs_mul]
      calc |n0 / n| * |n' * s.exact.dt - n| ≤ |n0 / n| * (|n'| * s.detErr u) := mul_le_mul_of_nonneg_left h2 (abs_nonneg _)
        _ = |n'| * (|n0 / n| * s.detErr u) := by ring
        _ ≤ _ := mul_le_mul_of_nonneg_left hg (abs_nonneg _)

/-- the index after one more whole element -/
theorem media_step (hr : Rounding rnd u) {top : Bool} {acc : Mat (Fl K rnd)} {s0 s : RStage K} {n k : K} {e : Elem (Fl K rnd)} (h0 : NearMat u acc s0)
    (ha : (top = false ∧ acc.isIdentity = true) ∨ acc.backIndex = num n) (he : MediumElem u e s n k) :
    (top = false ∧ (e.mat.mulRaw acc).isIdentity = true) ∨ (e.mat.mulRaw acc).backIndex = num k := by
  by_cases hi : e.mat.isIdentity = true
  · rcases ha with ⟨ht, ha⟩ | ha
    · exact .inl ⟨ht, identity_mul hr h0 he.near ha hi⟩
    · right
      simp [Mat.mulRaw, Mat.mulBackIndex, hi, ha, he.same hi]
  · right
    simp [Mat.mulRaw, Mat.mulBackIndex, hi, he.back]

/-- for a single element -/
theorem leaf_afterMedia (hr : Rounding rnd u) {m : Mat (Fl K rnd)} {p : Part K} (hs : (Elem.leaf m).Shows u p) {n n' : K} (hp : p.Between u n n')
    (he : MediumElem u (.leaf m) p.rmat n n') {w : K} (hw : 0 ≤ w) {r : Mat (Fl K rnd)} (h : m.transferMatrix (num w) = .ok r) :
    (∃ s, p.CutAt w s ∧ NearMat u r s ∧ AfterMedia u false n r s) ∨ (NearMat u r p.rmat ∧ AfterMedia u false n r p.rmat ∧ p.rmat.exact.len ≤ w) := by
  have hwhole : AfterMedia u false n m p.rmat := after_exact hr.nonneg he.near he.back he.nonzero.2 he.det
  have conv : ∀ {s : RStage K}, NearMat u r s → AfterIndex u r s → AfterMedia u false 1 r s := by
    rintro s hn ⟨k, k1, k2⟩
    refine .inr ⟨k, k1, ?_⟩
    rcases k2 with k2 | ⟨rfl, k2⟩
    · rw [k2, sub_self, abs_zero]
      exact mul_nonneg (abs_nonneg _) (detErr_nonneg hr.nonneg hn)
    · rw [one_mul, abs_one, one_mul]; exact k2
  have other : (∀ up t, m.transferMatrix up = .ok t → t = m ∧ ((m.L ==. 0) = true ∨ (m.L ≤. up) = true)) →
      m.L = num p.rmat.exact.len → NearMat u m p.rmat → NearMat u r p.rmat ∧ AfterMedia u false n r p.rmat ∧ p.rmat.exact.len ≤ w := by
    intro h1 h2 h3
    obtain ⟨rfl, h4⟩ := h1 _ _ h
    refine ⟨h3, hwhole, ?_⟩
    rw [h2, zero_num hr, eq_num, le_num, decide_eq_true_iff, decide_eq_true_iff] at h4
    rcases h4 with h4 | h4
    · rw [h4]; exact hw
    · exact h4
  cases p with
  | space d k diam =>
    unfold Part.Between at hp
    obtain ⟨rfl, hn, -⟩ := hp
    have hr1 : r.backIndex = num n' := by
      obtain ⟨k1, k2, k3⟩ := hs
      unfold Mat.transferMatrix at h
      simp only [k1, k2, lt_num] at h
      split_ifs at h with h4
      · unfold mkSpace at h; obtain ⟨rfl, -⟩ := init_okF h
        exact he.front
      · simp only [pure, Except.pure, Except.ok.injEq] at h
        exact h ▸ he.back
    rcases leaf_cut hr hs hw h with ⟨s, h1, h2⟩ | ⟨h1, h2⟩
    · refine .inl ⟨s, h1, h2, after_exact hr.nonneg h2 hr1 hn ?_⟩
      obtain ⟨-, -, rfl⟩ := h1
      rw [div_self hn]
      simp [Stage.withOps, Sys.stage, Sys.space, Stage.dt]
    · exact .inr ⟨h1, after_exact hr.nonneg h1 hr1 hn he.det, h2⟩
  | thickLens k R1 R2 t diam =>
    unfold Part.Between at hp
    obtain ⟨hk, -, -, rfl, -⟩ := hp
    obtain ⟨h1, h2, h2', h3⟩ := hs
    unfold Mat.transferMatrix at h
    simp only [h1, h2, le_num] at h
    split_ifs at h with h4
    · right
      rw [decide_eq_true_iff] at h4
      simp only [pure, Except.pure, Except.ok.injEq] at h
      exact ⟨h ▸ h3, h ▸ hwhole,
        by simpa [Part.rmat, Part.rstages, Sys.thick, Sys.andThen, Sys.interface, Sys.space, Sys.stage] using h4⟩
    · left
      rw [decide_eq_true_iff, not_le] at h4
      have hn := cutThick_near hr rfl rfl h2' h
      exact ⟨_, ⟨hw, h4.le, rfl⟩, hn, conv hn (cutThick_after hk h)⟩
  | slab k t diam =>
    unfold Part.Between at hp
    obtain ⟨hk, rfl, -⟩ := hp
    obtain ⟨h1, h2, h2', h3⟩ := hs
    unfold Mat.transferMatrix at h
    simp only [h1, h2, le_num] at h
    split_ifs at h with h4
    · right
      rw [decide_eq_true_iff] at h4
      simp only [pure, Except.pure, Except.ok.injEq] at h
      exact ⟨h ▸ h3, h ▸ hwhole,
        by simpa [Part.rmat, Part.rstages, Sys.thick, Sys.andThen, Sys.interface, Sys.space, Sys.stage] using h4⟩
    · left
      rw [decide_eq_true_iff, not_le] at h4
      have hn := cutThick_near hr rfl (R := none) inf_val h2' h
      exact ⟨_, ⟨hw, h4.le, rfl⟩, hn, conv hn (cutThick_after hk h)⟩
  | group l ps => exact hs.elim
  | lens f diam => exact .inr (other hs.2.1 hs.2.2.1 hs.2.2.2)
  | mirror f diam => exact .inr (other hs.2.1 hs.2.2.1 hs.2.2.2)
  | interface a b c diam => exact .inr (other hs.2.1 hs.2.2.1 hs.2.2.2)
  | aperture a b c => exact .inr (other hs.2.1 hs.2.2.1 hs.2.2.2)
  | matrix a b c d => exact .inr (other hs.2.1 hs.2.2.1 hs.2.2.2)

mutual
/-- The matrix up to a position, its cut and the index there. -/
theorem cut_afterMedia (hr : Rounding rnd u) : ∀ {e : Elem (Fl K rnd)} {p : Part K}, e.Shows u p → ∀ {n n' : K}, p.Between u n n' →
    MediumElem u e p.rmat n n' → e.Chain u p n →
    ∀ {w : K}, 0 ≤ w → ∀ {k : ℕ} {d D : K}, |d| ≤ D → |w - d| ≤ relErr u k * D → ∀ {r : Mat (Fl K rnd)}, e.transferMatrix (num w) = .ok r →
    (∃ v s, p.CutAt v s ∧ NearMat u r s ∧ AfterMedia u false n r s ∧ |v - d| ≤ relErr u (k + p.cutOps) * (D + p.rmat.maj.len)) ∨
    (NearMat u r p.rmat ∧ AfterMedia u false n r p.rmat ∧ p.rmat.exact.len ≤ d + relErr u (k + p.cutOps) * (D + p.rmat.maj.len))
  | .leaf m, p, hs, n, n', hp, hi, hc, w, hw, k, d, D, hd, hwd, r, h => by
    unfold Elem.transferMatrix at h
    have hD : 0 ≤ D := (abs_nonneg _).trans hd
    have hL := hs.near.L.nonneg
    have hg : relErr u k * D ≤ relErr u (k + p.cutOps) * (D + p.rmat.maj.len) := relErr_grow hr.nonneg (by omega) hD (by linarith)
    rcases leaf_afterMedia hr hs hp hi hw h with ⟨s, h1, h2, h3⟩ | ⟨h1, h2, h3⟩
    · exact .inl ⟨w, s, h1, h2, h3, hwd.trans hg⟩
    · refine .inr ⟨h1, h2, ?_⟩
      have := (abs_le.1 hwd).2
      linarith
  | .group m c es, .group l ps, hs, n, n', hp, hi, hc, w, hw, k, d, D, hd, hwd, r, h => by
    unfold Elem.transferMatrix at h
    obtain ⟨g1, g2⟩ := group_len l ps
    rw [g1, g2]
    unfold Part.cutOps Part.CutAt
    unfold Elem.Chain at hc
    obtain ⟨k', hc⟩ := hc
    have i1 : (Mat.one : Mat (Fl K rnd)).isIdentity = true := identity_of_coeffs hr ⟨one_num hr, zero_num hr, zero_num hr, one_num hr⟩
    exact cutList_afterMedia hr hs.2 hc (nearMat_one hr) (.inl ⟨rfl, i1⟩) hi.nonzero.1 (by simp [RStage.one, Stage.dt, hi.nonzero.1]) hw hd hwd h
theorem cutList_afterMedia (hr : Rounding rnd u) : ∀ {es : List (Elem (Fl K rnd))} {ps : List (Part K)}, showsList u es ps → ∀ {n n' : K},
    chainList u es ps n n' → ∀ {acc : Mat (Fl K rnd)} {s0 : RStage K} {top : Bool} {n0 : K}, NearMat u acc s0 →
    (top = false ∧ acc.isIdentity = true) ∨ acc.backIndex = num n → n ≠ 0 → s0.exact.dt = n0 / n →
    ∀ {w : K}, 0 ≤ w → ∀ {k : ℕ} {d D : K}, |d| ≤ D → |w - d| ≤ relErr u k * D → ∀ {r : Mat (Fl K rnd)}, transferMatrixList es (num w) acc = .ok r →
    (∃ v s, Part.CutList s0 ps v s ∧ NearMat u r s ∧ AfterMedia u top n0 r s ∧ |v - d| ≤ relErr u (k + Part.cutOpsList ps) * (D + majLenList ps)) ∨
    (NearMat u r (Part.rmatList s0 ps) ∧ AfterMedia u top n0 r (Part.rmatList s0 ps) ∧
      lenList ps ≤ d + relErr u (k + Part.cutOpsList ps) * (D + majLenList ps))
  | [], [], _, n, n', hc, acc, s0, top, n0, ha, hair, hn0, h0, w, hw, k, d, D, hd, hwd, r, h => by
    simp only [transferMatrixList, Except.ok.injEq] at h
    subst h
    right
    refine ⟨by unfold Part.rmatList; exact ha, ?_, ?_⟩
    · unfold Part.rmatList
      rcases hair with hair | hair
      · exact .inl hair
      · exact after_exact hr.nonneg ha hair hn0 h0
    · simp only [lenList, majLenList, Part.cutOpsList, List.map_nil, List.sum_nil, add_zero]
      have := (abs_le.1 hwd).2
      linarith
  | e :: es, p :: ps, hs, n, n', hc, acc, s0, top, n0, ha, hair, hn0, h0, w, hw, k, d, D, hd, hwd, r, h => by
    have hD : 0 ≤ D := (abs_nonneg _).trans hd
    have hn := hs.1.near
    have hL := hn.L.nonneg
    have hLs := showsList_maj hs.2
    obtain ⟨n1, hi, hp, hch, hrest⟩ := hc
    have em : majLenList (p :: ps) = p.rmat.maj.len + majLenList ps := by simp [majLenList]
    have el : lenList (p :: ps) = p.rmat.exact.len + lenList ps := by simp [lenList]
    have eo : Part.cutOpsList (p :: ps) = p.rmat.ops + 1 + p.cutOps + Part.cutOpsList ps := by simp [Part.cutOpsList]
    obtain ⟨L', hL1, hL2, hL3⟩ := hn.L
    unfold transferMatrixList at h
    rw [hL1, le_num] at h
    split_ifs at h with hle
    · rw [decide_eq_true_iff] at hle
      rw [num_sub] at h
      split at h
      · cases h
      · next t ht =>
        have ht' : NearMat u t (s0.andThen p.rmat) := by rw [mulMatrix_okF ht]; exact hn.mulRaw hr ha
        have hta : (top = false ∧ t.isIdentity = true) ∨ t.backIndex = num n1 := by rw [mulMatrix_okF ht]; exact media_step hr ha hair hi
        have htd : (s0.andThen p.rmat).exact.dt = n0 / n1 := by
          change (s0.exact.andThen p.rmat.exact).dt = _
          rw [Stage.andThen_dt, h0, hi.det, ratio_mul hn0]
        obtain ⟨w', hw1, hw2, hw3⟩ := Near.sub hr (k := k + p.rmat.ops) (x := (num w : Fl K rnd)) (y := num L') (a := d) (b := p.rmat.exact.len) (A := D)
          (B := p.rmat.maj.len) ⟨w, rfl, hd, hwd.trans (relErr_grow hr.nonneg (by omega) hD le_rfl)⟩
          ⟨L', rfl, hL2, hL3.trans (relErr_grow hr.nonneg (by omega) hL le_rfl)⟩
        rw [num_sub] at hw1
        obtain rfl := num_inj hw1
        have hcount : k + p.rmat.ops + 1 + Part.cutOpsList ps ≤ k + Part.cutOpsList (p :: ps) := by rw [eo]; omega
        have hgrow : relErr u (k + p.rmat.ops + 1 + Part.cutOpsList ps) * (D + p.rmat.maj.len + majLenList ps) ≤
            relErr u (k + Part.cutOpsList (p :: ps)) * (D + majLenList (p :: ps)) := by
          rw [em]; exact relErr_grow hr.nonneg hcount (by linarith) (by linarith)
        rcases cutList_afterMedia hr hs.2 hrest ht' hta hi.nonzero.2 htd (rnd_nonneg hr (by linarith : 0 ≤ w - L')) hw2 hw3 h with
          ⟨v, s, c1, c2, c2', c3⟩ | ⟨c1, c1', c2⟩
        · refine .inl ⟨p.rmat.exact.len + v, s, ?_, c2, c2', ?_⟩
          · unfold Part.CutList; exact .inr (.inr ⟨v, rfl, c1⟩)
          · rw [show p.rmat.exact.len + v - d = v - (d - p.rmat.exact.len) by ring]; exact c3.trans hgrow
        · refine .inr ⟨by unfold Part.rmatList; exact c1, by unfold Part.rmatList; exact c1', ?_⟩
          rw [el]; linarith
    · rw [decide_eq_true_iff, not_le] at hle
      split at h
      · cases h
      · next q hq =>
        have hgrow : relErr u (k + p.cutOps) * (D + p.rmat.maj.len) ≤ relErr u (k + Part.cutOpsList (p :: ps)) * (D + majLenList (p :: ps)) := by
          rw [em, eo]; exact relErr_grow hr.nonneg (by omega) (by linarith) (by linarith)
        rw [mulMatrix_okF h]
        rcases cut_afterMedia hr hs.1 hp hi hch hw hd hwd hq with ⟨v, s, c1, c2, c2', c3⟩ | ⟨c1, c1', c2⟩
        · refine .inl ⟨v, s0.andThen s, ?_, c2.mulRaw hr ha, c2'.mul hr ha c2 hair hn0 h0, c3.trans hgrow⟩
          unfold Part.CutList; exact .inr (.inl ⟨s, c1, rfl⟩)
        · refine .inl ⟨p.rmat.exact.len + 0, s0.andThen p.rmat, ?_, c1.mulRaw hr ha, c1'.mul hr ha c1 hair hn0 h0, ?_⟩
          · unfold Part.CutList
            refine .inr (.inr ⟨0, rfl, ?_⟩)
            cases ps with
            | nil => unfold Part.CutList; exact ⟨rfl, rfl⟩
            | cons p' ps => unfold Part.CutList; exact .inl ⟨rfl, rfl⟩
          · rw [add_zero, abs_le]
            have b1 := (abs_le.1 hwd).1
            have b2 := (abs_le.1 hL3).2
            have g1 : relErr u k * D + relErr u p.rmat.ops * p.rmat.maj.len ≤ relErr u (k + Part.cutOpsList (p :: ps)) * (D + majLenList (p :: ps)) := by
              have a1 : relErr u k * D ≤ relErr u (k + Part.cutOpsList (p :: ps)) * D := relErr_grow hr.nonneg (by omega) hD le_rfl
              have a2 : relErr u p.rmat.ops * p.rmat.maj.len ≤ relErr u (k + Part.cutOpsList (p :: ps)) * majLenList (p :: ps) := by
                rw [em, eo]; exact relErr_grow hr.nonneg (by omega) hL (by linarith)
              rw [mul_add]; linarith
            constructor
            · linarith
            · linarith
end

end RT
