import Verif.Spec.RoundedCut
import Verif.Lemmas.RoundedMatrix

/-! # `transferMatrix(upTo)` in rounded arithmetic -/

set_option linter.unusedSectionVars false

namespace RT
open PyNum Ext Fl
variable {K : Type} [Field K] [LinearOrder K] [IsStrictOrderedRing K]
variable {rnd : K → K} {u : K}

mutual
/-- What `transferMatrix(upTo)` reads of an element, and of the elements inside. -/
def Elem.Shows (u : K) : Elem (Fl K rnd) → Part K → Prop
  | .leaf m, .space d n diam => m.kind = .space ∧ m.L = num d ∧ NearMat u m (Part.space d n diam).rmat
  | .leaf m, .thickLens n R1 R2 t diam => m.kind = .thickLens (num n) (optNum R1) (optNum R2) ∧ m.L = num t ∧ m.apertureDiameter = optNum diam ∧
      NearMat u m (Part.thickLens n R1 R2 t diam).rmat
  | .leaf m, .slab n t diam => m.kind = .slab (num n) inf inf ∧ m.L = num t ∧ m.apertureDiameter = optNum diam ∧ NearMat u m (Part.slab n t diam).rmat
  | .leaf _, .group .. => False
  | .leaf m, p => m.kind ≠ .space ∧ (∀ up t, m.transferMatrix up = .ok t → t = m ∧ ((m.L ==. 0) = true ∨ (m.L ≤. up) = true)) ∧ m.L = num p.rmat.exact.len ∧
      NearMat u m p.rmat
  | .group m _ es, .group l ps => NearMat u m (Part.group l ps).rmat ∧ showsList u es ps
  | .group .., _ => False
/-- of a list of elements -/
def showsList (u : K) : List (Elem (Fl K rnd)) → List (Part K) → Prop
  | [], [] => True
  | e :: es, p :: ps => e.Shows u p ∧ showsList u es ps
  | _, _ => False
end

theorem whole_or_error {F : Type} [PyNum F] {m : Mat F} (h1 : m.kind ≠ .space) (h2 : ∀ a b c, m.kind ≠ .thickLens a b c)
    (h3 : ∀ a b c, m.kind ≠ .slab a b c) (up t : F) {r : Mat F} (h : m.transferMatrix up = .ok r) :
    r = m ∧ ((m.L ==. 0) = true ∨ (m.L ≤. up) = true) := by
  unfold Mat.transferMatrix at h
  split at h
  · next hk => exact absurd hk h1
  · next hk => exact absurd hk (h2 _ _ _)
  · next hk => exact absurd hk (h3 _ _ _)
  · split_ifs at h with h4 h5
    · simp only [pure, Except.pure, Except.ok.injEq] at h; exact ⟨h.symm, .inl h4⟩
    · simp only [pure, Except.pure, Except.ok.injEq] at h; exact ⟨h.symm, .inr h5⟩

theorem shows_forget {e e' : Elem (Fl K rnd)} (h : e'.forget = e.forget) {p : Part K} (hc : e.Shows u p) : e'.Shows u p := by
  have key : ∀ (e : Elem (Fl K rnd)), e.forget.Shows u p ↔ e.Shows u p := by
    intro e
    unfold Elem.forget
    split_ifs with hs
    · have hn : ∀ {m : Mat (Fl K rnd)} {s : RStage K}, NearMat u { m with frontIndex := 0, backIndex := 0 } s ↔ NearMat u m s :=
        ⟨fun h => ⟨h.A, h.B, h.C, h.D, h.L⟩, fun h => ⟨h.A, h.B, h.C, h.D, h.L⟩⟩
      cases e with
      | leaf m =>
        have hk : m.kind = .space := by
          simp only [Elem.isSpace, Elem.mat] at hs
          split at hs
          · assumption
          · cases hs
        cases p
        case space =>
          exact and_congr Iff.rfl (and_congr Iff.rfl ⟨fun h => ⟨h.A, h.B, h.C, h.D, h.L⟩, fun h => ⟨h.A, h.B, h.C, h.D, h.L⟩⟩)
        all_goals simp [Elem.setIndices, Elem.Shows, hk]
      | group m c es => cases p <;> simp [Elem.setIndices, Elem.Shows, hn]
    · rfl
  rw [← key, h, key]; exact hc

theorem showsList_forget : ∀ {fs es : List (Elem (Fl K rnd))} (_ : es.map Elem.forget = fs.map Elem.forget) {ps : List (Part K)}, showsList u fs ps →
    showsList u es ps := by
  intro fs
  induction fs with
  | nil => intro es h ps hc; simp only [List.map_nil, List.map_eq_nil_iff] at h; subst h; exact hc
  | cons f fs ih =>
    intro es h ps hc
    cases es with
    | nil => simp at h
    | cons e es =>
      simp only [List.map_cons, List.cons.injEq] at h
      cases ps with
      | nil => exact hc.elim
      | cons p ps => exact ⟨shows_forget h.1 hc.1, ih h.2 hc.2⟩

mutual
theorem buildR_shows (hr : Rounding rnd u) : ∀ {p : Part K} {e : Elem (Fl K rnd)}, p.buildR rnd = .ok e → e.Shows u p
  | .space d n diam, e, hb => by
    have hm := buildR_mat hr hb
    unfold Part.buildR Part.buildWith at hb; obtain ⟨m, h, rfl⟩ := Except.map_ok hb
    unfold mkSpace at h; obtain ⟨rfl, -⟩ := init_okF h; exact ⟨rfl, rfl, hm⟩
  | .lens f diam, e, hb => by
    have hm := buildR_mat hr hb
    unfold Part.buildR Part.buildWith mkLens at hb; obtain ⟨m, h, rfl⟩ := Except.map_ok hb
    obtain ⟨c, -, h⟩ := bind_ok h
    obtain ⟨rfl, -⟩ := init_okF h
    exact ⟨by simp, fun up t => whole_or_error (by simp) (by simp) (by simp) up up, zero_num hr, hm⟩
  | .mirror R diam, e, hb => by
    have hm := buildR_mat hr hb
    unfold Part.buildR Part.buildWith mkCurvedMirror at hb; obtain ⟨m, h, rfl⟩ := Except.map_ok hb
    obtain ⟨c, -, h⟩ := bind_ok h
    obtain ⟨rfl, -⟩ := init_okF h
    exact ⟨by simp, fun up t => whole_or_error (by simp) (by simp) (by simp) up up, zero_num hr, hm⟩
  | .interface n1 n2 R diam, e, hb => by
    have hm := buildR_mat hr hb
    unfold Part.buildR Part.buildWith mkDielectric at hb; obtain ⟨m, h, rfl⟩ := Except.map_ok hb
    obtain ⟨c, -, h⟩ := bind_ok h
    obtain ⟨d, -, h⟩ := bind_ok h
    obtain ⟨rfl, -⟩ := init_okF h
    exact ⟨by simp, fun up t => whole_or_error (by simp) (by simp) (by simp) up up, zero_num hr, hm⟩
  | .thickLens n R1 R2 t diam, e, hb => by
    have hm := buildR_mat hr hb
    unfold Part.buildR Part.buildWith mkThickLens mkThickOf at hb; obtain ⟨m, h, rfl⟩ := Except.map_ok hb
    obtain ⟨a, -, h⟩ := bind_ok h
    obtain ⟨b, -, h⟩ := bind_ok h
    obtain ⟨c, -, h⟩ := bind_ok h
    obtain ⟨d, -, h⟩ := bind_ok h
    obtain ⟨rfl, -⟩ := init_okF h
    exact ⟨rfl, rfl, rfl, hm⟩
  | .slab n t diam, e, hb => by
    have hm := buildR_mat hr hb
    unfold Part.buildR Part.buildWith mkSlab mkThickOf at hb; obtain ⟨m, h, rfl⟩ := Except.map_ok hb
    obtain ⟨a, -, h⟩ := bind_ok h
    obtain ⟨b, -, h⟩ := bind_ok h
    obtain ⟨c, -, h⟩ := bind_ok h
    obtain ⟨d, -, h⟩ := bind_ok h
    obtain ⟨rfl, -⟩ := init_okF h
    exact ⟨rfl, rfl, rfl, hm⟩
  | .aperture diam na label, e, hb => by
    have hm := buildR_mat hr hb
    unfold Part.buildR Part.buildWith mkAperture at hb; obtain ⟨m, h, rfl⟩ := Except.map_ok hb
    obtain ⟨rfl, -⟩ := init_okF h
    exact ⟨by simp, fun up t => whole_or_error (by simp) (by simp) (by simp) up up, zero_num hr, hm⟩
  | .matrix s fv bv diam, e, hb => by
    have hm := buildR_mat hr hb
    unfold Part.buildR Part.buildWith at hb; obtain ⟨m, h, rfl⟩ := Except.map_ok hb
    obtain ⟨rfl, -⟩ := init_okF h
    exact ⟨by simp [genericMatWith, Mat.one], fun up t => whole_or_error (by simp [genericMatWith, Mat.one]) (by simp [genericMatWith, Mat.one]) (by simp [genericMatWith, Mat.one]) up up, rfl, hm⟩
  | .group label ps, e, hb => by
    have hm := buildR_mat hr hb
    unfold Part.buildR Part.buildWith at hb
    split at hb
    · simp at hb
    · next es hes =>
      obtain ⟨g, hnew, rfl⟩ := Except.map_ok hb
      exact ⟨hm, showsList_forget (Group.new_elems hnew) (buildListR_shows hr hes)⟩
theorem buildListR_shows (hr : Rounding rnd u) : ∀ {ps : List (Part K)} {es : List (Elem (Fl K rnd))},
    Part.buildListWith num optNum ps = .ok es → showsList u es ps
  | [], es, hb => by simp only [Part.buildListWith, Except.ok.injEq] at hb; subst hb; trivial
  | p :: ps, es, hb => by
    unfold Part.buildListWith at hb
    split at hb
    · simp at hb
    · next e he =>
      split at hb
      · simp at hb
      · next es' hes =>
        simp only [Except.ok.injEq] at hb; subst hb
        exact ⟨buildR_shows hr he, buildListR_shows hr hes⟩
end

theorem rmatList_len (ps : List (Part K)) (acc : RStage K) :
    (Part.rmatList acc ps).exact.len = acc.exact.len + lenList ps ∧ (Part.rmatList acc ps).maj.len = acc.maj.len + majLenList ps := by
  induction ps generalizing acc with
  | nil => simp [Part.rmatList, lenList, majLenList]
  | cons p ps ih =>
    obtain ⟨h1, h2⟩ := ih (acc.andThen p.rmat)
    unfold Part.rmatList
    rw [h1, h2]
    simp only [RStage.andThen, Stage.andThen, lenList, majLenList, List.map_cons, List.sum_cons]
    exact ⟨by ring, by ring⟩

theorem group_len (l : String) (ps : List (Part K)) :
    (Part.group l ps).rmat.exact.len = lenList ps ∧ (Part.group l ps).rmat.maj.len = majLenList ps := by
  obtain ⟨h1, h2⟩ := rmatList_len ps (RStage.one : RStage K)
  unfold Part.rmat
  rw [h1, h2]; simp [RStage.one]

mutual
theorem Elem.Shows.near : ∀ {e : Elem (Fl K rnd)} {p : Part K}, e.Shows u p → NearMat u e.mat p.rmat
  | .leaf m, .space d n diam, h => h.2.2
  | .leaf m, .thickLens n R1 R2 t diam, h => h.2.2.2
  | .leaf m, .slab n t diam, h => h.2.2.2
  | .leaf m, .lens .., h => h.2.2.2
  | .leaf m, .mirror .., h => h.2.2.2
  | .leaf m, .interface .., h => h.2.2.2
  | .leaf m, .aperture .., h => h.2.2.2
  | .leaf m, .matrix .., h => h.2.2.2
  | .group m c es, .group l ps, h => h.1
end

theorem cutThick_near (hr : Rounding rnd u) {n w : K} {R diam : Option K} {nF dF RF : Fl K rnd} (hn : nF = num n) (hR : RF = optNum R)
    (hd : dF = optNum diam) {m : Mat (Fl K rnd)}
    (h : (do let s ← mkSpace (num w) nF dF; let i ← mkDielectric 1 nF RF dF; s.mulMatrix i) = .ok m) : NearMat u m (cutThick n R w diam) := by
  subst hn hR hd
  obtain ⟨s, h1, h⟩ := bind_ok h
  obtain ⟨i, h2, h⟩ := bind_ok h
  rw [mulMatrix_okF h]
  rw [one_num hr] at h2
  exact ((mkSpace_R hr h1).1.nearMat hr.nonneg).mulRaw hr ((mkDielectric_R hr h2).1.nearMat hr.nonneg)

theorem relErr_grow (hu : 0 ≤ u) {k l : ℕ} (hkl : k ≤ l) {D E : K} (hD : 0 ≤ D) (hDE : D ≤ E) : relErr u k * D ≤ relErr u l * E := by
  have := relErr_mono hu hkl
  have := relErr_nonneg hu l
  gcongr

theorem Shows.maj_nonneg {e : Elem (Fl K rnd)} {p : Part K} (h : e.Shows u p) : 0 ≤ p.rmat.maj.len := h.near.L.nonneg

theorem showsList_maj : ∀ {es : List (Elem (Fl K rnd))} {ps : List (Part K)}, showsList u es ps → 0 ≤ majLenList ps
  | [], [], _ => by simp [majLenList]
  | e :: es, p :: ps, h => by
    simp only [majLenList, List.map_cons, List.sum_cons]
    exact add_nonneg h.1.near.L.nonneg (showsList_maj h.2)

/-- for a single element: cut exactly where asked, or whole -/
theorem leaf_cut (hr : Rounding rnd u) {m : Mat (Fl K rnd)} {p : Part K} (hs : (Elem.leaf m).Shows u p) {w : K} (hw : 0 ≤ w)
    {r : Mat (Fl K rnd)} (h : m.transferMatrix (num w) = .ok r) :
    (∃ s, p.CutAt w s ∧ NearMat u r s) ∨ (NearMat u r p.rmat ∧ p.rmat.exact.len ≤ w) := by
  have other : m.kind ≠ .space → (∀ up t, m.transferMatrix up = .ok t → t = m ∧ ((m.L ==. 0) = true ∨ (m.L ≤. up) = true)) →
      m.L = num p.rmat.exact.len → NearMat u m p.rmat → NearMat u r p.rmat ∧ p.rmat.exact.len ≤ w := by
    intro _ h1 h2 h3
    obtain ⟨rfl, h4⟩ := h1 _ _ h
    refine ⟨h3, ?_⟩
    rw [h2, zero_num hr, eq_num, le_num, decide_eq_true_iff, decide_eq_true_iff] at h4
    rcases h4 with h4 | h4
    · rw [h4]; exact hw
    · exact h4
  cases p with
  | space d n diam =>
    obtain ⟨h1, h2, h3⟩ := hs
    unfold Mat.transferMatrix at h
    simp only [h1, h2, lt_num] at h
    split_ifs at h with h4
    · left
      rw [decide_eq_true_iff] at h4
      obtain ⟨rfl, -⟩ := init_okF h
      refine ⟨_, ⟨hw, h4.le, rfl⟩, ?_, ?_, ?_, ?_, ?_⟩
      · simpa [Stage.withOps, Stage.abs, Sys.stage, Sys.space] using near_one hr
      · simpa [Stage.withOps, Stage.abs, Sys.stage, Sys.space] using near_num (rnd := rnd) u w
      · simpa [Stage.withOps, Stage.abs, Sys.stage, Sys.space] using near_zero hr
      · simpa [Stage.withOps, Stage.abs, Sys.stage, Sys.space] using near_one hr
      · simpa [Stage.withOps, Stage.abs, Sys.stage, Sys.space] using near_num (rnd := rnd) u w
    · right
      rw [decide_eq_true_iff, not_lt] at h4
      simp only [pure, Except.pure, Except.ok.injEq] at h
      exact ⟨h ▸ h3, h4⟩
  | thickLens n R1 R2 t diam =>
    obtain ⟨h1, h2, h2', h3⟩ := hs
    unfold Mat.transferMatrix at h
    simp only [h1, h2, le_num] at h
    split_ifs at h with h4
    · right
      rw [decide_eq_true_iff] at h4
      simp only [pure, Except.pure, Except.ok.injEq] at h
      exact ⟨h ▸ h3, by simpa [Part.rmat, Part.rstages, Sys.thick, Sys.andThen, Sys.interface, Sys.space, Sys.stage] using h4⟩
    · left
      rw [decide_eq_true_iff, not_le] at h4
      exact ⟨_, ⟨hw, h4.le, rfl⟩, cutThick_near hr rfl rfl h2' h⟩
  | slab n t diam =>
    obtain ⟨h1, h2, h2', h3⟩ := hs
    unfold Mat.transferMatrix at h
    simp only [h1, h2, le_num] at h
    split_ifs at h with h4
    · right
      rw [decide_eq_true_iff] at h4
      simp only [pure, Except.pure, Except.ok.injEq] at h
      exact ⟨h ▸ h3, by simpa [Part.rmat, Part.rstages, Sys.thick, Sys.andThen, Sys.interface, Sys.space, Sys.stage] using h4⟩
    · left
      rw [decide_eq_true_iff, not_le] at h4
      exact ⟨_, ⟨hw, h4.le, rfl⟩, cutThick_near hr rfl (R := none) inf_val h2' h⟩
  | group l ps => exact hs.elim
  | lens f diam => exact .inr (other hs.1 hs.2.1 hs.2.2.1 hs.2.2.2)
  | mirror f diam => exact .inr (other hs.1 hs.2.1 hs.2.2.1 hs.2.2.2)
  | interface a b c diam => exact .inr (other hs.1 hs.2.1 hs.2.2.1 hs.2.2.2)
  | aperture a b c => exact .inr (other hs.1 hs.2.1 hs.2.2.1 hs.2.2.2)
  | matrix a b c d => exact .inr (other hs.1 hs.2.1 hs.2.2.1 hs.2.2.2)

theorem rnd_nonneg (hr : Rounding rnd u) {x : K} (h : 0 ≤ x) : 0 ≤ rnd x := by
  rcases h.eq_or_lt with rfl | h
  · rw [hr.zero]
  · exact (hr.pos h).le

mutual
/-- The matrix up to a position known up to errors is, up to errors, the exact one of the beginning of the system cut at this position up to errors, or
that of the whole system when the position is not before its end. -/
theorem cut_near (hr : Rounding rnd u) : ∀ {e : Elem (Fl K rnd)} {p : Part K}, e.Shows u p →
    ∀ {w : K}, 0 ≤ w → ∀ {k : ℕ} {d D : K}, |d| ≤ D → |w - d| ≤ relErr u k * D → ∀ {r : Mat (Fl K rnd)}, e.transferMatrix (num w) = .ok r →
    (∃ v s, p.CutAt v s ∧ NearMat u r s ∧ |v - d| ≤ relErr u (k + p.cutOps) * (D + p.rmat.maj.len)) ∨
    (NearMat u r p.rmat ∧ p.rmat.exact.len ≤ d + relErr u (k + p.cutOps) * (D + p.rmat.maj.len))
  | .leaf m, p, hs, w, hw, k, d, D, hd, hwd, r, h => by
    unfold Elem.transferMatrix at h
    have hD : 0 ≤ D := (abs_nonneg _).trans hd
    have hL := hs.near.L.nonneg
    have hg : relErr u k * D ≤ relErr u (k + p.cutOps) * (D + p.rmat.maj.len) := relErr_grow hr.nonneg (by omega) hD (by linarith)
    rcases leaf_cut hr hs hw h with ⟨s, h1, h2⟩ | ⟨h1, h2⟩
    · exact .inl ⟨w, s, h1, h2, hwd.trans hg⟩
    · refine .inr ⟨h1, ?_⟩
      have := (abs_le.1 hwd).2
      linarith
  | .group m c es, .group l ps, hs, w, hw, k, d, D, hd, hwd, r, h => by
    unfold Elem.transferMatrix at h
    obtain ⟨g1, g2⟩ := group_len l ps
    rw [g1, g2]
    unfold Part.cutOps Part.CutAt
    have := cutList_near hr hs.2 (nearMat_one hr) hw hd hwd h
    exact this
theorem cutList_near (hr : Rounding rnd u) : ∀ {es : List (Elem (Fl K rnd))} {ps : List (Part K)}, showsList u es ps →
    ∀ {acc : Mat (Fl K rnd)} {s0 : RStage K}, NearMat u acc s0 →
    ∀ {w : K}, 0 ≤ w → ∀ {k : ℕ} {d D : K}, |d| ≤ D → |w - d| ≤ relErr u k * D → ∀ {r : Mat (Fl K rnd)}, transferMatrixList es (num w) acc = .ok r →
    (∃ v s, Part.CutList s0 ps v s ∧ NearMat u r s ∧ |v - d| ≤ relErr u (k + Part.cutOpsList ps) * (D + majLenList ps)) ∨
    (NearMat u r (Part.rmatList s0 ps) ∧ lenList ps ≤ d + relErr u (k + Part.cutOpsList ps) * (D + majLenList ps))
  | [], [], _, acc, s0, ha, w, hw, k, d, D, hd, hwd, r, h => by
    simp only [transferMatrixList, Except.ok.injEq] at h
    subst h
    right
    refine ⟨by unfold Part.rmatList; exact ha, ?_⟩
    simp only [lenList, majLenList, Part.cutOpsList, List.map_nil, List.sum_nil, add_zero]
    have := (abs_le.1 hwd).2
    linarith
  | e :: es, p :: ps, hs, acc, s0, ha, w, hw, k, d, D, hd, hwd, r, h => by
    have hD : 0 ≤ D := (abs_nonneg _).trans hd
    have hn := hs.1.near
    have hL := hn.L.nonneg
    have hLs := showsList_maj hs.2
    have em : majLenList (p :: ps) = p.rmat.maj.len + majLenList ps := by simp [majLenList]
    have el : lenList (p :: ps) = p.rmat.exact.len + lenList ps := by simp [lenList]
    have eo : Part.cutOpsList (p :: ps) = p.rmat.ops + 1 + p.cutOps + Part.cutOpsList ps := by simp [Part.cutOpsList]
    obtain ⟨L', hL1, hL2, hL3⟩ := hn.L
    unfold transferMatrixList at h
    rw [hL1, le_num] at h
    split_ifs at h with hle
    · rw [decide_eq_true_iff] at hle
      rw [num_sub] at h
      split at h
      · cases h
      · next t ht =>
        have ht' : NearMat u t (s0.andThen p.rmat) := by rw [mulMatrix_okF ht]; exact hn.mulRaw hr ha
        obtain ⟨w', hw1, hw2, hw3⟩ := Near.sub hr (k := k + p.rmat.ops) (x := (num w : Fl K rnd)) (y := num L') (a := d) (b := p.rmat.exact.len) (A := D)
          (B := p.rmat.maj.len) ⟨w, rfl, hd, hwd.trans (relErr_grow hr.nonneg (by omega) hD le_rfl)⟩
          ⟨L', rfl, hL2, hL3.trans (relErr_grow hr.nonneg (by omega) hL le_rfl)⟩
        rw [num_sub] at hw1
        obtain rfl := num_inj hw1
        have hcount : k + p.rmat.ops + 1 + Part.cutOpsList ps ≤ k + Part.cutOpsList (p :: ps) := by rw [eo]; omega
        have hgrow : relErr u (k + p.rmat.ops + 1 + Part.cutOpsList ps) * (D + p.rmat.maj.len + majLenList ps) ≤
            relErr u (k + Part.cutOpsList (p :: ps)) * (D + majLenList (p :: ps)) := by
          rw [em]; exact relErr_grow hr.nonneg hcount (by linarith) (by linarith)
        rcases cutList_near hr hs.2 ht' (rnd_nonneg hr (by linarith : 0 ≤ w - L')) hw2 hw3 h with ⟨v, s, c1, c2, c3⟩ | ⟨c1, c2⟩
        · refine .inl ⟨p.rmat.exact.len + v, s, ?_, c2, ?_⟩
          · unfold Part.CutList; exact .inr (.inr ⟨v, rfl, c1⟩)
          · rw [show p.rmat.exact.len + v - d = v - (d - p.rmat.exact.len) by ring]; exact c3.trans hgrow
        · refine .inr ⟨by unfold Part.rmatList; exact c1, ?_⟩
          rw [el]; linarith
    · rw [decide_eq_true_iff, not_le] at hle
      split at h
      · cases h
      · next q hq =>
        have hgrow : relErr u (k + p.cutOps) * (D + p.rmat.maj.len) ≤ relErr u (k + Part.cutOpsList (p :: ps)) * (D + majLenList (p :: ps)) := by
          rw [em, eo]; exact relErr_grow hr.nonneg (by omega) (by linarith) (by linarith)
        rw [mulMatrix_okF h]
        rcases cut_near hr hs.1 hw hd hwd hq with ⟨v, s, c1, c2, c3⟩ | ⟨c1, c2⟩
        · refine .inl ⟨v, s0.andThen s, ?_, c2.mulRaw hr ha, c3.trans hgrow⟩
          unfold Part.CutList; exact .inr (.inl ⟨s, c1, rfl⟩)
        · refine .inl ⟨p.rmat.exact.len + 0, s0.andThen p.rmat, ?_, c1.mulRaw hr ha, ?_⟩
          · unfold Part.CutList
            refine .inr (.inr ⟨0, rfl, ?_⟩)
            cases ps with
            | nil => unfold Part.CutList; exact ⟨rfl, rfl⟩
            | cons p' ps => unfold Part.CutList; exact .inl ⟨rfl, rfl⟩
          · rw [add_zero, abs_le]
            have b1 := (abs_le.1 hwd).1
            have b2 := (abs_le.1 hL3).2
            have g1 : relErr u k * D + relErr u p.rmat.ops * p.rmat.maj.len ≤ relErr u (k + Part.cutOpsList (p :: ps)) * (D + majLenList (p :: ps)) := by
              have a1 : relErr u k * D ≤ relErr u (k + Part.cutOpsList (p :: ps)) * D := relErr_grow hr.nonneg (by omega) hD le_rfl
              have a2 : relErr u p.rmat.ops * p.rmat.maj.len ≤ relErr u (k + Part.cutOpsList (p :: ps)) * majLenList (p :: ps) := by
                rw [em, eo]; exact relErr_grow hr.nonneg (by omega) hL (by linarith)
              rw [mul_add]; linarith
            constructor
            · linarith
            · linarith
end

end RT
