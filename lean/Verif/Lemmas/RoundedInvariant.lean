import Verif.Lemmas.RoundedCut
import Verif.Lemmas.RoundedMedia

/-! # The index after the beginning of a system in air, in rounded arithmetic -/

set_option linter.unusedSectionVars false

namespace RT
open PyNum Ext Fl
variable {K : Type} [Field K] [LinearOrder K] [IsStrictOrderedRing K]
variable {rnd : K → K} {u : K}

mutual
/-- The element and the elements inside are in air. -/
def Elem.AirThrough : Elem (Fl K rnd) → Prop
  | .leaf m => AirMat m
  | .group m _ es => AirMat m ∧ airThroughList es
/-- all of them -/
def airThroughList : List (Elem (Fl K rnd)) → Prop
  | [] => True
  | e :: es => e.AirThrough ∧ airThroughList es
end

theorem Elem.AirThrough.mat {e : Elem (Fl K rnd)} (h : e.AirThrough) : AirMat e.mat := by
  cases e with
  | leaf m => unfold Elem.AirThrough at h; exact h
  | group m c es => unfold Elem.AirThrough at h; exact h.1

theorem airThroughList_append {es : List (Elem (Fl K rnd))} {e : Elem (Fl K rnd)} (h : airThroughList es) (he : e.AirThrough) : airThroughList (es ++ [e]) := by
  induction es with
  | nil => exact ⟨he, trivial⟩
  | cons x es ih => exact ⟨h.1, ih h.2⟩

theorem airThroughList_mem {es : List (Elem (Fl K rnd))} (h : airThroughList es) {e : Elem (Fl K rnd)} (he : e ∈ es) : e.AirThrough := by
  induction es with
  | nil => simp at he
  | cons x es ih =>
    rcases List.mem_cons.1 he with rfl | he
    · exact h.1
    · exact ih h.2 he

theorem showsList_append {es : List (Elem (Fl K rnd))} {ps : List (Part K)} (h : showsList u es ps) {e : Elem (Fl K rnd)} {p : Part K}
    (he : e.Shows u p) : showsList u (es ++ [e]) (ps ++ [p]) := by
  induction es generalizing ps with
  | nil => cases ps with
    | nil => exact ⟨he, trivial⟩
    | cons q ps => exact h.elim
  | cons x es ih => cases ps with
    | nil => exact h.elim
    | cons q ps => exact ⟨h.1, ih h.2⟩

/-- the whole product of elements in air -/
theorem transferMatrixList_airThrough : ∀ {es : List (Elem (Fl K rnd))} {ps : List (Part K)}, showsList u es ps → airThroughList es →
    ∀ {acc t : Mat (Fl K rnd)}, AirMat acc → transferMatrixList es inf acc = .ok t → AirMat t
  | [], _, _, _, acc, t, ha, h => by
    simp only [transferMatrixList, Except.ok.injEq] at h
    exact h ▸ ha
  | e :: es, [], hs, _, _, _, _, _ => hs.elim
  | e :: es, p :: ps, hs, hi, acc, t, ha, h => by
    unfold transferMatrixList at h
    rw [if_pos (le_infR hs.1.near.L), inf_subR hs.1.near.L] at h
    split at h
    · cases h
    · next q hq =>
      rw [mulMatrix_okF hq] at h
      exact transferMatrixList_airThrough hs.2 hi.2 (mulRaw_air hi.1.mat ha) h

theorem appendAll_airThrough (hr : Rounding rnd u) {es : List (Elem (Fl K rnd))} : ∀ {ps : List (Part K)}, showsList u es ps → airThroughList es →
    ∀ {g g' : Group (Fl K rnd)} {qs : List (Part K)}, showsList u g.elems qs → airThroughList g.elems → AirMat g.mat →
    g.appendAll es = (g', .ok ()) → airThroughList g'.elems ∧ AirMat g'.mat := by
  induction es with
  | nil =>
    intro ps _ _ g g' qs _ hg hm h
    simp only [Group.appendAll, Prod.mk.injEq, and_true] at h
    subst h; exact ⟨hg, hm⟩
  | cons e es ih =>
    intro ps hs hi g g' qs hq hg hm h
    cases ps with
    | nil => exact hs.elim
    | cons p ps =>
      have h1 : g.append e = g.push e := by
        unfold Group.append
        cases hl : g.elems.getLast? with
        | none => rfl
        | some last =>
          have hlast := (airThroughList_mem hg (List.mem_of_getLast? hl)).mat
          simp only [hlast.2, hi.1.mat.1]
          have : ((num 1 : Fl K rnd) !=. num 1) = false := by
            show (!((num 1 : Fl K rnd) ==. num 1)) = false
            rw [eq_num]; simp
          rw [this]; rfl
      unfold Group.appendAll at h
      rw [h1] at h
      unfold Group.push at h
      dsimp only at h
      cases ht : transferMatrixList (g.elems ++ [e]) inf Mat.one with
      | error x => rw [ht] at h; cases h
      | ok t =>
        rw [ht] at h
        dsimp only at h
        have hs' := showsList_append hq hs.1
        have hi' := airThroughList_append hg hi.1
        have ht' := transferMatrixList_airThrough hs' hi' ⟨one_num hr, one_num hr⟩ ht
        exact ih hs.2 hi.2 (g := { g with elems := g.elems ++ [e], mat := g.mat.refresh t }) hs' hi' ⟨ht'.1, ht'.2⟩ h

mutual
/-- A system in air keeps areas. -/
theorem inAir_det : ∀ {p : Part K}, p.InAir → p.rmat.exact.dt = 1
  | .space d n diam, _ => by simp [Part.rmat, Part.rstages, Stage.withOps, Sys.stage, Sys.space, Stage.dt]
  | .lens f diam, _ => by simp [Part.rmat, Part.rstages, Stage.withOps, Sys.stage, Sys.lens, Stage.dt]
  | .mirror R diam, _ => by simp [Part.rmat, Part.rstages, Stage.withOps, Sys.stage, Sys.mirror, Stage.dt]
  | .interface _ _ _ _, ha => ha.elim
  | .thickLens n R1 R2 t diam, ha => thick_det ha.1 _
  | .slab n t diam, ha => thick_det ha.1 _
  | .aperture diam na label, _ => by simp [Part.rmat, Part.rstages, Stage.withOps, Sys.stage, Sys.one, Stage.dt]
  | .matrix s fv bv diam, ha => ha.2.2.1
  | .group label ps, ha => by
    unfold Part.InAir at ha
    unfold Part.rmat
    exact inAirList_det ha (by simp [RStage.one, Stage.dt])
theorem inAirList_det : ∀ {ps : List (Part K)}, Part.InAirList ps → ∀ {acc : RStage K}, acc.exact.dt = 1 → (Part.rmatList acc ps).exact.dt = 1
  | [], _, acc, h => by unfold Part.rmatList; exact h
  | p :: ps, ha, acc, h => by
    unfold Part.rmatList
    refine inAirList_det ha.2 ?_
    change (acc.exact.andThen p.rmat.exact).dt = 1
    rw [Stage.andThen_dt, h, inAir_det ha.1, one_mul]
end

mutual
/-- A system in air that was accepted has the index 1 everywhere, outside thick lenses and slabs. -/
theorem buildR_airThrough (hr : Rounding rnd u) : ∀ {p : Part K}, p.InAir → ∀ {e : Elem (Fl K rnd)}, p.buildR rnd = .ok e → e.AirThrough
  | .space d n diam, ha, e, hb => by
    obtain ⟨rfl, -⟩ := ha
    unfold Part.buildR Part.buildWith at hb; obtain ⟨m, h, rfl⟩ := Except.map_ok hb
    unfold mkSpace at h; obtain ⟨rfl, -⟩ := init_okF h
    exact ⟨rfl, rfl⟩
  | .lens f diam, ha, e, hb => by
    unfold Part.buildR Part.buildWith mkLens at hb; obtain ⟨m, h, rfl⟩ := Except.map_ok hb
    obtain ⟨c, -, h⟩ := bind_ok h
    obtain ⟨rfl, -⟩ := init_okF h
    exact ⟨one_num hr, one_num hr⟩
  | .mirror R diam, ha, e, hb => by
    unfold Part.buildR Part.buildWith mkCurvedMirror at hb; obtain ⟨m, h, rfl⟩ := Except.map_ok hb
    obtain ⟨c, -, h⟩ := bind_ok h
    obtain ⟨rfl, -⟩ := init_okF h
    exact ⟨one_num hr, one_num hr⟩
  | .interface _ _ _ _, ha, _, _ => ha.elim
  | .thickLens n R1 R2 t diam, ha, e, hb => by
    unfold Part.buildR Part.buildWith mkThickLens mkThickOf at hb; obtain ⟨m, h, rfl⟩ := Except.map_ok hb
    obtain ⟨a, -, h⟩ := bind_ok h
    obtain ⟨b, -, h⟩ := bind_ok h
    obtain ⟨c, -, h⟩ := bind_ok h
    obtain ⟨d, -, h⟩ := bind_ok h
    obtain ⟨rfl, -⟩ := init_okF h
    exact ⟨one_num hr, one_num hr⟩
  | .slab n t diam, ha, e, hb => by
    unfold Part.buildR Part.buildWith mkSlab mkThickOf at hb; obtain ⟨m, h, rfl⟩ := Except.map_ok hb
    obtain ⟨a, -, h⟩ := bind_ok h
    obtain ⟨b, -, h⟩ := bind_ok h
    obtain ⟨c, -, h⟩ := bind_ok h
    obtain ⟨d, -, h⟩ := bind_ok h
    obtain ⟨rfl, -⟩ := init_okF h
    exact ⟨one_num hr, one_num hr⟩
  | .aperture diam na label, ha, e, hb => by
    unfold Part.buildR Part.buildWith mkAperture at hb; obtain ⟨m, h, rfl⟩ := Except.map_ok hb
    obtain ⟨rfl, -⟩ := init_okF h
    exact ⟨one_num hr, one_num hr⟩
  | .matrix s fv bv diam, ha, e, hb => by
    obtain ⟨h1, h2, h3, -⟩ := ha
    unfold Part.buildR Part.buildWith at hb; obtain ⟨m, h, rfl⟩ := Except.map_ok hb
    obtain ⟨rfl, -⟩ := init_okF h
    simp [Elem.AirThrough, AirMat, genericMatWith, h1, h2]
  | .group label ps, ha, e, hb => by
    unfold Part.InAir at ha
    unfold Part.buildR Part.buildWith at hb
    split at hb
    · simp at hb
    · next es hes =>
      obtain ⟨g, hnew, rfl⟩ := Except.map_ok hb
      unfold Group.new at hnew
      split at hnew
      · next g' hg' =>
        simp only [Except.ok.injEq] at hnew
        subst hnew
        obtain ⟨q1, q2⟩ := appendAll_airThrough hr (buildListR_shows hr hes) (buildListR_airThrough hr ha hes) (g := Group.empty label) (qs := [])
          trivial trivial ⟨one_num hr, one_num hr⟩ hg'
        exact ⟨q2, q1⟩
      · cases hnew
theorem buildListR_airThrough (hr : Rounding rnd u) : ∀ {ps : List (Part K)}, Part.InAirList ps → ∀ {es : List (Elem (Fl K rnd))},
    Part.buildListWith num optNum ps = .ok es → airThroughList es
  | [], _, es, hb => by
    simp only [Part.buildListWith, Except.ok.injEq] at hb; subst hb; trivial
  | p :: ps, ha, es, hb => by
    unfold Part.buildListWith at hb
    split at hb
    · simp at hb
    · next e he =>
      split at hb
      · simp at hb
      · next es' hes =>
        simp only [Except.ok.injEq] at hb; subst hb
        exact ⟨buildR_airThrough hr ha.1 he, buildListR_airThrough hr ha.2 hes⟩
end

/-! ## The index at the end of the beginning of a system -/

/-- error on a determinant computed from the coefficients of `s` -/
def RStage.detErr (u : K) (s : RStage K) : K := relErr u (2 * s.ops + 2) * (s.maj.a * s.maj.d + s.maj.b * s.maj.c)

/-- The index after `m` is the inverse of the determinant; it is 1 where the computed matrix does not show a change of index. -/
def AfterIndex (u : K) (m : Mat (Fl K rnd)) (s : RStage K) : Prop :=
  ∃ n, m.backIndex = num n ∧ (n * s.exact.dt = 1 ∨ (n = 1 ∧ |s.exact.dt - 1| ≤ s.detErr u))

theorem after_air {m : Mat (Fl K rnd)} {s : RStage K} (h : AirMat m) (hd : s.exact.dt = 1) : AfterIndex u m s :=
  ⟨1, h.2, .inl (by rw [hd, one_mul])⟩

theorem NearMat.perm {m : Mat (Fl K rnd)} {s : RStage K} (h : NearMat u m s) : |s.exact.dt| ≤ s.maj.a * s.maj.d + s.maj.b * s.maj.c := by
  have key : ∀ {x : Fl K rnd} {a A : K}, Near u s.ops x a A → |a| ≤ A := fun ⟨_, _, h, _⟩ => h
  unfold Stage.dt
  refine (abs_sub _ _).trans ?_
  rw [abs_mul, abs_mul]
  have := key h.A
  have := key h.B
  have := key h.C
  have := key h.D
  have := h.A.nonneg
  have := h.B.nonneg
  gcongr

/-- after elements in air, the error on the determinant grows -/
theorem detErr_grow (hu : 0 ≤ u) {m q : Mat (Fl K rnd)} {s0 s : RStage K} (h0 : NearMat u m s0) (h : NearMat u q s) (hd : s0.exact.dt = 1) :
    s.detErr u ≤ (s0.andThen s).detErr u := by
  have h1 := h0.perm
  rw [hd, abs_one] at h1
  have a1 := h0.A.nonneg
  have a2 := h0.B.nonneg
  have a3 := h0.C.nonneg
  have a4 := h0.D.nonneg
  have b1 := h.A.nonneg
  have b2 := h.B.nonneg
  have b3 := h.C.nonneg
  have b4 := h.D.nonneg
  unfold RStage.detErr
  refine relErr_grow hu ?_ (by positivity) ?_
  · simp only [RStage.andThen]; omega
  · simp only [RStage.andThen, Stage.andThen]
    have e : (s.maj.a * s0.maj.a + s.maj.b * s0.maj.c) * (s.maj.c * s0.maj.b + s.maj.d * s0.maj.d) +
        (s.maj.a * s0.maj.b + s.maj.b * s0.maj.d) * (s.maj.c * s0.maj.a + s.maj.d * s0.maj.c) =
        (s.maj.a * s.maj.d + s.maj.b * s.maj.c) * (s0.maj.a * s0.maj.d + s0.maj.b * s0.maj.c) +
        2 * (s.maj.a * s.maj.c * (s0.maj.a * s0.maj.b)) + 2 * (s.maj.b * s.maj.d * (s0.maj.c * s0.maj.d)) := by ring
    rw [e]
    have p1 : 0 ≤ s.maj.a * s.maj.d + s.maj.b * s.maj.c := by positivity
    have p2 := mul_le_mul_of_nonneg_left h1 p1
    have p3 : 0 ≤ s.maj.a * s.maj.c * (s0.maj.a * s0.maj.b) := by positivity
    have p4 : 0 ≤ s.maj.b * s.maj.d * (s0.maj.c * s0.maj.d) := by positivity
    linarith

theorem AfterIndex.mul (hr : Rounding rnd u) {acc q : Mat (Fl K rnd)} {s0 s : RStage K} (h0 : NearMat u acc s0) (h : NearMat u q s) (ha : AirMat acc)
    (hd : s0.exact.dt = 1) (hq : AfterIndex u q s) : AfterIndex u (q.mulRaw acc) (s0.andThen s) := by
  have hdt : (s0.andThen s).exact.dt = s.exact.dt := by
    change (s0.exact.andThen s.exact).dt = _
    rw [Stage.andThen_dt, hd, one_mul]
  have hg := detErr_grow hr.nonneg h0 h hd
  obtain ⟨n, h1, h2⟩ := hq
  unfold AfterIndex
  rw [hdt]
  by_cases hi : q.isIdentity = true
  · refine ⟨1, by simp [Mat.mulRaw, Mat.mulBackIndex, hi, ha.2], .inr ⟨rfl, le_trans ?_ hg⟩⟩
    obtain ⟨x, hx, hb⟩ := h.determinant hr
    rw [identity_det hr (identity_coeffs hr h hi)] at hx
    obtain rfl := num_inj hx
    rw [abs_sub_comm]; exact hb
  · refine ⟨n, ?_, ?_⟩
    · simp [Mat.mulRaw, Mat.mulBackIndex, hi, h1]
    · rcases h2 with h2 | ⟨h2, h3⟩
      · exact .inl h2
      · exact .inr ⟨h2, h3.trans hg⟩

theorem cutThick_after {n w : K} {R diam : Option K} (hn : n ≠ 0) {RF dF : Fl K rnd} {m : Mat (Fl K rnd)}
    (h : (do let s ← mkSpace (num w) (num n) dF; let i ← mkDielectric 1 (num n) RF dF; s.mulMatrix i) = .ok m) :
    AfterIndex u m (cutThick n R w diam) := by
  obtain ⟨s, h1, h⟩ := bind_ok h
  obtain ⟨i, h2, h⟩ := bind_ok h
  rw [mulMatrix_okF h]
  unfold mkSpace at h1; obtain ⟨rfl, -⟩ := init_okF h1
  unfold mkDielectric at h2
  obtain ⟨c, -, h2⟩ := bind_ok h2
  obtain ⟨d, -, h2⟩ := bind_ok h2
  obtain ⟨rfl, -⟩ := init_okF h2
  refine ⟨n, ?_, .inl ?_⟩
  · simp [Mat.mulRaw, Mat.mulBackIndex]
  · simp only [cutThick]
    change n * (Stage.andThen _ _).dt = 1
    rw [Stage.andThen_dt]
    simp [Stage.withOps, Sys.stage, Sys.interface, Sys.space, Stage.dt, hn]

/-- for a single element -/
theorem leaf_after (hr : Rounding rnd u) {m : Mat (Fl K rnd)} {p : Part K} (hs : (Elem.leaf m).Shows u p) (hp : p.InAir) (hm : AirMat m)
    {w : K} (hw : 0 ≤ w) {r : Mat (Fl K rnd)} (h : m.transferMatrix (num w) = .ok r) :
    (∃ s, p.CutAt w s ∧ NearMat u r s ∧ AfterIndex u r s) ∨ (NearMat u r p.rmat ∧ AfterIndex u r p.rmat ∧ p.rmat.exact.len ≤ w) := by
  have hd := inAir_det hp
  have other : (∀ up t, m.transferMatrix up = .ok t → t = m ∧ ((m.L ==. 0) = true ∨ (m.L ≤. up) = true)) →
      m.L = num p.rmat.exact.len → NearMat u m p.rmat → NearMat u r p.rmat ∧ AfterIndex u r p.rmat ∧ p.rmat.exact.len ≤ w := by
    intro h1 h2 h3
    obtain ⟨rfl, h4⟩ := h1 _ _ h
    refine ⟨h3, after_air hm hd, ?_⟩
    rw [h2, zero_num hr, eq_num, le_num, decide_eq_true_iff, decide_eq_true_iff] at h4
    rcases h4 with h4 | h4
    · rw [h4]; exact hw
    · exact h4
  cases p with
  | space d n diam =>
    rcases leaf_cut hr hs hw h with ⟨s, h1, h2⟩ | ⟨h1, h2⟩
    · refine .inl ⟨s, h1, h2, ?_⟩
      obtain ⟨k1, k2, k3⟩ := hs
      obtain ⟨-, -, rfl⟩ := h1
      unfold Mat.transferMatrix at h
      simp only [k1, k2, lt_num] at h
      refine after_air ?_ (by simp [Stage.withOps, Sys.stage, Sys.space, Stage.dt])
      split_ifs at h with h4
      · unfold mkSpace at h; obtain ⟨rfl, -⟩ := init_okF h
        exact ⟨hm.1, hm.1⟩
      · simp only [pure, Except.pure, Except.ok.injEq] at h
        exact h ▸ hm
    · refine .inr ⟨h1, ?_, h2⟩
      obtain ⟨k1, k2, k3⟩ := hs
      refine after_air ?_ hd
      unfold Mat.transferMatrix at h
      simp only [k1, k2, lt_num] at h
      split_ifs at h with h4
      · unfold mkSpace at h; obtain ⟨rfl, -⟩ := init_okF h
        exact ⟨hm.1, hm.1⟩
      · simp only [pure, Except.pure, Except.ok.injEq] at h
        exact h ▸ hm
  | thickLens n R1 R2 t diam =>
    obtain ⟨h1, h2, h2', h3⟩ := hs
    unfold Mat.transferMatrix at h
    simp only [h1, h2, le_num] at h
    split_ifs at h with h4
    · right
      rw [decide_eq_true_iff] at h4
      simp only [pure, Except.pure, Except.ok.injEq] at h
      exact ⟨h ▸ h3, h ▸ after_air hm hd,
        by simpa [Part.rmat, Part.rstages, Sys.thick, Sys.andThen, Sys.interface, Sys.space, Sys.stage] using h4⟩
    · left
      rw [decide_eq_true_iff, not_le] at h4
      exact ⟨_, ⟨hw, h4.le, rfl⟩, cutThick_near hr rfl rfl h2' h, cutThick_after hp.1 h⟩
  | slab n t diam =>
    obtain ⟨h1, h2, h2', h3⟩ := hs
    unfold Mat.transferMatrix at h
    simp only [h1, h2, le_num] at h
    split_ifs at h with h4
    · right
      rw [decide_eq_true_iff] at h4
      simp only [pure, Except.pure, Except.ok.injEq] at h
      exact ⟨h ▸ h3, h ▸ after_air hm hd,
        by simpa [Part.rmat, Part.rstages, Sys.thick, Sys.andThen, Sys.interface, Sys.space, Sys.stage] using h4⟩
    · left
      rw [decide_eq_true_iff, not_le] at h4
      exact ⟨_, ⟨hw, h4.le, rfl⟩, cutThick_near hr rfl (R := none) inf_val h2' h, cutThick_after hp.1 h⟩
  | group l ps => exact hs.elim
  | lens f diam => exact .inr (other hs.2.1 hs.2.2.1 hs.2.2.2)
  | mirror f diam => exact .inr (other hs.2.1 hs.2.2.1 hs.2.2.2)
  | interface a b c diam => exact hp.elim
  | aperture a b c => exact .inr (other hs.2.1 hs.2.2.1 hs.2.2.2)
  | matrix a b c d => exact .inr (other hs.2.1 hs.2.2.1 hs.2.2.2)

mutual
/-- The matrix up to a position, its cut and the index there. -/
theorem cut_after (hr : Rounding rnd u) : ∀ {e : Elem (Fl K rnd)} {p : Part K}, e.Shows u p → p.InAir → e.AirThrough →
    ∀ {w : K}, 0 ≤ w → ∀ {k : ℕ} {d D : K}, |d| ≤ D → |w - d| ≤ relErr u k * D → ∀ {r : Mat (Fl K rnd)}, e.transferMatrix (num w) = .ok r →
    (∃ v s, p.CutAt v s ∧ NearMat u r s ∧ AfterIndex u r s ∧ |v - d| ≤ relErr u (k + p.cutOps) * (D + p.rmat.maj.len)) ∨
    (NearMat u r p.rmat ∧ AfterIndex u r p.rmat ∧ p.rmat.exact.len ≤ d + relErr u (k + p.cutOps) * (D + p.rmat.maj.len))
  | .leaf m, p, hs, hp, hi, w, hw, k, d, D, hd, hwd, r, h => by
    unfold Elem.transferMatrix at h
    have hD : 0 ≤ D := (abs_nonneg _).trans hd
    have hL := hs.near.L.nonneg
    have hg : relErr u k * D ≤ relErr u (k + p.cutOps) * (D + p.rmat.maj.len) := relErr_grow hr.nonneg (by omega) hD (by linarith)
    rcases leaf_after hr hs hp hi hw h with ⟨s, h1, h2, h3⟩ | ⟨h1, h2, h3⟩
    · exact .inl ⟨w, s, h1, h2, h3, hwd.trans hg⟩
    · refine .inr ⟨h1, h2, ?_⟩
      have := (abs_le.1 hwd).2
      linarith
  | .group m c es, .group l ps, hs, hp, hi, w, hw, k, d, D, hd, hwd, r, h => by
    unfold Elem.transferMatrix at h
    obtain ⟨g1, g2⟩ := group_len l ps
    rw [g1, g2]
    unfold Part.cutOps Part.CutAt
    exact cutList_after hr hs.2 hp hi.2 (nearMat_one hr) ⟨one_num hr, one_num hr⟩ (by simp [RStage.one, Stage.dt]) hw hd hwd h
theorem cutList_after (hr : Rounding rnd u) : ∀ {es : List (Elem (Fl K rnd))} {ps : List (Part K)}, showsList u es ps → Part.InAirList ps →
    airThroughList es → ∀ {acc : Mat (Fl K rnd)} {s0 : RStage K}, NearMat u acc s0 → AirMat acc → s0.exact.dt = 1 →
    ∀ {w : K}, 0 ≤ w → ∀ {k : ℕ} {d D : K}, |d| ≤ D → |w - d| ≤ relErr u k * D → ∀ {r : Mat (Fl K rnd)}, transferMatrixList es (num w) acc = .ok r →
    (∃ v s, Part.CutList s0 ps v s ∧ NearMat u r s ∧ AfterIndex u r s ∧ |v - d| ≤ relErr u (k + Part.cutOpsList ps) * (D + majLenList ps)) ∨
    (NearMat u r (Part.rmatList s0 ps) ∧ AfterIndex u r (Part.rmatList s0 ps) ∧
      lenList ps ≤ d + relErr u (k + Part.cutOpsList ps) * (D + majLenList ps))
  | [], [], _, _, _, acc, s0, ha, hair, h0, w, hw, k, d, D, hd, hwd, r, h => by
    simp only [transferMatrixList, Except.ok.injEq] at h
    subst h
    right
    refine ⟨by unfold Part.rmatList; exact ha, by unfold Part.rmatList; exact after_air hair h0, ?_⟩
    simp only [lenList, majLenList, Part.cutOpsList, List.map_nil, List.sum_nil, add_zero]
    have := (abs_le.1 hwd).2
    linarith
  | e :: es, p :: ps, hs, hp, hi, acc, s0, ha, hair, h0, w, hw, k, d, D, hd, hwd, r, h => by
    have hD : 0 ≤ D := (abs_nonneg _).trans hd
    have hn := hs.1.near
    have hL := hn.L.nonneg
    have hLs := showsList_maj hs.2
    have hpd := inAir_det hp.1
    have em : majLenList (p :: ps) = p.rmat.maj.len + majLenList ps := by simp [majLenList]
    have el : lenList (p :: ps) = p.rmat.exact.len + lenList ps := by simp [lenList]
    have eo : Part.cutOpsList (p :: ps) = p.rmat.ops + 1 + p.cutOps + Part.cutOpsList ps := by simp [Part.cutOpsList]
    obtain ⟨L', hL1, hL2, hL3⟩ := hn.L
    unfold transferMatrixList at h
    rw [hL1, le_num] at h
    split_ifs at h with hle
    · rw [decide_eq_true_iff] at hle
      rw [num_sub] at h
      split at h
      · cases h
      · next t ht =>
        have ht' : NearMat u t (s0.andThen p.rmat) := by rw [mulMatrix_okF ht]; exact hn.mulRaw hr ha
        have hta : AirMat t := by rw [mulMatrix_okF ht]; exact mulRaw_air hi.1.mat hair
        have htd : (s0.andThen p.rmat).exact.dt = 1 := by
          change (s0.exact.andThen p.rmat.exact).dt = 1
          rw [Stage.andThen_dt, h0, hpd, one_mul]
        obtain ⟨w', hw1, hw2, hw3⟩ := Near.sub hr (k := k + p.rmat.ops) (x := (num w : Fl K rnd)) (y := num L') (a := d) (b := p.rmat.exact.len) (A := D)
          (B := p.rmat.maj.len) ⟨w, rfl, hd, hwd.trans (relErr_grow hr.nonneg (by omega) hD le_rfl)⟩
          ⟨L', rfl, hL2, hL3.trans (relErr_grow hr.nonneg (by omega) hL le_rfl)⟩
        rw [num_sub] at hw1
        obtain rfl := num_inj hw1
        have hcount : k + p.rmat.ops + 1 + Part.cutOpsList ps ≤ k + Part.cutOpsList (p :: ps) := by rw [eo]; omega
        have hgrow : relErr u (k + p.rmat.ops + 1 + Part.cutOpsList ps) * (D + p.rmat.maj.len + majLenList ps) ≤
            relErr u (k + Part.cutOpsList (p :: ps)) * (D + majLenList (p :: ps)) := by
          rw [em]; exact relErr_grow hr.nonneg hcount (by linarith) (by linarith)
        rcases cutList_after hr hs.2 hp.2 hi.2 ht' hta htd (rnd_nonneg hr (by linarith : 0 ≤ w - L')) hw2 hw3 h with
          ⟨v, s, c1, c2, c2', c3⟩ | ⟨c1, c1', c2⟩
        · refine .inl ⟨p.rmat.exact.len + v, s, ?_, c2, c2', ?_⟩
          · unfold Part.CutList; exact .inr (.inr ⟨v, rfl, c1⟩)
          · rw [show p.rmat.exact.len + v - d = v - (d - p.rmat.exact.len) by ring]; exact c3.trans hgrow
        · refine .inr ⟨by unfold Part.rmatList; exact c1, by unfold Part.rmatList; exact c1', ?_⟩
          rw [el]; linarith
    · rw [decide_eq_true_iff, not_le] at hle
      split at h
      · cases h
      · next q hq =>
        have hgrow : relErr u (k + p.cutOps) * (D + p.rmat.maj.len) ≤ relErr u (k + Part.cutOpsList (p :: ps)) * (D + majLenList (p :: ps)) := by
          rw [em, eo]; exact relErr_grow hr.nonneg (by omega) (by linarith) (by linarith)
        rw [mulMatrix_okF h]
        rcases cut_after hr hs.1 hp.1 hi.1 hw hd hwd hq with ⟨v, s, c1, c2, c2', c3⟩ | ⟨c1, c1', c2⟩
        · refine .inl ⟨v, s0.andThen s, ?_, c2.mulRaw hr ha, c2'.mul hr ha c2 hair h0, c3.trans hgrow⟩
          unfold Part.CutList; exact .inr (.inl ⟨s, c1, rfl⟩)
        · refine .inl ⟨p.rmat.exact.len + 0, s0.andThen p.rmat, ?_, c1.mulRaw hr ha, c1'.mul hr ha c1 hair h0, ?_⟩
          · unfold Part.CutList
            refine .inr (.inr ⟨0, rfl, ?_⟩)
            cases ps with
            | nil => unfold Part.CutList; exact ⟨rfl, rfl⟩
            | cons p' ps => unfold Part.CutList; exact .inl ⟨rfl, rfl⟩
          · rw [add_zero, abs_le]
            have b1 := (abs_le.1 hwd).1
            have b2 := (abs_le.1 hL3).2
            have g1 : relErr u k * D + relErr u p.rmat.ops * p.rmat.maj.len ≤ relErr u (k + Part.cutOpsList (p :: ps)) * (D + majLenList (p :: ps)) := by
              have a1 : relErr u k * D ≤ relErr u (k + Part.cutOpsList (p :: ps)) * D := relErr_grow hr.nonneg (by omega) hD le_rfl
              have a2 : relErr u p.rmat.ops * p.rmat.maj.len ≤ relErr u (k + Part.cutOpsList (p :: ps)) * majLenList (p :: ps) := by
                rw [em, eo]; exact relErr_grow hr.nonneg (by omega) hL (by linarith)
              rw [mul_add]; linarith
            constructor
            · linarith
            · linarith
end

end RT
