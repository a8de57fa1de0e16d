import Verif.Model.Build
import Verif.Lemmas.Tree

/-! # What programs build is consistent -/

set_option linter.unusedSectionVars false

namespace RT
open PyNum Ext
variable {K : Type} [Field K] [LinearOrder K] [IsStrictOrderedRing K]

theorem curv_optInf (R : Option K) : curv (optInf R) = curvature R := by cases R <;> rfl

theorem init_ok_facts {m p : Mat (Ext K)} {s : Sys K} (h : Den m s) (hp : Mat.init m = .ok p) :
    DiamOk m.apertureDiameter ∧ DiamOk m.apertureNA ∧ s.nb ≠ 0 ∧ p = { m with isFlipped := false } := by
  have h' := hp
  rw [init_den h] at h'
  split_ifs at h' with h1 h2 h3
  refine ⟨?_, ?_, h2, init_ok hp⟩
  · have := fun hc => h1 (.inl hc); rw [zero_eq] at this; simpa [DiamOk] using this
  · have := fun hc => h1 (.inr hc); rw [zero_eq] at this; simpa [DiamOk] using this

theorem Except.map_ok {ε α β : Type} {x : Except ε α} {f : α → β} {b : β} (h : x.map f = .ok b) :
    ∃ a, x = .ok a ∧ f a = b := by
  cases x with
  | error e => simp [Except.map] at h
  | ok a => exact ⟨a, rfl, by simpa [Except.map] using h⟩

theorem bind_ok {ε α β : Type} {x : Except ε α} {f : α → Except ε β} {b : β} (h : (x >>= f) = .ok b) :
    ∃ a, x = .ok a ∧ f a = .ok b := by
  cases x with
  | error e => simp [bind, Except.bind] at h
  | ok a => exact ⟨a, rfl, h⟩

theorem pyDiv_ok {a b c : Ext K} (h : pyDiv a b = .ok c) : b ≠ fin 0 := by
  rintro rfl
  rw [pyDiv_zero] at h; cases h

/-! ## What successful constructors were given -/

theorem mkSpace_ok {d n : K} {diam : Ext K} {m : Mat (Ext K)} (h : mkSpace (fin d) (fin n) diam = .ok m) :
    n ≠ 0 ∧ DiamOk diam ∧ m = spaceMat (fin d) (fin n) diam := by
  obtain ⟨h1, -, h3, h4⟩ := init_ok_facts (spaceMat_den d n diam) h
  exact ⟨h3, h1, h4⟩

theorem mkLens_ok {f : K} {diam : Ext K} {m : Mat (Ext K)} (h : mkLens (fin f) diam = .ok m) :
    f ≠ 0 ∧ DiamOk diam ∧ m = lensMat f diam := by
  unfold mkLens at h
  obtain ⟨c, h1, h2⟩ := bind_ok h
  have hf : f ≠ 0 := fun h0 => pyDiv_ok h1 (by rw [h0])
  rw [one_eq, neg_fin, pyDiv_fin _ _ hf] at h1
  cases h1
  obtain ⟨h3, -, -, h4⟩ := init_ok_facts (lensMat_den f diam) h2
  exact ⟨hf, h3, h4⟩

theorem mkCurvedMirror_ok {R : K} {diam : Ext K} {m : Mat (Ext K)} (h : mkCurvedMirror (fin R) diam = .ok m) :
    R ≠ 0 ∧ DiamOk diam ∧ m = mirrorMat R diam := by
  unfold mkCurvedMirror at h
  obtain ⟨c, h1, h2⟩ := bind_ok h
  have hf : R ≠ 0 := fun h0 => pyDiv_ok h1 (by rw [h0])
  rw [ofNat_eq, pyDiv_fin _ _ hf] at h1
  cases h1
  obtain ⟨h3, -, -, h4⟩ := init_ok_facts (mirrorMat_den R diam) h2
  exact ⟨hf, h3, h4⟩

theorem optInf_radius {n : K} {R : Option K} {a c : Ext K} (h : pyDiv a (fin n * optInf R) = .ok c) :
    RadiusOk (optInf R : Ext K) := by
  cases R with
  | none => exact radiusOk_pinf
  | some R =>
    refine radiusOk_fin.2 fun h0 => ?_
    subst h0
    refine pyDiv_ok h ?_
    simp [optInf]

theorem mkDielectric_ok {n1 n2 : K} {R : Option K} {diam : Ext K} {m : Mat (Ext K)}
    (h : mkDielectric (fin n1) (fin n2) (optInf R) diam = .ok m) :
    n2 ≠ 0 ∧ RadiusOk (optInf R : Ext K) ∧ DiamOk diam ∧ m = interfaceMat n1 n2 (optInf R) diam := by
  unfold mkDielectric at h
  obtain ⟨c, h1, h2⟩ := bind_ok h
  obtain ⟨d, h3, h4⟩ := bind_ok h2
  have hn : n2 ≠ 0 := fun h0 => pyDiv_ok h3 (by rw [h0])
  have hR : RadiusOk (optInf R : Ext K) := optInf_radius h1
  rw [dielectricC_eq n1 hn hR] at h1
  rw [pyDiv_fin _ _ hn] at h3
  cases h1; cases h3
  obtain ⟨h5, -, -, h6⟩ := init_ok_facts (interfaceMat_den n1 n2 (optInf R) diam) h4
  exact ⟨hn, hR, h5, h6⟩

theorem mkThickOf_ok {kind : Kind (Ext K)} {n : K} {R1 R2 : Option K} {t : K} {diam : Ext K} {m : Mat (Ext K)}
    (h : mkThickOf kind (fin n) (optInf R1) (optInf R2) (fin t) diam = .ok m) :
    n ≠ 0 ∧ RadiusOk (optInf R1 : Ext K) ∧ RadiusOk (optInf R2 : Ext K) ∧ DiamOk diam ∧
      m = thickMat kind n (optInf R1) (optInf R2) t diam := by
  unfold mkThickOf at h
  obtain ⟨a, ha, h⟩ := bind_ok h
  obtain ⟨b, hb, h⟩ := bind_ok h
  obtain ⟨c, hc, h⟩ := bind_ok h
  obtain ⟨d, hd, h⟩ := bind_ok h
  have hn : n ≠ 0 := fun h0 => pyDiv_ok hb (by rw [h0])
  obtain ⟨q1, hq1, -⟩ := bind_ok ha
  obtain ⟨q2, hq2, -⟩ := bind_ok hd
  have h1 : RadiusOk (optInf R1 : Ext K) := optInf_radius hq1
  have h2 : RadiusOk (optInf R2 : Ext K) := optInf_radius hq2
  rw [thickA_eq t hn h1] at ha
  rw [thickB_eq t hn] at hb
  rw [thickC_eq t hn h1 h2] at hc
  rw [thickD_eq t hn h2] at hd
  cases ha; cases hb; cases hc; cases hd
  obtain ⟨h5, -, -, h6⟩ := init_ok_facts (thickMat_den kind (optInf R1) (optInf R2) t diam hn) h
  exact ⟨hn, h1, h2, h5, h6⟩

theorem mkAperture_ok {diam na : Ext K} {label : String} {m : Mat (Ext K)}
    (h : mkAperture diam na label = .ok m) : DiamOk diam ∧ DiamOk na ∧ m = apertureMat diam na label := by
  obtain ⟨h1, h2, -, h4⟩ := init_ok_facts (apertureMat_den diam na label) h
  exact ⟨h1, h2, h4⟩

/-! ## Single elements -/

theorem spaceMat_good {n : K} (d : K) (diam : Ext K) (hn : n ≠ 0) : (spaceMat (fin d) (fin n) diam).Good := by
  have hd := spaceMat_den d n diam
  have hs := hd.sys
  refine ⟨by rw [hs]; exact hd, by rw [hs]; exact Sys.space_lawful d hn, fun _ => by rw [hs]; rfl, ?_, ?_, ?_⟩ <;>
    intro _ _ _ hk <;> simp [spaceMat] at hk

theorem lensMat_good (f : K) (diam : Ext K) : (lensMat f diam).Good := by
  have hd := lensMat_den f diam
  have hs := hd.sys
  refine ⟨by rw [hs]; exact hd, by rw [hs]; exact Sys.lens_lawful f, fun hk => by simp [lensMat] at hk, ?_, ?_, ?_⟩ <;>
    intro _ _ _ hk <;> simp [lensMat] at hk

theorem mirrorMat_good (f : K) (diam : Ext K) : (mirrorMat f diam).Good := by
  have hd := mirrorMat_den f diam
  have hs := hd.sys
  refine ⟨by rw [hs]; exact hd, by rw [hs]; exact Sys.mirror_lawful f, fun hk => by simp [mirrorMat] at hk, ?_, ?_, ?_⟩ <;>
    intro _ _ _ hk <;> simp [mirrorMat] at hk

theorem apertureMat_good (diam na : Ext K) (label : String) : (apertureMat diam na label).Good := by
  have hd := apertureMat_den diam na label
  have hs := hd.sys
  refine ⟨by rw [hs]; exact hd, by rw [hs]; exact Sys.one_lawful one_ne_zero,
    fun hk => by simp [apertureMat] at hk, ?_, ?_, ?_⟩ <;>
    intro _ _ _ hk <;> simp [apertureMat] at hk

theorem interfaceMat_good {n1 n2 : K} {R : Ext K} (diam : Ext K) (h1 : n1 ≠ 0) (h2 : n2 ≠ 0) (hR : RadiusOk R) :
    (interfaceMat n1 n2 R diam).Good := by
  have hd := interfaceMat_den n1 n2 R diam
  have hs := hd.sys
  refine ⟨by rw [hs]; exact hd, by rw [hs]; exact Sys.interface_lawful _ h1 h2,
    fun hk => by simp [interfaceMat] at hk, ?_, ?_, ?_⟩
  · intro _ _ _ hk; simp [interfaceMat] at hk
  · intro _ _ _ hk; simp [interfaceMat] at hk
  · intro _ _ _ hk
    simp only [interfaceMat, Kind.dielectric.injEq] at hk
    obtain ⟨rfl, rfl, rfl⟩ := hk
    rw [hs]
    exact ⟨hR, rfl, rfl, rfl⟩

theorem thickMat_good {n : K} {R1 R2 : Ext K} (t : K) {diam : Ext K} (hn : n ≠ 0) (h1 : RadiusOk R1)
    (h2 : RadiusOk R2) (hd' : DiamOk diam) : (thickMat (.thickLens (fin n) R1 R2) n R1 R2 t diam).Good := by
  have hd := thickMat_den (.thickLens (fin n) R1 R2) R1 R2 t diam hn
  have hs := hd.sys
  have hlen : (Sys.thick n (curv R1) (curv R2) t).len = t := by rw [Sys.thick_eq _ _ _ hn]
  refine ⟨by rw [hs]; exact hd, by rw [hs]; exact Sys.thick_lawful _ _ _ hn,
    fun hk => by simp [thickMat] at hk, ?_, ?_, ?_⟩
  · intro _ _ _ hk
    simp only [thickMat, Kind.thickLens.injEq] at hk
    obtain ⟨rfl, rfl, rfl⟩ := hk
    exact ⟨n, rfl, hn, h1, h2, hd', by rw [hs, hlen]⟩
  · intro _ _ _ hk; simp [thickMat] at hk
  · intro _ _ _ hk; simp [thickMat] at hk

theorem slabMat_good {n : K} (t : K) {diam : Ext K} (hn : n ≠ 0) (hd' : DiamOk diam) :
    (thickMat (.slab (fin n) pinf pinf) n pinf pinf t diam).Good := by
  have hd := thickMat_den (.slab (fin n) pinf pinf) pinf pinf t diam hn
  have hs := hd.sys
  have hlen : (Sys.thick n (curv (pinf : Ext K)) (curv (pinf : Ext K)) t).len = t := by rw [Sys.thick_eq _ _ _ hn]
  refine ⟨by rw [hs]; exact hd, by rw [hs]; exact Sys.thick_lawful _ _ _ hn,
    fun hk => by simp [thickMat] at hk, ?_, ?_, ?_⟩
  · intro _ _ _ hk; simp [thickMat] at hk
  · intro _ _ _ hk
    simp only [thickMat, Kind.slab.injEq] at hk
    obtain ⟨rfl, rfl, rfl⟩ := hk
    exact ⟨n, rfl, hn, radiusOk_pinf, radiusOk_pinf, rfl, rfl, hd', by rw [hs, hlen]⟩
  · intro _ _ _ hk; simp [thickMat] at hk

theorem matrix_good {m : Mat (Ext K)} {s : Sys K} (hd : Den m s) (hl : s.Lawful) (hk : m.kind = .matrix) : m.Good := by
  have hs := hd.sys
  refine ⟨by rw [hs]; exact hd, by rw [hs]; exact hl, ?_, ?_, ?_, ?_⟩
  · intro h; simp [hk] at h
  · intro _ _ _ h; simp [hk] at h
  · intro _ _ _ h; simp [hk] at h
  · intro _ _ _ h; simp [hk] at h

theorem genericMat_den (s : Sys K) (fv bv diam : Option K) : Den (genericMat s fv bv diam) s :=
  ⟨rfl, rfl, rfl, rfl, rfl, rfl, rfl⟩

/-! ## Groups -/

/-- a `Space` in another medium is still consistent -/
theorem Elem.Good.setIndices {e : Elem (Ext K)} (h : e.Good) (hs : e.isSpace = true) {n : K} (hn : n ≠ 0) :
    (e.setIndices (fin n)).Good := by
  cases e with
  | group m c es =>
    unfold Elem.Good at h
    unfold Elem.isSpace Elem.mat at hs
    rcases h.2.kind with hk | hk <;> simp [hk] at hs
  | leaf m =>
    unfold Elem.Good at h
    have hk : m.kind = .space := by
      unfold Elem.isSpace Elem.mat at hs
      cases hk : m.kind <;> simp_all
    have hsp := h.space hk
    have hden := h.den
    have hd : Den ({ m with frontIndex := fin n, backIndex := fin n } : Mat (Ext K)) (Sys.space m.sys.len n) := by
      rw [hsp] at hden
      exact ⟨hden.A, hden.B, hden.C, hden.D, hden.L, rfl, rfl⟩
    have hs := hd.sys
    unfold Elem.setIndices Elem.Good
    refine ⟨by rw [hs]; exact hd, by rw [hs]; exact Sys.space_lawful _ hn, fun _ => by rw [hs]; rfl, ?_, ?_, ?_⟩
    · intro _ _ _ h; simp [hk] at h
    · intro _ _ _ h; simp [hk] at h
    · intro _ _ _ h; simp [hk] at h

theorem Elem.prims_setIndices {e : Elem (Ext K)} (h : e.Good) (hs : e.isSpace = true) (n : Ext K) :
    (e.setIndices n).prims = e.prims := by
  cases e with
  | group m c es =>
    unfold Elem.Good at h
    unfold Elem.isSpace Elem.mat at hs
    rcases h.2.kind with hk | hk <;> simp [hk] at hs
  | leaf m =>
    have hk : m.kind = .space := by
      unfold Elem.isSpace Elem.mat at hs
      cases hk : m.kind <;> simp_all
    simp [Elem.setIndices, Elem.prims, Mat.prims, hk, Mat.sys]

theorem primsList_append (es fs : List (Elem (Ext K))) : primsList (es ++ fs) = primsList es ++ primsList fs := by
  induction es with
  | nil => rfl
  | cons e es ih => simp [primsList, ih]

theorem GoodList_append {es fs : List (Elem (Ext K))} : GoodList (es ++ fs) ↔ GoodList es ∧ GoodList fs := by
  simp only [GoodList_iff, List.mem_append]
  exact ⟨fun h => ⟨fun e he => h e (.inl he), fun e he => h e (.inr he)⟩,
    fun h e he => he.elim (h.1 e) (h.2 e)⟩

/-- appending a consistent element to consistent elements -/
theorem append_good {g g' : Group (Ext K)} {e : Elem (Ext K)} (hg : GoodList g.elems) (he : e.Good)
    (h : g.append e = (g', .ok ())) :
    GoodList g'.elems ∧ primsList g'.elems = primsList g.elems ++ e.prims := by
  rcases g.append_cases e with ⟨h', -⟩ | ⟨e', h', -, hl⟩
  · rw [h'] at h; simp at h
  · have e1 : g'.elems = g.elems ++ [e'] := by
      have := Group.push_elems g e'
      rw [← h', h] at this; exact this
    have key : e'.Good ∧ e'.prims = e.prims := by
      cases hlast : g.elems.getLast? with
      | none =>
        have : e' = e := by
          have h2 : g.append e = g.push e := by unfold Group.append; rw [hlast]
          have h3 := Group.push_elems g e
          have h4 := Group.push_elems g e'
          rw [← h', h2, h3] at h4
          simpa using h4.symm
        rw [this]; exact ⟨he, rfl⟩
      | some last =>
        rcases hl last hlast with ⟨rfl, -⟩ | ⟨hsp, rfl⟩
        · exact ⟨he, rfl⟩
        · have hgl : last.Good := (GoodList_iff.1 hg) last (List.mem_of_getLast? hlast)
          rw [hgl.den.nb]
          exact ⟨he.setIndices hsp hgl.lawful.2.1, Elem.prims_setIndices he hsp _⟩
    rw [e1, GoodList_append, primsList_append]
    refine ⟨⟨hg, key.1, trivial⟩, ?_⟩
    simp [primsList, key.2]

theorem appendAll_good {g g' : Group (Ext K)} {es : List (Elem (Ext K))} (hg : GoodList g.elems) (he : GoodList es)
    (h : g.appendAll es = (g', .ok ())) :
    GoodList g'.elems ∧ primsList g'.elems = primsList g.elems ++ primsList es := by
  induction es generalizing g with
  | nil =>
    simp only [Group.appendAll, Prod.mk.injEq, and_true] at h
    subst h; exact ⟨hg, by simp [primsList]⟩
  | cons e es ih =>
    obtain ⟨g1, h1, h2⟩ := Group.appendAll_cons_ok h
    unfold GoodList at he
    obtain ⟨h3, h4⟩ := append_good hg he.1 h1
    obtain ⟨h5, h6⟩ := ih h3 he.2 h2
    exact ⟨h5, by rw [h6, h4]; simp [primsList]⟩

/-- The element reports as its front index that of its first element. -/
def FirstIndex (m : Mat (Ext K)) (es : List (Elem (Ext K))) : Prop :=
  ∀ e ∈ es.head?, m.frontIndex = e.mat.frontIndex

theorem matched_of_adjacent {es : List (Elem (Ext K))} (hg : GoodList es) (hc : es.IsChain Adjacent) :
    ∀ n, (∀ e ∈ es.head?, e.mat.sys.nf = n) → Sys.Matched n (sysList es) := by
  induction es with
  | nil => intro n _; trivial
  | cons e es ih =>
    intro n hn
    unfold GoodList at hg
    refine ⟨hn e (by simp), ih hg.2 (List.IsChain.tail hc) _ ?_⟩
    intro e' he'
    cases es with
    | nil => simp at he'
    | cons f fs =>
      simp only [List.head?_cons, Option.mem_def, Option.some.injEq] at he'
      subst he'
      have h1 : Adjacent e f := by simpa using hc.rel
      unfold GoodList at hg
      unfold Adjacent at h1
      rw [hg.1.den.nb, hg.2.1.den.nf] at h1
      simpa using h1.symm

theorem endIndex_allId {ss : List (Sys K)} {n : K} (hm : Sys.Matched n ss) (hl : ∀ s ∈ ss, s.Lawful)
    (h : ∀ s ∈ ss, s.IsId) : Sys.endIndex n ss = n := by
  induction ss generalizing n with
  | nil => rfl
  | cons s ss ih =>
    obtain ⟨h1, h2⟩ := hm
    have e : s.nf = s.nb := (hl s (by simp)).nf_eq_nb (h s (by simp))
    have := ih h2 (fun t ht => hl t (by simp [ht])) (fun t ht => h t (by simp [ht]))
    unfold Sys.endIndex
    rw [this, ← e, h1]

/-- the header of a group computed from consistent adjacent elements -/
theorem fresh_header {g : Group (Ext K)} (hf : g.Fresh) (hg : GoodList g.elems) (hc : g.elems.IsChain Adjacent)
    (hk : g.mat.kind = .group ∨ g.mat.kind = .objective) (hi : FirstIndex g.mat g.elems) :
    HeaderOk g.mat (sysList g.elems) := by
  obtain ⟨t, ht, hm⟩ := hf
  have hden' : ∀ u, Den t u → Den g.mat u := by
    intro u h1
    rw [hm]; exact ⟨h1.A, h1.B, h1.C, h1.D, h1.L, h1.nf, h1.nb⟩
  cases hes : g.elems with
  | nil =>
    rw [hes] at ht
    simp only [transferMatrixList, Except.ok.injEq] at ht
    subst ht
    have hd := hden' _ one_den
    have hs := hd.sys
    refine ⟨by rw [hs]; exact hd, by rw [hs]; exact Sys.one_lawful one_ne_zero, ?_, trivial, ?_, hk⟩
    · rw [hs]; exact ⟨rfl, rfl, rfl, rfl, rfl⟩
    · rw [hs]; rfl
  | cons e es =>
    have hn : ∀ e' ∈ g.elems.head?, e'.mat.sys.nf = e.mat.sys.nf := by
      rw [hes]; intro e' he'; simp only [List.head?_cons, Option.mem_def, Option.some.injEq] at he'; rw [he']
    have hmt := matched_of_adjacent hg hc _ hn
    obtain ⟨t', u, h1, h2, h3, h4, h5, h6, -⟩ := fullTransfer hg.den hg.lawful hmt
    rw [ht] at h1; cases h1
    have hd := hden' _ h2
    have hs := hd.sys
    have hge : e.Good := by rw [hes] at hg; unfold GoodList at hg; exact hg.1
    have hnf : u.nf = e.mat.sys.nf := by
      have := hi e (by rw [hes]; rfl)
      rw [hd.nf, hge.den.nf] at this
      simpa using this
    rw [← hes]
    refine ⟨by rw [hs]; exact hd, by rw [hs]; exact h3, by rw [hs]; exact h4, by rw [hs, hnf]; exact hmt, ?_, hk⟩
    rw [hs]
    by_cases hid : ∀ s ∈ sysList g.elems, s.IsId
    · obtain ⟨a, b⟩ := h5 hid
      rw [b, hnf, endIndex_allId hmt hg.lawful hid, ← hnf, a]
    · push Not at hid
      obtain ⟨a, b⟩ := h6 hid
      rw [b, hnf]

mutual
/-- Every group of the tree reports as its front index that of its first element. By `C04` this only excludes groups made
of identity matrices in a medium other than air. -/
def Elem.Clean : Elem (Ext K) → Prop
  | .leaf _ => True
  | .group m _ es => FirstIndex m es ∧ CleanList es
/-- every element is clean -/
def CleanList : List (Elem (Ext K)) → Prop
  | [] => True
  | e :: es => e.Clean ∧ CleanList es
end

theorem CleanList_iff {es : List (Elem (Ext K))} : CleanList es ↔ ∀ e ∈ es, e.Clean := by
  induction es with
  | nil => simp [CleanList]
  | cons e es ih => simp [CleanList, ih]

theorem Elem.clean_setIndices {e : Elem (Ext K)} (hs : e.isSpace = true) (hk : ∀ m c es, e ≠ .group m c es) (n : Ext K) :
    (e.setIndices n).Clean ↔ e.Clean := by
  cases e with
  | leaf m => simp [Elem.setIndices, Elem.Clean]
  | group m c es => exact absurd rfl (hk m c es)

/-- the elements of a new group are those given, up to the index of a `Space` -/
theorem Elem.clean_of_forget {e e' : Elem (Ext K)} (h : e'.forget = e.forget)
    (hk : ∀ m c es, e = .group m c es → e.isSpace = false) : e'.Clean → e.Clean := by
  intro hc
  cases e with
  | leaf m => trivial
  | group m c es =>
    have h1 := hk m c es rfl
    simp only [Elem.forget, h1, Bool.false_eq_true, if_false] at h
    split_ifs at h with h2
    · exfalso
      have h3 := Elem.isSpace_setIndices e' (0 : Ext K)
      rw [h, h1, h2] at h3; cases h3
    · rw [← h]; exact hc

theorem new_clean {es : List (Elem (Ext K))} {label : String} {g : Group (Ext K)} (h : Group.new es label = .ok g)
    (hk : ∀ e ∈ es, ∀ m c fs, e = .group m c fs → e.isSpace = false) (hc : CleanList g.elems) : CleanList es := by
  have h1 := Group.new_elems h
  rw [CleanList_iff] at hc ⊢
  intro e he
  have h2 : e.forget ∈ es.map Elem.forget := List.mem_map_of_mem he
  rw [← h1] at h2
  obtain ⟨e', he', heq⟩ := List.mem_map.1 h2
  exact Elem.clean_of_forget heq (hk e he) (hc e' he')

/-- what a program builds, groups being what they are: their class is never `Space` -/
theorem build_group_kind : ∀ (p : Part K) {e : Elem (Ext K)}, p.build = .ok e →
    ∀ m c es, e = .group m c es → m.kind = .group := by
  intro p e hb m c es he
  subst he
  cases p with
  | group label ps =>
    unfold Part.build at hb
    split at hb
    · simp at hb
    · next fs hf =>
      obtain ⟨g, h1, h2⟩ := Except.map_ok hb
      have h3 := Group.appendAll_kind (Group.empty label) fs
      rw [Group.new_eq h1] at h3
      simp only [Group.toElem, Elem.group.injEq] at h2
      rw [← h2.1, h3]; rfl
  | _ => 
    unfold Part.build at hb
    obtain ⟨a, -, h⟩ := Except.map_ok hb
    cases h

theorem buildList_mem {ps : List (Part K)} {es : List (Elem (Ext K))} (h : Part.buildList ps = .ok es) :
    ∀ e ∈ es, ∃ p ∈ ps, p.build = .ok e := by
  induction ps generalizing es with
  | nil => simp only [Part.buildList, Except.ok.injEq] at h; subst h; simp
  | cons p ps ih =>
    unfold Part.buildList at h
    split at h
    · simp at h
    · next e he =>
      split at h
      · simp at h
      · next fs hf =>
        simp only [Except.ok.injEq] at h
        subst h
        intro x hx
        rcases List.mem_cons.1 hx with rfl | hx
        · exact ⟨p, by simp, he⟩
        · obtain ⟨q, hq, hq'⟩ := ih hf x hx
          exact ⟨q, by simp [hq], hq'⟩

mutual
/-- A program with meaningful parameters that runs without error builds a consistent tree, in which light meets what
the program says. -/
theorem build_good : ∀ {p : Part K}, p.Valid → ∀ {e : Elem (Ext K)}, p.build = .ok e → e.Clean →
    e.Good ∧ e.prims = p.prims
  | .space d n diam, hv, e, hb, hc => by
    unfold Part.build at hb
    obtain ⟨m, h1, rfl⟩ := Except.map_ok hb
    obtain ⟨hn, hd, rfl⟩ := mkSpace_ok h1
    refine ⟨?_, ?_⟩
    · unfold Elem.Good; exact spaceMat_good d _ hn
    · simp [Elem.prims, Mat.prims, spaceMat, Part.prims, Mat.sys]
  | .lens f diam, hv, e, hb, hc => by
    unfold Part.build at hb
    obtain ⟨m, h1, rfl⟩ := Except.map_ok hb
    obtain ⟨hn, hd, rfl⟩ := mkLens_ok h1
    refine ⟨?_, ?_⟩
    · unfold Elem.Good; exact lensMat_good f _
    · have hs := (lensMat_den f (optInf diam)).sys
      unfold Elem.prims Mat.prims Part.prims
      rw [hs]
      simp [lensMat, Sys.lens]
  | .mirror f diam, hv, e, hb, hc => by
    unfold Part.build at hb
    obtain ⟨m, h1, rfl⟩ := Except.map_ok hb
    obtain ⟨hn, hd, rfl⟩ := mkCurvedMirror_ok h1
    refine ⟨?_, ?_⟩
    · unfold Elem.Good; exact mirrorMat_good f _
    · have hs := (mirrorMat_den f (optInf diam)).sys
      unfold Elem.prims Mat.prims Part.prims
      rw [hs]
      simp [mirrorMat, Sys.mirror]
  | .interface n1 n2 R diam, hv, e, hb, hc => by
    unfold Part.build at hb
    obtain ⟨m, h1, rfl⟩ := Except.map_ok hb
    obtain ⟨hn, hR, hd, rfl⟩ := mkDielectric_ok h1
    refine ⟨?_, ?_⟩
    · unfold Elem.Good; exact interfaceMat_good _ hv hn hR
    · have hs := (interfaceMat_den n1 n2 (optInf R) (optInf diam)).sys
      unfold Elem.prims Mat.prims Part.prims
      rw [hs, curv_optInf]
      simp [interfaceMat, Sys.interface]
  | .thickLens n R1 R2 t diam, hv, e, hb, hc => by
    unfold Part.build at hb
    obtain ⟨m, h1, rfl⟩ := Except.map_ok hb
    obtain ⟨hn, hR1, hR2, hd, rfl⟩ := mkThickOf_ok h1
    refine ⟨?_, ?_⟩
    · unfold Elem.Good; exact thickMat_good t hn hR1 hR2 hd
    · unfold Elem.prims Mat.prims Part.prims
      rw [← curv_optInf, ← curv_optInf]
      simp [thickMat, Mat.sys]
  | .slab n t diam, hv, e, hb, hc => by
    unfold Part.build mkSlab at hb
    obtain ⟨m, h1, rfl⟩ := Except.map_ok hb
    obtain ⟨hn, hR1, hR2, hd, rfl⟩ := mkThickOf_ok (R1 := none) (R2 := none) h1
    refine ⟨?_, ?_⟩
    · unfold Elem.Good; exact slabMat_good t hn hd
    · unfold Elem.prims Mat.prims Part.prims
      simp [thickMat, Mat.sys]
  | .aperture diam na label, hv, e, hb, hc => by
    unfold Part.build at hb
    obtain ⟨m, h1, rfl⟩ := Except.map_ok hb
    obtain ⟨hn, hd, rfl⟩ := mkAperture_ok h1
    refine ⟨?_, ?_⟩
    · unfold Elem.Good; exact apertureMat_good _ _ _
    · have hs := (apertureMat_den (optInf diam : Ext K) (optInf na) label).sys
      unfold Elem.prims Mat.prims Part.prims
      rw [hs]
      simp [apertureMat, Sys.one]
  | .matrix s fv bv diam, hv, e, hb, hc => by
    unfold Part.build at hb
    obtain ⟨m, h1, rfl⟩ := Except.map_ok hb
    unfold Part.Valid at hv
    have hd := genericMat_den s fv bv diam
    obtain ⟨h2, -, -, h3⟩ := init_ok_facts hd h1
    have h4 : m = genericMat s fv bv diam := h3
    subst h4
    refine ⟨?_, ?_⟩
    · unfold Elem.Good
      exact matrix_good hd hv rfl
    · unfold Elem.prims Mat.prims Part.prims
      rw [hd.sys]
      by_cases h0 : s.len = 0
      · simp only [h0, if_true]; rfl
      · simp only [h0, if_false]; rfl
  | .group label ps, hv, e, hb, hc => by
    have hb0 := hb
    unfold Part.build at hb
    split at hb
    · simp at hb
    · next fs hf =>
      obtain ⟨g, h1, rfl⟩ := Except.map_ok hb
      unfold Part.Valid at hv
      unfold Group.toElem Elem.Clean at hc
      have hk : g.mat.kind = .group := build_group_kind _ hb0 _ _ _ rfl
      have hcf : CleanList fs := by
        refine new_clean h1 ?_ hc.2
        intro x hx m c es hxe
        obtain ⟨q, -, hq⟩ := buildList_mem hf x hx
        have := build_group_kind q hq m c es hxe
        subst hxe
        simp [Elem.isSpace, Elem.mat, this]
      obtain ⟨h2, h3⟩ := buildList_good hv hf hcf
      have h4 := Group.new_eq h1
      obtain ⟨h5, h6⟩ := appendAll_good (g := Group.empty label) (by simp [Group.empty, GoodList]) h2 h4
      have h7 : g.elems.IsChain Adjacent := by
        have := appendAll_adjacent (g := Group.empty label) fs (by simp [Group.empty])
        rwa [h4] at this
      refine ⟨?_, ?_⟩
      · unfold Group.toElem Elem.Good
        exact ⟨h5, fresh_header (Group.new_fresh h1) h5 h7 (.inl hk) hc.1⟩
      · unfold Group.toElem Elem.prims Part.prims
        rw [h6, h3]; simp [Group.empty, primsList]
theorem buildList_good : ∀ {ps : List (Part K)}, Part.ValidList ps → ∀ {es : List (Elem (Ext K))},
    Part.buildList ps = .ok es → CleanList es → GoodList es ∧ primsList es = Part.primsList ps
  | [], _, es, h, _ => by
    simp only [Part.buildList, Except.ok.injEq] at h; subst h
    exact ⟨trivial, rfl⟩
  | p :: ps, hv, es, h, hc => by
    unfold Part.buildList at h
    split at h
    · simp at h
    · next e he =>
      split at h
      · simp at h
      · next fs hf =>
        simp only [Except.ok.injEq] at h
        subst h
        unfold Part.ValidList at hv
        unfold CleanList at hc
        obtain ⟨h1, h2⟩ := build_good hv.1 he hc.1
        obtain ⟨h3, h4⟩ := buildList_good hv.2 hf hc.2
        refine ⟨⟨h1, h3⟩, ?_⟩
        unfold primsList Part.primsList
        rw [h2, h4]
end

/-- a group starting in air reports the index 1 -/
theorem firstIndex_air {g : Group (Ext K)} (hf : g.Fresh) (hg : GoodList g.elems) (hc : g.elems.IsChain Adjacent)
    (h1 : ∀ e ∈ g.elems.head?, e.mat.frontIndex = fin 1) : FirstIndex g.mat g.elems := by
  intro e he
  rw [h1 e he]
  obtain ⟨t, ht, hm⟩ := hf
  have hmt : Sys.Matched 1 (sysList g.elems) := by
    refine matched_of_adjacent hg hc _ fun e' he' => ?_
    have hge : e'.Good := GoodList_iff.1 hg e' (List.mem_of_head? he')
    have := h1 e' he'
    rw [hge.den.nf] at this
    simpa using this
  obtain ⟨t', u, h2, h3, -, -, h5, h6, -⟩ := fullTransfer hg.den hg.lawful hmt
  rw [ht] at h2; cases h2
  rw [hm]
  change t.frontIndex = _
  rw [h3.nf]
  by_cases hid : ∀ s ∈ sysList g.elems, s.IsId
  · rw [(h5 hid).1]
  · push Not at hid
    rw [(h6 hid).1]

theorem Sys.eq_of_out {s t : Sys K} (h : ∀ r, s.out r = t.out r) : s.a = t.a ∧ s.b = t.b ∧ s.c = t.c ∧ s.d = t.d := by
  have h1 := h (1, 0)
  have h2 := h (0, 1)
  simp only [Sys.out, Sys.outY, Sys.outθ, mul_one, mul_zero, add_zero, zero_add, Prod.mk.injEq] at h1 h2
  exact ⟨h1.1, h2.1, h1.2, h2.2⟩

/-- Two consistent elements in which light meets the same things, in the same medium, have the same matrix. -/
theorem good_eq {e f : Elem (Ext K)} (he : e.Good) (hf : f.Good) (hp : e.prims = f.prims)
    (hn : e.mat.frontIndex = f.mat.frontIndex) :
    e.mat.A = f.mat.A ∧ e.mat.B = f.mat.B ∧ e.mat.C = f.mat.C ∧ e.mat.D = f.mat.D ∧ e.mat.L = f.mat.L ∧
    e.mat.frontIndex = f.mat.frontIndex ∧ e.mat.backIndex = f.mat.backIndex := by
  obtain ⟨h1, h2⟩ := he.prims
  obtain ⟨h3, h4⟩ := hf.prims
  have hout : ∀ r, e.mat.sys.out r = f.mat.sys.out r := fun r => by rw [← h1, ← h3, hp]
  obtain ⟨a, b, c, d⟩ := Sys.eq_of_out hout
  have hlen : e.mat.sys.len = f.mat.sys.len := by rw [← h2, ← h4, hp]
  have hde := he.den
  have hdf := hf.den
  have hnf : e.mat.sys.nf = f.mat.sys.nf := by rw [hde.nf, hdf.nf] at hn; simpa using hn
  have hnb : e.mat.sys.nb = f.mat.sys.nb := by
    have l1 := he.lawful
    have l2 := hf.lawful
    have e1 := l1.2.2
    have e2 := l2.2.2
    have e3 : e.mat.sys.det = f.mat.sys.det := by simp [Sys.det, a, b, c, d]
    rw [e3, e2, hnf, div_eq_div_iff l2.2.1 l1.2.1] at e1
    exact mul_left_cancel₀ l2.1 e1
  rw [hde.A, hde.B, hde.C, hde.D, hde.L, hde.nf, hde.nb, hdf.A, hdf.B, hdf.C, hdf.D, hdf.L, hdf.nf, hdf.nb,
    a, b, c, d, hlen, hnf, hnb]
  simp

theorem Group.append_prefix {F : Type} [PyNum F] (g : Group F) (e : Elem F) : g.elems <+: (g.append e).1.elems := by
  rcases g.append_cases e with ⟨h, -⟩ | ⟨e', h, -⟩
  · rw [h]
  · rw [h, Group.push_elems]; exact List.prefix_append _ _

theorem Group.appendAll_prefix {F : Type} [PyNum F] (g : Group F) (es : List (Elem F)) :
    g.elems <+: (g.appendAll es).1.elems := by
  induction es generalizing g with
  | nil => exact List.prefix_rfl
  | cons e es ih =>
    have h := g.append_prefix e
    unfold Group.appendAll
    split
    · next g1 heq => rw [heq] at h; exact h.trans (ih g1)
    · next g1 x heq => rw [heq] at h; exact h

/-- the first element of a new group is the one given -/
theorem Group.new_head {F : Type} [PyNum F] {e : Elem F} {es : List (Elem F)} {label : String} {g : Group F}
    (h : Group.new (e :: es) label = .ok g) : g.elems.head? = some e := by
  obtain ⟨g1, h1, h2⟩ := Group.appendAll_cons_ok (Group.new_eq h)
  have h3 : g1.elems = [e] := by
    have : (Group.empty label).append e = (Group.empty label).push e := rfl
    rw [this] at h1
    have h4 := Group.push_elems (Group.empty label) e
    rw [h1] at h4
    simpa [Group.empty] using h4
  have h5 := Group.appendAll_prefix g1 es
  rw [h2, h3] at h5
  obtain ⟨t, ht⟩ := h5
  rw [← ht]; rfl

/-- An element that is a leaf up to the index of a `Space` is a leaf. -/
theorem Elem.leaf_of_forget {F : Type} [PyNum F] {e : Elem F} {m : Mat F} (h : e.forget = (Elem.leaf m).forget) :
    ∃ m', e = .leaf m' := by
  cases e with
  | leaf m' => exact ⟨m', rfl⟩
  | group m' c es =>
    exfalso
    unfold Elem.forget at h
    split_ifs at h <;> simp [Elem.setIndices] at h

/-- a group of single elements, the first one in air, is consistent -/
theorem new_leaves_clean {es : List (Elem (Ext K))} {label : String} {g : Group (Ext K)} (h : Group.new es label = .ok g)
    (hl : ∀ e ∈ es, ∃ m, e = .leaf m) (hg : GoodList es) (h1 : ∀ e ∈ es.head?, e.mat.frontIndex = fin 1) :
    g.toElem.Clean := by
  have h2 := Group.new_elems h
  obtain ⟨h5, h6⟩ := appendAll_good (g := Group.empty label) (by simp [Group.empty, GoodList]) hg (Group.new_eq h)
  have h7 : g.elems.IsChain Adjacent := by
    have := appendAll_adjacent (g := Group.empty label) es (by simp [Group.empty])
    rwa [Group.new_eq h] at this
  refine ⟨firstIndex_air (Group.new_fresh h) h5 h7 ?_, ?_⟩
  · cases es with
    | nil =>
      simp only [List.map_nil, List.map_eq_nil_iff] at h2
      rw [h2]; simp
    | cons e es => rw [Group.new_head h]; exact h1
  · rw [CleanList_iff]
    intro e he
    have h3 : e.forget ∈ g.elems.map Elem.forget := List.mem_map_of_mem he
    rw [h2] at h3
    obtain ⟨e', he', heq⟩ := List.mem_map.1 h3
    obtain ⟨m, rfl⟩ := hl e' he'
    obtain ⟨m', rfl⟩ := Elem.leaf_of_forget heq.symm
    trivial

end RT
