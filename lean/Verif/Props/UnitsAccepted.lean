import Verif.Props.Units

/-! # C138: what can be made in one unit of length can be made in every other -/

set_option linter.unusedSectionVars false

namespace RT
open PyNum Ext
variable {K : Type} [Field K] [LinearOrder K] [IsStrictOrderedRing K]

/-- a system with lengths in another unit -/
def Sys.inUnit (s : K) (t : Sys K) : Sys K := ⟨t.a, s * t.b, t.c / s, t.d, s * t.len, t.nf, t.nb⟩

theorem Sys.inUnit_det {s : K} (hs : s ≠ 0) (t : Sys K) : (t.inUnit s).det = t.det := by
  simp only [Sys.inUnit, Sys.det]; field_simp

theorem Sys.inUnit_isId {s : K} (hs : s ≠ 0) (t : Sys K) : (t.inUnit s).IsId ↔ t.IsId := by
  simp [Sys.inUnit, Sys.IsId, hs]

/-- the same matrix in the other unit -/
def MatU (s : K) (m m' : Mat (Ext K)) : Prop := ∃ t : Sys K, Den m t ∧ Den m' (t.inUnit s)

theorem MatU.init {s : K} (hs : s ≠ 0) {m m' p : Mat (Ext K)} (h : MatU s m m') (h1 : DiamOk m'.apertureDiameter) (h2 : DiamOk m'.apertureNA)
    (hp : Mat.init m = .ok p) : ∃ p', Mat.init m' = .ok p' ∧ MatU s p p' ∧ p.kind = m.kind ∧ p'.kind = m'.kind := by
  obtain ⟨t, d1, d2⟩ := h
  rw [init_den d1] at hp
  split_ifs at hp with c1 c2 c3
  cases hp
  have n1 : ¬ ((m'.apertureDiameter ≤. 0) = true ∨ (m'.apertureNA ≤. 0) = true) := by
    rw [zero_eq]
    unfold DiamOk at h1 h2
    simp [h1, h2]
  refine ⟨{ m' with isFlipped := false }, ?_, ⟨t, ⟨d1.A, d1.B, d1.C, d1.D, d1.L, d1.nf, d1.nb⟩, ⟨d2.A, d2.B, d2.C, d2.D, d2.L, d2.nf, d2.nb⟩⟩, rfl, rfl⟩
  rw [init_den d2, if_neg n1, if_neg (show ¬ (t.inUnit s).nb = 0 from c2), if_neg]
  rw [Sys.inUnit_det hs]
  exact c3

theorem MatU.mul {s : K} (hs : s ≠ 0) {m m' r r' p : Mat (Ext K)} (h : MatU s m m') (hr : MatU s r r') (hp : m.mulMatrix r = .ok p) :
    ∃ p', m'.mulMatrix r' = .ok p' ∧ MatU s p p' := by
  obtain ⟨t, d1, d2⟩ := h
  obtain ⟨u, e1, e2⟩ := hr
  have f1 := mulRaw_den d1 e1
  have f2 := mulRaw_den d2 e2
  obtain ⟨p', q1, q2, -⟩ := MatU.init hs (m := m.mulRaw r) (m' := m'.mulRaw r') ⟨_, f1, by
    convert f2 using 1
    have i1 := Sys.inUnit_isId hs t
    have i2 := Sys.inUnit_isId hs u
    simp only [Sys.inUnit] at i1 i2
    simp only [Sys.inUnit, Sys.andThen, Sys.mk.injEq]
    refine ⟨by field_simp, by ring, by field_simp, by field_simp, by ring, ?_, ?_⟩ <;>
      by_cases x1 : t.IsId <;> by_cases x2 : u.IsId <;> simp [x1, x2, i1, i2]⟩ rfl rfl hp
  exact ⟨p', q1, q2⟩

/-- the same element in the other unit -/
def ElemU (s : K) (e e' : Elem (Ext K)) : Prop := MatU s e.mat e'.mat ∧ e.isSpace = e'.isSpace

theorem transferU {s : K} (hs : s ≠ 0) {es es' : List (Elem (Ext K))} (h : List.Forall₂ (ElemU s) es es') :
    ∀ {acc acc' t : Mat (Ext K)}, MatU s acc acc' → transferMatrixList es inf acc = .ok t →
      ∃ t', transferMatrixList es' inf acc' = .ok t' ∧ MatU s t t' := by
  induction h with
  | nil =>
    intro acc acc' t ha ht
    simp only [transferMatrixList, Except.ok.injEq] at ht ⊢
    subst ht
    exact ⟨acc', rfl, ha⟩
  | @cons e e' es es' he _ ih =>
    intro acc acc' t ha ht
    obtain ⟨u, d1, d2⟩ := he.1
    unfold transferMatrixList at ht ⊢
    have i1 : ∀ x : K, (fin x ≤. (inf : Ext K)) = true := fun _ => rfl
    have i2 : ∀ x : K, (inf : Ext K) - fin x = inf := fun _ => rfl
    rw [d1.L, i1, if_pos rfl, i2] at ht
    rw [d2.L, i1, if_pos rfl, i2]
    split at ht
    · simp at ht
    · next q hq =>
      obtain ⟨q', hq', hu⟩ := he.1.mul hs ha hq
      rw [hq']
      exact ih hu ht

/-- the same group in the other unit -/
structure GroupU (s : K) (g g' : Group (Ext K)) : Prop where
  mat : MatU s g.mat g'.mat
  kind : g.mat.kind = .group
  kind' : g'.mat.kind = .group
  elems : List.Forall₂ (ElemU s) g.elems g'.elems

theorem MatU.one (s : K) : MatU s (Mat.one : Mat (Ext K)) Mat.one :=
  ⟨Sys.one 1, by constructor <;> simp [Mat.one, Sys.one], by constructor <;> simp [Mat.one, Sys.one, Sys.inUnit]⟩

theorem GroupU.push {s : K} (hs : s ≠ 0) {g g' g1 : Group (Ext K)} {e e' : Elem (Ext K)} (h : GroupU s g g') (he : ElemU s e e')
    (hp : g.push e = (g1, .ok ())) : ∃ g1', g'.push e' = (g1', .ok ()) ∧ GroupU s g1 g1' := by
  have hl : List.Forall₂ (ElemU s) (g.elems ++ [e]) (g'.elems ++ [e']) := List.rel_append h.elems (.cons he .nil)
  unfold Group.push at hp ⊢
  dsimp only at hp ⊢
  split at hp
  · simp at hp
  · next t ht =>
    obtain ⟨t', ht', u, d1, d2⟩ := transferU hs hl (MatU.one s) ht
    simp only [Prod.mk.injEq, and_true] at hp
    subst hp
    rw [ht']
    exact ⟨_, rfl, ⟨u, ⟨d1.A, d1.B, d1.C, d1.D, d1.L, d1.nf, d1.nb⟩, ⟨d2.A, d2.B, d2.C, d2.D, d2.L, d2.nf, d2.nb⟩⟩, h.kind, h.kind', hl⟩

theorem ElemU.setIndices {s : K} {e e' : Elem (Ext K)} (h : ElemU s e e') (n : K) : ElemU s (e.setIndices (fin n)) (e'.setIndices (fin n)) := by
  obtain ⟨⟨t, d1, d2⟩, hk⟩ := h
  refine ⟨⟨{ t with nf := n, nb := n }, ?_, ?_⟩, ?_⟩
  · cases e <;> exact ⟨d1.A, d1.B, d1.C, d1.D, d1.L, rfl, rfl⟩
  · cases e' <;> exact ⟨d2.A, d2.B, d2.C, d2.D, d2.L, rfl, rfl⟩
  · cases e <;> cases e' <;> exact hk

theorem getLastU {s : K} {es es' : List (Elem (Ext K))} (h : List.Forall₂ (ElemU s) es es') :
    (es.getLast? = none ∧ es'.getLast? = none) ∨ ∃ e e', es.getLast? = some e ∧ es'.getLast? = some e' ∧ ElemU s e e' := by
  rw [← List.forall₂_reverse_iff] at h
  rw [List.getLast?_eq_head?_reverse, List.getLast?_eq_head?_reverse]
  generalize es.reverse = l at h ⊢
  generalize es'.reverse = l' at h ⊢
  cases h with
  | nil => exact .inl ⟨rfl, rfl⟩
  | cons h _ => exact .inr ⟨_, _, rfl, rfl, h⟩

theorem GroupU.append {s : K} (hs : s ≠ 0) {g g' g1 : Group (Ext K)} {e e' : Elem (Ext K)} (h : GroupU s g g') (he : ElemU s e e')
    (hp : g.append e = (g1, .ok ())) : ∃ g1', g'.append e' = (g1', .ok ()) ∧ GroupU s g1 g1' := by
  unfold Group.append at hp ⊢
  rcases getLastU h.elems with ⟨l1, l2⟩ | ⟨l, l', l1, l2, hl⟩
  · rw [l1] at hp
    rw [l2]
    exact h.push hs he hp
  · rw [l1] at hp
    rw [l2]
    obtain ⟨⟨t, d1, d2⟩, -⟩ := hl
    obtain ⟨u, e1, e2⟩ := he.1
    have hk := he.2
    have b1 : l'.mat.backIndex = l.mat.backIndex := by rw [d1.nb, d2.nb]; rfl
    have b2 : e'.mat.frontIndex = e.mat.frontIndex := by rw [e1.nf, e2.nf]; rfl
    dsimp only at hp ⊢
    rw [b1, b2, ← hk]
    split_ifs at hp ⊢ with c1 c2
    · rw [d1.nb] at hp ⊢
      exact h.push hs (he.setIndices _) hp
    · simp at hp
    · exact h.push hs he hp

theorem GroupU.appendAll {s : K} (hs : s ≠ 0) {es es' : List (Elem (Ext K))} (he : List.Forall₂ (ElemU s) es es') :
    ∀ {g g' g1 : Group (Ext K)}, GroupU s g g' → g.appendAll es = (g1, .ok ()) → ∃ g1', g'.appendAll es' = (g1', .ok ()) ∧ GroupU s g1 g1' := by
  induction he with
  | nil =>
    intro g g' g1 h hp
    simp only [Group.appendAll, Prod.mk.injEq, and_true] at hp ⊢
    subst hp
    exact ⟨g', rfl, h⟩
  | @cons e e' es es' he _ ih =>
    intro g g' g1 h hp
    unfold Group.appendAll at hp ⊢
    split at hp
    · next g2 h2 =>
      obtain ⟨g2', q1, q2⟩ := h.append hs he h2
      rw [q1]
      exact ih q2 hp
    · simp at hp

theorem GroupU.new {s : K} (hs : s ≠ 0) {es es' : List (Elem (Ext K))} (he : List.Forall₂ (ElemU s) es es') {label : String} {g : Group (Ext K)}
    (hg : Group.new es label = .ok g) : ∃ g', Group.new es' label = .ok g' ∧ GroupU s g g' := by
  have h0 : GroupU s (Group.empty label) (Group.empty label) := by
    obtain ⟨t, d1, d2⟩ := MatU.one s
    exact ⟨⟨t, ⟨d1.A, d1.B, d1.C, d1.D, d1.L, d1.nf, d1.nb⟩, ⟨d2.A, d2.B, d2.C, d2.D, d2.L, d2.nf, d2.nb⟩⟩, rfl, rfl, .nil⟩
  obtain ⟨g', h1, h2⟩ := h0.appendAll hs he (Group.new_eq hg)
  exact ⟨g', by unfold Group.new; rw [h1], h2⟩

/-! ## Single elements -/

theorem diamOk_inUnit {s : K} (hs : 0 < s) {diam : Option K} (h : DiamOk (optInf diam : Ext K)) : DiamOk (optInf (diam.map (s * ·)) : Ext K) := by
  cases diam with
  | none => exact h
  | some D => exact diamOk_fin.2 (mul_pos hs (diamOk_fin.1 h))

theorem radiusOk_inUnit {s : K} (hs : s ≠ 0) {R : Option K} (h : RadiusOk (optInf R : Ext K)) : RadiusOk (optInf (R.map (s * ·)) : Ext K) := by
  cases R with
  | none => exact h
  | some R => exact radiusOk_fin.2 (mul_ne_zero hs (radiusOk_fin.1 h))

theorem curv_inUnit {s : K} (R : Option K) : curv (optInf (R.map (s * ·)) : Ext K) = curv (optInf R : Ext K) / s := by
  cases R with
  | none => simp [optInf, curv]
  | some R => simp [optInf, curv, mul_inv, div_eq_mul_inv, mul_comm]

theorem Sys.thick_inUnit {s : K} (hs : s ≠ 0) (n k1 k2 t : K) : Sys.thick n (k1 / s) (k2 / s) (s * t) = (Sys.thick n k1 k2 t).inUnit s := by
  have h := RT.thick_inUnit hs n k1 k2 t none
  simp only [Sys.stage, Stage.inUnit, Stage.mk.injEq] at h
  obtain ⟨h1, h2, h3, h4, h5, -⟩ := h
  have e : ∀ x y : Sys K, x.a = y.a → x.b = y.b → x.c = y.c → x.d = y.d → x.len = y.len → x.nf = y.nf → x.nb = y.nb → x = y := by
    rintro ⟨⟩ ⟨⟩ rfl rfl rfl rfl rfl rfl rfl; rfl
  exact e _ _ h1 h2 h3 h4 h5 rfl rfl

theorem mkDielectric_init {n1 n2 : K} {R diam : Ext K} (h2 : n2 ≠ 0) (hR : RadiusOk R) :
    mkDielectric (fin n1) (fin n2) R diam = Mat.init (interfaceMat n1 n2 R diam) := by
  unfold mkDielectric
  simp only [dielectricC_eq _ h2 hR, pyDiv_fin _ _ h2, bind, Except.bind]
  rfl

theorem leafU {s : K} {m m' : Mat (Ext K)} (h : MatU s m m') (hk : (Elem.leaf m).isSpace = (Elem.leaf m').isSpace) {x : Except PyErr (Mat (Ext K))}
    (hx : x = .ok m') : ∃ e', x.map Elem.leaf = .ok e' ∧ ElemU s (.leaf m) e' := by
  subst hx
  exact ⟨.leaf m', rfl, h, hk⟩

theorem leafD {s : K} {m m' : Mat (Ext K)} {t t' : Sys K} {x : Except PyErr (Mat (Ext K))} (hx : x = .ok m') (d1 : Den m t) (d2 : Den m' t')
    (ht : t' = t.inUnit s) (hk : (Elem.leaf m).isSpace = (Elem.leaf m').isSpace) : ∃ e', x.map Elem.leaf = .ok e' ∧ ElemU s (.leaf m) e' :=
  leafU ⟨t, d1, ht ▸ d2⟩ hk hx

mutual
theorem build_inUnit {s : K} (hs : 0 < s) : ∀ {p : Part K} {e : Elem (Ext K)}, p.build = .ok e → ∃ e', (p.inUnit s).build = .ok e' ∧ ElemU s e e'
  | .space d n diam, _, hb => by
    unfold Part.build at hb
    obtain ⟨m, hm, rfl⟩ := Except.map_ok hb
    obtain ⟨h1, h2, rfl⟩ := mkSpace_ok hm
    unfold Part.inUnit Part.build
    refine leafD (mkSpace_eq (s * d) h1 (diamOk_inUnit hs h2)) (spaceMat_den d n _) (spaceMat_den (s * d) n _) ?_ rfl
    simp [Sys.inUnit, Sys.space]
  | .lens f diam, _, hb => by
    unfold Part.build at hb
    obtain ⟨m, hm, rfl⟩ := Except.map_ok hb
    obtain ⟨h1, h2, rfl⟩ := mkLens_ok hm
    unfold Part.inUnit Part.build
    refine leafD (mkLens_eq (mul_ne_zero hs.ne' h1) (diamOk_inUnit hs h2)) (lensMat_den f _) (lensMat_den (s * f) _) ?_ rfl
    have := hs.ne'
    simp [Sys.inUnit, Sys.lens]
    try field_simp
  | .mirror R diam, _, hb => by
    unfold Part.build at hb
    obtain ⟨m, hm, rfl⟩ := Except.map_ok hb
    obtain ⟨h1, h2, rfl⟩ := mkCurvedMirror_ok hm
    unfold Part.inUnit Part.build
    refine leafD (mkCurvedMirror_eq (mul_ne_zero hs.ne' h1) (diamOk_inUnit hs h2)) (mirrorMat_den R _) (mirrorMat_den (s * R) _) ?_ rfl
    have := hs.ne'
    simp [Sys.inUnit, Sys.mirror]
    try field_simp
  | .interface n1 n2 R diam, _, hb => by
    unfold Part.build at hb
    obtain ⟨m, hm, rfl⟩ := Except.map_ok hb
    obtain ⟨h2, hR, hd, -⟩ := mkDielectric_ok hm
    rw [mkDielectric_init h2 hR] at hm
    have hu : MatU s (interfaceMat n1 n2 (optInf R) (optInf diam)) (interfaceMat n1 n2 (optInf (R.map (s * ·))) (optInf (diam.map (s * ·)))) := by
      refine ⟨_, interfaceMat_den n1 n2 _ _, ?_⟩
      convert interfaceMat_den n1 n2 _ _ using 1
      rw [curv_inUnit]
      simp only [Sys.inUnit, Sys.interface, Sys.mk.injEq, mul_zero, true_and, and_true]
      try ring
    obtain ⟨p', q1, q2, k1, k2⟩ := hu.init hs.ne' (diamOk_inUnit hs hd) rfl hm
    unfold Part.inUnit Part.build
    rw [mkDielectric_init h2 (radiusOk_inUnit hs.ne' hR)]
    refine leafU q2 ?_ q1
    simp only [Elem.isSpace, Elem.mat, k1, k2, interfaceMat]
  | .thickLens n R1 R2 t diam, _, hb => by
    unfold Part.build at hb
    obtain ⟨m, hm, rfl⟩ := Except.map_ok hb
    obtain ⟨h1, h2, h3, h4, rfl⟩ := mkThickOf_ok hm
    unfold Part.inUnit Part.build
    refine leafD (mkThickOf_eq _ (s * t) h1 (radiusOk_inUnit hs.ne' h2) (radiusOk_inUnit hs.ne' h3) (diamOk_inUnit hs h4)) (thickMat_den _ _ _ t _ h1)
      (thickMat_den _ _ _ (s * t) _ h1) ?_ rfl
    rw [curv_inUnit, curv_inUnit, Sys.thick_inUnit hs.ne']
  | .slab n t diam, _, hb => by
    unfold Part.build at hb
    obtain ⟨m, hm, rfl⟩ := Except.map_ok hb
    obtain ⟨h1, h2, h3, h4, rfl⟩ := mkThickOf_ok (R1 := none) (R2 := none) hm
    unfold Part.inUnit Part.build
    refine leafD (mkThickOf_eq _ (s * t) h1 h2 h3 (diamOk_inUnit hs h4)) (thickMat_den _ _ _ t _ h1) (thickMat_den _ _ _ (s * t) _ h1) ?_ rfl
    have h := Sys.thick_inUnit hs.ne' n 0 0 t
    rw [zero_div] at h
    exact h
  | .aperture diam na label, _, hb => by
    unfold Part.build at hb
    obtain ⟨m, hm, rfl⟩ := Except.map_ok hb
    obtain ⟨h1, h2, rfl⟩ := mkAperture_ok hm
    unfold Part.inUnit Part.build
    refine leafD (mkAperture_eq label (diamOk_inUnit hs h1) h2) (apertureMat_den _ _ label) (apertureMat_den _ _ label) ?_ rfl
    simp [Sys.inUnit, Sys.one]
  | .matrix m fv bv diam, _, hb => by
    unfold Part.build at hb
    obtain ⟨q, hm, rfl⟩ := Except.map_ok hb
    obtain ⟨h1, -⟩ := init_ok_facts (genericMat_den m fv bv diam) hm
    have hu : MatU s (genericMat m fv bv diam) (genericMat (m.inUnit s) (fv.map (s * ·)) (bv.map (s * ·)) (diam.map (s * ·))) :=
      ⟨m, genericMat_den m fv bv diam, genericMat_den _ _ _ _⟩
    obtain ⟨p', q1, q2, k1, k2⟩ := hu.init hs.ne' (diamOk_inUnit hs h1) rfl hm
    unfold Part.inUnit Part.build
    refine leafU q2 ?_ q1
    simp only [Elem.isSpace, Elem.mat, k1, k2, genericMat]
  | .group label ps, e, hb => by
    unfold Part.build at hb
    split at hb
    · simp at hb
    · next es hes =>
      obtain ⟨g, hg, rfl⟩ := Except.map_ok hb
      obtain ⟨es', h1, h2⟩ := buildList_inUnit hs hes
      obtain ⟨g', h3, h4⟩ := GroupU.new hs.ne' h2 hg
      unfold Part.inUnit Part.build
      rw [h1]
      dsimp only
      rw [h3]
      refine ⟨g'.toElem, rfl, h4.mat, ?_⟩
      simp only [Elem.isSpace, Group.toElem, Elem.mat, h4.kind, h4.kind']
theorem buildList_inUnit {s : K} (hs : 0 < s) : ∀ {ps : List (Part K)} {es : List (Elem (Ext K))}, Part.buildList ps = .ok es →
    ∃ es', Part.buildList (Part.inUnitList s ps) = .ok es' ∧ List.Forall₂ (ElemU s) es es'
  | [], es, h => by
    simp only [Part.buildList, Except.ok.injEq] at h
    subst h
    exact ⟨[], by simp [Part.buildList, Part.inUnitList], .nil⟩
  | p :: ps, es, h => by
    unfold Part.buildList at h
    split at h
    · simp at h
    · next e he =>
      split at h
      · simp at h
      · next fs hfs =>
        simp only [Except.ok.injEq] at h
        subst h
        obtain ⟨e', h1, h2⟩ := build_inUnit hs he
        obtain ⟨fs', h3, h4⟩ := buildList_inUnit hs hfs
        exact ⟨e' :: fs', by simp only [Part.inUnitList, Part.buildList, h1, h3], .cons h2 h4⟩
end

mutual
theorem inUnit_back {s : K} (hs : s ≠ 0) : ∀ p : Part K, (p.inUnit s).inUnit s⁻¹ = p
  | .space d n diam => by cases diam <;> simp [Part.inUnit, hs]
  | .lens f diam => by cases diam <;> simp [Part.inUnit, hs]
  | .mirror R diam => by cases diam <;> simp [Part.inUnit, hs]
  | .interface n1 n2 R diam => by cases R <;> cases diam <;> simp [Part.inUnit, hs]
  | .thickLens n R1 R2 t diam => by cases R1 <;> cases R2 <;> cases diam <;> simp [Part.inUnit, hs]
  | .slab n t diam => by cases diam <;> simp [Part.inUnit, hs]
  | .aperture diam na label => by cases diam <;> simp [Part.inUnit, hs]
  | .matrix m fv bv diam => by cases fv <;> cases bv <;> cases diam <;> simp [Part.inUnit, hs]
  | .group label ps => by simp [Part.inUnit, inUnitList_back hs ps]
theorem inUnitList_back {s : K} (hs : s ≠ 0) : ∀ ps : List (Part K), Part.inUnitList s⁻¹ (Part.inUnitList s ps) = ps
  | [] => rfl
  | p :: ps => by simp [Part.inUnitList, inUnit_back hs p, inUnitList_back hs ps]
end

/-- **C138**: a system, of any elements and groups nested in any way, is accepted by the constructors in one unit of length exactly when it is accepted in
the other. -/
theorem C138_accepted {s : K} (hs : 0 < s) (p : Part K) : (∃ e, p.build = .ok e) ↔ ∃ e', (p.inUnit s).build = .ok e' := by
  constructor
  · rintro ⟨e, he⟩
    obtain ⟨e', h, -⟩ := build_inUnit hs he
    exact ⟨e', h⟩
  · rintro ⟨e, he⟩
    obtain ⟨e', h, -⟩ := build_inUnit (inv_pos.2 hs) he
    rw [inUnit_back hs.ne'] at h
    exact ⟨e', h⟩

/-- **C138**: the matrix and the length of the whole system in the other unit are those of the first: `A` and `D` and the indices are the same, `B` and the length
are `s` times as large, `C` is `s` times smaller. -/
theorem C138_matrix {s : K} (hs : 0 < s) {p : Part K} {e e' : Elem (Ext K)} (hb : p.build = .ok e) (hb' : (p.inUnit s).build = .ok e') :
    ∃ a b c d l n k : K, (e.mat.A = fin a ∧ e.mat.B = fin b ∧ e.mat.C = fin c ∧ e.mat.D = fin d ∧ e.mat.L = fin l ∧ e.mat.frontIndex = fin n ∧ e.mat.backIndex = fin k) ∧
      (e'.mat.A = fin a ∧ e'.mat.B = fin (s * b) ∧ e'.mat.C = fin (c / s) ∧ e'.mat.D = fin d ∧ e'.mat.L = fin (s * l) ∧ e'.mat.frontIndex = fin n ∧ e'.mat.backIndex = fin k) := by
  obtain ⟨f, h, ⟨t, d1, d2⟩, -⟩ := build_inUnit hs hb
  rw [h] at hb'
  cases hb'
  exact ⟨t.a, t.b, t.c, t.d, t.len, t.nf, t.nb, ⟨d1.A, d1.B, d1.C, d1.D, d1.L, d1.nf, d1.nb⟩, ⟨d2.A, d2.B, d2.C, d2.D, d2.L, d2.nf, d2.nb⟩⟩

end RT
