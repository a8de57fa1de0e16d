import Verif.Lemmas.RayDen
import Verif.Lemmas.Elements

/-! # C01-C05: products of elements, the constructor, blocking -/

set_option linter.unusedSectionVars false

namespace RT
open PyNum Ext
variable {K : Type} [Field K] [LinearOrder K] [IsStrictOrderedRing K]

/-! ## C01 -/

/-- **C01.** `(m2 * m1) * r` and `m2 * (m1 * r)` are the same ray, for any two finite elements whose product
exists and any finite ray that neither element blocks. -/
theorem C01_ray {m1 m2 p : Mat (Ext K)} {s1 s2 : Sys K} (h1 : Den m1 s1) (h2 : Den m2 s2)
    (hl1 : m1.Linear) (hl2 : m2.Linear) (hp : m2.mulMatrix m1 = .ok p)
    {r : Ray (Ext K)} {y θ z : K} (hr : FinRay r y θ z)
    (hb : (m2.mulRay (m1.mulRay r)).isBlocked = false) :
    (p.mulRay r).y = (m2.mulRay (m1.mulRay r)).y ∧
    (p.mulRay r).theta = (m2.mulRay (m1.mulRay r)).theta ∧
    (p.mulRay r).z = (m2.mulRay (m1.mulRay r)).z ∧
    (p.mulRay r).isBlocked = false := by
  have hb1 : (m1.mulRay r).isBlocked = false := by
    by_contra hc
    rw [hl2.mulRay] at hb
    simp [Mat.mulRayBase, hc] at hb
  have hb0 : r.isBlocked = false := by
    by_contra hc
    rw [hl1.mulRay] at hb1
    simp [Mat.mulRayBase, hc] at hb1
  have e := mulMatrix_ok hp
  have hpl : p.Linear := by rw [e]; intro n a; simp [Mat.mulRaw, Mat.one]
  have hd := mulRaw_den h2 h1
  rw [← e] at hd
  have r1 := mulRay_den h1 hl1 hr hb0
  have r2 := mulRay_den h2 hl2 r1 hb1
  have r3 := mulRay_den hd hpl hr hb0
  refine ⟨?_, ?_, ?_, ?_⟩
  · rw [r3.y, r2.y]
    exact congrArg fin (Sys.andThen_outY s1 s2 y θ)
  · rw [r3.theta, r2.theta]
    exact congrArg fin (Sys.andThen_outθ s1 s2 y θ)
  · rw [r3.z, r2.z]
    congr 1; simp only [Sys.andThen]; ring
  · rw [hpl.mulRay]
    simp [Mat.mulRayBase, hb0, Mat.stops, e, Mat.mulRaw, Mat.one, half, infOf]

/-- **C01.** The entries of a product are those of the product of the matrices, and lengths add up. -/
theorem C01_matrix {m1 m2 p : Mat (Ext K)} {s1 s2 : Sys K} (h1 : Den m1 s1) (h2 : Den m2 s2)
    (hp : m2.mulMatrix m1 = .ok p) :
    ∃ s, Den p s ∧ s.toMatrix = s2.toMatrix * s1.toMatrix ∧ s.len = s1.len + s2.len := by
  have hd := mulRaw_den h2 h1
  rw [← mulMatrix_ok hp] at hd
  exact ⟨_, hd, Sys.andThen_toMatrix s1 s2, rfl⟩

/-- **C01.** Multiplication is associative in its entries and in its length. -/
theorem C01_assoc {m1 m2 m3 p q p' q' : Mat (Ext K)} {s1 s2 s3 : Sys K} (h1 : Den m1 s1) (h2 : Den m2 s2)
    (h3 : Den m3 s3) (hp : m3.mulMatrix m2 = .ok p) (hq : p.mulMatrix m1 = .ok q)
    (hp' : m2.mulMatrix m1 = .ok p') (hq' : m3.mulMatrix p' = .ok q') :
    q.A = q'.A ∧ q.B = q'.B ∧ q.C = q'.C ∧ q.D = q'.D ∧ q.L = q'.L := by
  have e1 := mulMatrix_ok hp; have e2 := mulMatrix_ok hq
  have e3 := mulMatrix_ok hp'; have e4 := mulMatrix_ok hq'
  subst e1 e2 e3 e4
  simp only [Mat.mulRaw, h1.A, h1.B, h1.C, h1.D, h1.L, h2.A, h2.B, h2.C, h2.D, h2.L, h3.A, h3.B, h3.C, h3.D,
    h3.L, fin_add_fin, fin_mul_fin, Ext.fin.injEq]
  refine ⟨?_, ?_, ?_, ?_, ?_⟩ <;> ring

/-- A concrete case: a lens of focal length 2 after 3 of air, and a ray that gets through. -/
example : ∃ m1 m2 p : Mat (Ext ℚ), mkSpace (fin 3) = .ok m1 ∧ mkLens (fin 2) (fin 10) = .ok m2 ∧
    m2.mulMatrix m1 = .ok p ∧ Den m1 (Sys.space 3 1) ∧ Den m2 (Sys.lens 2) ∧ m1.Linear ∧ m2.Linear ∧
    (m2.mulRay (m1.mulRay (Ray.new (fin 1) (fin (1/2))))).isBlocked = false ∧
    FinRay (p.mulRay (Ray.new (fin 1) (fin (1/2)))) (5/2) (-3/4) 3 := by
  have hm1 : mkSpace (fin 3 : Ext ℚ) = .ok (spaceMat (fin 3) (fin 1) pinf) := by
    rw [← one_eq]; exact (by rw [one_eq]; exact mkSpace_eq 3 one_ne_zero diamOk_pinf)
  refine ⟨_, _, _, hm1, mkLens_eq (by norm_num) (diamOk_fin.2 (by norm_num)),
    mulMatrix_matched (lensMat_den 2 _) (spaceMat_den 3 1 _) (Sys.lens_lawful 2)
      (Sys.space_lawful 3 one_ne_zero) rfl,
    spaceMat_den _ _ _, lensMat_den _ _, ?_, ?_, by decide +kernel, ?_⟩
  · intro n a; simp [spaceMat]
  · intro n a; simp [lensMat]
  · constructor <;> decide +kernel

/-! ## C02 -/

/-- **C02.** The product of two consistent elements whose indices match is accepted and is consistent. -/
theorem C02_pair {m1 m2 : Mat (Ext K)} {s1 s2 : Sys K} (h1 : Den m1 s1) (h2 : Den m2 s2)
    (hs1 : s1.Lawful) (hs2 : s2.Lawful) (h : m1.backIndex = m2.frontIndex) :
    ∃ p s, m2.mulMatrix m1 = .ok p ∧ Den p s ∧ s.Lawful := by
  have h' : s1.nb = s2.nf := by rw [h1.nb, h2.nf] at h; simpa using h
  exact ⟨_, _, mulMatrix_matched h2 h1 hs2 hs1 h', mulRaw_den_matched h2 h1 hs2 hs1 h', hs1.andThen hs2 h'⟩

/-- **C02.** The full transfer matrix of any list of consistent elements (groups included) with matching indices is
computed without error, and satisfies `determinant = frontIndex / backIndex`. -/
theorem C02_chain {es : List (Elem (Ext K))} {ss : List (Sys K)} (hd : DenList es ss)
    (hl : ∀ s ∈ ss, s.Lawful) {n : K} (hm : Sys.Matched n ss) :
    ∃ t u, transferMatrixList es inf Mat.one = .ok t ∧ Den t u ∧ u.Lawful ∧
      t.determinant = fin (u.nf / u.nb) := by
  obtain ⟨t, u, h1, h2, h3, -⟩ := fullTransfer hd hl hm
  exact ⟨t, u, h1, h2, h3, by rw [determinant_den h2, h3.2.2]⟩

/-- What the exact constructors give is consistent, so `C02_chain` applies to any assembly of them. -/
example : (Sys.lens (2 : ℚ)).Lawful ∧ (Sys.interface (1 : ℚ) (3/2) 1).Lawful ∧
    DenList [Elem.leaf (lensMat (2 : ℚ) pinf), .leaf (interfaceMat 1 (3/2) (fin 1) pinf)]
      [Sys.lens 2, Sys.interface 1 (3/2) 1] ∧
    Sys.Matched (1 : ℚ) [Sys.lens 2, Sys.interface 1 (3/2) 1] := by
  refine ⟨Sys.lens_lawful 2, Sys.interface_lawful _ one_ne_zero (by norm_num), ?_, rfl, rfl, trivial⟩
  refine .cons (lensMat_den _ _) (.cons ?_ .nil)
  have := interfaceMat_den (1 : ℚ) (3/2) (fin 1) pinf
  simpa [Elem.mat] using this

/-! ## C03 -/

/-- **C03.** On finite entries and finite or infinite apertures, the constructor succeeds exactly for
positive apertures, a non-zero back index and a determinant within 1e-5 of the ratio of the indices. -/
theorem C03_accepts_iff {m : Mat (Ext K)} {s : Sys K} (h : Den m s) {d na : Option K}
    (hd : m.apertureDiameter = optInf d) (hna : m.apertureNA = optInf na) :
    (∃ p, Mat.init m = .ok p) ↔
      (∀ x, d = some x → 0 < x) ∧ (∀ x, na = some x → 0 < x) ∧ s.nb ≠ 0 ∧
        |s.a * s.d - s.b * s.c - s.nf / s.nb| ≤ 1 / 100000 := by
  rw [init_den h, hd, hna]
  have e1 : ((optInf d ≤. 0) = true) ↔ ¬ ∀ x, d = some x → 0 < x := by
    cases d <;> simp [optInf]
  have e2 : ((optInf na ≤. 0) = true) ↔ ¬ ∀ x, na = some x → 0 < x := by
    cases na <;> simp [optInf]
  have e3 : ((1 / 100000 : ℚ) : K) = 1 / 100000 := by norm_num
  rw [e3]
  change _ ↔ _ ∧ _ ∧ _ ∧ |s.det - s.nf / s.nb| ≤ _
  constructor
  · rintro ⟨p, hp⟩
    split_ifs at hp with h1 h2 h3
    exact ⟨not_not.1 fun hn => h1 (.inl (e1.2 hn)), not_not.1 fun hn => h1 (.inr (e2.2 hn)), h2, not_lt.1 h3⟩
  · rintro ⟨a, b, c, e⟩
    rw [if_neg (by rintro (h | h); exacts [e1.1 h a, e2.1 h b]), if_neg c, if_neg (not_lt.2 e)]
    exact ⟨_, rfl⟩

/-- **C03.** When it fails: `ZeroDivisionError` for a zero back index (with positive apertures), `ValueError`
otherwise. -/
theorem C03_errors {m : Mat (Ext K)} {s : Sys K} (h : Den m s) {x : PyErr} (he : Mat.init m = .error x) :
    (x = .zeroDivisionError ∧ s.nb = 0) ∨ x = .valueError := by
  rw [init_den h] at he
  split_ifs at he with h1 h2 h3
  all_goals simp_all

/-- **C03.** (all numbers, finite or not) A successful construction stores the arguments unchanged. -/
theorem C03_stores {m p : Mat (Ext K)} (h : Mat.init m = .ok p) : p = { m with isFlipped := false } := init_ok h

/-- **C03.** The subclasses accept exactly: a non-zero focal length, radius or index and a positive diameter. -/
theorem C03_lens (f : K) (d : Option K) :
    (∃ p, mkLens (fin f) (optInf d) = .ok p) ↔ f ≠ 0 ∧ ∀ x, d = some x → 0 < x := by
  by_cases hf : f = 0
  · simp [hf, mkLens, pyDiv_zero, bind, Except.bind]
  · simp only [ne_eq, hf, not_false_eq_true, true_and]
    have e : pyDiv (-1) (fin f) = .ok (fin (-1 / f)) := by rw [one_eq, neg_fin, pyDiv_fin _ _ hf]
    unfold mkLens
    simp only [e, bind, Except.bind]
    refine (C03_accepts_iff (lensMat_den f (optInf d)) (d := d) (na := none) rfl rfl).trans ?_
    simp [Sys.lens]

/-- **C03.** `Space` needs a non-zero index and a positive diameter; any length is accepted. -/
theorem C03_space (x n : K) (d : Option K) :
    (∃ p, mkSpace (fin x) (fin n) (optInf d) = .ok p) ↔ n ≠ 0 ∧ ∀ x, d = some x → 0 < x := by
  refine (C03_accepts_iff (spaceMat_den x n (optInf d)) (d := d) (na := none) rfl rfl).trans ?_
  by_cases hn : n = 0
  · simp [Sys.space, hn]
  · simp [Sys.space, hn]

/-- both sides of `C03_accepts_iff` occur -/
example : (∃ p, mkLens (fin (2 : ℚ)) (optInf (some 1)) = .ok p) ∧
    ¬ (∃ p, mkLens (fin (2 : ℚ)) (optInf (some (-1))) = .ok p) ∧
    Mat.init { (Mat.one : Mat (Ext ℚ)) with B := fin 1, C := fin 1 } = .error .valueError := by
  refine ⟨(C03_lens 2 _).2 ⟨by norm_num, by simp⟩, fun h => ?_, by decide +kernel⟩
  have := (C03_lens 2 _).1 h
  norm_num at this

/-! ## C04 -/

/-- **C04.** Length, vertices and indices of the product of two consistent elements whose indices match. -/
theorem C04_pair {m1 m2 p : Mat (Ext K)} {s1 s2 : Sys K} {v1 v2 : Vtx K} (h1 : Den m1 s1) (h2 : Den m2 s2)
    (hv1 : DenV m1 v1) (hv2 : DenV m2 v2) (hs1 : s1.Lawful) (hs2 : s2.Lawful)
    (h : m1.backIndex = m2.frontIndex) (hp : m2.mulMatrix m1 = .ok p) :
    p.L = fin (v1.1 + v2.1) ∧
    p.frontVertex = (firstVertex 0 [v1, v2]).map fin ∧ p.backVertex = (lastVertex 0 [v1, v2]).map fin ∧
    p.frontIndex = m1.frontIndex ∧ p.backIndex = m2.backIndex := by
  have h' : s1.nb = s2.nf := by rw [h1.nb, h2.nf] at h; simpa using h
  have e := mulMatrix_ok hp
  have hd := mulRaw_den_matched h2 h1 hs2 hs1 h'
  have hv := mulRaw_denV hv2 hv1
  rw [e]
  exact ⟨hv.L, hv.fv, hv.bv, by rw [hd.nf, h1.nf]; rfl, by rw [hd.nb, h2.nb]; rfl⟩

/-- **C04.** Length, vertices and indices of the whole of a list of consistent, index-matched elements, not all of
them identities: sum of the lengths, first and last vertices met, index in front of the first element and behind
the last one. -/
theorem C04_chain_partial {es : List (Elem (Ext K))} {ss : List (Sys K)} {vs : List (Vtx K)} (hd : DenList es ss)
    (hv : List.Forall₂ (fun e v => DenV e.mat v) es vs)
    (hl : ∀ s ∈ ss, s.Lawful) {n : K} (hm : Sys.Matched n ss) (hid : ∃ s ∈ ss, ¬ s.IsId) :
    ∃ t, transferMatrixList es inf Mat.one = .ok t ∧ t.L = fin (vs.map (·.1)).sum ∧
      t.frontVertex = (firstVertex 0 vs).map fin ∧ t.backVertex = (lastVertex 0 vs).map fin ∧
      t.frontIndex = fin n ∧ t.backIndex = fin (Sys.endIndex n ss) := by
  obtain ⟨t, u, h1, h2, h3, h4, -, h5, -⟩ := fullTransfer hd hl hm
  have h0 : DenV (Mat.one : Mat (Ext K)) (0, none, none) := by constructor <;> simp [Mat.one]
  have := transferMatrixList_denV hv h0 h1
  refine ⟨t, h1, by simpa using this.L, ?_, ?_, by rw [h2.nf, (h5 hid).1], by rw [h2.nb, (h5 hid).2]⟩
  · simpa [firstVertex] using this.fv
  · have := this.bv
    simp only [lastVertex, add_zero] at this
    rw [this]
    cases lastVertex 0 vs <;> rfl

/-- **C04** fails for a group made of identities only (here a `Space` of length 0 in a medium of index 3/2): the
group reports the index 1. Expected: front index 3/2 as the element has. -/
theorem C04_identity_index_violated :
    ∃ m : Mat (Ext ℚ), mkSpace (fin 0) (fin (3/2)) = .ok m ∧ m.frontIndex = fin (3/2) ∧
      (Group.new [.leaf m]).map (·.mat.frontIndex) = .ok (fin 1) :=
  ⟨spaceMat (fin 0) (fin (3/2)) pinf, mkSpace_eq 0 (by norm_num) diamOk_pinf, rfl, by decide +kernel⟩

/-- a chain meeting the hypotheses: glass interface, then 5 of glass -/
example : ∃ (es : List (Elem (Ext ℚ))) (ss : List (Sys ℚ)) (vs : List (Vtx ℚ)), DenList es ss ∧
    List.Forall₂ (fun e v => DenV e.mat v) es vs ∧ (∀ s ∈ ss, s.Lawful) ∧ Sys.Matched 1 ss ∧
    (∃ s ∈ ss, ¬ s.IsId) ∧ firstVertex 0 vs = some 0 ∧ lastVertex 0 vs = some 0 ∧ Sys.endIndex 1 ss = 3/2 := by
  refine ⟨[.leaf (interfaceMat 1 (3/2) (fin 10) pinf), .leaf (spaceMat (fin 5) (fin (3/2)) pinf)],
    [Sys.interface 1 (3/2) (1/10), Sys.space 5 (3/2)], [(0, some 0, some 0), (5, none, none)],
    .cons ?_ (.cons (spaceMat_den _ _ _) .nil), .cons ?_ (.cons ?_ .nil), ?_, ⟨rfl, rfl, trivial⟩,
    ⟨_, List.mem_cons_self, ?_⟩, ?_, ?_, rfl⟩
  · simpa [Elem.mat] using interfaceMat_den (1 : ℚ) (3/2) (fin 10) pinf
  · constructor <;> simp [interfaceMat, Elem.mat]
  · constructor <;> simp [spaceMat, Elem.mat, Mat.one]
  · intro s hs
    simp only [List.mem_cons, List.not_mem_nil, or_false] at hs
    rcases hs with rfl | rfl
    · exact Sys.interface_lawful _ (by norm_num) (by norm_num)
    · exact Sys.space_lawful _ (by norm_num)
  · norm_num [Sys.IsId, Sys.interface]
  · simp [firstVertex]
  · simp [lastVertex]

/-! ## C05 -/

/-- **C05.** (every kind of number, every element) The ray leaving an element is blocked exactly when it was blocked, or
entered outside the aperture, or at an angle above the numerical aperture. -/
theorem C05_blocked_iff {F : Type} [PyNum F] (m : Mat F) (r : Ray F) :
    (m.mulRay r).isBlocked = true ↔
      r.isBlocked = true ∨ (half m.apertureDiameter <. PyNum.abs r.y) = true ∨
        (m.apertureNA <. PyNum.abs r.theta) = true := by
  have h : (m.mulRay r).isBlocked = (m.mulRayBase r).isBlocked := by
    unfold Mat.mulRay; cases m.kind <;> rfl
  rw [h]
  unfold Mat.mulRayBase Mat.stops
  cases hb : r.isBlocked <;> simp [hb]

/-- **C05.** The same on finite rays and finite or infinite apertures, in terms of the order of the field. -/
theorem C05_blocked_iff_exact {m : Mat (Ext K)} {d na : Option K} (hd : m.apertureDiameter = optInf d)
    (hna : m.apertureNA = optInf na) {r : Ray (Ext K)} {y θ z : K} (hr : FinRay r y θ z) :
    (m.mulRay r).isBlocked = true ↔
      r.isBlocked = true ∨ (∃ x, d = some x ∧ x / 2 < |y|) ∨ (∃ x, na = some x ∧ x < |θ|) := by
  rw [C05_blocked_iff, hd, hna, hr.y, hr.theta]
  cases d <;> cases na <;> simp [optInf, half, infOf]

/-- **C05.** A blocked ray goes unchanged through any element that acts through its matrix (for the axicon see C60). -/
theorem C05_frozen {F : Type} [PyNum F] {m : Mat F} (h : m.Linear) {r : Ray F} (hb : r.isBlocked = true) :
    m.mulRay r = r := by
  rw [h.mulRay]; simp [Mat.mulRayBase, hb]

/-- both outcomes occur for a lens of diameter 10 -/
example : ((lensMat (50 : ℚ) (fin 10)).mulRay (Ray.new (fin 6) (fin 0))).isBlocked = true ∧
    ((lensMat (50 : ℚ) (fin 10)).mulRay (Ray.new (fin 5) (fin 0))).isBlocked = false := by
  decide +kernel

end RT
