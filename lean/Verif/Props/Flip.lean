import Verif.Lemmas.FlipVertex
import Verif.Lemmas.FlipShift
import Verif.Props.Cardinal

/-! # Properties of flipped systems: C26, C27, C28 -/

set_option linter.unusedSectionVars false

namespace RT
open PyNum Ext
variable {K : Type} [Field K] [LinearOrder K] [IsStrictOrderedRing K]

/-! ## C26 -/

/-- **C26.** Flipping twice a system of reversible parts (`air = false`), or of any parts in air (`air = true`), however
nested, gives back the system itself, with every attribute of every element; and neither flip raises an error. -/
theorem C26_flip_twice_partial (air : Bool) {p : Part K} (hv : p.Valid) (hf : p.Flippable air) {e : Elem (Ext K)}
    (hb : p.build = .ok e) : ∃ e', e.flip = (e', .ok ()) ∧ e'.flip = (e, .ok ()) := by
  obtain ⟨e', h⟩ := (build_tidy hv hf hb).flip
  exact ⟨e', h.flip, h.back⟩

/-- a program that is not a group -/
def Part.single : Part K → Bool
  | .group _ _ => false
  | _ => true

/-- **C26.** Flipping twice a single element of any class gives it back. -/
theorem C26_single {p : Part K} (hv : p.Valid) (hs : p.single = true) {e : Elem (Ext K)} (hb : p.build = .ok e) :
    ∃ e', e.flip = (e', .ok ()) ∧ e'.flip = (e, .ok ()) := by
  cases p with
  | group label ps => simp [Part.single] at hs
  | mirror R diam => exact C26_flip_twice_partial true hv rfl hb
  | matrix s fv bv diam =>
    unfold Part.build at hb
    obtain ⟨m, h1, rfl⟩ := Except.map_ok hb
    obtain ⟨h2, -, -, h3⟩ := init_ok_facts (genericMat_den s fv bv diam) h1
    have hfl : ∀ m : Mat (Ext K), m.kind = .matrix → m.flip = (m.flipBase, .ok ()) := by
      intro m hk; unfold Mat.flip; rw [hk]
    have hk : m.kind = .matrix := by rw [h3]; rfl
    refine ⟨.leaf m.flipBase, ?_, ?_⟩
    · unfold Elem.flip; rw [hfl m hk]
    · unfold Elem.flip; rw [hfl m.flipBase hk]; simp [Mat.flipBase]
  | space d n diam => exact C26_flip_twice_partial false hv (fun h => nomatch h) hb
  | lens f diam => exact C26_flip_twice_partial false hv trivial hb
  | interface n1 n2 R diam => exact C26_flip_twice_partial false hv (fun h => nomatch h) hb
  | thickLens n R1 R2 t diam => exact C26_flip_twice_partial false hv trivial hb
  | slab n t diam => exact C26_flip_twice_partial false hv trivial hb
  | aperture diam na label => exact C26_flip_twice_partial false hv trivial hb

/-- what a program with rational parameters does, when it runs -/
def flipped (p : Part ℚ) : Option (Elem (Ext ℚ) × Except PyErr Unit) :=
  match p.build with
  | .ok e => some e.flip
  | .error _ => none

/-- **C26** fails for a group containing a generic matrix between two media: `flipOrientation()` exchanges its indices but not its
coefficients, so the determinant is wrong and the group cannot be rebuilt. Expected: no error. Here an interface written
as a `Matrix`, alone in a group. -/
theorem C26_generic_violated :
    (flipped (.group "" [.matrix ⟨1, 0, 0, 2/3, 0, 1, 3/2⟩ none none none])).map (·.2) =
      some (.error .valueError) := by decide +kernel

/-! ## C27 -/

/-- **C27.** However a system of reversible parts is nested, if a ray crosses it and comes out as `(y', θ')`, then a ray
`(y', -θ')` entering the flipped system, if it crosses it, comes out as `(y, -θ)`. -/
theorem C27_reversibility {p : Part K} (hv : p.Valid) (hf : p.Flippable false) {e : Elem (Ext K)}
    (hb : p.build = .ok e) : ∃ e', e.flip = (e', .ok ()) ∧
      ∀ {a : Nat} {h : Heap (Ext K)} {y θ z : K}, a < h.length → FinRay (h.get a) y θ z →
        ((e.traceH a h).2.1.get (e.traceThroughH a h).1).isBlocked = false →
      ∃ y' θ', FinRay ((e.traceH a h).2.1.get (e.traceThroughH a h).1) y' θ' (z + e.mat.L.val) ∧
      ∀ {a' : Nat} {h' : Heap (Ext K)} {z' : K}, a' < h'.length → FinRay (h'.get a') y' (-θ') z' →
        ((e'.traceH a' h').2.1.get (e'.traceThroughH a' h').1).isBlocked = false →
        FinRay ((e'.traceH a' h').2.1.get (e'.traceThroughH a' h').1) y (-θ) (z' + e.mat.L.val) := by
  have ht := build_tidy hv hf hb
  obtain ⟨e', h1⟩ := ht.flip
  obtain ⟨-, hnc, -⟩ := build_sound hb
  have hnc' := ht.noCache hnc h1.flip
  refine ⟨e', h1.flip, ?_⟩
  intro a h y θ z ha hr ho
  refine ⟨_, _, through_sound ht.sound hnc ha hr ho, ?_⟩
  intro a' h' z' ha' hr' ho'
  have h2 := through_sound h1.tidy'.sound hnc' ha' hr' ho'
  have h3 := h1.rev rfl y θ
  simp only [Sys.out, Prod.mk.injEq] at h3
  rw [h3.1, h3.2, h1.len] at h2
  exact h2

/-- **C27.** In the same terms for the matrices: the flipped matrix is the inverse one with the sign of the angles
changed. -/
theorem C27_matrix {p : Part K} (hv : p.Valid) (hf : p.Flippable false) {e : Elem (Ext K)}
    (hb : p.build = .ok e) : ∃ e' s s', e.flip = (e', .ok ()) ∧ Den e.mat s ∧ Den e'.mat s' ∧
      s'.a = s.d * (s.nb / s.nf) ∧ s'.b = s.b * (s.nb / s.nf) ∧ s'.c = s.c * (s.nb / s.nf) ∧
      s'.d = s.a * (s.nb / s.nf) ∧ s'.len = s.len ∧ s'.nf = s.nb ∧ s'.nb = s.nf := by
  have ht := build_tidy hv hf hb
  obtain ⟨e', h1⟩ := ht.flip
  refine ⟨e', _, _, h1.flip, ht.ok.den, h1.tidy'.ok.den, ?_⟩
  have hr := h1.rev rfl
  have hl := ht.ok.lawful
  have hdet : e.mat.sys.det * (e.mat.sys.nb / e.mat.sys.nf) = 1 := by
    rw [hl.2.2, div_mul_div_comm, mul_comm, div_self (mul_ne_zero hl.2.1 hl.1)]
  refine ⟨?_, ?_, ?_, ?_, h1.len, h1.nf, h1.nb⟩
  all_goals
    have r1 := hr 1 0
    have r2 := hr 0 1
    simp only [Sys.out, Sys.outY, Sys.outθ, Prod.mk.injEq, mul_one, mul_zero, add_zero, zero_add, neg_zero] at r1 r2
    obtain ⟨r1, r1'⟩ := r1
    obtain ⟨r2, r2'⟩ := r2
    unfold Sys.det at hdet
    generalize e.mat.sys.nb / e.mat.sys.nf = k at *
    generalize e.mat.sys = s at *
    generalize e'.mat.sys = t at *
  · linear_combination (-t.a) * hdet + s.d * k * r1 - s.c * k * r2
  · linear_combination (-t.b) * hdet + s.b * k * r1 - s.a * k * r2
  · linear_combination (-t.c) * hdet + s.d * k * r1' - s.c * k * r2'
  · linear_combination (-t.d) * hdet + s.b * k * r1' - s.a * k * r2'

/-! ## C28 -/

theorem focal_eqs {m : Mat (Ext K)} {s : Sys K} (h : Den m s) (hb : s.nb ≠ 0) (hc : 1 / 100000 < |s.c|)
    {fv bv : Option K} (hfv : m.frontVertex = fv.map fin) (hbv : m.backVertex = bv.map fin) :
    m.frontFocalLength = .ok (fv.map fun v => fin (v - s.d / s.c)) ∧
    m.backFocalLength = .ok (bv.map fun v => fin (s.len - s.a / s.c - v)) := by
  have h0 := power_ne hc
  have e1 := effectiveFocalLengths_eq h hb hc
  have e2 := principalPlanePositions_eq h hb hc 0
  have e3 := hasPower_den h
  simp only [hc, decide_true] at e3
  constructor
  · unfold Mat.frontFocalLength
    rw [e3, e1, zero_eq, e2, hfv]
    cases fv with
    | none => rfl
    | some v =>
      simp only [Option.map_some, if_true, bind, Except.bind, pure, Except.pure, fin_sub_fin, neg_fin]
      congr 3
      field_simp
      ring
  · unfold Mat.backFocalLength
    rw [e3, e1, zero_eq, e2, hbv]
    cases bv with
    | none => rfl
    | some v =>
      simp only [Option.map_some, if_true, bind, Except.bind, pure, Except.pure, fin_sub_fin, fin_add_fin]
      congr 3
      field_simp
      ring

theorem rev_ratios {s t : Sys K} (h : Rev s t) (hl : s.Lawful) (hs : s.c ≠ 0) (ht : t.c ≠ 0) :
    t.a / t.c = s.d / s.c ∧ t.d / t.c = s.a / s.c := by
  have r1 := h 1 0
  have r2 := h 0 1
  simp only [Sys.out, Sys.outY, Sys.outθ, Prod.mk.injEq, mul_one, mul_zero, add_zero, zero_add, neg_zero] at r1 r2
  constructor
  · rw [div_eq_div_iff ht hs]
    have hdet : s.det ≠ 0 := by rw [hl.2.2]; exact div_ne_zero hl.1 hl.2.1
    unfold Sys.det at hdet
    apply mul_left_cancel₀ hdet
    linear_combination s.c * (s.d * r1.1 - s.c * r2.1) - s.d * (s.d * r1.2 - s.c * r2.2)
  · rw [div_eq_div_iff ht hs]
    linear_combination -r1.2

/-- **C28.** For systems of reversible parts, however nested, whose thick elements have no vertices or have them in their
middle (lenses, interfaces, spaces, apertures, and groups of them): flipping exchanges the front and the back focal
lengths. (Both lengths are `None` without power; the code decides this on `C`, which the flip multiplies by the ratio
of the indices, so both orientations are asked to have power.) -/
theorem C28_exchange_partial {p : Part K} (hv : p.Valid) (hf : p.Flippable false) (hce : p.Centered) {e e' : Elem (Ext K)}
    (hb : p.build = .ok e) (he : e.flip = (e', .ok ())) {c c' : K} (hC : e.mat.C = fin c) (hC' : e'.mat.C = fin c')
    (hc : 1 / 100000 < |c|) (hc' : 1 / 100000 < |c'|) :
    e'.mat.backFocalLength = e.mat.frontFocalLength ∧ e'.mat.frontFocalLength = e.mat.backFocalLength := by
  have ht := build_tidy hv hf hb
  obtain ⟨e1, h1⟩ := ht.flip
  have hee : e' = e1 := by have := h1.flip; rw [he] at this; simpa using this
  subst hee
  obtain ⟨v, v1, v2⟩ := ht.vertices (build_centered hce hb) he
  have ho := ht.ok
  have ho' := h1.tidy'.ok
  have hcc : e.mat.sys.c = c := by have := ho.den.C; rw [hC] at this; simpa using this.symm
  have hcc' : e'.mat.sys.c = c' := by have := ho'.den.C; rw [hC'] at this; simpa using this.symm
  rw [← hcc] at hc
  rw [← hcc'] at hc'
  obtain ⟨f1, b1⟩ := focal_eqs ho.den ho.lawful.2.1 hc v1.fv v1.bv
  obtain ⟨f2, b2⟩ := focal_eqs ho'.den ho'.lawful.2.1 hc' v2.fv v2.bv
  obtain ⟨q1, q2⟩ := rev_ratios (h1.rev rfl) ho.lawful (power_ne hc) (power_ne hc')
  have hlen : v.1 = e.mat.sys.len := by have := ho.den.L; rw [v1.L] at this; simpa using this
  rw [f1, b1, f2, b2, q1, q2, h1.len, ← hlen]
  constructor
  · cases hx : v.2.1 with
    | none => simp [Vtx.mir, hx]
    | some x => simp [Vtx.mir, hx]
  · cases hx : v.2.2 with
    | none => simp [Vtx.mir, hx]
    | some x => simp [Vtx.mir, hx]; ring

/-- **C28**, exactly, for all systems of reversible parts, however nested, with vertices anywhere: flipping exchanges the front and the back focal lengths
up to the distances by which the first front vertex and the last back vertex are away from the middle of their elements (counted twice). -/
theorem C28_exact {p : Part K} (hv : p.Valid) (hf : p.Flippable false) {e e' : Elem (Ext K)}
    (hb : p.build = .ok e) (he : e.flip = (e', .ok ())) {c c' : K} (hC : e.mat.C = fin c) (hC' : e'.mat.C = fin c')
    (hc : 1 / 100000 < |c|) (hc' : 1 / 100000 < |c'|) :
    ∃ ffl bfl : Option K, e.mat.frontFocalLength = .ok (ffl.map fin) ∧ e.mat.backFocalLength = .ok (bfl.map fin) ∧
      e'.mat.backFocalLength = .ok (ffl.map fun x => fin (x + frontShift p.vtxs)) ∧
      e'.mat.frontFocalLength = .ok (bfl.map fun x => fin (x - backShift p.vtxs)) := by
  have ht := build_tidy hv hf hb
  obtain ⟨e1, h1⟩ := ht.flip
  have hee : e' = e1 := by have := h1.flip; rw [he] at this; simpa using this
  subst hee
  have w := build_vtxs hb
  have v1 := ht.denV w
  have v2 := h1.tidy'.denV (ht.swap w he)
  unfold Vtx.sum at v1 v2
  rw [firstVertex_swap, lastVertex_swap, List.map_reverse, List.sum_reverse, swap_sum] at v2
  have ho := ht.ok
  have ho' := h1.tidy'.ok
  have hcc : e.mat.sys.c = c := by have := ho.den.C; rw [hC] at this; simpa using this.symm
  have hcc' : e'.mat.sys.c = c' := by have := ho'.den.C; rw [hC'] at this; simpa using this.symm
  rw [← hcc] at hc
  rw [← hcc'] at hc'
  obtain ⟨f1, b1⟩ := focal_eqs ho.den ho.lawful.2.1 hc v1.fv v1.bv
  obtain ⟨f2, b2⟩ := focal_eqs ho'.den ho'.lawful.2.1 hc' v2.fv v2.bv
  obtain ⟨q1, q2⟩ := rev_ratios (h1.rev rfl) ho.lawful (power_ne hc) (power_ne hc')
  have hlen : (p.vtxs.map (·.1)).sum = e.mat.sys.len := by have := ho.den.L; rw [v1.L] at this; simpa using this
  refine ⟨(firstVertex 0 p.vtxs).map fun v => v - e.mat.sys.d / e.mat.sys.c,
    (lastVertex 0 p.vtxs).map fun v => e.mat.sys.len - e.mat.sys.a / e.mat.sys.c - v, ?_, ?_, ?_, ?_⟩
  · rw [f1, Option.map_map]; rfl
  · rw [b1, Option.map_map]; rfl
  · rw [b2, q1, h1.len, ← hlen]
    cases firstVertex 0 p.vtxs with
    | none => rfl
    | some x => simp; ring
  · rw [f2, q2, ← hlen]
    cases lastVertex 0 p.vtxs with
    | none => rfl
    | some x => simp; ring

/-- **C28**, exactly when: the lengths are exchanged if and only if the first front vertex and the last back vertex (if there are any) are in the middle
of their elements. -/
theorem C28_iff {p : Part K} (hv : p.Valid) (hf : p.Flippable false) {e e' : Elem (Ext K)}
    (hb : p.build = .ok e) (he : e.flip = (e', .ok ())) {c c' : K} (hC : e.mat.C = fin c) (hC' : e'.mat.C = fin c')
    (hc : 1 / 100000 < |c|) (hc' : 1 / 100000 < |c'|) {ffl bfl : Ext K} (h1 : e.mat.frontFocalLength = .ok (some ffl))
    (h2 : e.mat.backFocalLength = .ok (some bfl)) :
    (e'.mat.backFocalLength = e.mat.frontFocalLength ↔ frontShift p.vtxs = 0) ∧
    (e'.mat.frontFocalLength = e.mat.backFocalLength ↔ backShift p.vtxs = 0) := by
  obtain ⟨f, b, e1, e2, e3, e4⟩ := C28_exact hv hf hb he hC hC' hc hc'
  rw [e1] at h1
  rw [e2] at h2
  cases f with
  | none => simp at h1
  | some f =>
    cases b with
    | none => simp at h2
    | some b =>
      rw [e1, e2, e3, e4]
      simp

/-- **C28** fails for every thick lens with power: the flip exchanges its vertices without measuring them from the other end, so
the back focal length of the flipped lens is the front focal length plus the thickness, and conversely the front one
is short of it. Expected: no difference. -/
theorem C28_thickLens_violated {n : K} {R1 R2 : Option K} {t : K} {diam : Option K} {e e' : Elem (Ext K)}
    (hb : (Part.thickLens n R1 R2 t diam).build = .ok e) (he : e.flip = (e', .ok ())) {c : K} (hC : e.mat.C = fin c)
    (hc : 1 / 100000 < |c|) :
    ∃ ffl bfl, e.mat.frontFocalLength = .ok (some (fin ffl)) ∧ e.mat.backFocalLength = .ok (some (fin bfl)) ∧
      e'.mat.backFocalLength = .ok (some (fin (ffl + t))) ∧ e'.mat.frontFocalLength = .ok (some (fin (bfl + t))) := by
  have ht := build_tidy (air := false) (p := Part.thickLens n R1 R2 t diam) trivial trivial hb
  obtain ⟨e1, h1⟩ := ht.flip
  have hee : e' = e1 := by have := h1.flip; rw [he] at this; simpa using this
  subst hee
  have hb0 := hb
  unfold Part.build at hb0
  obtain ⟨m, h2, rfl⟩ := Except.map_ok hb0
  obtain ⟨hn, hR1, hR2, hd, hm⟩ := mkThickOf_ok h2
  have ho := ht.ok
  have ho' := h1.tidy'.ok
  have hcc : m.sys.c = c := by have := ho.den.C; rw [hC] at this; simpa [Elem.mat] using this.symm
  have hfv : m.frontVertex = (some (0 : K)).map fin := by rw [hm]; exact congrArg some zero_eq
  have hbv : m.backVertex = (some t).map fin := by rw [hm]; rfl
  have hv' := m.flip_vertices
  have hle : e' = .leaf m.flip.1 := by
    unfold Elem.flip at he; simp only [Prod.mk.injEq] at he; exact he.1.symm
  have hlen : m.sys.len = t := by
    have := ho.den.L
    simp only [Elem.mat] at this
    rw [hm] at this
    have h3 : (fin t : Ext K) = fin _ := this
    rw [hm]; simpa using h3.symm
  rw [← hcc] at hc
  have hs := ho.lawful
  have hair : m.sys.nf = 1 ∧ m.sys.nb = 1 := by
    rw [hm, (thickMat_den _ _ _ _ _ hn).sys, Sys.thick_eq _ _ _ hn]; exact ⟨rfl, rfl⟩
  have hce : e'.mat.sys.c = m.sys.c := by
    have r1 := h1.rev rfl 1 0
    have r2 := h1.rev rfl 0 1
    simp only [Sys.out, Sys.outY, Sys.outθ, Prod.mk.injEq, mul_one, mul_zero, add_zero, zero_add, neg_zero]
      at r1 r2
    change _ ∧ e'.mat.sys.c * m.sys.a + e'.mat.sys.d * -m.sys.c = 0 at r1
    change _ ∧ e'.mat.sys.c * m.sys.b + e'.mat.sys.d * -m.sys.d = -1 at r2
    have hdet : m.sys.det = 1 := by
      have := hs.2.2; simp only [Elem.mat] at this; rw [this, hair.1, hair.2, div_one]
    unfold Sys.det at hdet
    linear_combination (-e'.mat.sys.c) * hdet + m.sys.d * r1.2 - m.sys.c * r2.2
  have hc' : 1 / 100000 < |e'.mat.sys.c| := by rw [hce]; exact hc
  obtain ⟨f1, b1⟩ := focal_eqs ho.den hs.2.1 hc hfv hbv
  obtain ⟨f2, b2⟩ := focal_eqs ho'.den ho'.lawful.2.1 hc'
    (show e'.mat.frontVertex = (some t).map fin by rw [hle]; exact hv'.1.trans hbv)
    (show e'.mat.backVertex = (some (0 : K)).map fin by rw [hle]; exact hv'.2.1.trans hfv)
  obtain ⟨q1, q2⟩ := rev_ratios (h1.rev rfl) hs (power_ne hc) (power_ne hc')
  refine ⟨_, _, f1, b1, ?_, ?_⟩
  · rw [b2, q1, h1.len]
    simp only [Elem.mat, hlen, Option.map_some]
    congr 3; ring
  · rw [f2, q2]
    simp only [Elem.mat, hlen, Option.map_some]
    congr 3; ring

/-! ## Cases meeting the hypotheses -/

/-- a relay with an immersed end: nested groups, a thick lens, an interface, a space in glass and a stop -/
def flipSample : Part ℚ :=
  .group "sample" [.space 10 1 none, .lens 5 (some 20), .group "inner" [.space 3 1 none,
    .thickLens (3/2) (some 10) none 4 none, .aperture (some 7) none "a"], .slab (3/2) 2 none,
    .interface 1 (3/2) (some (-20)) none, .space 8 1 none, .matrix ⟨1, 3, 0, 1, 3, 3/2, 3/2⟩ none none none]

/-- in air, with a mirror and an asymmetric black box -/
def airSample : Part ℚ :=
  .group "air" [.mirror 100 (some 10), .space 10 1 none, .group "" [.lens 5 none, .matrix ⟨2, 3, 1, 2, 3, 1, 1⟩ none none none]]

/-- thin elements -/
def thinSample : Part ℚ :=
  .group "thin" [.space 10 1 none, .lens 50 none, .group "" [.space 20 1 none, .interface 1 (3/2) (some 10) none],
    .space 30 1 none]

example : flipSample.Valid ∧ flipSample.Flippable false ∧ airSample.Valid ∧ airSample.Flippable true ∧
    thinSample.Valid ∧ thinSample.Flippable false ∧ thinSample.Centered := by
  norm_num [flipSample, airSample, thinSample, Part.Valid, Part.ValidList, Part.Flippable, Part.FlippableList,
    Part.Centered, Part.CenteredList, Sys.Lawful, Sys.det]

/-- all of them run, and the flips do what is said: the second flip restores the system -/
example : [flipSample, airSample, thinSample].all (fun p =>
    match p.build with
    | .ok e => decide (e.flip.2 = .ok ()) && decide (e.flip.1.flip.2 = .ok ()) &&
        decide (e.flip.1.flip.1.mat = e.mat) && !decide (e.flip.1.mat = e.mat)
    | .error _ => false) = true := by decide +kernel

/-- focal lengths before and after -/
example : (match thinSample.build with
    | .ok e => decide (e.flip.1.mat.backFocalLength = e.mat.frontFocalLength) &&
        decide (e.mat.frontFocalLength ≠ e.mat.backFocalLength) && decide (e.mat.frontFocalLength ≠ .ok none)
    | .error _ => false) = true := by decide +kernel

/-- a plano-convex thick lens: the flipped lens reports a back focal length of 100 instead of 98 -/
example : (match (Part.thickLens (3/2 : ℚ) (some 50) none 2 none).build with
    | .ok e => decide (e.mat.frontFocalLength = .ok (some (fin 100)) ∧ e.flip.1.mat.backFocalLength = .ok (some (fin 102)))
    | .error _ => false) = true := by decide +kernel

/-- a lens, a gap and a thick lens: the front focal length is exchanged (its vertex is thin), the back one is not; both flips can be done and have power -/
example : (match (Part.group "" [.lens (30 : ℚ) none, .space 4 1 none, .thickLens (3/2 : ℚ) (some 50) none 2 none]).build with
    | .ok e => decide (e.flip.2 = .ok ()) && decide (e.flip.1.mat.backFocalLength = e.mat.frontFocalLength) &&
        decide (e.flip.1.mat.frontFocalLength ≠ e.mat.backFocalLength)
    | .error _ => false) = true ∧
    frontShift (Part.group "" [.lens (30 : ℚ) none, .space 4 1 none, .thickLens (3/2 : ℚ) (some 50) none 2 none]).vtxs = 0 ∧
    backShift (Part.group "" [.lens (30 : ℚ) none, .space 4 1 none, .thickLens (3/2 : ℚ) (some 50) none 2 none]).vtxs = -2 := by
  refine ⟨by decide +kernel, by decide +kernel, by decide +kernel⟩

end RT
