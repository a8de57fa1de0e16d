import Verif.Lemmas.Beam
import Verif.Lemmas.Matched

/-! # C38–C44: gaussian beams and laser cavities

Exact real numbers are used here, because of the square roots and of π. `beamOf q wl z n c` is the beam with complex radius
`q`, wavelength `wl`, position `z`, in a medium of index `n`, marked clipped if `c`. -/

set_option linter.unusedSectionVars false

namespace RT
open PyNum Ext

/-! ## C38 -/

theorem mulBeamBase_ok {m : Mat (Ext ℝ)} {s : Sys ℝ} (h : Den m s) {q : ℂ} {wl z n : ℝ} {c : Bool} {b : Beam (Ext ℝ)}
    (hb : m.mulBeamBase (beamOf q wl z n c) = .ok b) :
    n = s.nf ∧ (s.c * q + s.d : ℂ) ≠ 0 ∧ (∃ w, (beamOf (s.bend q) wl (s.len + z) s.nb false).w = .ok w) ∧
      ∃ c', b = beamOf (s.bend q) wl (s.len + z) s.nb c' := by
  unfold Mat.mulBeamBase at hb
  by_cases hn : n = s.nf
  · by_cases hd : (s.c * q + s.d : ℂ) = 0
    · exfalso
      rw [if_neg (by simp [beamOf, h.nf, hn])] at hb
      simp only [beamOf, h.A, h.B, h.C, h.D, h.L, h.nb, Cx.ofReal_fin, Cx.mul_of, Cx.add_of] at hb
      rw [hd, Cx.div_zero] at hb
      simp [bind, Except.bind] at hb
    · refine ⟨hn, hd, ?_⟩
      rw [if_neg (by simp [beamOf, h.nf, hn])] at hb
      simp only [beamOf, h.A, h.B, h.C, h.D, h.L, h.nb, Cx.ofReal_fin, Cx.mul_of, Cx.add_of] at hb
      rw [Cx.div_of _ hd, show (s.a * q + s.b : ℂ) / (s.c * q + s.d) = s.bend q from rfl] at hb
      simp only [bind, Except.bind, fin_add_fin] at hb
      unfold beamOf
      cases hw : (Beam.mk (Cx.of (s.bend q)) (fin wl) (fin (s.len + z)) (fin s.nb) false).w with
      | error x => rw [hw] at hb; simp at hb
      | ok w =>
        rw [hw] at hb
        simp only [pure, Except.pure, Except.ok.injEq] at hb
        exact ⟨⟨w, rfl⟩, _, hb.symm⟩
  · exfalso
    rw [if_pos (by simp [beamOf, h.nf, hn])] at hb
    cases hb

theorem beam_w_clip (q : Cx (Ext ℝ)) (wl z z' n : Ext ℝ) (c c' : Bool) :
    (Beam.mk q wl z n c).w = (Beam.mk q wl z' n c').w := rfl

theorem mulBeamBase_of {m : Mat (Ext ℝ)} {s : Sys ℝ} (h : Den m s) {q : ℂ} {wl z : ℝ} {c : Bool}
    (hd : (s.c * q + s.d : ℂ) ≠ 0) {w : Ext ℝ} (hw : (beamOf (s.bend q) wl (s.len + z) s.nb false).w = .ok w) :
    ∃ c', m.mulBeamBase (beamOf q wl z s.nf c) = .ok (beamOf (s.bend q) wl (s.len + z) s.nb c') := by
  refine ⟨if half m.apertureDiameter <. PyNum.abs w then true else c, ?_⟩
  unfold Mat.mulBeamBase
  rw [if_neg (by simp [beamOf, h.nf])]
  simp only [beamOf, h.A, h.B, h.C, h.D, h.L, h.nb, Cx.ofReal_fin, Cx.mul_of, Cx.add_of]
  rw [Cx.div_of _ hd, show (s.a * q + s.b : ℂ) / (s.c * q + s.d) = s.bend q from rfl]
  simp only [bind, Except.bind, fin_add_fin]
  unfold beamOf at hw
  rw [hw]
  rfl

/-- **C38** for the product of two elements with matching media and any complex radius: when the beam can go through the first
one and then through the second one, it can go through the product, with the same complex radius, wavelength,
position and medium. -/
theorem C38_product {m1 m2 : Mat (Ext ℝ)} {s1 s2 : Sys ℝ} (h1 : Den m1 s1) (h2 : Den m2 s2) (l1 : s1.Lawful)
    (l2 : s2.Lawful) (hm : s1.nb = s2.nf) (k1 : m1.Linear) (k2 : m2.Linear) {q : ℂ} {wl z n : ℝ} {c : Bool}
    {b1 b2 : Beam (Ext ℝ)} (e1 : m1.mulBeam (beamOf q wl z n c) = .ok b1) (e2 : m2.mulBeam b1 = .ok b2) :
    ∃ p b, m2.mulMatrix m1 = .ok p ∧ p.mulBeam (beamOf q wl z n c) = .ok b ∧
      b.q = b2.q ∧ b.wavelength = b2.wavelength ∧ b.z = b2.z ∧ b.n = b2.n := by
  rw [mulBeam_linear k1] at e1
  obtain ⟨rfl, d1, -, c1, rfl⟩ := mulBeamBase_ok h1 e1
  rw [mulBeam_linear k2] at e2
  obtain ⟨-, d2, ⟨w, hw⟩, c2, rfl⟩ := mulBeamBase_ok h2 e2
  have hp := mulRaw_den_matched h2 h1 l2 l1 hm
  have hd : ((s1.andThen s2).c * q + (s1.andThen s2).d : ℂ) ≠ 0 := by
    rw [Sys.denom_andThen _ _ d1]
    exact mul_ne_zero d2 d1
  have hw' : (beamOf ((s1.andThen s2).bend q) wl ((s1.andThen s2).len + z) (s1.andThen s2).nb false).w = .ok w := by
    rw [Sys.bend_andThen _ _ d1, ← hw]
    rfl
  obtain ⟨c', hc'⟩ := mulBeamBase_of hp (c := c) hd hw'
  refine ⟨_, beamOf ((s1.andThen s2).bend q) wl ((s1.andThen s2).len + z) (s1.andThen s2).nb c',
    mulMatrix_matched h2 h1 l2 l1 hm, ?_, ?_⟩
  · refine (mulBeam_linear (m := m2.mulRaw m1) ?_ _).trans hc'
    intro n a hk
    simp [Mat.mulRaw, Mat.one] at hk
  · rw [Sys.bend_andThen _ _ d1]
    refine ⟨rfl, rfl, ?_, rfl⟩
    simp only [beamOf, Sys.andThen]
    congr 1
    ring

/-- **C38** for every system built by a program, at any depth of nesting, with positive indices, and confined beams in its front medium: tracing
the beam through the elements, or multiplying it by the matrix of the system, both succeed and give the beam with the
complex radius of the law ABCD applied element by element, further by the length of the system, in the back medium. -/
theorem C38_trace {p : Part ℝ} (hv : p.Valid) (hp : p.PosMedia) {e : Elem (Ext ℝ)} (hb : p.build = .ok e) (hc : e.Clean)
    {n : ℝ} (hn : 0 < n) (hi : e.mat.frontIndex = fin n) {q : ℂ} (hq : 0 < q.im) {wl : ℝ} (hl : 0 < wl) (z : ℝ)
    (c : Bool) :
    ∃ n' c1 c2, e.mat.backIndex = fin n' ∧
      e.traceThroughBeam (beamOf q wl z n c) = .ok (beamOf (beamAfter p.stages q) wl (z + p.length) n' c1) ∧
      e.mat.mulBeam (beamOf q wl z n c) = .ok (beamOf (beamAfter p.stages q) wl (z + p.length) n' c2) := by
  obtain ⟨hg, hpr⟩ := build_good hv hb hc
  obtain ⟨hs, -, -⟩ := build_sound hb
  have hst := build_stages hb
  have hdet := posMedia_det hv hp
  obtain ⟨f1, f2, f3⟩ := hg.flat
  have hden := hg.den
  have hnf : e.mat.sys.nf = n := by
    have := hden.nf
    rw [hi] at this
    simpa using this.symm
  have hout : ∀ r, p.stages.foldl (fun r s => s.out r) r = e.mat.sys.out r := by
    intro r
    rw [(outAll_stages hst r).1]
    exact hs.items.2.1 r
  have hlen : (p.stages.map Stage.len).sum = p.length := by
    rw [(outAll_stages hst 0).2, hs.items.2.2, Part.length, ← hpr]
    exact hg.prims.2.symm
  rw [hnf] at f2 f3
  obtain ⟨c1, r1, r2, r3⟩ := runBeam_chain hst f1 f2 hn hdet hq hl z c
  rw [f3] at r1 r3
  rw [hlen] at r1
  have hdet' : 0 < e.mat.sys.det := by
    rw [hg.lawful.2.2, hnf]
    exact div_pos hn r3
  have hm := mulBeamBase_eq hden (wl := wl) (z := z) (c := c) (Sys.denom_ne hdet'.ne' hq) hl r3
  have hlen' : e.mat.sys.len = p.length := by
    rw [Part.length, ← hpr]; exact hg.prims.2.symm
  rw [bend_eq_of_out hdet hout hq, hnf, hlen', add_comm] at hm
  refine ⟨e.mat.sys.nb, c1, _, hden.nb, ?_, (mulBeam_linear (Elem.linear_mat hg hs) _).trans hm⟩
  rw [traceThroughBeam_run]
  exact r1

/-! ## C39 -/

section Generic
variable {F : Type} [PyNum F] [PyMath F]

mutual
/-- What is kept by every element is kept all along a trace. -/
theorem traceBeam_all {P : Beam F → Prop} : ∀ (e : Elem F),
    (∀ m ∈ leaves e.items, ∀ b b', P b → m.mulBeam b = .ok b' → P b') →
    ∀ (b : Beam F), P b → ∀ t, e.traceBeam b = .ok t → ∀ x ∈ t, P x
  | .leaf m, h, b, hb, t, ht, x, hx => by
    unfold Elem.traceBeam at ht
    cases hm : m.mulBeam b with
    | error y => rw [hm] at ht; simp at ht
    | ok b1 =>
      rw [hm] at ht
      simp only [Except.ok.injEq] at ht
      subst ht
      simp only [List.mem_singleton] at hx
      subst hx
      exact h m (by simp [Elem.items, leaves]) b _ hb hm
  | .group m c es, h, b, hb, t, ht, x, hx => by
    unfold Elem.traceBeam at ht
    cases hm : traceBeamList es b with
    | error y => rw [hm] at ht; simp at ht
    | ok b1 =>
      rw [hm] at ht
      simp only [Except.ok.injEq] at ht
      subst ht
      rcases List.mem_cons.1 hx with rfl | hx
      · exact hb
      · exact traceBeamList_all es (fun m hm => h m (by simpa [Elem.items, leaves] using hm)) b hb _ hm x hx
theorem traceBeamList_all {P : Beam F → Prop} : ∀ (es : List (Elem F)),
    (∀ m ∈ leaves (itemsList es), ∀ b b', P b → m.mulBeam b = .ok b' → P b') →
    ∀ (b : Beam F), P b → ∀ t, traceBeamList es b = .ok t → ∀ x ∈ t, P x
  | [], _, b, _, t, ht, x, hx => by
    simp only [traceBeamList, Except.ok.injEq] at ht
    subst ht
    simp at hx
  | e :: es, h, b, hb, t, ht, x, hx => by
    unfold traceBeamList at ht
    have h1 : ∀ m ∈ leaves e.items, ∀ b b', P b → m.mulBeam b = .ok b' → P b' :=
      fun m hm => h m (by simp [itemsList, leaves_append, hm])
    have h2 : ∀ m ∈ leaves (itemsList es), ∀ b b', P b → m.mulBeam b = .ok b' → P b' :=
      fun m hm => h m (by simp [itemsList, leaves_append, hm])
    cases hm : e.traceBeam b with
    | error y => rw [hm] at ht; simp at ht
    | ok t1 =>
      rw [hm] at ht
      dsimp only at ht
      have a1 := traceBeam_all e h1 b hb t1 hm
      have hlast : P (t1.getLast?.getD b) := by
        cases hl : t1.getLast? with
        | none => exact hb
        | some y => exact a1 y (List.mem_of_getLast? hl)
      cases hm2 : traceBeamList es (t1.getLast?.getD b) with
      | error y => rw [hm2] at ht; simp at ht
      | ok t2 =>
        rw [hm2] at ht
        simp only [Except.ok.injEq] at ht
        subst ht
        rcases List.mem_append.1 hx with hx | hx
        · exact a1 x hx
        · exact traceBeamList_all es h2 _ hlast t2 hm2 x hx
end

end Generic

/-- A confined beam: it has finite attributes, a positive size, and is in a medium of positive index. -/
def Confined (b : Beam (Ext ℝ)) : Prop :=
  ∃ q wl z n c, b = beamOf q wl z n c ∧ 0 < q.im ∧ 0 < wl ∧ 0 < n

/-- What `Confined` means for the user: `isFinite` is True and the size is a positive number. -/
theorem Confined.size {b : Beam (Ext ℝ)} (h : Confined b) : b.isFinite = true ∧ ∃ w, b.w = .ok (fin w) ∧ 0 < w := by
  obtain ⟨q, wl, z, n, c, rfl, hq, hl, hn⟩ := h
  exact ⟨(isFinite_of q _ _ _ _).2 hq, _, w_of hq hl hn _ _, beamSize_pos hq hl hn⟩

theorem Confined.step {m : Mat (Ext ℝ)} (hg : m.Good) (hk : m.Linear) (hd : 0 < m.sys.det) {b b' : Beam (Ext ℝ)}
    (h : Confined b) (hb : m.mulBeam b = .ok b') : Confined b' := by
  obtain ⟨q, wl, z, n, c, rfl, hq, hl, hn⟩ := h
  rw [mulBeam_linear hk] at hb
  obtain ⟨rfl, -, -, c', rfl⟩ := mulBeamBase_ok hg.den hb
  refine ⟨_, _, _, _, _, rfl, Sys.bend_pos hd hq, hl, ?_⟩
  have := hg.lawful.2.2
  rw [this] at hd
  exact (div_pos_iff_of_pos_left hn).1 hd

/-- the single elements of a system built with positive indices -/
theorem posMedia_leaf {p : Part ℝ} (hv : p.Valid) (hp : p.PosMedia) {e : Elem (Ext ℝ)} (hb : p.build = .ok e)
    (hc : e.Clean) {m : Mat (Ext ℝ)} (hm : m ∈ leaves e.items) : m.Good ∧ m.Linear ∧ 0 < m.sys.det := by
  obtain ⟨hg, -⟩ := build_good hv hb hc
  have hst := build_stages hb
  have hdet := posMedia_det hv hp
  have hf := hg.flat.1 m hm
  obtain ⟨s, hs, hms⟩ : ∃ s ∈ p.stages, StageOf m s := by
    unfold ItemStages at hst
    clear hdet
    generalize leaves e.items = ms at hst hm
    generalize p.stages = ss at hst
    induction hst with
    | nil => simp at hm
    | cons h _ ih =>
      rcases List.mem_cons.1 hm with rfl | hm
      · exact ⟨_, by simp, h⟩
      · obtain ⟨s, hs, h⟩ := ih hm
        exact ⟨s, by simp [hs], h⟩
  exact ⟨hf, hms.linear, by rw [hms.det]; exact hdet s hs⟩

theorem confined_trace {p : Part ℝ} (hv : p.Valid) (hp : p.PosMedia) {e : Elem (Ext ℝ)} (hb : p.build = .ok e)
    (hc : e.Clean) {b : Beam (Ext ℝ)} (h : Confined b) {t : List (Beam (Ext ℝ))} (ht : e.traceBeam b = .ok t) : ∀ x ∈ t, Confined x := by
  intro x hx
  refine traceBeam_all e ?_ b h t ht x hx
  intro m hm b b' h1 h2
  obtain ⟨hf, hl, hd⟩ := posMedia_leaf hv hp hb hc hm
  exact Confined.step hf hl hd h1 h2

theorem runBeam_confined {ms : List (Mat (Ext ℝ))} (hg : ∀ m ∈ ms, m.Good ∧ m.Linear ∧ 0 < m.sys.det) {n : ℝ}
    (hm : Sys.Matched n (ms.map Mat.sys)) {b : Beam (Ext ℝ)} (h : Confined b) (hn : b.n = fin n) :
    ∃ b', runBeam ms b = .ok b' ∧ b'.n = fin (Sys.endIndex n (ms.map Mat.sys)) := by
  induction ms generalizing b n with
  | nil => exact ⟨b, rfl, hn⟩
  | cons m ms ih =>
    obtain ⟨h1, h2⟩ := hm
    obtain ⟨hf, hl, hd⟩ := hg m (by simp)
    have hc := h
    obtain ⟨q, wl, z, n', c, rfl, hq, hwl, hn'⟩ := h
    simp only [beamOf, fin.injEq] at hn
    subst hn
    subst h1
    have hnb : 0 < m.sys.nb := by
      have := hf.lawful.2.2
      rw [this] at hd
      exact (div_pos_iff_of_pos_left hn').1 hd
    have e1 := mulBeamBase_eq (z := z) (c := c) hf.den (Sys.denom_ne hd.ne' hq) hwl hnb
    rw [← mulBeam_linear hl] at e1
    obtain ⟨b', e2, e3⟩ := ih (fun m hm => hg m (by simp [hm])) h2 (Confined.step hf hl hd hc e1) rfl
    exact ⟨b', by rw [runBeam, e1]; exact e2, e3⟩

/-- **C39** for every system built by a program with positive indices, at any depth of nesting: a confined beam in the medium in front of the system can
always be traced, and leaves in the medium behind. -/
theorem C39_traced {p : Part ℝ} (hv : p.Valid) (hp : p.PosMedia) {e : Elem (Ext ℝ)} (hb : p.build = .ok e)
    (hc : e.Clean) {b : Beam (Ext ℝ)} (h : Confined b) (hn : b.n = e.mat.frontIndex) :
    ∃ t, e.traceBeam b = .ok t ∧ (t.getLast?.getD b).n = e.mat.backIndex := by
  obtain ⟨hg, -⟩ := build_good hv hb hc
  obtain ⟨h1, h2, h3⟩ := hg.flat
  have hden := hg.den
  obtain ⟨b', h4, h5⟩ := runBeam_confined (fun m hm => posMedia_leaf hv hp hb hc hm) h2 h (hn.trans hden.nf)
  have h6 := traceBeam_run e b
  rw [h4] at h6
  cases ht : e.traceBeam b with
  | error x => rw [ht] at h6; simp at h6
  | ok t =>
    rw [ht] at h6
    simp only [Except.ok.injEq] at h6
    refine ⟨t, rfl, ?_⟩
    rw [h6, h5, h3, hden.nb]

/-- **C39** for every system built by a program with positive indices, at any depth of nesting: all the beams of the trace of a
confined beam are confined (`isFinite`, and a finite positive size). -/
theorem C39_confined {p : Part ℝ} (hv : p.Valid) (hp : p.PosMedia) {e : Elem (Ext ℝ)} (hb : p.build = .ok e)
    (hc : e.Clean) {b : Beam (Ext ℝ)} (h : Confined b) {t : List (Beam (Ext ℝ))} (ht : e.traceBeam b = .ok t) :
    ∀ x ∈ t, x.isFinite = true ∧ ∃ w, x.w = .ok (fin w) ∧ 0 < w := fun x hx =>
  Confined.size (confined_trace hv hp hb hc h ht x hx)

/-- **C39**: the size of a confined beam is not changed by an element which does not change the height of rays (lenses,
mirrors, interfaces between different media, apertures). -/
theorem C39_thin {m : Mat (Ext ℝ)} {s : Sys ℝ} (h : Den m s) (hl : s.Lawful) (hk : m.Linear)
    (hthin : ∀ y θ, s.outY y θ = y) (hnb : 0 < s.nb) {b b' : Beam (Ext ℝ)} (hb : Confined b)
    (e : m.mulBeam b = .ok b') : b'.w = b.w := by
  obtain ⟨q, wl, z, n, c, rfl, hq, hwl, hn⟩ := hb
  rw [mulBeam_linear hk] at e
  obtain ⟨rfl, hd, -, c', rfl⟩ := mulBeamBase_ok h e
  have ha : s.a = 1 := by simpa [Sys.outY] using hthin 1 0
  have hb0 : s.b = 0 := by simpa [Sys.outY] using hthin 0 1
  have hdet : 0 < s.det := by rw [hl.2.2]; exact div_pos hn hnb
  have hsd : s.d = s.nf / s.nb := by
    have := hl.2.2
    simpa [Sys.det, ha, hb0] using this
  have hq0 := ne_zero_of_im hq
  have key : (-1 / s.bend q).im = s.nf / s.nb * (-1 / q).im := by
    have : -1 / s.bend q = -(s.c : ℂ) + ((s.nf / s.nb : ℝ) : ℂ) * (-1 / q) := by
      unfold Sys.bend
      rw [ha, hb0, ← hsd]
      simp only [Complex.ofReal_one, one_mul, Complex.ofReal_zero, add_zero]
      rw [div_div_eq_mul_div]
      field_simp
      ring
    rw [this, Complex.add_im, Complex.im_ofReal_mul]
    simp
  rw [show (beamOf (s.bend q) wl (s.len + z) s.nb c').w = _ from w_of (Sys.bend_pos hdet hq) hwl hnb _ _,
    show (beamOf q wl z s.nf c).w = _ from w_of hq hwl hn _ _]
  unfold beamSize
  rw [key]
  congr 4
  field_simp

/-- The elements of C39_thin: lenses, mirrors, interfaces and apertures do not change the height of rays. -/
example (f R n1 n2 k y θ : ℝ) : (Sys.lens f).outY y θ = y ∧ (Sys.mirror R).outY y θ = y ∧
    (Sys.interface n1 n2 k).outY y θ = y ∧ (Sys.one 1).outY y θ = y := by
  simp [Sys.outY, Sys.lens, Sys.mirror, Sys.interface, Sys.one]

/-! ## C40 -/

theorem qOf_eq {w n wl k : ℝ} {R : Ext ℝ} (hw : 0 < w) (hn : 0 < n) (hl : 0 < wl) (hR : pyDiv 1 R = .ok (fin k)) :
    Beam.qOf (fin w) R (fin n) (fin wl) =
      .ok (Cx.of (1 / (k - ((wl / n / (Real.pi * w * w) : ℝ) : ℂ) * Complex.I))) := by
  have hp := Real.pi_pos
  have e0 : Cx.mul ⟨0, 1⟩ (Cx.ofReal (fin wl)) = Cx.of (wl * Complex.I) := by
    simp [Cx.mul, Cx.ofReal, Cx.of]
  unfold Beam.qOf
  rw [hR]
  simp only [bind, Except.bind]
  rw [e0, Cx.ofReal_fin, Cx.div_of _ (by exact_mod_cast hn.ne')]
  dsimp only
  simp only [pi_eq, fin_mul_fin]
  rw [Cx.ofReal_fin, Cx.div_of _ (by exact_mod_cast (by positivity : Real.pi * w * w ≠ 0))]
  dsimp only
  have e1 : (wl * Complex.I / n / ((Real.pi * w * w : ℝ) : ℂ)) = ((wl / n / (Real.pi * w * w) : ℝ) : ℂ) * Complex.I := by
    push_cast
    ring
  rw [e1, Cx.ofReal_fin, Cx.sub_of, show Cx.ofReal (1 : Ext ℝ) = Cx.of 1 by rw [one_eq, Cx.ofReal_fin]; simp, Cx.div_of]
  intro h0
  have h1 : 0 < wl / n / (Real.pi * w * w) := by positivity
  have := congrArg Complex.im h0
  rw [Complex.sub_im, Complex.mul_im] at this
  simp only [Complex.ofReal_im, Complex.ofReal_re, Complex.I_im, Complex.I_re, Complex.zero_im] at this
  linarith

/-- **C40**: a beam made from its size and its radius of curvature (finite, or infinite) reports that size and that radius. -/
theorem C40_roundTrip {w n wl : ℝ} (hw : 0 < w) (hn : 0 < n) (hl : 0 < wl) (R : Option ℝ) (hR : ∀ r ∈ R, r ≠ 0)
    (z : Ext ℝ) : ∃ b, Beam.new none (some (fin w)) (optInf R) (fin n) (fin wl) z = .ok b ∧
      b.w = .ok (fin w) ∧ b.R = .ok (optInf R) := by
  have hp := Real.pi_pos
  obtain ⟨k, hk, hk'⟩ : ∃ k, pyDiv (1 : Ext ℝ) (optInf R) = .ok (fin k) ∧ k = curvature R := by
    cases R with
    | none => exact ⟨0, by rw [one_eq]; exact pyDiv_pinf 1, rfl⟩
    | some r => exact ⟨r⁻¹, by rw [one_eq, optInf, pyDiv_fin _ _ (hR r rfl)]; simp, rfl⟩
  set v : ℝ := wl / n / (Real.pi * w * w) with hv
  have hv0 : 0 < v := by positivity
  set q : ℂ := 1 / (k - (v : ℂ) * Complex.I) with hq
  have hne : (k - (v : ℂ) * Complex.I : ℂ) ≠ 0 := by
    intro h0
    have := congrArg Complex.im h0
    simp at this
    linarith
  have hinv : 1 / q = k - (v : ℂ) * Complex.I := by rw [hq, one_div_one_div]
  have hinv' : -1 / q = -(k - (v : ℂ) * Complex.I) := by rw [neg_div, hinv]
  have him : (-1 / q).im = v := by rw [hinv']; simp
  have hqim : 0 < q.im := im_neg_inv_pos.1 (by rw [him]; exact hv0)
  refine ⟨⟨Cx.of q, fin wl, z, fin n, false⟩, ?_, ?_, ?_⟩
  · simp only [Beam.new]
    rw [qOf_eq hw hn hl hk]
    rfl
  · rw [w_of hqim hl hn]
    unfold beamSize
    rw [him]
    congr 2
    have : wl / (n * Real.pi * v) = w ^ 2 := by
      rw [hv]
      field_simp
    rw [this, Real.sqrt_sq hw.le]
  · unfold Beam.R
    have h0 : (Cx.of q).isZero = false := by rw [← Bool.not_eq_true, Cx.isZero_of]; exact ne_zero_of_im hqim
    dsimp only
    rw [h0, show Cx.ofReal (1 : Ext ℝ) = Cx.of 1 by rw [one_eq, Cx.ofReal_fin]; simp, Cx.div_of _ (ne_zero_of_im hqim),
      hinv]
    have e : (k - (v : ℂ) * Complex.I).re = k := by simp
    simp only [Bool.false_eq_true, if_false, bind, Except.bind, Cx.of, e, zero_eq, eq_fin, decide_eq_true_eq]
    cases R with
    | none => simp [hk', curvature, pure, Except.pure, optInf]
    | some r =>
      have hr := hR r rfl
      have hk2 : k = r⁻¹ := hk'
      have hk0 : k ≠ 0 := by rw [hk2]; exact inv_ne_zero hr
      rw [if_neg hk0, one_eq, pyDiv_fin _ _ hk0]
      simp [optInf, hk2]

/-- **C40**: a beam given neither its complex radius nor its size is refused. -/
theorem C40_missing (R n wl z : Ext ℝ) : Beam.new none none R n wl z = .error .valueError := rfl

/-! ## C41 -/

/-- **C41**, for all media: propagating a confined beam over any distance `x` in its medium, the smallest size is
reached at `waistPosition` only, and it is the reported waist divided by the square root of the index. -/
theorem C41_waist_partial {q : ℂ} {wl n z : ℝ} {c : Bool} (hq : 0 < q.im) (hl : 0 < wl) (hn : 0 < n) :
    ∃ x0 wo, (beamOf q wl z n c).waistPosition = fin x0 ∧ (beamOf q wl z n c).wo = .ok (some (fin wo)) ∧ 0 < wo ∧
      ∀ x, ∃ m b w, mkSpace (fin x) (fin n) = .ok m ∧ m.mulBeam (beamOf q wl z n c) = .ok b ∧ b.w = .ok (fin w) ∧
        wo / Real.sqrt n ≤ w ∧ (w = wo / Real.sqrt n ↔ x = x0) := by
  have hp := Real.pi_pos
  refine ⟨-q.re, Real.sqrt (q.im * wl / Real.pi), rfl, ?_, Real.sqrt_pos.2 (by positivity), ?_⟩
  · unfold Beam.wo
    simp only [beamOf, Beam.zo, Cx.of, zero_eq, lt_fin, hq, decide_true, if_true, fin_mul_fin, pi_eq]
    rw [pyDiv_fin _ _ hp.ne']
    simp only [bind, Except.bind, pySqrt, zero_eq, lt_fin, sqrt_fin, decide_eq_true_eq]
    rw [if_neg (not_lt.2 (by positivity))]
    rfl
  · intro x
    have hden := spaceMat_den x n (pinf : Ext ℝ)
    have hbend : (Sys.space x n).bend q = q + x := by simp [Sys.bend, Sys.space]
    have him : 0 < (q + x : ℂ).im := by simpa using hq
    have step := mulBeamBase_eq hden (q := q) (wl := wl) (z := z) (c := c) (by simp [Sys.space]) hl hn
    rw [hbend] at step
    refine ⟨_, _, _, mkSpace_eq x hn.ne' diamOk_pinf, (mulBeam_linear (by intro a b h; cases h) _).trans step,
      w_of him hl hn _ _, ?_⟩
    have e1 : Real.sqrt (q.im * wl / Real.pi) / Real.sqrt n = Real.sqrt (q.im * wl / (n * Real.pi)) := by
      rw [← Real.sqrt_div (by positivity)]
      congr 1
      field_simp
    have e2 : (-1 / (q + x : ℂ)).im = q.im / ((q.re + x) ^ 2 + q.im ^ 2) := by
      rw [im_neg_inv, Complex.normSq_apply]
      simp
      ring
    have e3 : wl / (n * Real.pi * (-1 / (q + x : ℂ)).im) =
        q.im * wl / (n * Real.pi) + wl / (n * Real.pi * q.im) * (q.re + x) ^ 2 := by
      rw [e2]
      field_simp
      ring
    unfold beamSize
    rw [e1, e3]
    have hc1 : 0 < wl / (n * Real.pi * q.im) := by positivity
    constructor
    · apply Real.sqrt_le_sqrt
      have : 0 ≤ wl / (n * Real.pi * q.im) * (q.re + x) ^ 2 := by positivity
      linarith
    · rw [Real.sqrt_inj (by positivity) (by positivity)]
      constructor
      · intro h
        have h0 : wl / (n * Real.pi * q.im) * (q.re + x) ^ 2 = 0 := by linarith
        rcases mul_eq_zero.1 h0 with h | h
        · linarith
        · have := pow_eq_zero_iff (two_ne_zero) |>.1 h
          linarith
      · rintro rfl
        simp

/-- **C41** in air. -/
theorem C41_air {q : ℂ} {wl z : ℝ} {c : Bool} (hq : 0 < q.im) (hl : 0 < wl) :
    ∃ x0 wo, (beamOf q wl z 1 c).waistPosition = fin x0 ∧ (beamOf q wl z 1 c).wo = .ok (some (fin wo)) ∧ 0 < wo ∧
      ∀ x, ∃ m b w, mkSpace (fin x) (fin 1) = .ok m ∧ m.mulBeam (beamOf q wl z 1 c) = .ok b ∧ b.w = .ok (fin w) ∧
        wo ≤ w ∧ (w = wo ↔ x = x0) := by
  simpa using C41_waist_partial (z := z) (c := c) hq hl one_pos

/-- **C41** is violated in every medium of index larger than 1: the beam becomes smaller than its reported waist. -/
theorem C41_violated {q : ℂ} {wl n z : ℝ} {c : Bool} (hq : 0 < q.im) (hl : 0 < wl) (hn : 1 < n) :
    ∃ wo m b w x, (beamOf q wl z n c).wo = .ok (some (fin wo)) ∧ mkSpace (fin x) (fin n) = .ok m ∧
      m.mulBeam (beamOf q wl z n c) = .ok b ∧ b.w = .ok (fin w) ∧ w < wo := by
  obtain ⟨x0, wo, -, h1, h2, h3⟩ := C41_waist_partial (z := z) (c := c) hq hl (by linarith : 0 < n)
  obtain ⟨m, b, w, e1, e2, e3, -, e4⟩ := h3 x0
  refine ⟨wo, m, b, w, x0, h1, e1, e2, e3, ?_⟩
  rw [e4.2 rfl]
  have : 1 < Real.sqrt n := by rw [Real.lt_sqrt zero_le_one]; simpa using hn
  exact div_lt_self h2 this

/-! ## C42 -/

section Generic
variable {F : Type} [PyNum F] [PyMath F]

/-- **C42**, medium, for every element that is not an axicon and every beam (any numbers): the beam is refused with `RuntimeError`
iff it is not in the front medium; otherwise, if there is an output, it is in the back medium, further by the length of
the element, with the same wavelength. -/
theorem C42_medium {m : Mat F} (h : m.Linear) (b : Beam F) :
    (m.mulBeam b = .error .runtimeError ↔ (b.n ==. m.frontIndex) = false) ∧
    ∀ b', m.mulBeam b = .ok b' → b'.n = m.backIndex ∧ b'.z = m.L + b.z ∧ b'.wavelength = b.wavelength := by
  rw [mulBeam_linear h]
  unfold Mat.mulBeamBase
  have hdiv : ∀ x y : Cx F, Cx.div x y ≠ .error .runtimeError := by
    intro x y
    unfold Cx.div
    split_ifs <;> simp
  have hpd : ∀ x y : F, pyDiv x y ≠ .error .runtimeError := by
    intro x y
    unfold pyDiv
    split_ifs <;> simp
  have hw : ∀ b : Beam F, b.w ≠ .error .runtimeError := by
    intro b
    unfold Beam.w
    split_ifs
    · simp
    · simp only [bind, Except.bind]
      intro h
      split at h
      · next e he => exact hdiv _ _ (by simp only [Except.error.injEq] at h; rw [he, h])
      · split at h
        · next e he => exact hpd _ _ (by simp only [Except.error.injEq] at h; rw [he, h])
        · split at h
          · next e he => exact hpd _ _ (by simp only [Except.error.injEq] at h; rw [he, h])
          · unfold pySqrt at h
            split_ifs at h <;> simp at h
  constructor
  · split_ifs with hn
    · simpa using hn
    · simp only [Bool.not_eq_true', Bool.not_eq_false] at hn
      simp only [hn, Bool.true_eq_false, iff_false]
      intro h
      simp only [bind, Except.bind] at h
      split at h
      · next e he => exact hdiv _ _ (by simp only [Except.error.injEq] at h; rw [he, h])
      · split at h
        · next e he => exact hw _ (by simp only [Except.error.injEq] at h; rw [he, h])
        · simp [pure, Except.pure] at h
  · intro b' hb'
    split_ifs at hb' with hn
    simp only [bind, Except.bind] at hb'
    split at hb'
    · simp at hb'
    · split at hb'
      · simp at hb'
      · simp only [pure, Except.pure, Except.ok.injEq] at hb'
        subst hb'
        exact ⟨rfl, rfl, rfl⟩

/-- **C42**: axicons refuse beams. -/
theorem C42_axicon {m : Mat F} {n alpha : F} (h : m.kind = .axicon n alpha) (b : Beam F) :
    m.mulBeam b = .error .typeError := by
  unfold Mat.mulBeam
  rw [h]

theorem mulBeam_clip {m : Mat F} {b b' : Beam F} (hb : m.mulBeam b = .ok b') :
    ∃ w, b'.w = .ok w ∧ (b'.isClipped = true ↔ b.isClipped = true ∨ (half m.apertureDiameter <. PyNum.abs w) = true) := by
  have hb : m.mulBeamBase b = .ok b' := by
    unfold Mat.mulBeam at hb
    split at hb
    · cases hb
    · exact hb
  unfold Mat.mulBeamBase at hb
  split_ifs at hb with hn
  simp only [bind, Except.bind] at hb
  split at hb
  · simp at hb
  · split at hb
    · simp at hb
    · next w hw =>
      simp only [pure, Except.pure, Except.ok.injEq] at hb
      subst hb
      refine ⟨w, hw, ?_⟩
      dsimp only
      split_ifs with h <;> simp [h]

/-- **C42**, clipping, for every chain of elements and every beam (any numbers): the beam after the chain is marked clipped iff it was marked
before, or its size after one of the elements exceeded half of the diameter of that element. -/
theorem C42_clipping (ms : List (Mat F)) (b b' : Beam F) (hb : runBeam ms b = .ok b') :
    b'.isClipped = true ↔ b.isClipped = true ∨ ∃ i m x w, ms[i]? = some m ∧ runBeam (ms.take (i + 1)) b = .ok x ∧
      x.w = .ok w ∧ (half m.apertureDiameter <. PyNum.abs w) = true := by
  induction ms generalizing b with
  | nil =>
    simp only [runBeam, Except.ok.injEq] at hb
    subst hb
    simp
  | cons m ms ih =>
    simp only [runBeam] at hb
    cases h1 : m.mulBeam b with
    | error x => rw [h1] at hb; simp at hb
    | ok b1 =>
      rw [h1] at hb
      dsimp only at hb
      obtain ⟨w, hw, hc⟩ := mulBeam_clip h1
      rw [ih b1 hb, hc]
      constructor
      · rintro ((h | h) | ⟨i, m', x, w', e1, e2, e3, e4⟩)
        · exact .inl h
        · refine .inr ⟨0, m, b1, w, rfl, ?_, hw, h⟩
          simp [runBeam, h1]
        · refine .inr ⟨i + 1, m', x, w', by simpa using e1, ?_, e3, e4⟩
          simp only [List.take_succ_cons, runBeam, h1]
          exact e2
      · rintro (h | ⟨i, m', x, w', e1, e2, e3, e4⟩)
        · exact .inl (.inl h)
        · cases i with
          | zero =>
            simp only [List.getElem?_cons_zero, Option.some.injEq] at e1
            subst e1
            simp only [zero_add, List.take_succ_cons, List.take_zero, runBeam, h1, Except.ok.injEq] at e2
            subst e2
            rw [hw] at e3
            simp only [Except.ok.injEq] at e3
            subst e3
            exact .inl (.inr e4)
          | succ i =>
            refine .inr ⟨i, m', x, w', by simpa using e1, ?_, e3, e4⟩
            simpa only [List.take_succ_cons, runBeam, h1] using e2

/-- **C42**: tracing a beam through any element (a group at any depth of nesting) is going through its single elements in order. -/
theorem C42_trace (e : Elem F) (b : Beam F) : e.traceThroughBeam b = runBeam (leaves e.items) b :=
  traceThroughBeam_run e b

end Generic

/-! ## C43 -/

/-- a square root of a real number -/
noncomputable def rootOf (x : ℝ) : ℂ := if x < 0 then Real.sqrt (-x) * Complex.I else Real.sqrt x

theorem rootOf_sq (x : ℝ) : rootOf x * rootOf x = x := by
  unfold rootOf
  split_ifs with h
  · have h1 : Real.sqrt (-x) * Real.sqrt (-x) = -x := Real.mul_self_sqrt (by linarith)
    have h2 : ((Real.sqrt (-x) : ℝ) : ℂ) * ((Real.sqrt (-x) : ℝ) : ℂ) = -x := by exact_mod_cast h1
    linear_combination (Complex.I * Complex.I) * h2 - (x : ℂ) * Complex.I_mul_I
  · exact_mod_cast Real.mul_self_sqrt (not_lt.1 h)

theorem cmathSqrt_eq (x : ℝ) : cmathSqrt (fin x) = Cx.of (rootOf x) := by
  unfold cmathSqrt rootOf
  by_cases h : x < 0
  · simp [h, Cx.of]
  · simp [h, Cx.of]

/-- the discriminant of the equation of the modes -/
def modeDelta (s : Sys ℝ) : ℝ := (s.d - s.a) * (s.d - s.a) - 4 * s.c * (-s.b)
/-- the complex radii of the modes -/
noncomputable def mode1 (s : Sys ℝ) : ℂ := (-(s.d - s.a : ℝ) + rootOf (modeDelta s)) / (2 * s.c : ℝ)
/-- the complex radii of the modes -/
noncomputable def mode2 (s : Sys ℝ) : ℂ := (-(s.d - s.a : ℝ) - rootOf (modeDelta s)) / (2 * s.c : ℝ)
/-- the default wavelength -/
noncomputable def helium : ℝ := 6328 / 10000000

theorem mode_vieta {s : Sys ℝ} (hc : s.c ≠ 0) (q : ℂ) :
    (s.c * q * q + (s.d - s.a) * q - s.b : ℂ) = s.c * (q - mode1 s) * (q - mode2 s) := by
  have hc' : (s.c : ℂ) ≠ 0 := by exact_mod_cast hc
  have h2 : ((2 * s.c : ℝ) : ℂ) ≠ 0 := by push_cast; exact mul_ne_zero two_ne_zero hc'
  have e1 : mode1 s * ((2 * s.c : ℝ) : ℂ) = -(s.d - s.a : ℝ) + rootOf (modeDelta s) := div_mul_cancel₀ _ h2
  have e2 : mode2 s * ((2 * s.c : ℝ) : ℂ) = -(s.d - s.a : ℝ) - rootOf (modeDelta s) := div_mul_cancel₀ _ h2
  have hr := rootOf_sq (modeDelta s)
  generalize mode1 s = q1 at *
  generalize mode2 s = q2 at *
  generalize rootOf (modeDelta s) = r at *
  unfold modeDelta at hr
  push_cast at e1 e2 hr
  have s1 : (s.c : ℂ) * (q1 + q2) = -(s.d - s.a) := by linear_combination (1 / 2 : ℂ) * e1 + (1 / 2 : ℂ) * e2
  have s2 : (s.c : ℂ) * (s.c * (q1 * q2)) = s.c * (-s.b) := by
    linear_combination (1 / 4 : ℂ) * (q2 * 2 * s.c) * e1 + (1 / 4 : ℂ) * (-(s.d - s.a) + r) * e2 - (1 / 4 : ℂ) * hr
  have s3 := mul_left_cancel₀ hc' s2
  linear_combination q * s1 - s3

theorem eigenModes_eq {m : Mat (Ext ℝ)} {s : Sys ℝ} (h : Den m s) (hc : 1 / 100000 < |s.c|) :
    m.eigenModes = .ok (some (beamOf (mode1 s) helium 0 1 false, beamOf (mode2 s) helium 0 1 false)) := by
  have h2 : ((2 * s.c : ℝ) : ℂ) ≠ 0 := by
    push_cast; exact mul_ne_zero two_ne_zero (by exact_mod_cast power_ne hc)
  unfold Mat.eigenModes
  rw [hasPower_den h, decide_eq_true hc]
  simp only [Bool.not_true, Bool.false_eq_true, if_false, h.A, h.B, h.C, h.D, ofNat_eq, fin_sub_fin, fin_mul_fin, neg_fin,
    cmathSqrt_eq, Cx.ofReal_fin, Cx.add_of, Cx.sub_of]
  rw [Cx.div_of _ h2, Cx.div_of _ h2]
  have ew : (Beam.defaultWavelength : Ext ℝ) = fin helium := by
    rw [Beam.defaultWavelength, lit_eq]; congr 1; unfold helium; norm_num
  simp only [bind, Except.bind, Beam.new, ew, pure, Except.pure, beamOf, mode1, mode2, modeDelta, zero_eq, one_eq]
  push_cast
  rfl

theorem helium_pos : 0 < helium := by unfold helium; norm_num

/-- **C43**: the two modes of a cavity with power (|C| over the threshold 1e-5 of the code) are the two solutions of `(A q + B) = q (C q + D)`. -/
theorem C43_solutions {m : Mat (Ext ℝ)} {s : Sys ℝ} (h : Den m s) (hc : 1 / 100000 < |s.c|) :
    ∃ b1 b2 q1 q2, m.eigenModes = .ok (some (b1, b2)) ∧ b1.q = Cx.of q1 ∧ b2.q = Cx.of q2 ∧
      ∀ q : ℂ, s.a * q + s.b = q * (s.c * q + s.d) ↔ q = q1 ∨ q = q2 := by
  refine ⟨_, _, mode1 s, mode2 s, eigenModes_eq h hc, rfl, rfl, fun q => ?_⟩
  have hc' : (s.c : ℂ) ≠ 0 := by exact_mod_cast power_ne hc
  have := mode_vieta (power_ne hc) q
  constructor
  · intro e
    have e0 : (s.c : ℂ) * (q - mode1 s) * (q - mode2 s) = 0 := by rw [← this]; linear_combination -e
    rcases mul_eq_zero.1 e0 with h | h
    · rcases mul_eq_zero.1 h with h | h
      · exact absurd h hc'
      · exact .inl (sub_eq_zero.1 h)
    · exact .inr (sub_eq_zero.1 h)
  · intro e
    have e0 : (s.c : ℂ) * (q - mode1 s) * (q - mode2 s) = 0 := by
      rcases e with rfl | rfl <;> simp
    rw [e0] at this
    linear_combination -this

theorem fixed_denom {s : Sys ℝ} (hdet : s.det ≠ 0) (hc : s.c ≠ 0) {q : ℂ} (h : (s.a * q + s.b : ℂ) = q * (s.c * q + s.d)) :
    (s.c * q + s.d : ℂ) ≠ 0 ∧ s.bend q = q := by
  have hne : (s.c * q + s.d : ℂ) ≠ 0 := by
    intro h0
    rw [h0, mul_zero] at h
    have hc' : (s.c : ℂ) ≠ 0 := by exact_mod_cast hc
    have : ((s.det : ℝ) : ℂ) = 0 := by
      unfold Sys.det
      push_cast
      linear_combination (s.a : ℂ) * h0 - (s.c : ℂ) * h
    exact hdet (by exact_mod_cast this)
  exact ⟨hne, by rw [Sys.bend, h, mul_div_cancel_right₀ _ hne]⟩

/-- **C43**: each mode of a cavity with power and air in front comes out of the cavity with the same complex radius. -/
theorem C43_fixed_partial {m : Mat (Ext ℝ)} {s : Sys ℝ} (h : Den m s) (hk : m.Linear) (hc : 1 / 100000 < |s.c|)
    (hdet : s.det ≠ 0) (hf : s.nf = 1) (hb : 0 < s.nb) :
    ∃ b1 b2 b1' b2', m.eigenModes = .ok (some (b1, b2)) ∧ m.mulBeam b1 = .ok b1' ∧ m.mulBeam b2 = .ok b2' ∧
      b1'.q = b1.q ∧ b2'.q = b2.q := by
  have key : ∀ q, q = mode1 s ∨ q = mode2 s → ∃ b', m.mulBeam (beamOf q helium 0 1 false) = .ok b' ∧
      b'.q = Cx.of q := by
    intro q hq
    obtain ⟨b1, b2, q1, q2, e1, e2, e3, e4⟩ := C43_solutions h hc
    rw [eigenModes_eq h hc] at e1
    simp only [Except.ok.injEq, Option.some.injEq, Prod.mk.injEq] at e1
    rw [← e1.1] at e2
    rw [← e1.2] at e3
    have e2 := Cx.of_inj.1 e2
    have e3 := Cx.of_inj.1 e3
    rw [← e2, ← e3] at e4
    obtain ⟨d1, d2⟩ := fixed_denom hdet (power_ne hc) ((e4 q).2 hq)
    have := mulBeamBase_eq h (z := 0) (c := false) d1 helium_pos hb
    rw [hf, d2, ← mulBeam_linear hk] at this
    exact ⟨_, this, rfl⟩
  obtain ⟨b1', e1, f1⟩ := key _ (.inl rfl)
  obtain ⟨b2', e2, f2⟩ := key _ (.inr rfl)
  exact ⟨_, _, b1', b2', eigenModes_eq h hc, e1, e2, f1, f2⟩

/-- **C43** is violated when the front medium of the cavity is not air: its modes, which are in air, cannot be sent into it. -/
theorem C43_violated {m : Mat (Ext ℝ)} {s : Sys ℝ} (h : Den m s) (hk : m.Linear) (hc : 1 / 100000 < |s.c|)
    (hf : s.nf ≠ 1) : ∃ b1 b2, m.eigenModes = .ok (some (b1, b2)) ∧ m.mulBeam b1 = .error .runtimeError ∧
      m.mulBeam b2 = .error .runtimeError := by
  refine ⟨_, _, eigenModes_eq h hc, ?_, ?_⟩ <;>
  · rw [(C42_medium hk _).1, h.nf]
    simp [beamOf, hf.symm]

/-- **C43**: the laser modes are exactly the modes that are confined (none without power). -/
theorem C43_laserModes (m : Mat (Ext ℝ)) {b1 b2 : Beam (Ext ℝ)} (h : m.eigenModes = .ok (some (b1, b2))) :
    m.laserModes = .ok ([b1, b2].filter (fun b => b.isFinite)) := by
  unfold Mat.laserModes
  rw [h]
  simp only [bind, Except.bind, pure, Except.pure, Except.ok.injEq, List.filter]
  cases b1.isFinite <;> cases b2.isFinite <;> rfl

/-- **C43**: `isFinite` holds exactly for positive imaginary parts, where the size is a positive number; otherwise it is infinite. -/
theorem C43_confined (q : ℂ) {wl n : ℝ} (z : ℝ) (c : Bool) (hl : 0 < wl) (hn : 0 < n) :
    ((beamOf q wl z n c).isFinite = true ↔ 0 < q.im) ∧
    ((beamOf q wl z n c).isFinite = true → ∃ w, (beamOf q wl z n c).w = .ok (fin w) ∧ 0 < w) ∧
    ((beamOf q wl z n c).isFinite = false → (beamOf q wl z n c).w = .ok pinf) := by
  have h0 := isFinite_of q (fin wl) (fin z) (fin n) c
  refine ⟨h0, fun h => ⟨_, w_of (h0.1 h) hl hn _ _, beamSize_pos (h0.1 h) hl hn⟩, fun h => w_infinite ?_ _ _ _ _⟩
  intro h'
  have := h0.2 h'
  unfold beamOf at h
  rw [h] at this
  cases this

/-- **C43** for cavities built by a program: every laser mode, traced through all elements, comes back with the
same complex radius. -/
theorem C43_roundTrip {p : Part ℝ} (hv : p.Valid) (hp : p.PosMedia) {e : Elem (Ext ℝ)} (hb : p.build = .ok e)
    (hcl : e.Clean) (hf : e.mat.frontIndex = fin 1) (hc : 1 / 100000 < |e.mat.sys.c|) {modes : List (Beam (Ext ℝ))}
    (hm : e.mat.laserModes = .ok modes) : ∀ b ∈ modes, ∃ b', e.traceThroughBeam b = .ok b' ∧ b'.q = b.q := by
  obtain ⟨hg, -⟩ := build_good hv hb hcl
  obtain ⟨hs, -, -⟩ := build_sound hb
  have hden := hg.den
  have hnf : e.mat.sys.nf = 1 := by
    have := hden.nf
    rw [hf] at this
    simpa using this.symm
  intro b hbm
  rw [C43_laserModes _ (eigenModes_eq hden hc)] at hm
  simp only [Except.ok.injEq] at hm
  rw [← hm, List.mem_filter] at hbm
  obtain ⟨hb1, hb2⟩ := hbm
  have hq : ∃ q, b = beamOf q helium 0 1 false ∧ (q = mode1 e.mat.sys ∨ q = mode2 e.mat.sys) := by
    simp only [List.mem_cons, List.not_mem_nil, or_false] at hb1
    rcases hb1 with rfl | rfl
    · exact ⟨_, rfl, .inl rfl⟩
    · exact ⟨_, rfl, .inr rfl⟩
  obtain ⟨q, rfl, hq⟩ := hq
  have him : 0 < q.im := (isFinite_of q _ _ _ _).1 hb2
  obtain ⟨n', c1, c2, t1, t2, t3⟩ := C38_trace hv hp hb hcl one_pos hf him helium_pos 0 false
  refine ⟨_, t2, ?_⟩
  obtain ⟨b1, b2, q1, q2, e1, e2, e3, e4⟩ := C43_solutions hden hc
  rw [eigenModes_eq hden hc] at e1
  simp only [Except.ok.injEq, Option.some.injEq, Prod.mk.injEq] at e1
  rw [← e1.1] at e2
  rw [← e1.2] at e3
  have e2 := Cx.of_inj.1 e2
  have e3 := Cx.of_inj.1 e3
  rw [← e2, ← e3] at e4
  have t3' := t3
  rw [mulBeam_linear (Elem.linear_mat hg hs)] at t3'
  obtain ⟨-, d0, -, c', t4⟩ := mulBeamBase_ok hden t3'
  have t5 := congrArg Beam.q t4
  simp only [beamOf] at t5
  have t6 := Cx.of_inj.1 t5
  simp only [beamOf]
  rw [t6, Sys.bend, (e4 q).2 hq, mul_div_cancel_right₀ _ d0]

/-! ## C44 -/

theorem mode_im (s : Sys ℝ) : (mode1 s).im = (rootOf (modeDelta s)).im / (2 * s.c) ∧
    (mode2 s).im = -(rootOf (modeDelta s)).im / (2 * s.c) := by
  have h : ∀ (z : ℂ) (x : ℝ), (z / (x : ℂ)).im = z.im / x := fun z x => by simp
  constructor
  · unfold mode1
    rw [h]
    simp
  · unfold mode2
    rw [h]
    simp

theorem delta_det {s : Sys ℝ} (h : s.det = 1) : modeDelta s < 0 ↔ |s.a + s.d| < 2 := by
  unfold Sys.det at h
  have e : modeDelta s = (s.a + s.d) ^ 2 - 2 ^ 2 := by
    unfold modeDelta
    linear_combination (-4) * h
  rw [e, sub_neg, sq_lt_sq, abs_two]

/-- **C44**, for every cavity of unit determinant and with power (|C| over the threshold 1e-5 of the code): it is reported stable iff |A + D| < 2,
and there is then exactly one laser mode; otherwise there is none. -/
theorem C44_stable_partial {m : Mat (Ext ℝ)} {s : Sys ℝ} (h : Den m s) (hc : 1 / 100000 < |s.c|) (hdet : s.det = 1) :
    ∃ modes, m.laserModes = .ok modes ∧ m.isStable = .ok (decide (|s.a + s.d| < 2)) ∧
      modes.length = if |s.a + s.d| < 2 then 1 else 0 := by
  have hl := C43_laserModes _ (eigenModes_eq h hc)
  refine ⟨_, hl, ?_⟩
  have hst : m.isStable = .ok (decide (0 < ([beamOf (mode1 s) helium 0 1 false, beamOf (mode2 s) helium 0 1 false].filter
      (fun b => b.isFinite)).length)) := by
    unfold Mat.isStable
    rw [hl]
    rfl
  rw [hst]
  suffices hlen : ([beamOf (mode1 s) helium 0 1 false, beamOf (mode2 s) helium 0 1 false].filter
      (fun b => b.isFinite)).length = if |s.a + s.d| < 2 then 1 else 0 by
    refine ⟨?_, hlen⟩
    rw [hlen]
    split_ifs with h <;> simp [h]
  have f1 := isFinite_of (mode1 s) (fin helium) (fin 0) (fin 1) false
  have f2 := isFinite_of (mode2 s) (fin helium) (fin 0) (fin 1) false
  rw [(mode_im s).1] at f1
  rw [(mode_im s).2] at f2
  change (beamOf (mode1 s) helium 0 1 false).isFinite = true ↔ _ at f1
  change (beamOf (mode2 s) helium 0 1 false).isFinite = true ↔ _ at f2
  have hc0 := power_ne hc
  by_cases hd : modeDelta s < 0
  · rw [if_pos ((delta_det hdet).1 hd)]
    have hr : 0 < (rootOf (modeDelta s)).im := by
      unfold rootOf
      rw [if_pos hd]
      simpa using hd
    rcases lt_or_gt_of_ne hc0 with hc1 | hc1
    · have g1 : (beamOf (mode1 s) helium 0 1 false).isFinite = false := by
        rw [← Bool.not_eq_true, f1, not_lt]
        exact (div_neg_of_pos_of_neg hr (by linarith)).le
      have g2 := f2.2 (div_pos_of_neg_of_neg (by linarith) (by linarith))
      simp [List.filter, g1, g2]
    · have g1 := f1.2 (div_pos hr (by linarith))
      have g2 : (beamOf (mode2 s) helium 0 1 false).isFinite = false := by
        rw [← Bool.not_eq_true, f2, not_lt]
        exact (div_neg_of_neg_of_pos (by linarith) (by linarith)).le
      simp [List.filter, g1, g2]
  · rw [if_neg (fun h => hd ((delta_det hdet).2 h))]
    have hr : (rootOf (modeDelta s)).im = 0 := by
      unfold rootOf
      rw [if_neg hd]
      simp
    rw [hr] at f1 f2
    have g1 : (beamOf (mode1 s) helium 0 1 false).isFinite = false := by
      rw [← Bool.not_eq_true, f1]; simp
    have g2 : (beamOf (mode2 s) helium 0 1 false).isFinite = false := by
      rw [← Bool.not_eq_true, f2]; simp
    simp [List.filter, g1, g2]

/-- Below the threshold there is no mode and the cavity is reported not stable, whatever A + D is. -/
theorem C44_noPower {m : Mat (Ext ℝ)} {s : Sys ℝ} (h : Den m s) (hc : |s.c| ≤ 1 / 100000) :
    m.laserModes = .ok [] ∧ m.isStable = .ok false := by
  have e : m.eigenModes = .ok none := by
    unfold Mat.eigenModes
    rw [hasPower_den h, decide_eq_false (not_lt.2 hc)]
    rfl
  have e1 : m.laserModes = .ok [] := by
    unfold Mat.laserModes
    rw [e]
    rfl
  refine ⟨e1, ?_⟩
  unfold Mat.isStable
  rw [e1]
  rfl

/-- the ring of a space and a lens: determinant 1 -/
theorem ring_den {d f : ℝ} (hf : f ≠ 0) : ∃ m1 m2 m s, mkSpace (fin d) (fin (1 : ℝ)) = .ok m1 ∧ mkLens (fin f) = .ok m2 ∧
    m2.mulMatrix m1 = .ok m ∧ Den m s ∧ m.Linear ∧ s = ⟨1, d, -1 / f, 1 - d / f, d, 1, 1⟩ := by
  have d1 := spaceMat_den d 1 (pinf : Ext ℝ)
  have d2 := lensMat_den f (pinf : Ext ℝ)
  have l1 := Sys.space_lawful d (one_ne_zero (α := ℝ))
  have l2 := Sys.lens_lawful f
  refine ⟨_, _, _, _, mkSpace_eq d one_ne_zero diamOk_pinf, mkLens_eq hf diamOk_pinf, mulMatrix_matched d2 d1 l2 l1 rfl,
    mulRaw_den_matched d2 d1 l2 l1 rfl, ?_, ?_⟩
  · intro n a hk
    simp [Mat.mulRaw, Mat.one] at hk
  · simp [Sys.andThen, Sys.space, Sys.lens]
    ring

/-- **C44** is violated: a ring of length 1 closed by a lens of focal length 200000 has |A + D| < 2 and unit determinant, and is
reported not stable. -/
theorem C44_violated : ∃ (m1 m2 m : Mat (Ext ℝ)) (s : Sys ℝ), mkSpace (fin 1) (fin 1) = .ok m1 ∧
    mkLens (fin 200000) = .ok m2 ∧ m2.mulMatrix m1 = .ok m ∧ Den m s ∧ s.det = 1 ∧ |s.a + s.d| < 2 ∧
      m.isStable = .ok false := by
  obtain ⟨m1, m2, m, s, e1, e2, e3, e4, -, e5⟩ := ring_den (d := 1) (f := 200000) (by norm_num)
  refine ⟨m1, m2, m, s, e1, e2, e3, e4, ?_, ?_, (C44_noPower e4 ?_).2⟩ <;> rw [e5]
  · norm_num [Sys.det]
  · norm_num [abs_lt]
  · norm_num [abs_le]

/-- The hypotheses of C43 and C44 hold for a ring of length 10 closed by a lens of focal length 20, which is stable. -/
example : ∃ (m1 m2 m : Mat (Ext ℝ)), mkSpace (fin 10) (fin 1) = .ok m1 ∧ mkLens (fin 20) = .ok m2 ∧
    m2.mulMatrix m1 = .ok m ∧ m.isStable = .ok true ∧
    ∃ b1 b2 b1' b2', m.eigenModes = .ok (some (b1, b2)) ∧ m.mulBeam b1 = .ok b1' ∧ m.mulBeam b2 = .ok b2' ∧
      b1'.q = b1.q ∧ b2'.q = b2.q := by
  obtain ⟨m1, m2, m, s, e1, e2, e3, e4, e5, e6⟩ := ring_den (d := 10) (f := 20) (by norm_num)
  have hc : 1 / 100000 < |s.c| := by rw [e6]; norm_num [lt_abs]
  have hd : s.det = 1 := by rw [e6]; norm_num [Sys.det]
  refine ⟨m1, m2, m, e1, e2, e3, ?_, C43_fixed_partial e4 e5 hc (by rw [hd]; exact one_ne_zero) (by rw [e6])
    (by rw [e6]; exact one_pos)⟩
  obtain ⟨modes, -, h2, -⟩ := C44_stable_partial e4 hc hd
  rw [h2, decide_eq_true]
  rw [e6]
  norm_num [abs_lt]

/-- The hypotheses of C38_trace, C39 and C43_roundTrip hold for the group of a space, a lens of diameter 5 and a space. -/
example : ∃ e, (Part.group "" [.space (10 : ℝ) 1 none, .lens 20 (some 5), .space 3 1 none]).build = .ok e ∧ e.Clean ∧
    (Part.group "" [.space (10 : ℝ) 1 none, .lens 20 (some 5), .space 3 1 none]).Valid ∧
    (Part.group "" [.space (10 : ℝ) 1 none, .lens 20 (some 5), .space 3 1 none]).PosMedia := by
  obtain ⟨e, h1, h2, h3⟩ := simple_group (K := ℝ) (ps := [.space (10 : ℝ) 1 none, .lens 20 (some 5), .space 3 1 none]) (by
    intro p hp
    simp only [List.mem_cons, List.not_mem_nil, or_false] at hp
    rcases hp with rfl | rfl | rfl
    · exact .space _ _ diamOk_pinf
    · exact .lens _ (by norm_num) (by simp [DiamOk, optInf])
    · exact .space _ _ diamOk_pinf) ""
  exact ⟨e, h1, h2, h3, by simp [Part.PosMedia, Part.PosMediaList]⟩

end RT
