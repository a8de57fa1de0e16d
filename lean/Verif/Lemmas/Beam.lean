import Verif.Model.Beam
import Verif.Spec.Beam
import Verif.Lemmas.Conjugates

/-! # Beams of the model and complex radii -/

set_option linter.unusedSectionVars false

namespace RT
open PyNum Ext

/-- The functions of the module `math` on exact real numbers. -/
noncomputable instance : PyMath (Ext ℝ) where
  sqrt
    | fin x => fin (Real.sqrt x)
    | pinf => pinf
    | ninf => nan
    | nan => nan
  pi := fin Real.pi

@[simp] theorem sqrt_fin (x : ℝ) : PyMath.sqrt (fin x) = fin (Real.sqrt x) := rfl
@[simp] theorem pi_eq : (PyMath.pi : Ext ℝ) = fin Real.pi := rfl

namespace Cx

/-- the Python value of a complex number -/
def of (q : ℂ) : Cx (Ext ℝ) := ⟨fin q.re, fin q.im⟩

theorem of_inj {p q : ℂ} : of p = of q ↔ p = q := by
  simp [of, Complex.ext_iff]

theorem ofReal_fin (x : ℝ) : ofReal (fin x) = of (x : ℂ) := by simp [ofReal, of]
theorem add_of (p q : ℂ) : add (of p) (of q) = of (p + q) := by simp [add, of]
theorem sub_of (p q : ℂ) : sub (of p) (of q) = of (p - q) := by simp [sub, of]
theorem mul_of (p q : ℂ) : mul (of p) (of q) = of (p * q) := by simp [mul, of]
theorem isZero_of (q : ℂ) : (of q).isZero = true ↔ q = 0 := by
  simp [isZero, of, Complex.ext_iff]

theorem div_of (p : ℂ) {q : ℂ} (h : q ≠ 0) : div (of p) (of q) = .ok (of (p / q)) := by
  have hn : q.re * q.re + q.im * q.im ≠ 0 := by
    rw [← Complex.normSq_apply]; exact fun e => h (Complex.normSq_eq_zero.1 e)
  unfold div
  simp only [of, abs_fin, le_fin, zero_eq, eq_fin, decide_eq_true_eq, rawDiv_fin, fin_mul_fin, fin_add_fin, fin_sub_fin]
  by_cases hle : |q.im| ≤ |q.re|
  · have hre : q.re ≠ 0 := by
      intro e
      rw [e, abs_zero] at hle
      have := abs_nonpos_iff.1 hle
      exact h (Complex.ext e this)
    rw [if_pos hle, if_neg hre]
    have hd : q.re + q.im * (q.im / q.re) ≠ 0 := by
      intro e
      apply hn
      field_simp at e
      nlinarith [e]
    simp only [Except.ok.injEq, Cx.mk.injEq, fin.injEq, Complex.div_re, Complex.div_im, Complex.normSq_apply]
    constructor <;> field_simp
  · have him : q.im ≠ 0 := by
      intro e
      rw [e, abs_zero] at hle
      exact hle (abs_nonneg _)
    rw [if_neg hle, if_pos (le_of_not_ge hle)]
    have hd : q.re * (q.re / q.im) + q.im ≠ 0 := by
      intro e
      apply hn
      field_simp at e
      nlinarith [e]
    simp only [Except.ok.injEq, Cx.mk.injEq, fin.injEq, Complex.div_re, Complex.div_im, Complex.normSq_apply]
    constructor <;> (field_simp; try ring)

theorem div_zero (p : ℂ) : div (of p) (of 0) = .error .zeroDivisionError := by
  unfold div
  simp [of]

end Cx

theorem im_neg_inv (q : ℂ) : (-1 / q).im = q.im / Complex.normSq q := by
  rw [Complex.div_im]
  simp
  ring

theorem im_neg_inv_pos {q : ℂ} : 0 < (-1 / q).im ↔ 0 < q.im := by
  rw [im_neg_inv]
  constructor
  · intro h
    by_contra h'
    have := div_nonpos_of_nonpos_of_nonneg (not_lt.1 h') (Complex.normSq_nonneg q)
    linarith
  · intro h
    refine div_pos h (Complex.normSq_pos.2 ?_)
    rintro rfl
    simp at h

theorem ne_zero_of_im {q : ℂ} (h : 0 < q.im) : q ≠ 0 := by rintro rfl; simp at h

/-- a beam with finite attributes -/
def beamOf (q : ℂ) (wl z n : ℝ) (c : Bool) : Beam (Ext ℝ) := ⟨Cx.of q, fin wl, fin z, fin n, c⟩

theorem isFinite_of (q : ℂ) (wl z n : Ext ℝ) (c : Bool) :
    (Beam.mk (Cx.of q) wl z n c).isFinite = true ↔ 0 < q.im := by
  unfold Beam.isFinite
  by_cases h : q = 0
  · subst h
    simp [(Cx.isZero_of 0).2 rfl]
  · have h0 : (Cx.of q).isZero = false := by rw [← Bool.not_eq_true, Cx.isZero_of]; exact h
    have e : Cx.ofReal (-1) = Cx.of (-1) := by
      rw [one_eq, neg_fin, Cx.ofReal_fin]; norm_num
    dsimp only
    rw [h0, e, Cx.div_of _ h]
    simp only [Bool.false_eq_true, if_false, Cx.of, zero_eq, lt_fin, decide_eq_true_eq]
    exact im_neg_inv_pos

theorem w_of {q : ℂ} {wl n : ℝ} (hq : 0 < q.im) (hl : 0 < wl) (hn : 0 < n) (z : Ext ℝ) (c : Bool) :
    (Beam.mk (Cx.of q) (fin wl) z (fin n) c).w = .ok (fin (beamSize wl n q)) := by
  unfold Beam.w
  rw [(isFinite_of q _ _ _ _).2 hq]
  have e : Cx.ofReal (-1) = Cx.of (-1) := by
    rw [one_eq, neg_fin, Cx.ofReal_fin]; norm_num
  have hi := im_neg_inv_pos.2 hq
  have hp : Real.pi * (-1 / q).im ≠ 0 := (mul_pos Real.pi_pos hi).ne'
  dsimp only
  rw [e, Cx.div_of _ (ne_zero_of_im hq)]
  simp only [Bool.not_true, Bool.false_eq_true, if_false, bind, Except.bind, Cx.of]
  rw [pyDiv_fin _ _ hn.ne']
  simp only [pi_eq, fin_mul_fin]
  rw [pyDiv_fin _ _ hp]
  simp only [pySqrt, zero_eq, lt_fin, sqrt_fin, decide_eq_true_eq]
  rw [if_neg (not_lt.2 (by have := Real.pi_pos; positivity))]
  rw [beamSize, div_div, mul_assoc]

theorem w_infinite {q : ℂ} (hq : ¬ 0 < q.im) (wl z n : Ext ℝ) (c : Bool) :
    (Beam.mk (Cx.of q) wl z n c).w = .ok pinf := by
  unfold Beam.w
  have : (Beam.mk (Cx.of q) wl z n c).isFinite = false := by
    rw [← Bool.not_eq_true, isFinite_of]; exact hq
  rw [this]
  simp

theorem beamSize_pos {q : ℂ} {wl n : ℝ} (hq : 0 < q.im) (hl : 0 < wl) (hn : 0 < n) : 0 < beamSize wl n q := by
  have := im_neg_inv_pos.2 hq
  have := Real.pi_pos
  exact Real.sqrt_pos.2 (by positivity)

/-- the law ABCD for a paraxial system -/
noncomputable def Sys.bend (s : Sys ℝ) (q : ℂ) : ℂ := (s.a * q + s.b) / (s.c * q + s.d)

/-- is the size too large for the diameter? -/
noncomputable def tooLarge (diam w : Ext ℝ) : Bool := half diam <. PyNum.abs w

/-- The size reported by a beam: infinite unless confined. -/
noncomputable def sizeOf (wl n : ℝ) (q : ℂ) : Ext ℝ := if 0 < q.im then fin (beamSize wl n q) else pinf

theorem w_eq {q : ℂ} {wl n : ℝ} (hl : 0 < wl) (hn : 0 < n) (z : Ext ℝ) (c : Bool) :
    (Beam.mk (Cx.of q) (fin wl) z (fin n) c).w = .ok (sizeOf wl n q) := by
  unfold sizeOf
  split_ifs with h
  · exact w_of h hl hn z c
  · rw [w_infinite h]

theorem mulBeamBase_eq {m : Mat (Ext ℝ)} {s : Sys ℝ} (h : Den m s) {q : ℂ} {wl z : ℝ} {c : Bool}
    (hd : s.c * q + s.d ≠ 0) (hl : 0 < wl) (hn : 0 < s.nb) :
    m.mulBeamBase (beamOf q wl z s.nf c) = .ok (beamOf (s.bend q) wl (s.len + z) s.nb
      (if tooLarge m.apertureDiameter (sizeOf wl s.nb (s.bend q)) then true else c)) := by
  unfold Mat.mulBeamBase
  have e1 : (!((beamOf q wl z s.nf c).n ==. m.frontIndex)) = false := by
    rw [h.nf]; simp [beamOf]
  rw [if_neg (by rw [e1]; simp)]
  simp only [beamOf, h.A, h.B, h.C, h.D, h.L, h.nb, Cx.ofReal_fin, Cx.mul_of, Cx.add_of]
  rw [Cx.div_of _ hd]
  simp only [bind, Except.bind, fin_add_fin]
  rw [w_eq hl hn]
  simp only [pure, Except.pure, tooLarge]
  rfl

/-- An element that is not an axicon. -/
theorem mulBeam_linear {F : Type} [PyNum F] [PyMath F] {m : Mat F} (h : m.Linear) (b : Beam F) :
    m.mulBeam b = m.mulBeamBase b := by
  unfold Mat.mulBeam
  unfold Mat.Linear at h
  split
  · next n a hk => exact absurd hk (h n a)
  · rfl

/-! ## The law ABCD -/

theorem Sys.bend_im (s : Sys ℝ) (q : ℂ) : (s.bend q).im = s.det * q.im / Complex.normSq (s.c * q + s.d) := by
  unfold Sys.bend Sys.det
  rw [Complex.div_im]
  simp only [Complex.add_im, Complex.mul_im, Complex.ofReal_re, Complex.ofReal_im, Complex.add_re, Complex.mul_re]
  ring

theorem Sys.denom_ne {s : Sys ℝ} (h : s.det ≠ 0) {q : ℂ} (hq : 0 < q.im) : (s.c * q + s.d : ℂ) ≠ 0 := by
  intro h0
  have h1 := congrArg Complex.im h0
  have h2 := congrArg Complex.re h0
  simp only [Complex.add_im, Complex.mul_im, Complex.ofReal_re, Complex.ofReal_im, Complex.add_re, Complex.mul_re,
    Complex.zero_im, Complex.zero_re] at h1 h2
  have hc : s.c = 0 := by
    have : s.c * q.im = 0 := by linarith
    rcases mul_eq_zero.1 this with h | h
    · exact h
    · exact absurd h hq.ne'
  have hd : s.d = 0 := by rw [hc] at h2; linarith
  apply h
  simp [Sys.det, hc, hd]

theorem Sys.bend_pos {s : Sys ℝ} (h : 0 < s.det) {q : ℂ} (hq : 0 < q.im) : 0 < (s.bend q).im := by
  rw [Sys.bend_im]
  exact div_pos (mul_pos h hq) (Complex.normSq_pos.2 (Sys.denom_ne h.ne' hq))

theorem Sys.bend_andThen (s t : Sys ℝ) {q : ℂ} (h : (s.c * q + s.d : ℂ) ≠ 0) :
    (s.andThen t).bend q = t.bend (s.bend q) := by
  unfold Sys.bend
  simp only [Sys.andThen]
  push_cast
  have e : (t.a * ((s.a * q + s.b) / (s.c * q + s.d)) + t.b : ℂ) =
      ((t.a * s.a + t.b * s.c) * q + (t.a * s.b + t.b * s.d)) / (s.c * q + s.d) := by
    rw [eq_div_iff h]
    linear_combination (t.a : ℂ) * div_mul_cancel₀ (s.a * q + s.b : ℂ) h
  have e' : (t.c * ((s.a * q + s.b) / (s.c * q + s.d)) + t.d : ℂ) =
      ((t.c * s.a + t.d * s.c) * q + (t.c * s.b + t.d * s.d)) / (s.c * q + s.d) := by
    rw [eq_div_iff h]
    linear_combination (t.c : ℂ) * div_mul_cancel₀ (s.a * q + s.b : ℂ) h
  rw [e, e', div_div_div_cancel_right₀ h]

theorem Sys.denom_andThen (s t : Sys ℝ) {q : ℂ} (h : (s.c * q + s.d : ℂ) ≠ 0) :
    ((s.andThen t).c * q + (s.andThen t).d : ℂ) = (t.c * s.bend q + t.d) * (s.c * q + s.d) := by
  unfold Sys.bend
  simp only [Sys.andThen]
  push_cast
  linear_combination (-t.c : ℂ) * div_mul_cancel₀ (s.a * q + s.b : ℂ) h

/-! ## Chains -/

section Generic
variable {F : Type} [PyNum F] [PyMath F]

/-- the beam after successive elements -/
def runBeam : List (Mat F) → Beam F → Except PyErr (Beam F)
  | [], b => .ok b
  | m :: ms, b =>
    match m.mulBeam b with
    | .error x => .error x
    | .ok b1 => runBeam ms b1

theorem runBeam_append (ms ns : List (Mat F)) (b : Beam F) :
    runBeam (ms ++ ns) b = (match runBeam ms b with | .error x => .error x | .ok b1 => runBeam ns b1) := by
  induction ms generalizing b with
  | nil => rfl
  | cons m ms ih =>
    simp only [List.cons_append, runBeam]
    cases m.mulBeam b with
    | error x => rfl
    | ok b1 => exact ih b1

mutual
theorem traceBeam_run : ∀ (e : Elem F) (b : Beam F),
    (match e.traceBeam b with | .error x => .error x | .ok t => .ok (t.getLast?.getD b)) = runBeam (leaves e.items) b
  | .leaf m, b => by
    simp only [Elem.traceBeam, Elem.items, leaves, runBeam]
    cases m.mulBeam b <;> rfl
  | .group m c es, b => by
    have := traceBeamList_run es b
    simp only [Elem.traceBeam, Elem.items, leaves]
    rw [← this]
    cases traceBeamList es b with
    | error x => rfl
    | ok t => cases t <;> simp [List.getLast?_cons_cons]
theorem traceBeamList_run : ∀ (es : List (Elem F)) (b : Beam F),
    (match traceBeamList es b with | .error x => .error x | .ok t => .ok (t.getLast?.getD b)) =
      runBeam (leaves (itemsList es)) b
  | [], b => by simp [traceBeamList, itemsList, leaves, runBeam]
  | e :: es, b => by
    have h1 := traceBeam_run e b
    simp only [traceBeamList, itemsList, leaves_append, runBeam_append]
    rw [← h1]
    cases e.traceBeam b with
    | error x => rfl
    | ok t =>
      dsimp only
      rw [← traceBeamList_run es (t.getLast?.getD b)]
      cases traceBeamList es (t.getLast?.getD b) with
      | error x => rfl
      | ok ts =>
        dsimp only
        cases ts with
        | nil => simp
        | cons x xs => simp [List.getLast?_append]
end

theorem traceThroughBeam_run (e : Elem F) (b : Beam F) : e.traceThroughBeam b = runBeam (leaves e.items) b :=
  traceBeam_run e b

end Generic

theorem StageOf.bend {m : Mat (Ext ℝ)} {st : Stage ℝ} (h : StageOf m st) (q : ℂ) : m.sys.bend q = st.bend q := by
  unfold Sys.bend Stage.bend
  simp [Mat.sys, h.A, h.B, h.C, h.D]

/-- determinant of the ray matrix of an element -/
def Stage.det {K : Type} [Field K] (s : Stage K) : K := s.a * s.d - s.b * s.c

theorem StageOf.det {m : Mat (Ext ℝ)} {st : Stage ℝ} (h : StageOf m st) : m.sys.det = st.det := by
  unfold Sys.det Stage.det
  simp [Mat.sys, h.A, h.B, h.C, h.D]

/-- A confined beam through a consistent chain. -/
theorem runBeam_chain {ms : List (Mat (Ext ℝ))} {ss : List (Stage ℝ)} (hst : List.Forall₂ StageOf ms ss)
    (hg : ∀ m ∈ ms, m.Good) {n : ℝ} (hm : Sys.Matched n (ms.map Mat.sys)) (hn : 0 < n) (hdet : ∀ s ∈ ss, 0 < s.det)
    {q : ℂ} (hq : 0 < q.im) {wl : ℝ} (hl : 0 < wl) (z : ℝ) (c : Bool) :
    ∃ c', runBeam ms (beamOf q wl z n c) = .ok (beamOf (beamAfter ss q) wl (z + (ss.map Stage.len).sum)
        (Sys.endIndex n (ms.map Mat.sys)) c') ∧ 0 < (beamAfter ss q).im ∧ 0 < Sys.endIndex n (ms.map Mat.sys) := by
  induction hst generalizing n q z c with
  | nil => exact ⟨c, by simp [runBeam, beamAfter, Sys.endIndex], by simpa [beamAfter] using hq, hn⟩
  | cons h hst ih =>
    next m st ms ss =>
    have hgm := hg m (by simp)
    obtain ⟨hm1, hm2⟩ := hm
    have hd : 0 < m.sys.det := by rw [h.det]; exact hdet st (by simp)
    have hnb : 0 < m.sys.nb := by
      have := hgm.lawful.2.2
      rw [this] at hd
      rw [hm1] at hd
      exact (div_pos_iff_of_pos_left hn).1 hd
    have hq' := Sys.bend_pos hd hq
    have step := mulBeamBase_eq hgm.den (wl := wl) (z := z) (c := c) (Sys.denom_ne hd.ne' hq) hl hnb
    rw [← mulBeam_linear h.linear, hm1, h.bend] at step
    rw [h.bend] at hq'
    obtain ⟨c', e1, e2, e3⟩ := ih (fun m hm => hg m (by simp [hm])) hm2 hnb (fun s hs => hdet s (by simp [hs])) hq'
      (m.sys.len + z) (if tooLarge m.apertureDiameter (sizeOf wl m.sys.nb (st.bend q)) then true else c)
    refine ⟨c', ?_, e2, e3⟩
    simp only [runBeam]
    rw [step]
    dsimp only
    rw [e1]
    have : m.sys.len = st.len := by simp [Mat.sys, h.L]
    simp only [beamAfter, List.foldl_cons, List.map_cons, List.sum_cons, Sys.endIndex, this]
    congr 2
    ring

theorem stage_det (s : Sys ℝ) (diam na : Option ℝ) : (s.stage diam na).det = s.det := rfl

theorem det_pos_of {s : Sys ℝ} (h : s.Lawful) (h1 : 0 < s.nf) (h2 : 0 < s.nb) : 0 < s.det := by
  rw [h.2.2]; exact div_pos h1 h2

mutual
theorem posMedia_det : ∀ {p : Part ℝ}, p.Valid → p.PosMedia → ∀ s ∈ p.stages, 0 < s.det
  | .space d n diam, _, h, s, hs => by
    simp only [Part.PosMedia] at h
    simp only [Part.stages, List.mem_singleton] at hs
    subst hs; rw [stage_det]; exact det_pos_of (Sys.space_lawful d h.ne') h h
  | .lens f diam, _, _, s, hs => by
    simp only [Part.stages, List.mem_singleton] at hs
    subst hs; rw [stage_det]; exact det_pos_of (Sys.lens_lawful f) one_pos one_pos
  | .mirror f diam, _, _, s, hs => by
    simp only [Part.stages, List.mem_singleton] at hs
    subst hs; rw [stage_det]; exact det_pos_of (Sys.mirror_lawful f) one_pos one_pos
  | .interface n1 n2 R diam, _, h, s, hs => by
    simp only [Part.PosMedia] at h
    simp only [Part.stages, List.mem_singleton] at hs
    subst hs; rw [stage_det]; exact det_pos_of (Sys.interface_lawful _ h.1.ne' h.2.ne') h.1 h.2
  | .thickLens n R1 R2 t diam, _, h, s, hs => by
    simp only [Part.PosMedia] at h
    simp only [Part.stages, List.mem_singleton] at hs
    subst hs; rw [stage_det]; exact det_pos_of (Sys.thick_lawful _ _ _ h.ne') one_pos one_pos
  | .slab n t diam, _, h, s, hs => by
    simp only [Part.PosMedia] at h
    simp only [Part.stages, List.mem_singleton] at hs
    subst hs; rw [stage_det]; exact det_pos_of (Sys.thick_lawful _ _ _ h.ne') one_pos one_pos
  | .aperture _ _ _, _, _, s, hs => by
    simp only [Part.stages, List.mem_singleton] at hs
    subst hs; rw [stage_det]; exact det_pos_of (Sys.one_lawful one_ne_zero) one_pos one_pos
  | .matrix m _ _ _, hv, h, s, hs => by
    simp only [Part.PosMedia] at h
    simp only [Part.Valid] at hv
    simp only [Part.stages, List.mem_singleton] at hs
    subst hs; rw [stage_det]; exact det_pos_of hv h.1 h.2
  | .group _ ps, hv, h, s, hs => by
    simp only [Part.PosMedia] at h
    simp only [Part.Valid] at hv
    simp only [Part.stages] at hs
    exact posMediaList_det hv h s hs
theorem posMediaList_det : ∀ {ps : List (Part ℝ)}, Part.ValidList ps → Part.PosMediaList ps →
    ∀ s ∈ Part.stagesList ps, 0 < s.det
  | [], _, _, s, hs => by simp [Part.stagesList] at hs
  | p :: ps, hv, h, s, hs => by
    simp only [Part.ValidList] at hv
    simp only [Part.PosMediaList] at h
    simp only [Part.stagesList, List.mem_append] at hs
    rcases hs with hs | hs
    · exact posMedia_det hv.1 h.1 s hs
    · exact posMediaList_det hv.2 h.2 s hs
end

/-- a stage as a system -/
def Stage.toSys (s : Stage ℝ) : Sys ℝ := ⟨s.a, s.b, s.c, s.d, s.len, 1, 1⟩

theorem chain_bend (t : Sys ℝ) (ht : 0 < t.det) (ss : List (Stage ℝ)) (hdet : ∀ s ∈ ss, 0 < s.det) {q : ℂ}
    (hq : 0 < q.im) : (Sys.chain t (ss.map Stage.toSys)).bend q = beamAfter ss (t.bend q) := by
  induction ss generalizing t with
  | nil => rfl
  | cons s ss ih =>
    have hs : 0 < s.toSys.det := hdet s (by simp)
    have := ih (t.andThen s.toSys) (by rw [Sys.andThen_det]; exact mul_pos ht hs) (fun s hs => hdet s (by simp [hs]))
    rw [Sys.bend_andThen _ _ (Sys.denom_ne ht.ne' hq)] at this
    exact this

theorem one_bend (n : ℝ) (q : ℂ) : (Sys.one n).bend q = q := by simp [Sys.bend, Sys.one]

/-- A system that transforms rays as successive elements also transforms confined beams as they do. -/
theorem bend_eq_of_out {t : Sys ℝ} {ss : List (Stage ℝ)} (hdet : ∀ s ∈ ss, 0 < s.det)
    (h : ∀ r, ss.foldl (fun r s => s.out r) r = t.out r) {q : ℂ} (hq : 0 < q.im) : t.bend q = beamAfter ss q := by
  have e := chain_bend (Sys.one 1) (by simp [Sys.one, Sys.det]) ss hdet hq
  rw [one_bend] at e
  rw [← e]
  have key : ∀ r, (Sys.chain (Sys.one 1) (ss.map Stage.toSys)).out r = t.out r := by
    intro r
    rw [← h, Sys.chain_out, Sys.one_out, List.foldl_map]
    rfl
  obtain ⟨a, b, c, d⟩ := Sys.eq_of_out key
  unfold Sys.bend
  rw [a, b, c, d]

theorem itemSys_leaves (is : List (Item (Ext ℝ))) : itemSys is = (leaves is).map Mat.sys := by
  induction is with
  | nil => rfl
  | cons i is ih => cases i <;> simp [itemSys, leaves, ih]

theorem outAll_stages {is : List (Item (Ext ℝ))} {ss : List (Stage ℝ)} (h : ItemStages is ss) (r : ℝ × ℝ) :
    ss.foldl (fun r s => s.out r) r = outAll (itemSys is) r ∧
      (ss.map Stage.len).sum = ((itemSys is).map Sys.len).sum := by
  have e := itemSys_leaves is
  rw [e]
  unfold ItemStages at h
  generalize leaves is = ms at h
  induction h generalizing r with
  | nil => exact ⟨rfl, rfl⟩
  | cons h _ ih =>
    rename_i m st ms ss _
    have e1 : st.out r = m.sys.out r := by
      simp [Stage.out, Sys.out, Sys.outY, Sys.outθ, Mat.sys, h.A, h.B, h.C, h.D]
    have e2 : st.len = m.sys.len := by simp [Mat.sys, h.L]
    obtain ⟨a, b⟩ := ih (m.sys.out r)
    simp only [List.map_cons, List.sum_cons, List.foldl_cons, outAll, e1, e2, b]
    exact ⟨a, trivial⟩

theorem Elem.linear_mat {e : Elem (Ext ℝ)} (h : e.Good) (hs : e.Sound) : e.mat.Linear := by
  cases e with
  | leaf m => unfold Elem.Sound at hs; exact hs.2
  | group m c es =>
    unfold Elem.Good at h
    intro n a hk
    simp only [Elem.mat] at hk
    rcases h.2.kind with h | h <;> rw [h] at hk <;> cases hk

end RT
