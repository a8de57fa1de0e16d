import Verif.Lemmas.RoundedBend
import Verif.Props.RoundedImaging
import Mathlib.Data.Int.Log
import Mathlib.Analysis.SpecialFunctions.Trigonometric.Basic

/-! # C114: beams in floats -/

set_option linter.unusedSectionVars false

namespace RT
open PyNum Ext Fl

variable {rnd : ℝ → ℝ} {u : ℝ}

section
variable [PyMath (Fl ℝ rnd)]

/-- **C114**, for every system that can be built (any number of elements, any nesting, any media) and every complex radius, when no denominator of the
law ABCD is within its error of 0: if tracing the beam succeeds, the complex radius after the system is the one of the exact law ABCD up to `beamErr`. -/
theorem C114_trace (hr : Rounding rnd u) {p : Part ℝ} {e : Elem (Fl ℝ rnd)} (hb : p.buildR rnd = .ok e) {q : ℂ} (hc : BeamClear u p.rstages q 0)
    {b b' : Beam (Fl ℝ rnd)} (hq : b.q = ⟨num q.re, num q.im⟩) (h : e.traceThroughBeam b = .ok b') :
    ∃ v : ℂ, b'.q = ⟨num v.re, num v.im⟩ ∧ ‖v - beamAfter p.stages q‖ ≤ beamErr u p.rstages q 0 := by
  rw [traceThroughBeam_run] at h
  obtain ⟨v, h1, h2⟩ := runBeam_close hr (buildR_stages hr hb).1 (q := q) (ε := 0) (by simp) hc hq h
  rw [rstages_exact] at h2
  exact ⟨v, h1, h2⟩

/-- The same when the beam is multiplied by the matrix of the system. -/
theorem C114_matrix (hr : Rounding rnd u) {p : Part ℝ} {e : Elem (Fl ℝ rnd)} {e' : Elem (Ext ℝ)} (hb : p.buildR rnd = .ok e) (hb' : p.build = .ok e')
    {a b c d : ℝ} (ha : e'.mat.A = fin a) (hB : e'.mat.B = fin b) (hC : e'.mat.C = fin c) (hd : e'.mat.D = fin d) {q : ℂ}
    (hc : p.rmat.bottomErr u q 0 < ‖c * q + d‖) {x x' : Beam (Fl ℝ rnd)} (hq : x.q = ⟨num q.re, num q.im⟩) (h : e.mat.mulBeam x = .ok x') :
    ∃ v : ℂ, x'.q = ⟨num v.re, num v.im⟩ ∧ ‖v - (a * q + b) / (c * q + d)‖ ≤ p.rmat.bendErr u q 0 := by
  have hx := build_exactMat hb'
  have ea : p.rmat.exact.a = a := by have := hx.A; rw [ha] at this; exact (Ext.fin.inj this).symm
  have eb : p.rmat.exact.b = b := by have := hx.B; rw [hB] at this; exact (Ext.fin.inj this).symm
  have ec : p.rmat.exact.c = c := by have := hx.C; rw [hC] at this; exact (Ext.fin.inj this).symm
  have ed : p.rmat.exact.d = d := by have := hx.D; rw [hd] at this; exact (Ext.fin.inj this).symm
  rw [mulBeam_linear (buildR_linear hr hb)] at h
  obtain ⟨v, h1, h2⟩ := bend_close hr (buildR_mat hr hb) (w := q) (q := q) (ε := 0) (by simp) (by rw [ec, ed]; exact hc)
  unfold Mat.mulBeamBase at h
  split_ifs at h
  rw [show x.q = cnum q from hq, h1] at h
  simp only [bind, Except.bind] at h
  split at h
  · cases h
  · cases h
    refine ⟨v, rfl, ?_⟩
    have : p.rmat.exact.bend q = (a * q + b) / (c * q + d) := by
      unfold Stage.bend
      rw [ea, eb, ec, ed]
    rw [← this]
    exact h2

/-- A beam that is confined in exact arithmetic, by more than the error, is confined in floats; and a beam that is not is not. -/
theorem C114_confined (hr : Rounding rnd u) {p : Part ℝ} {e : Elem (Fl ℝ rnd)} (hb : p.buildR rnd = .ok e) {q : ℂ} (hc : BeamClear u p.rstages q 0)
    {b b' : Beam (Fl ℝ rnd)} (hq : b.q = ⟨num q.re, num q.im⟩) (h : e.traceThroughBeam b = .ok b')
    (hfar : beamErr u p.rstages q 0 < |(beamAfter p.stages q).im|) :
    b'.isFinite = decide (0 < (beamAfter p.stages q).im) := by
  obtain ⟨v, h1, h2⟩ := C114_trace hr hb hc hq h
  have h3 : |v.im - (beamAfter p.stages q).im| < |(beamAfter p.stages q).im| := by
    refine lt_of_le_of_lt ?_ (lt_of_le_of_lt h2 hfar)
    have := Complex.abs_im_le_norm (v - beamAfter p.stages q)
    rwa [Complex.sub_im] at this
  obtain ⟨q', wl, z, n, c⟩ := b'
  dsimp only at h1
  subst h1
  rw [isFinite_num hr]
  refine decide_eq_decide.2 ?_
  generalize (beamAfter p.stages q).im = t at h3
  rw [abs_lt] at h3
  constructor
  · intro h
    by_contra h'
    rw [abs_of_nonpos (not_lt.1 h')] at h3
    linarith [h3.2]
  · intro h
    rw [abs_of_pos h] at h3
    linarith [h3.1]

/-- In air tracing succeeds. -/
theorem C114_air (hr : Rounding rnd u) (hp : PiOk rnd) {p : Part ℝ} (hair : p.InAir) {e : Elem (Fl ℝ rnd)} (hb : p.buildR rnd = .ok e) {q : ℂ}
    (hc : BeamClear u p.rstages q 0) {wl : ℝ} (hl : 0 < wl) {b : Beam (Fl ℝ rnd)} (hq : b.q = ⟨num q.re, num q.im⟩) (hn : b.n = num 1)
    (hw : b.wavelength = num wl) :
    ∃ b' v, e.traceThroughBeam b = .ok b' ∧ b'.q = ⟨num v.re, num v.im⟩ ∧ ‖v - beamAfter p.stages q‖ ≤ beamErr u p.rstages q 0 := by
  obtain ⟨b', h⟩ := runBeam_air hr hp (buildR_stages hr hb).1 (buildR_airy hr hair hb).2 (w := q) (q := q) (ε := 0) (by simp) hc hl hq hn hw
  rw [← traceThroughBeam_run] at h
  obtain ⟨v, h1, h2⟩ := C114_trace hr hb hc hq h
  exact ⟨b', v, h, h1, h2⟩

end

/-! ## Python floats, among real numbers -/

/-- the nearest integer, the even one when there are two -/
noncomputable def roundEvenR (q : ℝ) : Int :=
  if q - ⌊q⌋ < 1 / 2 then ⌊q⌋
  else if 1 / 2 < q - ⌊q⌋ then ⌊q⌋ + 1
  else if ⌊q⌋ % 2 = 0 then ⌊q⌋ else ⌊q⌋ + 1

/-- rounding of a real number to 53 significant bits, to nearest, ties to even -/
noncomputable def doubleR (x : ℝ) : ℝ := (roundEvenR (x / 2 ^ (Int.log 2 |x| - 52)) : ℝ) * 2 ^ (Int.log 2 |x| - 52)

theorem roundEvenR_near (q : ℝ) : |(roundEvenR q : ℝ) - q| ≤ 1 / 2 := by
  have h1 := Int.floor_le q
  have h2 := Int.lt_floor_add_one q
  unfold roundEvenR
  split_ifs <;> rw [abs_le] <;> push_cast <;> constructor <;> linarith

theorem roundEvenR_cast (q : ℚ) : roundEvenR (q : ℝ) = roundEven q := by
  have e : ⌊(q : ℝ)⌋ = q.floor := by rw [Rat.floor_cast]; rfl
  have c1 : ((q : ℝ) - (q.floor : ℝ) < 1 / 2) ↔ (q - q.floor < 1 / 2) := by
    have : ((q - q.floor : ℚ) : ℝ) = (q : ℝ) - (q.floor : ℝ) := by push_cast; rfl
    rw [← this]
    constructor
    · intro h; have h' : ((q - q.floor : ℚ) : ℝ) < ((1 / 2 : ℚ) : ℝ) := by push_cast at h ⊢; exact h
      exact_mod_cast h'
    · intro h; have h' : ((q - q.floor : ℚ) : ℝ) < ((1 / 2 : ℚ) : ℝ) := by exact_mod_cast h
      push_cast at h' ⊢; exact h'
  have c2 : (1 / 2 < (q : ℝ) - (q.floor : ℝ)) ↔ (1 / 2 < q - q.floor) := by
    have : ((q - q.floor : ℚ) : ℝ) = (q : ℝ) - (q.floor : ℝ) := by push_cast; rfl
    rw [← this]
    constructor
    · intro h; have h' : ((1 / 2 : ℚ) : ℝ) < ((q - q.floor : ℚ) : ℝ) := by push_cast at h ⊢; exact h
      exact_mod_cast h'
    · intro h; have h' : ((1 / 2 : ℚ) : ℝ) < ((q - q.floor : ℚ) : ℝ) := by exact_mod_cast h
      push_cast at h' ⊢; exact h'
  unfold roundEvenR roundEven
  rw [e]
  simp only [c1, c2]

/-- On rational numbers it is `double`. -/
theorem doubleR_cast (q : ℚ) : doubleR (q : ℝ) = (double q : ℝ) := by
  by_cases h : q = 0
  · subst h
    have : roundEvenR 0 = 0 := by simp [roundEvenR]
    simp [doubleR, double, this]
  have hb : Int.log 2 |(q : ℝ)| = binade q := by
    obtain ⟨h1, h2⟩ := binade_spec h
    have g1 : ((2 : ℕ) : ℝ) ^ binade q ≤ |(q : ℝ)| := by
      have : (((2 : ℚ) ^ binade q : ℚ) : ℝ) ≤ ((|q| : ℚ) : ℝ) := by exact_mod_cast h1
      push_cast at this ⊢; exact this
    have g2 : |(q : ℝ)| < ((2 : ℕ) : ℝ) ^ (binade q + 1) := by
      have : ((|q| : ℚ) : ℝ) < (((2 : ℚ) ^ (binade q + 1) : ℚ) : ℝ) := by exact_mod_cast h2
      push_cast at this ⊢; exact this
    have hp : (0 : ℝ) < |(q : ℝ)| := abs_pos.2 (by exact_mod_cast h)
    have a1 := (Int.zpow_le_iff_le_log (b := 2) (by norm_num) hp).1 g1
    have a2 := (Int.lt_zpow_iff_log_lt (b := 2) (by norm_num) hp).1 g2
    omega
  unfold doubleR double
  rw [if_neg h, hb, pow2_eq]
  have : (q : ℝ) / 2 ^ (binade q - 52) = ((q / 2 ^ (binade q - 52) : ℚ) : ℝ) := by push_cast; rfl
  rw [this, roundEvenR_cast]
  push_cast
  rfl

theorem doubleR_rel (x : ℝ) : |doubleR x - x| ≤ 1 / 2 ^ 53 * |x| := by
  by_cases h : x = 0
  · subst h
    have : roundEvenR 0 = 0 := by simp [roundEvenR]
    simp [doubleR, this]
  have h1 : ((2 : ℕ) : ℝ) ^ Int.log 2 |x| ≤ |x| := Int.zpow_log_le_self (by norm_num) (abs_pos.2 h)
  push_cast at h1
  unfold doubleR
  set k := Int.log 2 |x|
  have hp : (0 : ℝ) < (2 : ℝ) ^ (k - 52) := by positivity
  have e : (roundEvenR (x / 2 ^ (k - 52)) : ℝ) * 2 ^ (k - 52) - x = ((roundEvenR (x / 2 ^ (k - 52)) : ℝ) - x / 2 ^ (k - 52)) * 2 ^ (k - 52) := by
    field_simp
  rw [e, abs_mul, abs_of_pos hp]
  calc _ ≤ 1 / 2 * (2 : ℝ) ^ (k - 52) := by gcongr; exact roundEvenR_near _
    _ = 1 / 2 ^ 53 * (2 : ℝ) ^ k := by
        rw [zpow_sub₀ (by norm_num)]
        norm_num
        ring
    _ ≤ _ := by gcongr

theorem doubleR_rounding : Rounding doubleR (1 / 2 ^ 53) where
  nonneg := by positivity
  small := by norm_num
  rel := doubleR_rel
  one := by have := doubleR_cast 1; rw [double_one] at this; exact_mod_cast this
  two := by have := doubleR_cast 2; rw [double_two] at this; exact_mod_cast this

/-- with a square root and a number pi that are the exact ones, rounded -/
@[reducible] noncomputable def doubleRMath : PyMath (Fl ℝ doubleR) where
  sqrt x := match x.val with
    | .fin q => num (doubleR (Real.sqrt q))
    | y => ⟨y⟩
  pi := num (doubleR Real.pi)

theorem doubleRMath_pi : @PiOk doubleR doubleRMath := ⟨_, rfl, doubleR_rounding.pos Real.pi_pos⟩

/-! ## An example -/

/-- a lens then a space, in air -/
noncomputable def focusing : Part ℝ := .group "" [.lens 40 none, .space (144 / 5) 1 none]

theorem focusing_air : focusing.InAir := by
  simp [focusing, Part.InAir, Part.InAirList, OpenDiam]

theorem focusing_room : ∀ s ∈ focusing.made, s.Room ((1 : ℝ) / 2 ^ 53) := by
  intro s hs
  simp only [focusing, Part.made, Part.madeList, Part.rmat, Part.rstages, List.headD_cons, List.mem_append, List.mem_cons, List.not_mem_nil, or_false,
    List.cons_append, List.nil_append] at hs
  rcases hs with rfl | rfl | rfl | rfl <;>
    norm_num [RStage.Room, relErr, RStage.andThen, RStage.one, Stage.withOps, Sys.stage, Sys.lens, Sys.space, Stage.andThen, Stage.abs, Sys.one]

/-- the law ABCD for the lens and then the space, on a beam of radius 30 i -/
theorem focusing_bend : ((Sys.lens (40 : ℝ)).stage none none).bend ⟨0, 30⟩ = ⟨-72 / 5, 96 / 5⟩ := by
  simp only [Stage.bend, Sys.stage, Sys.lens]
  rw [div_eq_iff]
  · apply Complex.ext <;> simp <;> norm_num
  · intro h
    have := congrArg Complex.re h
    norm_num at this

theorem norm_eq_of {z : ℂ} {r : ℝ} (hr : 0 ≤ r) (h : z.re * z.re + z.im * z.im = r * r) : ‖z‖ = r := by
  rw [← abs_of_nonneg hr, ← abs_of_nonneg (norm_nonneg z), ← sq_eq_sq_iff_abs_eq_abs, Complex.sq_norm, Complex.normSq_apply, h, sq]

theorem focusing_bend2 : ((Sys.space (144 / 5 : ℝ) 1).stage none none).bend ⟨-72 / 5, 96 / 5⟩ = ⟨72 / 5, 96 / 5⟩ := by
  simp only [Stage.bend, Sys.stage, Sys.space]
  rw [div_eq_iff]
  · apply Complex.ext <;> simp <;> norm_num
  · intro h
    have := congrArg Complex.re h
    norm_num at this

/-- the errors on the lens -/
theorem focusing_errs : (((Sys.lens (40 : ℝ)).stage none none).withOps 1).bottomErr (1 / 2 ^ 53) ⟨0, 30⟩ 0 ≤ 1 / 10 ^ 14 ∧
    (((Sys.lens (40 : ℝ)).stage none none).withOps 1).topErr (1 / 2 ^ 53) ⟨0, 30⟩ 0 ≤ 1 / 10 ^ 13 ∧
    0 ≤ (((Sys.lens (40 : ℝ)).stage none none).withOps 1).bottomErr (1 / 2 ^ 53) ⟨0, 30⟩ 0 ∧
    0 ≤ (((Sys.lens (40 : ℝ)).stage none none).withOps 1).topErr (1 / 2 ^ 53) ⟨0, 30⟩ 0 := by
  have h : ‖(⟨0, 30⟩ : ℂ)‖ = 30 := norm_eq_of (by norm_num) (by norm_num)
  norm_num [RStage.bottomErr, RStage.topErr, linErr, relErr, h, Stage.withOps, Sys.stage, Sys.lens, Stage.abs, abs_of_pos, abs_of_neg]

theorem focusing_clear : BeamClear (1 / 2 ^ 53) focusing.rstages ⟨0, 30⟩ 0 ∧ beamErr (1 / 2 ^ 53) focusing.rstages ⟨0, 30⟩ 0 ≤ 1 / 10 ^ 10 := by
  obtain ⟨e1, e2, e3, e4⟩ := focusing_errs
  have n1 : ‖(((Sys.lens (40 : ℝ)).stage none none).withOps 1).exact.c * (⟨0, 30⟩ : ℂ) + (((Sys.lens (40 : ℝ)).stage none none).withOps 1).exact.d‖ = 5 / 4 := by
    refine norm_eq_of (by norm_num) ?_
    simp [Stage.withOps, Sys.stage, Sys.lens]
    norm_num
  have n2 : ‖(((Sys.lens (40 : ℝ)).stage none none).withOps 1).exact.a * (⟨0, 30⟩ : ℂ) + (((Sys.lens (40 : ℝ)).stage none none).withOps 1).exact.b‖ = 30 := by
    refine norm_eq_of (by norm_num) ?_
    simp [Stage.withOps, Sys.stage, Sys.lens]
  have n3 : ‖(⟨-72 / 5, 96 / 5⟩ : ℂ)‖ = 24 := norm_eq_of (by norm_num) (by norm_num)
  have n4 : ‖(⟨72 / 5, 96 / 5⟩ : ℂ)‖ = 24 := norm_eq_of (by norm_num) (by norm_num)
  have k10 : relErr ((1 : ℝ) / 2 ^ 53) 10 ≤ 1 / 10 ^ 14 ∧ 0 ≤ relErr ((1 : ℝ) / 2 ^ 53) 10 := by norm_num [relErr]
  have b1 : (((Sys.lens (40 : ℝ)).stage none none).withOps 1).exact.bend ⟨0, 30⟩ = ⟨-72 / 5, 96 / 5⟩ := focusing_bend
  have b2 : (((Sys.space (144 / 5 : ℝ) 1).stage none none).withOps 0).exact.bend ⟨-72 / 5, 96 / 5⟩ = ⟨72 / 5, 96 / 5⟩ := focusing_bend2
  have d1 : (((Sys.lens (40 : ℝ)).stage none none).withOps 1).bendErr (1 / 2 ^ 53) ⟨0, 30⟩ 0 ≤ 1 / 10 ^ 12 ∧
      0 ≤ (((Sys.lens (40 : ℝ)).stage none none).withOps 1).bendErr (1 / 2 ^ 53) ⟨0, 30⟩ 0 := by
    unfold RStage.bendErr
    rw [n1, n2, b1, n3]
    have hd : (0 : ℝ) < 5 / 4 - (((Sys.lens (40 : ℝ)).stage none none).withOps 1).bottomErr (1 / 2 ^ 53) ⟨0, 30⟩ 0 := by linarith
    refine ⟨?_, div_nonneg ?_ hd.le⟩
    · rw [div_le_iff₀ hd]
      nlinarith [mul_le_mul k10.1 (add_le_add (le_refl (30 : ℝ)) e2) (by linarith) (by norm_num)]
    · have := k10.2
      positivity
  generalize hε : (((Sys.lens (40 : ℝ)).stage none none).withOps 1).bendErr (1 / 2 ^ 53) ⟨0, 30⟩ 0 = ε at d1
  have n5 : ‖(((Sys.space (144 / 5 : ℝ) 1).stage none none).withOps 0).exact.c * (⟨-72 / 5, 96 / 5⟩ : ℂ) + (((Sys.space (144 / 5 : ℝ) 1).stage none none).withOps 0).exact.d‖ = 1 := by
    refine norm_eq_of (by norm_num) ?_
    simp [Stage.withOps, Sys.stage, Sys.space]
  have n6 : ‖(((Sys.space (144 / 5 : ℝ) 1).stage none none).withOps 0).exact.a * (⟨-72 / 5, 96 / 5⟩ : ℂ) + (((Sys.space (144 / 5 : ℝ) 1).stage none none).withOps 0).exact.b‖ = 24 := by
    refine norm_eq_of (by norm_num) ?_
    simp [Stage.withOps, Sys.stage, Sys.space]
    norm_num
  have f1 : (((Sys.space (144 / 5 : ℝ) 1).stage none none).withOps 0).bottomErr (1 / 2 ^ 53) ⟨-72 / 5, 96 / 5⟩ ε ≤ 1 / 10 ^ 14 ∧
      0 ≤ (((Sys.space (144 / 5 : ℝ) 1).stage none none).withOps 0).bottomErr (1 / 2 ^ 53) ⟨-72 / 5, 96 / 5⟩ ε := by
    norm_num [RStage.bottomErr, linErr, relErr, n3, Stage.withOps, Sys.stage, Sys.space, Stage.abs]
  have f2 : (((Sys.space (144 / 5 : ℝ) 1).stage none none).withOps 0).topErr (1 / 2 ^ 53) ⟨-72 / 5, 96 / 5⟩ ε ≤ 1 / 10 ^ 11 ∧
      0 ≤ (((Sys.space (144 / 5 : ℝ) 1).stage none none).withOps 0).topErr (1 / 2 ^ 53) ⟨-72 / 5, 96 / 5⟩ ε := by
    obtain ⟨g1, g2⟩ := d1
    norm_num [RStage.topErr, linErr, relErr, n3, Stage.withOps, Sys.stage, Sys.space, Stage.abs]
    constructor <;> linarith
  constructor
  · simp only [focusing, Part.rstages, Part.rstagesList, List.cons_append, List.nil_append, BeamClear, and_true]
    rw [n1, b1, hε, n5]
    exact ⟨by linarith, by linarith [f1.1]⟩
  · simp only [focusing, Part.rstages, Part.rstagesList, List.cons_append, List.nil_append, beamErr]
    rw [b1, hε]
    unfold RStage.bendErr
    rw [n5, n6, b2, n4]
    obtain ⟨g1, g2⟩ := f1
    obtain ⟨g3, g4⟩ := f2
    rw [div_le_iff₀ (by linarith)]
    nlinarith [mul_le_mul k10.1 (add_le_add (le_refl (24 : ℝ)) g3) (by linarith) (by norm_num)]

/-- In Python floats, a beam of complex radius 30 i sent through a lens of focal length 40 and 28.8 of air: tracing succeeds, the complex radius at the
end is 14.4 + 19.2 i to 10⁻¹⁰, and the beam is confined. -/
theorem C114_example (wl z : ℝ) (hl : 0 < wl) (c : Bool) : ∃ e b', ∃ v : ℂ,
    focusing.buildR doubleR = .ok e ∧ @Elem.traceThroughBeam _ _ doubleRMath e ⟨⟨num 0, num 30⟩, num wl, num z, num 1, c⟩ = .ok b' ∧
    b'.q = ⟨num v.re, num v.im⟩ ∧ ‖v - (⟨72 / 5, 96 / 5⟩ : ℂ)‖ ≤ 1 / 10 ^ 10 ∧ b'.isFinite = true := by
  let _ := doubleRMath
  obtain ⟨e, hb, -⟩ := buildR_accepts doubleR_rounding focusing_air focusing_room
  obtain ⟨h1, h2⟩ := focusing_clear
  have ha : beamAfter focusing.stages ⟨0, 30⟩ = ⟨72 / 5, 96 / 5⟩ := by
    rw [← rstages_exact]
    simp only [focusing, Part.rstages, Part.rstagesList, List.cons_append, List.nil_append, List.map_cons, List.map_nil, beamAfter, List.foldl]
    exact (congrArg _ focusing_bend).trans focusing_bend2
  obtain ⟨b', v, h3, h4, h5⟩ := C114_air doubleR_rounding doubleRMath_pi focusing_air hb h1 hl (b := ⟨⟨num 0, num 30⟩, num wl, num z, num 1, c⟩)
    rfl rfl rfl
  have h6 := C114_confined doubleR_rounding hb h1 rfl h3 (lt_of_le_of_lt h2 (by rw [ha]; norm_num))
  rw [ha] at h5 h6
  exact ⟨e, b', v, hb, h3, h4, h5.trans h2, by rw [h6]; norm_num⟩

end RT
