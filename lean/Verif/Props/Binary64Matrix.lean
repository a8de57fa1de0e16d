import Verif.Lemmas.Binary64Accept
import Verif.Props.RoundedMatrix
import Verif.Props.Binary64

/-! # C96 with the limits of Python floats: overflow and underflow -/

set_option linter.unusedSectionVars false

namespace RT
open PyNum Ext B64

mutual
theorem rmatW_exact (w : ℚ) : ∀ p : Part ℚ, (p.rmatW w).exact = p.rmat.exact
  | .space .. | .lens .. | .mirror .. | .interface .. | .thickLens .. | .slab .. | .aperture .. | .matrix .. => by
    simp [Part.rmatW, Part.rmat]
  | .group _ ps => by
    unfold Part.rmatW Part.rmat
    exact rmatListW_exact w ps rfl
theorem rmatListW_exact (w : ℚ) : ∀ (ps : List (Part ℚ)) {a b : RStage ℚ}, a.exact = b.exact →
    (Part.rmatListW w a ps).exact = (Part.rmatList b ps).exact
  | [], _, _, h => by simpa [Part.rmatListW, Part.rmatList] using h
  | p :: ps, a, b, h => by
    unfold Part.rmatListW Part.rmatList
    refine rmatListW_exact w ps ?_
    change a.exact.andThen _ = b.exact.andThen _
    rw [h, rmatW_exact w p]
end

/-- the difference of a Python float with an exact number -/
def CloseTo64 (err : ℚ) (x : B64) (y : Ext ℚ) : Prop := ∃ x' y', x = B64.num x' ∧ y = fin y' ∧ |x' - y'| ≤ err

/-- Nothing computed to make the matrix of the system comes near the largest float, and there are less than 2⁵⁰ roundings. -/
def Part.NoOverflow (p : Part ℚ) : Prop := ∀ s ∈ p.madeW tiny, s.Fits tiny unitRoundoff (huge / 2)

/-- **C96 for Python floats**, exponents being limited to 11 bits: the matrix and the length that a system reports are those of the same program run exactly,
up to the rounding errors; results too small to keep their bits add at most 2⁻¹⁰²¹ to the majorants at each product. -/
theorem C96_python_matrix {p : Part ℚ} (hp : p.Ordinary) (hf : p.NoOverflow) {e : Elem B64} {e' : Elem (Ext ℚ)} (hb : p.build64 = .ok e)
    (hb' : p.build = .ok e') :
    let s := p.rmatW tiny
    CloseTo64 (relErr unitRoundoff s.ops * s.maj.a) e.mat.A e'.mat.A ∧ CloseTo64 (relErr unitRoundoff s.ops * s.maj.b) e.mat.B e'.mat.B ∧
    CloseTo64 (relErr unitRoundoff s.ops * s.maj.c) e.mat.C e'.mat.C ∧ CloseTo64 (relErr unitRoundoff s.ops * s.maj.d) e.mat.D e'.mat.D ∧
    CloseTo64 (relErr unitRoundoff s.ops * s.maj.len) e.mat.L e'.mat.L := by
  have h1 := build64_mat hp hf hb
  have h2 := build_exactMat hb'
  rw [← rmatW_exact tiny] at h2
  have key : ∀ {x : B64} {y : Ext ℚ} {a A : ℚ}, Near64 (p.rmatW tiny).ops x a A → y = fin a →
      CloseTo64 (relErr unitRoundoff (p.rmatW tiny).ops * A) x y := by
    rintro x y a A ⟨x', hx, x'', e, -, hx'⟩ hy
    obtain rfl := Fl.num_inj e
    exact ⟨x', a, hx, hy, hx'⟩
  exact ⟨key h1.A h2.A, key h1.B h2.B, key h1.C h2.C, key h1.D h2.D, key h1.L h2.L⟩

/-- A system in air is accepted when, for each matrix made on the way, the error on the determinant is below the tolerance. -/
theorem C96_python_accepted {p : Part ℚ} (hp : p.Ordinary) (hf : p.NoOverflow) (ha : p.InAir) (hroom : ∀ s ∈ p.madeW tiny, s.RoomW tiny unitRoundoff) :
    ∃ e, p.build64 = .ok e := by
  obtain ⟨e, h, -⟩ := build64_accepts hp ha fun s hs => ⟨hf s hs, hroom s hs⟩
  exact ⟨e, h⟩

/-- All systems in air of up to 1000 roundings (about 300 lenses and spaces) with moderate coefficients are accepted. -/
theorem C96_python_moderate {p : Part ℚ} (hp : p.Ordinary) (ha : p.InAir)
    (hm : ∀ s ∈ p.madeW tiny, s.ops ≤ 1000 ∧ s.maj.a * s.maj.d + s.maj.b * s.maj.c ≤ 10 ^ 7 ∧
      s.maj.a ≤ 2 ^ 1000 ∧ s.maj.b ≤ 2 ^ 1000 ∧ s.maj.c ≤ 2 ^ 1000 ∧ s.maj.d ≤ 2 ^ 1000 ∧ s.maj.len ≤ 2 ^ 1000) : ∃ e, p.build64 = .ok e := by
  have hbig : (2 : ℚ) ^ 1000 ≤ huge / 2 := by
    unfold huge; rw [pow2_eq]
    have e : (2 : ℚ) ^ (1023 : Int) = 2 ^ (1022 : Int) * 2 := by rw [← zpow_add_one₀ (by norm_num)]; norm_num
    have e2 : (2 : ℚ) ^ (1000 : ℕ) = 2 ^ (1000 : Int) := by rw [← zpow_natCast]; rfl
    have e3 : (2 : ℚ) ^ (1000 : Int) ≤ 2 ^ (1022 : Int) := zpow_le_zpow_right₀ (by norm_num) (by norm_num)
    rw [e2, e]
    generalize (2 : ℚ) ^ (1022 : Int) = x at e3 ⊢
    generalize (2 : ℚ) ^ (1000 : Int) = y at e3 ⊢
    linarith
  generalize (2 : ℚ) ^ 1000 = big at hm hbig
  have ht := tiny_small
  have ht0 := tiny_pos
  have hu : (0 : ℚ) ≤ unitRoundoff := double_rounding.nonneg
  have hh : (10 : ℚ) ^ 7 + 1 ≤ huge / 2 := by
    unfold huge; rw [pow2_eq]
    have : (2 : ℚ) ^ (30 : Int) ≤ 2 ^ (1023 : Int) := zpow_le_zpow_right₀ (by norm_num) (by norm_num)
    have e : (2 : ℚ) ^ (30 : Int) = 1073741824 := by norm_num
    rw [e] at this
    generalize (2 : ℚ) ^ (1023 : Int) = x at this ⊢
    norm_num
    linarith
  refine C96_python_accepted hp ?_ ha ?_
  · intro s hs
    obtain ⟨h1, h2, h3, h4, h5, h6, h7⟩ := hm s hs
    refine ⟨h3.trans hbig, h4.trans hbig, h5.trans hbig, h6.trans hbig, h7.trans hbig, by linarith, ?_⟩
    have : ((2 * s.ops + 2 : ℕ) : ℚ) ≤ 2002 := by exact_mod_cast (by omega : 2 * s.ops + 2 ≤ 2002)
    calc ((2 * s.ops + 2 : ℕ) : ℚ) * unitRoundoff ≤ 2002 * unitRoundoff := mul_le_mul_of_nonneg_right this hu
      _ ≤ 1 / 2 := by norm_num [unitRoundoff]
  · intro s hs
    obtain ⟨h1, h2, -⟩ := hm s hs
    unfold RStage.RoomW
    have e1 : relErr unitRoundoff (2 * s.ops + 2) ≤ relErr unitRoundoff 2002 := relErr_mono hu (by omega)
    have e2 : relErr unitRoundoff 2002 ≤ ((2002 : ℕ) : ℚ) * unitRoundoff / (1 - ((2002 : ℕ) : ℚ) * unitRoundoff) :=
      C95_bound hu 2002 (by norm_num [unitRoundoff])
    have e3 : 0 ≤ relErr unitRoundoff (2 * s.ops + 2) := relErr_nonneg hu _
    calc (1 + unitRoundoff) * (relErr unitRoundoff (2 * s.ops + 2) * (s.maj.a * s.maj.d + s.maj.b * s.maj.c + 2 * tiny))
        ≤ (1 + unitRoundoff) * (((2002 : ℕ) : ℚ) * unitRoundoff / (1 - ((2002 : ℕ) : ℚ) * unitRoundoff) * (10 ^ 7 + 1)) := by
          have := e1.trans e2
          have h0 : (0 : ℚ) ≤ 1 + unitRoundoff := by linarith
          refine mul_le_mul_of_nonneg_left ?_ h0
          calc _ ≤ relErr unitRoundoff (2 * s.ops + 2) * (10 ^ 7 + 1) := mul_le_mul_of_nonneg_left (by linarith) e3
            _ ≤ _ := mul_le_mul_of_nonneg_right this (by norm_num)
      _ ≤ _ := by norm_num [unitRoundoff]

/-- The Sun is refused here too: its parameters are ordinary. -/
theorem C96_python_violated : sun.Ordinary ∧ sun.InAir ∧ sun.build64 = .error .valueError := by
  refine ⟨?_, ?_, ?_⟩
  · have h1 : Good range 149600000000000 := good_of (by decide +kernel) (by norm_num) (by norm_num)
    have h2 : Good range 1 := good_of (by decide +kernel) (by norm_num) (by norm_num)
    have h3 : Good range 300 := good_of (by decide +kernel) (by norm_num) (by norm_num)
    have h4 : Good range 301 := good_of (by decide +kernel) (by norm_num) (by norm_num)
    exact ⟨⟨h1, h2, trivial⟩, ⟨h3, trivial⟩, ⟨h4, h2, trivial⟩, trivial⟩
  · simp [sun, Part.InAir, Part.InAirList, OpenDiam]
  · have : (match sun.build64 with | .error .valueError => true | _ => false) = true := by decide +kernel
    split at this
    · next h => exact h
    · cases this

/-- three elements whose product overflows -/
def far : Part ℚ := .group "" [.space (pow2 700) 1 none, .lens (pow2 (-700)) none, .space (pow2 700) 1 none]

/-- Without `NoOverflow`, a legal system may be accepted with coefficients that are not numbers: the determinant is `nan`, which is not found different from 1. -/
theorem C96_python_overflow : ∃ e, far.build64 = .ok e ∧ e.mat.A = ⟨.ninf⟩ ∧ e.mat.determinant = ⟨.nan⟩ ∧
    (∃ e', far.build = .ok e' ∧ e'.mat.A = fin (1 - pow2 1400)) := by
  have key : (match far.build64 with | .ok e => decide (e.mat.A = ⟨.ninf⟩ ∧ e.mat.determinant = ⟨.nan⟩) | .error _ => false) = true := by decide +kernel
  have key' : (match far.build with | .ok e => decide (e.mat.A = fin (1 - pow2 1400)) | .error _ => false) = true := by decide +kernel
  split at key
  · next e he =>
    rw [decide_eq_true_iff] at key
    refine ⟨e, he, key.1, key.2, ?_⟩
    split at key'
    · next e' he' => exact ⟨e', he', by simpa using key'⟩
    · cases key'
  · cases key

/-- The relay meets the hypotheses. -/
theorem C96_python_example : relay.Ordinary ∧ relay.InAir ∧
    ∀ s ∈ relay.madeW tiny, s.ops ≤ 1000 ∧ s.maj.a * s.maj.d + s.maj.b * s.maj.c ≤ 10 ^ 7 ∧
      s.maj.a ≤ 2 ^ 1000 ∧ s.maj.b ≤ 2 ^ 1000 ∧ s.maj.c ≤ 2 ^ 1000 ∧ s.maj.d ≤ 2 ^ 1000 ∧ s.maj.len ≤ 2 ^ 1000 := by
  refine ⟨relay_ordinary, C96_example.1, ?_⟩
  have hbig : (10 : ℚ) ^ 7 ≤ 2 ^ 1000 := by
    have h1 : (2 : ℚ) ^ 30 ≤ 2 ^ 1000 := pow_le_pow_right₀ (by norm_num) (by norm_num)
    have h2 : (10 : ℚ) ^ 7 ≤ 2 ^ 30 := by norm_num
    exact h2.trans h1
  have key : ∀ s ∈ relay.madeW tiny, s.ops ≤ 1000 ∧ s.maj.a * s.maj.d + s.maj.b * s.maj.c ≤ 10 ^ 7 ∧
      s.maj.a ≤ 10 ^ 7 ∧ s.maj.b ≤ 10 ^ 7 ∧ s.maj.c ≤ 10 ^ 7 ∧ s.maj.d ≤ 10 ^ 7 ∧ s.maj.len ≤ 10 ^ 7 := by
    obtain ⟨w, t, e1, e2, h1, h2, h3⟩ := limits_ex
    rw [e1]
    simp only [relay, Part.madeW, Part.madeListW, Part.rmatW, Part.rstages, List.headD_cons, List.cons_append, List.nil_append, RStage.andThenW, Stage.andThenW, Stage.withOps,
      Sys.stage, Sys.space, Sys.lens, Stage.abs, RStage.one, List.forall_mem_cons, List.not_mem_nil, false_imp_iff, implies_true, and_true]
    norm_num
    and_intros <;> nlinarith
  intro s hs
  obtain ⟨k1, k2, k3, k4, k5, k6, k7⟩ := key s hs
  exact ⟨k1, k2, k3.trans hbig, k4.trans hbig, k5.trans hbig, k6.trans hbig, k7.trans hbig⟩

end RT
