import Verif.Lemmas.RoundedHeight
import Verif.Spec.RoundedChief
import Verif.Props.RoundedAperture

/-! # C97: how far the matrix up to a rounded position is from the exact one -/

set_option linter.unusedSectionVars false

namespace RT
open PyNum Ext Fl
variable {K : Type} [Field K] [LinearOrder K] [IsStrictOrderedRing K]
variable {rnd : K → K} {u : K}

/-- a computed number, its exact value and the error -/
def Reads (err : K) (x : Fl K rnd) (a : K) : Prop := ∃ x', x = num x' ∧ |x' - a| ≤ err

/-- what rounding may change in a position asked of `transferMatrix` -/
def posErr (u : K) (p : Part K) (z : K) : K := relErr u p.cutOps * (z + p.rmat.maj.len)

/-- **C97**. The matrix returned by `transferMatrix(upTo=z)` is, up to the rounding errors on its coefficients, the exact one of the beginning of the system
cut at a position that differs from `z` by rounding errors; the matrix of the whole system only when its end is not after `z` by more than these. -/
theorem C97_where (hr : Rounding rnd u) {p : Part K} {e : Elem (Fl K rnd)} (hb : p.buildR rnd = .ok e) {z : K} (hz : 0 ≤ z) {m : Mat (Fl K rnd)}
    (h : e.transferMatrix (num z) = .ok m) :
    ∃ v s, p.UpTo v s ∧ (|v - z| ≤ posErr u p z ∨ s = p.rmat ∧ v = p.rmat.exact.len ∧ v ≤ z + posErr u p z) ∧
      Reads (relErr u s.ops * s.maj.a) m.A s.exact.a ∧ Reads (relErr u s.ops * s.maj.b) m.B s.exact.b ∧
      Reads (relErr u s.ops * s.maj.c) m.C s.exact.c ∧ Reads (relErr u s.ops * s.maj.d) m.D s.exact.d := by
  have key : ∀ {k : ℕ} {x : Fl K rnd} {a A : K}, Fl.Near u k x a A → Reads (relErr u k * A) x a := by
    rintro k x a A ⟨x', h1, -, h3⟩; exact ⟨x', h1, h3⟩
  have := cut_near hr (buildR_shows hr hb) hz (k := 0) (d := z) (D := z) (by rw [abs_of_nonneg hz]) (by simp) h
  rw [Nat.zero_add] at this
  rcases this with ⟨v, s, h1, h2, h3⟩ | ⟨h1, h2⟩
  · exact ⟨v, s, .inl h1, .inl h3, key h2.A, key h2.B, key h2.C, key h2.D⟩
  · exact ⟨_, _, .inr ⟨rfl, rfl⟩, .inr ⟨rfl, rfl, h2⟩, key h1.A, key h1.B, key h1.C, key h1.D⟩

theorem upTo_heights {S : K} {p : Part K} {r : K × K} (hS : p.Slope S r) {v z : K} {s s0 : RStage K} (h1 : p.UpTo v s) (h2 : p.CutAt z s0) :
    |(s.exact.out r).1 - (s0.exact.out r).1| ≤ S * |v - z| ∧ z ≤ p.rmat.exact.len ∧ 0 ≤ v := by
  obtain ⟨f, h3, h4⟩ := slope_heights hS
  obtain ⟨b1, b2, b3⟩ := h4 z s0 h2
  rcases h1 with h1 | ⟨rfl, rfl⟩
  · obtain ⟨c1, c2, c3⟩ := h4 v s h1
    rw [b3, c3]
    exact ⟨h3.near c1 c2 b1 b2, b2, c1⟩
  · rw [b3, ← h3.stop]
    exact ⟨h3.near h3.nonneg le_rfl b1 b2, b2, h3.nonneg⟩

/-- The coefficients that give heights, A and B, are those of the exact position: rounding a position moves the height of a ray by at most its slope times the
errors on positions. `s` is the cut found in floats, `s0` the one at the exact position `z0`. -/
theorem C97_heights (hr : Rounding rnd u) {p : Part K} {e : Elem (Fl K rnd)} (hb : p.buildR rnd = .ok e) {S z z0 : K} (hz : 0 ≤ z)
    (hS1 : p.Slope S (1, 0)) (hS2 : p.Slope S (0, 1)) (hS : 0 ≤ S) {s0 : RStage K} (h0 : p.CutAt z0 s0) {m : Mat (Fl K rnd)}
    (h : e.transferMatrix (num z) = .ok m) :
    ∃ v s, p.UpTo v s ∧ |v - z0| ≤ |z - z0| + posErr u p z ∧
      Reads (relErr u s.ops * s.maj.a + S * (|z - z0| + posErr u p z)) m.A s0.exact.a ∧
      Reads (relErr u s.ops * s.maj.b + S * (|z - z0| + posErr u p z)) m.B s0.exact.b := by
  obtain ⟨v, s, h1, h2, ⟨A, hA, hA'⟩, ⟨B, hB, hB'⟩, -, -⟩ := C97_where hr hb hz h
  obtain ⟨e1, e2, e3⟩ := upTo_heights hS1 h1 h0
  obtain ⟨f1, -, -⟩ := upTo_heights hS2 h1 h0
  simp only [Stage.out, mul_one, mul_zero, add_zero, zero_add] at e1 f1
  have hp : 0 ≤ posErr u p z := by
    unfold posErr
    have := (buildR_mat hr hb).L.nonneg
    exact mul_nonneg (relErr_nonneg hr.nonneg _) (by linarith)
  have hv : |v - z0| ≤ |z - z0| + posErr u p z := by
    rcases h2 with h2 | ⟨-, h3, h4⟩
    · have := abs_sub_le v z z0
      linarith
    · rw [abs_of_nonneg (by linarith)]
      have := le_abs_self (z - z0)
      linarith
  have hm := mul_le_mul_of_nonneg_left hv hS
  refine ⟨v, s, h1, hv, ⟨A, hA, ?_⟩, ⟨B, hB, ?_⟩⟩
  · have := abs_sub_le A s.exact.a s0.exact.a
    linarith
  · have := abs_sub_le B s.exact.b s0.exact.b
    linarith

/-- `[Space(0.4), Space(0.1), Lens(f=10, diameter=1), Space(10)]` -/
def lensStop : Part ℚ := .group "" [.space (double (4 / 10)) 1 none, .space (double (1 / 10)) 1 none, .lens 10 (some 1), .space 10 1 none]

/-- the last two coefficients of the matrix up to the aperture stop -/
def upToStop {F : Type} [PyNum F] (e : Except PyErr (Elem F)) : Except PyErr (F × F) := do
  match ← e with
  | .leaf _ => throw .valueError
  | .group m c es =>
    match ← (Group.mk m c es).apertureStop.run (newTrace (Group.mk m c es)) with
    | (some z, _) => let t ← (Group.mk m c es).transferMatrix z; pure (t.C, t.D)
    | _ => throw .valueError

/-- Violated for angles: a lens that is the aperture stop belongs to the matrix up to the stop in exact numbers, with the same lengths, and not in floats, where
0.4 + 0.1 - 0.4 < 0.1; C, which gives the angles, is then 0 instead of -1/10. -/
theorem C97_violated_angles : (upToStop lensStop.build).map Prod.fst = .ok (fin (-1 / 10)) ∧
    upToStop (lensStop.buildR double) = .ok (num 0, num 1) := by
  decide +kernel

/-- `[Space(10), Lens(f=10, diameter=4), Space(10)]` -/
def lensPath : Part ℚ := .group "" [.space 10 1 none, .lens 10 (some 4), .space 10 1 none]

/-- the hypotheses hold for a path with a lens: slopes below 1; the height of a ray in the middle of the second space -/
theorem C97_example_heights : lensPath.Slope 1 (1, 0) ∧ lensPath.Slope 1 (0, 1) ∧ ∃ s, lensPath.CutAt 15 s ∧ s.exact.a = 1 / 2 ∧ s.exact.b = 10 := by
  refine ⟨?_, ?_, ?_⟩
  · simp [lensPath, Part.Slope, Part.SlopeList, Part.rmat, Part.rstages, Stage.withOps, Sys.space, Sys.lens, Sys.stage, Stage.out]
    norm_num [abs_le]
  · simp [lensPath, Part.Slope, Part.SlopeList, Part.rmat, Part.rstages, Stage.withOps, Sys.space, Sys.lens, Sys.stage, Stage.out]
  · refine ⟨((RStage.one.andThen (Part.space 10 1 none : Part ℚ).rmat).andThen (Part.lens 10 (some 4) : Part ℚ).rmat).andThen
      (((Sys.space 5 1).stage none none).withOps 0), ?_, ?_, ?_⟩
    · simp only [lensPath, Part.CutAt, Part.CutList]
      refine .inr (.inr ⟨5, by norm_num [Part.rmat, Part.rstages, Stage.withOps, Sys.space, Sys.stage], .inr (.inr ⟨5, ?_, .inr (.inl ⟨_, ⟨by norm_num, by norm_num, rfl⟩, rfl⟩)⟩)⟩)
      norm_num [Part.rmat, Part.rstages, Stage.withOps, Sys.lens, Sys.stage]
    · simp [RStage.andThen, Stage.andThen, RStage.one, Stage.withOps, Sys.space, Sys.stage, Sys.lens, Part.rmat, Part.rstages]
      norm_num
    · simp [RStage.andThen, Stage.andThen, RStage.one, Stage.withOps, Sys.space, Sys.stage, Sys.lens, Part.rmat, Part.rstages]
      try norm_num

end RT
