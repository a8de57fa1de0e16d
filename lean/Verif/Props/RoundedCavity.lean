import Verif.Lemmas.RoundedBeam
import Verif.Props.RoundedImaging

/-! # C113: the stability of cavities in floats -/

set_option linter.unusedSectionVars false

namespace RT
open PyNum Ext Fl

variable {K : Type} [Field K] [LinearOrder K] [IsStrictOrderedRing K]
variable {rnd : K → K} {u : K}

/-- How far from the limit of stability a cavity must be: the rounding error on the discriminant of its round trip. -/
def Part.stabilityErr (u : K) (p : Part K) : K := relErr u (2 * p.rmat.ops + 4) * p.rmat.deltaMaj

/-- **C113**, for every cavity that can be built (any nesting), whose round trip has unit determinant and an optical power above the tolerance, and
which is not within rounding errors of the limit of stability: `isStable` in floats says what the criterion |A + D| < 2 says of the exact round
trip, and there is one laser mode when it is stable and none when it is not. Any square root that is positive on positive numbers. -/
theorem C113_stable [PyMath (Fl K rnd)] (hr : Rounding rnd u) (hq : SqrtOk rnd) {p : Part K} {e : Elem (Fl K rnd)} {e' : Elem (Ext K)}
    (hb : p.buildR rnd = .ok e) (hb' : p.build = .ok e') {a b c d : K} (ha : e'.mat.A = fin a) (hB : e'.mat.B = fin b) (hc : e'.mat.C = fin c)
    (hd : e'.mat.D = fin d) (hdet : a * d - b * c = 1) (hpow : (1 + u) * (1 / 100000) < |c| - p.err u p.rmat.maj.c)
    (hfar : p.stabilityErr u < |(a + d) ^ 2 - 4|) :
    e.mat.isStable = .ok (decide (|a + d| < 2)) ∧
    ∃ modes, e.mat.laserModes = .ok modes ∧ modes.length = if |a + d| < 2 then 1 else 0 := by
  have hm := buildR_mat hr hb
  have hx := build_exactMat hb'
  have ea : p.rmat.exact.a = a := by have := hx.A; rw [ha] at this; exact (Ext.fin.inj this).symm
  have eb : p.rmat.exact.b = b := by have := hx.B; rw [hB] at this; exact (Ext.fin.inj this).symm
  have ec : p.rmat.exact.c = c := by have := hx.C; rw [hc] at this; exact (Ext.fin.inj this).symm
  have ed : p.rmat.exact.d = d := by have := hx.D; rw [hd] at this; exact (Ext.fin.inj this).symm
  have hp := (C98_focal hr hb hb' hc le_rfl hpow).1
  obtain ⟨δ, h1, -, h2⟩ := near_delta hr hm
  obtain ⟨b', h3, -⟩ := hm.D.sub hr hm.A
  obtain ⟨c', h4, -⟩ := hm.C
  have e0 : p.rmat.delta = (a + d) ^ 2 - 4 := by
    unfold RStage.delta
    rw [ea, eb, ec, ed]
    linear_combination (-4) * hdet
  rw [e0] at h2
  have h5 : |δ - ((a + d) ^ 2 - 4)| < |(a + d) ^ 2 - 4| := lt_of_le_of_lt h2 hfar
  have hiff : δ < 0 ↔ |a + d| < 2 := by
    rw [← abs_two, ← sq_lt_sq]
    have e2 : (a + d) ^ 2 < 2 ^ 2 ↔ (a + d) ^ 2 - 4 < 0 := by rw [sub_neg]; norm_num
    rw [e2]
    generalize (a + d) ^ 2 - 4 = t at h5 ⊢
    rw [abs_lt] at h5
    constructor
    · intro h
      by_contra h'
      rw [abs_of_nonneg (not_lt.1 h')] at h5
      linarith [h5.1]
    · intro h
      rw [abs_of_neg h] at h5
      linarith [h5.2]
  obtain ⟨modes, g1, g2⟩ := modes_num hr hq hp h3 h4 h1
  refine ⟨?_, modes, g1, ?_⟩
  · rw [stable_num hr hq hp h3 h4 h1]
    congr 1
    exact decide_eq_decide.2 hiff
  · rw [g2]
    by_cases h : δ < 0
    · rw [if_pos h, if_pos (hiff.1 h)]
    · rw [if_neg h, if_neg (fun h' => h (hiff.2 h'))]

/-- When the power is below the tolerance by more than the errors there is no mode. -/
theorem C113_noPower [PyMath (Fl K rnd)] (hr : Rounding rnd u) {p : Part K} {e : Elem (Fl K rnd)} {e' : Elem (Ext K)} (hb : p.buildR rnd = .ok e)
    (hb' : p.build = .ok e') {c : K} (hc : e'.mat.C = fin c) (hpow : |c| + p.err u p.rmat.maj.c ≤ (1 - u) * (1 / 100000)) :
    e.mat.laserModes = .ok [] ∧ e.mat.isStable = .ok false := by
  obtain ⟨-, -, ⟨x, y, hx, hy, h⟩, -, -⟩ := C96_matrix hr hb hb'
  rw [hc] at hy; cases hy
  have hp : e.mat.hasPower = false := by
    unfold Mat.hasPower isNotZero
    rw [hx, eps_num, abs_num, lt_num, decide_eq_false_iff_not, not_lt]
    have h1 : |x| ≤ |x - c| + |c| := by simpa using abs_add_le (x - c) c
    unfold Part.err at hpow
    linarith [(rnd_eps hr).1]
  have e1 : e.mat.laserModes = .ok [] := by
    unfold Mat.laserModes Mat.eigenModes
    rw [hp]
    rfl
  refine ⟨e1, ?_⟩
  unfold Mat.isStable
  rw [e1]
  rfl

/-! ## Square roots of floats -/

/-- a square root of a rational number by the one of a natural number, to more than 60 binary digits, then rounded -/
def doubleSqrt (q : ℚ) : ℚ :=
  let k := Nat.log 2 q.den + 60
  double ((Nat.sqrt (Int.toNat ⌊q * 4 ^ k⌋) : ℚ) / 2 ^ k)

theorem doubleSqrt_pos {q : ℚ} (h : 0 < q) : 0 < doubleSqrt q := by
  unfold doubleSqrt
  refine double_rounding.pos (div_pos ?_ (by positivity))
  have h1 : (1 : ℚ) ≤ q * 4 ^ (Nat.log 2 q.den + 60) := by
    have h2 : (1 : ℚ) ≤ q * q.den := by
      rw [Rat.mul_den_eq_num]
      exact_mod_cast Rat.num_pos.2 h
    have h3 : (q.den : ℚ) ≤ 4 ^ (Nat.log 2 q.den + 60) := by
      have : q.den < 4 ^ (Nat.log 2 q.den + 60) := (Nat.lt_pow_succ_log_self (by norm_num : 1 < 2) q.den).trans_le
        ((Nat.pow_le_pow_left (by norm_num) _).trans (Nat.pow_le_pow_right (by norm_num) (by omega)))
      exact_mod_cast this.le
    nlinarith
  have h4 : 1 ≤ ⌊q * 4 ^ (Nat.log 2 q.den + 60)⌋ := by rw [Int.le_floor]; exact_mod_cast h1
  have h5 : 0 < Nat.sqrt (Int.toNat ⌊q * 4 ^ (Nat.log 2 q.den + 60)⌋) := Nat.sqrt_pos.2 (by omega)
  exact_mod_cast h5

/-- Python floats with this square root (`pi` is not used by cavities) -/
@[reducible] def doubleMath : PyMath Double where
  sqrt x := match x.val with
    | .fin q => num (doubleSqrt q)
    | y => ⟨y⟩
  pi := num (double (355 / 113))

theorem doubleMath_sqrtOk : @SqrtOk ℚ _ _ double doubleMath := by
  intro x _
  exact ⟨_, rfl, doubleSqrt_pos⟩

/-! ## Examples -/

/-- a ring of length `L` closed by a lens of focal length 49 -/
def ringOf (L : ℚ) : Part ℚ := .group "" [.space L 1 none, .lens 49 none]

/-- what the hypotheses of `C113_stable` ask of the exact ring, for a criterion -/
def ringChecks (L : ℚ) : Bool :=
  match (ringOf L).build, (ringOf L).buildR double with
  | .ok e', .ok _ =>
    (match e'.mat.A, e'.mat.B, e'.mat.C, e'.mat.D with
    | .fin a, .fin b, .fin c, .fin d => decide (a * d - b * c = 1 ∧ (1 + 1 / 2 ^ 53) * (1 / 100000) < |c| - (ringOf L).err (1 / 2 ^ 53) (ringOf L).rmat.maj.c ∧
        (ringOf L).stabilityErr (1 / 2 ^ 53) < |(a + d) ^ 2 - 4|)
    | _, _, _, _ => false)
  | _, _ => false

theorem ring_checked {L : ℚ} (h : ringChecks L = true) : ∃ (e : Elem Double) (e' : Elem (Ext ℚ)) (a d : ℚ), (ringOf L).buildR double = .ok e ∧
    (ringOf L).build = .ok e' ∧ e'.mat.A = fin a ∧ e'.mat.D = fin d ∧
    ∀ [PyMath Double], SqrtOk double → e.mat.isStable = .ok (decide (|a + d| < 2)) := by
  unfold ringChecks at h
  split at h
  · next e' e h1 h2 =>
    split at h
    · next a b c d ha hb hc hd =>
      obtain ⟨g1, g2, g3⟩ := of_decide_eq_true h
      exact ⟨e, e', a, d, h2, h1, ha, hd, fun hq => (C113_stable C95_double hq h2 h1 ha hb hc hd g1 g2 g3).1⟩
    · cases h
  · cases h

/-- The hypotheses hold at a thousandth of the limit, on both sides: the rings of length 195.999 and 196.001 are told apart in Python floats. -/
theorem C113_example : ringChecks (195999 / 1000) = true ∧ ringChecks (196001 / 1000) = true := by
  constructor <;> decide +kernel

/-- Violated at the limit: the ring of length 4 f, with f = 49, has A + D = -2 exactly, and is not stable. In Python floats it is reported stable, with
a laser mode: the discriminant, which is 0, comes out as -1.8e-15. Whatever the square root. -/
theorem C113_violated : ∃ (e : Elem Double) (e' : Elem (Ext ℚ)), (ringOf 196).buildR double = .ok e ∧ (ringOf 196).build = .ok e' ∧
    e'.mat.A = fin 1 ∧ e'.mat.D = fin (-3) ∧ (∀ [PyMath Double], SqrtOk double → e.mat.isStable = .ok true) := by
  have h : (match (ringOf 196).build, (ringOf 196).buildR double with
    | .ok e', .ok e => decide (e'.mat.A = fin 1 ∧ e'.mat.D = fin (-3) ∧ e.mat.hasPower = true ∧ e.mat.D - e.mat.A = num (-9007199254740991 / 2 ^ 51) ∧
        e.mat.C = num (double (-1 / 49)) ∧ (e.mat.D - e.mat.A) * (e.mat.D - e.mat.A) - 4 * e.mat.C * (-e.mat.B) = num (-1 / 2 ^ 49))
    | _, _ => false) = true := by decide +kernel
  split at h
  · next e' e h1 h2 =>
    obtain ⟨g1, g2, g3, g4, g5, g6⟩ := of_decide_eq_true h
    refine ⟨e, e', h2, h1, g1, g2, fun hq => ?_⟩
    rw [stable_num C95_double hq g3 g4 g5 g6]
    norm_num
  · cases h

end RT
