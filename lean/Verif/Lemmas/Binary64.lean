import Verif.Model.Binary64
import Verif.Spec.Binary64
import Verif.Lemmas.RoundedBuild
import Verif.Lemmas.Double

/-! # Binary64 numbers of moderate magnitude

For them the bounds on the exponents do not matter: the results are those of `Fl ℚ double`. -/

set_option linter.unusedSectionVars false

namespace RT
open PyNum Ext

private theorem two_ne : (2 : ℚ) ≠ 0 := by norm_num

theorem one_div_two_pow (k : ℕ) : (1 : ℚ) / 2 ^ k = 2 ^ (-(k : Int)) := by rw [zpow_neg, zpow_natCast, one_div]

theorem double_zpow (k : Int) : double ((2 : ℚ) ^ k) = (2 : ℚ) ^ k := by
  have hp : (0 : ℚ) < (2 : ℚ) ^ k := by positivity
  have hk : binade ((2 : ℚ) ^ k) = k := by
    obtain ⟨b1, b2⟩ := binade_spec hp.ne'
    rw [abs_of_pos hp] at b1 b2
    have c1 := (zpow_le_zpow_iff_right₀ (by norm_num : (1 : ℚ) < 2)).1 b1
    have c2 := (zpow_lt_zpow_iff_right₀ (by norm_num : (1 : ℚ) < 2)).1 b2
    omega
  unfold double
  rw [if_neg (by positivity), hk, pow2_eq]
  have e : (2 : ℚ) ^ k / 2 ^ (k - 52) = ((2 ^ 52 : Int) : ℚ) := by
    rw [← zpow_sub₀ two_ne]
    have : k - (k - 52) = 52 := by ring
    rw [this]; norm_num
  rw [e, roundEven_int, ← e]
  field_simp

theorem double_abs (x : ℚ) : |double x| = double |x| := by
  rcases le_total 0 x with h | h
  · rw [abs_of_nonneg h, abs_of_nonneg (double_nonneg h)]
  · rw [abs_of_nonpos h, double_neg, abs_of_nonpos]
    have := double_nonneg (x := -x) (by linarith)
    rw [double_neg] at this; linarith

theorem Moderate.le {k : ℕ} {x : ℚ} (h : Moderate k x) : |x| ≤ 2 ^ k := by
  rcases h with rfl | ⟨-, h⟩
  · rw [abs_zero]; positivity
  · exact h

theorem Moderate.binade_ge {k : ℕ} {x : ℚ} (h : Moderate k x) (h0 : x ≠ 0) : -(k : Int) ≤ binade x := by
  rcases h with h | ⟨h, -⟩
  · exact absurd h h0
  obtain ⟨-, b⟩ := binade_spec h0
  rw [one_div_two_pow] at h
  have := (zpow_lt_zpow_iff_right₀ (by norm_num : (1 : ℚ) < 2)).1 (h.trans_lt b)
  omega

theorem moderate_double {k : ℕ} {x : ℚ} (h : Moderate k x) : Moderate k (double x) := by
  rcases h with rfl | ⟨h1, h2⟩
  · exact .inl double_zero
  · refine .inr ⟨?_, ?_⟩
    · rw [double_abs, one_div_two_pow, ← double_zpow]
      apply double_mono
      rwa [← one_div_two_pow]
    · have e : (2 : ℚ) ^ k = 2 ^ (k : Int) := by rw [zpow_natCast]
      rw [double_abs, e, ← double_zpow]
      apply double_mono
      rwa [← e]

theorem Moderate.mono {k l : ℕ} {x : ℚ} (h : Moderate k x) (hkl : k ≤ l) : Moderate l x := by
  rcases h with rfl | ⟨h1, h2⟩
  · exact .inl rfl
  · refine .inr ⟨le_trans ?_ h1, h2.trans ?_⟩
    · exact one_div_le_one_div_of_le (by positivity) (pow_le_pow_right₀ (by norm_num) hkl)
    · exact pow_le_pow_right₀ (by norm_num) hkl

theorem Moderate.neg {k : ℕ} {x : ℚ} (h : Moderate k x) : Moderate k (-x) := by
  unfold Moderate at *; rwa [neg_eq_zero, abs_neg]

theorem Moderate.mul {k l : ℕ} {x y : ℚ} (hx : Moderate k x) (hy : Moderate l y) : Moderate (k + l) (x * y) := by
  rcases hx with rfl | ⟨h1, h2⟩
  · exact .inl (zero_mul _)
  rcases hy with rfl | ⟨h3, h4⟩
  · exact .inl (mul_zero _)
  refine .inr ⟨?_, ?_⟩
  · rw [abs_mul]
    calc (1 : ℚ) / 2 ^ (k + l) = 1 / 2 ^ k * (1 / 2 ^ l) := by rw [pow_add]; field_simp
      _ ≤ _ := by gcongr
  · rw [abs_mul, pow_add]; gcongr

theorem Moderate.inv {k : ℕ} {x : ℚ} (hx : Moderate k x) : Moderate k x⁻¹ := by
  rcases hx with rfl | ⟨h1, h2⟩
  · exact .inl inv_zero
  have h0 : 0 < |x| := lt_of_lt_of_le (by positivity) h1
  refine .inr ⟨?_, ?_⟩
  · rw [abs_inv, ← one_div]; exact one_div_le_one_div_of_le h0 h2
  · rw [abs_inv, ← one_div]
    have := one_div_le_one_div_of_le (by positivity) h1
    rwa [one_div_one_div] at this

theorem Moderate.div {k l : ℕ} {x y : ℚ} (hx : Moderate k x) (hy : Moderate l y) : Moderate (k + l) (x / y) := by
  rw [div_eq_mul_inv]; exact hx.mul hy.inv

/-- a number of 53 bits, of moderate magnitude -/
def Good (k : ℕ) (x : ℚ) : Prop := double x = x ∧ Moderate k x

theorem Moderate.good {k : ℕ} {x : ℚ} (h : Moderate k x) : Good k (double x) := ⟨double_idem x, moderate_double h⟩

theorem Good.mono {k l : ℕ} {x : ℚ} (h : Good k x) (hkl : k ≤ l) : Good l x := ⟨h.1, h.2.mono hkl⟩

theorem Good.neg {k : ℕ} {x : ℚ} (h : Good k x) : Good k (-x) := ⟨by rw [double_neg, h.1], h.2.neg⟩

/-- its last bit is not below 2^-(k+52) -/
theorem Good.grid {k : ℕ} {x : ℚ} (h : Good k x) : ∃ i : Int, x = i * 2 ^ (-(k : Int) - 52) := by
  by_cases h0 : x = 0
  · exact ⟨0, by simp [h0]⟩
  have hb := h.2.binade_ge h0
  obtain ⟨j, hj⟩ := Int.eq_ofNat_of_zero_le (by omega : 0 ≤ binade x - 52 - (-(k : Int) - 52))
  refine ⟨roundEven (x / pow2 (binade x - 52)) * 2 ^ j, ?_⟩
  conv_lhs => rw [← h.1]
  unfold double
  rw [if_neg h0]
  push_cast
  rw [mul_assoc]
  congr 1
  rw [pow2_eq, ← zpow_natCast, ← zpow_add₀ two_ne]
  congr 1
  omega

theorem Good.add {k : ℕ} {x y : ℚ} (hx : Good k x) (hy : Good k y) : Moderate (k + 52) (x + y) := by
  obtain ⟨i, hi⟩ := hx.grid
  obtain ⟨j, hj⟩ := hy.grid
  by_cases h0 : x + y = 0
  · exact .inl h0
  refine .inr ⟨?_, ?_⟩
  · have e : x + y = ((i + j : Int) : ℚ) * 2 ^ (-(k : Int) - 52) := by push_cast; rw [hi, hj]; ring
    have hij : i + j ≠ 0 := by
      intro h; rw [h] at e; simp at e; exact h0 e
    have h1 : (1 : ℚ) ≤ |((i + j : Int) : ℚ)| := by
      rw [← Int.cast_abs]
      exact_mod_cast Int.one_le_abs hij
    rw [e, abs_mul, abs_of_pos (by positivity : (0 : ℚ) < 2 ^ (-(k : Int) - 52))]
    have e2 : (1 : ℚ) / 2 ^ (k + 52) = 2 ^ (-(k : Int) - 52) := by
      rw [one_div_two_pow]; congr 1; push_cast; ring
    rw [e2]
    have : (0 : ℚ) < 2 ^ (-(k : Int) - 52) := by positivity
    nlinarith
  · refine (abs_add_le _ _).trans ((add_le_add hx.2.le hy.2.le).trans ?_)
    rw [pow_add]
    have : (0 : ℚ) < 2 ^ k := by positivity
    nlinarith [show (2 : ℚ) ≤ 2 ^ 52 by norm_num]

/-- the result of rounding before looking for overflow -/
def round64 (x : ℚ) : ℚ := if x = 0 then 0 else (roundEven (x / pow2 (lastBit x)) : ℚ) * pow2 (lastBit x)

theorem double64_small {x b : ℚ} (h : |round64 x| ≤ b) (hb : b < pow2 1024) : double64 x = .fin (round64 x) := by
  unfold double64
  rw [_root_.abs_le] at h
  have h1 : ¬ pow2 1024 ≤ round64 x := not_le.2 (h.2.trans_lt hb)
  have h2 : ¬ round64 x ≤ -pow2 1024 := not_le.2 (lt_of_lt_of_le (neg_lt_neg hb) h.1)
  change (if pow2 1024 ≤ round64 x then _ else if round64 x ≤ -pow2 1024 then _ else _) = _
  rw [if_neg h1, if_neg h2]
  rfl

theorem two_pow_lt {k : ℕ} (h : k < 1024) : (2 : ℚ) ^ k < pow2 1024 := by
  rw [pow2_eq, ← zpow_natCast]
  exact zpow_lt_zpow_right₀ (by norm_num) (by omega)

/-- The bounds on the exponents do not matter between 2⁻¹⁰⁰⁰ and 2¹⁰⁰⁰. -/
theorem double64_eq {k : ℕ} {x : ℚ} (h : Moderate k x) (hk : k ≤ 1000) : double64 x = .fin (double x) := by
  have hr : round64 x = double x := by
    unfold double round64
    split_ifs with h0
    · rfl
    · have hb := h.binade_ge h0
      have : lastBit x = binade x - 52 := by unfold lastBit; omega
      rw [this]
  rw [← hr]
  refine double64_small ?_ (two_pow_lt (k := k) (by omega))
  rw [hr]
  exact (moderate_double h).le

/-- the smallest number kept with all its bits -/
def tiny : ℚ := pow2 (-1022)

/-- half the bound on the magnitude of numbers -/
def huge : ℚ := pow2 1023

theorem tiny_pos : 0 < tiny := pow2_pos _
theorem huge_pos : 0 < huge := pow2_pos _
theorem tiny_le_huge : tiny ≤ huge := by
  unfold tiny huge; rw [pow2_eq, pow2_eq]
  exact zpow_le_zpow_right₀ (by norm_num) (by omega)
theorem two_huge : 2 * huge = pow2 1024 := by
  unfold huge; rw [pow2_eq, pow2_eq]
  have : (1024 : Int) = 1 + 1023 := by norm_num
  rw [this, zpow_add₀ two_ne, zpow_one]

theorem round64_near (x : ℚ) : |round64 x - x| ≤ unitRoundoff * max |x| tiny := by
  unfold round64
  split_ifs with h0
  · rw [h0]
    have : 0 ≤ unitRoundoff := by norm_num [unitRoundoff]
    rw [sub_zero, abs_zero]
    exact mul_nonneg this (le_max_left _ _)
  · obtain ⟨h1, -⟩ := binade_spec h0
    have hp := pow2_pos (lastBit x)
    have e : (roundEven (x / pow2 (lastBit x)) : ℚ) * pow2 (lastBit x) - x =
        ((roundEven (x / pow2 (lastBit x)) : ℚ) - x / pow2 (lastBit x)) * pow2 (lastBit x) := by
      rw [sub_mul, div_mul_cancel₀ _ hp.ne']
    rw [e, abs_mul, abs_of_pos hp]
    have e1 : |(roundEven (x / pow2 (lastBit x)) : ℚ) - x / pow2 (lastBit x)| * pow2 (lastBit x) ≤ 1 / 2 * pow2 (lastBit x) :=
      mul_le_mul_of_nonneg_right (roundEven_near _) hp.le
    refine e1.trans ?_
    have e2 : (1 / 2 : ℚ) = (2 : ℚ) ^ (-1 : Int) := by norm_num
    rw [unitRoundoff_eq, e2, pow2_eq, ← zpow_add₀ two_ne]
    have hu : (0 : ℚ) ≤ (2 : ℚ) ^ (-53 : Int) := by positivity
    rcases le_total (binade x - 52) (-1074) with hc | hc
    · have e4 : lastBit x = -53 + (-1022) + 1 := by unfold lastBit; omega
      have e3 : (2 : ℚ) ^ (-1 + lastBit x) = 2 ^ (-53 : Int) * tiny := by
        unfold tiny
        rw [pow2_eq, ← zpow_add₀ two_ne]; congr 1; omega
      rw [e3]
      exact mul_le_mul_of_nonneg_left (le_max_right _ _) hu
    · have e4 : lastBit x = binade x - 52 := by unfold lastBit; omega
      have e3 : (2 : ℚ) ^ (-1 + lastBit x) = 2 ^ (-53 : Int) * 2 ^ binade x := by
        rw [← zpow_add₀ two_ne]; congr 1; omega
      rw [e3]
      exact mul_le_mul_of_nonneg_left (h1.trans (le_max_left _ _)) hu

/-- The error of rounding, underflow included, when there is no overflow. -/
theorem double64_near {x : ℚ} (h : |x| ≤ huge) :
    ∃ r, double64 x = .fin r ∧ |r - x| ≤ unitRoundoff * max |x| tiny := by
  refine ⟨_, double64_small (b := (1 + 1 / 2) * huge) ?_ ?_, round64_near x⟩
  · have h1 : |round64 x| ≤ |round64 x - x| + |x| := by simpa using abs_add_le (round64 x - x) x
    have h2 := round64_near x
    have h3 : max |x| tiny ≤ huge := max_le h tiny_le_huge
    have hu : unitRoundoff ≤ 1 / 2 := by norm_num [unitRoundoff]
    have h4 : unitRoundoff * max |x| tiny ≤ 1 / 2 * huge :=
      mul_le_mul hu h3 (le_max_of_le_left (abs_nonneg x)) (by norm_num)
    linarith
  · rw [← two_huge]
    have := huge_pos
    linarith

attribute [irreducible] tiny huge

end RT
