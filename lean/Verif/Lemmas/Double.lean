import Verif.Lemmas.Rounded
import Mathlib.Data.Nat.Log
import Mathlib.Algebra.Order.Field.Power
import Mathlib.Data.Rat.Floor

/-! # Python floats round with a relative error at most 2⁻⁵³, monotonically -/

set_option linter.unusedSectionVars false

namespace RT
open PyNum Ext

theorem pow2_eq (k : Int) : pow2 k = (2 : ℚ) ^ k := by
  cases k with
  | ofNat n => simp [pow2]
  | negSucc n => simp [pow2, zpow_negSucc]

theorem pow2_pos (k : Int) : 0 < pow2 k := by rw [pow2_eq]; positivity

theorem binade_spec {x : ℚ} (h : x ≠ 0) : (2 : ℚ) ^ binade x ≤ |x| ∧ |x| < (2 : ℚ) ^ (binade x + 1) := by
  have hN : x.num.natAbs ≠ 0 := by simpa using h
  have hx : |x| = (x.num.natAbs : ℚ) / (x.den : ℚ) := by
    conv_lhs => rw [← Rat.num_div_den x]
    rw [abs_div, Nat.abs_cast, ← Int.cast_abs, Int.abs_eq_natAbs]; rfl
  have hd : (0 : ℚ) < x.den := by exact_mod_cast x.den_pos
  have a1 : ((2 : ℚ) ^ Nat.log2 x.num.natAbs) ≤ (x.num.natAbs : ℚ) := by exact_mod_cast Nat.log2_self_le hN
  have a2 : (x.num.natAbs : ℚ) < (2 : ℚ) ^ (Nat.log2 x.num.natAbs + 1) := by exact_mod_cast Nat.lt_log2_self
  have b1 : ((2 : ℚ) ^ Nat.log2 x.den) ≤ (x.den : ℚ) := by exact_mod_cast Nat.log2_self_le x.den_ne_zero
  have b2 : (x.den : ℚ) < (2 : ℚ) ^ (Nat.log2 x.den + 1) := by exact_mod_cast Nat.lt_log2_self
  have two : (2 : ℚ) ≠ 0 := by norm_num
  set a := Nat.log2 x.num.natAbs
  set b := Nat.log2 x.den
  have up : |x| < (2 : ℚ) ^ ((a : Int) - b + 1) := by
    rw [hx, div_lt_iff₀ hd]
    calc (x.num.natAbs : ℚ) < (2 : ℚ) ^ (a + 1) := a2
      _ = (2 : ℚ) ^ ((a : Int) - b + 1) * (2 : ℚ) ^ b := by
          rw [← zpow_natCast, ← zpow_natCast, ← zpow_add₀ two]; congr 1; push_cast; ring
      _ ≤ _ := by gcongr
  have lo : (2 : ℚ) ^ ((a : Int) - b - 1) ≤ |x| := by
    rw [hx, le_div_iff₀ hd]
    calc (2 : ℚ) ^ ((a : Int) - b - 1) * (x.den : ℚ) ≤ (2 : ℚ) ^ ((a : Int) - b - 1) * (2 : ℚ) ^ (b + 1) := by gcongr
      _ = (2 : ℚ) ^ a := by rw [← zpow_natCast, ← zpow_natCast, ← zpow_add₀ two]; congr 1; push_cast; ring
      _ ≤ _ := a1
  unfold binade
  dsimp only
  split_ifs with hc
  · rw [pow2_eq] at hc; exact ⟨hc, up⟩
  · rw [pow2_eq] at hc
    push Not at hc
    exact ⟨lo, by rwa [sub_add_cancel]⟩

theorem roundEven_near (q : ℚ) : |(roundEven q : ℚ) - q| ≤ 1 / 2 := by
  have h1 : (q.floor : ℚ) ≤ q := Int.floor_le q
  have h2 : q < (q.floor : ℚ) + 1 := Int.lt_floor_add_one q
  unfold roundEven
  dsimp only
  split_ifs <;> rw [abs_le] <;> push_cast <;> constructor <;> linarith

theorem double_rel (x : ℚ) : |double x - x| ≤ (2 : ℚ) ^ (-53 : Int) * |x| := by
  unfold double
  split_ifs with h
  · simp [h]
  · obtain ⟨h1, -⟩ := binade_spec h
    rw [pow2_eq]
    set k := binade x
    have hp : (0 : ℚ) < (2 : ℚ) ^ (k - 52) := by positivity
    have e : (roundEven (x / 2 ^ (k - 52)) : ℚ) * 2 ^ (k - 52) - x =
        ((roundEven (x / 2 ^ (k - 52)) : ℚ) - x / 2 ^ (k - 52)) * 2 ^ (k - 52) := by
      field_simp
    rw [e, abs_mul, abs_of_pos hp]
    calc _ ≤ 1 / 2 * (2 : ℚ) ^ (k - 52) := by gcongr; exact roundEven_near _
      _ = (2 : ℚ) ^ (-53 : Int) * (2 : ℚ) ^ k := by
          have : (1 / 2 : ℚ) = (2 : ℚ) ^ (-1 : Int) := by norm_num
          rw [this, ← zpow_add₀ (by norm_num), ← zpow_add₀ (by norm_num)]; congr 1; ring
      _ ≤ _ := by gcongr

theorem double_one : double 1 = 1 := by decide +kernel
theorem double_two : double 2 = 2 := by decide +kernel

/-- unit roundoff of binary64 -/
def unitRoundoff : ℚ := 1 / 9007199254740992

theorem unitRoundoff_eq : unitRoundoff = (2 : ℚ) ^ (-53 : Int) := by norm_num [unitRoundoff]

/-- Rounding to binary64 is a rounding of relative error 2⁻⁵³. -/
theorem double_rounding : Rounding double unitRoundoff where
  nonneg := by norm_num [unitRoundoff]
  small := by norm_num [unitRoundoff]
  rel x := by rw [unitRoundoff_eq]; exact double_rel x
  one := double_one
  two := double_two

/-! ## Monotonicity -/

theorem roundEven_mono {p q : ℚ} (h : p ≤ q) : roundEven p ≤ roundEven q := by
  have p1 : (p.floor : ℚ) ≤ p := Int.floor_le p
  have p2 : p < (p.floor : ℚ) + 1 := Int.lt_floor_add_one p
  have q1 : (q.floor : ℚ) ≤ q := Int.floor_le q
  have q2 : q < (q.floor : ℚ) + 1 := Int.lt_floor_add_one q
  have hf : p.floor ≤ q.floor := by
    have : (p.floor : ℚ) < (q.floor : ℚ) + 1 := by linarith
    have : p.floor < q.floor + 1 := by exact_mod_cast this
    omega
  rcases hf.eq_or_lt with he | hlt
  · unfold roundEven
    dsimp only
    rw [he] at p1 p2 ⊢
    split_ifs <;> first | omega | (exfalso; linarith)
  · have a : roundEven p ≤ p.floor + 1 := by unfold roundEven; dsimp only; split_ifs <;> omega
    have b : q.floor ≤ roundEven q := by unfold roundEven; dsimp only; split_ifs <;> omega
    omega

theorem roundEven_int (n : Int) : roundEven (n : ℚ) = n := by
  unfold roundEven
  have : (n : ℚ).floor = n := Int.floor_intCast (R := ℚ) n
  rw [this]; simp

theorem double_neg (x : ℚ) : double (-x) = -double x := by
  by_cases h : x = 0
  · simp [h, double]
  have hb : binade (-x) = binade x := by unfold binade; simp
  unfold double
  rw [if_neg h, if_neg (neg_ne_zero.2 h), hb, neg_div]
  have key : ∀ q : ℚ, roundEven (-q) = -roundEven q := by
    intro q
    have q1 : (q.floor : ℚ) ≤ q := Int.floor_le q
    have q2 : q < (q.floor : ℚ) + 1 := Int.lt_floor_add_one q
    rcases q1.eq_or_lt with he | hlt
    · have e1 := roundEven_int q.floor
      have e2 := roundEven_int (-q.floor)
      rw [he] at e1
      push_cast at e2
      rw [he] at e2
      rw [e1, e2]
    · have hfl : (-q).floor = -q.floor - 1 := by
        have : ⌊-q⌋ = -q.floor - 1 := by
          rw [Int.floor_eq_iff]; push_cast; constructor <;> linarith
        exact this
      unfold roundEven
      rw [hfl]
      push_cast
      split_ifs <;> first | omega | (exfalso; linarith)
  rw [key]; push_cast; ring

/-- The result is at least the power of two below, and at most the power of two above. -/
theorem double_range {x : ℚ} (h : 0 < x) : (2 : ℚ) ^ binade x ≤ double x ∧ double x ≤ (2 : ℚ) ^ (binade x + 1) := by
  obtain ⟨h1, h2⟩ := binade_spec h.ne'
  rw [abs_of_pos h] at h1 h2
  unfold double
  rw [if_neg h.ne', pow2_eq]
  set k := binade x
  have hp : (0 : ℚ) < (2 : ℚ) ^ (k - 52) := by positivity
  have two : (2 : ℚ) ≠ 0 := by norm_num
  have e1 : (2 : ℚ) ^ k = ((2 ^ 52 : Int) : ℚ) * 2 ^ (k - 52) := by
    have : ((2 ^ 52 : Int) : ℚ) = (2 : ℚ) ^ (52 : Int) := by norm_num
    rw [this, ← zpow_add₀ two]; congr 1; ring
  have e2 : (2 : ℚ) ^ (k + 1) = ((2 ^ 53 : Int) : ℚ) * 2 ^ (k - 52) := by
    have : ((2 ^ 53 : Int) : ℚ) = (2 : ℚ) ^ (53 : Int) := by norm_num
    rw [this, ← zpow_add₀ two]; congr 1; ring
  constructor
  · rw [e1]
    gcongr
    rw [← roundEven_int (2 ^ 52)]
    apply roundEven_mono
    rw [le_div_iff₀ hp, ← e1]; exact h1
  · rw [e2]
    gcongr
    rw [← roundEven_int (2 ^ 53)]
    apply roundEven_mono
    rw [div_le_iff₀ hp, ← e2]; exact h2.le

theorem double_mono_pos {x y : ℚ} (hx : 0 < x) (h : x ≤ y) : double x ≤ double y := by
  have hy : 0 < y := hx.trans_le h
  obtain ⟨h1, h2⟩ := binade_spec hx.ne'
  obtain ⟨h3, h4⟩ := binade_spec hy.ne'
  rw [abs_of_pos hx] at h1 h2
  rw [abs_of_pos hy] at h3 h4
  have hb : binade x ≤ binade y := by
    have : (2 : ℚ) ^ binade x < (2 : ℚ) ^ (binade y + 1) := by linarith
    have := (zpow_lt_zpow_iff_right₀ (by norm_num : (1 : ℚ) < 2)).1 this
    omega
  rcases hb.eq_or_lt with he | hlt
  · unfold double
    rw [if_neg hx.ne', if_neg hy.ne', he]
    have hp := pow2_pos (binade y - 52)
    gcongr
    apply roundEven_mono
    gcongr
  · refine (double_range hx).2.trans (le_trans ?_ (double_range hy).1)
    exact zpow_le_zpow_right₀ (by norm_num) (by omega)

theorem double_zero : double 0 = 0 := by simp [double]

theorem double_nonneg {x : ℚ} (h : 0 ≤ x) : 0 ≤ double x := by
  rcases h.eq_or_lt with rfl | h
  · rw [double_zero]
  · exact (double_rounding.pos h).le

/-- Rounding to binary64 keeps the order. -/
theorem double_mono : Monotone double := by
  intro x y h
  rcases lt_trichotomy x 0 with hx | rfl | hx
  · rcases lt_trichotomy y 0 with hy | rfl | hy
    · have := double_mono_pos (x := -y) (y := -x) (by linarith) (by linarith)
      rw [double_neg, double_neg] at this; linarith
    · have := double_nonneg (x := -x) (by linarith)
      rw [double_neg] at this; rw [double_zero]; linarith
    · have := double_nonneg (x := -x) (by linarith)
      rw [double_neg] at this
      have := double_nonneg hy.le
      linarith
  · rw [double_zero]; exact double_nonneg h
  · exact double_mono_pos hx h

/-- Rounding a number already rounded changes nothing. -/
theorem double_idem (x : ℚ) : double (double x) = double x := by
  have key : ∀ x : ℚ, 0 < x → double (double x) = double x := by
    intro x hx
    obtain ⟨h1, h2⟩ := double_range hx
    have hpos : 0 < double x := lt_of_lt_of_le (by positivity) h1
    have two : (2 : ℚ) ≠ 0 := by norm_num
    have hd : double x = (roundEven (x / pow2 (binade x - 52)) : ℚ) * pow2 (binade x - 52) := by
      conv_lhs => unfold double
      rw [if_neg hx.ne']
    rcases h2.eq_or_lt with he | hlt
    · -- a power of two
      rw [he]
      set k := binade x + 1
      have hk : binade ((2 : ℚ) ^ k) = k := by
        have hp : (0 : ℚ) < (2 : ℚ) ^ k := by positivity
        obtain ⟨b1, b2⟩ := binade_spec hp.ne'
        rw [abs_of_pos hp] at b1 b2
        have c1 := (zpow_le_zpow_iff_right₀ (by norm_num : (1 : ℚ) < 2)).1 b1
        have c2 := (zpow_lt_zpow_iff_right₀ (by norm_num : (1 : ℚ) < 2)).1 b2
        omega
      unfold double
      rw [if_neg (by positivity), hk, pow2_eq]
      have e : (2 : ℚ) ^ k / 2 ^ (k - 52) = ((2 ^ 52 : Int) : ℚ) := by
        rw [← zpow_sub₀ two]
        have : k - (k - 52) = 52 := by ring
        rw [this]; norm_num
      rw [e, roundEven_int, ← e]
      field_simp
    · have hk : binade (double x) = binade x := by
        obtain ⟨b1, b2⟩ := binade_spec hpos.ne'
        rw [abs_of_pos hpos] at b1 b2
        have c1 := (zpow_lt_zpow_iff_right₀ (by norm_num : (1 : ℚ) < 2)).1 (b1.trans_lt hlt)
        have c2 := (zpow_lt_zpow_iff_right₀ (by norm_num : (1 : ℚ) < 2)).1 (h1.trans_lt b2)
        omega
      have e : double x / pow2 (binade x - 52) = (roundEven (x / pow2 (binade x - 52)) : ℚ) := by
        rw [hd, mul_div_assoc, div_self (pow2_pos _).ne', mul_one]
      have hdd : double (double x) = (roundEven (double x / pow2 (binade (double x) - 52)) : ℚ) * pow2 (binade (double x) - 52) := by
        generalize double x = w at hpos
        unfold double
        rw [if_neg hpos.ne']
      rw [hdd, hk, e, roundEven_int]
      exact hd.symm
  rcases lt_trichotomy x 0 with hx | rfl | hx
  · have := key (-x) (by linarith)
    rw [double_neg, double_neg] at this
    linarith
  · rw [double_zero, double_zero]
  · exact key x hx

/-- the floats from 512 to 1024 are the multiples of 2⁻⁴³ -/
theorem double_512 {x : ℚ} (h1 : 512 ≤ x) (h2 : x < 1024) : double x = (roundEven (x * 2 ^ 43) : ℚ) / 2 ^ 43 := by
  have hx : x ≠ 0 := by intro h; rw [h] at h1; norm_num at h1
  obtain ⟨k1, k2⟩ := binade_spec hx
  rw [abs_of_pos (by linarith)] at k1 k2
  have hb : binade x = 9 := by
    have a1 : (2 : ℚ) ^ binade x < (2 : ℚ) ^ (10 : ℤ) := by
      refine k1.trans_lt (h2.trans_le ?_); norm_num
    have a2 : (2 : ℚ) ^ (9 : ℤ) < (2 : ℚ) ^ (binade x + 1) := by
      refine lt_of_le_of_lt ?_ k2; norm_num; exact h1
    have := (zpow_lt_zpow_iff_right₀ (by norm_num : (1 : ℚ) < 2)).1 a1
    have := (zpow_lt_zpow_iff_right₀ (by norm_num : (1 : ℚ) < 2)).1 a2
    omega
  unfold double
  rw [if_neg hx, hb]
  have : pow2 (9 - 52) = 1 / 2 ^ 43 := by decide +kernel
  rw [this, div_div_eq_mul_div, div_one]
  ring

/-- neighbouring floats there -/
theorem double_neighbours {n : ℤ} (h1 : 512 * 2 ^ 43 ≤ n) (h2 : n + 1 < 1024 * 2 ^ 43) {x : ℚ} (hx1 : (n : ℚ) / 2 ^ 43 ≤ x) (hx2 : x ≤ (n + 1 : ℚ) / 2 ^ 43) :
    (double x = (n : ℚ) / 2 ^ 43 ∧ x ≤ (n + 1 / 2 : ℚ) / 2 ^ 43) ∨ (double x = (n + 1 : ℚ) / 2 ^ 43 ∧ (n + 1 / 2 : ℚ) / 2 ^ 43 ≤ x) := by
  have h1' : (512 * 2 ^ 43 : ℚ) ≤ n := by exact_mod_cast h1
  have h2' : (n : ℚ) + 1 < 1024 * 2 ^ 43 := by exact_mod_cast h2
  rw [div_le_iff₀ (by norm_num)] at hx1
  rw [le_div_iff₀ (by norm_num)] at hx2
  have e := double_512 (x := x) (by linarith) (by linarith)
  have hr := abs_le.1 (roundEven_near (x * 2 ^ 43))
  have r1 : n ≤ roundEven (x * 2 ^ 43) := by rw [← roundEven_int n]; exact roundEven_mono hx1
  have r2 : roundEven (x * 2 ^ 43) ≤ n + 1 := by rw [← roundEven_int (n + 1)]; exact roundEven_mono (by push_cast; exact hx2)
  rw [e]
  have : roundEven (x * 2 ^ 43) = n ∨ roundEven (x * 2 ^ 43) = n + 1 := by omega
  rcases this with h | h
  · left
    rw [h] at hr ⊢
    exact ⟨rfl, by rw [le_div_iff₀ (by norm_num)]; linarith⟩
  · right
    rw [h] at hr ⊢
    push_cast at hr ⊢
    exact ⟨rfl, by rw [div_le_iff₀ (by norm_num)]; linarith⟩

end RT
