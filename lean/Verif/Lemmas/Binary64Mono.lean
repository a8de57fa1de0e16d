import Verif.Lemmas.Binary64

/-! # Rounding to binary64 keeps the order, underflow and overflow included -/

set_option linter.unusedSectionVars false

namespace RT
open PyNum Ext

private theorem two_ne : (2 : ℚ) ≠ 0 := by norm_num

theorem round64_zero : round64 0 = 0 := by simp [round64]

/-- a number on the grid is not changed -/
theorem round64_grid {x : ℚ} {e : Int} {i : Int} (h : x = i * 2 ^ e) (he : lastBit x ≤ e) : round64 x = x := by
  unfold round64
  split_ifs with h0
  · exact h0.symm
  · obtain ⟨j, hj⟩ := Int.eq_ofNat_of_zero_le (sub_nonneg.2 he)
    have hp := pow2_pos (lastBit x)
    have e1 : x / pow2 (lastBit x) = ((i * 2 ^ j : Int) : ℚ) := by
      rw [div_eq_iff hp.ne']
      conv_lhs => rw [h]
      push_cast
      rw [mul_assoc]
      congr 1
      rw [pow2_eq, ← zpow_natCast, ← zpow_add₀ two_ne]
      congr 1; omega
    rw [e1, roundEven_int, ← e1, div_mul_cancel₀ _ hp.ne']

/-- rounding stays below a point of the grid -/
theorem round64_le {x : ℚ} {e : Int} (hx : x ≠ 0) (h : x ≤ 2 ^ e) (he : lastBit x ≤ e) : round64 x ≤ 2 ^ e := by
  obtain ⟨j, hj⟩ := Int.eq_ofNat_of_zero_le (sub_nonneg.2 he)
  have hp := pow2_pos (lastBit x)
  have e1 : (2 : ℚ) ^ e = ((2 ^ j : Int) : ℚ) * pow2 (lastBit x) := by
    push_cast
    rw [pow2_eq, ← zpow_natCast, ← zpow_add₀ two_ne]; congr 1; omega
  unfold round64
  rw [if_neg hx, e1]
  gcongr
  rw [← roundEven_int (2 ^ j)]
  apply roundEven_mono
  rwa [div_le_iff₀ hp, ← e1]

/-- and above -/
theorem le_round64 {x : ℚ} {e : Int} (hx : x ≠ 0) (h : 2 ^ e ≤ x) (he : lastBit x ≤ e) : 2 ^ e ≤ round64 x := by
  obtain ⟨j, hj⟩ := Int.eq_ofNat_of_zero_le (sub_nonneg.2 he)
  have hp := pow2_pos (lastBit x)
  have e1 : (2 : ℚ) ^ e = ((2 ^ j : Int) : ℚ) * pow2 (lastBit x) := by
    push_cast
    rw [pow2_eq, ← zpow_natCast, ← zpow_add₀ two_ne]; congr 1; omega
  unfold round64
  rw [if_neg hx, e1]
  gcongr
  rw [← roundEven_int (2 ^ j)]
  apply roundEven_mono
  rwa [le_div_iff₀ hp, ← e1]

theorem roundEven_neg (q : ℚ) : roundEven (-q) = -roundEven q := by
  have q1 : (q.floor : ℚ) ≤ q := Int.floor_le q
  have q2 : q < (q.floor : ℚ) + 1 := Int.lt_floor_add_one q
  rcases q1.eq_or_lt with he | hlt
  · have e1 := roundEven_int q.floor
    have e2 := roundEven_int (-q.floor)
    rw [he] at e1
    push_cast at e2
    rw [he] at e2
    rw [e1, e2]
  · have hfl : (-q).floor = -q.floor - 1 := by
      have : ⌊-q⌋ = -q.floor - 1 := by
        rw [Int.floor_eq_iff]; push_cast; constructor <;> linarith
      exact this
    unfold roundEven
    rw [hfl]
    push_cast
    split_ifs <;> first | omega | (exfalso; linarith)

theorem binade_neg (x : ℚ) : binade (-x) = binade x := by unfold binade; simp

theorem round64_neg (x : ℚ) : round64 (-x) = -round64 x := by
  have hb : lastBit (-x) = lastBit x := by unfold lastBit; rw [binade_neg]
  unfold round64
  by_cases h : x = 0
  · simp [h]
  · rw [if_neg h, if_neg (neg_ne_zero.2 h), hb, neg_div, roundEven_neg]; push_cast; ring

theorem round64_nonneg {x : ℚ} (h : 0 ≤ x) : 0 ≤ round64 x := by
  unfold round64
  split_ifs with h0
  · exact le_rfl
  · have hp := pow2_pos (lastBit x)
    have h1 : roundEven ((0 : Int) : ℚ) ≤ roundEven (x / pow2 (lastBit x)) := roundEven_mono (by push_cast; positivity)
    rw [roundEven_int] at h1
    have : (0 : ℚ) ≤ (roundEven (x / pow2 (lastBit x)) : ℚ) := by exact_mod_cast h1
    positivity

theorem binade_mono {x y : ℚ} (hx : 0 < x) (h : x ≤ y) : binade x ≤ binade y := by
  have hy := hx.trans_le h
  obtain ⟨h1, -⟩ := binade_spec hx.ne'
  obtain ⟨-, h4⟩ := binade_spec hy.ne'
  rw [abs_of_pos hx] at h1
  rw [abs_of_pos hy] at h4
  have := (zpow_lt_zpow_iff_right₀ (by norm_num : (1 : ℚ) < 2)).1 ((h1.trans h).trans_lt h4)
  omega

theorem round64_mono_pos {x y : ℚ} (hx : 0 < x) (h : x ≤ y) : round64 x ≤ round64 y := by
  have hy : 0 < y := hx.trans_le h
  have hb := binade_mono hx h
  by_cases he : lastBit x = lastBit y
  · unfold round64
    rw [if_neg hx.ne', if_neg hy.ne', he]
    have hp := pow2_pos (lastBit y)
    gcongr
    apply roundEven_mono
    gcongr
  · have h1 : lastBit x < lastBit y := by unfold lastBit at *; omega
    have h2 : lastBit y = binade y - 52 := by unfold lastBit at *; omega
    have h3 : binade x + 1 ≤ binade y := by unfold lastBit at *; omega
    obtain ⟨-, a⟩ := binade_spec hx.ne'
    obtain ⟨b, -⟩ := binade_spec hy.ne'
    rw [abs_of_pos hx] at a
    rw [abs_of_pos hy] at b
    have c : x ≤ (2 : ℚ) ^ binade y := a.le.trans (zpow_le_zpow_right₀ (by norm_num) h3)
    exact (round64_le hx.ne' c (by omega)).trans (le_round64 hy.ne' b (by omega))

/-- Rounding to binary64 keeps the order. -/
theorem round64_mono : Monotone round64 := by
  intro x y h
  rcases lt_trichotomy x 0 with hx | rfl | hx
  · rcases lt_trichotomy y 0 with hy | rfl | hy
    · have := round64_mono_pos (x := -y) (y := -x) (by linarith) (by linarith)
      rw [round64_neg, round64_neg] at this; linarith
    · have := round64_nonneg (x := -x) (by linarith)
      rw [round64_neg] at this; rw [round64_zero]; linarith
    · have := round64_nonneg (x := -x) (by linarith)
      rw [round64_neg] at this
      have := round64_nonneg hy.le
      linarith
  · rw [round64_zero]; exact round64_nonneg h
  · exact round64_mono_pos hx h

/-- Rounding a number already rounded changes nothing. -/
theorem round64_idem (x : ℚ) : round64 (round64 x) = round64 x := by
  have key : ∀ x : ℚ, 0 < x → round64 (round64 x) = round64 x := by
    intro x hx
    have hr : round64 x = (roundEven (x / pow2 (lastBit x)) : ℚ) * 2 ^ lastBit x := by
      conv_lhs => unfold round64
      rw [if_neg hx.ne', ← pow2_eq]
    by_cases h0 : round64 x = 0
    · rw [h0, round64_zero]
    by_cases hc : lastBit (round64 x) ≤ lastBit x
    · exact round64_grid hr hc
    · have hpos : 0 < round64 x := lt_of_le_of_ne (round64_nonneg hx.le) (Ne.symm h0)
      obtain ⟨b, -⟩ := binade_spec h0
      rw [abs_of_pos hpos] at b
      obtain ⟨-, a⟩ := binade_spec hx.ne'
      rw [abs_of_pos hx] at a
      have h1 : binade x - 52 ≤ lastBit x := le_max_left _ _
      have h2 : lastBit x + 53 ≤ binade (round64 x) := by unfold lastBit at *; omega
      have h3 : x ≤ (2 : ℚ) ^ (lastBit x + 53) := a.le.trans (zpow_le_zpow_right₀ (by norm_num) (by omega))
      have h4 := round64_le hx.ne' h3 (by omega)
      have h5 : (2 : ℚ) ^ (lastBit x + 53) ≤ round64 x := (zpow_le_zpow_right₀ (by norm_num) h2).trans b
      have h6 : round64 x = ((1 : Int) : ℚ) * 2 ^ (lastBit x + 53) := by rw [Int.cast_one, one_mul]; exact le_antisymm h4 h5
      have h7 := (zpow_le_zpow_iff_right₀ (by norm_num : (1 : ℚ) < 2)).1 (b.trans h4)
      have h8 : -1074 ≤ lastBit x := le_max_right _ _
      have h9 : lastBit (round64 x) ≤ lastBit x + 53 := by
        have : lastBit (round64 x) = max (binade (round64 x) - 52) (-1074) := rfl
        omega
      exact round64_grid h6 h9
  rcases lt_trichotomy x 0 with hx | rfl | hx
  · have := key (-x) (by linarith)
    rw [round64_neg, round64_neg] at this
    linarith
  · rw [round64_zero, round64_zero]
  · exact key x hx

/-- the order of Python numbers that are not `nan` -/
def leE (a b : Ext ℚ) : Prop := PyNum.le a b = true

theorem double64_cases (x : ℚ) :
    (double64 x = .pinf ∧ pow2 1024 ≤ round64 x) ∨ (double64 x = .ninf ∧ round64 x ≤ -pow2 1024) ∨
    (double64 x = .fin (round64 x) ∧ round64 x < pow2 1024 ∧ -pow2 1024 < round64 x) := by
  have e : double64 x = if pow2 1024 ≤ round64 x then .pinf else if round64 x ≤ -pow2 1024 then .ninf else .fin (round64 x) := rfl
  rw [e]
  split_ifs with h1 h2
  · exact .inl ⟨rfl, h1⟩
  · exact .inr (.inl ⟨rfl, h2⟩)
  · exact .inr (.inr ⟨rfl, not_le.1 h1, not_le.1 h2⟩)

theorem leE_refl_of {a : Ext ℚ} (h : a ≠ .nan) : leE a a := by
  cases a with
  | fin x => exact (Ext.le_fin x x).trans (by simp)
  | nan => exact absurd rfl h
  | _ => rfl

theorem leE_fin {x y : ℚ} : leE (.fin x) (.fin y) ↔ x ≤ y := by
  unfold leE; rw [Ext.le_fin, decide_eq_true_iff]

theorem leE_pinf {a : Ext ℚ} (h : a ≠ .nan) : leE a .pinf := by
  cases a with
  | nan => exact absurd rfl h
  | _ => rfl

theorem leE_ninf {a : Ext ℚ} (h : a ≠ .nan) : leE .ninf a := by
  cases a with
  | nan => exact absurd rfl h
  | _ => rfl

theorem leE_trans {a b c : Ext ℚ} (h1 : leE a b) (h2 : leE b c) : leE a c := by
  cases a with
  | fin x =>
    cases b with
    | fin y =>
      cases c with
      | fin z => exact leE_fin.2 ((leE_fin.1 h1).trans (leE_fin.1 h2))
      | pinf => rfl
      | ninf => cases h2
      | nan => cases h2
    | pinf => cases c with
      | pinf => rfl
      | _ => cases h2
    | ninf => cases h1
    | nan => cases h1
  | pinf =>
    cases b with
    | pinf => exact h2
    | _ => cases h1
  | ninf =>
    cases c with
    | nan => cases b <;> cases h2
    | _ => rfl
  | nan => cases b <;> cases h1

theorem double64_ne_nan (x : ℚ) : double64 x ≠ .nan := by
  rcases double64_cases x with ⟨h, -⟩ | ⟨h, -⟩ | ⟨h, -⟩ <;> rw [h] <;> simp

/-- Rounding keeps the order, overflow included. -/
theorem double64_mono {x y : ℚ} (h : x ≤ y) : leE (double64 x) (double64 y) := by
  have h1 := round64_mono h
  have hp := pow2_pos 1024
  rcases double64_cases y with ⟨a, b⟩ | ⟨a, b⟩ | ⟨a, b, c⟩
  · rw [a]; exact leE_pinf (double64_ne_nan x)
  · rcases double64_cases x with ⟨a', b'⟩ | ⟨a', b'⟩ | ⟨a', b', c'⟩
    · exact absurd (b'.trans (h1.trans b)) (not_le.2 (lt_trans (neg_lt_zero.2 hp) hp))
    · rw [a, a']; rfl
    · exact absurd (h1.trans b) (not_le.2 c')
  · rcases double64_cases x with ⟨a', b'⟩ | ⟨a', b'⟩ | ⟨a', b', c'⟩
    · exact absurd (b'.trans h1) (not_le.2 b)
    · rw [a']; exact leE_ninf (double64_ne_nan y)
    · rw [a, a']; exact leE_fin.2 h1

/-- A Python float: a value that rounding does not change. -/
def IsFloat (a : Ext ℚ) : Prop := B64.round a = a

theorem isFloat_round (a : Ext ℚ) : IsFloat (B64.round a) := by
  unfold IsFloat
  cases a with
  | fin x =>
    change B64.round (double64 x) = double64 x
    rcases double64_cases x with ⟨h, -⟩ | ⟨h, -⟩ | ⟨h, h1, h2⟩
    · rw [h]; rfl
    · rw [h]; rfl
    · rw [h]
      change double64 (round64 x) = _
      rcases double64_cases (round64 x) with ⟨h', h3⟩ | ⟨h', h3⟩ | ⟨h', -⟩
      · rw [round64_idem] at h3; exact absurd h3 (not_le.2 h1)
      · rw [round64_idem] at h3; exact absurd h3 (not_le.2 h2)
      · rw [h', round64_idem]
  | _ => rfl

/-- adding something that is not negative does not decrease a float -/
theorem leE_add {a : Ext ℚ} (ha : IsFloat a) (hn : a ≠ .nan) {l : ℚ} (hl : 0 ≤ l) :
    leE a (B64.round (Ext.add (.fin l) a)) ∧ B64.round (Ext.add (.fin l) a) ≠ .nan := by
  cases a with
  | fin x =>
    have h1 : double64 x = .fin x := ha
    refine ⟨?_, double64_ne_nan _⟩
    rw [← h1]
    change leE _ (B64.round (Ext.add (.fin l) (double64 x)))
    rw [h1]
    change leE (.fin x) (double64 (l + x))
    rw [← h1]
    exact double64_mono (by linarith)
  | pinf => exact ⟨rfl, by simp [Ext.add, B64.round]⟩
  | ninf => exact ⟨rfl, by simp [Ext.add, B64.round]⟩
  | nan => exact absurd rfl hn

end RT
