import Verif.Model.FloatIndex
import Verif.Props.Materials
import Verif.Props.RoundedModes

/-! # C126: the indices of the glasses in floats -/

set_option linter.unusedSectionVars false

namespace RT
open PyNum Ext Fl

variable {rnd : ℝ → ℝ} {u : ℝ}

/-- What is asked of the powers of the platform: two roundings (less than one unit in the last place). -/
structure PowOk (rnd : ℝ → ℝ) (u : ℝ) [PyPow (Fl ℝ rnd)] : Prop where
  pow : ∀ x : ℝ, x ≠ 0 → ∀ k : ℤ, ∃ y, PyPow.pow (num x : Fl ℝ rnd) k = num y ∧ Tight u 2 y (x ^ k)
  root : ∀ x : ℝ, 0 ≤ x → ∃ y, PyPow.root (num x : Fl ℝ rnd) = num y ∧ Tight u 2 y (Real.sqrt x)

theorem roundErr_small (h0 : 0 ≤ u) (hu : u ≤ 1 / 1000000) {k : ℕ} (hk : k ≤ 6) : roundErr u k ≤ (k + 1 : ℝ) * u := by
  unfold roundErr
  have hp : 1 - (k : ℝ) * u ≤ (1 - u) ^ k := by
    have := one_add_mul_le_pow (show (-2 : ℝ) ≤ -u by linarith) k
    rw [← sub_eq_add_neg] at this
    linarith
  have hk' : (k : ℝ) ≤ 6 := by exact_mod_cast hk
  have hk0 : (0 : ℝ) ≤ (k : ℝ) := by positivity
  have hku : (k : ℝ) * u ≤ 6 / 1000000 := by nlinarith
  have hpos : 0 < 1 - (k : ℝ) * u := by linarith
  have h1 : 1 / (1 - u) ^ k ≤ 1 / (1 - (k : ℝ) * u) := one_div_le_one_div_of_le hpos hp
  have h2 : 1 / (1 - (k : ℝ) * u) ≤ 1 + (k + 1 : ℝ) * u := by
    rw [div_le_iff₀ hpos]
    nlinarith [mul_nonneg hk0 h0]
  linarith

/-- the bound on `|t / (1 - t)|`, `t = C / x²`, in the range of wavelengths -/
def kappa (C : ℚ) : ℚ := if C < 0 then 1 else if C < loμ ^ 2 then C / (loμ ^ 2 - C) else C / (C - hiμ ^ 2)

theorem kappa_bound {C : ℚ} (h : C < loμ ^ 2 ∨ hiμ ^ 2 < C) {x : ℝ} (h1 : (loμ : ℝ) ≤ x) (h2 : x ≤ (hiμ : ℝ)) :
    |(C : ℝ) / x ^ 2| ≤ (kappa C : ℝ) * |1 - (C : ℝ) / x ^ 2| ∧ 0 ≤ (kappa C : ℝ) ∧ 1 - (C : ℝ) / x ^ 2 ≠ 0 := by
  have hlo : (0 : ℝ) < (loμ : ℝ) := by norm_num [loμ]
  have hx : 0 < x := hlo.trans_le h1
  have hx2 : 0 < x ^ 2 := by positivity
  have l2 : (loμ : ℝ) ^ 2 ≤ x ^ 2 := by gcongr
  have h2' : x ^ 2 ≤ (hiμ : ℝ) ^ 2 := by gcongr
  have e : 1 - (C : ℝ) / x ^ 2 = (x ^ 2 - C) / x ^ 2 := by field_simp
  rw [e]
  have hne : x ^ 2 - (C : ℝ) ≠ 0 := by
    rcases h with h | h
    · have : (C : ℝ) < (loμ : ℝ) ^ 2 := by exact_mod_cast h
      intro h'; linarith
    · have : (hiμ : ℝ) ^ 2 < (C : ℝ) := by exact_mod_cast h
      intro h'; linarith
  refine ⟨?_, ?_, div_ne_zero hne hx2.ne'⟩
  · rw [abs_div, abs_div, abs_of_pos hx2, ← mul_div_assoc]
    refine div_le_div_of_nonneg_right ?_ hx2.le
    unfold kappa
    split_ifs with c1 c2
    · have : (C : ℝ) < 0 := by exact_mod_cast c1
      rw [abs_of_neg this, abs_of_pos (by linarith)]
      push_cast
      linarith
    · have c1' : (0 : ℝ) ≤ C := by exact_mod_cast not_lt.1 c1
      have c2' : (C : ℝ) < (loμ : ℝ) ^ 2 := by exact_mod_cast c2
      rw [abs_of_nonneg c1', abs_of_pos (by linarith)]
      push_cast
      have p : (0 : ℝ) < (loμ : ℝ) ^ 2 - C := by linarith
      rw [div_mul_eq_mul_div, le_div_iff₀ p]
      nlinarith
    · have c3 : (hiμ : ℝ) ^ 2 < (C : ℝ) := by
        rcases h with h | h
        · exact absurd h c2
        · exact_mod_cast h
      have c1' : (0 : ℝ) ≤ C := by exact_mod_cast not_lt.1 c1
      rw [abs_of_nonneg c1', abs_of_neg (by linarith)]
      push_cast
      have p : (0 : ℝ) < (C : ℝ) - (hiμ : ℝ) ^ 2 := by linarith
      rw [div_mul_eq_mul_div, le_div_iff₀ p]
      nlinarith
  · unfold kappa
    split_ifs with c1 c2
    · norm_num
    · have c1' : (0 : ℝ) ≤ C := by exact_mod_cast not_lt.1 c1
      have c2' : (C : ℝ) < (loμ : ℝ) ^ 2 := by exact_mod_cast c2
      push_cast
      exact div_nonneg c1' (by linarith)
    · have c3 : (hiμ : ℝ) ^ 2 < (C : ℝ) := by
        rcases h with h | h
        · exact absurd h c2
        · exact_mod_cast h
      have c1' : (0 : ℝ) ≤ C := by exact_mod_cast not_lt.1 c1
      push_cast
      exact div_nonneg c1' (by linarith)

/-- a term in floats: `t' ` is `t` up to 6 roundings -/
theorem quotient_term (hr : Rounding rnd u) (hu : u ≤ 1 / 1000000) {B t t' κ : ℝ} (ht : Tight u 6 t' t) (h1 : |t| ≤ κ * |1 - t|) (hκ : 0 ≤ κ) (hκ' : κ ≤ 1000)
    (hne : 1 - t ≠ 0) :
    rnd (1 - t') ≠ 0 ∧ |rnd (rnd B / rnd (1 - t')) - B / (1 - t)| ≤ u * ((5 + 14 * κ) * (|B| * (1 + κ))) ∧ |B / (1 - t)| ≤ |B| * (1 + κ) := by
  have h0 := hr.nonneg
  have p := abs_pos.2 hne
  have e1 : |t' - t| ≤ 7 * u * |t| := by
    have := ht.error hr
    have r := roundErr_small h0 hu (le_refl 6)
    unfold roundErr at r
    refine this.trans (mul_le_mul_of_nonneg_right (r.trans ?_) (abs_nonneg _))
    norm_num
  have hε : 7 * u * κ ≤ 1 / 16 := by nlinarith
  have hε0 : 0 ≤ 7 * u * κ := by positivity
  have e2 : |t' - t| ≤ 7 * u * κ * |1 - t| := by
    refine e1.trans ?_
    have := mul_le_mul_of_nonneg_left h1 (show 0 ≤ 7 * u by positivity)
    linarith
  have e3 : |1 - t| * (1 - 7 * u * κ) ≤ |1 - t'| := by
    have := abs_sub_abs_le_abs_sub (1 - t) (1 - t')
    rw [show (1 - t) - (1 - t') = t' - t by ring] at this
    linarith
  have p' : 0 < |1 - t'| := lt_of_lt_of_le (by apply mul_pos p; linarith) e3
  have hne' : 1 - t' ≠ 0 := abs_pos.1 p'
  have hT : |B / (1 - t)| ≤ |B| * (1 + κ) := by
    rw [abs_div, div_le_iff₀ p, mul_assoc]
    refine le_mul_of_one_le_right (abs_nonneg _) ?_
    have : 1 ≤ |1 - t| + |t| := by
      have := abs_add_le (1 - t) t
      rw [sub_add_cancel, abs_one] at this
      exact this
    nlinarith
  refine ⟨hr.ne_zero hne', ?_, hT⟩
  have e4 : |B / (1 - t') - B / (1 - t)| ≤ 14 * κ * u * |B / (1 - t)| := by
    have e : B / (1 - t') - B / (1 - t) = B / (1 - t) * ((t' - t) / (1 - t')) := by field_simp; ring
    rw [e, abs_mul, mul_comm]
    refine mul_le_mul_of_nonneg_right ?_ (abs_nonneg _)
    rw [abs_div, div_le_iff₀ p']
    refine e2.trans ?_
    have : 14 * κ * u * (|1 - t| * (1 - 7 * u * κ)) ≤ 14 * κ * u * |1 - t'| := mul_le_mul_of_nonneg_left e3 (by positivity)
    refine le_trans ?_ this
    have q := mul_nonneg hε0 p.le
    nlinarith
  have e5 : |rnd (rnd B / rnd (1 - t')) - B / (1 - t')| ≤ 4 * u * |B / (1 - t')| := by
    have t3 : Tight u 3 (rnd (rnd B / rnd (1 - t'))) (B / (1 - t')) := (((Tight.refl B).round hr).div hr ((Tight.refl (1 - t')).round hr)).round hr
    have := t3.error hr
    have r := roundErr_small h0 hu (show 3 ≤ 6 by omega)
    unfold roundErr at r
    refine this.trans (mul_le_mul_of_nonneg_right (r.trans ?_) (abs_nonneg _))
    norm_num
  have e6 : |B / (1 - t')| ≤ (1 + 2 * (7 * u * κ)) * |B / (1 - t)| := by
    have := abs_sub_abs_le_abs_sub (B / (1 - t')) (B / (1 - t))
    linarith
  have hA := abs_nonneg (B / (1 - t))
  calc |rnd (rnd B / rnd (1 - t')) - B / (1 - t)| ≤ |rnd (rnd B / rnd (1 - t')) - B / (1 - t')| + |B / (1 - t') - B / (1 - t)| := abs_sub_le _ _ _
    _ ≤ 4 * u * ((1 + 2 * (7 * u * κ)) * |B / (1 - t)|) + 14 * κ * u * |B / (1 - t)| :=
      add_le_add (e5.trans (mul_le_mul_of_nonneg_left e6 (by positivity))) e4
    _ ≤ u * ((5 + 14 * κ) * |B / (1 - t)|) := by
      have : 4 * (1 + 2 * (7 * u * κ)) ≤ 5 := by linarith
      have := mul_le_mul_of_nonneg_right this (mul_nonneg h0 hA)
      linarith
    _ ≤ u * ((5 + 14 * κ) * (|B| * (1 + κ))) := by gcongr

/-- one addition: errors and majorants -/
theorem sum_step (hr : Rounding rnd u) (hu : u ≤ 1 / 1000000) {s s' T T' E S D β : ℝ} (hs : |s' - s| ≤ u * E) (hS : |s| ≤ S) (hT : |T' - T| ≤ u * D)
    (hβ : |T| ≤ β) : |rnd (s' + T') - (s + T)| ≤ u * ((E + D) * (1 + 1 / 1000) + S + β) ∧ |s + T| ≤ S + β := by
  have h0 := hr.nonneg
  have h1 := hr.rel (s' + T')
  have h2 : |(s' + T') - (s + T)| ≤ u * (E + D) := by
    rw [show (s' + T') - (s + T) = (s' - s) + (T' - T) by ring]
    exact (abs_add_le _ _).trans (by linarith)
  have h3 : |s + T| ≤ S + β := (abs_add_le _ _).trans (add_le_add hS hβ)
  have h4 : |s' + T'| ≤ S + β + u * (E + D) := by
    have := abs_sub_abs_le_abs_sub (s' + T') (s + T)
    linarith
  have h5 : 0 ≤ u * (E + D) := (abs_nonneg _).trans h2
  refine ⟨?_, h3⟩
  calc |rnd (s' + T') - (s + T)| ≤ |rnd (s' + T') - (s' + T')| + |(s' + T') - (s + T)| := abs_sub_le _ _ _
    _ ≤ u * (S + β + u * (E + D)) + u * (E + D) := add_le_add (h1.trans (mul_le_mul_of_nonneg_left h4 h0)) h2
    _ ≤ _ := by nlinarith

/-! ## The sums -/

/-- the error (in units of `u`) and the majorant of a term `B/(1-C/x²)` -/
def termErr (t : ℚ × ℚ) : ℚ × ℚ := ((5 + 14 * kappa t.2) * (|t.1| * (1 + kappa t.2)), |t.1| * (1 + kappa t.2))

/-- of a term `b x^k` -/
def powErr (t : ℚ × ℤ) : ℚ × ℚ :=
  let β := |t.1| * (if 0 ≤ t.2 then hiμ ^ t.2 else loμ ^ t.2)
  (5 * β, β)

/-- of a sum -/
def addErr (a b : ℚ × ℚ) : ℚ × ℚ := ((a.1 + b.1) * (1 + 1 / 1000) + a.2 + b.2, a.2 + b.2)

/-- `s'` is `s`, of majorant `e.2`, up to `e.1` units of `u` -/
def Errs (u : ℝ) (s' s : ℝ) (e : ℚ × ℚ) : Prop := |s' - s| ≤ u * (e.1 : ℝ) ∧ |s| ≤ (e.2 : ℝ)

theorem Errs.add (hr : Rounding rnd u) (hu : u ≤ 1 / 1000000) {s s' T T' : ℝ} {e f : ℚ × ℚ} (h : Errs u s' s e) (h' : Errs u T' T f) :
    Errs u (rnd (s' + T')) (s + T) (addErr e f) := by
  obtain ⟨h1, h2⟩ := sum_step hr hu h.1 h.2 h'.1 h'.2
  refine ⟨?_, ?_⟩
  · unfold addErr; push_cast; exact h1
  · unfold addErr; push_cast; exact h2

theorem Errs.neg {s s' : ℝ} {e : ℚ × ℚ} (h : Errs u s' s e) : Errs u (-s') (-s) e := by
  refine ⟨?_, by rw [abs_neg]; exact h.2⟩
  rw [show -s' - -s = -(s' - s) by ring, abs_neg]; exact h.1

section
variable (hr : Rounding rnd u) (hu : u ≤ 1 / 1000000) [PyPow (Fl ℝ rnd)]
include hr hu

/-- A sum of terms in floats, next to the exact one; `f` says which exact term stands for a term in floats. -/
theorem sumTerms_close {term : ℚ × ℚ → Except PyErr (Fl ℝ rnd)} {x : ℝ} {f : ℚ × ℚ → ℚ × ℚ} : ∀ {ts : List (ℚ × ℚ)} {s' s : ℝ} {e : ℚ × ℚ},
    (∀ t ∈ ts, ∃ v, term t = .ok (num v) ∧ 1 - ((f t).2 : ℝ) / x ^ 2 ≠ 0 ∧ Errs u v ((f t).1 / (1 - ((f t).2 : ℝ) / x ^ 2)) (termErr (f t))) →
    Errs u s' s e → ∃ z' z, sumTerms term (num s') ts = .ok (num z') ∧ (ts.map f).foldl (sellmeierTerm x) (.ok s) = .ok z ∧
      Errs u z' z ((ts.map fun t => termErr (f t)).foldl addErr e)
  | [], s', s, e, _, h => ⟨s', s, rfl, rfl, h⟩
  | t :: ts, s', s, e, ht, h => by
    obtain ⟨v, h1, h2, h3⟩ := ht t (by simp)
    obtain ⟨z', z, g1, g2, g3⟩ := sumTerms_close (ts := ts) (fun t ht' => ht t (by simp [ht'])) (h.add hr hu h3)
    refine ⟨z', z, ?_, ?_, g3⟩
    · simp only [sumTerms, h1, num_add]; exact g1
    · simp only [List.map_cons, List.foldl_cons, sellmeierTerm, if_neg h2]
      exact g2

/-- exact sum of powers -/
noncomputable def powSum (x : ℝ) : ℝ → List (ℚ × ℤ) → ℝ
  | s, [] => s
  | s, (b, k) :: ts => powSum x (s + b * x ^ k) ts

theorem sumPowers_close (hp : PowOk rnd u) {x : ℝ} (h1 : (loμ : ℝ) ≤ x) (h2 : x ≤ (hiμ : ℝ)) : ∀ {ts : List (ℚ × ℤ)} {s' s : ℝ} {e : ℚ × ℚ},
    Errs u s' s e → ∃ z', sumPowers (num x : Fl ℝ rnd) (num s') ts = num z' ∧ Errs u z' (powSum x s ts) ((ts.map powErr).foldl addErr e)
  | [], s', s, e, h => ⟨s', rfl, h⟩
  | (b, k) :: ts, s', s, e, h => by
    have hlo : (0 : ℝ) < (loμ : ℝ) := by norm_num [loμ]
    have hx : 0 < x := hlo.trans_le h1
    have h0 := hr.nonneg
    obtain ⟨y, p1, p2⟩ := hp.pow x hx.ne' k
    have hxk : 0 < x ^ k := zpow_pos hx k
    have hxb : x ^ k ≤ ((if 0 ≤ k then hiμ ^ k else loμ ^ k : ℚ) : ℝ) := by
      split_ifs with hk
      · push_cast; exact zpow_le_zpow_left₀ hk hx.le h2
      · push_cast
        obtain ⟨m, rfl⟩ : ∃ m : ℤ, k = -m := ⟨-k, by ring⟩
        rw [zpow_neg, zpow_neg]
        exact inv_anti₀ (zpow_pos hlo m) (zpow_le_zpow_left₀ (by omega) hlo.le h1)
    have key : ∀ c : ℝ, |c| = |(b : ℝ)| → Errs u (rnd (rnd c * y)) (c * x ^ k) (powErr (b, k)) := by
      intro c hc
      have t4 : Tight u 4 (rnd (rnd c * y)) (c * x ^ k) := (((Tight.refl c).round hr).mul hr p2).round hr
      have hβ : |c * x ^ k| ≤ ((powErr (b, k)).2 : ℝ) := by
        rw [abs_mul, abs_of_pos hxk, hc]
        unfold powErr
        rw [Rat.cast_mul, Rat.cast_abs]
        gcongr
      refine ⟨?_, hβ⟩
      have r := roundErr_small h0 hu (show 4 ≤ 6 by omega)
      have := t4.error hr
      unfold roundErr at r
      refine this.trans ?_
      have e5 : ((powErr (b, k)).1 : ℝ) = 5 * ((powErr (b, k)).2 : ℝ) := by unfold powErr; push_cast; ring
      rw [e5]
      calc _ ≤ (((4 : ℕ) : ℝ) + 1) * u * |c * x ^ k| := mul_le_mul_of_nonneg_right r (abs_nonneg _)
        _ ≤ (((4 : ℕ) : ℝ) + 1) * u * ((powErr (b, k)).2 : ℝ) := by gcongr
        _ = _ := by push_cast; ring
    by_cases hb : b < 0
    · have k1 := (key (-(b : ℝ)) (abs_neg _)).neg
      rw [show -(-(b : ℝ) * x ^ k) = b * x ^ k by ring] at k1
      obtain ⟨z', g1, g2⟩ := sumPowers_close hp h1 h2 (ts := ts) (h.add hr hu k1)
      refine ⟨z', ?_, g2⟩
      simp only [sumPowers, signedAdd, if_pos hb, p1, lit_num, num_mul, num_sub, Rat.cast_neg]
      rw [sub_eq_add_neg]
      exact g1
    · obtain ⟨z', g1, g2⟩ := sumPowers_close hp h1 h2 (ts := ts) (h.add hr hu (key b rfl))
      refine ⟨z', ?_, g2⟩
      simp only [sumPowers, signedAdd, if_neg hb, p1, lit_num, num_mul, num_add]
      exact g1

/-- the terms `B/(1-C/x**2)` -/
theorem overTerm_close (hp : PowOk rnd u) {x : ℝ} (h1 : (loμ : ℝ) ≤ x) (h2 : x ≤ (hiμ : ℝ)) {t : ℚ × ℚ} (h : t.2 < loμ ^ 2 ∨ hiμ ^ 2 < t.2)
    (hk : kappa t.2 ≤ 1000) : ∃ v, overTerm (num x : Fl ℝ rnd) t = .ok (num v) ∧ 1 - (t.2 : ℝ) / x ^ 2 ≠ 0 ∧
      Errs u v (t.1 / (1 - (t.2 : ℝ) / x ^ 2)) (termErr t) := by
  have hlo : (0 : ℝ) < (loμ : ℝ) := by norm_num [loμ]
  have hx : 0 < x := hlo.trans_le h1
  obtain ⟨k1, k2, k3⟩ := kappa_bound h h1 h2
  obtain ⟨y, p1, p2⟩ := hp.pow x hx.ne' 2
  have hy : y ≠ 0 := by rw [Ne, p2.eq_zero_iff hr]; positivity
  obtain ⟨B, C⟩ := t
  dsimp only at *
  set q := rnd (rnd (|(C : ℝ)|) / y) with hq
  have tq : Tight u 6 q (|(C : ℝ)| / x ^ 2) := ((((Tight.refl _).round hr).div hr p2).round hr).mono hr (by omega)
  have ov : overTerm (num x : Fl ℝ rnd) (B, C) = pyDiv (num (rnd B)) (if C < 0 then 1 + num q else 1 - num q) := by
    unfold overTerm
    dsimp only
    rw [p1, lit_num, lit_num, pyDiv_num hr _ _ hy, Rat.cast_abs]
  have fin' : ∀ t' : ℝ, Tight u 6 t' ((C : ℝ) / x ^ 2) → pyDiv (num (rnd B) : Fl ℝ rnd) (num (rnd (1 - t'))) = overTerm (num x) (B, C) →
      ∃ v, overTerm (num x : Fl ℝ rnd) (B, C) = .ok (num v) ∧ Errs u v (B / (1 - (C : ℝ) / x ^ 2)) (termErr (B, C)) := by
    intro t' ht' he
    obtain ⟨m1, m2, m3⟩ := quotient_term hr hu (B := (B : ℝ)) ht' k1 k2 (by exact_mod_cast hk) k3
    refine ⟨_, by rw [← he, pyDiv_num hr _ _ m1], ?_, ?_⟩
    · unfold termErr; push_cast; exact m2
    · unfold termErr; push_cast; exact m3
  by_cases hC : C < 0
  · have hC' : (C : ℝ) < 0 := by exact_mod_cast hC
    rw [abs_of_neg hC', neg_div] at tq
    obtain ⟨v, g1, g2⟩ := fin' (-q) (by have := tq.neg; rwa [neg_neg] at this) (by
      rw [ov, if_pos hC, one_num hr, num_add, sub_neg_eq_add])
    exact ⟨v, g1, k3, g2⟩
  · have hC' : (0 : ℝ) ≤ (C : ℝ) := by exact_mod_cast not_lt.1 hC
    rw [abs_of_nonneg hC'] at tq
    obtain ⟨v, g1, g2⟩ := fin' q tq (by rw [ov, if_neg hC, one_num hr, num_sub])
    exact ⟨v, g1, k3, g2⟩

/-- the terms `B/(1-(c/x)**2)` -/
theorem squareTerm_close (hp : PowOk rnd u) {x : ℝ} (h1 : (loμ : ℝ) ≤ x) (h2 : x ≤ (hiμ : ℝ)) {t : ℚ × ℚ} (h0 : t.2 ≠ 0)
    (h : t.2 ^ 2 < loμ ^ 2 ∨ hiμ ^ 2 < t.2 ^ 2) (hk : kappa (t.2 ^ 2) ≤ 1000) :
    ∃ v, squareTerm (num x : Fl ℝ rnd) t = .ok (num v) ∧ 1 - ((t.2 ^ 2 : ℚ) : ℝ) / x ^ 2 ≠ 0 ∧
      Errs u v (t.1 / (1 - ((t.2 ^ 2 : ℚ) : ℝ) / x ^ 2)) (termErr (t.1, t.2 ^ 2)) := by
  have hlo : (0 : ℝ) < (loμ : ℝ) := by norm_num [loμ]
  have hx : 0 < x := hlo.trans_le h1
  obtain ⟨k1, k2, k3⟩ := kappa_bound h h1 h2
  obtain ⟨B, c⟩ := t
  dsimp only at *
  have hc0 : (c : ℝ) ≠ 0 := by exact_mod_cast h0
  set r := rnd (rnd (c : ℝ) / x) with hrr
  have tr : Tight u 2 r ((c : ℝ) / x) := (((Tight.refl _).round hr).div hr (Tight.refl x)).round hr
  have hr0 : r ≠ 0 := by rw [Ne, tr.eq_zero_iff hr]; exact div_ne_zero hc0 hx.ne'
  obtain ⟨y, p1, p2⟩ := hp.pow r hr0 2
  have ty : Tight u 6 y (((c ^ 2 : ℚ) : ℝ) / x ^ 2) := by
    have t4 : Tight u 4 (r ^ (2 : ℤ)) (((c ^ 2 : ℚ) : ℝ) / x ^ 2) := by
      rw [show ((c ^ 2 : ℚ) : ℝ) / x ^ 2 = (c : ℝ) / x * (c / x) by push_cast; field_simp, zpow_ofNat, sq]
      exact tr.mul hr tr
    exact p2.trans hr t4
  obtain ⟨m1, m2, m3⟩ := quotient_term hr hu (B := (B : ℝ)) ty k1 k2 (by exact_mod_cast hk) k3
  refine ⟨rnd (rnd (B : ℝ) / rnd (1 - y)), ?_, k3, ?_, ?_⟩
  · unfold squareTerm
    dsimp only
    rw [lit_num, lit_num, pyDiv_num hr _ _ hx.ne']
    dsimp only
    rw [p1, one_num hr, num_sub, pyDiv_num hr _ _ m1]
  · unfold termErr; push_cast at m2 ⊢; exact m2
  · unfold termErr; push_cast at m3 ⊢; exact m3

end

/-! ## The glasses -/

/-- error (in units of `u`) and majorant of what is under the square root -/
def Glass.squareErr (g : Glass) : ℚ × ℚ :=
  match g.formula with
  | .air => (0, 1)
  | .sellmeier ts => (ts.map termErr).foldl addErr (0, 1)
  | .laurent a b c d e f => ([(b, 2), (c, -2), (d, -4), (e, -6), (f, -8)].map powErr).foldl addErr (|a|, |a|)

/-- error of the index -/
def Glass.floatErr (g : Glass) : ℚ := g.squareErr.1 * (1 + 1 / 1000) + 3 * g.squareErr.2

/-- what is checked of a glass -/
def Glass.floatOk (g : Glass) : Bool :=
  formulaOk g.formula && decide (g.squareErr.1 ≤ 10000) &&
  match g.formula with
  | .sellmeier ts => ts.all (fun t => decide (t.2 < loμ ^ 2 ∨ hiμ ^ 2 < t.2) && decide (kappa t.2 ≤ 1000)) &&
      (if g.name = "FusedSilica" then decide (ts = fusedSilica.map fun t => (t.1, t.2 ^ 2)) else true)
  | _ => true

theorem glasses_floatOk : materials.all (fun g => g.name == "Air" || (g.floatOk && decide (g.floatErr ≤ 3400 ∧ (g.name ≠ "S_NPH2" → g.floatErr ≤ 350)))) = true := by decide +kernel

theorem Errs.one (u : ℝ) : Errs u 1 1 (0, 1) := ⟨by simp, by simp⟩

/-- how much what is under the square root exceeds 1 -/
def Formula.margin : Formula → ℚ
  | .air => 0
  | .sellmeier ts => (ts.map termMin).sum
  | .laurent a b _ _ e _ => a + b * hiμ ^ 2 + e / loμ ^ 6 - 1

theorem glasses_margin : materials.all (fun g => g.name == "Air" || (formulaOk g.formula && decide (17 / 100 ≤ g.formula.margin))) = true := by decide +kernel

theorem margin_bound {g : Glass} (h : (g.name == "Air" || (formulaOk g.formula && decide (17 / 100 ≤ g.formula.margin))) = true) (hn : g.name ≠ "Air") {x : ℝ}
    (h1 : (loμ : ℝ) ≤ x) (h2 : x ≤ (hiμ : ℝ)) {z : ℝ} (hz : g.formula.square x = .ok z) : (117 / 100 : ℝ) ≤ z := by
  rw [Bool.or_eq_true, Bool.and_eq_true, decide_eq_true_eq] at h
  obtain ⟨hf, hm⟩ := h.resolve_left (fun h => hn (by simpa using h))
  have hm' : (17 / 100 : ℝ) ≤ (g.formula.margin : ℝ) := by
    have : ((17 / 100 : ℚ) : ℝ) ≤ (g.formula.margin : ℝ) := by exact_mod_cast hm
    push_cast at this; exact this
  have : 1 + (g.formula.margin : ℝ) ≤ z := by
    cases hfm : g.formula with
    | air => rw [hfm] at hf; simp [formulaOk] at hf
    | sellmeier ts =>
      rw [hfm] at hf hz
      simp only [formulaOk, Bool.and_eq_true, List.all_eq_true, decide_eq_true_eq] at hf
      obtain ⟨s, h3, h4⟩ := terms_bound hf.1 h1 h2 1
      unfold Formula.square at hz
      dsimp only at hz
      rw [h3] at hz
      obtain rfl := Except.ok.inj hz
      exact h4
    | laurent a b c d e f =>
      rw [hfm] at hf hz
      simp only [formulaOk, Bool.and_eq_true, decide_eq_true_eq] at hf
      obtain ⟨⟨⟨⟨⟨hb, hc⟩, hd⟩, he⟩, hf⟩, -⟩ := hf
      unfold Formula.square at hz
      obtain rfl := Except.ok.inj hz
      have hlo : (0 : ℝ) < (loμ : ℝ) := by norm_num [loμ]
      have hx : 0 < x := hlo.trans_le h1
      have hb' : (b : ℝ) ≤ 0 := by exact_mod_cast hb
      have hc' : (0 : ℝ) ≤ (c : ℝ) := by exact_mod_cast hc
      have hd' : (0 : ℝ) ≤ (d : ℝ) := by exact_mod_cast hd
      have he' : (e : ℝ) ≤ 0 := by exact_mod_cast he
      have hf' : (0 : ℝ) ≤ (f : ℝ) := by exact_mod_cast hf
      have i1 : (b : ℝ) * (hiμ : ℝ) ^ 2 ≤ b * x ^ 2 := mul_le_mul_of_nonpos_left (by gcongr) hb'
      have i2 : (e : ℝ) / (loμ : ℝ) ^ 6 ≤ e / x ^ 6 := by
        have h6 : (loμ : ℝ) ^ 6 ≤ x ^ 6 := by gcongr
        have p1 : 0 < (loμ : ℝ) ^ 6 := by positivity
        have p2 : 0 < x ^ 6 := by positivity
        rw [div_le_div_iff₀ p1 p2]; nlinarith
      have i3 : 0 ≤ (c : ℝ) / x ^ 2 := by positivity
      have i4 : 0 ≤ (d : ℝ) / x ^ 4 := by positivity
      have i5 : 0 ≤ (f : ℝ) / x ^ 8 := by positivity
      unfold Formula.margin
      push_cast
      linarith
  linarith

/-- What is under the square root in floats, next to the exact one. -/
theorem square_close (hr : Rounding rnd u) (hu : u ≤ 1 / 1000000) [PyPow (Fl ℝ rnd)] (hp : PowOk rnd u) {g : Glass} (hg : g.floatOk = true) {x : ℝ}
    (h1 : (loμ : ℝ) ≤ x) (h2 : x ≤ (hiμ : ℝ)) : ∃ z' z, g.squareF (num x : Fl ℝ rnd) = .ok (num z') ∧ g.formula.square x = .ok z ∧ Errs u z' z g.squareErr := by
  have hlo : (0 : ℝ) < (loμ : ℝ) := by norm_num [loμ]
  have hx : 0 < x := hlo.trans_le h1
  obtain ⟨name, f, ab⟩ := g
  unfold Glass.floatOk at hg
  rw [Bool.and_eq_true, Bool.and_eq_true] at hg
  obtain ⟨⟨hf, -⟩, hg⟩ := hg
  cases f with
  | air => simp [formulaOk] at hf
  | sellmeier ts =>
    dsimp only at hg
    rw [Bool.and_eq_true, List.all_eq_true] at hg
    obtain ⟨ha, hfs⟩ := hg
    by_cases hn : name = "FusedSilica"
    · rw [if_pos hn, decide_eq_true_eq] at hfs
      have key : ∀ t ∈ fusedSilica, ∃ v, squareTerm (num x : Fl ℝ rnd) t = .ok (num v) ∧ 1 - ((((t.1, t.2 ^ 2) : ℚ × ℚ)).2 : ℝ) / x ^ 2 ≠ 0 ∧
          Errs u v ((((t.1, t.2 ^ 2) : ℚ × ℚ)).1 / (1 - ((((t.1, t.2 ^ 2) : ℚ × ℚ)).2 : ℝ) / x ^ 2)) (termErr (t.1, t.2 ^ 2)) := by
        intro t ht
        have hm := ha (t.1, t.2 ^ 2) (by rw [hfs]; exact List.mem_map.2 ⟨t, ht, rfl⟩)
        rw [Bool.and_eq_true, decide_eq_true_eq, decide_eq_true_eq] at hm
        refine squareTerm_close hr hu hp h1 h2 ?_ hm.1 hm.2
        simp only [fusedSilica, List.mem_cons, List.not_mem_nil, or_false] at ht
        rcases ht with rfl | rfl | rfl <;> norm_num
      obtain ⟨z', z, g1, g2, g3⟩ := sumTerms_close hr hu (f := fun t => (t.1, t.2 ^ 2)) key (Errs.one u)
      refine ⟨z', z, ?_, ?_, ?_⟩
      · unfold Glass.squareF
        dsimp only
        rw [if_pos hn, one_num hr]; exact g1
      · unfold Formula.square
        dsimp only
        rw [hfs]; exact g2
      · unfold Glass.squareErr
        dsimp only
        rw [hfs, List.map_map]; exact g3
    · have key : ∀ t ∈ ts, ∃ v, overTerm (num x : Fl ℝ rnd) t = .ok (num v) ∧ 1 - ((id t).2 : ℝ) / x ^ 2 ≠ 0 ∧
          Errs u v ((id t).1 / (1 - ((id t).2 : ℝ) / x ^ 2)) (termErr (id t)) := by
        intro t ht
        have hm := ha t ht
        rw [Bool.and_eq_true, decide_eq_true_eq, decide_eq_true_eq] at hm
        exact overTerm_close hr hu hp h1 h2 hm.1 hm.2
      obtain ⟨z', z, g1, g2, g3⟩ := sumTerms_close hr hu (f := id) key (Errs.one u)
      rw [List.map_id] at g2
      refine ⟨z', z, ?_, g2, g3⟩
      unfold Glass.squareF
      dsimp only
      rw [if_neg hn, one_num hr]; exact g1
  | laurent a b c d e f =>
    have h0 : Errs u (rnd (a : ℝ)) a (|a|, |a|) := ⟨by push_cast; exact hr.rel _, by push_cast; exact le_rfl⟩
    obtain ⟨z', g1, g2⟩ := sumPowers_close hr hu hp h1 h2 (ts := [(b, 2), (c, -2), (d, -4), (e, -6), (f, -8)]) h0
    refine ⟨z', _, congrArg Except.ok g1, ?_, g2⟩
    unfold Formula.square powSum powSum powSum powSum powSum powSum
    simp only [zpow_neg, zpow_ofNat, div_eq_mul_inv]

section
variable (hr : Rounding rnd u) (hu : u ≤ 1 / 1000000) [PyPow (Fl ℝ rnd)] (hp : PowOk rnd u)
include hr hu hp

/-- **C126**, for every glass of the list and every wavelength from 0.28 to 7 microns, any rounding and any powers with less than two roundings: the index
computed in floats is a real number, and the exact one up to `floatErr` units of rounding, at most 3400 for `S_NPH2` (which has a resonance close to 0.28) and 350 for all
the others. It is larger than 1. -/
theorem C126_index {g : Glass} (hg : g ∈ materials) (hn : g.name ≠ "Air") {x : ℝ} (h1 : 0.28 ≤ x) (h2 : x ≤ 7) :
    ∃ y n : ℝ, g.nF (num x : Fl ℝ rnd) = .ok (.real (num y)) ∧ g.n x = .ok (.real n) ∧ |y - n| ≤ u * g.floatErr ∧
      g.floatErr ≤ 3400 ∧ (g.name ≠ "S_NPH2" → g.floatErr ≤ 350) ∧ 1 < y := by
  have h0 := hr.nonneg
  have hok := List.all_eq_true.1 glasses_floatOk g hg
  rw [Bool.or_eq_true, Bool.and_eq_true, decide_eq_true_eq] at hok
  obtain ⟨hok, hmax⟩ := hok.resolve_left (fun h => hn (by simpa using h))
  have l1 : (loμ : ℝ) ≤ x := by norm_num [loμ]; norm_num at h1; exact h1
  have l2 : x ≤ (hiμ : ℝ) := by norm_num [hiμ]; exact h2
  obtain ⟨z', z, g1, g2, g3⟩ := square_close hr hu hp hok l1 l2
  have hok' := hok
  unfold Glass.floatOk at hok'
  rw [Bool.and_eq_true, Bool.and_eq_true, decide_eq_true_eq] at hok'
  obtain ⟨⟨hf, hE⟩, -⟩ := hok'
  obtain ⟨s, g4, g5⟩ := formula_bound hf l1 l2
  rw [g2] at g4
  obtain rfl := Except.ok.inj g4
  have hE' : (g.squareErr.1 : ℝ) ≤ 10000 := by exact_mod_cast hE
  have g6 : |z' - z| ≤ 1 / 100 := by
    refine g3.1.trans ?_
    have := mul_le_mul_of_nonneg_left hE' h0
    linarith
  have hz' : 0 ≤ z' := by have := (abs_le.1 g6).1; linarith
  obtain ⟨y, p1, p2⟩ := hp.root z' hz'
  have hclose : |y - Real.sqrt z| ≤ u * g.floatErr := by
    have t1 := sqrt_close (show 0 < z by linarith) hz' g3.1
    have hE0 : 0 ≤ u * (g.squareErr.1 : ℝ) := (abs_nonneg _).trans g3.1
    have r1 : 1 ≤ Real.sqrt z := by rw [← Real.sqrt_one]; exact Real.sqrt_le_sqrt g5.le
    have t2 : |Real.sqrt z' - Real.sqrt z| ≤ u * (g.squareErr.1 : ℝ) := t1.trans (div_le_self hE0 r1)
    have r2 : Real.sqrt z ≤ (g.squareErr.2 : ℝ) := by
      have e : Real.sqrt z * Real.sqrt z = z := Real.mul_self_sqrt (by linarith)
      have := (abs_le.1 g3.2).2
      nlinarith
    have r3 : Real.sqrt z' ≤ (g.squareErr.2 : ℝ) + u * (g.squareErr.1 : ℝ) := by
      have := (abs_le.1 t2).2; linarith
    have t3 := p2.error hr
    have r := roundErr_small h0 hu (show 2 ≤ 6 by omega)
    unfold roundErr at r
    have t4 : |y - Real.sqrt z'| ≤ 3 * u * ((g.squareErr.2 : ℝ) + u * (g.squareErr.1 : ℝ)) := by
      refine t3.trans ?_
      rw [abs_of_nonneg (Real.sqrt_nonneg _)]
      calc _ ≤ (((2 : ℕ) : ℝ) + 1) * u * Real.sqrt z' := mul_le_mul_of_nonneg_right r (Real.sqrt_nonneg _)
        _ ≤ (((2 : ℕ) : ℝ) + 1) * u * ((g.squareErr.2 : ℝ) + u * (g.squareErr.1 : ℝ)) := by gcongr
        _ = _ := by push_cast; ring
    have : |y - Real.sqrt z| ≤ |y - Real.sqrt z'| + |Real.sqrt z' - Real.sqrt z| := abs_sub_le _ _ _
    unfold Glass.floatErr
    push_cast
    nlinarith
  refine ⟨y, Real.sqrt z, ?_, ?_, hclose, hmax.1, hmax.2, ?_⟩
  · unfold Glass.nF
    have c1 : ((10 : Fl ℝ rnd) <. (num x : Fl ℝ rnd)) = false := by
      have : (10 : Fl ℝ rnd) = num (rnd ((10 : ℕ) : ℚ)) := rfl
      rw [this, lt_num, decide_eq_false_iff_not, not_lt]
      have := (abs_le.1 (hr.rel 10)).1
      norm_num at this ⊢
      linarith
    have c2 : ((num x : Fl ℝ rnd) <. (lit (1 / 100) : Fl ℝ rnd)) = false := by
      rw [lit_num, lt_num, decide_eq_false_iff_not, not_lt]
      have := (abs_le.1 (hr.rel (1 / 100))).2
      norm_num at this h1 ⊢
      linarith
    rw [c1, c2, g1]
    have c3 : ((num z' : Fl ℝ rnd) <. (0 : Fl ℝ rnd)) = false := by
      rw [zero_num hr, lt_num, decide_eq_false_iff_not, not_lt]; exact hz'
    dsimp only
    rw [c3, p1]
    cases hfm : g.formula with
    | air => rw [hfm] at hf; simp [formulaOk] at hf
    | sellmeier ts => rfl
    | laurent a b c d e f => rfl
  · unfold Glass.n
    rw [C56_accepted g (by norm_num at h1 ⊢; linarith) (by linarith), g2]
    simp only
    rw [if_pos (by linarith)]
  · have hz := margin_bound (List.all_eq_true.1 glasses_margin g hg) hn l1 l2 g2
    have hm' : (g.floatErr : ℝ) ≤ 3400 := by exact_mod_cast hmax.1
    have r1 : (107 / 100 : ℝ) ≤ Real.sqrt z := Real.le_sqrt_of_sq_le (by linarith)
    have := (abs_le.1 hclose).1
    nlinarith

omit hu hp in
/-- **C126**, outside of the accepted range: every material raises `ValueError`, where the limit 0.01 is the float next to it. -/
theorem C126_refused (g : Glass) {x : ℝ} (h : rnd 10 < x ∨ x < rnd (1 / 100)) : g.nF (num x : Fl ℝ rnd) = .error .valueError := by
  unfold Glass.nF
  have e : (10 : Fl ℝ rnd) = num (rnd 10) := by
    change (⟨rndE rnd (.fin _)⟩ : Fl ℝ rnd) = _
    have : ((((10 : ℕ) : ℚ)) : ℝ) = 10 := by norm_num
    simp only [rndE, num, this]
  rw [e, lit_num, lt_num, lt_num]
  have : (decide (rnd 10 < x) || decide (x < rnd (((1 / 100 : ℚ)) : ℝ))) = true := by
    rw [Bool.or_eq_true, decide_eq_true_eq, decide_eq_true_eq]
    rcases h with h | h
    · exact .inl h
    · right; push_cast; exact h
  rw [this]
  rfl

omit hu hp in
/-- **C126**, the index of air is 1 in the whole accepted range. -/
theorem C126_air {g : Glass} (hg : g ∈ materials) (hn : g.name = "Air") {x : ℝ} (h1 : rnd (1 / 100) ≤ x) (h2 : x ≤ rnd 10) :
    g.nF (num x : Fl ℝ rnd) = .ok (.real 1) := by
  unfold Glass.nF
  have e : (10 : Fl ℝ rnd) = num (rnd 10) := by
    change (⟨rndE rnd (.fin _)⟩ : Fl ℝ rnd) = _
    have : ((((10 : ℕ) : ℚ)) : ℝ) = 10 := by norm_num
    simp only [rndE, num, this]
  rw [e, lit_num, lt_num, lt_num]
  have : (decide (rnd 10 < x) || decide (x < rnd (((1 / 100 : ℚ)) : ℝ))) = false := by
    rw [Bool.or_eq_false_iff, decide_eq_false_iff_not, decide_eq_false_iff_not, not_lt, not_lt]
    refine ⟨h2, ?_⟩
    push_cast; exact h1
  rw [this, air_formula g hg hn]
  rfl

end

/-! ## Python floats -/

/-- powers that are the exact ones, rounded -/
@[reducible] noncomputable def doubleRPow : PyPow (Fl ℝ doubleR) where
  pow x k := match x.val with
    | .fin q => num (doubleR (q ^ k))
    | y => ⟨y⟩
  root x := match x.val with
    | .fin q => num (doubleR (Real.sqrt q))
    | y => ⟨y⟩

theorem doubleRPow_ok : @PowOk doubleR (1 / 2 ^ 53) doubleRPow :=
  @PowOk.mk doubleR (1 / 2 ^ 53) doubleRPow
    (fun _ _ _ => ⟨_, rfl, ((Tight.refl _).round doubleR_rounding).mono doubleR_rounding (by omega)⟩)
    (fun _ _ => ⟨_, rfl, ((Tight.refl _).round doubleR_rounding).mono doubleR_rounding (by omega)⟩)

/-- **C126** in Python floats: the index of every glass of the list is the exact one to 4·10⁻¹³ from 0.28 to 7 microns, and to 4·10⁻¹⁴ for all of them but
`S_NPH2`. -/
theorem C126_python {g : Glass} (hg : g ∈ materials) (hn : g.name ≠ "Air") {x : ℝ} (h1 : 0.28 ≤ x) (h2 : x ≤ 7) :
    ∃ y n : ℝ, @Glass.nF _ _ doubleRPow g (num x) = .ok (.real (num y)) ∧ g.n x = .ok (.real n) ∧ |y - n| ≤ 4 / 10 ^ 13 ∧
      (g.name ≠ "S_NPH2" → |y - n| ≤ 4 / 10 ^ 14) ∧ 1 < y := by
  let _ := doubleRPow
  obtain ⟨y, n, e1, e2, e3, e4, e5, e6⟩ := C126_index doubleR_rounding (by norm_num) doubleRPow_ok hg hn h1 h2
  have f4 : (g.floatErr : ℝ) ≤ 3400 := by exact_mod_cast e4
  refine ⟨y, n, e1, e2, e3.trans ?_, fun hs => e3.trans ?_, e6⟩
  · calc (1 / 2 ^ 53 : ℝ) * g.floatErr ≤ 1 / 2 ^ 53 * 3400 := by gcongr
      _ ≤ _ := by norm_num
  · have f5 : (g.floatErr : ℝ) ≤ 350 := by exact_mod_cast e5 hs
    calc (1 / 2 ^ 53 : ℝ) * g.floatErr ≤ 1 / 2 ^ 53 * 350 := by gcongr
      _ ≤ _ := by norm_num

/-- The hypotheses hold for BK7 at 0.5876 microns. -/
theorem C126_example : ∃ g ∈ materials, g.name = "N_BK7" ∧ ∃ y n : ℝ, @Glass.nF _ _ doubleRPow g (num 0.5876) = .ok (.real (num y)) ∧
    g.n 0.5876 = .ok (.real n) ∧ |y - n| ≤ 4 / 10 ^ 14 := by
  refine ⟨⟨"N_BK7", .sellmeier [(1.03961212, 0.00600069867), (0.231792344, 0.0200179144), (1.01046945, 103.560653)], 64.17⟩, by simp [materials], rfl, ?_⟩
  obtain ⟨y, n, e1, e2, -, e4, -⟩ := C126_python (g := ⟨"N_BK7", .sellmeier [(1.03961212, 0.00600069867), (0.231792344, 0.0200179144), (1.01046945, 103.560653)], 64.17⟩)
    (x := 0.5876) (by simp [materials]) (by decide) (by norm_num) (by norm_num)
  exact ⟨y, n, e1, e2, e4 (by decide)⟩

/-- Violated in the accepted range, below: at the Python float 0.07746417668832478, BK7 raises `ZeroDivisionError`, since the square of that float is the
constant of the formula once rounded; the exact formula has a value there. For every powers of which `x ** 2` is the exact square rounded. -/
theorem C126_resonance_violated [PyPow Double] (hp : ∀ q : ℚ, PyPow.pow (num q : Double) 2 = num (double (q ^ 2))) :
    ∃ g ∈ materials, ∃ x : ℚ, double x = x ∧ 1 / 100 < x ∧ x < 10 ∧ g.nF (num x : Double) = .error .zeroDivisionError ∧
      g.square x ≠ .error .zeroDivisionError := by
  refine ⟨⟨"N_BK7", .sellmeier [(1.03961212, 0.00600069867), (0.231792344, 0.0200179144), (1.01046945, 103.560653)], 64.17⟩, by simp [materials],
    1395470549072407 / 18014398509481984, by decide +kernel, by norm_num, by norm_num, ?_, by decide +kernel⟩
  have h1 : overTerm (num (1395470549072407 / 18014398509481984) : Double) (1.03961212, 0.00600069867) = .error .zeroDivisionError := by
    unfold overTerm
    rw [hp]
    decide +kernel
  have h2 : (((10 : Double) <. (num (1395470549072407 / 18014398509481984) : Double)) ||
      ((num (1395470549072407 / 18014398509481984) : Double) <. (lit (1 / 100) : Double))) = false := by decide +kernel
  unfold Glass.nF Glass.squareF
  rw [h2]
  dsimp only
  unfold sumTerms
  rw [h1]
  rfl

/-! ## Exact numbers -/

/-- exact powers -/
@[reducible] noncomputable def exactPow : PyPow (Ext ℝ) where
  pow x k := match x with
    | .fin q => fin (q ^ k)
    | _ => nan
  root x := match x with
    | .fin q => fin (Real.sqrt q)
    | _ => nan

/-- an exact index, as a number -/
noncomputable def PyIndex.toExt : PyIndex → FloatIndex (Ext ℝ)
  | .real n => .real (fin n)
  | .complex => .complex

theorem glasses_fused : materials.all (fun g => match g.formula with
    | .sellmeier ts => decide (g.name = "FusedSilica" → ts = fusedSilica.map fun t => (t.1, t.2 ^ 2))
    | _ => true) = true := by decide +kernel

theorem sumTerms_exact {term : ℚ × ℚ → Except PyErr (Ext ℝ)} {x : ℝ} {f : ℚ × ℚ → ℚ × ℚ} : ∀ {ts : List (ℚ × ℚ)} {s : ℝ},
    (∀ t ∈ ts, term t = if 1 - ((f t).2 : ℝ) / x ^ 2 = 0 then .error .zeroDivisionError else .ok (fin ((f t).1 / (1 - ((f t).2 : ℝ) / x ^ 2)))) →
    sumTerms term (fin s) ts = ((ts.map f).foldl (sellmeierTerm x) (.ok s)).map fin
  | [], s, _ => rfl
  | t :: ts, s, h => by
    have h1 := h t (by simp)
    simp only [sumTerms, List.map_cons, List.foldl_cons, sellmeierTerm]
    by_cases hz : 1 - ((f t).2 : ℝ) / x ^ 2 = 0
    · rw [h1, if_pos hz, if_pos hz]
      have : ∀ l : List (ℚ × ℚ), l.foldl (sellmeierTerm x) (.error PyErr.zeroDivisionError) = .error .zeroDivisionError := by
        intro l; induction l with
        | nil => rfl
        | cons t l ih => simp only [List.foldl_cons, sellmeierTerm]; exact ih
      rw [this]; rfl
    · rw [h1, if_neg hz, if_neg hz]
      exact sumTerms_exact fun t ht => h t (by simp [ht])

/-- **C126**, with exact numbers the operations of the source are the formulas of C56, resonances included, for every glass of the list and every wavelength. -/
theorem C126_exact {g : Glass} (hg : g ∈ materials) (x : ℝ) : @Glass.nF _ _ exactPow g (fin x) = (g.n x).map PyIndex.toExt := by
  let _ := exactPow
  have e10 : (10 : Ext ℝ) = fin 10 := by
    change fin _ = _
    norm_num
  unfold Glass.nF Glass.n Glass.square
  rw [e10, lit_eq, lt_fin, lt_fin]
  by_cases hx : x > ((10 : ℚ) : ℝ) ∨ x < ((0.01 : ℚ) : ℝ)
  · have : (decide ((10 : ℝ) < x) || decide (x < ((1 / 100 : ℚ) : ℝ))) = true := by
      rw [Bool.or_eq_true, decide_eq_true_eq, decide_eq_true_eq]
      rcases hx with h | h
      · left; push_cast at h; exact h
      · right; norm_num at h ⊢; exact h
    rw [if_pos hx, this]; rfl
  · have : (decide ((10 : ℝ) < x) || decide (x < ((1 / 100 : ℚ) : ℝ))) = false := by
      push Not at hx
      rw [Bool.or_eq_false_iff, decide_eq_false_iff_not, decide_eq_false_iff_not, not_lt, not_lt]
      refine ⟨by have := hx.1; push_cast at this; exact this, ?_⟩
      have := hx.2
      norm_num at this ⊢; exact this
    have hx0 : 0 < x := by
      push Not at hx
      have := hx.2
      norm_num at this
      linarith
    rw [if_neg hx, this]
    have hroot : ∀ s : ℝ, (if (fin s : Ext ℝ) <. (0 : Ext ℝ) then FloatIndex.complex else .real (PyPow.root (fin s))) =
        (if 0 ≤ s then PyIndex.real (Real.sqrt s) else .complex).toExt := by
      intro s
      rw [zero_eq, lt_fin]
      by_cases h : 0 ≤ s
      · rw [if_neg (by simpa using h), if_pos h]; rfl
      · rw [if_pos (by simpa using h), if_neg h]; rfl
    have hsq : g.formula ≠ .air → g.squareF (fin x) = (g.formula.square x).map fin := by
      intro hna
      have hf := List.all_eq_true.1 glasses_fused g hg
      unfold Glass.squareF
      cases hfm : g.formula with
      | air => exact absurd hfm hna
      | sellmeier ts =>
        rw [hfm] at hf
        dsimp only at hf ⊢
        rw [decide_eq_true_eq] at hf
        by_cases hn : g.name = "FusedSilica"
        · rw [if_pos hn, one_eq, sumTerms_exact (x := x) (f := fun t => (t.1, t.2 ^ 2)), ← hf hn]
          · rfl
          · intro t _
            unfold squareTerm
            rw [lit_eq, lit_eq, pyDiv_fin _ _ hx0.ne']
            dsimp only
            have e : PyPow.pow (fin ((t.2 : ℝ) / x)) 2 = (fin (((t.2 ^ 2 : ℚ) : ℝ) / x ^ 2) : Ext ℝ) := by
              change fin (((t.2 : ℝ) / x) ^ (2 : ℤ)) = _
              rw [zpow_ofNat, div_pow]; push_cast; rfl
            rw [e, one_eq, fin_sub_fin]
            split_ifs with h0
            · rw [h0, pyDiv_zero]
            · rw [pyDiv_fin _ _ h0]
        · rw [if_neg hn, one_eq, sumTerms_exact (x := x) (f := id), List.map_id]
          · rfl
          · intro t _
            unfold overTerm
            have e : PyPow.pow (fin x) 2 = (fin (x ^ 2) : Ext ℝ) := by
              change fin (x ^ (2 : ℤ)) = _
              rw [zpow_ofNat]
            have e2 : (if t.2 < 0 then (fin 1 : Ext ℝ) + fin (((|t.2| : ℚ) : ℝ) / x ^ 2) else fin 1 - fin (((|t.2| : ℚ) : ℝ) / x ^ 2)) =
                fin (1 - (t.2 : ℝ) / x ^ 2) := by
              split_ifs with h0
              · rw [abs_of_neg h0, fin_add_fin]; push_cast; ring_nf
              · rw [abs_of_nonneg (not_lt.1 h0), fin_sub_fin]
            rw [e, lit_eq, lit_eq, pyDiv_fin _ _ (by positivity)]
            dsimp only
            rw [one_eq, e2]
            simp only [id]
            split_ifs with h0
            · rw [h0, pyDiv_zero]
            · rw [pyDiv_fin _ _ h0]
      | laurent a b c d e f =>
        dsimp only
        have key : ∀ (s : ℝ) (b : ℚ) (k : ℤ), signedAdd (fin s) b (fun c => c * PyPow.pow (fin x : Ext ℝ) k) = fin (s + b * x ^ k) := by
          intro s b k
          have e : PyPow.pow (fin x) k = (fin (x ^ k) : Ext ℝ) := rfl
          unfold signedAdd
          split_ifs with h0
          · rw [lit_eq, e]; dsimp only; rw [fin_mul_fin, fin_sub_fin]; push_cast; ring_nf
          · rw [lit_eq, e]; dsimp only; rw [fin_mul_fin, fin_add_fin]
        simp only [sumPowers, lit_eq, key, Formula.square, Except.map, zpow_neg, zpow_ofNat, div_eq_mul_inv]
    cases hfm : g.formula with
    | air =>
      simp only [Bool.false_eq_true, if_false, Formula.square, Except.map, one_eq]
      rw [if_pos (by norm_num), Real.sqrt_one]
      rfl
    | sellmeier ts =>
      simp only [Bool.false_eq_true, if_false]
      rw [hsq (by rw [hfm]; simp), hfm]
      cases hs : (Formula.sellmeier ts).square x with
      | error e => rfl
      | ok s => simp only [Except.map, hroot]
    | laurent a b c d e f =>
      simp only [Bool.false_eq_true, if_false]
      rw [hsq (by rw [hfm]; simp), hfm]
      cases hs : (Formula.laurent a b c d e f).square x with
      | error e => rfl
      | ok s => simp only [Except.map, hroot]

end RT
