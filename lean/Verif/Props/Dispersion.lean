import Verif.Props.Materials
import Verif.Props.Catalogue

/-! # C93: the dispersion of the glasses -/

set_option linter.unusedSectionVars false

namespace RT
open PyNum Ext

/-! ## The index decreases -/

/-- part of the decrease of a term of the sum -/
def termSlope (t : ℚ × ℚ) : ℚ := if t.2 < loμ ^ 2 then t.1 * t.2 else 0

/-- the coefficients of a formula such that the index decreases in the range -/
def slopeOk : Formula → Bool
  | .air => false
  | .sellmeier ts => ts.all termOk && decide (0 < (ts.map termSlope).sum)
  | .laurent _ b c d e f =>
    decide (b ≤ 0) && decide (0 < c) && decide (0 ≤ d) && decide (e ≤ 0) && decide (0 ≤ f) && decide (e ^ 2 ≤ 2 * d * f)

theorem term_decrease {t : ℚ × ℚ} (h : termOk t = true) {x y : ℝ} (h1 : (loμ : ℝ) ≤ x) (hxy : x < y) (h2 : y ≤ (hiμ : ℝ)) :
    (termSlope t : ℝ) * ((y ^ 2 - x ^ 2) / (x ^ 2 * y ^ 2)) ≤ (t.1 : ℝ) / (1 - (t.2 : ℝ) / x ^ 2) - (t.1 : ℝ) / (1 - (t.2 : ℝ) / y ^ 2) := by
  have hlo : (0 : ℝ) < (loμ : ℝ) := by norm_num [loμ]
  have hx : 0 < x := hlo.trans_le h1
  have hy : 0 < y := hx.trans hxy
  have hl2 : (loμ : ℝ) ^ 2 ≤ x ^ 2 := by gcongr
  have hh2 : y ^ 2 ≤ (hiμ : ℝ) ^ 2 := by gcongr
  have huv : x ^ 2 < y ^ 2 := by gcongr
  obtain ⟨n1, -⟩ := term_bound h h1 (hxy.le.trans h2)
  obtain ⟨n2, -⟩ := term_bound h (h1.trans hxy.le) h2
  have hu : 0 < x ^ 2 := by positivity
  have hv : 0 < y ^ 2 := by positivity
  obtain ⟨B, C⟩ := t
  simp only [termOk, Bool.and_eq_true, Bool.or_eq_true, decide_eq_true_eq] at h
  obtain ⟨hB, hC⟩ := h
  have hB' : (0 : ℝ) < (B : ℝ) := by exact_mod_cast hB
  dsimp only at n1 n2 ⊢
  generalize x ^ 2 = u at *
  generalize y ^ 2 = v at *
  have hd1 : u - (C : ℝ) ≠ 0 := by intro h0; apply n1; rw [sub_eq_zero.1 h0, div_self]; · ring
                                   rw [← sub_eq_zero.1 h0]; exact hu.ne'
  have hd2 : v - (C : ℝ) ≠ 0 := by intro h0; apply n2; rw [sub_eq_zero.1 h0, div_self]; · ring
                                   rw [← sub_eq_zero.1 h0]; exact hv.ne'
  have hdiff : (B : ℝ) / (1 - (C : ℝ) / u) - (B : ℝ) / (1 - (C : ℝ) / v) = B * C * (v - u) / ((u - C) * (v - C)) := by
    have e1 : (B : ℝ) / (1 - (C : ℝ) / u) = B * u / (u - C) := by
      have : 1 - (C : ℝ) / u = (u - C) / u := by field_simp
      rw [this, div_div_eq_mul_div]
    have e2 : (B : ℝ) / (1 - (C : ℝ) / v) = B * v / (v - C) := by
      have : 1 - (C : ℝ) / v = (v - C) / v := by field_simp
      rw [this, div_div_eq_mul_div]
    rw [e1, e2, div_sub_div _ _ hd1 hd2]
    congr 1
    ring
  rw [hdiff]
  have hvu : 0 < v - u := sub_pos.2 huv
  by_cases hc : C < loμ ^ 2
  · have hc' : (C : ℝ) < (loμ : ℝ) ^ 2 := by exact_mod_cast hc
    have p1 : 0 < u - C := by linarith
    have p2 : 0 < v - C := by linarith
    have hT : termSlope (B, C) = B * C := by simp [termSlope, hc]
    rw [hT]
    push_cast
    rw [mul_div_assoc', div_le_div_iff₀ (by positivity) (by positivity)]
    have hk : (B : ℝ) * C * ((u - C) * (v - C)) ≤ B * C * (u * v) := by
      rcases le_total 0 (C : ℝ) with h0 | h0
      · apply mul_le_mul_of_nonneg_left _ (by positivity)
        have : u - C ≤ u := by linarith
        have : v - C ≤ v := by linarith
        gcongr
      · apply mul_le_mul_of_nonpos_left _ (mul_nonpos_of_nonneg_of_nonpos hB'.le h0)
        have : u ≤ u - C := by linarith
        have : v ≤ v - C := by linarith
        gcongr
    nlinarith [mul_le_mul_of_nonneg_right hk hvu.le]
  · have hC2 : hiμ ^ 2 < C := hC.resolve_left hc
    have hc' : (hiμ : ℝ) ^ 2 < (C : ℝ) := by exact_mod_cast hC2
    have p1 : u - C < 0 := by linarith
    have p2 : v - C < 0 := by linarith
    have hT : termSlope (B, C) = 0 := by simp [termSlope, hc]
    have hC0 : (0 : ℝ) < C := by linarith
    rw [hT, Rat.cast_zero, zero_mul]
    have := mul_pos_of_neg_of_neg p1 p2
    positivity

theorem terms_decrease {ts : List (ℚ × ℚ)} (h : ∀ t ∈ ts, termOk t = true) {x y : ℝ} (h1 : (loμ : ℝ) ≤ x) (hxy : x < y) (h2 : y ≤ (hiμ : ℝ)) :
    ∀ a b : ℝ, ∃ s r, ts.foldl (sellmeierTerm x) (.ok a) = .ok s ∧ ts.foldl (sellmeierTerm y) (.ok b) = .ok r ∧
      a - b + (((ts.map termSlope).sum : ℚ) : ℝ) * ((y ^ 2 - x ^ 2) / (x ^ 2 * y ^ 2)) ≤ s - r := by
  induction ts with
  | nil => intro a b; exact ⟨a, b, rfl, rfl, by simp⟩
  | cons t ts ih =>
    intro a b
    have ht := h t (by simp)
    obtain ⟨n1, -⟩ := term_bound ht h1 (hxy.le.trans h2)
    obtain ⟨n2, -⟩ := term_bound ht (h1.trans hxy.le) h2
    have h3 := term_decrease ht h1 hxy h2
    obtain ⟨s, r, e1, e2, h4⟩ := ih (fun t ht => h t (by simp [ht])) (a + (t.1 : ℝ) / (1 - (t.2 : ℝ) / x ^ 2))
      (b + (t.1 : ℝ) / (1 - (t.2 : ℝ) / y ^ 2))
    refine ⟨s, r, ?_, ?_, ?_⟩
    · rw [List.foldl_cons, ← e1]; simp only [sellmeierTerm, if_neg n1]
    · rw [List.foldl_cons, ← e2]; simp only [sellmeierTerm, if_neg n2]
    · simp only [List.map_cons, List.sum_cons, Rat.cast_add, add_mul]
      linarith

theorem formula_decrease {f : Formula} (h : slopeOk f = true) {x y : ℝ} (h1 : (loμ : ℝ) ≤ x) (hxy : x < y) (h2 : y ≤ (hiμ : ℝ)) :
    ∃ s r, f.square x = .ok s ∧ f.square y = .ok r ∧ r < s := by
  have hlo : (0 : ℝ) < (loμ : ℝ) := by norm_num [loμ]
  have hx : 0 < x := hlo.trans_le h1
  have hy : 0 < y := hx.trans hxy
  have huv : x ^ 2 < y ^ 2 := by gcongr
  cases f with
  | air => simp [slopeOk] at h
  | sellmeier ts =>
    simp only [slopeOk, Bool.and_eq_true, List.all_eq_true, decide_eq_true_eq] at h
    obtain ⟨s, r, e1, e2, h3⟩ := terms_decrease h.1 h1 hxy h2 1 1
    refine ⟨s, r, e1, e2, ?_⟩
    have p1 : (0 : ℝ) < (((ts.map termSlope).sum : ℚ) : ℝ) := by exact_mod_cast h.2
    have p2 : 0 < (y ^ 2 - x ^ 2) / (x ^ 2 * y ^ 2) := div_pos (sub_pos.2 huv) (by positivity)
    have := mul_pos p1 p2
    linarith
  | laurent a b c d e f =>
    simp only [slopeOk, Bool.and_eq_true, decide_eq_true_eq] at h
    obtain ⟨⟨⟨⟨⟨hb, hc⟩, hd⟩, he⟩, hf⟩, hs⟩ := h
    refine ⟨_, _, rfl, rfl, ?_⟩
    have hb' : (b : ℝ) ≤ 0 := by exact_mod_cast hb
    have hc' : (0 : ℝ) < (c : ℝ) := by exact_mod_cast hc
    have hd' : (0 : ℝ) ≤ (d : ℝ) := by exact_mod_cast hd
    have he' : (e : ℝ) ≤ 0 := by exact_mod_cast he
    have hf' : (0 : ℝ) ≤ (f : ℝ) := by exact_mod_cast hf
    have hs' : (e : ℝ) ^ 2 ≤ 2 * d * f := by exact_mod_cast hs
    have hst : 1 / y ^ 2 < 1 / x ^ 2 := one_div_lt_one_div_of_lt (by positivity) huv
    have ht0 : 0 < 1 / y ^ 2 := by positivity
    have q : ∀ z : ℝ, (a : ℝ) + b * z ^ 2 + c / z ^ 2 + d / z ^ 4 + e / z ^ 6 + f / z ^ 8 =
        a + b * z ^ 2 + (c * (1 / z ^ 2) + d * (1 / z ^ 2) ^ 2 + e * (1 / z ^ 2) ^ 3 + f * (1 / z ^ 2) ^ 4) := by
      intro z
      simp only [div_pow, one_pow, ← pow_mul]
      ring
    rw [q x, q y]
    generalize 1 / x ^ 2 = s at *
    generalize 1 / y ^ 2 = t at *
    have hbb : (b : ℝ) * y ^ 2 ≤ b * x ^ 2 := mul_le_mul_of_nonpos_left huv.le hb'
    have key : 0 < (c : ℝ) + d * (s + t) + e * (s ^ 2 + s * t + t ^ 2) + f * ((s + t) * (s ^ 2 + t ^ 2)) := by
      have hp : 0 < s + t := by linarith
      have i1 : (e : ℝ) * (s + t) ^ 2 ≤ e * (s ^ 2 + s * t + t ^ 2) := by
        apply mul_le_mul_of_nonpos_left _ he'
        nlinarith [mul_pos (ht0.trans hst) ht0]
      have i2 : (f : ℝ) * ((s + t) ^ 3 / 2) ≤ f * ((s + t) * (s ^ 2 + t ^ 2)) := by
        apply mul_le_mul_of_nonneg_left _ hf'
        have : (s + t) ^ 2 / 2 ≤ s ^ 2 + t ^ 2 := by nlinarith [sq_nonneg (s - t)]
        nlinarith
      have i3 : 0 ≤ (d : ℝ) + e * (s + t) + f / 2 * (s + t) ^ 2 := by
        rcases hf'.eq_or_lt with h0 | h0
        · rw [← h0] at hs' ⊢
          have : (e : ℝ) = 0 := by
            have : (e : ℝ) ^ 2 ≤ 0 := by simpa using hs'
            exact pow_eq_zero_iff (two_ne_zero) |>.1 (le_antisymm this (sq_nonneg _))
          rw [this]; simp [hd']
        · have : 0 ≤ 2 * (f : ℝ) * (d + e * (s + t) + f / 2 * (s + t) ^ 2) := by nlinarith [sq_nonneg ((f : ℝ) * (s + t) + e)]
          exact nonneg_of_mul_nonneg_right this (by positivity)
      have i4 := mul_nonneg hp.le i3
      nlinarith
    have := mul_pos (sub_pos.2 hst) key
    nlinarith

theorem materials_slopeOk : materials.all (fun g => g.name == "Air" || slopeOk g.formula) = true := by decide +kernel

/-- **C93.** The index of every glass decreases with the wavelength, from 0.28 to 7 microns. -/
theorem C93_decreasing {g : Glass} (hg : g ∈ materials) (hn : g.name ≠ "Air") {x y : ℝ} (h1 : 0.28 ≤ x) (hxy : x < y) (h2 : y ≤ 7) :
    ∃ nx ny : ℝ, g.n x = .ok (.real nx) ∧ g.n y = .ok (.real ny) ∧ 1 < ny ∧ ny < nx := by
  have hok := List.all_eq_true.1 materials_slopeOk g hg
  have hf : slopeOk g.formula = true := by
    rw [Bool.or_eq_true] at hok
    rcases hok with h | h
    · exact absurd (by simpa using h) hn
    · exact h
  obtain ⟨s, r, e1, e2, h3⟩ := formula_decrease hf (x := x) (y := y) (by norm_num [loμ]; norm_num at h1; exact h1) hxy (by norm_num [hiμ]; exact h2)
  obtain ⟨nx, f1, g1⟩ := C56_glass_partial hg hn h1 (hxy.le.trans h2)
  obtain ⟨ny, f2, g2⟩ := C56_glass_partial hg hn (h1.trans hxy.le) h2
  refine ⟨nx, ny, f1, f2, g2, ?_⟩
  unfold Glass.n at f1 f2
  rw [C56_accepted g (by norm_num at h1 ⊢; linarith) (by linarith), e1] at f1
  rw [C56_accepted g (by norm_num at h1 ⊢; linarith) (by linarith), e2] at f2
  simp only [Except.ok.injEq] at f1 f2
  split_ifs at f1 f2 with a1 a2
  injection f1 with f1
  injection f2 with f2
  rw [← f1, ← f2]
  exact Real.sqrt_lt_sqrt a2 h3

/-! ## The Abbe numbers -/

/-- Specification: the lines that define the Abbe number, in microns: d of helium, F and C of hydrogen. -/
def lineD : ℚ := 5875618 / 10000000
def lineF : ℚ := 4861327 / 10000000
def lineC : ℚ := 6562725 / 10000000

/-- the interval of `(n_d - 1) / (n_F - n_C)` -/
def abbeIv (f : Formula) : Iv :=
  ((f.nIv lineD lineD).sub (Iv.pt 1)).mul ((f.nIv lineF lineF).sub (f.nIv lineC lineC)).inv

/-- the Abbe number of a class is that of its indices, within 0.02 -/
def abbeOk (g : Glass) : Bool :=
  g.formula.ivOk lineD lineD && g.formula.ivOk lineF lineF && g.formula.ivOk lineC lineC &&
  ((g.formula.nIv lineF lineF).sub (g.formula.nIv lineC lineC)).away &&
  decide (g.abbe - 1 / 50 ≤ (abbeIv g.formula).lo) && decide ((abbeIv g.formula).hi ≤ g.abbe + 1 / 50)

theorem abbe_of {g : Glass} (h : abbeOk g = true) : ∃ nd nF nC : ℝ, g.n lineD = .ok (.real nd) ∧ g.n lineF = .ok (.real nF) ∧
    g.n lineC = .ok (.real nC) ∧ |(g.abbe : ℝ) - (nd - 1) / (nF - nC)| ≤ 1 / 50 := by
  simp only [abbeOk, Bool.and_eq_true, decide_eq_true_eq] at h
  obtain ⟨⟨⟨⟨⟨h1, h2⟩, h3⟩, h4⟩, h5⟩, h6⟩ := h
  obtain ⟨nd, e1, i1⟩ := g.has_n (by norm_num [lineD]) (by norm_num [lineD]) h1 (le_refl (lineD : ℝ)) le_rfl
  obtain ⟨nF, e2, i2⟩ := g.has_n (by norm_num [lineF]) (by norm_num [lineF]) h2 (le_refl (lineF : ℝ)) le_rfl
  obtain ⟨nC, e3, i3⟩ := g.has_n (by norm_num [lineC]) (by norm_num [lineC]) h3 (le_refl (lineC : ℝ)) le_rfl
  refine ⟨nd, nF, nC, e1, e2, e3, ?_⟩
  have i4 := Iv.has_mul (Iv.has_sub i1 (Iv.has_pt 1)) (Iv.has_inv h4 (Iv.has_sub i2 i3))
  rw [Rat.cast_one, mul_one_div] at i4
  change (abbeIv g.formula).has _ at i4
  have h5' : ((g.abbe - 1 / 50 : ℚ) : ℝ) ≤ ((abbeIv g.formula).lo : ℝ) := (Rat.cast_le (K := ℝ)).2 h5
  have h6' : ((abbeIv g.formula).hi : ℝ) ≤ ((g.abbe + 1 / 50 : ℚ) : ℝ) := (Rat.cast_le (K := ℝ)).2 h6
  push_cast at h5' h6'
  rw [abs_le]
  constructor <;> linarith [i4.1, i4.2]

theorem materials_abbeOk : materials.all (fun g => g.name == "Air" || match classNamed g.name with
    | .ok g' => abbeOk g'
    | .error _ => false) = true := by decide +kernel

/-- **C93.** The Abbe number of every glass is `(n_d - 1) / (n_F - n_C)`, within 0.02, for the class that its name denotes. -/
theorem C93_abbe {g : Glass} (hg : classNamed g.name = .ok g) (hm : g ∈ materials) (hn : g.name ≠ "Air") :
    ∃ nd nF nC : ℝ, g.n lineD = .ok (.real nd) ∧ g.n lineF = .ok (.real nF) ∧ g.n lineC = .ok (.real nC) ∧
      |(g.abbe : ℝ) - (nd - 1) / (nF - nC)| ≤ 1 / 50 := by
  have h := List.all_eq_true.1 materials_abbeOk g hm
  rw [hg] at h
  simp only [Bool.or_eq_true, beq_iff_eq, hn, false_or] at h
  exact abbe_of h

/-- a class that its name does not denote, with a wrong Abbe number -/
theorem abbe_wrong : (materials.filter fun g => g.name != "Air" && !abbeOk g).map (fun g => (g.name, g.abbe)) = [("E_BAF11", 46.48)] ∧
    (materials.filter fun g => g.name == "E_BAF11").all (fun g => decide (g.abbe + 9 / 5 < (abbeIv g.formula).lo) || abbeOk g) = true := by
  decide +kernel

/-- **C93 does not hold** for the first of the two classes `E_BAF11` (hidden by the second, but listed twice in `Material.all()`): its Abbe number is
too small by more than 1.8. -/
theorem C93_violated : ∃ g ∈ materials, g.name = "E_BAF11" ∧ ∃ nd nF nC : ℝ, g.n lineD = .ok (.real nd) ∧ g.n lineF = .ok (.real nF) ∧
    g.n lineC = .ok (.real nC) ∧ (g.abbe : ℝ) + 9 / 5 < (nd - 1) / (nF - nC) := by
  have hex : materials.any (fun g => g.name == "E_BAF11" && g.formula.ivOk lineD lineD && g.formula.ivOk lineF lineF && g.formula.ivOk lineC lineC &&
    ((g.formula.nIv lineF lineF).sub (g.formula.nIv lineC lineC)).away && decide (g.abbe + 9 / 5 < (abbeIv g.formula).lo)) = true := by decide +kernel
  obtain ⟨g, hg, h⟩ := List.any_eq_true.1 hex
  simp only [Bool.and_eq_true, decide_eq_true_eq, beq_iff_eq] at h
  obtain ⟨⟨⟨⟨⟨h0, h1⟩, h2⟩, h3⟩, h4⟩, h5⟩ := h
  obtain ⟨nd, e1, i1⟩ := g.has_n (by norm_num [lineD]) (by norm_num [lineD]) h1 (le_refl (lineD : ℝ)) le_rfl
  obtain ⟨nF, e2, i2⟩ := g.has_n (by norm_num [lineF]) (by norm_num [lineF]) h2 (le_refl (lineF : ℝ)) le_rfl
  obtain ⟨nC, e3, i3⟩ := g.has_n (by norm_num [lineC]) (by norm_num [lineC]) h3 (le_refl (lineC : ℝ)) le_rfl
  refine ⟨g, hg, h0, nd, nF, nC, e1, e2, e3, ?_⟩
  have i4 := Iv.has_mul (Iv.has_sub i1 (Iv.has_pt 1)) (Iv.has_inv h4 (Iv.has_sub i2 i3))
  rw [Rat.cast_one, mul_one_div] at i4
  change (abbeIv g.formula).has _ at i4
  have h5' : ((g.abbe + 9 / 5 : ℚ) : ℝ) < ((abbeIv g.formula).lo : ℝ) := (Rat.cast_lt (K := ℝ)).2 h5
  push_cast at h5'
  linarith [i4.1]

/-- **C93.** A larger Abbe number means less dispersion, for the classes that names denote: if the Abbe numbers differ by more than 0.04,
`(n_F - n_C) / (n_d - 1)` is smaller for the larger. -/
theorem C93_order {g g' : Glass} (hg : classNamed g.name = .ok g) (hm : g ∈ materials) (hn : g.name ≠ "Air") (hg' : classNamed g'.name = .ok g')
    (hm' : g' ∈ materials) (hn' : g'.name ≠ "Air") (h : g.abbe + 1 / 25 < g'.abbe) :
    ∃ nd nF nC md mF mC : ℝ, g.n lineD = .ok (.real nd) ∧ g.n lineF = .ok (.real nF) ∧ g.n lineC = .ok (.real nC) ∧
      g'.n lineD = .ok (.real md) ∧ g'.n lineF = .ok (.real mF) ∧ g'.n lineC = .ok (.real mC) ∧
      (mF - mC) / (md - 1) < (nF - nC) / (nd - 1) := by
  obtain ⟨nd, nF, nC, e1, e2, e3, h1⟩ := C93_abbe hg hm hn
  obtain ⟨md, mF, mC, f1, f2, f3, h2⟩ := C93_abbe hg' hm' hn'
  refine ⟨nd, nF, nC, md, mF, mC, e1, e2, e3, f1, f2, f3, ?_⟩
  have hFC : ((lineF : ℚ) : ℝ) < ((lineC : ℚ) : ℝ) := by norm_num [lineF, lineC]
  have hF : (0.28 : ℝ) ≤ ((lineF : ℚ) : ℝ) := by norm_num [lineF]
  have hD : (0.28 : ℝ) ≤ ((lineD : ℚ) : ℝ) := by norm_num [lineD]
  have hD7 : ((lineD : ℚ) : ℝ) ≤ 7 := by norm_num [lineD]
  have hC : ((lineC : ℚ) : ℝ) ≤ 7 := by norm_num [lineC]
  have pos : ∀ {g : Glass} {nd nF nC : ℝ}, g ∈ materials → g.name ≠ "Air" → g.n lineD = .ok (.real nd) → g.n lineF = .ok (.real nF) →
      g.n lineC = .ok (.real nC) → 0 < nd - 1 ∧ 0 < nF - nC := by
    intro g nd nF nC hm hn e1 e2 e3
    obtain ⟨a, b, a1, a2, -, a3⟩ := C93_decreasing hm hn hF hFC hC
    obtain ⟨c, c1, c2⟩ := C56_glass_partial hm hn hD hD7
    rw [e2] at a1; rw [e3] at a2; rw [e1] at c1
    cases a1; cases a2; cases c1
    exact ⟨by linarith, by linarith⟩
  obtain ⟨p1, p2⟩ := pos hm hn e1 e2 e3
  obtain ⟨p3, p4⟩ := pos hm' hn' f1 f2 f3
  have h' : ((g.abbe + 1 / 25 : ℚ) : ℝ) < (g'.abbe : ℝ) := (Rat.cast_lt (K := ℝ)).2 h
  push_cast at h'
  have h3 : (nd - 1) / (nF - nC) < (md - 1) / (mF - mC) := by
    have := abs_le.1 h1
    have := abs_le.1 h2
    linarith
  rw [div_lt_div_iff₀ p2 p4] at h3
  rw [div_lt_div_iff₀ p3 p1]
  linarith

/-- Two glasses of such a pair: `N_SF11` disperses more than `N_BK7`. -/
example : ∃ g ∈ materials, ∃ g' ∈ materials, g.name = "N_SF11" ∧ g'.name = "N_BK7" ∧ g.abbe + 1 / 25 < g'.abbe := by
  have : (materials.any fun g => g.name == "N_SF11" && materials.any fun g' => g'.name == "N_BK7" && decide (g.abbe + 1 / 25 < g'.abbe)) = true := by
    decide +kernel
  simp only [List.any_eq_true, Bool.and_eq_true, beq_iff_eq, decide_eq_true_eq] at this
  obtain ⟨g, h1, h2, g', h3, h4, h5⟩ := this
  exact ⟨g, h1, g', h3, h2, h4, h5⟩

/-! ## The singlets of the catalogues -/

/-- the singlets of the catalogues are plano-convex, of a glass -/
def singletOk (l : CatLens) : Bool :=
  match l.data with
  | .singlet _ _ (some R1) none _ _ _ mat _ => decide (0 < R1) &&
    (match classNamed mat with | .ok g => materials.any (fun g' => g'.name == g.name) && g.name != "Air" | .error _ => false)
  | .singlet .. => false
  | .doublet .. => true

theorem singlets_ok : catalogue.all singletOk = true := by decide +kernel

theorem plano_focal {n R t : ℝ} (hn : 1 < n) (hR : R ≠ 0) : -1 / (Sys.thick n (1 / R) 0 t).c = R / (n - 1) := by
  have h1 : n - 1 ≠ 0 := by linarith [hn] |> fun h : 0 < n - 1 => h.ne'
  have h2 : n ≠ 0 := by have : 0 < n := by linarith
                        exact this.ne'
  have hc : (Sys.thick n (1 / R) 0 t).c = -((n - 1) / R) := by
    simp only [Sys.thick, Sys.andThen, Sys.interface, Sys.space]
    field_simp
    ring
  rw [hc, neg_div_neg_eq, one_div_div]

/-- **C93.** The focal length of every singlet of the catalogues is positive and increases with the wavelength, from 0.29 to 6.4 microns. -/
theorem C93_singlets {l : CatLens} (hl : l ∈ catalogue) {f fb tc te d wref : ℚ} {R1 R2 : Option ℚ} {mat : String}
    (hs : l.data = .singlet f fb R1 R2 tc te d mat wref) {x y : ℝ} (h1 : 0.29 ≤ x) (hxy : x < y) (h2 : y ≤ 6.4) :
    0 < l.focal x ∧ l.focal x < l.focal y := by
  have h := List.all_eq_true.1 singlets_ok l hl
  unfold singletOk at h
  rw [hs] at h
  cases R1 with
  | none => simp at h
  | some R =>
    cases R2 with
    | some R' => simp at h
    | none =>
      simp only [Bool.and_eq_true, decide_eq_true_eq] at h
      obtain ⟨hR, h⟩ := h
      have hR' : (0 : ℝ) < (R : ℝ) := by exact_mod_cast hR
      cases hc : classNamed mat with
      | error e => rw [hc] at h; cases h
      | ok g =>
        rw [hc] at h
        simp only [Bool.and_eq_true, bne_iff_ne, ne_eq] at h
        obtain ⟨nx, ny, e1, e2, h3, h4⟩ := C93_decreasing (classNamed_mem hc).1 h.2 (x := x) (y := y) (by linarith) hxy (by linarith)
        have gx : glassAt mat x = nx := by simp only [glassAt, hc, e1]
        have gy : glassAt mat y = ny := by simp only [glassAt, hc, e2]
        have hk : curv (radius (some R)) = 1 / (R : ℝ) := by simp [radius, curv]
        have hk0 : curv (radius none) = 0 := by simp [radius, curv]
        have fx : l.focal x = R / (nx - 1) := by
          unfold CatLens.focal CatLens.sysAt
          rw [hs]
          simp only [CatData.sys, gx, hk, hk0]
          exact plano_focal (by linarith) hR'.ne'
        have fy : l.focal y = R / (ny - 1) := by
          unfold CatLens.focal CatLens.sysAt
          rw [hs]
          simp only [CatData.sys, gy, hk, hk0]
          exact plano_focal h3 hR'.ne'
        rw [fx, fy]
        exact ⟨div_pos hR' (by linarith), div_lt_div_of_pos_left hR' (by linarith) (by linarith)⟩

/-- There are six of them. -/
example : (catalogue.filter fun l => match l.data with | .singlet .. => true | .doublet .. => false).length = 6 := by decide +kernel

end RT
