import Verif.Model.Materials

/-! # C56 indices of the glasses, C67 names of the glasses -/

set_option linter.unusedSectionVars false

namespace RT

/-! ## C56 -/

/-- **C56.** Outside of the accepted range every material raises `ValueError`. -/
theorem C56_refused (g : Glass) {x : ℝ} (hx : x < 0.01 ∨ 10 < x) : g.n x = .error .valueError := by
  have : x > ((10 : ℚ) : ℝ) ∨ x < ((0.01 : ℚ) : ℝ) := by
    rcases hx with h | h
    · right; norm_num; norm_num at h; exact h
    · left; norm_num; exact h
  unfold Glass.n Glass.square
  rw [if_pos this]

/-- **C56.** Inside of it none does. -/
theorem C56_accepted (g : Glass) {x : ℝ} (h1 : 0.01 ≤ x) (h2 : x ≤ 10) : g.square x = g.formula.square x := by
  have : ¬ (x > ((10 : ℚ) : ℝ) ∨ x < ((0.01 : ℚ) : ℝ)) := by
    push Not
    constructor
    · norm_num; exact h2
    · norm_num; norm_num at h1; exact h1
  unfold Glass.square
  rw [if_neg this]

/-- lower limit of the range of the theorem -/
def loμ : ℚ := 28 / 100
/-- upper limit of the range of the theorem -/
def hiμ : ℚ := 7

/-- a term without resonance in the range -/
def termOk (t : ℚ × ℚ) : Bool := decide (0 < t.1) && (decide (t.2 < loμ ^ 2) || decide (hiμ ^ 2 < t.2))

/-- smallest value of a term in the range -/
def termMin (t : ℚ × ℚ) : ℚ :=
  if t.2 < loμ ^ 2 then (if 0 ≤ t.2 then t.1 else t.1 / (1 - t.2 / loμ ^ 2)) else -(t.1 * hiμ ^ 2 / (t.2 - hiμ ^ 2))

/-- the coefficients of a formula such that the index is larger than 1 in the range -/
def formulaOk : Formula → Bool
  | .air => false
  | .sellmeier ts => ts.all termOk && decide (0 < (ts.map termMin).sum)
  | .laurent a b c d e f =>
    decide (b ≤ 0) && decide (0 ≤ c) && decide (0 ≤ d) && decide (e ≤ 0) && decide (0 ≤ f) &&
    decide (1 < a + b * hiμ ^ 2 + e / loμ ^ 6)

theorem term_bound {t : ℚ × ℚ} (h : termOk t = true) {x : ℝ} (h1 : (loμ : ℝ) ≤ x) (h2 : x ≤ (hiμ : ℝ)) :
    (1 - (t.2 : ℝ) / x ^ 2) ≠ 0 ∧ (termMin t : ℝ) ≤ (t.1 : ℝ) / (1 - (t.2 : ℝ) / x ^ 2) := by
  have hlo : (0 : ℝ) < (loμ : ℝ) := by norm_num [loμ]
  have hx : 0 < x := hlo.trans_le h1
  have hx2 : 0 < x ^ 2 := by positivity
  have hl2 : (loμ : ℝ) ^ 2 ≤ x ^ 2 := by gcongr
  have hh2 : x ^ 2 ≤ (hiμ : ℝ) ^ 2 := by gcongr
  have hlo2 : (0 : ℝ) < (loμ : ℝ) ^ 2 := by positivity
  obtain ⟨B, C⟩ := t
  simp only [termOk, Bool.and_eq_true, Bool.or_eq_true, decide_eq_true_eq] at h
  obtain ⟨hB, hC⟩ := h
  have hB' : (0 : ℝ) < (B : ℝ) := by exact_mod_cast hB
  dsimp only
  by_cases hc : C < loμ ^ 2
  · have hc' : (C : ℝ) < (loμ : ℝ) ^ 2 := by exact_mod_cast hc
    have hpos : 0 < 1 - (C : ℝ) / x ^ 2 := by
      rw [sub_pos, div_lt_one hx2]; linarith
    refine ⟨hpos.ne', ?_⟩
    simp only [termMin, hc, if_true]
    split_ifs with h0
    · have h0' : (0 : ℝ) ≤ (C : ℝ) := by exact_mod_cast h0
      rw [le_div_iff₀ hpos]
      have : 0 ≤ (C : ℝ) / x ^ 2 := by positivity
      nlinarith
    · push Not at h0
      have h0' : (C : ℝ) < 0 := by exact_mod_cast h0
      push_cast
      have h3 : 1 - (C : ℝ) / x ^ 2 ≤ 1 - (C : ℝ) / (loμ : ℝ) ^ 2 := by
        have : (C : ℝ) / (loμ : ℝ) ^ 2 ≤ (C : ℝ) / x ^ 2 := by
          rw [div_le_div_iff₀ hlo2 hx2]; nlinarith
        linarith
      exact div_le_div_of_nonneg_left hB'.le hpos h3
  · have hC2 : hiμ ^ 2 < C := hC.resolve_left hc
    have hc' : (hiμ : ℝ) ^ 2 < (C : ℝ) := by exact_mod_cast hC2
    have hneg : 1 - (C : ℝ) / x ^ 2 < 0 := by
      rw [sub_neg, one_lt_div hx2]; linarith
    refine ⟨hneg.ne, ?_⟩
    simp only [termMin, hc, if_false]
    push_cast
    have e1 : (B : ℝ) / (1 - (C : ℝ) / x ^ 2) = -((B : ℝ) * x ^ 2 / ((C : ℝ) - x ^ 2)) := by
      have h5 : (C : ℝ) - x ^ 2 ≠ 0 := by
        have : 0 < (C : ℝ) - x ^ 2 := by linarith
        exact this.ne'
      have h6 : x ^ 2 - (C : ℝ) ≠ 0 := by
        intro h; apply h5; linarith
      have h7 : 1 - (C : ℝ) / x ^ 2 = (x ^ 2 - (C : ℝ)) / x ^ 2 := by field_simp
      rw [h7, div_div_eq_mul_div, ← div_neg, neg_sub]
    rw [e1, neg_le_neg_iff]
    have h5 : 0 < (C : ℝ) - (hiμ : ℝ) ^ 2 := by linarith
    have h6 : 0 < (C : ℝ) - x ^ 2 := by linarith
    rw [div_le_div_iff₀ h6 h5]
    have : x ^ 2 * ((C : ℝ) - (hiμ : ℝ) ^ 2) ≤ (hiμ : ℝ) ^ 2 * ((C : ℝ) - x ^ 2) := by nlinarith
    nlinarith

theorem terms_bound {ts : List (ℚ × ℚ)} (h : ∀ t ∈ ts, termOk t = true) {x : ℝ} (h1 : (loμ : ℝ) ≤ x) (h2 : x ≤ (hiμ : ℝ)) :
    ∀ a : ℝ, ∃ s, ts.foldl (sellmeierTerm x) (.ok a) = .ok s ∧ a + (((ts.map termMin).sum : ℚ) : ℝ) ≤ s := by
  induction ts with
  | nil => intro a; exact ⟨a, rfl, by simp⟩
  | cons t ts ih =>
    intro a
    obtain ⟨h3, h4⟩ := term_bound (h t (by simp)) h1 h2
    obtain ⟨s, h5, h6⟩ := ih (fun t ht => h t (by simp [ht])) (a + (t.1 : ℝ) / (1 - (t.2 : ℝ) / x ^ 2))
    refine ⟨s, ?_, ?_⟩
    · rw [List.foldl_cons]
      have : sellmeierTerm x (.ok a) t = .ok (a + (t.1 : ℝ) / (1 - (t.2 : ℝ) / x ^ 2)) := by
        simp only [sellmeierTerm, if_neg h3]
      rw [this, h5]
    · simp only [List.map_cons, List.sum_cons, Rat.cast_add]
      linarith

theorem formula_bound {f : Formula} (h : formulaOk f = true) {x : ℝ} (h1 : (loμ : ℝ) ≤ x) (h2 : x ≤ (hiμ : ℝ)) :
    ∃ s, f.square x = .ok s ∧ 1 < s := by
  cases f with
  | air => simp [formulaOk] at h
  | sellmeier ts =>
    simp only [formulaOk, Bool.and_eq_true, List.all_eq_true, decide_eq_true_eq] at h
    obtain ⟨s, h3, h4⟩ := terms_bound h.1 h1 h2 1
    have : (0 : ℝ) < (((ts.map termMin).sum : ℚ) : ℝ) := by exact_mod_cast h.2
    exact ⟨s, h3, by linarith⟩
  | laurent a b c d e f =>
    simp only [formulaOk, Bool.and_eq_true, decide_eq_true_eq] at h
    obtain ⟨⟨⟨⟨⟨hb, hc⟩, hd⟩, he⟩, hf⟩, hs⟩ := h
    refine ⟨_, rfl, ?_⟩
    have hlo : (0 : ℝ) < (loμ : ℝ) := by norm_num [loμ]
    have hx : 0 < x := hlo.trans_le h1
    have hb' : (b : ℝ) ≤ 0 := by exact_mod_cast hb
    have hc' : (0 : ℝ) ≤ (c : ℝ) := by exact_mod_cast hc
    have hd' : (0 : ℝ) ≤ (d : ℝ) := by exact_mod_cast hd
    have he' : (e : ℝ) ≤ 0 := by exact_mod_cast he
    have hf' : (0 : ℝ) ≤ (f : ℝ) := by exact_mod_cast hf
    have hs' : (1 : ℝ) < (a : ℝ) + b * (hiμ : ℝ) ^ 2 + e / (loμ : ℝ) ^ 6 := by exact_mod_cast hs
    have i1 : (b : ℝ) * (hiμ : ℝ) ^ 2 ≤ b * x ^ 2 := mul_le_mul_of_nonpos_left (by gcongr) hb'
    have i2 : (e : ℝ) / (loμ : ℝ) ^ 6 ≤ e / x ^ 6 := by
      have h6 : (loμ : ℝ) ^ 6 ≤ x ^ 6 := by gcongr
      have p1 : 0 < (loμ : ℝ) ^ 6 := by positivity
      have p2 : 0 < x ^ 6 := by positivity
      rw [div_le_div_iff₀ p1 p2]; nlinarith
    have i3 : 0 ≤ (c : ℝ) / x ^ 2 := by positivity
    have i4 : 0 ≤ (d : ℝ) / x ^ 4 := by positivity
    have i5 : 0 ≤ (f : ℝ) / x ^ 8 := by positivity
    linarith

theorem materials_ok : materials.all (fun g => g.name == "Air" || formulaOk g.formula) = true := by decide +kernel

theorem air_formula : ∀ g ∈ materials, g.name = "Air" → g.formula = .air := by
  intro g hg hn
  simp only [materials, List.mem_cons, List.not_mem_nil, or_false] at hg
  rcases hg with rfl | hg
  · rfl
  · exfalso
    revert hn
    rcases hg with rfl | rfl | rfl | rfl | rfl | rfl | rfl | rfl | rfl | rfl | rfl | rfl | rfl | rfl | rfl | rfl | rfl | rfl |
      rfl | rfl | rfl | rfl | rfl | rfl | rfl | rfl | rfl | rfl | rfl | rfl | rfl | rfl | rfl | rfl | rfl | rfl <;> decide

/-- **C56.** Every glass of the list has a real index larger than 1 at every wavelength from 0.28 to 7 microns. -/
theorem C56_glass_partial {g : Glass} (hg : g ∈ materials) (hn : g.name ≠ "Air") {x : ℝ} (h1 : 0.28 ≤ x) (h2 : x ≤ 7) :
    ∃ n : ℝ, g.n x = .ok (.real n) ∧ 1 < n := by
  have hok := List.all_eq_true.1 materials_ok g hg
  have hf : formulaOk g.formula = true := by
    rw [Bool.or_eq_true] at hok
    rcases hok with h | h
    · exact absurd (by simpa using h) hn
    · exact h
  obtain ⟨s, h3, h4⟩ := formula_bound hf (x := x) (by norm_num [loμ]; norm_num at h1; exact h1) (by norm_num [hiμ]; exact h2)
  refine ⟨Real.sqrt s, ?_, ?_⟩
  · unfold Glass.n
    rw [C56_accepted g (by norm_num at h1 ⊢; linarith) (by linarith), h3]
    simp only
    rw [if_pos (by linarith)]
  · rw [← Real.sqrt_one]
    exact Real.sqrt_lt_sqrt (by norm_num) h4

/-- **C56.** The index of air is 1 in the whole range. -/
theorem C56_air {g : Glass} (hg : g ∈ materials) (hn : g.name = "Air") {x : ℝ} (h1 : 0.01 ≤ x) (h2 : x ≤ 10) :
    g.n x = .ok (.real 1) := by
  unfold Glass.n
  rw [C56_accepted g h1 h2, air_formula g hg hn]
  simp [Formula.square]

/-! ### Violations -/

/-- **C56** is violated in the ultraviolet: from 0.01 microns (accepted) up to the first resonance, every glass with three
resonances has an index smaller than 1 (or complex). -/
theorem C56_uv_violated {g : Glass} {B1 B2 B3 C1 C2 C3 : ℚ} (hf : g.formula = .sellmeier [(B1, C1), (B2, C2), (B3, C3)])
    (hB : 0 < B1 ∧ 0 < B2 ∧ 0 < B3) {x : ℝ} (h1 : 0.01 ≤ x) (h2 : x ≤ 10)
    (hC : x ^ 2 < C1 ∧ x ^ 2 < C2 ∧ x ^ 2 < C3) :
    g.n x = .ok .complex ∨ ∃ n : ℝ, g.n x = .ok (.real n) ∧ n < 1 := by
  have hx : 0 < x := by norm_num at h1; linarith
  have hx2 : 0 < x ^ 2 := by positivity
  have key : ∀ {B C : ℚ}, 0 < B → x ^ 2 < (C : ℝ) → (1 - (C : ℝ) / x ^ 2) ≠ 0 ∧ (B : ℝ) / (1 - (C : ℝ) / x ^ 2) < 0 := by
    intro B C hB hC
    have : 1 - (C : ℝ) / x ^ 2 < 0 := by rw [sub_neg, one_lt_div hx2]; exact hC
    exact ⟨this.ne, div_neg_of_pos_of_neg (by exact_mod_cast hB) this⟩
  obtain ⟨a1, b1⟩ := key hB.1 hC.1
  obtain ⟨a2, b2⟩ := key hB.2.1 hC.2.1
  obtain ⟨a3, b3⟩ := key hB.2.2 hC.2.2
  have hs : g.square x = .ok (1 + (B1 : ℝ) / (1 - (C1 : ℝ) / x ^ 2) + (B2 : ℝ) / (1 - (C2 : ℝ) / x ^ 2) +
      (B3 : ℝ) / (1 - (C3 : ℝ) / x ^ 2)) := by
    rw [C56_accepted g h1 h2, hf]
    simp only [Formula.square, List.foldl_cons, List.foldl_nil, sellmeierTerm, if_neg a1, if_neg a2, if_neg a3]
  unfold Glass.n
  rw [hs]
  simp only
  split_ifs with h0
  · right
    refine ⟨_, rfl, ?_⟩
    rw [Real.sqrt_lt' (by norm_num)]
    linarith
  · exact .inl rfl

/-- the value under the square root, computed with rational numbers -/
def squareAt (name : String) (x : ℚ) : Option (Except PyErr ℚ) := (materials.find? fun g => g.name == name).map fun g => g.square x

/-- **C56** is violated in the infrared: at 10 microns (accepted) 21 of the 37 materials have a complex index. -/
theorem C56_ir_violated :
    (materials.filter fun g => match g.square (10 : ℚ) with | .ok s => decide (s < 0) | .error _ => false).map Glass.name =
      ["N_BK7", "N_SF2", "N_SF8", "SF2", "SF5", "N_SF5", "N_SF6", "N_SF10", "N_SF11", "N_BAF10", "N_BAK1", "N_BAK4", "N_LAK22",
       "N_SSK5", "S_BAH11", "N_SK2", "S_PHM52", "S_NPH2", "H_LAF3B", "H_ZK50", "H_F4"] := by decide +kernel

/-- **C56** is violated at the resonances: `FusedSilica.n(9.896161)` and `FusedSilica.n(0.0684043)` divide by zero. -/
theorem C56_resonance_violated :
    squareAt "FusedSilica" 9.896161 = some (.error .zeroDivisionError) ∧
    squareAt "FusedSilica" 0.0684043 = some (.error .zeroDivisionError) := by decide +kernel

example : ∃ g ∈ materials, g.name = "N_BK7" ∧ formulaOk g.formula = true :=
  ⟨⟨"N_BK7", .sellmeier [(1.03961212, 0.00600069867), (0.231792344, 0.0200179144), (1.01046945, 103.560653)], 64.17⟩,
    by simp [materials], rfl, by decide +kernel⟩

/-! ## C67 -/

/-- the names can be distinguished without hyphens and case -/
theorem names_found : materials.all (fun g =>
    match materials.find? fun g' => areTheSame (dropChar '-' g.str) (dropChar '_' g'.name.toList) with
    | some g' => g'.name == g.name
    | none => false) = true := by decide +kernel

theorem areTheSame_iff (a b : List Char) : areTheSame a b = true ↔ a.map Char.toLower = b.map Char.toLower := by
  simp [areTheSame]

theorem find_names (s : List Char) : ((materials.map Glass.name).find? fun c => areTheSame (dropChar '-' s) (dropChar '_' c.toList)) =
    (materials.find? fun g => areTheSame (dropChar '-' s) (dropChar '_' g.name.toList)).map Glass.name := by
  rw [List.find?_map]
  rfl

theorem classNamed_found {g : Glass} (hg : g ∈ materials) : ∃ g' ∈ materials, classNamed g.name = .ok g' ∧ g'.name = g.name := by
  unfold classNamed
  cases h : materials.reverse.find? fun g' => g'.name == g.name with
  | none =>
    have := List.find?_eq_none.1 h g (List.mem_reverse.2 hg)
    simp at this
  | some g2 =>
    refine ⟨g2, List.mem_reverse.1 (List.mem_of_find?_eq_some h), rfl, ?_⟩
    have := List.find?_some h
    simpa using this

/-- **C67.** No name is air: a material of index 1 at all accepted wavelengths. -/
theorem C67_none : ∃ g, findByName none = .ok g ∧ g.name = "Air" ∧ ∀ x : ℝ, 0.01 ≤ x → x ≤ 10 → g.n x = .ok (.real 1) := by
  refine ⟨⟨"Air", .air, 0.0⟩, rfl, rfl, fun x h1 h2 => ?_⟩
  unfold Glass.n Glass.square
  rw [if_neg (by push_cast; push Not; exact ⟨h2, by norm_num at h1 ⊢; exact h1⟩)]
  simp [Formula.square]

/-- **C67.** Every material is found by the name it prints, in any case and with or without hyphens: any name that is the same
letters as the printed name, ignoring hyphens and case, gives the material of that name. -/
theorem C67_found {g : Glass} (hg : g ∈ materials) {s : List Char}
    (hs : (dropChar '-' s).map Char.toLower = (dropChar '-' g.str).map Char.toLower) :
    ∃ g' ∈ materials, findByName (some s) = .ok g' ∧ g'.name = g.name := by
  have h1 := List.all_eq_true.1 names_found g hg
  have h2 : ∀ g' : Glass, areTheSame (dropChar '-' s) (dropChar '_' g'.name.toList) =
      areTheSame (dropChar '-' g.str) (dropChar '_' g'.name.toList) := by
    intro g'; unfold areTheSame; rw [hs]
  unfold findByName findAmong
  simp only [find_names, h2]
  cases h3 : materials.find? fun g' => areTheSame (dropChar '-' g.str) (dropChar '_' g'.name.toList) with
  | none => rw [h3] at h1; simp at h1
  | some g1 =>
    rw [h3] at h1
    simp only [beq_iff_eq] at h1
    obtain ⟨g2, k1, k2, k3⟩ := classNamed_found (List.mem_of_find?_eq_some h3)
    exact ⟨g2, k1, k2, by rw [k3, h1]⟩

/-- **C67.** A name that is found is the name of the material found, up to hyphens, underscores and case. -/
theorem C67_sound {s : List Char} {g : Glass} (h : findByName (some s) = .ok g) :
    g ∈ materials ∧ (dropChar '-' s).map Char.toLower = (dropChar '_' g.name.toList).map Char.toLower := by
  unfold findByName findAmong at h
  simp only [find_names] at h
  cases h1 : materials.find? fun g => areTheSame (dropChar '-' s) (dropChar '_' g.name.toList) with
  | none => simp [h1] at h
  | some g1 =>
    obtain ⟨g2, k1, k2, k3⟩ := classNamed_found (List.mem_of_find?_eq_some h1)
    simp only [h1, Option.map_some, k2, Except.ok.injEq] at h
    subst h
    refine ⟨k1, ?_⟩
    have h4 := List.find?_some h1
    rw [areTheSame_iff] at h4
    rw [h4, k3]

/-- no material keeps an underscore -/
theorem C67_underscore {s : List Char} (h : '_' ∈ s) : findByName (some s) = .error .valueError := by
  cases hf : findByName (some s) with
  | ok g =>
    exfalso
    obtain ⟨-, h2⟩ := C67_sound hf
    have h3 : '_' ∈ (dropChar '-' s).map Char.toLower := by
      refine List.mem_map.2 ⟨'_', ?_, by decide⟩
      simp [dropChar, h]
    rw [h2] at h3
    obtain ⟨c, hc, hc2⟩ := List.mem_map.1 h3
    have hne : c ≠ '_' := by simpa using (List.mem_filter.1 hc).2
    apply hne
    unfold Char.toLower at hc2
    split at hc2
    · rename_i hu
      exfalso
      have hv := congrArg (fun c => c.val.toNat) hc2
      simp at hv
      have hcv : c.toNat = c.val.toNat := rfl
      rw [hcv] at hv
      rcases hu with ⟨hu1, hu2⟩
      have a1 : 65 ≤ c.val.toNat := by simpa using UInt32.le_iff_toNat_le.1 hu1
      have a2 : c.val.toNat ≤ 90 := by simpa using UInt32.le_iff_toNat_le.1 hu2
      omega
    · exact hc2
  | error e =>
    unfold findByName findAmong at hf
    simp only [find_names] at hf
    cases h1 : materials.find? fun g => areTheSame (dropChar '-' s) (dropChar '_' g.name.toList) with
    | none => simpa [h1] using hf.symm
    | some g1 =>
      obtain ⟨g2, k1, k2, k3⟩ := classNamed_found (List.mem_of_find?_eq_some h1)
      simp [h1, k2] at hf

/-- **C67.** As a consequence the names of the classes are refused when they have an underscore: 31 of the 37. -/
theorem C67_class_name {g : Glass} (h : '_' ∈ g.name.toList) : findByName (some g.name.toList) = .error .valueError :=
  C67_underscore h

example : (materials.filter fun g => decide ('_' ∈ g.name.toList)).length = 31 := by decide +kernel

/-! ## Materials defined by the user -/

/-- **C67.** With classes of the user after those of the module, a name that is that of a material of the module gives what it gave. -/
theorem C67_user_same (own : List String) {s : List Char} {g : Glass} (h : findByName (some s) = .ok g) :
    findAmong (materials.map Glass.name ++ own) (some s) = .ok g := by
  unfold findByName at h
  unfold findAmong at h ⊢
  simp only [List.find?_append] at h ⊢
  cases h1 : (materials.map Glass.name).find? fun c => areTheSame (dropChar '-' s) (dropChar '_' c.toList) with
  | none => rw [h1] at h; cases h
  | some c => rw [h1] at h; exact h

/-- **C67 does not hold** for the materials that the user implements as a subclass of `Material`, as the text of the error asks, in a module of
their own: whatever name finds it, in any case and with or without hyphens, and which is not already that of a material of the module, raises
`KeyError`. -/
theorem C67_violated_user {own : List String} (hown : ∀ c ∈ own, ∀ g ∈ materials, g.name ≠ c) {s : List Char}
    (hnew : findByName (some s) = .error .valueError) {c : String} (hc : c ∈ own)
    (hs : (dropChar '-' s).map Char.toLower = (dropChar '_' c.toList).map Char.toLower) :
    findAmong (materials.map Glass.name ++ own) (some s) = .error .keyError := by
  unfold findByName at hnew
  unfold findAmong at hnew ⊢
  simp only [List.find?_append] at hnew ⊢
  cases h1 : (materials.map Glass.name).find? fun c => areTheSame (dropChar '-' s) (dropChar '_' c.toList) with
  | some c' =>
    rw [h1] at hnew
    obtain ⟨g, hg, rfl⟩ := List.mem_map.1 (List.mem_of_find?_eq_some h1)
    obtain ⟨g2, -, k2, -⟩ := classNamed_found hg
    simp [k2] at hnew
  | none =>
    simp only [Option.none_or]
    cases h2 : own.find? fun c => areTheSame (dropChar '-' s) (dropChar '_' c.toList) with
    | none =>
      have := List.find?_eq_none.1 h2 c hc
      rw [Bool.not_eq_true, ← Bool.not_eq_true, areTheSame_iff] at this
      exact absurd hs this
    | some c' =>
      have hm := List.mem_of_find?_eq_some h2
      simp only [classNamed]
      rw [List.find?_eq_none.2]
      intro g hg
      simpa using hown c' hm g (List.mem_reverse.1 hg)

/-- `class ZnSe(Material)` in the program of the user, looked for as `"ZnSe"`. -/
example : findByName (some "ZnSe".toList) = .error .valueError ∧
    findAmong (materials.map Glass.name ++ ["ZnSe"]) (some "ZnSe".toList) = .error .keyError := by
  have h : findByName (some "ZnSe".toList) = .error .valueError := by
    unfold findByName findAmong
    have : ((materials.map Glass.name).find? fun c => areTheSame (dropChar '-' "ZnSe".toList) (dropChar '_' c.toList)) = none := by decide +kernel
    simp only [this]
  refine ⟨h, C67_violated_user ?_ h (c := "ZnSe") (by simp) (by decide +kernel)⟩
  have : ["ZnSe"].all (fun c => materials.all fun g => g.name != c) = true := by decide +kernel
  intro c hc g hg
  simpa using List.all_eq_true.1 (List.all_eq_true.1 this c hc) g hg

end RT
