import Verif.Lemmas.FloatLensCheck

/-! # C127: the lenses of the catalogues, in Python floats -/

set_option linter.unusedSectionVars false

namespace RT
open PyNum Ext

attribute [local instance] doubleRPow

/-! ## The data, rounded -/

/-- a number of a data sheet, as a float -/
noncomputable def inFloat (q : ℚ) : ℝ := doubleR (q : ℝ)

theorem inFloat_rel (q : ℚ) : |inFloat q - q| ≤ 1 / 2 ^ 53 * |(q : ℝ)| := doubleR_rounding.rel _

theorem inFloat_ne {q : ℚ} (h : q ≠ 0) : inFloat q ≠ 0 := doubleR_rounding.ne_zero (by exact_mod_cast h)

theorem inFloat_pos {q : ℚ} (h : 0 < q) : 0 < inFloat q := doubleR_rounding.pos (by exact_mod_cast h)

theorem inFloat_len {q : ℚ} (h : 0 < q) : |inFloat q - q| ≤ 5 / 10 ^ 13 * (q : ℝ) := by
  have h' : (0 : ℝ) < q := by exact_mod_cast h
  have := inFloat_rel q
  rw [abs_of_pos h'] at this
  exact this.trans (mul_le_mul_of_nonneg_right (by norm_num) h'.le)

/-- a radius of a data sheet, as a float -/
noncomputable def radiusFloat (r : Option ℚ) : Option ℝ := r.map inFloat

theorem radiusF_eq (r : Option ℚ) : (radiusF r : Fl ℝ doubleR) = Fl.optNum (radiusFloat r) := by cases r <;> rfl

theorem radius_near {r : Option ℚ} (h : (r != some 0) = true) : RadiusNear (5 / 10 ^ 13) (radiusFloat r) (curvQ r) := by
  cases r with
  | none => exact ⟨by simp [radiusFloat], by simp [radiusFloat, curvature, curvQ]⟩
  | some r =>
    have h0 : r ≠ 0 := by rintro rfl; simp at h
    have h0' : (r : ℝ) ≠ 0 := by exact_mod_cast h0
    have h1 := inFloat_ne h0
    refine ⟨by simp [radiusFloat, h1], ?_⟩
    simp only [radiusFloat, Option.map_some, curvature, curvQ]
    push_cast
    have e : (inFloat r)⁻¹ - 1 / (r : ℝ) = -(inFloat r - r) / inFloat r * (1 / (r : ℝ)) := by field_simp; ring
    rw [e, abs_mul, abs_div, abs_neg]
    refine mul_le_mul_of_nonneg_right ?_ (abs_nonneg _)
    have h2 := inFloat_rel r
    have h3 := abs_sub_abs_le_abs_sub (r : ℝ) (inFloat r)
    rw [abs_sub_comm] at h3
    have h4 : (0 : ℝ) < |(r : ℝ)| := abs_pos.2 h0'
    have h5 : (0 : ℝ) < |inFloat r| := abs_pos.2 h1
    rw [div_le_iff₀ h5]
    have h6 : (1 / 2 ^ 53 : ℝ) * |(r : ℝ)| ≤ 1 / 10 ^ 15 * |(r : ℝ)| := mul_le_mul_of_nonneg_right (by norm_num) h4.le
    linarith

theorem radius_room {d : ℚ} (hd : 0 < d) {r : Option ℚ} (h : (r != some 0) = true) (hr : radiusRoom (d / 2) r = true) :
    ∀ x ∈ radiusFloat r, x ≠ 0 ∧ inFloat d / 2 ≤ 98 / 100 * |x| := by
  intro x hx
  cases r with
  | none => simp [radiusFloat] at hx
  | some r =>
    have h0 : r ≠ 0 := by rintro rfl; simp at h
    simp only [radiusFloat, Option.map_some, Option.mem_def, Option.some.injEq] at hx
    subst hx
    refine ⟨inFloat_ne h0, ?_⟩
    simp only [radiusRoom, decide_eq_true_eq] at hr
    have hr' : (d : ℝ) / 2 ≤ 97 / 100 * |(r : ℝ)| := by
      have := (Rat.cast_le (K := ℝ)).2 hr
      push_cast at this
      exact this
    have hd' : (0 : ℝ) < d := by exact_mod_cast hd
    have h2 := inFloat_rel r
    have h3 := abs_sub_abs_le_abs_sub (r : ℝ) (inFloat r)
    rw [abs_sub_comm] at h3
    have h4 := (abs_le.1 (inFloat_len hd)).2
    have h6 : (1 / 2 ^ 53 : ℝ) * |(r : ℝ)| ≤ 1 / 10 ^ 15 * |(r : ℝ)| := mul_le_mul_of_nonneg_right (by norm_num) (abs_nonneg _)
    linarith [abs_nonneg (r : ℝ)]

/-! ## The indices -/

theorem middle_cell {x : ℝ} (h1 : 0.3 ≤ x) (h2 : x ≤ 2.5) : ∃ (j : ℕ) (c : ℚ × ℚ), j < 20 ∧ indexCells[j + 3]? = some c ∧ (c.1 : ℝ) ≤ x ∧ x ≤ (c.2 : ℝ) := by
  have h : chained (3 / 10) (25 / 10) (middle indexCells) = true := by decide +kernel
  obtain ⟨c, hc, h3⟩ := chained_mem h (x := x) (by norm_num at h1 ⊢; linarith) (by norm_num at h2 ⊢; linarith)
  obtain ⟨j, hj⟩ := List.mem_iff_getElem?.1 hc
  have hlt : j < 20 := by
    have := (List.getElem?_eq_some_iff.1 hj).1
    simp only [middle, List.length_take] at this
    omega
  rw [middle_get hlt] at hj
  exact ⟨j, c, hlt, hj, h3⟩

/-- the bounds of an index in the middle of the table -/
theorem name_cell {name : String} (hn : nameOk name = true) {j : ℕ} (hj : j < 20) {c : ℚ × ℚ} (hc : indexCells[j + 3]? = some c) :
    ∃ f, (indexRow name)[j + 3]? = some f ∧ f.glassy = true := by
  simp only [nameOk, Bool.and_eq_true, decide_eq_true_eq] at hn
  have hlt := (List.getElem?_eq_some_iff.1 hc).1
  have hf := List.getElem?_eq_getElem (l := indexRow name) (i := j + 3) (by rw [hn.1.2]; exact hlt)
  refine ⟨_, hf, List.all_eq_true.1 hn.2 _ (List.mem_of_getElem? (i := j) ?_)⟩
  rw [middle_get hj]
  exact hf

/-- The index of a glass of the catalogues, in floats. -/
theorem index_near {name : String} (hn : nameOk name = true) {x : ℝ} (h1 : 0.3 ≤ x) (h2 : x ≤ 2.5) :
    ∃ y, indexOfF name (Fl.num x : Fl ℝ doubleR) = .ok (Fl.num y) ∧ IndexNear (5 / 10 ^ 13) y (glassAt name x) := by
  obtain ⟨j, c, hj, hc, h3, h4⟩ := middle_cell h1 h2
  obtain ⟨f, hf, hg⟩ := name_cell hn hj hc
  obtain ⟨-, k2, k3⟩ := indexRow_has hc hf h3 h4
  obtain ⟨b1, b2⟩ := Fx.glassy_has hg k2
  simp only [nameOk, Bool.and_eq_true, bne_iff_ne, ne_eq] at hn
  cases hcl : classNamed name with
  | error e => simp [indexOf, hcl] at k3
  | ok g =>
    obtain ⟨m1, m2⟩ := classNamed_mem hcl
    obtain ⟨y, n, e1, e2, e3, -, -⟩ := C126_python m1 (by rw [m2]; exact hn.1.1) (x := x) (by norm_num at h1 ⊢; linarith) (by norm_num at h2 ⊢; linarith)
    have hgl : glassAt name x = n := by simp [glassAt, hcl, e2]
    refine ⟨y, ?_, ?_, b1, b2⟩
    · simp only [indexOfF, hcl, Glass.indexF, e1]
    · rw [hgl]; exact e3.trans (by norm_num)

/-- The indices of the two glasses of a doublet. -/
theorem pair_apart {a b : String} (ha : nameOk a = true) (hb : nameOk b = true) (h : pairOk a b = true) {x : ℝ} (h1 : 0.3 ≤ x) (h2 : x ≤ 2.5) :
    1 / 1000 ≤ |glassAt a x - glassAt b x| := by
  simp only [pairOk, Bool.or_eq_true] at h
  rcases h with h | h
  · obtain ⟨r, hr, hn⟩ := List.any_eq_true.1 h
    simp only [Bool.and_eq_true, beq_iff_eq] at hn
    have hk := List.all_eq_true.1 apartRows_ok r hr
    simp only [Bool.and_eq_true, decide_eq_true_eq] at hk
    obtain ⟨⟨⟨⟨k1, k2⟩, l1⟩, l2⟩, k3⟩ := hk
    have hch : chained (3 / 10) (25 / 10) apartCells = true := by decide +kernel
    obtain ⟨c, hc, h3, h4⟩ := chained_mem hch (x := x) (by norm_num at h1 ⊢; linarith) (by norm_num at h2 ⊢; linarith)
    obtain ⟨j, hj⟩ := List.mem_iff_getElem?.1 hc
    have hlt := (List.getElem?_eq_some_iff.1 hj).1
    have f1 := List.getElem?_eq_getElem (l := r.1.2) (i := j) (by rw [l1]; exact hlt)
    have f2 := List.getElem?_eq_getElem (l := r.2.2) (i := j) (by rw [l2]; exact hlt)
    obtain ⟨-, a2, -⟩ := rowOk_has k1 hj f1 h3 h4
    obtain ⟨-, b2, -⟩ := rowOk_has k2 hj f2 h3 h4
    rw [hn.1] at a2
    rw [hn.2] at b2
    refine Fx.apart_has (List.all_eq_true.1 k3 _ (List.mem_of_getElem? (i := j) ?_)) a2 b2
    rw [List.getElem?_zipWith, f1, f2]; rfl
  · obtain ⟨j, c, hj, hc, h3, h4⟩ := middle_cell h1 h2
    obtain ⟨f, hf, -⟩ := name_cell ha hj hc
    obtain ⟨g, hg, -⟩ := name_cell hb hj hc
    obtain ⟨-, a2, -⟩ := indexRow_has hc hf h3 h4
    obtain ⟨-, b2, -⟩ := indexRow_has hc hg h3 h4
    refine Fx.apart_has (List.all_eq_true.1 h _ (List.mem_of_getElem? (i := j) ?_)) a2 b2
    rw [List.getElem?_zipWith, middle_get hj, middle_get hj, hf, hg]; rfl

/-! ## From the matrix of the data to that of the floats -/

/-- what is obtained for a lens -/
structure LensNear (m : Mat (Fl ℝ doubleR)) (s : Sys ℝ) (t : ℝ) : Prop where
  power : m.hasPower = true
  holds : ∃ a c d l, Holds m a c d l 1 1 ∧ |c - s.c| ≤ 7 / 10 ^ 11 ∧ |l - t| ≤ 6 / 10 ^ 15 * t
  focal : ∃ f1 f2, m.effectiveFocalLengths = .ok (Fl.num f1, Fl.num f2) ∧ |f1 - -1 / s.c| ≤ 4 / 10 ^ 8 * |-1 / s.c| ∧ |f2 - -1 / s.c| ≤ 4 / 10 ^ 8 * |-1 / s.c|

theorem lens_near {label : String} {ps : List (Part ℝ)} {s : Sys ℝ} {q : Quad} (hB : (Part.group label ps).Between (1 / 2 ^ 53) 1 1)
    (hf : Bounded2 (8 / 10 ^ 12) (Part.group label ps).rmat s q) (ho : (Part.group label ps).rmat.ops ≤ 22) (hq : q.c ≤ 8) (hs : 2 / 100000 ≤ |s.c|)
    (hqs : (q.c : ℝ) ≤ 4000 * |s.c|) {t : ℝ} (ht : 0 ≤ t) (hx : (Part.group label ps).rmat.exact.len = t) (hM : (Part.group label ps).rmat.maj.len = t)
    {e : Elem (Fl ℝ doubleR)} (hb : (Part.group label ps).buildR doubleR = .ok e) : LensNear e.mat s t := by
  have hr := doubleR_rounding
  obtain ⟨i1, i2⟩ := C96_indices hr hB (Or.inl rfl) hb
  obtain ⟨⟨a, hA, -⟩, -, ⟨c, hC, -, nc⟩, ⟨d, hD, -⟩, ⟨l, hL, -, nl⟩⟩ := buildR_mat hr hb
  have hm : Holds e.mat a c d l 1 1 := ⟨hA, hC, hD, hL, i1, i2⟩
  have hq' : (q.c : ℝ) ≤ 8 := by exact_mod_cast hq
  have q0 : (0 : ℝ) ≤ q.c := (abs_nonneg _).trans hf.size_c
  have k1 : relErr (1 / 2 ^ 53 : ℝ) (Part.group label ps).rmat.ops * (Part.group label ps).rmat.maj.c ≤ 6 / 10 ^ 15 * ((1 + 8 / 10 ^ 12) * q.c) :=
    mul_le_mul (relErr_float (by omega)) hf.maj_c.2 hf.maj_c.1 (by norm_num)
  have hc : |c - s.c| ≤ 801 / 10 ^ 14 * q.c := by
    have := abs_sub_le c (Part.group label ps).rmat.exact.c s.c
    have := hf.c
    linarith
  have hc1 : |c - s.c| ≤ 33 / 10 ^ 9 * |s.c| := by
    have : 801 / 10 ^ 14 * (q.c : ℝ) ≤ 801 / 10 ^ 14 * (4000 * |s.c|) := mul_le_mul_of_nonneg_left hqs (by norm_num)
    linarith [abs_nonneg s.c]
  have hlow : |s.c| * (1 - 33 / 10 ^ 9) ≤ |c| := by
    have := abs_sub_abs_le_abs_sub s.c c
    rw [abs_sub_comm] at this
    linarith
  have hp : e.mat.hasPower = true := by
    unfold Mat.hasPower isNotZero
    rw [hC, eps_num, Fl.abs_num, Fl.lt_num, decide_eq_true_iff]
    have := abs_le.1 (hr.rel (1 / 100000))
    rw [abs_of_pos (by norm_num : (0 : ℝ) < 1 / 100000)] at this
    have t2 : (1 / 2 ^ 53 : ℝ) * (1 / 100000) ≤ 1 / 1000000 := by norm_num
    nlinarith [this.2]
  have sp : 0 < |s.c| := by linarith
  have cp : 0 < |c| := by nlinarith
  have hinv : |-1 / c - -1 / s.c| ≤ 34 / 10 ^ 9 * |-1 / s.c| := by
    have hc0 : c ≠ 0 := abs_pos.1 cp
    have hs0 : s.c ≠ 0 := abs_pos.1 sp
    have e : -1 / c - -1 / s.c = (c - s.c) / c * (1 / s.c) := by field_simp; ring
    have e' : |-1 / s.c| = |1 / s.c| := by rw [neg_div, abs_neg]
    rw [e, e', abs_mul, abs_div]
    refine mul_le_mul_of_nonneg_right ?_ (abs_nonneg _)
    rw [div_le_iff₀ cp]
    nlinarith
  have hfin : ∀ (f : ℝ) (k : ℕ), k ≤ 46 → |f - -1 / c| ≤ relErr (1 / 2 ^ 53 : ℝ) k * (1 / |c|) → |f - -1 / s.c| ≤ 4 / 10 ^ 8 * |-1 / s.c| := by
    intro f k hk h
    have t := abs_sub_le f (-1 / c) (-1 / s.c)
    have t1 : 1 / |c| = |-1 / c| := by rw [abs_div, abs_neg, abs_one]
    have t2 : |-1 / c| ≤ |-1 / s.c| * (1 + 34 / 10 ^ 9) := by
      have := abs_sub_abs_le_abs_sub (-1 / c) (-1 / s.c)
      linarith
    have t3 : relErr (1 / 2 ^ 53 : ℝ) k * (1 / |c|) ≤ 6 / 10 ^ 15 * (|-1 / s.c| * (1 + 34 / 10 ^ 9)) := by
      rw [t1]
      exact mul_le_mul (relErr_float hk) t2 (abs_nonneg _) (by norm_num)
    linarith [abs_nonneg (-1 / s.c)]
  obtain ⟨f1, f2, ef, ⟨f1', rfl, -, g1⟩, ⟨f2', rfl, -, g2⟩⟩ := focal_near hr hm hp one_ne_zero
  rw [div_one, abs_one] at g1
  refine ⟨hp, ⟨a, c, d, l, hm, hc.trans ?_, ?_⟩, f1', f2', ef, hfin f1' 2 (by norm_num) g1, hfin f2' 1 (by norm_num) g2⟩
  · have : 801 / 10 ^ 14 * (q.c : ℝ) ≤ 801 / 10 ^ 14 * 8 := mul_le_mul_of_nonneg_left hq' (by norm_num)
    linarith
  · rw [hx, hM] at nl
    exact nl.trans (mul_le_mul_of_nonneg_right (relErr_float (by omega)) ht)

/-! ## The lenses -/

theorem built_singlet {label : String} {y t d : ℝ} {R1 R2 : Option ℝ} (hd : 0 < d) {e : Elem (Fl ℝ doubleR)}
    (hb : (singletPart label y t R1 R2 d).buildR doubleR = .ok e) :
    ∃ g, singletGroup (Fl.optNum R1) (Fl.optNum R2) (Fl.num t) (Fl.num y) (Fl.num d) label = .ok g ∧
      (∃ D, g.mat = { e.mat with apertureDiameter := D }) ∧ g.mat.frontVertex.isSome = true ∧ g.mat.backVertex.isSome = true ∧
      g.toElem.largestDiameter = Fl.num d := by
  have hr := doubleR_rounding
  unfold singletPart Part.buildR at hb
  simp only [Part.buildWith, Part.buildListWith] at hb
  cases h1 : mkDielectric (Fl.num 1 : Fl ℝ doubleR) (Fl.num y) (Fl.optNum R1) (Fl.optNum (some d)) with
  | error x => simp [h1, Except.map] at hb
  | ok i1 =>
    cases h2 : mkSpace (Fl.num t : Fl ℝ doubleR) (Fl.num y) (Fl.optNum none) with
    | error x => simp [h1, h2, Except.map] at hb
    | ok s1 =>
      cases h3 : mkDielectric (Fl.num y : Fl ℝ doubleR) (Fl.num 1) (Fl.optNum R2) (Fl.optNum (some d)) with
      | error x => simp [h1, h2, h3, Except.map] at hb
      | ok i2 =>
        simp only [h1, h2, h3, Except.map] at hb
        cases h4 : Group.new [Elem.leaf i1, .leaf s1, .leaf i2] label with
        | error x => simp [h4] at hb
        | ok g =>
          simp only [h4, Except.ok.injEq] at hb
          subst hb
          obtain ⟨v1, v2, v3⟩ := lens_group hr hd h4 (by
            intro e he
            simp only [List.mem_cons, List.not_mem_nil, or_false] at he
            rcases he with rfl | rfl | rfl
            · exact Or.inl (face_of h1)
            · exact Or.inr (gap_of h2)
            · exact Or.inl (face_of h3)) ⟨_, by simp, face_of h1⟩
          refine ⟨{ g with mat := { g.mat with apertureDiameter := Fl.num d } }, ?_, ⟨Fl.num d, rfl⟩, v1, v2, v3⟩
          unfold singletGroup compoundGroup
          rw [Fl.one_num hr]
          change (mkDielectric (Fl.num 1 : Fl ℝ doubleR) (Fl.num y) (Fl.optNum R1) (Fl.num d)) = _ at h1
          change (mkDielectric (Fl.num y : Fl ℝ doubleR) (Fl.num 1) (Fl.optNum R2) (Fl.num d)) = _ at h3
          change mkSpace (Fl.num t : Fl ℝ doubleR) (Fl.num y) inf = _ at h2
          simp only [h1, h2, h3, h4, bind, Except.bind, pure, Except.pure]

theorem built_doublet {label : String} {y1 y2 t1 t2 d : ℝ} {R1 R2 R3 : Option ℝ} (hd : 0 < d) {e : Elem (Fl ℝ doubleR)}
    (hb : (doubletPart label y1 y2 t1 t2 R1 R2 R3 d).buildR doubleR = .ok e) :
    ∃ g, doubletGroup (Fl.optNum R1) (Fl.optNum R2) (Fl.optNum R3) (Fl.num t1) (Fl.num t2) (Fl.num y1) (Fl.num y2) (Fl.num d) label = .ok g ∧
      (∃ D, g.mat = { e.mat with apertureDiameter := D }) ∧ g.mat.frontVertex.isSome = true ∧ g.mat.backVertex.isSome = true ∧
      g.toElem.largestDiameter = Fl.num d := by
  have hr := doubleR_rounding
  unfold doubletPart Part.buildR at hb
  simp only [Part.buildWith, Part.buildListWith] at hb
  cases h1 : mkDielectric (Fl.num 1 : Fl ℝ doubleR) (Fl.num y1) (Fl.optNum R1) (Fl.optNum (some d)) with
  | error x => simp [h1, Except.map] at hb
  | ok i1 =>
    cases h2 : mkSpace (Fl.num t1 : Fl ℝ doubleR) (Fl.num y1) (Fl.optNum none) with
    | error x => simp [h1, h2, Except.map] at hb
    | ok s1 =>
      cases h3 : mkDielectric (Fl.num y1 : Fl ℝ doubleR) (Fl.num y2) (Fl.optNum R2) (Fl.optNum (some d)) with
      | error x => simp [h1, h2, h3, Except.map] at hb
      | ok i2 =>
        cases h4 : mkSpace (Fl.num t2 : Fl ℝ doubleR) (Fl.num y2) (Fl.optNum none) with
        | error x => simp [h1, h2, h3, h4, Except.map] at hb
        | ok s2 =>
          cases h5 : mkDielectric (Fl.num y2 : Fl ℝ doubleR) (Fl.num 1) (Fl.optNum R3) (Fl.optNum (some d)) with
          | error x => simp [h1, h2, h3, h4, h5, Except.map] at hb
          | ok i3 =>
            simp only [h1, h2, h3, h4, h5, Except.map] at hb
            cases h6 : Group.new [Elem.leaf i1, .leaf s1, .leaf i2, .leaf s2, .leaf i3] label with
            | error x => simp [h6] at hb
            | ok g =>
              simp only [h6, Except.ok.injEq] at hb
              subst hb
              obtain ⟨v1, v2, v3⟩ := lens_group hr hd h6 (by
                intro e he
                simp only [List.mem_cons, List.not_mem_nil, or_false] at he
                rcases he with rfl | rfl | rfl | rfl | rfl
                · exact Or.inl (face_of h1)
                · exact Or.inr (gap_of h2)
                · exact Or.inl (face_of h3)
                · exact Or.inr (gap_of h4)
                · exact Or.inl (face_of h5)) ⟨_, by simp, face_of h1⟩
              refine ⟨{ g with mat := { g.mat with apertureDiameter := Fl.num d } }, ?_, ⟨Fl.num d, rfl⟩, v1, v2, v3⟩
              unfold doubletGroup compoundGroup
              rw [Fl.one_num hr]
              change (mkDielectric (Fl.num 1 : Fl ℝ doubleR) (Fl.num y1) (Fl.optNum R1) (Fl.num d)) = _ at h1
              change (mkDielectric (Fl.num y1 : Fl ℝ doubleR) (Fl.num y2) (Fl.optNum R2) (Fl.num d)) = _ at h3
              change (mkDielectric (Fl.num y2 : Fl ℝ doubleR) (Fl.num 1) (Fl.optNum R3) (Fl.num d)) = _ at h5
              change mkSpace (Fl.num t1 : Fl ℝ doubleR) (Fl.num y1) inf = _ at h2
              change mkSpace (Fl.num t2 : Fl ℝ doubleR) (Fl.num y2) inf = _ at h4
              simp only [h1, h2, h3, h4, h5, h6, bind, Except.bind, pure, Except.pure]

/-- the diameter of the whole does not change the rest -/
theorem LensNear.aperture {m : Mat (Fl ℝ doubleR)} {s : Sys ℝ} {t : ℝ} (h : LensNear m s t) (D : Fl ℝ doubleR) :
    LensNear { m with apertureDiameter := D } s t := by
  obtain ⟨h1, ⟨a, c, d, l, h2, h3⟩, h4⟩ := h
  exact ⟨h1, ⟨a, c, d, l, ⟨h2.A, h2.C, h2.D, h2.L, h2.front, h2.back⟩, h3⟩, h4⟩

/-- the thickness of a singlet is that given -/
theorem thickness_ok {t l : ℝ} (ht : 0 < t) (hl : |l - t| ≤ 6 / 10 ^ 15 * t) :
    ∀ q, pyDiv (PyNum.abs (Fl.num t - Fl.num l : Fl ℝ doubleR)) (Fl.num l) = .ok q → (lit (2 / 100) <. q) = false := by
  intro q hq
  have hr := doubleR_rounding
  have h1 := abs_le.1 hl
  have hlp : 0 < l := by linarith
  rw [Fl.num_sub, Fl.abs_num, Fl.pyDiv_num hr _ _ (ne_of_gt hlp)] at hq
  injection hq with hq
  subst hq
  rw [Fl.lit_num, Fl.lt_num, decide_eq_false_iff_not, not_lt]
  have r1 := hr.rel (t - l)
  have b1 : |t - l| ≤ 6 / 10 ^ 15 * t := by rw [abs_sub_comm]; exact hl
  have b2 : |doubleR (t - l)| ≤ 1 / 10 ^ 3 * l := by
    have := abs_sub_abs_le_abs_sub (doubleR (t - l)) (t - l)
    have b3 : (1 / 2 ^ 53 : ℝ) * |t - l| ≤ 1 * |t - l| := mul_le_mul_of_nonneg_right (by norm_num) (abs_nonneg _)
    linarith
  have b4 : |doubleR (t - l)| / l ≤ 1 / 10 ^ 3 := by rw [div_le_iff₀ hlp]; exact b2
  have b5 : 0 ≤ |doubleR (t - l)| / l := by positivity
  have r2 := abs_le.1 (hr.rel (|doubleR (t - l)| / l))
  rw [abs_of_nonneg b5] at r2
  have b6 : (1 / 2 ^ 53 : ℝ) * (|doubleR (t - l)| / l) ≤ 1 * (|doubleR (t - l)| / l) := mul_le_mul_of_nonneg_right (by norm_num) b5
  have r3 := abs_le.1 (hr.rel ((2 / 100 : ℚ) : ℝ))
  norm_num at r3
  push_cast
  norm_num
  linarith [r2.2, r3.1]

/-- the focal length is near enough to that of the data sheet for no warning -/
theorem focal_quiet {f fa : ℝ} {F : ℝ} (h1 : |f - F| ≤ 4 / 10 ^ 8 * |F|) {q : ℚ} (hq : q ≠ 0) (hfa : fa = inFloat q) (h2 : |F - q| ≤ 99999 / 10 ^ 7 * |(q : ℝ)|) :
    ∀ x, pyDiv (Fl.num f - Fl.num fa : Fl ℝ doubleR) (Fl.num fa) = .ok x → (lit (1 / 100) <. PyNum.abs x) = false := by
  intro x hx
  subst hfa
  have hr := doubleR_rounding
  have h0 := inFloat_ne hq
  rw [Fl.num_sub, Fl.pyDiv_num hr _ _ h0] at hx
  injection hx with hx
  subst hx
  rw [Fl.lit_num, Fl.abs_num, Fl.lt_num, decide_eq_false_iff_not, not_lt]
  have qp : 0 < |(q : ℝ)| := abs_pos.2 (by exact_mod_cast hq)
  have fp : 0 < |inFloat q| := abs_pos.2 h0
  have r0 := inFloat_rel q
  have u1 : (1 / 2 ^ 53 : ℝ) * |(q : ℝ)| ≤ 1 / 10 ^ 12 * |(q : ℝ)| := mul_le_mul_of_nonneg_right (by norm_num) qp.le
  have r0' := abs_sub_abs_le_abs_sub (q : ℝ) (inFloat q)
  rw [abs_sub_comm] at r0'
  have F1 : |F| ≤ 2 * |(q : ℝ)| := by
    have := abs_sub_abs_le_abs_sub F (q : ℝ)
    linarith
  have d1 : |f - inFloat q| ≤ 9999981 / 10 ^ 9 * |(q : ℝ)| := by
    have e : f - inFloat q = (f - F) + (F - q) - (inFloat q - q) := by ring
    rw [e]
    have t1 := abs_sub ((f - F) + (F - q)) (inFloat q - q)
    have t2 := abs_add_le (f - F) (F - q)
    linarith
  have d2 : |doubleR (f - inFloat q)| ≤ 9999982 / 10 ^ 9 * |(q : ℝ)| := by
    have t1 := hr.rel (f - inFloat q)
    have t2 := abs_sub_abs_le_abs_sub (doubleR (f - inFloat q)) (f - inFloat q)
    have t3 : (1 / 2 ^ 53 : ℝ) * |f - inFloat q| ≤ 1 / 10 ^ 12 * |f - inFloat q| := mul_le_mul_of_nonneg_right (by norm_num) (abs_nonneg _)
    linarith
  have d3 : |doubleR (f - inFloat q) / inFloat q| ≤ 9999983 / 10 ^ 9 := by
    rw [abs_div, div_le_iff₀ fp]
    linarith
  have t1 := hr.rel (doubleR (f - inFloat q) / inFloat q)
  have t2 := abs_sub_abs_le_abs_sub (doubleR (doubleR (f - inFloat q) / inFloat q)) (doubleR (f - inFloat q) / inFloat q)
  have t3 : (1 / 2 ^ 53 : ℝ) * |doubleR (f - inFloat q) / inFloat q| ≤ 1 / 10 ^ 12 * |doubleR (f - inFloat q) / inFloat q| :=
    mul_le_mul_of_nonneg_right (by norm_num) (abs_nonneg _)
  have r3 := abs_le.1 (hr.rel ((1 / 100 : ℚ) : ℝ))
  norm_num at r3
  push_cast
  norm_num
  linarith [r3.1]

/-- what is known of a lens of the catalogues -/
theorem float_checked {l : CatLens} (hl : l ∈ catalogue) : l.staticOk = true ∧ l.floatOk = true := by
  obtain ⟨row, -, hrow⟩ := catalogue_row hl
  exact ⟨(checked hrow).static, List.all_eq_true.1 floatOk_all l hl⟩

/-- Specification: the wavelength that is used: the one given, or the one of reference, as a float. -/
noncomputable def CatLens.usedF (l : CatLens) : Option ℝ → ℝ
  | some w => w
  | none => inFloat l.data.ref

/-- the power is large enough -/
theorem power_room {l : CatLens} (hl : l ∈ catalogue) {x : ℝ} (h1 : 0.3 ≤ x) (h2 : x ≤ 2.5) :
    2 / 100000 ≤ |(l.sysAt x).c| ∧ (l.data.quadC : ℝ) ≤ 4000 * |(l.sysAt x).c| := by
  have hu : (Fx.unit : ℝ) = 1000000000000 := by norm_num [Fx.unit]
  obtain ⟨row, -, hrow⟩ := catalogue_row hl
  have hf := (float_checked hl).2
  simp only [CatLens.floatOk, Bool.and_eq_true] at hf
  obtain ⟨j, c, hj, hc, h3, h4⟩ := middle_cell h1 h2
  obtain ⟨p, hp⟩ := cell_fx (checked hrow).len hc
  obtain ⟨⟨a1, a2⟩, -⟩ := CatData.fxs_has hc hp h3 h4
  change (p.1.lo : ℝ) ≤ -(l.sysAt x).c * Fx.unit at a1
  change -(l.sysAt x).c * (Fx.unit : ℝ) ≤ p.1.hi at a2
  have hroom := List.all_eq_true.1 hf.2 p (List.mem_of_getElem? (i := j) (by rw [middle_get hj]; exact hp))
  rw [hu] at a1 a2
  simp only [powerRoom, Bool.or_eq_true, Bool.and_eq_true, decide_eq_true_eq] at hroom
  rcases hroom with ⟨b1, b2⟩ | ⟨b1, b2⟩
  · have b1' : (20000000 : ℝ) ≤ (p.1.lo : ℝ) := by exact_mod_cast b1
    have b2' : 1000000000000 * (l.data.quadC : ℝ) ≤ 4000 * (p.1.lo : ℝ) := by exact_mod_cast b2
    have := neg_le_abs (l.sysAt x).c
    constructor <;> linarith
  · have b1' : (p.1.hi : ℝ) ≤ (-20000000 : ℝ) := by exact_mod_cast b1
    have b2' : 1000000000000 * (l.data.quadC : ℝ) ≤ -4000 * (p.1.hi : ℝ) := by exact_mod_cast b2
    have := le_abs_self (l.sysAt x).c
    constructor <;> linarith

/-- a singlet -/
theorem made_singlet [PyTrig (Fl ℝ doubleR)] {f fb tc te d : ℚ} {R1 R2 : Option ℚ} {n y : ℝ} (label : String) (hy : IndexNear (5 / 10 ^ 13) y n)
    (ht : 0 < tc) (hf : f ≠ 0) (hfb : fb ≠ 0) (hte : te ≠ 0) (hd : 0 < d) (h1 : (R1 != some 0) = true) (h2 : (R2 != some 0) = true)
    (r1 : radiusRoom (d / 2) R1 = true) (r2 : radiusRoom (d / 2) R2 = true)
    (hq : ∀ q ∈ singletQuads (curvQ R1) (curvQ R2) tc, q.a * q.d + q.b * q.c ≤ 100)
    (hq8 : ∀ q, (singletQuads (curvQ R1) (curvQ R2) tc).head? = some q → q.c ≤ 8 ∧ (q.c : ℝ) ≤ 4000 * |(Sys.thick n (curvQ R1) (curvQ R2) (tc : ℝ)).c|)
    (hs : 2 / 100000 ≤ |(Sys.thick n (curvQ R1 : ℝ) (curvQ R2) (tc : ℝ)).c|) :
    ∃ g ws, singletGroup (radiusF R1) (radiusF R2) (lit tc) (Fl.num y : Fl ℝ doubleR) (lit d) label = .ok g ∧
      lensChecks (.error .attributeError) Prod.fst g (lit tc) (lit f) (lit fb) (radiusF R1) (radiusF R2) (lit te) false false = .ok ws ∧
      LensNear g.mat (Sys.thick n (curvQ R1) (curvQ R2) (tc : ℝ)) (inFloat tc) := by
  have hr := doubleR_rounding
  have ht' : (0 : ℝ) < tc := by exact_mod_cast ht
  obtain ⟨hB, q, hq0, hF, ho⟩ := singlet_fits label hy rfl ht'.le (inFloat_len ht) (radius_near h1) (radius_near h2) (inFloat_pos hd) hq
  obtain ⟨e, he⟩ := C96_media hr hB
  obtain ⟨c1, c2⟩ := hq8 q hq0
  have ln := lens_near hB hF ho c1 hs c2 (inFloat_pos ht).le
    (by simp [singletPart, Part.rmat, Part.rstages, Part.rmatList, RStage.andThen, RStage.one, Stage.andThen, Stage.withOps, Sys.stage, Sys.interface, Sys.space])
    (by
      have := abs_of_pos (inFloat_pos ht)
      simp [singletPart, Part.rmat, Part.rstages, Part.rmatList, RStage.andThen, RStage.one, Stage.andThen, Stage.withOps, Stage.abs, Sys.stage, Sys.interface, Sys.space, this])
    he
  obtain ⟨g, hg, ⟨D, hD⟩, v1, v2, v3⟩ := built_singlet (inFloat_pos hd) he
  have ln' : LensNear g.mat (Sys.thick n (curvQ R1) (curvQ R2) (tc : ℝ)) (inFloat tc) := by rw [hD]; exact ln.aperture D
  obtain ⟨a, c, d', l, hm, -, hlen⟩ := ln'.holds
  have hl : l ≠ 0 := by
    have := abs_le.1 hlen
    have := inFloat_pos ht
    intro h0
    subst h0
    linarith
  obtain ⟨ws, hws⟩ := checks_ok hm ln'.power hl v1 v2 v3 (inFloat_pos hd).le (radius_room hd h1 r1) (radius_room hd h2 r2)
    (onThickness := .error .attributeError) (pick := Prod.fst) (tc := Fl.num (inFloat tc)) (inFloat_ne hf) (inFloat_ne hfb) (inFloat_ne hte) (intF := false)
    (Or.inr (by rw [hm.L]; exact thickness_ok (inFloat_pos ht) hlen)) (by intro h; cases h)
  rw [radiusF_eq, radiusF_eq]
  exact ⟨g, ws, hg, hws, ln'⟩

/-- a doublet -/
theorem made_doublet [PyTrig (Fl ℝ doubleR)] {fa fb tc1 tc2 te d : ℚ} {R1 R2 R3 : Option ℚ} {n1 n2 y1 y2 : ℝ} (label : String)
    (hy1 : IndexNear (5 / 10 ^ 13) y1 n1) (hy2 : IndexNear (5 / 10 ^ 13) y2 n2) (hap : 1 / 1000 ≤ |n1 - n2|)
    (ht1 : 0 < tc1) (ht2 : 0 < tc2) (hf : fa ≠ 0) (hfb : fb ≠ 0) (hte : te ≠ 0) (hd : 0 < d) (h1 : (R1 != some 0) = true) (h2 : (R2 != some 0) = true)
    (h3 : (R3 != some 0) = true) (r1 : radiusRoom (d / 2) R1 = true) (r3 : radiusRoom (d / 2) R3 = true)
    (hq : ∀ q ∈ doubletQuads (curvQ R1) (curvQ R2) (curvQ R3) tc1 tc2, q.a * q.d + q.b * q.c ≤ 100)
    (hq8 : ∀ q, (doubletQuads (curvQ R1) (curvQ R2) (curvQ R3) tc1 tc2).head? = some q →
      q.c ≤ 8 ∧ (q.c : ℝ) ≤ 4000 * |(Sys.doublet n1 n2 (curvQ R1) (curvQ R2) (curvQ R3) (tc1 : ℝ) (tc2 : ℝ)).c|)
    (hs : 2 / 100000 ≤ |(Sys.doublet n1 n2 (curvQ R1 : ℝ) (curvQ R2) (curvQ R3) (tc1 : ℝ) (tc2 : ℝ)).c|) {intF : Bool}
    (hI : intF = true → |-1 / (Sys.doublet n1 n2 (curvQ R1 : ℝ) (curvQ R2) (curvQ R3) (tc1 : ℝ) (tc2 : ℝ)).c - fa| ≤ 99999 / 10 ^ 7 * |(fa : ℝ)|) :
    ∃ g ws, doubletGroup (radiusF R1) (radiusF R2) (radiusF R3) (lit tc1) (lit tc2) (Fl.num y1 : Fl ℝ doubleR) (Fl.num y2) (lit d) label = .ok g ∧
      lensChecks (.ok ()) Prod.snd g (lit tc1 + lit tc2) (lit fa) (lit fb) (radiusF R1) (radiusF R3) (lit te) intF false = .ok ws ∧
      LensNear g.mat (Sys.doublet n1 n2 (curvQ R1) (curvQ R2) (curvQ R3) (tc1 : ℝ) (tc2 : ℝ)) (inFloat tc1 + inFloat tc2) := by
  have hr := doubleR_rounding
  have ht1' : (0 : ℝ) < tc1 := by exact_mod_cast ht1
  have ht2' : (0 : ℝ) < tc2 := by exact_mod_cast ht2
  have p1 := inFloat_pos ht1
  have p2 := inFloat_pos ht2
  obtain ⟨hB, q, hq0, hF, ho⟩ := doublet_fits label hy1 hy2 hap rfl ht1'.le (inFloat_len ht1) rfl ht2'.le (inFloat_len ht2) (radius_near h1)
    (radius_near h2) (radius_near h3) (inFloat_pos hd) hq
  obtain ⟨e, he⟩ := C96_media hr hB
  obtain ⟨c1, c2⟩ := hq8 q hq0
  have ln := lens_near hB hF ho c1 hs c2 (add_pos p1 p2).le
    (by simp [doubletPart, Part.rmat, Part.rstages, Part.rmatList, RStage.andThen, RStage.one, Stage.andThen, Stage.withOps, Sys.stage, Sys.interface, Sys.space])
    (by
      have := abs_of_pos p1
      have := abs_of_pos p2
      simp [doubletPart, Part.rmat, Part.rstages, Part.rmatList, RStage.andThen, RStage.one, Stage.andThen, Stage.withOps, Stage.abs, Sys.stage, Sys.interface, Sys.space, *])
    he
  obtain ⟨g, hg, ⟨D, hD⟩, v1, v2, v3⟩ := built_doublet (inFloat_pos hd) he
  have ln' : LensNear g.mat (Sys.doublet n1 n2 (curvQ R1) (curvQ R2) (curvQ R3) (tc1 : ℝ) (tc2 : ℝ)) (inFloat tc1 + inFloat tc2) := by
    rw [hD]; exact ln.aperture D
  obtain ⟨a, c, d', l, hm, -, hlen⟩ := ln'.holds
  have hl : l ≠ 0 := by
    have := abs_le.1 hlen
    intro h0
    subst h0
    linarith
  obtain ⟨f1, f2, ef, -, hf2⟩ := ln'.focal
  obtain ⟨ws, hws⟩ := checks_ok hm ln'.power hl v1 v2 v3 (inFloat_pos hd).le (radius_room hd h1 r1) (radius_room hd h3 r3)
    (onThickness := .ok ()) (pick := Prod.snd) (tc := lit tc1 + lit tc2) (inFloat_ne hf) (inFloat_ne hfb) (inFloat_ne hte) (intF := intF)
    (Or.inl rfl) (by
      intro hi f q hf' hq'
      rw [ef] at hf'
      injection hf' with hf'
      subst hf'
      exact focal_quiet hf2 hf rfl (hI hi) q hq')
  rw [radiusF_eq, radiusF_eq, radiusF_eq]
  exact ⟨g, ws, hg, hws, ln'⟩

/-- **C127.** In Python floats, every lens of the catalogues can be made, without argument or, if its class takes one, at any wavelength from 0.3 to 2.5
microns; its power is that of the data sheet to 7·10⁻¹¹ and its two focal lengths to 4·10⁻⁸ of themselves, its thickness to 10⁻¹². The two lenses whose focal
length is written as an integer are made where it is within 0.99999 % of it: beyond 1 % they are refused (see `C92_violated_int`). For any `asin` and `cos`. -/
theorem C127_created [PyTrig (Fl ℝ doubleR)] {l : CatLens} (hl : l ∈ catalogue) {w : Option ℝ} (ht : w.isSome = true → l.takesWavelength = true)
    (hw : ∀ x ∈ w, 0.3 ≤ x ∧ x ≤ 2.5)
    (hint : l.name ∈ intFocals → |l.focal (l.usedF w) - l.design| ≤ 99999 / 10 ^ 7 * |(l.design : ℝ)|) :
    ∃ g ws c len f1 f2, l.makeF (w.map (Fl.num : ℝ → Fl ℝ doubleR)) = .ok (g, ws) ∧ g.group.mat.C = Fl.num c ∧ |c - (l.sysAt (l.usedF w)).c| ≤ 7 / 10 ^ 11 ∧
      g.group.mat.L = Fl.num len ∧ |len - l.data.thickness| ≤ 1 / 10 ^ 12 * l.data.thickness ∧
      g.group.mat.effectiveFocalLengths = .ok (Fl.num f1, Fl.num f2) ∧
      |f1 - l.focal (l.usedF w)| ≤ 4 / 10 ^ 8 * |l.focal (l.usedF w)| ∧ |f2 - l.focal (l.usedF w)| ≤ 4 / 10 ^ 8 * |l.focal (l.usedF w)| := by
  obtain ⟨hs, hf⟩ := float_checked hl
  have hu : 0.3 ≤ l.usedF w ∧ l.usedF w ≤ 2.5 := by
    cases w with
    | some x => exact hw x rfl
    | none =>
      simp only [CatLens.floatOk, Bool.and_eq_true, decide_eq_true_eq] at hf
      have b1 : ((31 / 100 : ℚ) : ℝ) ≤ (l.data.ref : ℝ) := (Rat.cast_le (K := ℝ)).2 hf.1.1.2
      have b2 : (l.data.ref : ℝ) ≤ ((24 / 10 : ℚ) : ℝ) := (Rat.cast_le (K := ℝ)).2 hf.1.2
      push_cast at b1 b2
      have b3 : (0 : ℚ) < l.data.ref := lt_of_lt_of_le (by norm_num) hf.1.1.2
      have b4 := abs_le.1 (inFloat_len b3)
      simp only [CatLens.usedF]
      constructor <;> norm_num <;> norm_num at b4 <;> linarith [b4.1, b4.2]
  obtain ⟨hc, hqc⟩ := power_room hl hu.1 hu.2
  clear hw
  -- the conclusion, once the lens is made
  have finish : ∀ {g : GlassLens (Fl ℝ doubleR)} {ws : List LensWarn} {t : ℝ}, l.makeF (w.map (Fl.num : ℝ → Fl ℝ doubleR)) = .ok (g, ws) →
      LensNear g.group.mat (l.sysAt (l.usedF w)) t → |t - l.data.thickness| ≤ 5 / 10 ^ 13 * (l.data.thickness : ℝ) → 0 < l.data.thickness →
      ∃ g ws c len f1 f2, l.makeF (w.map (Fl.num : ℝ → Fl ℝ doubleR)) = .ok (g, ws) ∧ g.group.mat.C = Fl.num c ∧ |c - (l.sysAt (l.usedF w)).c| ≤ 7 / 10 ^ 11 ∧
        g.group.mat.L = Fl.num len ∧ |len - l.data.thickness| ≤ 1 / 10 ^ 12 * l.data.thickness ∧
        g.group.mat.effectiveFocalLengths = .ok (Fl.num f1, Fl.num f2) ∧
        |f1 - l.focal (l.usedF w)| ≤ 4 / 10 ^ 8 * |l.focal (l.usedF w)| ∧ |f2 - l.focal (l.usedF w)| ≤ 4 / 10 ^ 8 * |l.focal (l.usedF w)| := by
    intro g ws t h1 h2 h3 h4
    have h4' : (0 : ℝ) < l.data.thickness := by exact_mod_cast h4
    obtain ⟨-, ⟨a, c, d, len, hm, k1, k2⟩, f1, f2, k3, k4, k5⟩ := h2
    refine ⟨g, ws, c, len, f1, f2, h1, hm.C, k1, hm.L, ?_, k3, k4, k5⟩
    have t1 := abs_sub_le len t (l.data.thickness : ℝ)
    have t2 := (abs_le.1 h3).2
    have t3 : 6 / 10 ^ 15 * t ≤ 6 / 10 ^ 15 * (2 * (l.data.thickness : ℝ)) := mul_le_mul_of_nonneg_left (by linarith) (by norm_num)
    linarith
  obtain ⟨name, label, takes, data⟩ := l
  have hwt : ((w.map (Fl.num : ℝ → Fl ℝ doubleR)).isSome && !takes) = false := by
    cases w with
    | none => rfl
    | some x => simpa using ht rfl
  simp only [CatLens.staticOk, Bool.and_eq_true, decide_eq_true_eq] at hs
  obtain ⟨⟨⟨⟨⟨⟨⟨hd, -⟩, hfa⟩, hfb⟩, hte⟩, -⟩, -⟩, -⟩ := hs
  simp only [CatLens.floatOk, Bool.and_eq_true, decide_eq_true_eq, List.all_eq_true] at hf
  obtain ⟨⟨⟨⟨⟨⟨⟨⟨⟨hi, hth⟩, hrad⟩, hr1⟩, hr2⟩, hq⟩, hq8⟩, -⟩, -⟩, -⟩ := hf
  cases data with
  | singlet f fb R1 R2 tc te d mat wref =>
    simp only [CatData.thick, decide_eq_true_eq] at hth
    obtain ⟨y, ey, hy⟩ := index_near hi hu.1 hu.2
    simp only [CatLens.sysAt, CatData.sys, curv_radius] at hc hqc
    obtain ⟨g, ws, e1, e2, ln⟩ := made_singlet label hy hth hfa hfb hte hd (hrad R1 (by simp [CatData.radii])) (hrad R2 (by simp [CatData.radii])) hr1 hr2 hq
      (by
        intro q hq0
        simp only [CatData.quadC, CatData.quads, hq0] at hq8 hqc
        exact ⟨hq8, hqc⟩) hc
    have hg : glassIndex (none : Option (Fl ℝ doubleR)) (some (indexOfF mat)) (w.map Fl.num) (some (lit wref)) = .ok (some (Fl.num y)) := by
      cases w with
      | some x => simp only [CatLens.usedF] at ey; simp [glassIndex, ey, Except.map]
      | none =>
        change indexOfF mat (lit wref : Fl ℝ doubleR) = _ at ey
        simp [glassIndex, ey, Except.map]
    refine finish (g := ⟨g, .singlet (radiusF R1) (radiusF R2) (lit tc) (Fl.num y)⟩) (ws := ws) (t := inFloat tc) ?_ ?_ ?_ hth
    · unfold CatLens.makeF
      simp only [hwt, Bool.false_eq_true, if_false]
      unfold mkSinglet
      have e1' : singletGroup (radiusF R1) (radiusF R2) (lit tc) (Fl.num y) (lit d : Fl ℝ doubleR) label = .ok g := e1
      have e2' : lensChecks (.error .attributeError) Prod.fst g (lit tc) (lit f) (lit fb) (radiusF R1) (radiusF R2) (lit te) false false = .ok ws := e2
      simp only [hg, e1', e2', bind, Except.bind, pure, Except.pure]
    · simp only [CatLens.sysAt, CatData.sys, curv_radius]; exact ln
    · exact inFloat_len hth
  | doublet fa fb R1 R2 R3 tc1 tc2 te d gl =>
    simp only [CatData.thick, Bool.and_eq_true, decide_eq_true_eq] at hth
    have hth0 : (0 : ℚ) < tc1 + tc2 := add_pos hth.1 hth.2
    have hlen : |inFloat tc1 + inFloat tc2 - ((tc1 + tc2 : ℚ) : ℝ)| ≤ 5 / 10 ^ 13 * ((tc1 + tc2 : ℚ) : ℝ) := by
      have a1 := abs_le.1 (inFloat_len hth.1)
      have a2 := abs_le.1 (inFloat_len hth.2)
      push_cast
      rw [abs_le]
      constructor <;> linarith [a1.1, a1.2, a2.1, a2.2]
    cases gl with
    | given n1 n2 =>
      simp only [CatData.indicesOk, Bool.and_eq_true, decide_eq_true_eq] at hi
      obtain ⟨⟨⟨⟨i1, i2⟩, i3⟩, i4⟩, i5⟩ := hi
      have near : ∀ {n : ℚ}, 5 / 4 ≤ n → n ≤ 5 / 2 → IndexNear (5 / 10 ^ 13) (inFloat n) (n : ℝ) := by
        intro n b1 b2
        have b1' : (5 / 4 : ℝ) ≤ n := by
          have := (Rat.cast_le (K := ℝ)).2 b1
          push_cast at this; exact this
        have b2' : (n : ℝ) ≤ 5 / 2 := by
          have := (Rat.cast_le (K := ℝ)).2 b2
          push_cast at this; exact this
        refine ⟨(inFloat_rel n).trans ?_, b1', b2'⟩
        rw [abs_of_pos (by linarith)]
        calc (1 / 2 ^ 53 : ℝ) * n ≤ 1 / 2 ^ 53 * (5 / 2) := by gcongr
          _ ≤ _ := by norm_num
      have i5' : (1 / 1000 : ℝ) ≤ |(n1 : ℝ) - n2| := by
        have := (Rat.cast_le (K := ℝ)).2 i5
        push_cast at this; exact this
      simp only [CatLens.sysAt, CatData.sys, curv_radius] at hc hqc
      obtain ⟨g, ws, e1, e2, ln⟩ := made_doublet label (near i1 i2) (near i3 i4) i5' hth.1 hth.2 hfa hfb hte hd (hrad R1 (by simp [CatData.radii]))
        (hrad R2 (by simp [CatData.radii])) (hrad R3 (by simp [CatData.radii])) hr1 hr2 hq
        (by
          intro q hq0
          simp only [CatData.quadC, CatData.quads, hq0] at hq8 hqc
          exact ⟨hq8, hqc⟩) hc (intF := false) (by intro h; cases h)
      refine finish (g := ⟨g, .doublet (radiusF R1) (radiusF R2) (radiusF R3) (lit tc1) (lit tc2) (lit n1) (lit n2)⟩) (ws := ws)
        (t := inFloat tc1 + inFloat tc2) ?_ ?_ hlen hth0
      · unfold CatLens.makeF
        simp only [hwt, Bool.false_eq_true, if_false]
        unfold mkDoublet
        have e1' : doubletGroup (radiusF R1) (radiusF R2) (radiusF R3) (lit tc1) (lit tc2) (lit n1) (lit n2) (lit d : Fl ℝ doubleR) label = .ok g := e1
        have e2' : lensChecks (.ok ()) Prod.snd g (lit tc1 + lit tc2) (lit fa) (lit fb) (radiusF R1) (radiusF R3) (lit te) false false = .ok ws := e2
        simp only [glassIndices, e1', e2', bind, Except.bind, pure, Except.pure]
      · simp only [CatLens.sysAt, CatData.sys, curv_radius]; exact ln
    | glasses m1 m2 wref =>
      simp only [CatData.indicesOk, Bool.and_eq_true] at hi
      obtain ⟨⟨i1, i2⟩, i3⟩ := hi
      obtain ⟨y1, ey1, hy1⟩ := index_near i1 hu.1 hu.2
      obtain ⟨y2, ey2, hy2⟩ := index_near i2 hu.1 hu.2
      have hap := pair_apart i1 i2 i3 hu.1 hu.2
      simp only [CatLens.focal, CatLens.sysAt, CatData.sys, curv_radius, CatLens.design] at hc hqc hint
      obtain ⟨g, ws, e1, e2, ln⟩ := made_doublet label hy1 hy2 hap hth.1 hth.2 hfa hfb hte hd (hrad R1 (by simp [CatData.radii]))
        (hrad R2 (by simp [CatData.radii])) (hrad R3 (by simp [CatData.radii])) hr1 hr2 hq
        (by
          intro q hq0
          simp only [CatData.quadC, CatData.quads, hq0] at hq8 hqc
          exact ⟨hq8, hqc⟩) hc (intF := intFocals.contains name) (by intro h; exact hint (by simpa using h))
      have hg : glassIndices (none : Option (Fl ℝ doubleR)) none (some (indexOfF m1)) (some (indexOfF m2)) (w.map Fl.num) (some (lit wref)) =
          .ok (some (Fl.num y1), some (Fl.num y2)) := by
        cases w with
        | some x =>
          simp only [CatLens.usedF] at ey1 ey2
          simp [glassIndices, glassIndex, ey1, ey2, Except.map, bind, Except.bind, pure, Except.pure]
        | none =>
          change indexOfF m1 (lit wref : Fl ℝ doubleR) = _ at ey1
          change indexOfF m2 (lit wref : Fl ℝ doubleR) = _ at ey2
          simp [glassIndices, glassIndex, ey1, ey2, Except.map, bind, Except.bind, pure, Except.pure]
      refine finish (g := ⟨g, .doublet (radiusF R1) (radiusF R2) (radiusF R3) (lit tc1) (lit tc2) (Fl.num y1) (Fl.num y2)⟩) (ws := ws)
        (t := inFloat tc1 + inFloat tc2) ?_ ?_ hlen hth0
      · unfold CatLens.makeF
        simp only [hwt, Bool.false_eq_true, if_false]
        unfold mkDoublet
        have e1' : doubletGroup (radiusF R1) (radiusF R2) (radiusF R3) (lit tc1) (lit tc2) (Fl.num y1) (Fl.num y2) (lit d : Fl ℝ doubleR) label =
          .ok g := e1
        have e2' : lensChecks (.ok ()) Prod.snd g (lit tc1 + lit tc2) (lit fa) (lit fb) (radiusF R1) (radiusF R3) (lit te)
          (intFocals.contains name) false = .ok ws := e2
        simp only [hg, e1', e2', bind, Except.bind, pure, Except.pure]
      · simp only [CatLens.sysAt, CatData.sys, curv_radius]; exact ln

/-- a lens made of two glasses whose focal length is everywhere within 0.99999 % of that of its data sheet -/
def CatLens.closeOk (cells : List (ℚ × ℚ)) (rows : List (String × List Fx)) (l : CatLens) : Bool :=
  match l.data with
  | .doublet _ _ R1 R2 R3 tc1 tc2 _ _ (.glasses m1 m2 _) =>
    match rows.find? (fun r => r.1 == m1), rows.find? (fun r => r.1 == m2) with
    | some r1, some r2 =>
      (r1.2.length == cells.length) && (r2.2.length == cells.length) &&
        (List.zipWith (doubletFx (.ofQ (curvQ R1)) (.ofQ (curvQ R2)) (.ofQ (curvQ R3)) (.ofQ tc1) (.ofQ tc2)) r1.2 r2.2).all fun q =>
          q.1.away && (offFx (99999 / 10 ^ 7) q.1.inv l.design == some false)
    | _, _ => false
  | _ => false

theorem closeOk_all : (catalogue.filter fun l => intFocals.contains l.name).all (CatLens.closeOk nearCells nearRows) = true := by decide +kernel

theorem CatLens.closeOk_sound {cells : List (ℚ × ℚ)} {rows : List (String × List Fx)} {l : CatLens} (hr : rows.all (rowOk cells) = true)
    (h : l.closeOk cells rows = true) (hd : l.design ≠ 0) {c : ℚ × ℚ} (hc : c ∈ cells) {x : ℝ} (h1 : (c.1 : ℝ) ≤ x) (h2 : x ≤ (c.2 : ℝ)) :
    |l.focal x - l.design| ≤ 99999 / 10 ^ 7 * |(l.design : ℝ)| := by
  obtain ⟨j, hj⟩ := List.mem_iff_getElem?.1 hc
  have hlt : j < cells.length := (List.getElem?_eq_some_iff.1 hj).1
  have hd' : 0 < |(l.design : ℝ)| := abs_pos.2 (by exact_mod_cast hd)
  suffices hs : ¬ offBy (99999 / 10 ^ 7) (l.focal x) (l.design : ℝ) by
    unfold offBy at hs
    rw [not_lt, abs_div, div_le_iff₀ hd'] at hs
    exact hs
  obtain ⟨name, label, takes, data⟩ := l
  cases data with
  | singlet => simp [closeOk] at h
  | doublet fa fb R1 R2 R3 tc1 tc2 te d g =>
    cases g with
    | given => simp [closeOk] at h
    | glasses m1 m2 w =>
      unfold closeOk at h
      simp only at h
      cases e1 : rows.find? (fun r => r.1 == m1) with
      | none => simp [e1] at h
      | some r1 =>
        cases e2 : rows.find? (fun r => r.1 == m2) with
        | none => simp [e1, e2] at h
        | some r2 =>
          simp only [e1, e2, Bool.and_eq_true, beq_iff_eq] at h
          obtain ⟨⟨l1, l2⟩, h⟩ := h
          have n1 : r1.1 = m1 := by have := List.find?_some e1; simpa using this
          have n2 : r2.1 = m2 := by have := List.find?_some e2; simpa using this
          have k1 := List.getElem?_eq_getElem (l := r1.2) (i := j) (by omega)
          have k2 := List.getElem?_eq_getElem (l := r2.2) (i := j) (by omega)
          obtain ⟨a1, a2, -⟩ := rowOk_has (List.all_eq_true.1 hr r1 (List.mem_of_find?_eq_some e1)) hj k1 h1 h2
          obtain ⟨a3, a4, -⟩ := rowOk_has (List.all_eq_true.1 hr r2 (List.mem_of_find?_eq_some e2)) hj k2 h1 h2
          rw [n1] at a2
          rw [n2] at a4
          have hq := List.all_eq_true.1 h _ (List.mem_of_getElem? (i := j) (by rw [List.getElem?_zipWith, k1, k2]))
          simp only [Bool.and_eq_true, beq_iff_eq] at hq
          have hh := doubletFx_has (c1 := curvQ R1) (c2 := curvQ R2) (c3 := curvQ R3) (t1 := tc1) (t2 := tc2) a1 a3 a2 a4
          have hi := Fx.has_inv hq.1 hh.1
          have := offFx_sound hd hq.2 hi
          push_cast at this
          simp only [CatLens.focal, CatLens.sysAt, CatData.sys, curv_radius]
          rw [div_neg, ← neg_div] at this
          rw [this]
          simp

/-- the two lenses whose focal length is written as an integer, from 0.38 to 1.1 microns -/
theorem int_close {l : CatLens} (hl : l ∈ catalogue) (hn : l.name ∈ intFocals) {x : ℝ} (h1 : 0.38 ≤ x) (h2 : x ≤ 1.1) :
    |l.focal x - l.design| ≤ 99999 / 10 ^ 7 * |(l.design : ℝ)| := by
  obtain ⟨row, -, hrow⟩ := catalogue_row hl
  have h : chained (38 / 100) (11 / 10) nearCells = true := by decide +kernel
  obtain ⟨c, hc, h3, h4⟩ := chained_mem h (x := x) (by norm_num at h1 ⊢; linarith) (by norm_num at h2 ⊢; linarith)
  exact CatLens.closeOk_sound fine_ok.1 (List.all_eq_true.1 closeOk_all l (List.mem_filter.2 ⟨hl, by simpa using hn⟩))
    (static_ne (checked hrow).static).1 hc h3 h4

/-- the wavelength of reference of these two lenses -/
theorem int_ref : (catalogue.filter fun l => intFocals.contains l.name).all (fun l => decide (1 / 2 ≤ l.data.ref) && decide (l.data.ref ≤ 1)) = true := by
  decide +kernel

/-- **C127**, without argument: every lens of the catalogues is made in Python floats, with the focal length of its data. -/
theorem C127_default [PyTrig (Fl ℝ doubleR)] {l : CatLens} (hl : l ∈ catalogue) :
    ∃ g ws f1 f2, l.makeF (F := Fl ℝ doubleR) none = .ok (g, ws) ∧ g.group.mat.effectiveFocalLengths = .ok (Fl.num f1, Fl.num f2) ∧
      |f1 - l.focal (inFloat l.data.ref)| ≤ 4 / 10 ^ 8 * |l.focal (inFloat l.data.ref)| ∧
      |f2 - l.focal (inFloat l.data.ref)| ≤ 4 / 10 ^ 8 * |l.focal (inFloat l.data.ref)| := by
  obtain ⟨g, ws, c, len, f1, f2, h1, -, -, -, -, h2, h3, h4⟩ := C127_created hl (w := none) (by simp) (by simp) (by
    intro hn
    have := List.all_eq_true.1 int_ref l (List.mem_filter.2 ⟨hl, by simpa using hn⟩)
    simp only [Bool.and_eq_true, decide_eq_true_eq] at this
    have b1 : ((1 / 2 : ℚ) : ℝ) ≤ (l.data.ref : ℝ) := (Rat.cast_le (K := ℝ)).2 this.1
    have b2 : (l.data.ref : ℝ) ≤ ((1 : ℚ) : ℝ) := (Rat.cast_le (K := ℝ)).2 this.2
    push_cast at b1 b2
    have b4 := abs_le.1 (inFloat_len (q := l.data.ref) (lt_of_lt_of_le (by norm_num) this.1))
    apply int_close hl hn <;> simp only [CatLens.usedF] <;> norm_num <;> norm_num at b4 <;> linarith [b4.1, b4.2])
  exact ⟨g, ws, f1, f2, h1, h2, h3, h4⟩

/-- **C127**, at the wavelengths from 0.38 to 1.1 microns nothing is asked of the lens but that its class take a wavelength. -/
theorem C127_visible [PyTrig (Fl ℝ doubleR)] {l : CatLens} (hl : l ∈ catalogue) (ht : l.takesWavelength = true) {w : ℝ} (h1 : 0.38 ≤ w) (h2 : w ≤ 1.1) :
    ∃ g ws f1 f2, l.makeF (some (Fl.num w : Fl ℝ doubleR)) = .ok (g, ws) ∧ g.group.mat.effectiveFocalLengths = .ok (Fl.num f1, Fl.num f2) ∧
      |f1 - l.focal w| ≤ 4 / 10 ^ 8 * |l.focal w| ∧ |f2 - l.focal w| ≤ 4 / 10 ^ 8 * |l.focal w| := by
  obtain ⟨g, ws, c, len, f1, f2, k1, -, -, -, -, k2, k3, k4⟩ := C127_created hl (w := some w) (fun _ => ht)
    (by
      intro x hx
      cases hx
      constructor <;> norm_num at h1 h2 ⊢ <;> linarith)
    (fun hn => int_close hl hn h1 h2)
  exact ⟨g, ws, f1, f2, k1, k2, k3, k4⟩

/-- **C127**, a class whose indices are written in the program refuses a wavelength, whatever the numbers. -/
theorem C127_refused {F : Type} [PyNum F] [PyPow F] [PyTrig F] {l : CatLens} (ht : l.takesWavelength = false) (w : F) :
    l.makeF (some w) = .error .typeError := by
  unfold CatLens.makeF
  simp [ht]

theorem radiusF_exact (R : Option ℚ) : (radiusF R : Ext ℝ) = radius R := by
  cases R with
  | none => rfl
  | some r => exact lit_eq r

theorem indexF_exact (name : String) (x : ℝ) : @indexOfF _ _ exactPow name (fin x) = indexOf name (fin x) := by
  let _ := exactPow
  unfold indexOfF indexOf
  cases h : classNamed name with
  | error e => rfl
  | ok g =>
    simp only
    unfold Glass.indexF Glass.index
    rw [C126_exact (classNamed_mem h).1]
    dsimp only
    cases hn : g.n x with
    | error e => rfl
    | ok i => cases i <;> rfl

/-- **C127**, with exact numbers these are the lenses of C92. -/
theorem C127_exact [PyTrig (Ext ℝ)] (l : CatLens) (w : Option ℝ) : @CatLens.makeF _ _ exactPow _ l (w.map fin) = l.make (w.map fin) := by
  let _ := exactPow
  obtain ⟨name, label, takes, data⟩ := l
  unfold CatLens.makeF CatLens.make
  simp only [lit_eq, radiusF_exact]
  split
  · rfl
  · cases data with
    | singlet f fb R1 R2 tc te d mat wref =>
      simp only [mkSinglet, num]
      have : glassIndex (none : Option (Ext ℝ)) (some (indexOfF mat)) (w.map fin) (some (fin (wref : ℝ))) =
          glassIndex none (some (indexOf mat)) (w.map fin) (some (fin (wref : ℝ))) := by
        cases w <;> simp [glassIndex, indexF_exact]
      rw [this]
    | doublet fa fb R1 R2 R3 tc1 tc2 te d gl =>
      cases gl with
      | given n1 n2 => rfl
      | glasses m1 m2 wref =>
        simp only [mkDoublet, num]
        have : glassIndices (none : Option (Ext ℝ)) none (some (indexOfF m1)) (some (indexOfF m2)) (w.map fin) (some (fin (wref : ℝ))) =
            glassIndices none none (some (indexOf m1)) (some (indexOf m2)) (w.map fin) (some (fin (wref : ℝ))) := by
          cases w <;> simp [glassIndices, glassIndex, indexF_exact]
        rw [this]

/-- **C127**, for example: the first lens of the catalogue at 633 nm, and the number of lenses. -/
theorem C127_example [PyTrig (Fl ℝ doubleR)] : catalogue.length = 342 ∧ ∃ l, catalogue.head? = some l ∧
    ∃ g ws f1 f2, l.makeF (some (Fl.num 0.633 : Fl ℝ doubleR)) = .ok (g, ws) ∧ g.group.mat.effectiveFocalLengths = .ok (Fl.num f1, Fl.num f2) ∧
      |f1 - l.focal 0.633| ≤ 4 / 10 ^ 8 * |l.focal 0.633| ∧ |f2 - l.focal 0.633| ≤ 4 / 10 ^ 8 * |l.focal 0.633| := by
  refine ⟨by decide +kernel, ?_⟩
  have ht : (catalogue.head?.map CatLens.takesWavelength) = some true := by decide +kernel
  cases h : catalogue.head? with
  | none => rw [h] at ht; cases ht
  | some l =>
    rw [h] at ht
    exact ⟨l, rfl, C127_visible (List.mem_of_head? h) (by simpa using ht) (by norm_num) (by norm_num)⟩

end RT
