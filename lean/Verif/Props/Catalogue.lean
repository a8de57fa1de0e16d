import Verif.Lemmas.CatalogueInt
import Verif.Props.Components

/-! # C92: the lenses and objectives of the catalogues -/

set_option linter.unusedSectionVars false

namespace RT
open PyNum Ext

/-! ## Intervals that follow one another -/

/-- the intervals cover everything from `a` to `b` -/
def chained : ℚ → ℚ → List (ℚ × ℚ) → Bool
  | _, _, [] => false
  | a, b, [c] => decide (c.1 ≤ a) && decide (b ≤ c.2)
  | a, b, c :: cs => decide (c.1 ≤ a) && chained c.2 b cs

theorem chained_mem {b : ℚ} {cs : List (ℚ × ℚ)} : ∀ {a : ℚ}, chained a b cs = true → ∀ {x : ℝ}, (a : ℝ) ≤ x → x ≤ (b : ℝ) →
    ∃ c ∈ cs, (c.1 : ℝ) ≤ x ∧ x ≤ (c.2 : ℝ) := by
  induction cs with
  | nil => intro a h; simp [chained] at h
  | cons c cs ih =>
    intro a h x h1 h2
    cases cs with
    | nil =>
      simp only [chained, Bool.and_eq_true, decide_eq_true_eq] at h
      have e1 : (c.1 : ℝ) ≤ (a : ℝ) := by exact_mod_cast h.1
      have e2 : (b : ℝ) ≤ (c.2 : ℝ) := by exact_mod_cast h.2
      exact ⟨c, by simp, e1.trans h1, h2.trans e2⟩
    | cons c' cs =>
      simp only [chained, Bool.and_eq_true, decide_eq_true_eq] at h
      have e1 : (c.1 : ℝ) ≤ (a : ℝ) := by exact_mod_cast h.1
      rcases le_total x (c.2 : ℝ) with h3 | h3
      · exact ⟨c, by simp, e1.trans h1, h3⟩
      · obtain ⟨d, hd, h4⟩ := ih h.2 h3 h2
        exact ⟨d, List.mem_cons_of_mem _ hd, h4⟩

theorem cell_of {x : ℝ} (h1 : 0.29 ≤ x) (h2 : x ≤ 6.4) : ∃ (j : ℕ) (c : ℚ × ℚ), indexCells[j]? = some c ∧ (c.1 : ℝ) ≤ x ∧ x ≤ (c.2 : ℝ) := by
  have h : chained (29 / 100) (64 / 10) (indexCells.drop 2) = true := by decide +kernel
  obtain ⟨c, hc, h3⟩ := chained_mem h (x := x) (by norm_num at h1 ⊢; linarith) (by norm_num at h2 ⊢; linarith)
  obtain ⟨j, hj⟩ := List.mem_iff_getElem?.1 (List.mem_of_mem_drop hc)
  exact ⟨j, c, hj, h3⟩

theorem cell_visible {x : ℝ} (h1 : 0.4 ≤ x) (h2 : x ≤ 0.8) :
    ∃ (j : ℕ) (c : ℚ × ℚ), indexCells[j]? = some c ∧ visible c = true ∧ (c.1 : ℝ) ≤ x ∧ x ≤ (c.2 : ℝ) := by
  have h : chained (2 / 5) (4 / 5) ((indexCells.drop 2).filter visible) = true := by decide +kernel
  obtain ⟨c, hc, h3⟩ := chained_mem h (x := x) (by norm_num at h1 ⊢; linarith) (by norm_num at h2 ⊢; linarith)
  rw [List.mem_filter] at hc
  obtain ⟨j, hj⟩ := List.mem_iff_getElem?.1 (List.mem_of_mem_drop hc.1)
  exact ⟨j, c, hj, hc.2, h3⟩

/-! ## What the checks mean -/

theorem catalogue_zip : (List.zip catalogue catalogueTable).all CatLens.check = true ∧ catalogue.length = catalogueTable.length := by
  obtain ⟨l1, c1⟩ := check1
  obtain ⟨l2, c2⟩ := check2
  obtain ⟨l3, c3⟩ := check3
  obtain ⟨l4, c4⟩ := check4
  obtain ⟨l5, c5⟩ := check5
  obtain ⟨l6, c6⟩ := check6
  refine ⟨?_, ?_⟩
  · unfold catalogue catalogueTable
    rw [List.zip_append (by simp [l1, l2, l3, l4, l5]), List.zip_append (by simp [l1, l2, l3, l4]), List.zip_append (by simp [l1, l2, l3]),
      List.zip_append (by simp [l1, l2]), List.zip_append l1]
    simp [c1, c2, c3, c4, c5, c6]
  · simp [catalogue, catalogueTable, l1, l2, l3, l4, l5, l6]

/-- what is known of a lens of the catalogues -/
theorem catalogue_row {l : CatLens} (hl : l ∈ catalogue) : ∃ row ∈ catalogueTable, CatLens.check (l, row) = true := by
  obtain ⟨h1, h2⟩ := catalogue_zip
  obtain ⟨i, hi⟩ := List.mem_iff_getElem?.1 hl
  have hlt : i < catalogue.length := (List.getElem?_eq_some_iff.1 hi).1
  have hr := List.getElem?_eq_getElem (l := catalogueTable) (i := i) (h2 ▸ hlt)
  refine ⟨catalogueTable[i]'(h2 ▸ hlt), List.getElem_mem _, List.all_eq_true.1 h1 _ (List.mem_of_getElem? (i := i) ?_)⟩
  rw [List.zip, List.getElem?_zipWith, hi, hr]

theorem catalogue_at {i : ℕ} {l : CatLens} {row : CatRow} (hl : catalogue[i]? = some l) (hr : catalogueTable[i]? = some row) :
    CatLens.check (l, row) = true := by
  refine List.all_eq_true.1 catalogue_zip.1 _ (List.mem_of_getElem? (i := i) ?_)
  rw [List.zip, List.getElem?_zipWith, hl, hr]

/-- Specification: the lens that the data describe, with the glasses at the wavelength `w`. -/
noncomputable def CatLens.sysAt (l : CatLens) (w : ℝ) : Sys ℝ := l.data.sys fun name => glassAt name w

/-- Specification: its focal length. -/
noncomputable def CatLens.focal (l : CatLens) (w : ℝ) : ℝ := -1 / (l.sysAt w).c

structure Checked (l : CatLens) (row : CatRow) : Prop where
  name : l.name = row.name
  static : l.staticOk = true
  ref1 : (29 / 100 : ℚ) ≤ l.data.ref
  ref2 : l.data.ref ≤ (64 / 10 : ℚ)
  len : l.data.fxs.length = indexCells.length
  power : l.data.fxs.all l.powerOk = true
  ref : ∃ q ∈ List.zip indexCells l.data.fxs, q.1.1 ≤ l.data.ref ∧ l.data.ref ≤ q.1.2 ∧ l.refOk row q = true
  visible : row.focal = false → (List.zip indexCells l.data.fxs).all l.visibleOk = true

theorem checked {l : CatLens} {row : CatRow} (h : CatLens.check (l, row) = true) : Checked l row := by
  simp only [CatLens.check, Bool.and_eq_true, decide_eq_true_eq, beq_iff_eq, Bool.or_eq_true] at h
  obtain ⟨⟨⟨⟨h1, h2⟩, h3⟩, h4⟩, ⟨⟨h5, h6⟩, h7⟩, h8⟩ := h
  refine ⟨h1, h2, h3, h4, h5, h6, ?_, fun hf => ?_⟩
  · obtain ⟨q, hq, h9⟩ := List.any_eq_true.1 h7
    simp only [Bool.and_eq_true, decide_eq_true_eq] at h9
    exact ⟨q, hq, h9.1.1, h9.1.2, h9.2⟩
  · rcases h8 with h8 | h8
    · rw [hf] at h8; cases h8
    · exact h8

theorem cell_fx {l : CatLens} (h : l.data.fxs.length = indexCells.length) {j : ℕ} {c : ℚ × ℚ} (hc : indexCells[j]? = some c) :
    ∃ p, l.data.fxs[j]? = some p := by
  have hlt : j < indexCells.length := (List.getElem?_eq_some_iff.1 hc).1
  exact ⟨l.data.fxs[j]'(h ▸ hlt), List.getElem?_eq_getElem _⟩

theorem zip_fx {l : CatLens} {q : (ℚ × ℚ) × Fx × Fx} (h : q ∈ List.zip indexCells l.data.fxs) :
    ∃ j : ℕ, indexCells[j]? = some q.1 ∧ l.data.fxs[j]? = some q.2 := by
  obtain ⟨j, hj⟩ := List.mem_iff_getElem?.1 h
  rw [List.zip, List.getElem?_zipWith] at hj
  cases h1 : indexCells[j]? with
  | none => simp [h1] at hj
  | some c =>
    cases h2 : l.data.fxs[j]? with
    | none => simp [h1, h2] at hj
    | some p =>
      simp only [h1, h2, Option.some.injEq] at hj
      subst hj
      exact ⟨j, h1, h2⟩

/-- the power, from an interval -/
theorem power_of {l : CatLens} {p : Fx × Fx} (h : l.powerOk p = true) {w : ℝ} (hp : p.1.has (-(l.sysAt w).c)) (hd : l.design ≠ 0) :
    1 / 100000 < |(l.sysAt w).c| ∧ 0 < l.focal w * (l.design : ℝ) := by
  have hu : (Fx.unit : ℝ) = 1000000000000 := by norm_num [Fx.unit]
  obtain ⟨h1, h2⟩ := hp
  rw [hu] at h1 h2
  unfold CatLens.powerOk at h
  have key : ∀ c : ℝ, -1 / c = 1 / -c := by intro c; rw [div_neg, neg_div]
  split at h
  · rename_i h0
    have h0' : (0 : ℝ) < (l.design : ℝ) := by exact_mod_cast h0
    rw [decide_eq_true_eq] at h
    have h' : (10000000 : ℝ) < (p.1.lo : ℝ) := by exact_mod_cast h
    have h3 : 1 / 100000 < -(l.sysAt w).c := by linarith
    refine ⟨h3.trans_le (neg_le_abs _), ?_⟩
    unfold CatLens.focal
    rw [key]
    have : 0 < -(l.sysAt w).c := by linarith
    positivity
  · rename_i h0
    have h0' : (l.design : ℝ) < 0 := by
      have : l.design < 0 := lt_of_le_of_ne (not_lt.1 h0) hd
      exact_mod_cast this
    rw [decide_eq_true_eq] at h
    have h' : (p.1.hi : ℝ) < (-10000000 : ℝ) := by exact_mod_cast h
    have h3 : 1 / 100000 < (l.sysAt w).c := by linarith
    refine ⟨h3.trans_le (le_abs_self _), ?_⟩
    unfold CatLens.focal
    have : 0 < (l.sysAt w).c := by linarith
    exact mul_pos_of_neg_of_neg (div_neg_of_neg_of_pos (by norm_num) this) h0'

theorem CatData.sys_nf (index : String → ℝ) (d : CatData) : (d.sys index).nf = 1 := by
  cases d with
  | singlet => simp [sys, Sys.thick, Sys.andThen, Sys.interface, Sys.space]
  | doublet fa fb R1 R2 R3 tc1 tc2 te d g =>
    cases g <;> simp [sys, Sys.doublet, Sys.andThen, Sys.interface, Sys.space]

theorem static_ne {l : CatLens} (h : l.staticOk = true) : l.design ≠ 0 ∧ 0 < l.data.diameter := by
  simp only [CatLens.staticOk, Bool.and_eq_true, decide_eq_true_eq] at h
  exact ⟨h.1.1.1.1.1.2, h.1.1.1.1.1.1.1⟩

theorem focal_warned {s : Sys ℝ} {fa fb te h : ℝ} {R R' : Ext ℝ} (hm : LensWarn.focal ∈ lensWarnings s fa fb te h R R') :
    offBy (1 / 100) (-1 / s.c) fa := by
  unfold lensWarnings at hm
  simp only [List.mem_append] at hm
  rcases hm with (hm | hm) | hm
  · by_contra hcon
    rw [if_neg hcon] at hm
    cases hm
  · by_cases hb : offBy (1 / 100) (-s.a / s.c) fb
    · rw [if_pos hb] at hm; simp at hm
    · rw [if_neg hb] at hm; cases hm
  · cases R with
    | fin r =>
      cases R' with
      | fin r' =>
        by_cases hb : 5 / 100 < |(s.len + sag h r' - sag h r) / te - 1|
        · simp [hb] at hm
        · simp [hb] at hm
      | _ => cases hm
    | _ => cases R' <;> cases hm

/-- the rows of the two lenses whose focal length is written as an integer have no warning of the focal length -/
theorem intFocals_rows : (catalogueTable.filter fun r => intFocals.contains r.name).all (fun r => !r.focal) = true := by decide +kernel

theorem ref_near {i : ℕ} {l : CatLens} {row : CatRow} (hl : catalogue[i]? = some l) (hr : catalogueTable[i]? = some row) (hn : l.name ∈ intFocals) :
    ¬ offBy (1 / 100) (l.focal l.data.ref) (l.design : ℝ) := by
  have hk := checked (catalogue_at hl hr)
  obtain ⟨q, hq, h1, h2, h3⟩ := hk.ref
  obtain ⟨j, hc, hp⟩ := zip_fx hq
  have h1' : (q.1.1 : ℝ) ≤ (l.data.ref : ℝ) := (Rat.cast_le (K := ℝ)).2 h1
  have h2' : (l.data.ref : ℝ) ≤ (q.1.2 : ℝ) := (Rat.cast_le (K := ℝ)).2 h2
  have hhas := CatData.fxs_has hc hp h1' h2'
  have hd := (static_ne hk.static).1
  have hrow : row.focal = false := by
    have := List.all_eq_true.1 intFocals_rows row (List.mem_filter.2 ⟨List.mem_of_getElem? hr, by rw [← hk.name]; simpa using hn⟩)
    simpa using this
  simp only [CatLens.refOk, Bool.and_eq_true, beq_iff_eq] at h3
  have haway : q.2.1.away = true := by
    by_contra hcon
    have h6 := h3.1
    simp [CatLens.warnFx, hcon] at h6
  have hf := Fx.has_inv haway hhas.1
  have hneg : 1 / -(l.sysAt l.data.ref).c = l.focal l.data.ref := by unfold CatLens.focal; rw [div_neg, neg_div]
  change q.2.1.inv.has (1 / -(l.sysAt l.data.ref).c) at hf
  rw [hneg] at hf
  have h6 := h3.1
  simp only [CatLens.warnFx, haway, Bool.not_true, Bool.false_eq_true, if_false] at h6
  cases h7 : offFx (1 / 100) q.2.1.inv l.design with
  | none => rw [h7] at h6; cases h6
  | some b =>
    have h8 : b = row.focal := by
      rw [h7] at h6
      split at h6
      · rename_i x1 x2 x3
        cases x1
        simp only [Option.some.injEq, Prod.mk.injEq] at h6
        exact h6.1
      · cases h6
    have h9 := offFx_sound hd h7 hf
    push_cast at h9
    rw [h9, h8, hrow]
    simp

theorem int_lens {l : CatLens} (hl : l ∈ catalogue) (hn : l.name ∈ intFocals) :
    l.takesWavelength = true ∧ l.intOk false nearCells nearRows = true ∧ l.intOk true farCells farRows = true := by
  have := List.all_eq_true.1 intOk_all l (List.mem_filter.2 ⟨hl, by simpa using hn⟩)
  simpa [Bool.and_eq_true, and_assoc] using this

/-- The two lenses whose focal length is written as an integer have it within 1 % from 0.38 to 1.1 microns. -/
theorem int_near {l : CatLens} (hl : l ∈ catalogue) (hn : l.name ∈ intFocals) {w : ℝ} (h1 : 0.38 ≤ w) (h2 : w ≤ 1.1) :
    ¬ offBy (1 / 100) (l.focal w) (l.design : ℝ) := by
  obtain ⟨row, -, hrow⟩ := catalogue_row hl
  have h : chained (38 / 100) (11 / 10) nearCells = true := by decide +kernel
  obtain ⟨c, hc, h3, h4⟩ := chained_mem h (x := w) (by norm_num at h1 ⊢; linarith) (by norm_num at h2 ⊢; linarith)
  have := CatLens.intOk_sound fine_ok.1 (int_lens hl hn).2.1 (static_ne (checked hrow).static).1 hc h3 h4
  change offBy (1 / 100) (l.focal w) (l.design : ℝ) ↔ _ at this
  rw [this]
  simp

/-- They have not below 0.35 microns, nor above 1.3. -/
theorem int_far {l : CatLens} (hl : l ∈ catalogue) (hn : l.name ∈ intFocals) {w : ℝ} (h : (0.29 ≤ w ∧ w ≤ 0.35) ∨ (1.3 ≤ w ∧ w ≤ 6.4)) :
    offBy (1 / 100) (l.focal w) (l.design : ℝ) := by
  obtain ⟨row, -, hrow⟩ := catalogue_row hl
  have e1 : chained (29 / 100) (35 / 100) (farCells.take 12) = true := by decide +kernel
  have e2 : chained (13 / 10) (64 / 10) (farCells.drop 12) = true := by decide +kernel
  obtain ⟨c, hc, h3, h4⟩ : ∃ c ∈ farCells, (c.1 : ℝ) ≤ w ∧ w ≤ (c.2 : ℝ) := by
    rcases h with ⟨h1, h2⟩ | ⟨h1, h2⟩
    · obtain ⟨c, hc, h3⟩ := chained_mem e1 (x := w) (by norm_num at h1 ⊢; linarith) (by norm_num at h2 ⊢; linarith)
      exact ⟨c, List.mem_of_mem_take hc, h3⟩
    · obtain ⟨c, hc, h3⟩ := chained_mem e2 (x := w) (by norm_num at h1 ⊢; linarith) (by norm_num at h2 ⊢; linarith)
      exact ⟨c, List.mem_of_mem_drop hc, h3⟩
  exact (CatLens.intOk_sound fine_ok.2 (int_lens hl hn).2.2 (static_ne (checked hrow).static).1 hc h3 h4).2 rfl

/-! ## The lenses -/

/-- **C92.** Every lens of the catalogues can be made, without argument or, if its class takes one, at any wavelength from 0.29 to 6.4 microns,
except the two whose focal length is written as an integer where it is more than 1 % away from it (see `C92_violated_int`).
It is made of the surfaces and glasses of its data, with the indices of the materials at that wavelength (or at the wavelength of reference),
its matrix, length, vertices and diameter are those of that stack, its two focal lengths are equal, below 100 m, and of the sign of the focal
length announced. -/
theorem C92_created {l : CatLens} (hl : l ∈ catalogue) {w : Option ℝ} (ht : w.isSome = true → l.takesWavelength = true)
    (hw : ∀ x ∈ w, 0.29 ≤ x ∧ x ≤ 6.4) (hint : l.name ∈ intFocals → ∀ x ∈ w, ¬ offBy (1 / 100) (l.focal x) (l.design : ℝ)) :
    ∃ g ws, l.make (w.map fin) = .ok (g, ws) ∧
      IsStack g.group (l.sysAt (l.used w)) (l.data.diameter : ℝ) (l.data.stack fun name => glassAt name (l.used w)) (radius l.data.outer.2) l.label ∧
      g.group.mat.effectiveFocalLengths = .ok (fin (l.focal (l.used w)), fin (l.focal (l.used w))) ∧
      |l.focal (l.used w)| < 100000 ∧ 0 < l.focal (l.used w) * (l.design : ℝ) := by
  obtain ⟨row, -, hrow⟩ := catalogue_row hl
  have hk := checked hrow
  have hu : 0.29 ≤ l.used w ∧ l.used w ≤ 6.4 := by
    cases w with
    | some x => exact hw x rfl
    | none =>
      have h1 : ((29 / 100 : ℚ) : ℝ) ≤ (l.data.ref : ℝ) := (Rat.cast_le (K := ℝ)).2 hk.ref1
      have h2 : (l.data.ref : ℝ) ≤ ((64 / 10 : ℚ) : ℝ) := (Rat.cast_le (K := ℝ)).2 hk.ref2
      push_cast at h1 h2
      simp only [CatLens.used]
      exact ⟨by linarith, by linarith⟩
  obtain ⟨j, c, hc, h1, h2⟩ := cell_of hu.1 hu.2
  obtain ⟨p, hp⟩ := cell_fx hk.len hc
  have hhas := CatData.fxs_has hc hp h1 h2
  obtain ⟨h3, h4⟩ := power_of (List.all_eq_true.1 hk.power p (List.mem_of_getElem? hp)) hhas.1 (static_ne hk.static).1
  obtain ⟨g, e1, e2⟩ := CatLens.make_eq hk.static ht hc hp h1 h2 h3 (fun hn => by
    cases w with
    | some x => exact hint hn x rfl
    | none =>
      obtain ⟨i, hi⟩ := List.mem_iff_getElem?.1 hl
      have hlt : i < catalogue.length := (List.getElem?_eq_some_iff.1 hi).1
      exact ref_near hi (List.getElem?_eq_getElem (l := catalogueTable) (i := i) (catalogue_zip.2 ▸ hlt)) hn)
  have hne : (l.sysAt (l.used w)).c ≠ 0 := by intro h0; rw [h0] at h3; norm_num at h3
  refine ⟨g, _, e1, e2, ?_, ?_, h4⟩
  · rw [effectiveFocalLengths_eq e2.den (by rw [CatData.sys_nb]; exact one_ne_zero) h3, CatData.sys_nf, CatData.sys_nb]
    norm_num [CatLens.focal, CatLens.sysAt]
  · unfold CatLens.focal
    rw [abs_div, abs_neg, abs_one, div_lt_iff₀ (abs_pos.2 hne)]
    linarith

/-- **C92.** A lens whose class takes no wavelength raises `TypeError` when given one: those of `eo.py`. -/
theorem C92_refused {l : CatLens} (ht : l.takesWavelength = false) (w : Ext ℝ) : l.make (some w) = .error .typeError := by
  simp [CatLens.make, ht]

/-- **C92.** The warnings of each lens, made without argument, are exactly those of the table. -/
theorem C92_warnings {i : ℕ} {l : CatLens} {row : CatRow} (hl : catalogue[i]? = some l) (hr : catalogueTable[i]? = some row) :
    l.name = row.name ∧ ∃ g, l.make none = .ok (g, warnIf row.focal .focal ++ warnIf row.back .backFocal ++ warnIf row.edge .edge) ∧
      (row.focal = true ↔ (l.design : ℝ) ≠ 0 ∧ |l.focal l.data.ref - l.design| > 1 / 100 * |(l.design : ℝ)|) ∧
      (row.far = true → |l.focal l.data.ref - l.design| > 1 / 10 * |(l.design : ℝ)|) := by
  have hk := checked (catalogue_at hl hr)
  obtain ⟨q, hq, h1, h2, h3⟩ := hk.ref
  obtain ⟨j, hc, hp⟩ := zip_fx hq
  have h1' : (q.1.1 : ℝ) ≤ (l.data.ref : ℝ) := (Rat.cast_le (K := ℝ)).2 h1
  have h2' : (l.data.ref : ℝ) ≤ (q.1.2 : ℝ) := (Rat.cast_le (K := ℝ)).2 h2
  have hhas := CatData.fxs_has hc hp h1' h2'
  have hd := (static_ne hk.static).1
  have hd' : (l.design : ℝ) ≠ 0 := by exact_mod_cast hd
  obtain ⟨h4, h5⟩ := power_of (l := l) (w := l.data.ref) (List.all_eq_true.1 hk.power q.2 (List.mem_of_getElem? hp)) hhas.1 hd
  obtain ⟨g, e1, e2⟩ := CatLens.make_eq (w := none) hk.static (by simp) hc hp h1' h2' h4 (ref_near hl hr)
  simp only [CatLens.refOk, Bool.and_eq_true, beq_iff_eq, Bool.or_eq_true, Bool.not_eq_true'] at h3
  have hw := CatLens.warnFx_sound hk.static h3.1 hhas.1 hhas.2
  have hneg : 1 / -(l.sysAt l.data.ref).c = l.focal l.data.ref := by unfold CatLens.focal; rw [div_neg, neg_div]
  have haway : q.2.1.away = true := by
    by_contra hcon
    have h6 := h3.1
    simp [CatLens.warnFx, hcon] at h6
  have hf := Fx.has_inv haway hhas.1
  change q.2.1.inv.has (1 / -(l.sysAt l.data.ref).c) at hf
  rw [hneg] at hf
  refine ⟨hk.name, g, ?_, ?_, ?_⟩
  · rw [← hw]; exact e1
  · have h6 := h3.1
    simp only [CatLens.warnFx, haway, Bool.not_true, Bool.false_eq_true, if_false] at h6
    cases h7 : offFx (1 / 100) q.2.1.inv l.design with
    | none => rw [h7] at h6; cases h6
    | some b =>
      have h8 : b = row.focal := by
        rw [h7] at h6
        split at h6
        · rename_i x1 x2 x3
          cases x1
          simp only [Option.some.injEq, Prod.mk.injEq] at h6
          exact h6.1
        · cases h6
      have h9 := offFx_sound hd h7 hf
      rw [offBy_iff hd', h8] at h9
      push_cast at h9
      rw [← h9]
      exact ⟨fun h => ⟨hd', h⟩, fun h => h.2⟩
  · intro hfar
    rcases h3.2 with h6 | h6
    · rw [hfar] at h6; cases h6
    · have h9 := offFx_sound hd h6 hf
      rw [offBy_iff hd'] at h9
      push_cast at h9
      exact h9.2 rfl

/-- **C92.** A lens without warning of its focal length keeps it within 10 % over all the visible wavelengths, from 0.4 to 0.8 microns. -/
theorem C92_visible {i : ℕ} {l : CatLens} {row : CatRow} (hl : catalogue[i]? = some l) (hr : catalogueTable[i]? = some row)
    (hf : row.focal = false) {w : ℝ} (h1 : 0.4 ≤ w) (h2 : w ≤ 0.8) : |l.focal w - l.design| ≤ 1 / 10 * |(l.design : ℝ)| := by
  have hk := checked (catalogue_at hl hr)
  obtain ⟨j, c, hc, hv, h3, h4⟩ := cell_visible h1 h2
  obtain ⟨p, hp⟩ := cell_fx hk.len hc
  have hhas := CatData.fxs_has hc hp h3 h4
  have hd := (static_ne hk.static).1
  have hd' : (l.design : ℝ) ≠ 0 := by exact_mod_cast hd
  have hz : (c, p) ∈ List.zip indexCells l.data.fxs := by
    apply List.mem_of_getElem? (i := j)
    rw [List.zip, List.getElem?_zipWith, hc, hp]
  have hq := List.all_eq_true.1 (hk.visible hf) _ hz
  simp only [CatLens.visibleOk, hv, Bool.not_true, Bool.false_or, Bool.and_eq_true, beq_iff_eq] at hq
  have hi := Fx.has_inv hq.1 hhas.1
  have hneg : 1 / -(l.sysAt w).c = l.focal w := by unfold CatLens.focal; rw [div_neg, neg_div]
  change p.1.inv.has (1 / -(l.sysAt w).c) at hi
  rw [hneg] at hi
  have h9 := offFx_sound hd hq.2 hi
  rw [offBy_iff hd'] at h9
  push_cast at h9
  by_contra hcon
  exact absurd (h9.1 (not_le.1 hcon)) (by simp)

/-- **C92.** `focalShifts` of a lens of `thorlabs.py` for any array of wavelengths from 0.29 to 6.4 microns: for each of them, the focal length of
the lens made of the same glasses at that wavelength, minus the focal length announced. -/
theorem C92_focalShifts {l : CatLens} (hl : l ∈ catalogue) (ht : l.takesWavelength = true) {ws : List ℝ} (hw : ∀ w ∈ ws, 0.29 ≤ w ∧ w ≤ 6.4)
    (hint : l.name ∈ intFocals → ∀ w ∈ ws, ¬ offBy (1 / 100) (l.focal w) (l.design : ℝ)) :
    focalShifts l.cls (some (.array (ws.map fin))) = .ok (ws.map (fun w => fin (1000 * w)), ws.map fun w => fin (l.focal w - l.design)) := by
  have h := shiftsLoop_eq (c := l.cls) ht (f0 := (l.design : ℝ)) (s := l.sysAt) ws (fun w hm => by
    obtain ⟨g, m, h1, h2, h3, h4, -⟩ := C92_created hl (w := some w) (fun _ => ht) (by intro x hx; cases hx; exact hw w hm)
          (fun hn x hx => by cases hx; exact hint hn w hm)
    refine ⟨g.group, ?_, h2.den, ?_, ?_⟩
    · simp only [CatLens.cls]
      change (l.make ((some w).map fin)).map _ = _
      rw [h1]; rfl
    · simp only [CatLens.sysAt, CatData.sys_nb]; exact one_ne_zero
    · simp only [CatLens.used] at h4
      have hne : (l.sysAt w).c ≠ 0 := by
        intro h0
        obtain ⟨g', m', -, -, -, -, h5⟩ := C92_created hl (w := some w) (fun _ => ht) (by intro x hx; cases hx; exact hw w hm)
          (fun hn x hx => by cases hx; exact hint hn w hm)
        simp [CatLens.used, CatLens.focal, h0] at h5
      unfold CatLens.focal at h4
      rw [abs_div, abs_neg, abs_one, div_lt_iff₀ (abs_pos.2 hne)] at h4
      linarith)
  unfold focalShifts
  simp only [CatLens.cls, num, bind, Except.bind, pure, Except.pure, Waves.values] at h ⊢
  rw [h]
  simp only [thousand_array]
  rfl

/-- **C92.** Without argument it does so for the hundred wavelengths from 0.4 to 0.8 microns, and for a lens without warning of its focal length
all the shifts are within 10 % of it. -/
theorem C92_default {i : ℕ} {l : CatLens} {row : CatRow} (hl : catalogue[i]? = some l) (hr : catalogueTable[i]? = some row)
    (ht : l.takesWavelength = true) :
    ∃ shifts : List ℝ, focalShifts l.cls none = .ok ((List.range 100).map (fun i : ℕ => fin (400 + (i : ℝ) * (400 / 99))), shifts.map fin) ∧
      shifts.length = 100 ∧ (∀ i (hi : i < shifts.length), shifts[i] = l.focal (2 / 5 + (i : ℝ) * (2 / 495)) - l.design) ∧
      (row.focal = false → ∀ x ∈ shifts, |x| ≤ 1 / 10 * |(l.design : ℝ)|) := by
  have hrange : ∀ k : ℕ, k < 100 → (0.4 : ℝ) ≤ 2 / 5 + (k : ℝ) * (2 / 495) ∧ 2 / 5 + (k : ℝ) * (2 / 495) ≤ 0.8 := by
    intro k hk
    have h1 : (k : ℝ) ≤ 99 := by exact_mod_cast (by omega : k ≤ 99)
    have h2 : (0 : ℝ) ≤ (k : ℝ) := by positivity
    constructor
    · norm_num
    · norm_num; linarith
  refine ⟨(List.range 100).map fun k : ℕ => l.focal (2 / 5 + (k : ℝ) * (2 / 495)) - l.design, ?_, by simp, ?_, ?_⟩
  · have h := C92_focalShifts (List.mem_of_getElem? hl) ht (ws := (List.range 100).map fun k : ℕ => (2 / 5 + (k : ℝ) * (2 / 495) : ℝ)) (by
      intro w hw
      obtain ⟨k, hk, rfl⟩ := List.mem_map.1 hw
      obtain ⟨h1, h2⟩ := hrange k (List.mem_range.1 hk)
      exact ⟨by linarith, by linarith⟩) (by
      intro hn w hw
      obtain ⟨k, hk, rfl⟩ := List.mem_map.1 hw
      obtain ⟨h1, h2⟩ := hrange k (List.mem_range.1 hk)
      exact int_near (List.mem_of_getElem? hl) hn (by linarith) (by linarith))
    rw [C79_default]
    rw [List.map_map] at h
    refine h.trans ?_
    simp only [List.map_map, Except.ok.injEq, Prod.mk.injEq]
    refine ⟨List.map_congr_left fun k _ => ?_, rfl⟩
    simp only [Function.comp]
    congr 1
    ring
  · intro k hk; simp
  · intro hf x hx
    obtain ⟨k, hk, rfl⟩ := List.mem_map.1 hx
    have := hrange k (List.mem_range.1 hk)
    exact C92_visible hl hr hf this.1 this.2

/-! ## What is wrong in the catalogues -/

/-- **C92 does not hold** as expected of a catalogue: 96 classes have a focal length off by more than 1 % from that of their data sheet, of which 52 by
more than 10 %. -/
theorem C92_violated : (catalogueTable.filter fun r => r.focal).length = 96 ∧ (catalogueTable.filter fun r => r.far).length = 52 ∧
    ∀ row ∈ catalogueTable, row.far = true → ∃ l ∈ catalogue, l.name = row.name ∧ |l.focal l.data.ref - l.design| > 1 / 10 * |(l.design : ℝ)| := by
  refine ⟨by decide +kernel, by decide +kernel, fun row hr hfar => ?_⟩
  obtain ⟨i, hi⟩ := List.mem_iff_getElem?.1 hr
  have hlt : i < catalogueTable.length := (List.getElem?_eq_some_iff.1 hi).1
  have hlt' : i < catalogue.length := by rw [catalogue_zip.2]; exact hlt
  have hl := List.getElem?_eq_getElem hlt'
  obtain ⟨h1, g, -, -, h2⟩ := C92_warnings hl hi
  exact ⟨_, List.getElem_mem _, h1, h2 hfar⟩

/-- **C92 does not hold**: `AC508_750_C()` has less than half the focal length that its name and data sheet announce. -/
theorem C92_violated_half : ∃ l g ws, lensNamed "AC508_750_C" = some l ∧ l.make none = .ok (g, ws) ∧
    g.group.mat.effectiveFocalLengths = .ok (fin (l.focal l.data.ref), fin (l.focal l.data.ref)) ∧ 0 < l.focal l.data.ref ∧
    l.focal l.data.ref < (l.design : ℝ) / 2 := by
  cases hl : lensNamed "AC508_750_C" with
  | none => exact absurd hl (by decide +kernel)
  | some l =>
    have hmem : l ∈ catalogue := List.mem_reverse.1 (List.mem_of_find?_eq_some hl)
    have hdec : (match lensNamed "AC508_750_C" with
      | some l => decide (0 < l.design) && decide (l.data.ref = 5876 / 10000) &&
          (match l.data.fxs[0]? with | some p => decide (0 < p.1.lo) && decide ((2 : ℚ) * Fx.unit < (p.1.lo : ℚ) * l.design) | none => false)
      | none => false) = true := by decide +kernel
    rw [hl] at hdec
    simp only [Bool.and_eq_true, decide_eq_true_eq] at hdec
    obtain ⟨⟨hd, href⟩, hdec⟩ := hdec
    obtain ⟨g, ws, h1, -, h3, -, -⟩ := C92_created hmem (w := none) (by simp) (by simp) (by simp)
    cases hp : l.data.fxs[0]? with
    | none => rw [hp] at hdec; cases hdec
    | some p =>
      rw [hp] at hdec
      simp only [Bool.and_eq_true, decide_eq_true_eq] at hdec
      have hc : indexCells[0]? = some ((0.5876 : ℚ), (0.5876 : ℚ)) := rfl
      have hr : (l.data.ref : ℝ) = ((0.5876 : ℚ) : ℝ) := by rw [href]; norm_num
      have hhas := (CatData.fxs_has (x := (l.data.ref : ℝ)) hc hp (by rw [hr]) (by rw [hr])).1
      change p.1.has (-(l.sysAt l.data.ref).c) at hhas
      have h4 : (0 : ℝ) < (p.1.lo : ℝ) := by exact_mod_cast hdec.1
      have h5 : (((2 : ℚ) * Fx.unit : ℚ) : ℝ) < (((p.1.lo : ℚ) * l.design : ℚ) : ℝ) := (Rat.cast_lt (K := ℝ)).2 hdec.2
      push_cast at h5
      have hu := Fx.unit_pos
      have hd' : (0 : ℝ) < (l.design : ℝ) := by exact_mod_cast hd
      have h6 : 0 < -(l.sysAt l.data.ref).c := by
        have := h4.trans_le hhas.1
        exact (pos_iff_pos_of_mul_pos this).2 hu
      have h7 : 2 < -(l.sysAt l.data.ref).c * l.design := by
        have := mul_le_mul_of_nonneg_right hhas.1 hd'.le
        have h8 : 2 * (Fx.unit : ℝ) < -(l.sysAt l.data.ref).c * l.design * Fx.unit := by nlinarith
        exact lt_of_mul_lt_mul_right h8 hu.le
      have hneg : l.focal l.data.ref = 1 / -(l.sysAt l.data.ref).c := by unfold CatLens.focal; rw [div_neg, neg_div]
      refine ⟨l, g, ws, rfl, h1, h3, ?_, ?_⟩
      · rw [hneg]; positivity
      · rw [hneg, div_lt_div_iff₀ h6 (by norm_num)]; linarith

/-- **C92 does not hold** for `AC254_150_A` and `AC254_250_A`: their focal length is written as an integer, and the text of the warning that it is
not the one expected formats it as a float. From 0.38 to 1.1 microns there is no warning and they are made; below 0.35 and above 1.3 microns they
raise `ValueError` instead of warning. -/
theorem C92_violated_int {l : CatLens} (hl : l ∈ catalogue) (hn : l.name ∈ intFocals) {w : ℝ} :
    ((0.38 ≤ w ∧ w ≤ 1.1) → ∃ g ws, l.make (some (fin w)) = .ok (g, ws) ∧ LensWarn.focal ∉ ws) ∧
    ((0.29 ≤ w ∧ w ≤ 0.35) ∨ (1.3 ≤ w ∧ w ≤ 6.4) → l.make (some (fin w)) = .error .valueError) := by
  obtain ⟨row, -, hrow⟩ := catalogue_row hl
  have hk := checked hrow
  refine ⟨fun h => ?_, fun h => ?_⟩
  · obtain ⟨j, c, hc, h1, h2⟩ := cell_of (x := w) (by linarith [h.1]) (by linarith [h.2])
    obtain ⟨p, hp⟩ := cell_fx hk.len hc
    have hhas := CatData.fxs_has hc hp h1 h2
    obtain ⟨h3, h4⟩ := power_of (List.all_eq_true.1 hk.power p (List.mem_of_getElem? hp)) hhas.1 (static_ne hk.static).1
    obtain ⟨g, e1, e2⟩ := CatLens.make_eq (w := some w) hk.static (fun _ => (int_lens hl hn).1) hc hp h1 h2 h3 (fun _ => int_near hl hn h.1 h.2)
    refine ⟨g, _, e1, ?_⟩
    have hno := int_near hl hn h.1 h.2
    unfold CatLens.focal CatLens.sysAt at hno
    exact fun hm => hno (focal_warned hm)
  · have hw : 0.29 ≤ w ∧ w ≤ 6.4 := by
      rcases h with h | h
      · exact ⟨h.1, by linarith [h.2]⟩
      · exact ⟨by linarith [h.1], h.2⟩
    obtain ⟨j, c, hc, h1, h2⟩ := cell_of hw.1 hw.2
    obtain ⟨p, hp⟩ := cell_fx hk.len hc
    have hhas := CatData.fxs_has hc hp h1 h2
    obtain ⟨h3, h4⟩ := power_of (List.all_eq_true.1 hk.power p (List.mem_of_getElem? hp)) hhas.1 (static_ne hk.static).1
    exact CatLens.make_off hk.static (int_lens hl hn).1 hc hp h1 h2 h3 (int_lens hl hn).2.2 hn (int_far hl hn h)

/-- There are two such lenses, of 150 and 250 mm. -/
example : (catalogue.filter fun l => intFocals.contains l.name).map (fun l => (l.name, l.design)) = [("AC254_150_A", 150), ("AC254_250_A", 250)] := by
  decide +kernel

/-- **C92 does not hold** for 14 names: the file has two classes of that name, and only the second can be used; for 7 of them the two classes have
not the same data. For `AC254_030_A` and `AC508_075_B` the class that can be used has a warning that the other has not. -/
theorem C92_violated_twice :
    (∀ name ∈ twiceNamed, ∃ l1 l2, catalogue.filter (fun l => l.name == name) = [l1, l2] ∧ lensNamed name = some l2 ∧
      (l1.data ≠ l2.data ↔ name ∈ twiceDifferent)) ∧
    (catalogueTable.filter fun r => r.name == "AC254_030_A").map (fun r => (r.focal, r.back)) = [(false, false), (false, true)] ∧
    (catalogueTable.filter fun r => r.name == "AC508_075_B").map (fun r => (r.focal, r.back)) = [(false, false), (true, false)] := by
  refine ⟨?_, by decide +kernel, by decide +kernel⟩
  have h : twiceNamed.all (fun name => match catalogue.filter (fun l => l.name == name) with
    | [l1, l2] => lensNamed name == some l2 && (decide (l1.data ≠ l2.data) == twiceDifferent.contains name)
    | _ => false) = true := by decide +kernel
  intro name hn
  have h1 := List.all_eq_true.1 h name hn
  split at h1
  · rename_i l1 l2 heq
    simp only [Bool.and_eq_true, beq_iff_eq] at h1
    refine ⟨l1, l2, heq, h1.1, ?_⟩
    have h2 := h1.2
    rw [← List.elem_iff, ← List.contains, ← h2, decide_eq_true_iff]
  · cases h1

/-! ## Objectives -/

theorem objectives_ok : objectives.all (fun o => decide (o.f ≠ 0) && decide (|o.f| < 100000) && decide (0 < o.backAperture) &&
    decide (0 < o.NA * o.workingDistance) && (match o.magnification with | some m => decide (m ≠ 0) | none => true)) = true := by decide +kernel

/-- **C92.** Every objective of the catalogues can be made. It goes from its back focus to its front focus with the focal length announced, its back
aperture is that announced, and the light focuses at the working distance. -/
theorem C92_objectives {o : CatObjective} (ho : o ∈ objectives) :
    ∃ g, o.make = .ok g ∧ Den g.mat ⟨0, (o.f : ℝ), -1 / (o.f : ℝ), 0, (o.focusToFocusLength : ℝ), 1, 1⟩ ∧
      g.mat.apertureDiameter = fin (o.backAperture : ℝ) ∧ g.mat.effectiveFocalLengths = .ok (fin (o.f : ℝ), fin (o.f : ℝ)) ∧
      g.mat.frontFocalLength = .ok (some (fin 0)) ∧ g.mat.backFocalLength = .ok (some (fin (o.workingDistance : ℝ))) := by
  have h := List.all_eq_true.1 objectives_ok o ho
  simp only [Bool.and_eq_true, decide_eq_true_eq] at h
  obtain ⟨⟨⟨⟨h1, h2⟩, h3⟩, h4⟩, -⟩ := h
  have h1' : (o.f : ℝ) ≠ 0 := by exact_mod_cast h1
  have h2' : |(o.f : ℝ)| < 100000 := by exact_mod_cast h2
  have h3' : (0 : ℝ) < (o.backAperture : ℝ) := by exact_mod_cast h3
  have h4' : (0 : ℝ) < (o.NA : ℝ) * (o.workingDistance : ℝ) := by exact_mod_cast h4
  obtain ⟨g, e1, e2, e3, -, -, e4⟩ := C58_objective h1' (o.NA : ℝ) (o.focusToFocusLength : ℝ) (o.workingDistance : ℝ)
    (ba := some (o.backAperture : ℝ)) (by intro d hd; cases hd; exact h3') h4' o.label
  obtain ⟨e5, e6, e7⟩ := e4 h2'
  exact ⟨g, e1, e2, e3, e5, e6, e7⟩

/-- **C92.** The largest optical invariant of the five objectives of `olympus.py` is the radius of their field times their NA; that of `nikon.py`
raises `AttributeError`. -/
theorem C92_invariants {o : CatObjective} (ho : o ∈ objectives) :
    (∀ m ∈ o.magnification, ∀ fn ∈ o.fieldNumber, maximumOpticalInvariant (o.magnification.map num) (o.fieldNumber.map num) (num o.NA) =
      .ok (fin ((fn : ℝ) / (m : ℝ) / 2 * (o.NA : ℝ)))) ∧
    (o.magnification = none → maximumOpticalInvariant (o.magnification.map num) (o.fieldNumber.map num) (num o.NA) = .error .attributeError) ∧
    (o.magnification = none ↔ o.name = "LWD16X") ∧ (o.magnification.isSome = o.fieldNumber.isSome) := by
  have h := List.all_eq_true.1 objectives_ok o ho
  simp only [Bool.and_eq_true, decide_eq_true_eq] at h
  have h5 := h.2
  refine ⟨?_, ?_, ?_, ?_⟩
  · intro m hm fn hfn
    rw [Option.mem_def] at hm hfn
    rw [hm] at h5 ⊢
    rw [hfn]
    simp only [decide_eq_true_eq] at h5
    exact (C58_invariant (M := (m : ℝ)) (by exact_mod_cast h5) (fn : ℝ) (o.NA : ℝ)).1
  · intro hm; rw [hm]; rfl
  · have := List.all_eq_true.1 (show objectives.all (fun o => decide (o.magnification = none ↔ o.name = "LWD16X")) = true by decide +kernel) o ho
    simpa using this
  · have := List.all_eq_true.1 (show objectives.all (fun o => decide (o.magnification.isSome = o.fieldNumber.isSome)) = true by decide +kernel) o ho
    simpa using this

/-- A lens without warning of its focal length, which takes a wavelength, and its row. -/
example : (catalogue[3]?).map (fun l => (l.name, l.takesWavelength)) = some ("ACN254_040_A", true) ∧
    (catalogueTable[3]?).map (fun r => (r.name, r.focal)) = some ("ACN254_040_A", false) := by decide +kernel

end RT
