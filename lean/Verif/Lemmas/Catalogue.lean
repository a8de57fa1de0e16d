import Verif.Lemmas.CatalogueCheckA
import Verif.Lemmas.CatalogueCheckB
import Verif.Lemmas.CatalogueCheckC
import Verif.Model.Catalogue
import Verif.Props.Chromatic

/-! # The lenses of the catalogues, computed with intervals -/

set_option linter.unusedSectionVars false

namespace RT
open PyNum Ext

/-! ## The system of a lens -/

theorem curv_radius (r : Option ℚ) : curv (radius r) = ((curvQ r : ℚ) : ℝ) := by
  cases r with
  | none => simp [radius, curvQ]
  | some r => simp [radius, curvQ]

/-- Specification: the index of the material called `name` at `w` microns. -/
noncomputable def glassAt (name : String) (w : ℝ) : ℝ :=
  match classNamed name with
  | .ok g => match g.n w with
    | .ok (.real n) => n
    | _ => 0
  | .error _ => 0

/-- Specification: the lens that the data describe, with glasses of the indices given: two surfaces and a glass, or three surfaces and two
glasses. -/
noncomputable def CatData.sys (index : String → ℝ) : CatData → Sys ℝ
  | .singlet _ _ R1 R2 tc _ _ mat _ => Sys.thick (index mat) (curv (radius R1)) (curv (radius R2)) (tc : ℝ)
  | .doublet _ _ R1 R2 R3 tc1 tc2 _ _ (.given n1 n2) =>
    Sys.doublet (n1 : ℝ) (n2 : ℝ) (curv (radius R1)) (curv (radius R2)) (curv (radius R3)) (tc1 : ℝ) (tc2 : ℝ)
  | .doublet _ _ R1 R2 R3 tc1 tc2 _ _ (.glasses mat1 mat2 _) =>
    Sys.doublet (index mat1) (index mat2) (curv (radius R1)) (curv (radius R2)) (curv (radius R3)) (tc1 : ℝ) (tc2 : ℝ)

/-- Specification: the glasses of the lens, each with the surface in front of it. -/
noncomputable def CatData.stack (index : String → ℝ) : CatData → List (Glass1 ℝ)
  | .singlet _ _ R1 _ tc _ _ mat _ => [⟨radius R1, (tc : ℝ), index mat⟩]
  | .doublet _ _ R1 R2 _ tc1 tc2 _ _ (.given n1 n2) => [⟨radius R1, (tc1 : ℝ), (n1 : ℝ)⟩, ⟨radius R2, (tc2 : ℝ), (n2 : ℝ)⟩]
  | .doublet _ _ R1 R2 _ tc1 tc2 _ _ (.glasses mat1 mat2 _) => [⟨radius R1, (tc1 : ℝ), index mat1⟩, ⟨radius R2, (tc2 : ℝ), index mat2⟩]

/-! ## Intervals -/

theorem singletFx_has {c1 c2 t : ℚ} {k : Fx} (ha : k.away = true) {n : ℝ} (hn : k.has n) :
    (singletFx (.ofQ c1) (.ofQ c2) (.ofQ t) k).1.has (-(Sys.thick n (c1 : ℝ) (c2 : ℝ) (t : ℝ)).c) ∧
    (singletFx (.ofQ c1) (.ofQ c2) (.ofQ t) k).2.has (Sys.thick n (c1 : ℝ) (c2 : ℝ) (t : ℝ)).a := by
  have h0 := Fx.away_ne ha hn
  have one := Fx.has_ofQ 1
  simp only [Rat.cast_one] at one
  have p1 := Fx.has_mul (Fx.has_sub hn one) (Fx.has_ofQ c1)
  have y := Fx.has_sub one (Fx.has_mul (Fx.has_mul (Fx.has_ofQ t) (Fx.has_inv ha hn)) p1)
  have p2 := Fx.has_sub p1 (Fx.has_mul y (Fx.has_mul (Fx.has_sub hn one) (Fx.has_ofQ c2)))
  refine ⟨?_, ?_⟩
  · refine Fx.has_of_eq p2 ?_
    simp only [Sys.thick, Sys.andThen, Sys.interface, Sys.space]
    field_simp
    ring
  · refine Fx.has_of_eq y ?_
    simp only [Sys.thick, Sys.andThen, Sys.interface, Sys.space]
    field_simp
    ring

theorem doubletFx_has {c1 c2 c3 t1 t2 : ℚ} {k1 k2 : Fx} (ha : k1.away = true) (hb : k2.away = true) {n1 n2 : ℝ} (hn1 : k1.has n1)
    (hn2 : k2.has n2) :
    (doubletFx (.ofQ c1) (.ofQ c2) (.ofQ c3) (.ofQ t1) (.ofQ t2) k1 k2).1.has
      (-(Sys.doublet n1 n2 (c1 : ℝ) (c2 : ℝ) (c3 : ℝ) (t1 : ℝ) (t2 : ℝ)).c) ∧
    (doubletFx (.ofQ c1) (.ofQ c2) (.ofQ c3) (.ofQ t1) (.ofQ t2) k1 k2).2.has
      (Sys.doublet n1 n2 (c1 : ℝ) (c2 : ℝ) (c3 : ℝ) (t1 : ℝ) (t2 : ℝ)).a := by
  have h1 := Fx.away_ne ha hn1
  have h2 := Fx.away_ne hb hn2
  have one := Fx.has_ofQ 1
  simp only [Rat.cast_one] at one
  have p1 := Fx.has_mul (Fx.has_sub hn1 one) (Fx.has_ofQ c1)
  have y := Fx.has_sub one (Fx.has_mul (Fx.has_mul (Fx.has_ofQ t1) (Fx.has_inv ha hn1)) p1)
  have w := Fx.has_add p1 (Fx.has_mul y (Fx.has_mul (Fx.has_sub hn2 hn1) (Fx.has_ofQ c2)))
  have y' := Fx.has_sub y (Fx.has_mul (Fx.has_mul (Fx.has_ofQ t2) (Fx.has_inv hb hn2)) w)
  have p2 := Fx.has_sub w (Fx.has_mul y' (Fx.has_mul (Fx.has_sub hn2 one) (Fx.has_ofQ c3)))
  refine ⟨?_, ?_⟩
  · refine Fx.has_of_eq p2 ?_
    simp only [Sys.doublet, Sys.andThen, Sys.interface, Sys.space]
    field_simp
    ring
  · refine Fx.has_of_eq y' ?_
    simp only [Sys.doublet, Sys.andThen, Sys.interface, Sys.space]
    field_simp
    ring

theorem Fx.bounds_has {f : Fx} {i : Iv} (h : f.bounds i = true) {x : ℝ} (hx : i.has x) : f.away = true ∧ f.has (Real.sqrt x) := by
  simp only [bounds, Bool.and_eq_true, decide_eq_true_eq] at h
  obtain ⟨⟨⟨h1, h2⟩, h3⟩, h4⟩ := h
  have hu := unit_pos
  have h2' : (((f.lo * f.lo : Int) : ℚ) : ℝ) ≤ ((i.lo * (Fx.unit * Fx.unit : Nat) : ℚ) : ℝ) := (Rat.cast_le (K := ℝ)).2 h2
  have h4' : ((i.hi * (Fx.unit * Fx.unit : Nat) : ℚ) : ℝ) ≤ (((f.hi * f.hi : Int) : ℚ) : ℝ) := (Rat.cast_le (K := ℝ)).2 h4
  push_cast at h2' h4'
  have h1' : (0 : ℝ) < (f.lo : ℝ) := by exact_mod_cast h1
  have h3' : (0 : ℝ) ≤ (f.hi : ℝ) := by exact_mod_cast h3
  refine ⟨by simp [away, h1], ?_, ?_⟩
  · rw [← div_le_iff₀ hu]
    refine Real.le_sqrt_of_sq_le ?_
    rw [div_pow, div_le_iff₀ (by positivity)]
    have := mul_le_mul_of_nonneg_right hx.1 (mul_pos hu hu).le
    nlinarith
  · rw [← le_div_iff₀ hu]
    refine Real.sqrt_le_iff.2 ⟨by positivity, ?_⟩
    rw [div_pow, le_div_iff₀ (by positivity)]
    have := mul_le_mul_of_nonneg_right hx.2 (mul_pos hu hu).le
    nlinarith

theorem rowOk_has {cells : List (ℚ × ℚ)} {r : String × List Fx} (hk : rowOk cells r = true) {j : ℕ} {c : ℚ × ℚ} {f : Fx} (hc : cells[j]? = some c)
    (hf : r.2[j]? = some f) {x : ℝ} (h1 : (c.1 : ℝ) ≤ x) (h2 : x ≤ (c.2 : ℝ)) :
    f.away = true ∧ f.has (glassAt r.1 x) ∧ indexOf r.1 (fin x) = .ok (fin (glassAt r.1 x)) := by
  unfold rowOk at hk
  cases hcl : classNamed r.1 with
  | error e => rw [hcl] at hk; cases hk
  | ok g =>
    rw [hcl] at hk
    simp only at hk
    have hz : (c, f) ∈ List.zip cells r.2 := by
      apply List.mem_of_getElem? (i := j)
      rw [List.zip, List.getElem?_zipWith, hc, hf]
    have hk' := List.all_eq_true.1 hk _ hz
    simp only [Bool.and_eq_true, decide_eq_true_eq] at hk'
    obtain ⟨⟨⟨k1, k2⟩, k3⟩, k4⟩ := hk'
    obtain ⟨s, k5, k6⟩ := Formula.has_square k3 h1 h2
    obtain ⟨a1, a2⟩ := Fx.bounds_has k4 k6
    have hlo : 0 ≤ s := by
      simp only [Formula.ivOk, Bool.and_eq_true, decide_eq_true_eq] at k3
      have : (0 : ℝ) ≤ ((g.formula.squareIv c.1 c.2).lo : ℝ) := by exact_mod_cast k3.2
      exact this.trans k6.1
    obtain ⟨n, k7, -⟩ := Glass.has_n k1 k2 k3 h1 h2
    have hsq : g.square x = .ok s := by
      unfold Glass.n at k7
      unfold Glass.square at k7 ⊢
      split at k7
      · rename_i heq; split at heq
        · cases k7
        · rw [k5] at heq; cases heq
      · rename_i heq; split at heq
        · cases heq
        · rename_i hr; rw [if_neg hr]; exact k5
    have hgn : g.n x = .ok (.real (Real.sqrt s)) := by
      unfold Glass.n
      rw [hsq]
      simp [hlo]
    have hg : glassAt r.1 x = Real.sqrt s := by simp [glassAt, hcl, hgn]
    refine ⟨a1, by rw [hg]; exact a2, ?_⟩
    rw [hg]
    simp [indexOf, hcl, Glass.index, hgn]

theorem indexRow_has {name : String} {j : ℕ} {c : ℚ × ℚ} {f : Fx} (hc : indexCells[j]? = some c) (hf : (indexRow name)[j]? = some f) {x : ℝ}
    (h1 : (c.1 : ℝ) ≤ x) (h2 : x ≤ (c.2 : ℝ)) : f.away = true ∧ f.has (glassAt name x) ∧ indexOf name (fin x) = .ok (fin (glassAt name x)) := by
  unfold indexRow at hf
  cases hr : indexRows.find? (fun r => r.1 == name) with
  | none => rw [hr] at hf; simp at hf
  | some r =>
    rw [hr] at hf
    simp only at hf
    have hm := List.mem_of_find?_eq_some hr
    have hn : r.1 = name := by have := List.find?_some hr; simpa using this
    have := rowOk_has (List.all_eq_true.1 indexRows_ok r hm) hc hf h1 h2
    rwa [hn] at this

theorem CatData.fxs_has {d : CatData} {j : ℕ} {c : ℚ × ℚ} {p : Fx × Fx} (hc : indexCells[j]? = some c) (h : d.fxs[j]? = some p) {x : ℝ}
    (h1 : (c.1 : ℝ) ≤ x) (h2 : x ≤ (c.2 : ℝ)) :
    p.1.has (-(d.sys fun name => glassAt name x).c) ∧ p.2.has (d.sys fun name => glassAt name x).a := by
  cases d with
  | singlet f fb R1 R2 tc te d mat w =>
    simp only [fxs, List.getElem?_map] at h
    cases hm : (indexRow mat)[j]? with
    | none => simp [hm] at h
    | some k =>
      simp only [hm, Option.map_some, Option.some.injEq] at h
      subst h
      obtain ⟨h3, h4, -⟩ := indexRow_has hc hm h1 h2
      simp only [sys, curv_radius]
      exact singletFx_has h3 h4
  | doublet fa fb R1 R2 R3 tc1 tc2 te d g =>
    cases g with
    | given n1 n2 =>
      simp only [fxs] at h
      split at h
      · rename_i h3
        rw [Bool.and_eq_true] at h3
        have := List.eq_of_mem_replicate (List.mem_of_getElem? h)
        subst this
        simp only [sys, curv_radius]
        exact doubletFx_has h3.1 h3.2 (Fx.has_ofQ n1) (Fx.has_ofQ n2)
      · simp at h
    | glasses m1 m2 w =>
      simp only [fxs, List.getElem?_zipWith] at h
      cases hm1 : (indexRow m1)[j]? with
      | none => simp [hm1] at h
      | some k1 =>
        cases hm2 : (indexRow m2)[j]? with
        | none => simp [hm1, hm2] at h
        | some k2 =>
          simp only [hm1, hm2, Option.some.injEq] at h
          subst h
          obtain ⟨h3, h4, -⟩ := indexRow_has hc hm1 h1 h2
          obtain ⟨h5, h6, -⟩ := indexRow_has hc hm2 h1 h2
          simp only [sys, curv_radius]
          exact doubletFx_has h3 h5 h4 h6

/-! ## What does not depend on the wavelength -/

theorem radiusWide_edge {h : ℚ} {r : Option ℚ} (hr : radiusWide h r = true) : EdgeOk (h : ℝ) (radius r) := by
  cases r with
  | none => exact Or.inl rfl
  | some r =>
    simp only [radiusWide, Bool.and_eq_true, decide_eq_true_eq] at hr
    exact Or.inr (Or.inr ⟨r, rfl, by exact_mod_cast hr.1, by exact_mod_cast hr.2⟩)

theorem radius_ok {r : Option ℚ} (h : (r != some 0) = true) : RadiusOk (radius r) := by
  cases r with
  | none => exact radiusOk_pinf
  | some r =>
    refine radiusOk_fin.2 ?_
    intro h0
    have : r = 0 := by exact_mod_cast h0
    subst this
    simp at h

/-- The wavelength used: that of the argument, or that of reference. -/
noncomputable def CatLens.used (l : CatLens) : Option ℝ → ℝ
  | some w => w
  | none => (l.data.ref : ℝ)

/-- A lens of the catalogues made at a wavelength where its glasses have an index and its power is not negligible. -/
theorem CatLens.make_eq {l : CatLens} (hs : l.staticOk = true) {w : Option ℝ} (ht : w.isSome = true → l.takesWavelength = true) {j : ℕ} {c : ℚ × ℚ}
    {p : Fx × Fx} (hcell : indexCells[j]? = some c) (hp : l.data.fxs[j]? = some p)
    (h1 : (c.1 : ℝ) ≤ l.used w) (h2 : l.used w ≤ (c.2 : ℝ))
    (hc : 1 / 100000 < |(l.data.sys fun name => glassAt name (l.used w)).c|)
    (hint : l.name ∈ intFocals → ¬ offBy (1 / 100) (-1 / (l.data.sys fun name => glassAt name (l.used w)).c) (l.design : ℝ)) :
    ∃ g, l.make (w.map fin) = .ok (g, lensWarnings (l.data.sys fun name => glassAt name (l.used w)) (l.design : ℝ) (l.data.back : ℝ)
        (l.data.edge : ℝ) ((l.data.diameter : ℝ) / 2) (radius l.data.outer.1) (radius l.data.outer.2)) ∧
      IsStack g.group (l.data.sys fun name => glassAt name (l.used w)) (l.data.diameter : ℝ)
        (l.data.stack fun name => glassAt name (l.used w)) (radius l.data.outer.2) l.label := by
  have htk : (Option.isSome (w.map (fin : ℝ → Ext ℝ)) && !l.takesWavelength) = false := by
    cases hw : w with
    | none => rfl
    | some x => simp [ht (by rw [hw]; rfl)]
  obtain ⟨name, label, takes, data⟩ := l
  simp only [CatLens.staticOk, Bool.and_eq_true, decide_eq_true_eq] at hs
  obtain ⟨⟨⟨⟨⟨⟨⟨hd, htc⟩, hf⟩, hfb⟩, hte⟩, he1⟩, he2⟩, hin⟩ := hs
  have hd' : (0 : ℝ) < (data.diameter : ℝ) := by exact_mod_cast hd
  have htc' : (data.thickness : ℝ) ≠ 0 := by exact_mod_cast htc
  have hfb' : (data.back : ℝ) ≠ 0 := by exact_mod_cast hfb
  have hte' : (data.edge : ℝ) ≠ 0 := by exact_mod_cast hte
  have he1' := radiusWide_edge he1
  have he2' := radiusWide_edge he2
  push_cast at he1' he2'
  unfold CatLens.make
  simp only at htk
  simp only [htk, Bool.false_eq_true, if_false]
  cases data with
  | singlet f fb R1 R2 tc te d mat wref =>
    have hf' : (f : ℝ) ≠ 0 := by exact_mod_cast hf
    simp only [CatData.fxs, List.getElem?_map] at hp
    cases hm : (indexRow mat)[j]? with
    | none => simp [hm] at hp
    | some k =>
      obtain ⟨hk1, hk2, hk3⟩ := indexRow_has hcell hm h1 h2
      have hk := Fx.away_ne hk1 hk2
      have hi : glassIndex (none : Option (Ext ℝ)) (some (indexOf mat)) (w.map fin) (some (num wref)) =
          .ok (some (fin (glassAt mat (CatLens.used ⟨name, label, takes, .singlet f fb R1 R2 tc te d mat wref⟩ w)))) := by
        cases w with
        | none => simp only [CatLens.used, CatData.ref] at hk3 ⊢; simp [glassIndex, num, hk3, Except.map]
        | some x => simp only [CatLens.used] at hk3 ⊢; simp [glassIndex, hk3, Except.map]
      obtain ⟨g, e1, e2, -⟩ := C68_singlet (f := (f : ℝ)) (fb := (fb : ℝ)) (tc := (tc : ℝ)) (te := (te : ℝ)) (d := (d : ℝ)) hi hk hd' htc' hf' hfb' hte'
        he1' he2' hc label (fbInt := false) (by simp)
      exact ⟨g, e1, e2⟩
  | doublet fa fb R1 R2 R3 tc1 tc2 te d gl =>
    have hf' : (fa : ℝ) ≠ 0 := by exact_mod_cast hf
    have htc2 : (tc1 : ℝ) + (tc2 : ℝ) ≠ 0 := by
      have : ((CatData.doublet fa fb R1 R2 R3 tc1 tc2 te d gl).thickness : ℝ) = (tc1 : ℝ) + (tc2 : ℝ) := by simp [CatData.thickness]
      rw [← this]; exact htc'
    cases gl with
    | given n1 n2 =>
      simp only [CatData.fxs] at hp
      split at hp
      · rename_i h3
        rw [Bool.and_eq_true] at h3
        have hk1 := Fx.away_ne h3.1 (Fx.has_ofQ n1)
        have hk2 := Fx.away_ne h3.2 (Fx.has_ofQ n2)
        obtain ⟨g, e1, e2, -⟩ := C68_doublet (fa := (fa : ℝ)) (fb := (fb : ℝ)) (tc1 := (tc1 : ℝ)) (tc2 := (tc2 : ℝ)) (te := (te : ℝ)) (d := (d : ℝ))
          (n1 := some (num n1)) (n2 := some (num n2)) (mat1 := none) (mat2 := none) (wavelength := w.map fin) (wavelengthRef := none)
          (k1 := (n1 : ℝ)) (k2 := (n2 : ℝ)) rfl hk1 hk2 hd' htc2 hf' hfb' hte' he1' (radius_ok hin) he2' hc label (faInt := false) (fbInt := false)
          (by simp) (by simp)
        exact ⟨g, e1, e2⟩
      · simp at hp
    | glasses m1 m2 wref =>
      simp only [CatData.fxs, List.getElem?_zipWith] at hp
      cases hm1 : (indexRow m1)[j]? with
      | none => simp [hm1] at hp
      | some k1 =>
        cases hm2 : (indexRow m2)[j]? with
        | none => simp [hm1, hm2] at hp
        | some k2 =>
          obtain ⟨hk1, hk2, hk3⟩ := indexRow_has hcell hm1 h1 h2
          obtain ⟨hk4, hk5, hk6⟩ := indexRow_has hcell hm2 h1 h2
          have hi : glassIndices (none : Option (Ext ℝ)) none (some (indexOf m1)) (some (indexOf m2)) (w.map fin) (some (num wref)) =
              .ok (some (fin (glassAt m1 (CatLens.used ⟨name, label, takes, .doublet fa fb R1 R2 R3 tc1 tc2 te d (.glasses m1 m2 wref)⟩ w))),
                some (fin (glassAt m2 (CatLens.used ⟨name, label, takes, .doublet fa fb R1 R2 R3 tc1 tc2 te d (.glasses m1 m2 wref)⟩ w)))) := by
            cases w with
            | none =>
              simp only [CatLens.used, CatData.ref] at hk3 hk6 ⊢
              simp [glassIndices, glassIndex, num, hk3, hk6, Except.map, bind, Except.bind, pure, Except.pure]
            | some x =>
              simp only [CatLens.used] at hk3 hk6 ⊢
              simp [glassIndices, glassIndex, hk3, hk6, Except.map, bind, Except.bind, pure, Except.pure]
          obtain ⟨g, e1, e2, -⟩ := C68_doublet (fa := (fa : ℝ)) (fb := (fb : ℝ)) (tc1 := (tc1 : ℝ)) (tc2 := (tc2 : ℝ)) (te := (te : ℝ)) (d := (d : ℝ))
            hi (Fx.away_ne hk1 hk2) (Fx.away_ne hk4 hk5) hd' htc2 hf' hfb' hte' he1' (radius_ok hin) he2' hc label
            (faInt := intFocals.contains name) (fbInt := false) (fun h => hint (by simpa using h)) (by simp)
          exact ⟨g, e1, e2⟩

/-! ## Deciding the warnings -/

theorem offIv_sound {tol : ℚ} (ht : 0 ≤ tol) {i : Iv} {e : ℚ} {b : Bool} (h : offIv tol i e = some b) {x : ℝ} (hx : i.has x) :
    offBy (tol : ℝ) x (e : ℝ) ↔ b = true := by
  have hq := Iv.has_mul (Iv.has_sub hx (Iv.has_pt e)) (Iv.has_pt (1 / e))
  have e1 : (x - (e : ℝ)) * ((1 / e : ℚ) : ℝ) = (x - e) / e := by push_cast; ring
  rw [e1] at hq
  have ht' : (0 : ℝ) ≤ (tol : ℝ) := by exact_mod_cast ht
  unfold offIv at h
  simp only at h
  unfold offBy
  split_ifs at h with h1 h2
  · simp only [Option.some.injEq] at h
    subst h
    simp only [iff_true]
    rcases h1 with h1 | h1
    · have h3 : (tol : ℝ) < _ := (Rat.cast_lt (K := ℝ)).2 h1
      exact (h3.trans_le hq.1).trans_le (le_abs_self _)
    · have h3 : _ < ((-tol : ℚ) : ℝ) := (Rat.cast_lt (K := ℝ)).2 h1
      push_cast at h3
      have h4 := hq.2.trans_lt h3
      have h5 := neg_le_abs ((x - (e : ℝ)) / e)
      linarith
  · simp only [Option.some.injEq] at h
    subst h
    simp only [Bool.false_eq_true, iff_false, not_lt]
    have h3 : ((-tol : ℚ) : ℝ) ≤ _ := (Rat.cast_le (K := ℝ)).2 h2.1
    have h4 : _ ≤ (tol : ℝ) := (Rat.cast_le (K := ℝ)).2 h2.2
    push_cast at h3
    exact abs_le.2 ⟨h3.trans hq.1, hq.2.trans h4⟩

theorem sagIv_has {h r : ℚ} (hr : 0 ≤ r ^ 2 - h ^ 2) : (sagIv h r).has (sag (h : ℝ) (r : ℝ)) := by
  have h1 := Iv.has_sqrt (i := Iv.pt (r ^ 2 - h ^ 2)) hr (Iv.has_pt _)
  push_cast at h1
  unfold sagIv sag
  by_cases h0 : 0 < r
  · have h0' : (0 : ℝ) < (r : ℝ) := by exact_mod_cast h0
    rw [if_pos h0, if_pos h0']
    exact Iv.has_sub (Iv.has_pt r) h1
  · have h0' : ¬ (0 : ℝ) < (r : ℝ) := by exact_mod_cast h0
    rw [if_neg h0, if_neg h0']
    exact Iv.has_add (Iv.has_pt r) h1

theorem offBy_iff {tol x e : ℝ} (he : e ≠ 0) : offBy tol x e ↔ tol * |e| < |x - e| := by
  unfold offBy
  rw [abs_div, lt_div_iff₀ (abs_pos.2 he)]

theorem offFx_sound {tol : ℚ} {i : Fx} {e : ℚ} (he : e ≠ 0) {b : Bool} (h : offFx tol i e = some b) {x : ℝ} (hx : i.has x) :
    offBy (tol : ℝ) x (e : ℝ) ↔ b = true := by
  have hu := Fx.unit_pos
  have hb := Fx.has_ofQ (e + tol * |e|)
  have ha := Fx.has_ofQ (e - tol * |e|)
  push_cast at hb ha
  rw [offBy_iff (by exact_mod_cast he)]
  unfold offFx at h
  simp only at h
  split_ifs at h with h1 h2
  · simp only [Option.some.injEq] at h
    subst h
    simp only [iff_true]
    rcases h1 with h1 | h1
    · have h3 : (((Fx.ofQ (e + tol * |e|)).hi : Int) : ℝ) < (i.lo : ℝ) := by exact_mod_cast h1
      have h4 : (e + tol * |(e : ℝ)|) * Fx.unit < x * Fx.unit := (hb.2.trans_lt h3).trans_le hx.1
      have h5 := lt_of_mul_lt_mul_right h4 hu.le
      exact (by linarith : (tol : ℝ) * |(e : ℝ)| < x - e).trans_le (le_abs_self _)
    · have h3 : (i.hi : ℝ) < (((Fx.ofQ (e - tol * |e|)).lo : Int) : ℝ) := by exact_mod_cast h1
      have h4 : x * Fx.unit < (e - tol * |(e : ℝ)|) * Fx.unit := (hx.2.trans_lt h3).trans_le ha.1
      have h5 := lt_of_mul_lt_mul_right h4 hu.le
      exact (by linarith : (tol : ℝ) * |(e : ℝ)| < -(x - e)).trans_le (neg_le_abs _)
  · simp only [Option.some.injEq] at h
    subst h
    simp only [Bool.false_eq_true, iff_false, not_lt]
    have h3 : (((Fx.ofQ (e - tol * |e|)).hi : Int) : ℝ) ≤ (i.lo : ℝ) := by exact_mod_cast h2.1
    have h4 : (i.hi : ℝ) ≤ (((Fx.ofQ (e + tol * |e|)).lo : Int) : ℝ) := by exact_mod_cast h2.2
    have h5 := le_of_mul_le_mul_right ((ha.2.trans h3).trans hx.1) hu
    have h6 := le_of_mul_le_mul_right ((hx.2.trans h4).trans hb.1) hu
    exact abs_le.2 ⟨by linarith, by linarith⟩

theorem CatData.sys_len (index : String → ℝ) (d : CatData) : (d.sys index).len = (d.thickness : ℝ) := by
  cases d with
  | singlet => simp [sys, thickness, Sys.thick, Sys.andThen, Sys.interface, Sys.space]
  | doublet fa fb R1 R2 R3 tc1 tc2 te d g =>
    cases g <;> simp [sys, thickness, Sys.doublet, Sys.andThen, Sys.interface, Sys.space]

theorem CatData.sys_nb (index : String → ℝ) (d : CatData) : (d.sys index).nb = 1 := by
  cases d with
  | singlet => simp [sys, Sys.thick, Sys.andThen, Sys.interface, Sys.space]
  | doublet fa fb R1 R2 R3 tc1 tc2 te d g =>
    cases g <;> simp [sys, Sys.doublet, Sys.andThen, Sys.interface, Sys.space]

theorem CatLens.warnFx_sound {l : CatLens} (hs : l.staticOk = true) {p : Fx × Fx} {b1 b2 b3 : Bool}
    (h : l.warnFx p = some (b1, b2, b3)) {x : ℝ} (i1 : p.1.has (-(l.data.sys fun name => glassAt name x).c))
    (i2 : p.2.has (l.data.sys fun name => glassAt name x).a) :
    lensWarnings (l.data.sys fun name => glassAt name x) (l.design : ℝ) (l.data.back : ℝ) (l.data.edge : ℝ) ((l.data.diameter : ℝ) / 2)
      (radius l.data.outer.1) (radius l.data.outer.2) = warnIf b1 .focal ++ warnIf b2 .backFocal ++ warnIf b3 .edge := by
  unfold warnFx at h
  simp only [staticOk, Bool.and_eq_true, decide_eq_true_eq] at hs
  obtain ⟨⟨⟨⟨⟨⟨⟨hd, htc⟩, hf⟩, hfb⟩, hte⟩, he1⟩, he2⟩, hin⟩ := hs
  have hte' : (l.data.edge : ℝ) ≠ 0 := by exact_mod_cast hte
  cases haw : p.1.away with
  | false => simp [haw] at h
  | true =>
    simp only [haw, Bool.not_true, Bool.false_eq_true, if_false] at h
    have hne := Fx.away_ne haw i1
    have hne' : (l.data.sys fun name => glassAt name x).c ≠ 0 := by simpa using hne
    have j1 := Fx.has_inv haw i1
    have e1 : 1 / -(l.data.sys fun name => glassAt name x).c = -1 / (l.data.sys fun name => glassAt name x).c := by
      rw [div_neg, neg_div]
    have j2 := Fx.has_mul i2 j1
    have e2 : (l.data.sys fun name => glassAt name x).a * (1 / -(l.data.sys fun name => glassAt name x).c) =
        -(l.data.sys fun name => glassAt name x).a / (l.data.sys fun name => glassAt name x).c := by
      rw [div_neg]; ring
    rw [e2] at j2
    rw [e1] at j1
    cases h3 : offFx (1 / 100) p.1.inv l.design with
    | none => rw [h3] at h; cases h
    | some b1' =>
      cases h4 : offFx (1 / 100) (p.2.mul p.1.inv) l.data.back with
      | none => rw [h3, h4] at h; cases h
      | some b2' =>
        cases h5 : edgeIv (l.data.diameter / 2) l.data.thickness l.data.edge l.data.outer with
        | none => rw [h3, h4, h5] at h; cases h
        | some b3' =>
          simp only [h3, h4, h5, Option.some.injEq, Prod.mk.injEq] at h
          obtain ⟨rfl, rfl, rfl⟩ := h
          have k1 := offFx_sound hf h3 j1
          have k2 := offFx_sound hfb h4 j2
          push_cast at k1 k2
          unfold lensWarnings warnIf
          congr 1
          · congr 1
            · simp only [k1]
            · simp only [k2]
          · cases ho : l.data.outer with
            | mk r r' =>
              rw [ho] at h5
              cases r with
              | none => simp only [edgeIv, Option.some.injEq] at h5; subst h5; cases r' <;> simp [radius]
              | some r =>
                cases r' with
                | none => simp only [edgeIv, Option.some.injEq] at h5; subst h5; simp [radius]
                | some r' =>
                  simp only [edgeIv] at h5
                  split at h5
                  · rename_i h6
                    have k3 := offIv_sound (by norm_num) h5
                      (Iv.has_sub (Iv.has_add (Iv.has_pt l.data.thickness) (sagIv_has h6.2)) (sagIv_has h6.1))
                    unfold offBy at k3
                    push_cast at k3
                    simp only [radius, CatData.sys_len]
                    rw [sub_div, div_self hte'] at k3
                    simp only [k3]
                  · cases h5

end RT
