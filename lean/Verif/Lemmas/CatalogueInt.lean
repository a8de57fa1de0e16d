import Verif.Lemmas.Catalogue
import Verif.Lemmas.IndexFine

/-! # The two lenses of the catalogues whose focal length is written as an integer

`AC254_150_A` and `AC254_250_A`: when their focal length is more than 1 % away from it, the text of the warning cannot be written. -/

set_option linter.unusedSectionVars false

namespace RT
open PyNum Ext

/-- the tables of the indices over the intervals where the focal length is that of the data sheet -/
def nearRows : List (String × List Fx) := [("N_BK7", near_N_BK7), ("SF2", near_SF2), ("SF5", near_SF5)]

/-- the tables of the indices over the intervals where it is not -/
def farRows : List (String × List Fx) := [("N_BK7", far_N_BK7), ("SF2", far_SF2), ("SF5", far_SF5)]

theorem fine_ok : nearRows.all (rowOk nearCells) = true ∧ farRows.all (rowOk farCells) = true := by decide +kernel

/-- whether a lens made of two glasses has everywhere, or nowhere, a focal length more than 1 % away from that of its data sheet -/
def CatLens.intOk (b : Bool) (cells : List (ℚ × ℚ)) (rows : List (String × List Fx)) (l : CatLens) : Bool :=
  match l.data with
  | .doublet _ _ R1 R2 R3 tc1 tc2 _ _ (.glasses m1 m2 _) =>
    match rows.find? (fun r => r.1 == m1), rows.find? (fun r => r.1 == m2) with
    | some r1, some r2 =>
      (r1.2.length == cells.length) && (r2.2.length == cells.length) &&
        (List.zipWith (doubletFx (.ofQ (curvQ R1)) (.ofQ (curvQ R2)) (.ofQ (curvQ R3)) (.ofQ tc1) (.ofQ tc2)) r1.2 r2.2).all fun q =>
          q.1.away && (offFx (1 / 100) q.1.inv l.design == some b)
    | _, _ => false
  | _ => false

theorem intOk_all : (catalogue.filter fun l => intFocals.contains l.name).all
    (fun l => l.takesWavelength && l.intOk false nearCells nearRows && l.intOk true farCells farRows) = true := by decide +kernel

theorem CatLens.intOk_sound {b : Bool} {cells : List (ℚ × ℚ)} {rows : List (String × List Fx)} {l : CatLens} (hr : rows.all (rowOk cells) = true)
    (h : l.intOk b cells rows = true) (hd : l.design ≠ 0) {c : ℚ × ℚ} (hc : c ∈ cells) {x : ℝ} (h1 : (c.1 : ℝ) ≤ x) (h2 : x ≤ (c.2 : ℝ)) :
    offBy (1 / 100) (-1 / (l.data.sys fun name => glassAt name x).c) (l.design : ℝ) ↔ b = true := by
  obtain ⟨j, hj⟩ := List.mem_iff_getElem?.1 hc
  have hlt : j < cells.length := (List.getElem?_eq_some_iff.1 hj).1
  obtain ⟨name, label, takes, data⟩ := l
  cases data with
  | singlet => simp [intOk] at h
  | doublet fa fb R1 R2 R3 tc1 tc2 te d g =>
    cases g with
    | given => simp [intOk] at h
    | glasses m1 m2 w =>
      unfold intOk at h
      simp only at h
      cases e1 : rows.find? (fun r => r.1 == m1) with
      | none => simp [e1] at h
      | some r1 =>
        cases e2 : rows.find? (fun r => r.1 == m2) with
        | none => simp [e1, e2] at h
        | some r2 =>
          simp only [e1, e2, Bool.and_eq_true, beq_iff_eq] at h
          obtain ⟨⟨l1, l2⟩, h⟩ := h
          have n1 : r1.1 = m1 := by have := List.find?_some e1; simpa using this
          have n2 : r2.1 = m2 := by have := List.find?_some e2; simpa using this
          have k1 := List.getElem?_eq_getElem (l := r1.2) (i := j) (by omega)
          have k2 := List.getElem?_eq_getElem (l := r2.2) (i := j) (by omega)
          obtain ⟨a1, a2, -⟩ := rowOk_has (List.all_eq_true.1 hr r1 (List.mem_of_find?_eq_some e1)) hj k1 h1 h2
          obtain ⟨a3, a4, -⟩ := rowOk_has (List.all_eq_true.1 hr r2 (List.mem_of_find?_eq_some e2)) hj k2 h1 h2
          rw [n1] at a2
          rw [n2] at a4
          have hq := List.all_eq_true.1 h _ (List.mem_of_getElem? (i := j) (by rw [List.getElem?_zipWith, k1, k2]))
          simp only [Bool.and_eq_true, beq_iff_eq] at hq
          have hh := doubletFx_has (c1 := curvQ R1) (c2 := curvQ R2) (c3 := curvQ R3) (t1 := tc1) (t2 := tc2) a1 a3 a2 a4
          have hi := Fx.has_inv hq.1 hh.1
          have := offFx_sound hd hq.2 hi
          push_cast at this
          simp only [CatData.sys, curv_radius]
          rw [← this, div_neg, neg_div]

/-- A lens whose focal length is written as an integer, made at a wavelength where it is more than 1 % away from it. -/
theorem CatLens.make_off {l : CatLens} (hs : l.staticOk = true) {w : ℝ} (ht : l.takesWavelength = true) {j : ℕ} {c : ℚ × ℚ}
    {p : Fx × Fx} (hcell : indexCells[j]? = some c) (hp : l.data.fxs[j]? = some p) (h1 : (c.1 : ℝ) ≤ w) (h2 : w ≤ (c.2 : ℝ))
    (hc : 1 / 100000 < |(l.data.sys fun name => glassAt name w).c|) {b : Bool} {cells : List (ℚ × ℚ)} {rows : List (String × List Fx)}
    (hg : l.intOk b cells rows = true) (hn : l.name ∈ intFocals)
    (hoff : offBy (1 / 100) (-1 / (l.data.sys fun name => glassAt name w).c) (l.design : ℝ)) : l.make (some (fin w)) = .error .valueError := by
  obtain ⟨name, label, takes, data⟩ := l
  simp only [CatLens.staticOk, Bool.and_eq_true, decide_eq_true_eq] at hs
  obtain ⟨⟨⟨⟨⟨⟨⟨hd, htc⟩, hf⟩, hfb⟩, hte⟩, he1⟩, he2⟩, hin⟩ := hs
  have hd' : (0 : ℝ) < (data.diameter : ℝ) := by exact_mod_cast hd
  have htc' : (data.thickness : ℝ) ≠ 0 := by exact_mod_cast htc
  have hfb' : (data.back : ℝ) ≠ 0 := by exact_mod_cast hfb
  have hte' : (data.edge : ℝ) ≠ 0 := by exact_mod_cast hte
  have he1' := radiusWide_edge he1
  have he2' := radiusWide_edge he2
  push_cast at he1' he2'
  simp only at ht
  subst ht
  unfold CatLens.make
  cases data with
  | singlet => simp [intOk] at hg
  | doublet fa fb R1 R2 R3 tc1 tc2 te d gl =>
    have hf' : (fa : ℝ) ≠ 0 := by exact_mod_cast hf
    have htc2 : (tc1 : ℝ) + (tc2 : ℝ) ≠ 0 := by
      have : ((CatData.doublet fa fb R1 R2 R3 tc1 tc2 te d gl).thickness : ℝ) = (tc1 : ℝ) + (tc2 : ℝ) := by simp [CatData.thickness]
      rw [← this]; exact htc'
    cases gl with
    | given => simp [intOk] at hg
    | glasses m1 m2 wref =>
      simp only [CatData.fxs, List.getElem?_zipWith] at hp
      cases hm1 : (indexRow m1)[j]? with
      | none => simp [hm1] at hp
      | some k1 =>
        cases hm2 : (indexRow m2)[j]? with
        | none => simp [hm1, hm2] at hp
        | some k2 =>
          obtain ⟨hk1, hk2, hk3⟩ := indexRow_has hcell hm1 h1 h2
          obtain ⟨hk4, hk5, hk6⟩ := indexRow_has hcell hm2 h1 h2
          have hi : glassIndices (none : Option (Ext ℝ)) none (some (indexOf m1)) (some (indexOf m2)) (some (fin w)) (some (num wref)) =
              .ok (some (fin (glassAt m1 w)), some (fin (glassAt m2 w))) := by
            simp [glassIndices, glassIndex, hk3, hk6, Except.map, bind, Except.bind, pure, Except.pure]
          exact C68_violated_int_doublet (fa := (fa : ℝ)) (fb := (fb : ℝ)) (tc1 := (tc1 : ℝ)) (tc2 := (tc2 : ℝ)) (te := (te : ℝ)) (d := (d : ℝ))
            hi (Fx.away_ne hk1 hk2) (Fx.away_ne hk4 hk5) hd' htc2 hf' hfb' hte' he1' (radius_ok hin) he2' hc label
            (faInt := intFocals.contains name) (fbInt := false) (Or.inl ⟨by simpa using hn, hoff⟩)

end RT
