import Verif.Model.Chromatic
import Verif.Props.Lenses
import Verif.Props.Rays
import Verif.Props.Materials

/-! # C79: focal shifts; C80: materials of a given index -/

set_option linter.unusedSectionVars false

namespace RT
open PyNum Ext

/-! ## C79 -/

/-- Specification: the power of a lens of index `k`, curvatures `c1`, `c2` and thickness `t` in air (lensmaker's formula). -/
noncomputable def lensmaker (k c1 c2 t : ℝ) : ℝ := (k - 1) * (c1 - c2 + (k - 1) * t * c1 * c2 / k)

theorem lensmaker_thick {k : ℝ} (hk : k ≠ 0) (c1 c2 t : ℝ) : (Sys.thick k c1 c2 t).c = -lensmaker k c1 c2 t := by
  rw [Sys.thick_eq _ _ _ hk, lensmaker]
  field_simp

theorem thousand_array (ws : List ℝ) : (Waves.array (ws.map fin)).thousand = ws.map fun w => (fin (1000 * w) : Ext ℝ) := by
  have e : (lit 1000 : Ext ℝ) = fin 1000 := by rw [lit_eq]; norm_num
  simp [Waves.thousand, e, mul_comm, Function.comp_def]

/-- the loop, when each lens can be made -/
theorem shiftsLoop_eq {c : LensClass (Ext ℝ)} (ht : c.takesWavelength = true) {f0 : ℝ} {s : ℝ → Sys ℝ} (ws : List ℝ)
    (h : ∀ w ∈ ws, ∃ g, c.make (some (fin w)) = .ok g ∧ Den g.mat (s w) ∧ (s w).nb ≠ 0 ∧ 1 / 100000 < |(s w).c|) :
    shiftsLoop c (fin f0) (ws.map fin) = .ok (ws.map fun w => fin (-1 / (s w).c - f0)) := by
  induction ws with
  | nil => rfl
  | cons w ws ih =>
    obtain ⟨g, h1, h2, h3, h4⟩ := h w (by simp)
    have h5 := ih fun v hv => h v (by simp [hv])
    simp only [List.map_cons, shiftsLoop, ht, h1, effectiveFocalLengths_eq h2 h3 h4, h5, bind, Except.bind, pure, Except.pure,
      Bool.not_true, Bool.false_eq_true, if_false, fin_sub_fin]

/-- **C79** for every singlet whose class takes a wavelength, and all the wavelengths at which it can be made: the wavelengths in nanometers, and
for each the focal length given by the lensmaker's formula with the index at this wavelength, minus the design focal length. -/
theorem C79_singlet {f fb tc te d : ℝ} {R1 R2 : Ext ℝ} {n : Option (Ext ℝ)} {index : Ext ℝ → Except PyErr (Ext ℝ)} {wref : Option (Ext ℝ)}
    (hd : 0 < d) (htc : tc ≠ 0) (hf : f ≠ 0) (hfb : fb ≠ 0) (hte : te ≠ 0) (h1 : EdgeOk (d / 2) R1) (h2 : EdgeOk (d / 2) R2)
    (label : String) {ws : List ℝ} {k : ℝ → ℝ}
    (hk : ∀ w ∈ ws, index (fin w) = .ok (fin (k w)) ∧ k w ≠ 0 ∧ 1 / 100000 < |lensmaker (k w) (curv R1) (curv R2) tc|) :
    focalShifts (singletClass (fin f) (fin fb) R1 R2 (fin tc) (fin te) n (fin d) (some index) wref label) (some (.array (ws.map fin))) =
      .ok (ws.map (fun w => fin (1000 * w)), ws.map fun w => fin (1 / lensmaker (k w) (curv R1) (curv R2) tc - f)) := by
  have h3 := shiftsLoop_eq (c := singletClass (fin f) (fin fb) R1 R2 (fin tc) (fin te) n (fin d) (some index) wref label) rfl
    (f0 := f) (s := fun w => Sys.thick (k w) (curv R1) (curv R2) tc) ws fun w hw => by
      obtain ⟨h4, h5, h6⟩ := hk w hw
      have hc : 1 / 100000 < |(Sys.thick (k w) (curv R1) (curv R2) tc).c| := by rw [lensmaker_thick h5, abs_neg]; exact h6
      obtain ⟨l, h7, h8, -⟩ := C68_singlet (n := n) (mat := some index) (wavelength := some (fin w)) (wavelengthRef := wref)
        (by simp [glassIndex, h4, Except.map]) h5 hd htc hf hfb hte h1 h2 hc label (fbInt := false) (by simp)
      exact ⟨l.group, by simp [singletClass, h7, Except.map], h8.den, by rw [Sys.thick_eq _ _ _ h5]; exact one_ne_zero, hc⟩
  unfold focalShifts
  simp only [singletClass] at h3 ⊢
  simp only [ pure, Except.pure, bind, Except.bind, Waves.values]
  rw [h3, thousand_array]
  simp only [Except.ok.injEq, Prod.mk.injEq, true_and]
  refine List.map_congr_left fun w hw => ?_
  rw [lensmaker_thick (hk w hw).2.1, neg_div_neg_eq]

/-- **C79** for doublets: the focal length is that of the system of three surfaces and two glasses at each wavelength. If the design focal
length is written as a Python `int`, the focal lengths have to be within 1 % of it. -/
theorem C79_doublet {fa fb tc1 tc2 te d : ℝ} {R1 R2 R3 : Ext ℝ} {n1 n2 : Option (Ext ℝ)} {index1 index2 : Ext ℝ → Except PyErr (Ext ℝ)}
    {wref : Option (Ext ℝ)} (hd : 0 < d) (htc : tc1 + tc2 ≠ 0) (hf : fa ≠ 0) (hfb : fb ≠ 0) (hte : te ≠ 0) (h1 : EdgeOk (d / 2) R1)
    (h2 : RadiusOk R2) (h3 : EdgeOk (d / 2) R3) (label : String) {ws : List ℝ} {k1 k2 : ℝ → ℝ}
    (hk : ∀ w ∈ ws, index1 (fin w) = .ok (fin (k1 w)) ∧ index2 (fin w) = .ok (fin (k2 w)) ∧ k1 w ≠ 0 ∧ k2 w ≠ 0 ∧
      1 / 100000 < |(Sys.doublet (k1 w) (k2 w) (curv R1) (curv R2) (curv R3) tc1 tc2).c|) {faInt : Bool}
    (h10 : ∀ w ∈ ws, faInt = true → ¬ offBy (1 / 100) (-1 / (Sys.doublet (k1 w) (k2 w) (curv R1) (curv R2) (curv R3) tc1 tc2).c) fa) :
    focalShifts (doubletClass (fin fa) (fin fb) R1 R2 R3 (fin tc1) (fin tc2) (fin te) (fin d) n1 n2 (some index1) (some index2) wref label faInt)
        (some (.array (ws.map fin))) =
      .ok (ws.map (fun w => fin (1000 * w)),
        ws.map fun w => fin (-1 / (Sys.doublet (k1 w) (k2 w) (curv R1) (curv R2) (curv R3) tc1 tc2).c - fa)) := by
  have h4 := shiftsLoop_eq
    (c := doubletClass (fin fa) (fin fb) R1 R2 R3 (fin tc1) (fin tc2) (fin te) (fin d) n1 n2 (some index1) (some index2) wref label faInt) rfl
    (f0 := fa) (s := fun w => Sys.doublet (k1 w) (k2 w) (curv R1) (curv R2) (curv R3) tc1 tc2) ws fun w hw => by
      obtain ⟨h5, h6, h7, h8, h9⟩ := hk w hw
      obtain ⟨l, h12, h11, -⟩ := C68_doublet (n1 := n1) (n2 := n2) (mat1 := some index1) (mat2 := some index2) (wavelength := some (fin w))
        (wavelengthRef := wref) (by simp [glassIndices, glassIndex, h5, h6, Except.map, bind, Except.bind, pure, Except.pure])
        h7 h8 hd htc hf hfb hte h1 h2 h3 h9 label (faInt := faInt) (fbInt := false) (h10 w hw) (by simp)
      exact ⟨l.group, by simp [doubletClass, h12, Except.map], h11.den, by simp [Sys.doublet, Sys.andThen, Sys.interface, Sys.space], h9⟩
  unfold focalShifts
  simp only [doubletClass] at h4 ⊢
  simp only [ pure, Except.pure, bind, Except.bind, Waves.values]
  rw [h4, thousand_array]

/-- the loop raises what the first lens that cannot be made raises -/
theorem shiftsLoop_error {c : LensClass (Ext ℝ)} (ht : c.takesWavelength = true) {f0 : Ext ℝ} {e : PyErr} {ws : List (Ext ℝ)}
    (h : ∀ w ∈ ws, c.make (some w) = .error e ∨ ∃ g f, c.make (some w) = .ok g ∧ g.mat.effectiveFocalLengths = .ok f)
    (hw : ∃ w ∈ ws, c.make (some w) = .error e) : shiftsLoop c f0 ws = .error e := by
  induction ws with
  | nil => simp at hw
  | cons w ws ih =>
    unfold shiftsLoop
    rcases h w (by simp) with h1 | ⟨g, f, h1, h2⟩
    · simp only [ht, h1, bind, Except.bind, pure, Except.pure, Bool.not_true, Bool.false_eq_true, if_false]
    · have h3 : ∃ v ∈ ws, c.make (some v) = .error e := by
        obtain ⟨v, hv, hv'⟩ := hw
        rcases List.mem_cons.1 hv with rfl | hv
        · rw [h1] at hv'; cases hv'
        · exact ⟨v, hv, hv'⟩
      have h4 := ih (fun v hv => h v (List.mem_cons_of_mem _ hv)) h3
      simp only [ht, h1, h2, h4, bind, Except.bind, pure, Except.pure, Bool.not_true, Bool.false_eq_true, if_false]

/-- **C79 violated** by a design focal length written as a Python `int`: if at one of the wavelengths the focal length is off by more than 1 %, nothing
is returned: making the lens at that wavelength raises `ValueError`. -/
theorem C79_violated_int {fa fb tc1 tc2 te d : ℝ} {R1 R2 R3 : Ext ℝ} {n1 n2 : Option (Ext ℝ)} {index1 index2 : Ext ℝ → Except PyErr (Ext ℝ)}
    {wref : Option (Ext ℝ)} (hd : 0 < d) (htc : tc1 + tc2 ≠ 0) (hf : fa ≠ 0) (hfb : fb ≠ 0) (hte : te ≠ 0) (h1 : EdgeOk (d / 2) R1)
    (h2 : RadiusOk R2) (h3 : EdgeOk (d / 2) R3) (label : String) {ws : List ℝ} {k1 k2 : ℝ → ℝ}
    (hk : ∀ w ∈ ws, index1 (fin w) = .ok (fin (k1 w)) ∧ index2 (fin w) = .ok (fin (k2 w)) ∧ k1 w ≠ 0 ∧ k2 w ≠ 0 ∧
      1 / 100000 < |(Sys.doublet (k1 w) (k2 w) (curv R1) (curv R2) (curv R3) tc1 tc2).c|)
    (hoff : ∃ w ∈ ws, offBy (1 / 100) (-1 / (Sys.doublet (k1 w) (k2 w) (curv R1) (curv R2) (curv R3) tc1 tc2).c) fa) :
    focalShifts (doubletClass (fin fa) (fin fb) R1 R2 R3 (fin tc1) (fin tc2) (fin te) (fin d) n1 n2 (some index1) (some index2) wref label true)
        (some (.array (ws.map fin))) = .error .valueError := by
  have key : ∀ w ∈ ws, offBy (1 / 100) (-1 / (Sys.doublet (k1 w) (k2 w) (curv R1) (curv R2) (curv R3) tc1 tc2).c) fa →
      (doubletClass (fin fa) (fin fb) R1 R2 R3 (fin tc1) (fin tc2) (fin te) (fin d) n1 n2 (some index1) (some index2) wref label true).make
        (some (fin w)) = .error .valueError := by
    intro w hw ho
    obtain ⟨h5, h6, h7, h8, h9⟩ := hk w hw
    have := C68_violated_int_doublet (n1 := n1) (n2 := n2) (mat1 := some index1) (mat2 := some index2) (wavelength := some (fin w))
      (wavelengthRef := wref) (by simp [glassIndices, glassIndex, h5, h6, Except.map, bind, Except.bind, pure, Except.pure])
      h7 h8 hd htc hf hfb hte h1 h2 h3 h9 label (faInt := true) (fbInt := false) (Or.inl ⟨rfl, ho⟩)
    simp [doubletClass, this, Except.map]
  have h4 := shiftsLoop_error (c := doubletClass (fin fa) (fin fb) R1 R2 R3 (fin tc1) (fin tc2) (fin te) (fin d) n1 n2 (some index1) (some index2)
    wref label true) rfl (f0 := fin fa) (e := .valueError) (ws := ws.map fin) (fun v hv => by
      obtain ⟨w, hw, rfl⟩ := List.mem_map.1 hv
      by_cases ho : offBy (1 / 100) (-1 / (Sys.doublet (k1 w) (k2 w) (curv R1) (curv R2) (curv R3) tc1 tc2).c) fa
      · exact Or.inl (key w hw ho)
      · obtain ⟨h5, h6, h7, h8, h9⟩ := hk w hw
        obtain ⟨l, h12, h11, -⟩ := C68_doublet (n1 := n1) (n2 := n2) (mat1 := some index1) (mat2 := some index2) (wavelength := some (fin w))
          (wavelengthRef := wref) (by simp [glassIndices, glassIndex, h5, h6, Except.map, bind, Except.bind, pure, Except.pure])
          h7 h8 hd htc hf hfb hte h1 h2 h3 h9 label (faInt := true) (fbInt := false) (fun _ => ho) (by simp)
        exact Or.inr ⟨l.group, _, by simp [doubletClass, h12, Except.map],
          effectiveFocalLengths_eq h11.den (by simp [Sys.doublet, Sys.andThen, Sys.interface, Sys.space]) h9⟩)
    (by obtain ⟨w, hw, ho⟩ := hoff; exact ⟨fin w, List.mem_map_of_mem hw, key w hw ho⟩)
  unfold focalShifts
  simp only [doubletClass] at h4 ⊢
  simp only [ pure, Except.pure, bind, Except.bind, Waves.values]
  rw [h4]

/-- **C79**: without an argument the result is that of an array of 100 wavelengths, equally spaced from 0.4 to 0.8 microns. -/
theorem C79_default (c : LensClass (Ext ℝ)) :
    focalShifts c none = focalShifts c (some (.array ((List.range 100).map fun i : ℕ => fin (2 / 5 + (i : ℝ) * (2 / 495))))) := by
  have e1 : (lit (2/5) : Ext ℝ) = fin (2/5) := by rw [lit_eq]; norm_num
  have e2 : (lit (4/5) : Ext ℝ) = fin (4/5) := by rw [lit_eq]; norm_num
  have e : linspace (lit (2/5) : Ext ℝ) (lit (4/5)) 100 = .ok ((List.range 100).map fun i : ℕ => fin (2 / 5 + (i : ℝ) * (2 / 495))) := by
    rw [e1, e2, linspace_eq _ _ (by norm_num)]
    simp only [Except.ok.injEq]
    refine List.map_congr_left fun i hi => ?_
    have e3 : Int.toNat 100 = 100 := rfl
    simp only [spaced, fin.injEq, e3]
    norm_num
  unfold focalShifts
  cases c.design with
  | none => rfl
  | some f0 => simp only [e, Except.map, bind, Except.bind, pure, Except.pure]

/-- **C79 violated** for Python lists, which the documentation asks for: the wavelengths returned are 1000 copies of the list, so that there
are not as many as shifts. -/
theorem C79_violated_list {c : LensClass (Ext ℝ)} {ws : List (Ext ℝ)} (hne : ws ≠ []) {r} (h : focalShifts c (some (.list ws)) = .ok r) :
    r.1.length = 1000 * ws.length ∧ r.2.length = ws.length ∧ r.1.length ≠ r.2.length := by
  have hloop : ∀ (f0 : Ext ℝ) (ls : List (Ext ℝ)) out, shiftsLoop c f0 ls = .ok out → out.length = ls.length := by
    intro f0 ls
    induction ls with
    | nil => intro out h; simp only [shiftsLoop, pure, Except.pure, Except.ok.injEq] at h; subst h; rfl
    | cons l ls ih =>
      intro out h
      unfold shiftsLoop at h
      cases ht : c.takesWavelength with
      | false => simp [ht, bind, Except.bind, throw, throwThe, MonadExceptOf.throw] at h
      | true =>
        cases hm : c.make (some l) with
        | error e => simp [ht, hm, bind, Except.bind, pure, Except.pure] at h
        | ok g =>
          cases he : g.mat.effectiveFocalLengths with
          | error e => simp [ht, hm, he, bind, Except.bind, pure, Except.pure] at h
          | ok f =>
            cases hr : shiftsLoop c f0 ls with
            | error e => simp [ht, hm, he, hr, bind, Except.bind, pure, Except.pure] at h
            | ok rest =>
              simp only [ht, hm, he, hr, bind, Except.bind, pure, Except.pure, Bool.not_true, Bool.false_eq_true, if_false, Except.ok.injEq] at h
              subst h
              simp [ih _ hr]
  unfold focalShifts at h
  cases hd : c.design with
  | none => simp [hd, throw, throwThe, MonadExceptOf.throw] at h
  | some f0 =>
    simp only [hd, bind, Except.bind, pure, Except.pure] at h
    cases hs : shiftsLoop c f0 (Waves.list ws).values with
    | error e => simp [hs] at h
    | ok out =>
      simp only [hs, Except.ok.injEq] at h
      subst h
      have h1 : (Waves.list ws).thousand.length = 1000 * ws.length := by
        unfold Waves.thousand; rw [List.length_flatten, List.map_replicate, List.sum_replicate]; rfl
      have h2 : out.length = ws.length := hloop _ _ _ hs
      have h3 : ws.length ≠ 0 := by simpa using hne
      exact ⟨h1, h2, by simp only [h1, h2]; omega⟩

/-- **C79 violated** for the lenses whose class does not take a wavelength, and for those without a design focal length, whatever the wavelengths:
`TypeError`. -/
theorem C79_violated_class {c : LensClass (Ext ℝ)} {ws : Waves (Ext ℝ)} (hc : (c.takesWavelength = false ∧ ws.values ≠ []) ∨ c.design = none) :
    focalShifts c (some ws) = .error .typeError := by
  unfold focalShifts
  rcases hc with ⟨ht, hw⟩ | hd
  · cases c.design with
    | none => rfl
    | some f0 =>
      cases hv : ws.values with
      | nil => exact absurd hv hw
      | cons l ls => simp [hv, shiftsLoop, ht, bind, Except.bind, pure, Except.pure, throw, throwThe, MonadExceptOf.throw]
  · rw [hd]; rfl

/-- A plano-convex lens of index 1.5 at all wavelengths. -/
example : EdgeOk (25 / 2) (fin 50) ∧ EdgeOk (25 / 2) pinf ∧
    ∀ w ∈ [(0.4 : ℝ), 0.5], (fun _ => .ok (fin (3 / 2)) : Ext ℝ → Except PyErr (Ext ℝ)) (fin w) = .ok (fin (3 / 2)) ∧ (3 / 2 : ℝ) ≠ 0 ∧
      1 / 100000 < |lensmaker (3 / 2) (curv (fin 50)) (curv pinf) 3| := by
  refine ⟨Or.inr (Or.inr ⟨50, rfl, by norm_num, by norm_num [abs_of_pos]⟩), Or.inl rfl, fun w _ => ⟨rfl, by norm_num, ?_⟩⟩
  simp only [lensmaker, curv]
  norm_num [abs_of_pos]

/-! ## C80 -/

theorem classNamed_all : materials.all (fun g => match classNamed g.name with
    | .ok g' => g'.name == g.name && decide (g'.formula = g.formula) && materials.any fun h => h.name == g'.name && h.abbe == g'.abbe
    | .error _ => false) = true := by decide +kernel

theorem classNamed_mem {name : String} {g : Glass} (h : classNamed name = .ok g) : g ∈ materials ∧ g.name = name := by
  unfold classNamed at h
  split at h
  · rename_i g' hf
    simp only [Except.ok.injEq] at h
    subst h
    exact ⟨List.mem_reverse.1 (List.mem_of_find?_eq_some hf), by simpa using List.find?_some hf⟩
  · cases h

/-- the class of the name of a material is a material of the same name and the same index -/
theorem classNamed_spec {g : Glass} (hg : g ∈ materials) : ∃ g' ∈ materials, classNamed g.name = .ok g' ∧ g'.name = g.name ∧
    g'.formula = g.formula := by
  have h := List.all_eq_true.1 classNamed_all g hg
  cases hc : classNamed g.name with
  | error e => simp [hc] at h
  | ok g' =>
    simp only [hc, Bool.and_eq_true, decide_eq_true_eq, beq_iff_eq] at h
    exact ⟨g', (classNamed_mem hc).1, rfl, h.1.1, h.1.2⟩

/-- what is under the root, in the range where all the indices are real -/
theorem square_bound {g : Glass} (hg : g ∈ materials) {x : ℝ} (h1 : 0.28 ≤ x) (h2 : x ≤ 7) : ∃ s, g.square x = .ok s ∧ 1 ≤ s := by
  rw [C56_accepted g (by linarith) (by linarith)]
  by_cases hn : g.name = "Air"
  · exact ⟨1, by rw [air_formula g hg hn]; rfl, le_rfl⟩
  · have hok := List.all_eq_true.1 materials_ok g hg
    rw [Bool.or_eq_true] at hok
    have hf : formulaOk g.formula = true := hok.resolve_left (by simpa using hn)
    obtain ⟨s, h3, h4⟩ := formula_bound hf (x := x) (by simp only [loμ]; norm_num; linarith) (by simp only [hiμ]; norm_num; linarith)
    exact ⟨s, h3, h4.le⟩

theorem n_of_square {g : Glass} {x s : ℝ} (h : g.square x = .ok s) (h0 : 0 ≤ s) : g.n x = .ok (.real (Real.sqrt s)) := by
  simp [Glass.n, h, h0]

/-- Specification: `k` is the index whose square is the value `s` of the formula of the material, the principal square root. -/
noncomputable def principalRoot (s : ℝ) : ℂ := (s : ℂ) ^ (1 / 2 : ℂ)

theorem indexClose_iff (n s tol : ℝ) : indexClose n s tol ↔ ‖(n : ℂ) - principalRoot s‖ < tol := by
  unfold indexClose principalRoot
  have hhalf : ((1 / 2 : ℂ)) = ((1 / 2 : ℝ) : ℂ) := by norm_num
  by_cases h0 : 0 ≤ s
  · rw [if_pos h0, hhalf, ← Complex.ofReal_cpow h0, ← Real.sqrt_eq_rpow, ← Complex.ofReal_sub, Complex.norm_real, Real.norm_eq_abs]
  · rw [if_neg h0]
    have hs : (0 : ℝ) ≤ -s := by linarith
    have e : ((s : ℂ)) ^ (1 / 2 : ℂ) = (Real.sqrt (-s) : ℂ) * Complex.I := by
      rw [Complex.ofReal_cpow_of_nonpos (by linarith), ← Complex.ofReal_neg, hhalf, ← Complex.ofReal_cpow hs, ← Real.sqrt_eq_rpow]
      congr 1
      rw [show (Real.pi : ℂ) * Complex.I * ((1 / 2 : ℝ) : ℂ) = (Real.pi / 2 : ℂ) * Complex.I by push_cast; ring, Complex.exp_pi_div_two_mul_I]
    rw [e]
    have e2 : ‖(n : ℂ) - (Real.sqrt (-s) : ℂ) * Complex.I‖ = Real.sqrt (n ^ 2 - s) := by
      rw [Complex.norm_def, Complex.normSq_apply]
      simp only [Complex.sub_re, Complex.ofReal_re, Complex.mul_re, Complex.I_re, mul_zero, Complex.ofReal_im, Complex.I_im, mul_one, sub_self,
        sub_zero, Complex.sub_im, Complex.mul_im, zero_add, add_zero, zero_sub]
      congr 1
      have := Real.mul_self_sqrt hs
      nlinarith
    rw [e2]

theorem square_of_name {g g' : Glass} (hg : g ∈ materials) {name : String} (hn : g.name = name) (hc : classNamed name = .ok g') {x : ℝ}
    (h1 : 0.01 ≤ x) (h2 : x ≤ 10) : g.square x = g'.square x := by
  obtain ⟨g'', -, h12, -, h13⟩ := classNamed_spec hg
  rw [hn, hc, Except.ok.injEq] at h12
  subst h12
  rw [C56_accepted g h1 h2, ← h13, ← C56_accepted g' h1 h2]

open Classical in
/-- **C80**, for every accepted wavelength at which no material of the list has a resonance, every index and tolerance and every list of
materials: exactly the materials whose index at this wavelength (the principal square root of the value `s` of its formula, which may be a complex
number) differs by less than the tolerance are returned, as many times as in the list and in its order, with their names, index
(its square in the model) and Abbe number. -/
theorem C80_found {live : List String} (hl : ∀ name ∈ live, ∃ g ∈ materials, g.name = name) {x : ℝ} (h1 : 0.01 ≤ x) (h2 : x ≤ 10)
    (hres : ∀ g ∈ materials, g.name ∈ live → ∃ s, g.square x = .ok s) (n tol : ℝ) :
    ∃ l, findByIndex live n x tol = .ok l ∧ (l.map Prod.fst).Sublist live ∧
      (∀ g ∈ materials, ∀ s, g.square x = .ok s →
        (l.map Prod.fst).count g.name = if ‖(n : ℂ) - principalRoot s‖ < tol then live.count g.name else 0) ∧
      ∀ e ∈ l, ∃ g ∈ materials, g.name = e.1 ∧ g.abbe = e.2.2 ∧ g.square x = .ok e.2.1 ∧ ‖(n : ℂ) - principalRoot e.2.1‖ < tol := by
  unfold findByIndex
  induction live with
  | nil => exact ⟨[], rfl, .slnil, by simp, by simp⟩
  | cons name live ih =>
    obtain ⟨l, h3, h4, h5, h6⟩ := ih (fun m hm => hl m (by simp [hm])) fun g hg hm => hres g hg (by simp [hm])
    obtain ⟨g0, hg0, rfl⟩ := hl name (by simp)
    obtain ⟨g', hg', h7, h8, h9⟩ := classNamed_spec hg0
    obtain ⟨s, h10⟩ := hres g' hg' (by simp [h8])
    have hk : ∀ g ∈ materials, g.name = g0.name → ∀ k, g.square x = .ok k → k = s := by
      intro g hg hn k hk
      rw [square_of_name hg hn h7 h1 h2, h10] at hk
      simpa using hk.symm
    have hclose := indexClose_iff n s tol
    refine ⟨if indexClose n s tol then (g0.name, s, g'.abbe) :: l else l, ?_, ?_, ?_, ?_⟩
    · simp only [findLoop, h7, h10, h3]
    · by_cases hc : indexClose n s tol
      · simpa [hc] using h4
      · simpa [hc] using h4.cons _
    · intro g hg k hgk
      have h12 := h5 g hg k hgk
      by_cases hn : g.name = g0.name
      · have := hk g hg hn k hgk
        subst this
        by_cases hc : indexClose n k tol
        · rw [if_pos hc, if_pos (hclose.1 hc), List.map_cons, hn, List.count_cons_self, List.count_cons_self, ← hn, h12, if_pos (hclose.1 hc)]
        · rw [if_neg hc, if_neg fun h => hc (hclose.2 h), h12, if_neg fun h => hc (hclose.2 h)]
      · have hn' : g0.name ≠ g.name := fun h => hn h.symm
        by_cases hc : indexClose n s tol
        · rw [if_pos hc, List.map_cons, List.count_cons_of_ne hn', List.count_cons_of_ne hn', h12]
        · rw [if_neg hc, List.count_cons_of_ne hn', h12]
    · intro e he
      by_cases hc : indexClose n s tol
      · rw [if_pos hc] at he
        rcases List.mem_cons.1 he with rfl | he
        · exact ⟨g', hg', h8, rfl, h10, hclose.1 hc⟩
        · exact h6 e he
      · rw [if_neg hc] at he
        exact h6 e he

open Classical in
/-- **C80** from 0.28 to 7 microns, where there is no resonance and all the indices are real: the materials whose index differs by less than the
tolerance, and no other. -/
theorem C80_real {live : List String} (hl : ∀ name ∈ live, ∃ g ∈ materials, g.name = name) {x : ℝ} (h1 : 0.28 ≤ x) (h2 : x ≤ 7)
    (n tol : ℝ) : ∃ l, findByIndex live n x tol = .ok l ∧ (l.map Prod.fst).Sublist live ∧
      (∀ g ∈ materials, ∀ k, g.n x = .ok (.real k) → (l.map Prod.fst).count g.name = if |n - k| < tol then live.count g.name else 0) ∧
      ∀ e ∈ l, ∃ g ∈ materials, g.name = e.1 ∧ g.abbe = e.2.2 ∧ g.n x = .ok (.real (Real.sqrt e.2.1)) ∧ |n - Real.sqrt e.2.1| < tol := by
  obtain ⟨l, h3, h4, h5, h6⟩ := C80_found hl (x := x) (by linarith) (by linarith) (fun g hg _ => (square_bound hg h1 h2).imp fun _ h => h.1) n tol
  have hroot : ∀ {g : Glass}, g ∈ materials → ∀ {s}, g.square x = .ok s → g.n x = .ok (.real (Real.sqrt s)) ∧
      (‖(n : ℂ) - principalRoot s‖ < tol ↔ |n - Real.sqrt s| < tol) := by
    intro g hg s hs
    obtain ⟨s', hs', h1'⟩ := square_bound hg h1 h2
    rw [hs, Except.ok.injEq] at hs'
    subst hs'
    have h0 : (0 : ℝ) ≤ s := by linarith
    exact ⟨n_of_square hs h0, by rw [← indexClose_iff]; simp [indexClose, h0]⟩
  refine ⟨l, h3, h4, ?_, ?_⟩
  · intro g hg k hk
    obtain ⟨s, hs, -⟩ := square_bound hg h1 h2
    obtain ⟨h7, h8⟩ := hroot hg hs
    rw [hk] at h7
    simp only [Except.ok.injEq, PyIndex.real.injEq] at h7
    subst h7
    rw [h5 g hg s hs]
    simp only [h8]
  · intro e he
    obtain ⟨g, hg, h7, h8, h9, h10⟩ := h6 e he
    obtain ⟨h11, h12⟩ := hroot hg h9
    exact ⟨g, hg, h7, h8, h11, h12.1 h10⟩

/-- **C80**: a wavelength that is not accepted raises, whatever the index and tolerance. -/
theorem C80_refused {live : List String} (hne : live ≠ []) (hl : ∀ name ∈ live, ∃ g ∈ materials, g.name = name) {x : ℝ}
    (hx : x < 0.01 ∨ 10 < x) (n tol : ℝ) : findByIndex live n x tol = .error .valueError := by
  cases live with
  | nil => exact absurd rfl hne
  | cons name live =>
    obtain ⟨g0, hg0, rfl⟩ := hl name (by simp)
    obtain ⟨g', -, h7, -, -⟩ := classNamed_spec hg0
    have h : g'.square x = .error .valueError := by
      have := C56_refused g' hx
      unfold Glass.n at this
      cases hs : g'.square x with
      | error e => simpa [hs] using this
      | ok s => simp [hs] at this
    simp [findByIndex, findLoop, h7, h]

theorem square_error {g : Glass} {x : ℝ} (h1 : 0.01 ≤ x) (h2 : x ≤ 10) {e} (h : g.square x = .error e) : e = .zeroDivisionError := by
  rw [C56_accepted g h1 h2] at h
  cases hf : g.formula with
  | air => simp [hf, Formula.square] at h
  | laurent => simp [hf, Formula.square] at h
  | sellmeier ts =>
    rw [hf, Formula.square] at h
    have key : ∀ (ts : List (ℚ × ℚ)) (a : Except PyErr ℝ), (∀ e, a = .error e → e = .zeroDivisionError) →
        ∀ e, ts.foldl (sellmeierTerm x) a = .error e → e = .zeroDivisionError := by
      intro ts
      induction ts with
      | nil => intro a ha; simpa using ha
      | cons t ts ih =>
        intro a ha
        rw [List.foldl_cons]
        refine ih _ fun e he => ?_
        cases a with
        | error e' => simp only [sellmeierTerm, Except.error.injEq] at he; exact he ▸ ha _ rfl
        | ok s =>
          simp only [sellmeierTerm] at he
          split at he
          · simpa using he.symm
          · cases he
    exact key ts _ (by simp) e h

/-- **C80 violated** at the resonance of one material: no material of any index can be found, however far from resonance the others are. -/
theorem C80_violated_resonance {live : List String} (hl : ∀ name ∈ live, ∃ g ∈ materials, g.name = name) {x : ℝ} (h1 : 0.01 ≤ x) (h2 : x ≤ 10)
    {g : Glass} (hg : g ∈ materials) (hlive : g.name ∈ live) {e} (he : g.square x = .error e) (n tol : ℝ) :
    findByIndex live n x tol = .error .zeroDivisionError := by
  unfold findByIndex
  induction live with
  | nil => simp at hlive
  | cons name live ih =>
    obtain ⟨g0, hg0, rfl⟩ := hl name (by simp)
    obtain ⟨g', hg', h7, h8, h9⟩ := classNamed_spec hg0
    cases hs : g'.square x with
    | error e' => simp [findLoop, h7, hs, square_error h1 h2 hs]
    | ok s =>
      have hmem : g.name ∈ live := by
        rcases List.mem_cons.1 hlive with h | h
        · obtain ⟨g'', -, h12, -, h13⟩ := classNamed_spec hg
          rw [h, h7, Except.ok.injEq] at h12
          subst h12
          rw [C56_accepted g h1 h2, ← h13, ← C56_accepted g' h1 h2, hs] at he
          cases he
        · exact h
      simp [findLoop, h7, hs, ih (fun m hm => hl m (by simp [hm])) hmem]

/-- **C80 violated** as soon as the user has implemented a material in a module of their own: at every wavelength where the materials of the module
have an index, no material of any index can be found. -/
theorem C80_violated_user {live own : List String} (hl : ∀ name ∈ live, ∃ g ∈ materials, g.name = name) {c : String}
    (hc : ∀ g ∈ materials, g.name ≠ c) {x : ℝ} (hres : ∀ g ∈ materials, g.name ∈ live → ∃ s, g.square x = .ok s) (h1 : 0.01 ≤ x) (h2 : x ≤ 10)
    (n tol : ℝ) : findByIndex (live ++ c :: own) n x tol = .error .keyError := by
  unfold findByIndex
  induction live with
  | nil =>
    simp only [List.nil_append, findLoop, classNamed]
    rw [List.find?_eq_none.2]
    intro g hg
    simpa using hc g (List.mem_reverse.1 hg)
  | cons name live ih =>
    obtain ⟨g0, hg0, rfl⟩ := hl name (by simp)
    obtain ⟨g', hg', h7, h8, h9⟩ := classNamed_spec hg0
    obtain ⟨s, hs⟩ := hres g0 hg0 (by simp)
    rw [square_of_name hg0 rfl h7 h1 h2] at hs
    simp only [List.cons_append, findLoop, h7, hs, ih (fun m hm => hl m (by simp [hm])) fun g hg hm => hres g hg (by simp [hm])]

/-- `FusedSilica` has such a resonance, at 9.896161 microns. -/
example : ∃ g ∈ materials, g.name = "FusedSilica" ∧ g.square (9.896161 : ℝ) = .error .zeroDivisionError := by
  refine ⟨_, List.mem_iff_getElem?.2 ⟨22, rfl⟩, rfl, ?_⟩
  rw [C56_accepted _ (by norm_num) (by norm_num)]
  simp only [Formula.square, List.foldl_cons, List.foldl_nil, sellmeierTerm]
  norm_num

theorem findLoop_abbe {n x tol : ℝ} {live : List String} {l} (h : findLoop n x tol live = .ok l) :
    ∀ e ∈ l, ∃ g, classNamed e.1 = .ok g ∧ g.abbe = e.2.2 := by
  induction live generalizing l with
  | nil => simp only [findLoop, Except.ok.injEq] at h; subst h; simp
  | cons name live ih =>
    unfold findLoop at h
    cases hc : classNamed name with
    | error e => simp [hc] at h
    | ok g =>
      cases hs : g.square x with
      | error e => simp [hc, hs] at h
      | ok s =>
        cases hr : findLoop n x tol live with
        | error e => simp [hc, hs, hr] at h
        | ok rest =>
          simp only [hc, hs, hr, Except.ok.injEq] at h
          subst h
          intro e he
          split at he
          · rcases List.mem_cons.1 he with rfl | he
            · exact ⟨g, hc, rfl⟩
            · exact ih hr e he
          · exact ih hr e he

/-- **C80 violated** when the two classes `E_BAF11` are alive: the material is returned twice, and the Abbe number of its first class never. -/
theorem C80_violated_twice {x : ℝ} (h1 : 0.28 ≤ x) (h2 : x ≤ 7) {n tol k : ℝ} {g : Glass} (hg : g ∈ materials) (hn : g.name = "E_BAF11")
    (hk : g.n x = .ok (.real k)) (hc : |n - k| < tol) :
    ∃ l, findByIndex (materials.map (·.name)) n x tol = .ok l ∧ (l.map Prod.fst).count "E_BAF11" = 2 ∧
      ∀ e ∈ l, e.1 = "E_BAF11" → e.2.2 = 48.31 := by
  obtain ⟨l, h3, -, h5, h6⟩ := C80_real (live := materials.map (·.name)) (by simp) h1 h2 n tol
  refine ⟨l, h3, ?_, ?_⟩
  · rw [← hn, h5 g hg k hk, if_pos hc, hn]
    decide +kernel
  · intro e he hne
    obtain ⟨g', h7, h8⟩ := findLoop_abbe h3 e he
    rw [hne] at h7
    have h9 : (classNamed "E_BAF11").map (·.abbe) = .ok 48.31 := by decide +kernel
    rw [h7] at h9
    simpa [Except.map, h8] using h9

/-- Such an `x` and `n` exist. -/
example : ∃ g ∈ materials, g.name = "E_BAF11" ∧ ∃ k, g.n (0.5 : ℝ) = .ok (.real k) ∧ |k - k| < 1 := by
  obtain ⟨g, hg, hn⟩ : ∃ g ∈ materials, g.name = "E_BAF11" := ⟨_, List.mem_iff_getElem?.2 ⟨13, rfl⟩, rfl⟩
  obtain ⟨k, hk, -⟩ := C56_glass_partial hg (by rw [hn]; decide) (x := 0.5) (by norm_num) (by norm_num)
  exact ⟨g, hg, hn, k, hk, by simp⟩

end RT
