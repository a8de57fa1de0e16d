import Verif.Lemmas.Lenses
import Verif.Props.Cardinal
import Verif.Lemmas.Beam
import Mathlib.Analysis.SpecialFunctions.Trigonometric.Inverse

/-! # C68, C69: lenses made of glasses, and how they are drawn -/

set_option linter.unusedSectionVars false

namespace RT
open PyNum Ext

/-- `asin`, `cos`, `sin`, `tan` without rounding. On infinities and `nan` the value is `nan` (`math.asin` has refused infinities before). -/
noncomputable instance : PyTrig (Ext ℝ) where
  asin | fin x => fin (Real.arcsin x) | _ => nan
  cos | fin x => fin (Real.cos x) | _ => nan
  sin | fin x => fin (Real.sin x) | _ => nan
  tan | fin x => fin (Real.tan x) | _ => nan

@[simp] theorem asin_fin (x : ℝ) : PyTrig.asin (fin x) = fin (Real.arcsin x) := rfl
@[simp] theorem cos_fin (x : ℝ) : PyTrig.cos (fin x) = fin (Real.cos x) := rfl
@[simp] theorem sin_fin (x : ℝ) : PyTrig.sin (fin x) = fin (Real.sin x) := rfl
@[simp] theorem tan_fin (x : ℝ) : PyTrig.tan (fin x) = fin (Real.tan x) := rfl

/-! ## The depth of a spherical cap -/

/-- Specification: by how much a sphere of radius `R` through the origin, centred on the axis, is displaced along the axis at height `h`. -/
noncomputable def sag (h R : ℝ) : ℝ := if 0 < R then R - Real.sqrt (R ^ 2 - h ^ 2) else R + Real.sqrt (R ^ 2 - h ^ 2)

/-- `sag` is on the sphere centred at `R`, on the side of the origin. -/
theorem sag_spec {h R : ℝ} (hh : |h| ≤ |R|) : (sag h R - R) ^ 2 + h ^ 2 = R ^ 2 ∧ |sag h R| ≤ |R| := by
  have h2 : h ^ 2 ≤ R ^ 2 := sq_le_sq.2 hh
  have h3 : 0 ≤ R ^ 2 - h ^ 2 := by linarith
  have h4 := Real.sq_sqrt h3
  have h5 := Real.sqrt_nonneg (R ^ 2 - h ^ 2)
  have h6 : Real.sqrt (R ^ 2 - h ^ 2) ≤ |R| := by
    rw [← Real.sqrt_sq_eq_abs]; exact Real.sqrt_le_sqrt (by nlinarith [sq_nonneg h])
  unfold sag
  split_ifs with hR
  · refine ⟨by nlinarith, ?_⟩
    rw [abs_of_pos hR] at h6 ⊢
    rw [abs_le]; constructor <;> linarith
  · refine ⟨by nlinarith, ?_⟩
    rw [abs_of_nonpos (not_lt.1 hR)] at h6 ⊢
    rw [abs_le]; constructor <;> linarith

theorem sag_eq {h R : ℝ} (hR : R ≠ 0) : R * (1 - Real.cos (Real.arcsin (h / |R|))) = sag h R := by
  rw [Real.cos_arcsin]
  have hR' : 0 < |R| := abs_pos.2 hR
  have e : Real.sqrt (R ^ 2 - h ^ 2) = |R| * Real.sqrt (1 - (h / |R|) ^ 2) := by
    rw [← Real.sqrt_sq_eq_abs, ← Real.sqrt_mul (sq_nonneg R)]
    congr 1
    rw [div_pow, Real.sq_sqrt (sq_nonneg R)]
    field_simp
  unfold sag
  split_ifs with h0
  · rw [e, abs_of_pos h0]; ring
  · have : R < 0 := lt_of_le_of_ne (not_lt.1 h0) hR
    rw [e, abs_of_neg this]; ring

/-! ## C68 -/

/-- the thickness at the edge, when both surfaces are curved -/
theorem edgeCorner_fin {h R v : ℝ} (hR : R ≠ 0) (h0 : 0 ≤ h) (hh : h ≤ |R|) :
    edgeCorner (fin h) (fin R) (some (fin v)) = .ok (fin (v + sag h R)) := by
  have hR' : 0 < |R| := abs_pos.2 hR
  have hq : h / |R| ≤ 1 := by rw [div_le_one hR']; exact hh
  have hq0 : 0 ≤ h / |R| := div_nonneg h0 hR'.le
  unfold edgeCorner
  simp only [abs_fin, pyDiv_fin _ _ hR'.ne', bind, Except.bind, pyAsin, one_eq, neg_fin, lt_fin, asin_fin, pure, Except.pure]
  rw [decide_eq_false (by linarith), decide_eq_false (by linarith)]
  simp [sag_eq hR]

/-- a flat surface: the position of its edge is `nan` -/
theorem edgeCorner_flat {h v : ℝ} {R : Ext ℝ} (hR : R = pinf ∨ R = ninf) :
    edgeCorner (fin h) R (some (fin v)) = .ok nan := by
  have h0 : ¬ ((1 : ℝ) < 0) := by norm_num
  have e1 : (pinf : Ext ℝ) * fin 0 = nan := by show infOf (0 : ℝ) = nan; simp [infOf]
  have e2 : (ninf : Ext ℝ) * fin 0 = nan := by show infOf (-0 : ℝ) = nan; simp [infOf]
  have e3 : (fin v : Ext ℝ) + nan = nan := rfl
  rcases hR with rfl | rfl <;>
  simp [edgeCorner, pyDiv, bind, Except.bind, pyAsin, pure, Except.pure, h0, e1, e2, e3]

theorem edgeCorner_large {h R : ℝ} {v : Option (Ext ℝ)} (hR : R ≠ 0) (hh : |R| < h) :
    edgeCorner (fin h) (fin R) v = .error .valueError := by
  have hR' : 0 < |R| := abs_pos.2 hR
  have hq : 1 < h / |R| := by rw [one_lt_div hR']; exact hh
  unfold edgeCorner
  simp [pyDiv_fin _ _ hR'.ne', bind, Except.bind, pyAsin, hq]

/-- Specification: more than `tol` away, relatively to what is expected. -/
def offBy (tol got expected : ℝ) : Prop := tol < |(got - expected) / expected|

open Classical in
/-- Specification of the warnings of a lens of matrix `s`, with half diameter `h`: the focal lengths, and the thickness at the edge when both
surfaces are curved. -/
noncomputable def lensWarnings (s : Sys ℝ) (fa fb te h : ℝ) (R R' : Ext ℝ) : List LensWarn :=
  (if offBy (1 / 100) (-1 / s.c) fa then [.focal] else []) ++ (if offBy (1 / 100) (-s.a / s.c) fb then [.backFocal] else []) ++
  match R, R' with
  | fin r, fin r' => if 5 / 100 < |(s.len + sag h r' - sag h r) / te - 1| then [.edge] else []
  | _, _ => []

/-- A radius that the check of the edge accepts: the surface is flat, or its diameter is at least that of the lens. -/
def EdgeOk (h : ℝ) (R : Ext ℝ) : Prop := R = pinf ∨ R = ninf ∨ ∃ r, R = fin r ∧ r ≠ 0 ∧ h ≤ |r|

/-- The header of a lens in air. -/
structure LensHeader (g : Group (Ext ℝ)) (s : Sys ℝ) (d : ℝ) : Prop where
  den : Den g.mat s
  nf : s.nf = 1
  nb : s.nb = 1
  fv : g.mat.frontVertex = some (fin 0)
  bv : g.mat.backVertex = some (fin s.len)
  diam : g.toElem.largestDiameter = fin d

open Classical in
theorem lensChecks_eq {g : Group (Ext ℝ)} {s : Sys ℝ} {d fa fb te : ℝ} {R R' : Ext ℝ} (hg : LensHeader g s d) (hd : 0 < d)
    (hL : s.len ≠ 0) (hc : 1 / 100000 < |s.c|) (hfa : fa ≠ 0) (hfb : fb ≠ 0) (hte : te ≠ 0) (hR : EdgeOk (d / 2) R)
    (hR' : EdgeOk (d / 2) R') (x : Except PyErr Unit) (pick : Ext ℝ × Ext ℝ → Ext ℝ) (hp : pick = Prod.fst ∨ pick = Prod.snd) (intF intB : Bool) :
    lensChecks x pick g (fin s.len) (fin fa) (fin fb) R R' (fin te) intF intB =
      if (intF = true ∧ offBy (1 / 100) (-1 / s.c) fa) ∨ (intB = true ∧ offBy (1 / 100) (-s.a / s.c) fb) then .error .valueError
      else .ok (lensWarnings s fa fb te (d / 2) R R') := by
  have hb : s.nb ≠ 0 := by rw [hg.nb]; exact one_ne_zero
  have hc0 : s.c ≠ 0 := by intro h0; rw [h0] at hc; norm_num at hc
  have e1 := effectiveFocalLengths_eq hg.den hb hc
  have e2 := principalPlanePositions_eq hg.den hb hc 0
  have e3 : g.mat.backFocalLength = .ok (some (fin (-s.a / s.c))) := by
    unfold Mat.backFocalLength
    rw [hg.bv, hasPower_den hg.den, decide_eq_true hc, e1, zero_eq, e2]
    simp only [if_true, bind, Except.bind, pure, Except.pure, fin_add_fin, fin_sub_fin, Except.ok.injEq, Option.some.injEq, fin.injEq]
    field_simp; ring
  rw [hg.nf, hg.nb] at e1
  have hpick : pick (fin (-(1 / 1) / s.c), fin (-1 / s.c)) = fin (-1 / s.c) := by
    rcases hp with rfl | rfl
    · norm_num
    · rfl
  have hedge : ∀ {r : Ext ℝ} {v : ℝ}, EdgeOk (d / 2) r →
      edgeCorner (fin (d / 2)) r (some (fin v)) = .ok (match r with | fin r => fin (v + sag (d / 2) r) | _ => nan) := by
    rintro r v (rfl | rfl | ⟨r, rfl, h1, h2⟩)
    · exact edgeCorner_flat (Or.inl rfl)
    · exact edgeCorner_flat (Or.inr rfl)
    · exact edgeCorner_fin h1 (by linarith) h2
  have hhalf : half (fin d) = fin (d / 2) := by simp [half]
  unfold lensChecks
  simp only [hg.den.L, fin_sub_fin, sub_self, abs_fin, abs_zero, pyDiv_fin _ _ hL, zero_div, bind, Except.bind, lit_eq, lt_fin, e1, hpick,
    pyDiv_fin _ _ hfa, e3, pyDiv_fin _ _ hfb, hg.diam, hg.fv, hg.bv, pure, Except.pure, hhalf, hedge hR, hedge hR']
  have hz : decide (((2 / 100 : ℚ) : ℝ) < 0) = false := by norm_num
  have k1 : ((1 / 100 : ℚ) : ℝ) = 1 / 100 := by norm_num
  have k5 : ((5 / 100 : ℚ) : ℝ) = 5 / 100 := by norm_num
  simp only [hz, Bool.false_eq_true, if_false, warnIf, k1, k5, lensWarnings, offBy]
  have hn1 : ∀ y : Ext ℝ, nan - y = nan := fun y => by cases y <;> rfl
  have hn2 : ∀ y : Ext ℝ, y - nan = nan := fun y => by cases y <;> rfl
  have hn3 : pyDiv nan (fin te) = .ok nan := by simp [pyDiv, hte]; rfl
  have ht : ∀ (i : Bool) (p : Prop) [Decidable p], textOf (i && decide p) = if i = true ∧ p then .error .valueError else .ok () := by
    intro i p _; cases i <;> by_cases hp : p <;> simp [textOf, hp]
  simp only [ht]
  by_cases c1 : intF = true ∧ 1 / 100 < |(-1 / s.c - fa) / fa|
  · simp only [c1, true_or, and_self, if_true]
  rw [if_neg c1]
  by_cases c2 : intB = true ∧ 1 / 100 < |(-s.a / s.c - fb) / fb|
  · simp only [c2, or_true, and_self, if_true]
  have c3 := not_or.2 ⟨c1, c2⟩
  rw [if_neg c2]
  simp only [c3, if_false]
  rcases hR with rfl | rfl | ⟨r, rfl, -, -⟩ <;> rcases hR' with rfl | rfl | ⟨r', rfl, -, -⟩ <;>
    simp [hn1, hn2, hn3, pyDiv_fin _ _ hte]

/-- Specification of a cemented doublet in air: three surfaces of curvatures `k1`, `k2`, `k3`, two glasses. -/
def Sys.doublet {K : Type} [Field K] (n1 n2 k1 k2 k3 t1 t2 : K) : Sys K :=
  ((((interface 1 n1 k1).andThen (space t1 n1)).andThen (interface n1 n2 k2)).andThen (space t2 n2)).andThen (interface n2 1 k3)

theorem EdgeOk.radius {h : ℝ} {R : Ext ℝ} (hR : EdgeOk h R) : RadiusOk R := by
  rcases hR with rfl | rfl | ⟨r, rfl, h, -⟩
  · exact radiusOk_pinf
  · exact radiusOk_ninf
  · exact radiusOk_fin.2 h

/-- What a lens made of a stack of glasses is: the elements, their product, the vertices, the opening. -/
structure IsStack (g : Group (Ext ℝ)) (s : Sys ℝ) (d : ℝ) (gs : List (Glass1 ℝ)) (R : Ext ℝ) (label : String) : Prop where
  elems : g.elems = stackElems (fin d) 1 gs R
  den : Den g.mat s
  fv : g.mat.frontVertex = some (fin 0)
  bv : g.mat.backVertex = some (fin s.len)
  diam : g.mat.apertureDiameter = fin d
  flipped : g.mat.isFlipped = false
  kind : g.mat.kind = .group
  label : g.mat.label = label

theorem compoundGroup_stack {d : ℝ} (hd : 0 < d) {gs : List (Glass1 ℝ)} {R : Ext ℝ} (hg : ∀ g ∈ gs, g.n ≠ 0) (label : String) :
    ∃ g, compoundGroup (stackElems (fin d) 1 gs R) (fin d) label = .ok g ∧
      IsStack g { Sys.chain (Sys.one 1) (stackSys 1 gs R) with nf := 1, nb := 1 } d gs R label ∧
      LensHeader g { Sys.chain (Sys.one 1) (stackSys 1 gs R) with nf := 1, nb := 1 } d := by
  obtain ⟨g, h1, h2, h3, h4, h5, h6, h7, h8, h9, h10, h11, h12⟩ := stack_new (diam := fin d) (R := R) hg label
  refine ⟨{ g with mat := { g.mat with apertureDiameter := fin d } }, ?_, ⟨h2, ?_, h6, ?_, rfl, h9, h11, h12⟩, ⟨?_, rfl, rfl, h6, ?_, ?_⟩⟩
  · simp only [compoundGroup, h1, bind, Except.bind, pure, Except.pure]
  · exact ⟨h3.A, h3.B, h3.C, h3.D, h3.L, h3.nf, h3.nb⟩
  · rw [h4]; exact h7
  · exact ⟨h3.A, h3.B, h3.C, h3.D, h3.L, h3.nf, h3.nb⟩
  · rw [h4]; exact h7
  · simp only [Group.toElem, h2]
    exact stack_largestDiameter hd

theorem singletGroup_eq {d tc k : ℝ} {R1 R2 : Ext ℝ} (hd : 0 < d) (hk : k ≠ 0) (h1 : RadiusOk R1) (h2 : RadiusOk R2) (label : String) :
    singletGroup R1 R2 (fin tc) (fin k) (fin d) label =
      compoundGroup (stackElems (fin d) 1 [⟨R1, tc, k⟩] R2) (fin d) label := by
  have hd' : DiamOk (fin d) := diamOk_fin.2 hd
  unfold singletGroup
  rw [one_eq, mkDielectric_eq one_ne_zero hk h1 hd', mkDielectric_eq hk one_ne_zero h2 hd']
  simp only [bind, Except.bind]
  rw [inf_eq, mkSpace_eq tc hk diamOk_pinf]
  rfl

theorem singlet_sys (k tc : ℝ) (R1 R2 : Ext ℝ) :
    ({ Sys.chain (Sys.one 1) (stackSys 1 [⟨R1, tc, k⟩] R2) with nf := 1, nb := 1 } : Sys ℝ) = Sys.thick k (curv R1) (curv R2) tc := by
  simp only [stackSys, Sys.chain, List.foldl_cons, List.foldl_nil, Sys.thick, Sys.andThen, Sys.one, Sys.interface, Sys.space, Sys.mk.injEq]
  refine ⟨?_, ?_, ?_, ?_, ?_, trivial, trivial⟩ <;> ring

/-- **C68.** A singlet: whatever the radii (finite or not), the thickness, the index (given, or that of the material at the wavelength) and
the diameter, as long as the diameter is not larger than the spheres and the power is more than 1e-5 (and, if `fb` is written as a Python `int`, the
focal lengths are the expected ones), the lens is made of the front surface,
the glass and the back surface in this order, its matrix, length, vertices and indices are those of the thick lens they describe, and the
warnings are exactly those of a focal length or back focal length off by more than 1 %, or an edge thickness off by more than 5 %. -/
theorem C68_singlet {f fb tc te k d : ℝ} {R1 R2 : Ext ℝ} {n : Option (Ext ℝ)} {mat : Option (Ext ℝ → Except PyErr (Ext ℝ))}
    {wavelength wavelengthRef : Option (Ext ℝ)} (hi : glassIndex n mat wavelength wavelengthRef = .ok (some (fin k))) (hk : k ≠ 0)
    (hd : 0 < d) (htc : tc ≠ 0) (hf : f ≠ 0) (hfb : fb ≠ 0) (hte : te ≠ 0) (h1 : EdgeOk (d / 2) R1) (h2 : EdgeOk (d / 2) R2)
    (hc : 1 / 100000 < |(Sys.thick k (curv R1) (curv R2) tc).c|) (label : String) {fbInt : Bool} (hint : fbInt = true →
      ¬ offBy (1 / 100) (-1 / (Sys.thick k (curv R1) (curv R2) tc).c) f ∧
      ¬ offBy (1 / 100) (-(Sys.thick k (curv R1) (curv R2) tc).a / (Sys.thick k (curv R1) (curv R2) tc).c) fb) :
    ∃ l, mkSinglet (fin f) (fin fb) R1 R2 (fin tc) (fin te) n (fin d) mat wavelengthRef label wavelength fbInt =
        .ok (l, lensWarnings (Sys.thick k (curv R1) (curv R2) tc) f fb te (d / 2) R1 R2) ∧
      IsStack l.group (Sys.thick k (curv R1) (curv R2) tc) d [⟨R1, tc, k⟩] R2 label ∧
      l.glasses = .singlet R1 R2 (fin tc) (fin k) := by
  obtain ⟨g, e1, e2, e3⟩ := compoundGroup_stack hd (gs := [⟨R1, tc, k⟩]) (R := R2) (by simpa using hk) label
  rw [singlet_sys] at e2 e3
  have hlen : (Sys.thick k (curv R1) (curv R2) tc).len = tc := by simp [Sys.thick, Sys.andThen, Sys.interface, Sys.space]
  refine ⟨⟨g, .singlet R1 R2 (fin tc) (fin k)⟩, ?_, e2, rfl⟩
  have e4 := lensChecks_eq (fa := f) (fb := fb) (te := te) e3 hd (by rw [hlen]; exact htc) hc hf hfb hte h1 h2 (.error .attributeError)
    Prod.fst (Or.inl rfl) fbInt fbInt
  rw [hlen, if_neg (by rintro (⟨h, h'⟩ | ⟨h, h'⟩); exacts [(hint h).1 h', (hint h).2 h'])] at e4
  unfold mkSinglet
  simp only [hi, bind, Except.bind, singletGroup_eq hd hk h1.radius h2.radius, e1, e4, pure, Except.pure]

theorem doubletGroup_eq {d tc1 tc2 k1 k2 : ℝ} {R1 R2 R3 : Ext ℝ} (hd : 0 < d) (hk1 : k1 ≠ 0) (hk2 : k2 ≠ 0) (h1 : RadiusOk R1)
    (h2 : RadiusOk R2) (h3 : RadiusOk R3) (label : String) :
    doubletGroup R1 R2 R3 (fin tc1) (fin tc2) (fin k1) (fin k2) (fin d) label =
      compoundGroup (stackElems (fin d) 1 [⟨R1, tc1, k1⟩, ⟨R2, tc2, k2⟩] R3) (fin d) label := by
  have hd' : DiamOk (fin d) := diamOk_fin.2 hd
  unfold doubletGroup
  rw [one_eq, mkDielectric_eq one_ne_zero hk1 h1 hd', mkDielectric_eq hk1 hk2 h2 hd', mkDielectric_eq hk2 one_ne_zero h3 hd', inf_eq,
    mkSpace_eq tc1 hk1 diamOk_pinf, mkSpace_eq tc2 hk2 diamOk_pinf]
  rfl

theorem doublet_sys (k1 k2 tc1 tc2 : ℝ) (R1 R2 R3 : Ext ℝ) :
    ({ Sys.chain (Sys.one 1) (stackSys 1 [⟨R1, tc1, k1⟩, ⟨R2, tc2, k2⟩] R3) with nf := 1, nb := 1 } : Sys ℝ) =
      Sys.doublet k1 k2 (curv R1) (curv R2) (curv R3) tc1 tc2 := by
  simp only [stackSys, Sys.chain, List.foldl_cons, List.foldl_nil, Sys.doublet, Sys.andThen, Sys.one, Sys.interface, Sys.space, Sys.mk.injEq]
  refine ⟨?_, ?_, ?_, ?_, ?_, trivial, trivial⟩ <;> ring

/-- **C68.** The same for a cemented doublet, of three surfaces and two glasses. -/
theorem C68_doublet {fa fb tc1 tc2 te k1 k2 d : ℝ} {R1 R2 R3 : Ext ℝ} {n1 n2 : Option (Ext ℝ)}
    {mat1 mat2 : Option (Ext ℝ → Except PyErr (Ext ℝ))} {wavelength wavelengthRef : Option (Ext ℝ)}
    (hi : glassIndices n1 n2 mat1 mat2 wavelength wavelengthRef = .ok (some (fin k1), some (fin k2))) (hk1 : k1 ≠ 0) (hk2 : k2 ≠ 0)
    (hd : 0 < d) (htc : tc1 + tc2 ≠ 0) (hf : fa ≠ 0) (hfb : fb ≠ 0) (hte : te ≠ 0) (h1 : EdgeOk (d / 2) R1) (h2 : RadiusOk R2)
    (h3 : EdgeOk (d / 2) R3) (hc : 1 / 100000 < |(Sys.doublet k1 k2 (curv R1) (curv R2) (curv R3) tc1 tc2).c|) (label : String) {faInt fbInt : Bool}
    (hia : faInt = true → ¬ offBy (1 / 100) (-1 / (Sys.doublet k1 k2 (curv R1) (curv R2) (curv R3) tc1 tc2).c) fa)
    (hib : fbInt = true → ¬ offBy (1 / 100) (-(Sys.doublet k1 k2 (curv R1) (curv R2) (curv R3) tc1 tc2).a /
      (Sys.doublet k1 k2 (curv R1) (curv R2) (curv R3) tc1 tc2).c) fb) :
    ∃ l, mkDoublet (fin fa) (fin fb) R1 R2 R3 (fin tc1) (fin tc2) (fin te) (fin d) n1 n2 mat1 mat2 wavelengthRef label wavelength faInt fbInt =
        .ok (l, lensWarnings (Sys.doublet k1 k2 (curv R1) (curv R2) (curv R3) tc1 tc2) fa fb te (d / 2) R1 R3) ∧
      IsStack l.group (Sys.doublet k1 k2 (curv R1) (curv R2) (curv R3) tc1 tc2) d [⟨R1, tc1, k1⟩, ⟨R2, tc2, k2⟩] R3 label ∧
      l.glasses = .doublet R1 R2 R3 (fin tc1) (fin tc2) (fin k1) (fin k2) := by
  obtain ⟨g, e1, e2, e3⟩ := compoundGroup_stack hd (gs := [⟨R1, tc1, k1⟩, ⟨R2, tc2, k2⟩]) (R := R3) (by simp [hk1, hk2]) label
  rw [doublet_sys] at e2 e3
  have hlen : (Sys.doublet k1 k2 (curv R1) (curv R2) (curv R3) tc1 tc2).len = tc1 + tc2 := by
    simp [Sys.doublet, Sys.andThen, Sys.interface, Sys.space]
  refine ⟨⟨g, .doublet R1 R2 R3 (fin tc1) (fin tc2) (fin k1) (fin k2)⟩, ?_, e2, rfl⟩
  have e4 := lensChecks_eq (fa := fa) (fb := fb) (te := te) e3 hd (by rw [hlen]; exact htc) hc hf hfb hte h1 h3 (.ok ())
    Prod.snd (Or.inr rfl) faInt fbInt
  rw [hlen, if_neg (by rintro (⟨h, h'⟩ | ⟨h, h'⟩); exacts [hia h h', hib h h'])] at e4
  unfold mkDoublet
  simp only [hi, bind, Except.bind, doubletGroup_eq hd hk1 hk2 h1.radius h2 h3.radius, e1, fin_add_fin, e4, pure, Except.pure]

/-- **C68** is violated when the focal lengths are written as Python `int`s: instead of a warning that the back focal length `fb` or the focal length
is off by more than 1 %, a singlet whose `fb` is an `int` raises `ValueError` (the text of the warning cannot be made). -/
theorem C68_violated_int {f fb tc te k d : ℝ} {R1 R2 : Ext ℝ} {n : Option (Ext ℝ)} {mat : Option (Ext ℝ → Except PyErr (Ext ℝ))}
    {wavelength wavelengthRef : Option (Ext ℝ)} (hi : glassIndex n mat wavelength wavelengthRef = .ok (some (fin k))) (hk : k ≠ 0)
    (hd : 0 < d) (htc : tc ≠ 0) (hf : f ≠ 0) (hfb : fb ≠ 0) (hte : te ≠ 0) (h1 : EdgeOk (d / 2) R1) (h2 : EdgeOk (d / 2) R2)
    (hc : 1 / 100000 < |(Sys.thick k (curv R1) (curv R2) tc).c|) (label : String)
    (hoff : offBy (1 / 100) (-1 / (Sys.thick k (curv R1) (curv R2) tc).c) f ∨
      offBy (1 / 100) (-(Sys.thick k (curv R1) (curv R2) tc).a / (Sys.thick k (curv R1) (curv R2) tc).c) fb) :
    mkSinglet (fin f) (fin fb) R1 R2 (fin tc) (fin te) n (fin d) mat wavelengthRef label wavelength true = .error .valueError := by
  obtain ⟨g, e1, e2, e3⟩ := compoundGroup_stack hd (gs := [⟨R1, tc, k⟩]) (R := R2) (by simpa using hk) label
  rw [singlet_sys] at e2 e3
  have hlen : (Sys.thick k (curv R1) (curv R2) tc).len = tc := by simp [Sys.thick, Sys.andThen, Sys.interface, Sys.space]
  have e4 := lensChecks_eq (fa := f) (fb := fb) (te := te) e3 hd (by rw [hlen]; exact htc) hc hf hfb hte h1 h2 (.error .attributeError)
    Prod.fst (Or.inl rfl) true true
  rw [hlen, if_pos (hoff.imp (fun h => ⟨rfl, h⟩) fun h => ⟨rfl, h⟩)] at e4
  unfold mkSinglet
  simp only [hi, bind, Except.bind, singletGroup_eq hd hk h1.radius h2.radius, e1, e4, pure, Except.pure]

/-- **C68** is violated in the same way by doublets whose focal length `fa`, or back focal length `fb`, is an `int`. -/
theorem C68_violated_int_doublet {fa fb tc1 tc2 te k1 k2 d : ℝ} {R1 R2 R3 : Ext ℝ} {n1 n2 : Option (Ext ℝ)}
    {mat1 mat2 : Option (Ext ℝ → Except PyErr (Ext ℝ))} {wavelength wavelengthRef : Option (Ext ℝ)}
    (hi : glassIndices n1 n2 mat1 mat2 wavelength wavelengthRef = .ok (some (fin k1), some (fin k2))) (hk1 : k1 ≠ 0) (hk2 : k2 ≠ 0)
    (hd : 0 < d) (htc : tc1 + tc2 ≠ 0) (hf : fa ≠ 0) (hfb : fb ≠ 0) (hte : te ≠ 0) (h1 : EdgeOk (d / 2) R1) (h2 : RadiusOk R2)
    (h3 : EdgeOk (d / 2) R3) (hc : 1 / 100000 < |(Sys.doublet k1 k2 (curv R1) (curv R2) (curv R3) tc1 tc2).c|) (label : String) {faInt fbInt : Bool}
    (hoff : (faInt = true ∧ offBy (1 / 100) (-1 / (Sys.doublet k1 k2 (curv R1) (curv R2) (curv R3) tc1 tc2).c) fa) ∨
      (fbInt = true ∧ offBy (1 / 100) (-(Sys.doublet k1 k2 (curv R1) (curv R2) (curv R3) tc1 tc2).a /
        (Sys.doublet k1 k2 (curv R1) (curv R2) (curv R3) tc1 tc2).c) fb)) :
    mkDoublet (fin fa) (fin fb) R1 R2 R3 (fin tc1) (fin tc2) (fin te) (fin d) n1 n2 mat1 mat2 wavelengthRef label wavelength faInt fbInt =
      .error .valueError := by
  obtain ⟨g, e1, e2, e3⟩ := compoundGroup_stack hd (gs := [⟨R1, tc1, k1⟩, ⟨R2, tc2, k2⟩]) (R := R3) (by simp [hk1, hk2]) label
  rw [doublet_sys] at e2 e3
  have hlen : (Sys.doublet k1 k2 (curv R1) (curv R2) (curv R3) tc1 tc2).len = tc1 + tc2 := by
    simp [Sys.doublet, Sys.andThen, Sys.interface, Sys.space]
  have e4 := lensChecks_eq (fa := fa) (fb := fb) (te := te) e3 hd (by rw [hlen]; exact htc) hc hf hfb hte h1 h3 (.ok ())
    Prod.snd (Or.inr rfl) faInt fbInt
  rw [hlen, if_pos hoff] at e4
  unfold mkDoublet
  simp only [hi, bind, Except.bind, doubletGroup_eq hd hk1 hk2 h1.radius h2 h3.radius, e1, fin_add_fin, e4, pure, Except.pure]

/-- A plano-convex lens of focal length 100 announced with a focal length of 98 is off by more than 1 %. -/
example : offBy (1 / 100) (-1 / (Sys.thick (3 / 2) (curv (fin 50)) (curv pinf) 3 : Sys ℝ).c) 98 := by
  have h : (Sys.thick (3 / 2) (curv (fin 50)) (curv pinf) 3 : Sys ℝ).c = -1 / 100 := by
    rw [Sys.thick_eq _ _ _ (by norm_num)]; simp; norm_num
  rw [h]; norm_num [offBy]

/-- A plano-convex lens with R = 50, index 1.5, thickness 3, diameter 25 meets the hypotheses. -/
example : EdgeOk (25 / 2) (fin 50) ∧ EdgeOk (25 / 2) pinf ∧ 1 / 100000 < |(Sys.thick (3 / 2) (curv (fin 50)) (curv pinf) 3 : Sys ℝ).c| ∧
    (Sys.thick (3 / 2) (curv (fin 50)) (curv pinf) 3 : Sys ℝ).c = -1 / 100 := by
  have h : (Sys.thick (3 / 2) (curv (fin 50)) (curv pinf) 3 : Sys ℝ).c = -1 / 100 := by
    rw [Sys.thick_eq _ _ _ (by norm_num)]; simp; norm_num
  refine ⟨Or.inr (Or.inr ⟨50, rfl, by norm_num, by norm_num⟩), Or.inl rfl, ?_, h⟩
  rw [h]; norm_num [abs_of_neg]

/-- A doublet with R = 50, -40, -150, indices 1.5 and 1.6, meets the hypotheses. -/
example : EdgeOk (25 / 2) (fin 50) ∧ EdgeOk (25 / 2) (fin (-150)) ∧
    1 / 100000 < |(Sys.doublet (3 / 2) (8 / 5) (curv (fin 50)) (curv (fin (-40))) (curv (fin (-150))) 5 2 : Sys ℝ).c| := by
  refine ⟨Or.inr (Or.inr ⟨50, rfl, by norm_num, by norm_num⟩), Or.inr (Or.inr ⟨-150, rfl, by norm_num, by norm_num⟩), ?_⟩
  simp only [Sys.doublet, Sys.andThen, Sys.interface, Sys.space, curv]
  norm_num [abs_of_neg]

/-- **C68** is violated by weak lenses: below a power of 1e-5, whatever the focal lengths announced, even the right ones, the lens cannot be
made: the back focal length is `None`. -/
theorem C68_weak_violated {f fb tc k d : ℝ} {te R1 R2 : Ext ℝ} {mat : Option (Ext ℝ → Except PyErr (Ext ℝ))}
    {n wavelength wavelengthRef : Option (Ext ℝ)} (hi : glassIndex n mat wavelength wavelengthRef = .ok (some (fin k))) (hk : k ≠ 0)
    (hd : 0 < d) (htc : tc ≠ 0) (hf : f ≠ 0) (h1 : RadiusOk R1) (h2 : RadiusOk R2)
    (hc : |(Sys.thick k (curv R1) (curv R2) tc).c| ≤ 1 / 100000) (label : String) :
    mkSinglet (fin f) (fin fb) R1 R2 (fin tc) te n (fin d) mat wavelengthRef label wavelength = .error .typeError := by
  obtain ⟨g, e1, e2, e3⟩ := compoundGroup_stack hd (gs := [⟨R1, tc, k⟩]) (R := R2) (by simpa using hk) label
  rw [singlet_sys] at e2 e3
  have hlen : (Sys.thick k (curv R1) (curv R2) tc).len = tc := by simp [Sys.thick, Sys.andThen, Sys.interface, Sys.space]
  have hp : g.mat.hasPower = false := by rw [hasPower_den e3.den]; exact decide_eq_false (not_lt.2 hc)
  have e4 : g.mat.effectiveFocalLengths = .ok (pinf, pinf) := by simp [Mat.effectiveFocalLengths, hp, pure, Except.pure]
  have e5 : g.mat.backFocalLength = .ok none := by simp [Mat.backFocalLength, e3.bv, hp, pure, Except.pure]
  have hz : decide (((2 / 100 : ℚ) : ℝ) < 0) = false := by norm_num
  have hq : ∃ q, pyDiv (pinf - fin f : Ext ℝ) (fin f) = .ok q := ⟨infOf f, by simp [pyDiv, hf]⟩
  obtain ⟨q, hq⟩ := hq
  unfold mkSinglet
  simp only [hi, bind, Except.bind, singletGroup_eq hd hk h1 h2, e1, lensChecks, e3.den.L, hlen, fin_sub_fin, sub_self, abs_fin, abs_zero,
    pyDiv_fin _ _ htc, zero_div, lit_eq, lt_fin, hz, Bool.false_eq_true, if_false, pure, Except.pure, e4, e5, hq]
  rfl

/-- A lens of focal length 200 m is refused. -/
example : |(Sys.thick (3 / 2) (curv (fin 100000)) (curv pinf) 3 : Sys ℝ).c| ≤ 1 / 100000 := by
  rw [Sys.thick_eq _ _ _ (by norm_num)]; simp; norm_num [abs_of_neg]

/-- **C68.** A lens wider than the sphere of its first surface is refused (the power is more than 1e-5). -/
theorem C68_too_wide {f fb tc k d r : ℝ} {te R2 : Ext ℝ} {mat : Option (Ext ℝ → Except PyErr (Ext ℝ))}
    {n wavelength wavelengthRef : Option (Ext ℝ)} (hi : glassIndex n mat wavelength wavelengthRef = .ok (some (fin k))) (hk : k ≠ 0)
    (hd : 0 < d) (htc : tc ≠ 0) (hf : f ≠ 0) (hfb : fb ≠ 0) (hr : r ≠ 0) (h2 : RadiusOk R2) (hw : |r| < d / 2)
    (hc : 1 / 100000 < |(Sys.thick k (curv (fin r)) (curv R2) tc).c|) (label : String) :
    mkSinglet (fin f) (fin fb) (fin r) R2 (fin tc) te n (fin d) mat wavelengthRef label wavelength = .error .valueError := by
  obtain ⟨g, e1, e2, e3⟩ := compoundGroup_stack hd (gs := [⟨fin r, tc, k⟩]) (R := R2) (by simpa using hk) label
  rw [singlet_sys] at e2 e3
  have hlen : (Sys.thick k (curv (fin r)) (curv R2) tc).len = tc := by simp [Sys.thick, Sys.andThen, Sys.interface, Sys.space]
  have hb : (Sys.thick k (curv (fin r)) (curv R2) tc).nb ≠ 0 := by rw [e3.nb]; exact one_ne_zero
  have e4 := effectiveFocalLengths_eq e3.den hb hc
  obtain ⟨_, bfl, _, e5, _⟩ := C25_focal_lengths e3.den hb hc e3.fv e3.bv
  have hz : decide (((2 / 100 : ℚ) : ℝ) < 0) = false := by norm_num
  have hhalf : half (fin d) = fin (d / 2) := by simp [half]
  unfold mkSinglet
  simp only [hi, bind, Except.bind, singletGroup_eq hd hk (radiusOk_fin.2 hr) h2, e1, lensChecks, e3.den.L, hlen, fin_sub_fin, sub_self,
    abs_fin, abs_zero, pyDiv_fin _ _ htc, zero_div, lit_eq, lt_fin, hz, Bool.false_eq_true, if_false, pure, Except.pure, e4, e5,
    pyDiv_fin _ _ hf, pyDiv_fin _ _ hfb, e3.diam, hhalf, edgeCorner_large hr hw, Bool.false_and, textOf]

theorem lensWarnings_flat {s : Sys ℝ} {fa fb te h : ℝ} {R R' : Ext ℝ} (hR : (R = pinf ∨ R = ninf) ∨ (R' = pinf ∨ R' = ninf)) :
    LensWarn.edge ∉ lensWarnings s fa fb te h R R' := by
  unfold lensWarnings
  simp only [List.mem_append, not_or]
  refine ⟨⟨?_, ?_⟩, ?_⟩
  · split_ifs <;> simp
  · split_ifs <;> simp
  · rcases hR with (rfl | rfl) | (rfl | rfl)
    · simp
    · simp
    · cases R <;> simp
    · cases R <;> simp

/-- **C68** is violated by the edge of a lens with a flat surface: no thickness at the edge is ever reported as wrong. -/
theorem C68_flat_edge_violated {f fb tc te k d : ℝ} {R1 R2 : Ext ℝ} {n : Option (Ext ℝ)} {mat : Option (Ext ℝ → Except PyErr (Ext ℝ))}
    {wavelength wavelengthRef : Option (Ext ℝ)} (hi : glassIndex n mat wavelength wavelengthRef = .ok (some (fin k))) (hk : k ≠ 0)
    (hd : 0 < d) (htc : tc ≠ 0) (hf : f ≠ 0) (hfb : fb ≠ 0) (hte : te ≠ 0) (h1 : EdgeOk (d / 2) R1) (h2 : R2 = pinf ∨ R2 = ninf)
    (hc : 1 / 100000 < |(Sys.thick k (curv R1) (curv R2) tc).c|) (label : String) :
    ∃ l ws, mkSinglet (fin f) (fin fb) R1 R2 (fin tc) (fin te) n (fin d) mat wavelengthRef label wavelength = .ok (l, ws) ∧
      LensWarn.edge ∉ ws := by
  obtain ⟨l, h3, -⟩ := C68_singlet hi hk hd htc hf hfb hte h1 (h2.elim Or.inl fun h => Or.inr (Or.inl h)) hc label (fbInt := false)
    (by simp)
  exact ⟨l, _, h3, lensWarnings_flat (Or.inr h2)⟩

theorem stack_infinite {gs : List (Glass1 ℝ)} {n : ℝ} {R : Ext ℝ} : hasFiniteApertureList (stackElems pinf n gs R) = false := by
  induction gs generalizing n with
  | nil => simp [stackElems, hasFiniteApertureList, Elem.hasFiniteApertureDiameter, Mat.hasFiniteApertureDiameter, interfaceMat]
  | cons g gs ih =>
    simp [stackElems, hasFiniteApertureList, Elem.hasFiniteApertureDiameter, Mat.hasFiniteApertureDiameter, interfaceMat, spaceMat, ih]

theorem stack_unlimited {gs : List (Glass1 ℝ)} {R : Ext ℝ} {m : Mat (Ext ℝ)} {c} :
    (Elem.group m c (stackElems pinf 1 gs R)).largestDiameter = fin 8 := by
  simp only [Elem.largestDiameter, stack_infinite, Bool.false_eq_true, if_false]
  cases gs <;> simp [stackElems, Mat.displayHalfHeight, Elem.mat, interfaceMat] <;> norm_num

theorem compoundGroup_unlimited {gs : List (Glass1 ℝ)} {R : Ext ℝ} (hg : ∀ g ∈ gs, g.n ≠ 0) (label : String) :
    ∃ g, compoundGroup (stackElems pinf 1 gs R) pinf label = .ok g ∧ g.elems = stackElems pinf 1 gs R ∧ g.mat.apertureDiameter = pinf ∧
      LensHeader g { Sys.chain (Sys.one 1) (stackSys 1 gs R) with nf := 1, nb := 1 } 8 := by
  obtain ⟨g, h1, h2, h3, h4, h5, h6, h7, h8, h9, h10, h11, h12⟩ := stack_new (diam := pinf) (R := R) hg label
  refine ⟨{ g with mat := { g.mat with apertureDiameter := pinf } }, ?_, h2, rfl, ⟨?_, rfl, rfl, h6, ?_, ?_⟩⟩
  · simp only [compoundGroup, h1, bind, Except.bind, pure, Except.pure]
  · exact ⟨h3.A, h3.B, h3.C, h3.D, h3.L, h3.nf, h3.nb⟩
  · rw [h4]; exact h7
  · simp only [Group.toElem, h2]
    exact stack_unlimited

theorem singletGroup_unlimited {tc k : ℝ} {R1 R2 : Ext ℝ} (hk : k ≠ 0) (h1 : RadiusOk R1) (h2 : RadiusOk R2) (label : String) :
    singletGroup R1 R2 (fin tc) (fin k) pinf label = compoundGroup (stackElems pinf 1 [⟨R1, tc, k⟩] R2) pinf label := by
  unfold singletGroup
  rw [one_eq, mkDielectric_eq one_ne_zero hk h1 diamOk_pinf, mkDielectric_eq hk one_ne_zero h2 diamOk_pinf]
  simp only [bind, Except.bind]
  rw [inf_eq, mkSpace_eq tc hk diamOk_pinf]
  rfl

/-- **C68.** A singlet of infinite diameter is made of the same surfaces, with the same matrix; but it is checked as if its diameter were 8: the thickness at the edge is
compared with that at 4 from the axis, so that the property is violated for the warnings. -/
theorem C68_unlimited_violated {f fb tc te k : ℝ} {R1 R2 : Ext ℝ} {n : Option (Ext ℝ)} {mat : Option (Ext ℝ → Except PyErr (Ext ℝ))}
    {wavelength wavelengthRef : Option (Ext ℝ)} (hi : glassIndex n mat wavelength wavelengthRef = .ok (some (fin k))) (hk : k ≠ 0)
    (htc : tc ≠ 0) (hf : f ≠ 0) (hfb : fb ≠ 0) (hte : te ≠ 0) (h1 : EdgeOk 4 R1) (h2 : EdgeOk 4 R2)
    (hc : 1 / 100000 < |(Sys.thick k (curv R1) (curv R2) tc).c|) (label : String) :
    ∃ l, mkSinglet (fin f) (fin fb) R1 R2 (fin tc) (fin te) n pinf mat wavelengthRef label wavelength =
        .ok (l, lensWarnings (Sys.thick k (curv R1) (curv R2) tc) f fb te 4 R1 R2) ∧
      Den l.group.mat (Sys.thick k (curv R1) (curv R2) tc) ∧ l.group.elems = stackElems pinf 1 [⟨R1, tc, k⟩] R2 ∧
      l.group.mat.apertureDiameter = pinf := by
  obtain ⟨g, e1, e2, e2', e3⟩ := compoundGroup_unlimited (gs := [⟨R1, tc, k⟩]) (R := R2) (by simpa using hk) label
  rw [singlet_sys] at e3
  have hlen : (Sys.thick k (curv R1) (curv R2) tc).len = tc := by simp [Sys.thick, Sys.andThen, Sys.interface, Sys.space]
  refine ⟨⟨g, .singlet R1 R2 (fin tc) (fin k)⟩, ?_, e3.den, e2, e2'⟩
  have h8 : (8 : ℝ) / 2 = 4 := by norm_num
  have e4 := lensChecks_eq (fa := f) (fb := fb) (te := te) e3 (by norm_num) (by rw [hlen]; exact htc) hc hf hfb hte (by rw [h8]; exact h1)
    (by rw [h8]; exact h2) (.error .attributeError) Prod.fst (Or.inl rfl) false false
  rw [hlen, h8, if_neg (by simp)] at e4
  unfold mkSinglet
  simp only [hi, bind, Except.bind, singletGroup_unlimited hk h1.radius h2.radius, e1, e4, pure, Except.pure]

/-- **C68** is violated: a singlet of infinite diameter whose first sphere has a radius below 4 is refused. -/
theorem C68_unlimited_small {f fb tc k r : ℝ} {te R2 : Ext ℝ} {mat : Option (Ext ℝ → Except PyErr (Ext ℝ))}
    {n wavelength wavelengthRef : Option (Ext ℝ)} (hi : glassIndex n mat wavelength wavelengthRef = .ok (some (fin k))) (hk : k ≠ 0)
    (htc : tc ≠ 0) (hf : f ≠ 0) (hfb : fb ≠ 0) (hr : r ≠ 0) (h2 : RadiusOk R2) (hw : |r| < 4)
    (hc : 1 / 100000 < |(Sys.thick k (curv (fin r)) (curv R2) tc).c|) (label : String) :
    mkSinglet (fin f) (fin fb) (fin r) R2 (fin tc) te n pinf mat wavelengthRef label wavelength = .error .valueError := by
  obtain ⟨g, e1, e2, e2', e3⟩ := compoundGroup_unlimited (gs := [⟨fin r, tc, k⟩]) (R := R2) (by simpa using hk) label
  rw [singlet_sys] at e3
  have hlen : (Sys.thick k (curv (fin r)) (curv R2) tc).len = tc := by simp [Sys.thick, Sys.andThen, Sys.interface, Sys.space]
  have hb : (Sys.thick k (curv (fin r)) (curv R2) tc).nb ≠ 0 := by rw [e3.nb]; exact one_ne_zero
  have e4 := effectiveFocalLengths_eq e3.den hb hc
  obtain ⟨_, bfl, _, e5, _⟩ := C25_focal_lengths e3.den hb hc e3.fv e3.bv
  have hz : decide (((2 / 100 : ℚ) : ℝ) < 0) = false := by norm_num
  have hhalf : half (fin (8 : ℝ)) = fin 4 := by simp [half]; norm_num
  unfold mkSinglet
  simp only [hi, bind, Except.bind, singletGroup_unlimited hk (radiusOk_fin.2 hr) h2, e1, lensChecks, e3.den.L, hlen, fin_sub_fin, sub_self,
    abs_fin, abs_zero, pyDiv_fin _ _ htc, zero_div, lit_eq, lt_fin, hz, Bool.false_eq_true, if_false, pure, Except.pure, e4, e5,
    pyDiv_fin _ _ hf, pyDiv_fin _ _ hfb, e3.diam, hhalf, edgeCorner_large hr hw, Bool.false_and, textOf]

/-- A plano-convex lens with R = 50 meets the hypotheses; one with R = 3 those of the refusal. -/
example : EdgeOk 4 (fin (50 : ℝ)) ∧ EdgeOk 4 (pinf : Ext ℝ) ∧ 1 / 100000 < |(Sys.thick (3 / 2) (curv (fin 50)) (curv pinf) 3 : Sys ℝ).c| ∧
    1 / 100000 < |(Sys.thick (3 / 2) (curv (fin 3)) (curv pinf) 3 : Sys ℝ).c| := by
  refine ⟨Or.inr (Or.inr ⟨50, rfl, by norm_num, by norm_num⟩), Or.inl rfl, ?_, ?_⟩ <;>
  · rw [Sys.thick_eq _ _ _ (by norm_num)]; simp; norm_num [abs_of_neg]

/-- **C68** is violated by a doublet with one material and one index: the material is not used and the lens is refused. -/
theorem C68_one_material_violated {fa fb R1 R2 R3 tc1 tc2 te d : Ext ℝ} {n2 : Option (Ext ℝ)} {mat1 : Ext ℝ → Except PyErr (Ext ℝ)}
    {wavelength wavelengthRef : Option (Ext ℝ)} {label : String} :
    mkDoublet fa fb R1 R2 R3 tc1 tc2 te d none n2 (some mat1) none wavelengthRef label wavelength = .error .valueError := by
  simp [mkDoublet, glassIndices, bind, Except.bind, throw, throwThe, MonadExceptOf.throw]

/-! ## C69: the drawing of a flipped element -/

section Mirror
variable {K : Type} [Field K] [LinearOrder K] [IsStrictOrderedRing K] [PyMath (Ext K)] [PyTrig (Ext K)]

/-- Specification: an outline seen in a mirror across the middle of the segment from 0 to `T`. -/
def Face.mirror (T : Ext K) : Face (Ext K) → Face (Ext K)
  | .line v => .line (T - v)
  | .curve v ctl c => .curve (T - v) ctl (T - c)
  | .cone v c => .cone (T - v) (T - c)

/-- Specification: pieces of glass seen in the mirror: front and back are exchanged, the last one comes first. -/
def mirrorAll (T : Ext K) (ps : List (Face (Ext K) × Face (Ext K))) : List (Face (Ext K) × Face (Ext K)) :=
  (ps.map fun p => (p.2.mirror T, p.1.mirror T)).reverse

/-- A surface that can be seen from both sides: not a sphere of infinite radius (a flat surface is). -/
def Shape.Mirrors : Shape (Ext K) → Prop
  | .spherical R => ∃ r, R = fin r
  | _ => True

theorem neg_mul_ext (x : K) (y : Ext K) : (fin (-x) : Ext K) * y = -(fin x * y) := by
  have hinf : ∀ x : K, infOf (-x) = -(infOf x : Ext K) := by
    intro x; unfold infOf
    rcases lt_trichotomy x 0 with h | h | h
    · simp [h, h.le, h.not_gt]
    · simp [h]
    · simp [h, h.le, h.not_gt]
  cases y
  · simp
  · simp [hinf]
  · rw [fin_mul_ninf, fin_mul_ninf, hinf (-x)]
  · rfl

theorem mul_neg_ext (y : Ext K) (x : K) : PyNum.abs (y * (fin (-x) : Ext K)) = PyNum.abs (y * fin x) := by
  have h1 : ∀ x : K, PyNum.abs (infOf (-x) : Ext K) = PyNum.abs (infOf x) := by
    intro x; unfold infOf
    rcases lt_trichotomy x 0 with h | h | h
    · simp [h, h.le, h.not_gt]
    · simp [h]
    · simp [h, h.le, h.not_gt]
  cases y
  · simp
  · simpa using h1 x
  · show PyNum.abs (infOf (- -x) : Ext K) = PyNum.abs (infOf (-x)); exact h1 (-x)
  · rfl

theorem arc_neg {h : Ext K} {r : K} {a : Ext K × Ext K} (ha : arc h (fin r) = .ok a) : arc h (fin r * -1) = .ok (-a.1, a.2) := by
  have e : (fin r * -1 : Ext K) = fin (-r) := by simp
  rw [e]
  unfold arc at ha ⊢
  simp only [abs_fin, abs_neg] at ha ⊢
  obtain ⟨q, hq, ha⟩ := bind_ok ha
  obtain ⟨phi, hphi, ha⟩ := bind_ok ha
  obtain ⟨t, ht, ha⟩ := bind_ok ha
  simp only [pure, Except.pure, Except.ok.injEq] at ha
  subst ha
  simp only [hq, bind, Except.bind]
  rw [hphi]
  simp only [ht, pure, Except.pure, neg_mul_ext, mul_neg_ext]

theorem sub_add_ext (T v : K) (x : Ext K) : fin (T - v) + -x = fin T - (fin v + x) := by
  cases x
  · simp; ring
  · rfl
  · rfl
  · rfl

theorem flip_shape (s : Surf (Ext K)) (acc : List (Surf (Ext K))) : ∃ l n, flipLoop (s :: acc) =
    ⟨s.shape.flip, l, n⟩ :: flipLoop acc := ⟨_, _, rfl⟩

/-- the front of the flipped surface is the back, mirrored -/
theorem faceA_flip {h : Ext K} {T v l : K} {s : Surf (Ext K)} (hs : s.shape.Mirrors) (hl : l ≠ 0) {f : Face (Ext K)} {n : Ext K}
    (hf : faceB h (fin v) s = .ok f) :
    faceA h (fin (T - v)) ⟨s.shape.flip, fin l, n⟩ = .ok (f.mirror (fin T), fin l) := by
  obtain ⟨sh, L, n'⟩ := s
  cases sh with
  | spherical R =>
    obtain ⟨r, rfl⟩ := hs
    have e : ((fin r * -1 : Ext K) ==. inf) = false := by simp
    have e' : ((fin r : Ext K) ==. inf) = false := by simp
    simp only [faceB, e', Bool.false_eq_true, if_false] at hf
    obtain ⟨a, ha, hf⟩ := bind_ok hf
    simp only [pure, Except.pure, Except.ok.injEq] at hf
    subst hf
    rw [Shape.flip]
    simp only [faceA, e, arc_neg ha, Bool.false_eq_true, if_false]
    simp [bind, Except.bind, pure, Except.pure, Face.mirror, hl, sub_add_ext]
  | flat => simp only [faceB, Except.ok.injEq] at hf; subst hf; simp [faceA, Shape.flip, Face.mirror]
  | conical a =>
    simp only [faceB, Except.ok.injEq] at hf; subst hf
    simp only [faceA, Shape.flip, Face.mirror, fin_sub_fin, Except.ok.injEq, Prod.mk.injEq, Face.cone.injEq, true_and, and_true]
    exact sub_add_ext T v _

/-- the back of the flipped surface is the front, mirrored -/
theorem faceB_flip {h : Ext K} {T v : K} {s : Surf (Ext K)} (hs : s.shape.Mirrors) {f : Face (Ext K)} {L' l n : Ext K}
    (hf : faceA h (fin v) s = .ok (f, L')) :
    faceB h (fin (T - v)) ⟨s.shape.flip, l, n⟩ = .ok (f.mirror (fin T)) := by
  obtain ⟨sh, L, n'⟩ := s
  cases sh with
  | spherical R =>
    obtain ⟨r, rfl⟩ := hs
    have e' : ((fin r : Ext K) ==. inf) = false := by simp
    simp only [faceA, e', Bool.false_eq_true, if_false] at hf
    obtain ⟨a, ha, hf⟩ := bind_ok hf
    simp only [pure, Except.pure, Except.ok.injEq, Prod.mk.injEq] at hf
    obtain ⟨rfl, -⟩ := hf
    have e : ((fin r * -1 : Ext K) ==. inf) = false := by simp
    rw [Shape.flip]
    simp only [faceB, e, arc_neg ha, Bool.false_eq_true, if_false]
    simp [bind, Except.bind, pure, Except.pure, Face.mirror, sub_add_ext]
  | flat => simp only [faceA, Except.ok.injEq, Prod.mk.injEq] at hf; obtain ⟨rfl, -⟩ := hf; simp [faceB, Shape.flip, Face.mirror]
  | conical a =>
    simp only [faceA, Except.ok.injEq, Prod.mk.injEq] at hf; obtain ⟨rfl, -⟩ := hf
    have : ∀ x : Ext K, fin (T - v) + x = fin T - (fin v - x) := by
      intro x; cases x
      · simp; ring
      · rfl
      · rfl
      · rfl
    simp only [faceB, Shape.flip, Face.mirror, fin_sub_fin, Except.ok.injEq, Face.cone.injEq, true_and]
    exact this _

theorem faceA_len {h x : Ext K} {s : Surf (Ext K)} {l : K} (hl : s.L = fin l) (h0 : l ≠ 0) {p : Face (Ext K) × Ext K}
    (hf : faceA h x s = .ok p) : p.2 = fin l := by
  obtain ⟨sh, L, n⟩ := s
  dsimp only at hl
  subst hl
  cases sh with
  | spherical R =>
    simp only [faceA] at hf
    split at hf
    · simp only [Except.ok.injEq] at hf; rw [← hf]
    · obtain ⟨a, -, hf⟩ := bind_ok hf
      simp only [pure, Except.pure, Except.ok.injEq] at hf
      rw [← hf]; simp [h0]
  | flat => simp only [faceA, Except.ok.injEq] at hf; rw [← hf]
  | conical a => simp only [faceA, Except.ok.injEq] at hf; rw [← hf]

/-- thickness from the first to the last surface -/
def thickness : List (Surf (Ext K)) → K
  | a :: b :: ss => a.L.val + thickness (b :: ss)
  | _ => 0

/-- surfaces separated by finite distances, which can be seen from both sides -/
def Separated : List (Surf (Ext K)) → Prop
  | a :: b :: ss => a.shape.Mirrors ∧ (∃ l, a.L = fin l ∧ l ≠ 0) ∧ Separated (b :: ss)
  | [a] => a.shape.Mirrors
  | [] => True

theorem drawPairs_flip {h : Ext K} (T : K) : ∀ (rest : List (Surf (Ext K))) (s : Surf (Ext K)) (acc : List (Surf (Ext K))) (z : K)
    {ps qs : List (Face (Ext K) × Face (Ext K))}, Separated (s :: rest) → drawPairs h (fin z) (s :: rest) = .ok ps →
    drawPairs h (fin (T - z)) (flipLoop (s :: acc)) = .ok qs → z + thickness (s :: rest) = T →
    drawPairs h (fin 0) (flipLoop ((s :: rest).reverse ++ acc)) = .ok (mirrorAll (fin T) ps ++ qs)
  | [], s, acc, z, ps, qs, _, h1, h2, hz => by
    simp only [drawPairs, Except.ok.injEq] at h1
    subst h1
    simp only [thickness, add_zero] at hz
    subst hz
    simpa [mirrorAll] using h2
  | t :: rest, s, acc, z, ps, qs, hs, h1, h2, hz => by
    obtain ⟨hm, ⟨l, hl, h0⟩, hs'⟩ := hs
    have ht : t.shape.Mirrors := by
      cases rest with
      | nil => exact hs'
      | cons _ _ => exact hs'.1
    simp only [drawPairs] at h1
    obtain ⟨p, hp, h1⟩ := bind_ok h1
    have hpl := faceA_len hl h0 hp
    obtain ⟨q, hq, h1⟩ := bind_ok h1
    obtain ⟨ps', hps, h1⟩ := bind_ok h1
    simp only [pure, Except.pure, Except.ok.injEq] at h1
    subst h1
    rw [hpl, fin_add_fin] at hq hps
    simp only [thickness, hl, val_fin] at hz
    have key : drawPairs h (fin (T - (z + l))) (flipLoop (t :: s :: acc)) =
        .ok ((q.mirror (fin T), p.1.mirror (fin T)) :: qs) := by
      obtain ⟨l1, n1, e1⟩ := flip_shape s acc
      have e2 : flipLoop (t :: s :: acc) =
          ⟨t.shape.flip, fin l, s.n⟩ :: flipLoop (s :: acc) := by
        rw [← hl]; rfl
      have e3 : (fin (T - (z + l)) : Ext K) + fin l = fin (T - z) := by rw [fin_add_fin]; congr 1; ring
      rw [e2, e1, drawPairs, faceA_flip ht h0 hq]
      simp only [bind, Except.bind, e3]
      rw [faceB_flip hm (T := T) (L' := p.2) (f := p.1) hp, ← e1, h2]
      rfl
    have := drawPairs_flip T rest t (s :: acc) (z + l) hs' hps key (by rw [← hz]; ring)
    simpa [mirrorAll] using this

/-- **C69.** The surfaces of a flipped element: for any list of two surfaces or more, at any distances other than zero, spherical with a
finite radius, flat or conical, what is drawn for the flipped list is the mirror image of what is drawn for the list. -/
theorem C69_mirror {h : Ext K} {ss : List (Surf (Ext K))} (hn : 2 ≤ ss.length) (hs : Separated ss)
    {ps : List (Face (Ext K) × Face (Ext K))} (hd : drawSurfaces h ss = .ok ps) :
    drawSurfaces h (orient true ss) = .ok (mirrorAll (fin (thickness ss)) ps) := by
  obtain ⟨a, b, rest, rfl⟩ : ∃ a b rest, ss = a :: b :: rest := by
    match ss, hn with
    | a :: b :: rest, _ => exact ⟨a, b, rest, rfl⟩
  have h0 : drawPairs h (fin 0) (a :: b :: rest) = .ok ps := by
    rw [← zero_eq]; exact hd
  have := drawPairs_flip (h := h) (thickness (a :: b :: rest)) (b :: rest) a [] 0 (qs := []) hs h0 (by simp [flipLoop, drawPairs]) (by simp)
  simp only [List.append_nil] at this
  have hlen : ∀ l : List (Surf (Ext K)), (flipLoop l).length = l.length := by
    intro l; induction l with
    | nil => rfl
    | cons x l ih => obtain ⟨_, _, e⟩ := flip_shape x l; rw [e]; simp [ih]
  simp only [orient, if_true]
  have hl : (flipLoop (a :: b :: rest).reverse).length = rest.length + 2 := by rw [hlen]; simp
  generalize hx : flipLoop (a :: b :: rest).reverse = xs at this hl
  match xs, hl with
  | x :: y :: zs, _ => simpa [drawSurfaces] using this

end Mirror

section Flip
variable {F : Type} [PyNum F]

theorem append_isFlipped (g : Group F) (e : Elem F) : (g.append e).1.mat.isFlipped = g.mat.isFlipped := by
  have hp : ∀ e, (g.push e).1.mat.isFlipped = g.mat.isFlipped := by
    intro e; unfold Group.push; dsimp only; split <;> rfl
  unfold Group.append
  split
  · exact hp _
  · split_ifs
    · exact hp _
    · rfl
    · exact hp _

theorem appendFlipped_isFlipped : ∀ (es : List (Elem F × Except PyErr Unit)) (g : Group F),
    (g.appendFlipped es).1.mat.isFlipped = g.mat.isFlipped
  | [], g => rfl
  | (_, .error x) :: _, g => rfl
  | (e, .ok ()) :: es, g => by
    have h := append_isFlipped g e
    unfold Group.appendFlipped
    cases hx : g.append e with
    | mk g1 r =>
      rw [hx] at h
      cases r with
      | error x => exact h
      | ok u => exact (appendFlipped_isFlipped es g1).trans h

theorem objectiveVertices_isFlipped : ∀ (es : List (Elem F)) (m : Mat F) (z : F), (objectiveVertices m z es).isFlipped = m.isFlipped
  | [], m, z => rfl
  | e :: es, m, z => by
    unfold objectiveVertices
    rw [objectiveVertices_isFlipped es]
    split_ifs <;> rfl

theorem groupFlip_isFlipped (g : Group F) : g.flip.1.mat.isFlipped = !g.mat.isFlipped := by
  have h := appendFlipped_isFlipped (flipList g.elems).reverse { mat := { g.mat with isFlipped := !g.mat.isFlipped }, cache := g.cache, elems := [] }
  unfold Group.flip Group.finishFlip
  cases hx : Group.appendFlipped { mat := { g.mat with isFlipped := !g.mat.isFlipped }, cache := g.cache, elems := [] } (flipList g.elems).reverse with
  | mk g1 r =>
    rw [hx] at h
    cases r with
    | error x => exact h
    | ok u =>
      dsimp only
      split
      · rw [objectiveVertices_isFlipped]; exact h
      · exact h

end Flip

section Drawn
variable {K : Type} [Field K] [LinearOrder K] [IsStrictOrderedRing K]

/-- **C69.** Singlets and doublets with curved surfaces, whatever radii, thicknesses and indices: after `flipOrientation()` the lens is drawn
as the mirror image of what was drawn before. -/
theorem C69_lens [PyMath (Ext K)] [PyTrig (Ext K)] {l : GlassLens (Ext K)} {h : Ext K} (hf : l.group.mat.isFlipped = false)
    (hg : (∃ r1 r2 t n, t ≠ 0 ∧ l.glasses = .singlet (fin r1) (fin r2) (fin t) n) ∨
      ∃ r1 r2 r3 t1 t2 n1 n2, t1 ≠ 0 ∧ t2 ≠ 0 ∧ l.glasses = .doublet (fin r1) (fin r2) (fin r3) (fin t1) (fin t2) n1 n2)
    {ps : List (Face (Ext K) × Face (Ext K))} (hd : drawSurfaces h l.surfaces = .ok ps) :
    drawSurfaces h l.flip.1.surfaces = .ok (mirrorAll (fin (thickness l.surfaces)) ps) := by
  have h1 : l.surfaces = l.forwardSurfaces := by simp [GlassLens.surfaces, orient, hf]
  have h2 : l.flip.1.surfaces = orient true l.forwardSurfaces := by
    have e : l.flip.1.forwardSurfaces = l.forwardSurfaces := by
      unfold GlassLens.forwardSurfaces GlassLens.flip
      rcases hg with ⟨r1, r2, t, n, -, hg⟩ | ⟨r1, r2, r3, t1, t2, n1, n2, -, -, hg⟩ <;> simp only [hg]
    unfold GlassLens.surfaces
    rw [e]
    simp only [GlassLens.flip, groupFlip_isFlipped, hf, Bool.not_false]
  rw [h2]
  rw [h1] at hd ⊢
  refine C69_mirror ?_ ?_ hd
  · unfold GlassLens.forwardSurfaces
    rcases hg with ⟨r1, r2, t, n, -, hg⟩ | ⟨r1, r2, r3, t1, t2, n1, n2, -, -, hg⟩ <;> simp [hg]
  · unfold GlassLens.forwardSurfaces
    rcases hg with ⟨r1, r2, t, n, ht, hg⟩ | ⟨r1, r2, r3, t1, t2, n1, n2, ht1, ht2, hg⟩
    · simp only [hg]; exact ⟨⟨r1, rfl⟩, ⟨t, rfl, ht⟩, ⟨r2, rfl⟩⟩
    · simp only [hg]; exact ⟨⟨r1, rfl⟩, ⟨t1, rfl, ht1⟩, ⟨r2, rfl⟩, ⟨t2, rfl, ht2⟩, ⟨r3, rfl⟩⟩

/-- **C69.** The same for slabs and axicons, of any thickness, index, angle and diameter. -/
theorem C69_slab_axicon [PyMath (Ext K)] [PyTrig (Ext K)] {m : Mat (Ext K)} {h : Ext K} (hf : m.isFlipped = false) {t : K} (ht : t ≠ 0)
    (hk : (∃ n R1 R2, m.kind = .slab n R1 R2 ∧ m.L = fin t) ∨
      ∃ n a, m.kind = .axicon n a ∧ -PyTrig.tan a * m.displayHalfHeight.1 = fin t)
    {ss : List (Surf (Ext K))} (hs : m.surfaces = .ok ss) {ps : List (Face (Ext K) × Face (Ext K))} (hd : drawSurfaces h ss = .ok ps) :
    ∃ ss', m.flip.1.surfaces = .ok ss' ∧ drawSurfaces h ss' = .ok (mirrorAll (fin t) ps) := by
  have hfs : m.flip.1.forwardSurfaces = m.forwardSurfaces ∧ m.flip.1.isFlipped = true := by
    rcases hk with ⟨n, R1, R2, hk, -⟩ | ⟨n, a, hk, -⟩
    · unfold Mat.flip
      simp only [hk]
      have key : ∀ R R', (Mat.flip.flipThick (.slab n R R') m.flipBase n R R').1.kind = .slab n R R' ∧
          (Mat.flip.flipThick (.slab n R R') m.flipBase n R R').1.L = m.L ∧
          (Mat.flip.flipThick (.slab n R R') m.flipBase n R R').1.isFlipped = !m.isFlipped := by
        intro R R'
        unfold Mat.flip.flipThick
        simp only [Mat.flipBase]
        repeat' split
        all_goals exact ⟨rfl, rfl, rfl⟩
      obtain ⟨k1, k2, k3⟩ := key (-R2) (-R1)
      refine ⟨?_, by rw [k3, hf]; rfl⟩
      simp only [Mat.forwardSurfaces, k1, k2, hk]
    · unfold Mat.flip
      simp only [hk, Mat.forwardSurfaces, Mat.flipBase, hf, Bool.not_false, and_true, Mat.displayHalfHeight]
  obtain ⟨fs, h1, h2⟩ := bind_ok hs
  simp only [pure, Except.pure, orient, hf, Bool.false_eq_true, if_false, Except.ok.injEq] at h2
  subst h2
  refine ⟨orient true fs, ?_, ?_⟩
  · unfold Mat.surfaces
    rw [hfs.1, hfs.2, h1]; rfl
  · have hth : thickness fs = t ∧ 2 ≤ fs.length ∧ Separated fs := by
      rcases hk with ⟨n, R1, R2, hk, hL⟩ | ⟨n, a, hk, hL⟩
      · simp only [Mat.forwardSurfaces, hk, Except.ok.injEq] at h1
        subst h1
        exact ⟨by simp [thickness, hL], by simp, trivial, ⟨t, hL, ht⟩, trivial⟩
      · simp only [Mat.forwardSurfaces, hk, Except.ok.injEq] at h1
        subst h1
        exact ⟨by simp [thickness, hL], by simp, trivial, ⟨t, hL, ht⟩, trivial⟩
    rw [← hth.1]
    exact C69_mirror hth.2.1 hth.2.2 hd

theorem neg_mul_neg_one (R : Ext K) : -R * -1 = R := by
  have h1 : (pinf : Ext K) * fin (-1) = ninf := by show infOf (-1 : K) = ninf; simp [infOf]
  have h2 : (ninf : Ext K) * fin (-1) = pinf := by show infOf (- -1 : K) = pinf; simp [infOf]
  cases R <;> simp [h1, h2]
  rfl

/-- **C69** is violated by thick lenses: whatever the radii, index, thickness and diameter, flipping a thick lens exchanges its surfaces, but
what is drawn does not change. -/
theorem C69_thick_violated [PyTrig (Ext K)] {m : Mat (Ext K)} {n R1 R2 : Ext K} (hf : m.isFlipped = false) (hk : m.kind = .thickLens n R1 R2) :
    m.flip.1.kind = .thickLens n (-R2) (-R1) ∧ m.flip.1.surfaces = m.surfaces := by
  have key : ∀ R R', (Mat.flip.flipThick (.thickLens n R R') m.flipBase n R R').1.kind = .thickLens n R R' ∧
      (Mat.flip.flipThick (.thickLens n R R') m.flipBase n R R').1.L = m.L ∧
      (Mat.flip.flipThick (.thickLens n R R') m.flipBase n R R').1.isFlipped = !m.isFlipped := by
    intro R R'
    unfold Mat.flip.flipThick
    simp only [Mat.flipBase]
    repeat' split
    all_goals exact ⟨rfl, rfl, rfl⟩
  obtain ⟨k1, k2, k3⟩ := key (-R2) (-R1)
  have e : m.flip.1 = (Mat.flip.flipThick (.thickLens n (-R2) (-R1)) m.flipBase n (-R2) (-R1)).1 := by
    unfold Mat.flip; simp only [hk]
  rw [e]
  refine ⟨k1, ?_⟩
  simp only [Mat.surfaces, Mat.forwardSurfaces, k1, k2, k3, hk, hf, bind, Except.bind, pure, Except.pure, orient, Bool.not_false, if_true,
    Bool.false_eq_true, if_false, List.reverse_cons, List.reverse_nil, List.nil_append, List.cons_append, flipLoop, Shape.flip,
    neg_mul_neg_one]

/-- A meniscus: the drawing is not symmetric. -/
example : (mkThickLens (fin (3/2 : ℚ)) (fin 50) (fin 100) (fin 5) (fin 25)).map (fun m => (m.isFlipped, m.kind)) =
    .ok (false, .thickLens (fin (3/2)) (fin 50) (fin 100)) := by decide +kernel

/-- **C69** is violated by interfaces: the radius drawn for a flipped interface is that of the interface before. -/
theorem C69_interface_violated [PyTrig (Ext K)] {m : Mat (Ext K)} {n1 n2 R : Ext K} (hf : m.isFlipped = false)
    (hk : m.kind = .dielectric n1 n2 R) :
    m.surfaces = .ok [⟨.spherical R, 0, n2⟩] ∧ m.flip.1.kind = .dielectric n2 n1 (-R) ∧ m.flip.1.surfaces = .ok [⟨.spherical R, 0, 1⟩] := by
  have key : m.flip.1.kind = .dielectric n2 n1 (-R) ∧ m.flip.1.isFlipped = true := by
    unfold Mat.flip
    simp only [hk]
    repeat' split
    all_goals simp [Mat.flipBase, hf]
  refine ⟨?_, key.1, ?_⟩
  · simp [Mat.surfaces, Mat.forwardSurfaces, hk, hf, orient, bind, Except.bind, pure, Except.pure]
  · simp only [Mat.surfaces, Mat.forwardSurfaces, key.1, key.2, orient, if_true, bind, Except.bind, pure, Except.pure, List.reverse_cons,
      List.reverse_nil, List.nil_append, flipLoop, Shape.flip, neg_mul_neg_one]

/-- **C69** is violated by curved mirrors: the radius drawn for a flipped mirror is that of the mirror before. -/
theorem C69_curved_mirror_violated [PyTrig (Ext K)] {m : Mat (Ext K)} {c : K} (hf : m.isFlipped = false) (hk : m.kind = .curvedMirror)
    (hC : m.C = fin c) (hc : c ≠ 0) : m.flip.1.C = fin (-c) ∧ m.flip.1.surfaces = m.surfaces := by
  have e : m.flip.1 = { m.flipBase with C := -m.C } := by unfold Mat.flip; simp only [hk]
  rw [e]
  refine ⟨by rw [hC]; rfl, ?_⟩
  have h1 : pyDiv (2 : Ext K) (fin c) = .ok (fin (2 / c)) := by rw [ofNat_eq]; exact pyDiv_fin _ _ hc
  have h2 : pyDiv (2 : Ext K) (fin (-c)) = .ok (fin (2 / -c)) := by rw [ofNat_eq]; exact pyDiv_fin _ _ (neg_ne_zero.2 hc)
  simp only [Mat.surfaces, Mat.forwardSurfaces, Mat.flipBase, hk, hC, neg_fin, h1, h2, hf, bind, Except.bind, pure, Except.pure, orient,
    Bool.not_false, if_true, Bool.false_eq_true, if_false, List.reverse_cons, List.reverse_nil, List.nil_append, flipLoop, Shape.flip]
  simp [div_neg]

/-- **C69** is violated by flat mirrors: they have no surfaces to draw, asking for them divides by zero. -/
theorem C69_flat_mirror_violated [PyTrig (Ext K)] {diam : Ext K} (hd : DiamOk diam) :
    ∃ m, mkCurvedMirror (pinf : Ext K) diam = .ok m ∧ m.surfaces = .error .zeroDivisionError := by
  let m : Mat (Ext K) := { (Mat.one : Mat (Ext K)) with
    A := 1, B := 0, C := fin 0, D := 1, L := 0, frontVertex := some 0, backVertex := some 0,
    apertureDiameter := diam, kind := .curvedMirror }
  refine ⟨m, ?_, ?_⟩
  · have hden : Den m (Sys.one 1) := by constructor <;> simp [m, Sys.one, Mat.one]
    have h1 : pyDiv (2 : Ext K) pinf = .ok (fin 0) := by rw [ofNat_eq]; exact pyDiv_pinf _
    unfold mkCurvedMirror
    simp only [h1, bind, Except.bind]
    exact init_eq hden (Sys.one_lawful one_ne_zero) rfl hd rfl
  · simp [m, Mat.surfaces, Mat.forwardSurfaces, bind, Except.bind, pyDiv]

/-- Specification: the surfaces of a stack of glasses, each with the glass and the thickness after it. -/
def stackSurfaces : List (Glass1 K) → Ext K → List (Surf (Ext K))
  | [], R => [⟨.spherical R, 0, 1⟩]
  | g :: gs, R => ⟨.spherical g.R, fin g.t, fin g.n⟩ :: stackSurfaces gs R

theorem compoundLoop_append (es fs : List (Elem (Ext K))) (x : Ext K) :
    ∃ y, compoundLoop (es ++ fs) x = compoundLoop es x ++ compoundLoop fs y ∧
      (∀ e ∈ es.getLast?, e.mat.kind = .space → y = e.mat.L) := by
  induction es generalizing x with
  | nil => exact ⟨x, rfl, by simp⟩
  | cons e es ih =>
    have hlast : ∀ (y : Ext K), (∀ e' ∈ es.getLast?, e'.mat.kind = .space → y = e'.mat.L) → (es = [] → e.mat.kind = .space → y = e.mat.L) →
        ∀ e' ∈ (e :: es).getLast?, e'.mat.kind = .space → y = e'.mat.L := by
      intro y h1 h2 e' he'
      cases es with
      | nil => simp only [List.getLast?_singleton, Option.mem_def, Option.some.injEq] at he'; subst he'; exact h2 rfl
      | cons a as => rw [List.getLast?_cons_cons] at he'; exact h1 e' he'
    cases hk : e.mat.kind
    case space =>
      obtain ⟨y, h1, h2⟩ := ih e.mat.L
      refine ⟨if es = [] then e.mat.L else y, ?_, ?_⟩
      · by_cases h0 : es = []
        · subst h0; simp [compoundLoop, hk]
        · simp [compoundLoop, hk, h1, h0]
      · by_cases h0 : es = []
        · subst h0; intro e' he' _; simp only [List.getLast?_singleton, Option.mem_def, Option.some.injEq] at he'; subst he'; simp
        · simp only [h0, if_false]; exact hlast y h2 (fun h => absurd h h0)
    case dielectric n1 n2 R =>
      obtain ⟨y, h1, h2⟩ := ih x
      exact ⟨y, by simp [compoundLoop, hk, h1], hlast y h2 (fun _ h => absurd (hk.symm.trans h) (by simp))⟩
    all_goals
      obtain ⟨y, h1, h2⟩ := ih x
      exact ⟨y, by simp [compoundLoop, hk, h1], hlast y h2 (fun _ h => absurd (hk.symm.trans h) (by simp))⟩

/-- **C69.** A `CompoundLens` given the elements of a stack of glasses, however many, is drawn with the surfaces, thicknesses and indices of
the stack. -/
theorem C69_compound {diam : Ext K} : ∀ (gs : List (Glass1 K)) (n : K) (R : Ext K),
    (compoundLoop (stackElems diam n gs R).reverse 0).reverse = stackSurfaces gs R
  | [], n, R => by simp [stackElems, stackSurfaces, compoundLoop, Elem.mat, interfaceMat]
  | g :: gs, n, R => by
    have ih := C69_compound (diam := diam) gs g.n R
    obtain ⟨y, h1, -⟩ := compoundLoop_append (stackElems diam g.n gs R).reverse
      [.leaf (spaceMat (fin g.t) (fin g.n) pinf), .leaf (interfaceMat n g.n g.R diam)] 0
    have e : (stackElems diam n (g :: gs) R).reverse = (stackElems diam g.n gs R).reverse ++
        [.leaf (spaceMat (fin g.t) (fin g.n) pinf), .leaf (interfaceMat n g.n g.R diam)] := by simp [stackElems]
    rw [e, h1, List.reverse_append, ih]
    simp [compoundLoop, Elem.mat, interfaceMat, spaceMat, stackSurfaces]

end Drawn

set_option synthInstance.maxSize 1024 in
/-- **C69** is violated by flipping a `CompoundLens`: its elements are reversed, then its surfaces once more; a plano-convex lens flipped has
its curved surface at the back, and is drawn with it in front. -/
theorem C69_compound_violated :
    (compoundGroup [.leaf (interfaceMat (1 : ℚ) (3/2) (fin 50) (fin 25)), .leaf (spaceMat (fin 5) (fin (3/2)) pinf),
        .leaf (interfaceMat (3/2) 1 pinf (fin 25))] (fin 25) "").map (fun g =>
      let l : GlassLens (Ext ℚ) := ⟨g, .compound⟩
      (l.surfaces.map Surf.shape, l.flip.2.isOk, l.flip.1.group.elems.map fun e => e.mat.kind, l.flip.1.surfaces.map Surf.shape)) =
    .ok ([.spherical (fin 50), .spherical pinf], true,
      [.dielectric (fin 1) (fin (3/2)) ninf, .space, .dielectric (fin (3/2)) (fin 1) (fin (-50))],
      [.spherical (fin 50), .spherical pinf]) := by decide +kernel

/-- **C69** is violated by a `CompoundLens` with two surfaces in contact: the first one is drawn at the distance of the next space, here a
third surface that is 5 away from the two first ones is drawn at 10. -/
theorem C69_contact_violated :
    ((⟨⟨Mat.one, none, [.leaf (interfaceMat (1 : ℚ) (3/2) (fin 50) pinf), .leaf (interfaceMat (3/2) (8/5) (fin 60) pinf),
        .leaf (spaceMat (fin 5) (fin (8/5)) pinf), .leaf (interfaceMat (8/5) 1 (fin 70) pinf)]⟩, .compound⟩ : GlassLens (Ext ℚ)).surfaces.map
      Surf.L) = [fin 5, fin 5, fin 0] := by decide +kernel

/-- **C69** is violated by flipping a lens with a flat surface: whatever the other radius, the thickness, the index and the height, drawing
the flipped lens divides by zero. -/
theorem C69_plano_violated {l : GlassLens (Ext ℝ)} {h : ℝ} (hf : l.group.mat.isFlipped = false) {R1 t n : Ext ℝ}
    (hg : l.glasses = .singlet R1 pinf t n) : drawSurfaces (fin h) l.flip.1.surfaces = .error .zeroDivisionError := by
  have h2 : l.flip.1.surfaces = orient true l.forwardSurfaces := by
    have e : l.flip.1.forwardSurfaces = l.forwardSurfaces := by
      unfold GlassLens.forwardSurfaces GlassLens.flip; simp only [hg]
    unfold GlassLens.surfaces
    rw [e]
    simp only [GlassLens.flip, groupFlip_isFlipped, hf, Bool.not_false]
  have h3 : (pinf : Ext ℝ) * -1 = ninf := by rw [one_eq, neg_fin]; show infOf (-1 : ℝ) = ninf; simp [infOf]
  have h4 : arc (fin h) (ninf : Ext ℝ) = .error .zeroDivisionError := by
    have h0 : ¬ ((1 : ℝ) < 0) := by norm_num
    simp [arc, arcAngle, pyAsin, pyDiv, bind, Except.bind, h0]
  rw [h2]
  simp only [GlassLens.forwardSurfaces, hg, orient, if_true, List.reverse_cons, List.reverse_nil, List.nil_append, List.cons_append,
    flipLoop, Shape.flip, drawSurfaces, drawPairs, h3, faceA, inf_eq, eq_ninf_pinf, Bool.false_eq_true, if_false, h4, bind, Except.bind]

/-- **C69.** A curved surface not larger than its sphere is drawn from its vertex to points of the sphere, at the half height, on the side
of the vertex, and the curve ends along the sphere: the line from its control point is perpendicular to the radius. -/
theorem C69_arc {h R : ℝ} (hR : R ≠ 0) (h0 : 0 < h) (hh : h ≤ |R|) : ∃ δ ctl : ℝ, arc (fin h) (fin R) = .ok (fin δ, fin ctl) ∧
    (δ - R) ^ 2 + h ^ 2 = R ^ 2 ∧ |δ| ≤ |R| ∧ 0 ≤ ctl ∧ (δ - R) * (δ - 0) + (h - 0) * (h - ctl) = 0 := by
  have hR' : 0 < |R| := abs_pos.2 hR
  have hq : h / |R| ≤ 1 := by rw [div_le_one hR']; exact hh
  have hq0 : 0 < h / |R| := div_pos h0 hR'
  have hsin : Real.sin (Real.arcsin (h / |R|)) = h / |R| := Real.sin_arcsin (by linarith) hq
  set φ := Real.arcsin (h / |R|) with hφ
  have hs := sag_spec (h := h) (R := R) (by rw [abs_of_pos h0]; exact hh)
  refine ⟨sag h R, |(1 - Real.cos φ) / (h / |R|) * R|, ?_, hs.1, hs.2, abs_nonneg _, ?_⟩
  · unfold arc arcAngle
    simp only [abs_fin, pyDiv_fin _ _ hR'.ne', bind, Except.bind, one_eq, le_fin, decide_eq_true hq, if_true, pyAsin, neg_fin, lt_fin]
    rw [decide_eq_false (by linarith), decide_eq_false (by linarith)]
    simp only [Bool.or_self, Bool.false_eq_true, if_false, asin_fin, ← hφ, sin_fin, cos_fin, fin_sub_fin, hsin, pyDiv_fin _ _ hq0.ne',
      fin_mul_fin, abs_fin, pure, Except.pure]
    rw [hφ, sag_eq hR]
  · have e1 : sag h R = R * (1 - Real.cos φ) := by rw [hφ, sag_eq hR]
    have hc : 0 ≤ 1 - Real.cos φ := by linarith [Real.cos_le_one φ]
    have e2 : |(1 - Real.cos φ) / (h / |R|) * R| = (1 - Real.cos φ) / h * R ^ 2 := by
      rw [abs_mul, abs_of_nonneg (div_nonneg hc hq0.le), ← sq_abs R]
      field_simp
    have e3 := hs.1
    rw [e1] at e3
    rw [e2, e1]
    field_simp
    linear_combination h * e3

/-- a hemisphere and a shallow surface -/
example : (25 : ℝ) ≤ |(-25 : ℝ)| ∧ (12 : ℝ) ≤ |(50 : ℝ)| := by norm_num

end RT
