import Verif.Props.StopsThick
import Verif.Props.Zemax

/-! # C30, C33, C55: a stop or none, the default settings of a path, and files with text in place of numbers -/

set_option linter.unusedSectionVars false

namespace RT
open PyNum Ext
variable {K : Type} [Field K] [LinearOrder K] [IsStrictOrderedRing K]

/-- `hasApertureStop()` says whether an element has a diameter. -/
theorem C30_has {label : String} {ps : List (Part K)} {g : Group (Ext K)} (hb : (Part.group label ps).build = .ok g.toElem) :
    ∃ b, g.hasApertureStop.run (newTrace g) = .ok b ∧ (b = true ↔ ∃ s ∈ (Part.group label ps).stages, s.diam ≠ none) := by
  unfold Group.hasApertureStop
  simp only [Prog.run_bind]
  by_cases h : ∃ s ∈ (Part.group label ps).stages, s.diam ≠ none
  · rcases C30_exits hb rfl h with ⟨h1, -⟩ | ⟨z, y, D, -, h1, -⟩
    · rw [h1]; exact ⟨true, rfl, by simpa using h⟩
    · rw [h1]; exact ⟨true, rfl, by simpa using h⟩
  · rw [C30_no_stop hb (by push Not at h; exact h)]
    exact ⟨false, rfl, by simpa using h⟩

/-- A path just created searches heights up to 10000 with a precision of a millionth, and its object is 10 high; so the search of the field of view ends unless a
chief ray is blocked from a height below 37.5 millionths. -/
theorem C33_default [Archimedean K] {label : String} {ps : List (Part K)} {es : List (Elem (Ext K))} {ip : ImagingPath (Ext K)}
    (hn : ImagingPath.new es label = .ok ip) (h : HasChiefs label ps ip.path) :
    ip.objectHeight = fin 10 ∧
    ((∃ fuel, (ip.path.fieldOfView ip.precision ip.maxHeight fuel).run (newTrace ip.path) ≠ .error .nonTermination) ↔
      ∀ y θ, IsChief ip.path y θ → |y| ≤ 75 / 2 * (1 / 1000000) → ¬ Blocked (Part.group label ps).stages (y, θ)) := by
  unfold ImagingPath.new at hn
  obtain ⟨g, -, hn⟩ := bind_ok hn
  simp only [pure, Except.pure, Except.ok.injEq] at hn
  have e1 : ip.precision = fin (1 / 1000000) := by rw [← hn]; simp [lit_eq]
  have e2 : ip.maxHeight = fin 10000 := by rw [← hn]; simp [ofNat_eq]
  have e3 : ip.objectHeight = fin 10 := by rw [← hn]; simp [ofNat_eq]
  rw [e1, e2]
  exact ⟨e3, C33_iff h (by norm_num) (by norm_num)⟩

open Zmx
variable {F : Type} [PyNum F] (P : Reader F)

/-- A wavelength, a curvature, a diameter or a distance that is not a number is refused with a `ValueError`. -/
theorem C55_not_a_number {lines : List Line} {l : Line} {factor : F} {s : List Char} {ss : List (List Char)} (hs : P.float s = none) :
    (ofKey lines "WAVM".toList = [l] → 1 < l.params.length → l.params.getD 1 [] = s → designWavelengths P lines = .error .valueError) ∧
    (lookup lines "CURV".toList = some (s :: ss) → surfaceRadius P factor lines = .error .valueError) ∧
    (lookup lines "DIAM".toList = some (s :: ss) → surfaceDiameter P factor lines = .error .valueError) ∧
    (lookup lines "DISZ".toList = some (s :: ss) → surfaceSpacing P factor lines = .error .valueError) := by
  refine ⟨fun h hp he => ?_, fun h => ?_, fun h => ?_, fun h => ?_⟩
  · have hv := values_eq "WAVM".toList 1 lines (by rw [h]; simpa using hp)
    rw [h] at hv
    have hval : value lines "WAVM".toList 1 = .ok (.one (l.params.getD 1 [])) := by
      unfold value; rw [hv]; rfl
    unfold designWavelengths
    rw [hval]
    simp only [Reader.toFloat, he, hs, Except.map]
  · unfold surfaceRadius first
    rw [h]
    simp only [Reader.toFloat, hs]
  · unfold surfaceDiameter
    rw [h]
    simp only [Reader.toFloat, hs, Except.map]
  · unfold surfaceSpacing first
    rw [h]
    simp only [Reader.toFloat, hs, Except.map]

/-- The elements of a lens read from a file: for each surface an interface from the medium before to the medium after, and the thickness when that medium is a glass. -/
inductive LensPieces (index : Glass → Except PyErr F) : Glass → List (Surface F) → List (Elem F) → Prop
  | done (prev : Glass) : LensPieces index prev [] []
  | air {prev : Glass} {s : Surface F} {ss : List (Surface F)} {n1 n2 : F} {m : Mat F} {es : List (Elem F)} :
      index prev = .ok n1 → index s.mat = .ok n2 → s.mat.name = "Air" → mkDielectric n1 n2 s.R s.diameter = .ok m →
      LensPieces index s.mat ss es → LensPieces index prev (s :: ss) (.leaf m :: es)
  | glass {prev : Glass} {s : Surface F} {ss : List (Surface F)} {n1 n2 : F} {m sp : Mat F} {es : List (Elem F)} :
      index prev = .ok n1 → index s.mat = .ok n2 → s.mat.name ≠ "Air" → mkDielectric n1 n2 s.R s.diameter = .ok m →
      mkSpace s.spacing n2 = .ok sp → LensPieces index s.mat ss es → LensPieces index prev (s :: ss) (.leaf m :: .leaf sp :: es)

theorem tryAppend_append {g g1 : Group F} {e : Elem F} (h : tryAppend g e = .ok g1) : g.append e = (g1, .ok ()) := by
  unfold tryAppend at h
  rcases hg : g.append e with ⟨g', x | u⟩
  · rw [hg] at h; simp at h
  · rw [hg] at h; simp only [Except.ok.injEq] at h; rw [h]

theorem groupLoop_pieces (index : Glass → Except PyErr F) (ss : List (Surface F)) (prev : Glass) (g g1 : Group F)
    (h : groupLoop index g prev ss = .ok g1) : ∃ es, LensPieces index prev ss es ∧ g.appendAll es = (g1, .ok ()) := by
  induction ss generalizing prev g with
  | nil =>
    simp only [groupLoop, Except.ok.injEq] at h
    exact ⟨[], .done _, by rw [h]; rfl⟩
  | cons s ss ih =>
    unfold groupLoop at h
    obtain ⟨n1, h1, h⟩ := bind_ok h
    obtain ⟨n2, h2, h⟩ := bind_ok h
    obtain ⟨m, hm, h⟩ := bind_ok h
    obtain ⟨ga, ha, h⟩ := bind_ok h
    have ha := tryAppend_append ha
    by_cases hair : s.mat.name = "Air"
    · have e : Glass.isAir s.mat = true := by simp [Glass.isAir, hair]
      rw [if_pos e] at h
      obtain ⟨gb, hb, h⟩ := bind_ok h
      simp only [pure, Except.pure, Except.ok.injEq] at hb
      subst hb
      obtain ⟨es, hp, hes⟩ := ih _ _ h
      exact ⟨_, .air h1 h2 hair hm hp, by simp only [Group.appendAll, ha, hes]⟩
    · have e : ¬ Glass.isAir s.mat = true := by simp [Glass.isAir, hair]
      rw [if_neg e] at h
      obtain ⟨sp, hsp, h⟩ := bind_ok h
      obtain ⟨gb, hb, h⟩ := bind_ok h
      have hb := tryAppend_append hb
      obtain ⟨es, hp, hes⟩ := ih _ _ h
      exact ⟨_, .glass h1 h2 hair hm hsp hp, by simp only [Group.appendAll, ha, hb, hes]⟩

/-- Whatever the arithmetic, the group read from a file is `MatrixGroup(elements)` of its interfaces and thicknesses, all of them: no element that is refused is
left out silently. (The doublet at the end of Zemax.lean meets the hypothesis.) -/
theorem C55_elements {index : Glass → Except PyErr F} {name : String} {ss : List (Surface F)} {g : Group F}
    (h : matrixGroup index name ss = .ok g) : ∃ es, LensPieces index air (lensSurfaces ss) es ∧ Group.new es name = .ok g := by
  obtain ⟨es, h1, h2⟩ := groupLoop_pieces index _ _ _ _ h
  exact ⟨es, h1, by unfold Group.new; rw [h2]⟩

end RT
