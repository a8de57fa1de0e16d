import Verif.Props.Zemax
import Verif.Props.RoundedMedia
import Verif.Lemmas.RoundedHeight

/-! # C133: lenses of Zemax files in floats -/

set_option linter.unusedSectionVars false

namespace RT
namespace Zmx
open PyNum Ext Fl
variable {K : Type} [Field K] [LinearOrder K] [IsStrictOrderedRing K]
variable {rnd : K → K} {u : K}

/-- a surface of a prescription: no radius if flat, no diameter if not limited -/
structure Prescribed (K : Type) where
  number : Nat
  R : Option K
  diameter : Option K
  mat : Glass
  spacing : K

/-- the surface in floats -/
def Prescribed.inFloats (rnd : K → K) (s : Prescribed K) : Surface (Fl K rnd) := ⟨s.number, optNum s.R, optNum s.diameter, s.mat, num s.spacing⟩

/-- Light at a surface of curvature `c` between two media: the height is kept and `n₂ θ' = n₁ θ - (n₂ - n₁) c y`. Then it goes through the glass, if it is not air. -/
def Prescribed.light (n : Glass → K) (prev : Glass) (s : Prescribed K) (r : K × K) : K × K :=
  let θ := (n prev * r.2 - (n s.mat - n prev) * curvature s.R * r.1) / n s.mat
  if Glass.isAir s.mat then (r.1, θ) else (r.1 + s.spacing * θ, θ)

/-- light through the surfaces one after the other -/
def lightThrough (n : Glass → K) : Glass → List (Prescribed K) → K × K → K × K
  | _, [], r => r
  | prev, s :: ss, r => lightThrough n s.mat ss (s.light n prev r)

/-- the lens as a program: an interface for each surface, and the glass after it -/
def lensParts (n : Glass → K) : Glass → List (Prescribed K) → List (Part K)
  | _, [] => []
  | prev, s :: ss =>
    .interface (n prev) (n s.mat) s.R s.diameter ::
      ((if Glass.isAir s.mat then [] else [.space s.spacing (n s.mat) none]) ++ lensParts n s.mat ss)

theorem tryAppend_ok {F : Type} [PyNum F] {g g' : Group F} {e : Elem F} : tryAppend g e = .ok g' ↔ g.append e = (g', .ok ()) := by
  unfold tryAppend
  rcases h : g.append e with ⟨g1, _ | _⟩ <;> simp

theorem appendAll_cons_ok {F : Type} [PyNum F] {g g' : Group F} {e : Elem F} {es : List (Elem F)} :
    g.appendAll (e :: es) = (g', .ok ()) ↔ ∃ g1, g.append e = (g1, .ok ()) ∧ g1.appendAll es = (g', .ok ()) := by
  constructor
  · intro h
    unfold Group.appendAll at h
    rcases h1 : g.append e with ⟨g1, _ | _⟩
    · rw [h1] at h; simp at h
    · rw [h1] at h; exact ⟨g1, rfl, h⟩
  · rintro ⟨g1, h1, h2⟩
    unfold Group.appendAll
    rw [h1]; exact h2

theorem buildListWith_cons_ok {p : Part K} {ps : List (Part K)} {es : List (Elem (Fl K rnd))} :
    Part.buildListWith num optNum (p :: ps) = .ok es ↔
      ∃ e es', p.buildR rnd = .ok e ∧ Part.buildListWith num optNum ps = .ok es' ∧ es = e :: es' := by
  constructor
  · intro h
    unfold Part.buildListWith at h
    split at h
    · simp at h
    · next e he =>
      split at h
      · simp at h
      · next es' hes =>
        simp only [Except.ok.injEq] at h
        exact ⟨e, es', he, hes, h.symm⟩
  · rintro ⟨e, es', h1, h2, rfl⟩
    unfold Part.buildListWith
    unfold Part.buildR at h1
    rw [h1, h2]

/-- The loop over the surfaces makes the elements of the program and appends them. -/
theorem groupLoop_parts (n : Glass → K) (ss : List (Prescribed K)) (g g' : Group (Fl K rnd)) (prev : Glass) :
    groupLoop (fun m => .ok (num (n m))) g prev (ss.map (Prescribed.inFloats rnd)) = .ok g' ↔
      ∃ es, Part.buildListWith num optNum (lensParts n prev ss) = .ok es ∧ g.appendAll es = (g', .ok ()) := by
  induction ss generalizing g prev with
  | nil =>
    simp only [List.map_nil, groupLoop, lensParts, Part.buildListWith, Except.ok.injEq]
    constructor
    · rintro rfl; exact ⟨[], rfl, rfl⟩
    · rintro ⟨es, rfl, h⟩
      simpa [Group.appendAll] using h
  | cons s ss ih =>
    constructor
    · intro h
      simp only [List.map_cons, groupLoop] at h
      obtain ⟨n1, e1, h⟩ := bind_ok h
      obtain ⟨n2, e2, h⟩ := bind_ok h
      cases e1; cases e2
      obtain ⟨i, hi, h⟩ := bind_ok h
      obtain ⟨g1, hg1, h⟩ := bind_ok h
      rw [tryAppend_ok] at hg1
      have hb : (Part.interface (n prev) (n s.mat) s.R s.diameter).buildR rnd = .ok (.leaf i) := by
        unfold Part.buildR Part.buildWith
        rw [show mkDielectric (num (n prev) : Fl K rnd) (num (n s.mat)) (optNum s.R) (optNum s.diameter) = .ok i from hi]; rfl
      by_cases ha : Glass.isAir s.mat = true
      · have ha' : Glass.isAir (s.inFloats rnd).mat = true := ha
        simp only [ha', if_true] at h
        obtain ⟨g2, hg2, h⟩ := bind_ok h
        cases hg2
        obtain ⟨es, q1, q2⟩ := (ih g1 s.mat).1 h
        refine ⟨.leaf i :: es, ?_, appendAll_cons_ok.2 ⟨g1, hg1, q2⟩⟩
        unfold lensParts
        rw [if_pos ha, List.nil_append]
        exact buildListWith_cons_ok.2 ⟨_, _, hb, q1, rfl⟩
      · have ha' : ¬Glass.isAir (s.inFloats rnd).mat = true := ha
        simp only [ha', Bool.false_eq_true, if_false] at h
        obtain ⟨sp, hsp, h⟩ := bind_ok h
        obtain ⟨g2, hg2, h⟩ := bind_ok h
        rw [tryAppend_ok] at hg2
        obtain ⟨es, q1, q2⟩ := (ih g2 s.mat).1 h
        have hb2 : (Part.space s.spacing (n s.mat) none).buildR rnd = .ok (.leaf sp) := by
          unfold Part.buildR Part.buildWith
          rw [show mkSpace (num s.spacing : Fl K rnd) (num (n s.mat)) (optNum none) = .ok sp from hsp]; rfl
        refine ⟨.leaf i :: .leaf sp :: es, ?_, appendAll_cons_ok.2 ⟨g1, hg1, appendAll_cons_ok.2 ⟨g2, hg2, q2⟩⟩⟩
        unfold lensParts
        rw [if_neg ha, List.singleton_append]
        exact buildListWith_cons_ok.2 ⟨_, _, hb, buildListWith_cons_ok.2 ⟨_, _, hb2, q1, rfl⟩, rfl⟩
    · rintro ⟨es, q1, q2⟩
      unfold lensParts at q1
      obtain ⟨e, es1, hb, q3, rfl⟩ := buildListWith_cons_ok.1 q1
      clear q1
      obtain ⟨g1, hg1, q5⟩ := appendAll_cons_ok.1 q2
      unfold Part.buildR Part.buildWith at hb
      obtain ⟨i, hi, rfl⟩ := Except.map_ok hb
      simp only [List.map_cons, groupLoop]
      have hi' : mkDielectric (num (n prev) : Fl K rnd) (num (n (s.inFloats rnd).mat)) (s.inFloats rnd).R (s.inFloats rnd).diameter = .ok i := hi
      simp only [bind, Except.bind, hi', tryAppend_ok.2 hg1]
      by_cases ha : Glass.isAir s.mat = true
      · have ha' : Glass.isAir (s.inFloats rnd).mat = true := ha
        rw [if_pos ha, List.nil_append] at q3
        simp only [ha', if_true, pure, Except.pure]
        exact (ih g1 s.mat).2 ⟨es1, q3, q5⟩
      · have ha' : ¬Glass.isAir (s.inFloats rnd).mat = true := ha
        rw [if_neg ha, List.singleton_append] at q3
        obtain ⟨e2, es2, hb2, q4, rfl⟩ := buildListWith_cons_ok.1 q3
        obtain ⟨g2, hg2, q6⟩ := appendAll_cons_ok.1 q5
        unfold Part.buildR Part.buildWith at hb2
        obtain ⟨sp, hsp, rfl⟩ := Except.map_ok hb2
        have hsp' : mkSpace (s.inFloats rnd).spacing (num (n (s.inFloats rnd).mat) : Fl K rnd) = .ok sp := hsp
        simp only [ha', Bool.false_eq_true, if_false, hsp', tryAppend_ok.2 hg2]
        exact (ih g2 s.mat).2 ⟨es2, q4, q6⟩

/-- **C133.** In floats, the lens of a Zemax file (surfaces in air, then those of the glasses, then the first in air again, then others) is made exactly when the program
of its surfaces runs, and it is what this program makes. -/
theorem C133_program (n : Glass → K) {airs rest : List (Surface (Fl K rnd))} {glasses : List (Prescribed K)} {a : Prescribed K} (h1 : ∀ s ∈ airs, Glass.isAir s.mat = true)
    (h2 : ∀ s ∈ glasses, Glass.isAir s.mat = false) (h3 : glasses ≠ []) (h4 : Glass.isAir a.mat = true) (name : String) (g : Group (Fl K rnd)) :
    matrixGroup (fun m => .ok (num (n m))) name (airs ++ glasses.map (Prescribed.inFloats rnd) ++ a.inFloats rnd :: rest) = .ok g ↔
      (Part.group name (lensParts n air (glasses ++ [a]))).buildR rnd = .ok g.toElem := by
  have hs : lensSurfaces (airs ++ glasses.map (Prescribed.inFloats rnd) ++ a.inFloats rnd :: rest) = (glasses ++ [a]).map (Prescribed.inFloats rnd) := by
    rw [List.map_append, List.map_singleton]
    refine C54_surfaces h1 ?_ (by simpa using h3) h4
    intro s hs
    obtain ⟨t, ht, rfl⟩ := List.mem_map.1 hs
    exact h2 t ht
  unfold matrixGroup
  rw [hs, groupLoop_parts]
  unfold Part.buildR Part.buildWith
  constructor
  · rintro ⟨es, q1, q2⟩
    rw [q1]
    simp only [Group.new, q2]
    rfl
  · intro h
    split at h
    · simp at h
    · next es hes =>
      refine ⟨es, hes, ?_⟩
      obtain ⟨g', hg', hg2⟩ := Except.map_ok h
      unfold Group.new at hg'
      split at hg'
      · next g1 hq =>
        cases hg'
        have : g' = g := by
          cases g'; cases g
          simpa [Group.toElem] using hg2
        rw [← this]; exact hq
      · cases hg'

/-- the program does to light what the surfaces do -/
theorem lensParts_light {n : Glass → K} : ∀ (ss : List (Prescribed K)) (prev : Glass), (∀ s ∈ ss, n s.mat ≠ 0) → ∀ acc : RStage K, ∀ r,
    (Part.rmatList acc (lensParts n prev ss)).exact.out r = lightThrough n prev ss (acc.exact.out r)
  | [], prev, _, acc, r => rfl
  | s :: ss, prev, hs, acc, r => by
    have hn := hs s (by simp)
    have e1 : ∀ t : K × K, (Part.interface (n prev) (n s.mat) s.R s.diameter).rmat.exact.out t =
        (t.1, (n prev * t.2 - (n s.mat - n prev) * curvature s.R * t.1) / n s.mat) := by
      intro t
      simp only [Part.rmat, Part.rstages, List.headD_cons, Stage.withOps, Sys.stage, Sys.interface, Stage.out, Prod.mk.injEq]
      constructor
      · ring
      · field_simp; ring
    have e2 : ∀ t : K × K, (Part.space s.spacing (n s.mat) none).rmat.exact.out t = (t.1 + s.spacing * t.2, t.2) := by
      intro t
      simp only [Part.rmat, Part.rstages, List.headD_cons, Stage.withOps, Sys.stage, Sys.space, Stage.out, Prod.mk.injEq]
      exact ⟨by ring, by ring⟩
    have ih := lensParts_light ss s.mat fun t ht => hs t (by simp [ht])
    unfold lensParts lightThrough Prescribed.light
    by_cases ha : Glass.isAir s.mat = true
    · simp only [ha, if_true, List.nil_append, Part.rmatList]
      rw [ih, andThen_out, e1]
    · simp only [ha, if_false, List.singleton_append, Part.rmatList, Bool.false_eq_true]
      rw [ih, andThen_out, andThen_out, e1, e2]

/-- eight roundings at most for each surface -/
theorem lensParts_ops {n : Glass → K} : ∀ (ss : List (Prescribed K)) (prev : Glass), ∀ acc : RStage K,
    (Part.rmatList acc (lensParts n prev ss)).ops ≤ acc.ops + 8 * ss.length
  | [], prev, acc => by simp [lensParts, Part.rmatList]
  | s :: ss, prev, acc => by
    have ih := lensParts_ops (n := n) ss s.mat
    unfold lensParts
    by_cases ha : Glass.isAir s.mat = true
    · simp only [ha, if_true, List.nil_append, Part.rmatList, List.length_cons]
      refine (ih _).trans ?_
      simp only [RStage.andThen, Part.rmat, Part.rstages, List.headD_cons, Stage.withOps]
      omega
    · simp only [ha, if_false, List.singleton_append, Part.rmatList, Bool.false_eq_true, List.length_cons]
      refine (ih _).trans ?_
      simp only [RStage.andThen, Part.rmat, Part.rstages, List.headD_cons, Stage.withOps]
      omega

/-- **C133.** The matrix of the lens in floats: its coefficients are those of the light going through the surfaces in exact arithmetic, up to at most eight roundings for
each surface, relatively to the majorant of the exact product. -/
theorem C133_matrix (hr : Rounding rnd u) (n : Glass → K) {airs rest : List (Surface (Fl K rnd))} {glasses : List (Prescribed K)} {a : Prescribed K}
    (h1 : ∀ s ∈ airs, Glass.isAir s.mat = true) (h2 : ∀ s ∈ glasses, Glass.isAir s.mat = false) (h3 : glasses ≠ []) (h4 : Glass.isAir a.mat = true)
    (hn : ∀ s ∈ glasses ++ [a], n s.mat ≠ 0) (name : String) {g : Group (Fl K rnd)}
    (h : matrixGroup (fun m => .ok (num (n m))) name (airs ++ glasses.map (Prescribed.inFloats rnd) ++ a.inFloats rnd :: rest) = .ok g) :
    ∃ A B C D A' B' C' D' : K, g.mat.A = num A' ∧ g.mat.B = num B' ∧ g.mat.C = num C' ∧ g.mat.D = num D' ∧
      (∀ y θ, lightThrough n air (glasses ++ [a]) (y, θ) = (A * y + B * θ, C * y + D * θ)) ∧
      ∃ k, k ≤ 8 * (glasses.length + 1) ∧
        |A' - A| ≤ relErr u k * (Part.group name (lensParts n air (glasses ++ [a]))).rmat.maj.a ∧
        |B' - B| ≤ relErr u k * (Part.group name (lensParts n air (glasses ++ [a]))).rmat.maj.b ∧
        |C' - C| ≤ relErr u k * (Part.group name (lensParts n air (glasses ++ [a]))).rmat.maj.c ∧
        |D' - D| ≤ relErr u k * (Part.group name (lensParts n air (glasses ++ [a]))).rmat.maj.d := by
  have hb := (C133_program n h1 h2 h3 h4 name g).1 h
  have hm := buildR_mat hr hb
  obtain ⟨A', eA, -, bA⟩ := hm.A
  obtain ⟨B', eB, -, bB⟩ := hm.B
  obtain ⟨C', eC, -, bC⟩ := hm.C
  obtain ⟨D', eD, -, bD⟩ := hm.D
  refine ⟨_, _, _, _, A', B', C', D', eA, eB, eC, eD, ?_, _, ?_, bA, bB, bC, bD⟩
  · intro y θ
    have := lensParts_light (n := n) (glasses ++ [a]) air hn RStage.one (y, θ)
    have e : (RStage.one : RStage K).exact.out (y, θ) = (y, θ) := by simp [RStage.one, Stage.out]
    rw [e] at this
    rw [← this]
    unfold Part.rmat
    rfl
  · have := lensParts_ops (n := n) (glasses ++ [a]) air RStage.one
    unfold Part.rmat
    simpa [RStage.one] using this

/-- **C133.** The lens is made in floats when the surfaces follow each other from air to air with room for the rounding errors on the determinants. -/
theorem C133_made (hr : Rounding rnd u) (n : Glass → K) {airs rest : List (Surface (Fl K rnd))} {glasses : List (Prescribed K)} {a : Prescribed K}
    (h1 : ∀ s ∈ airs, Glass.isAir s.mat = true) (h2 : ∀ s ∈ glasses, Glass.isAir s.mat = false) (h3 : glasses ≠ []) (h4 : Glass.isAir a.mat = true)
    (name : String) (hbet : (Part.group name (lensParts n air (glasses ++ [a]))).Between u 1 1) :
    ∃ g : Group (Fl K rnd), matrixGroup (fun m => .ok (num (n m))) name (airs ++ glasses.map (Prescribed.inFloats rnd) ++ a.inFloats rnd :: rest) = .ok g := by
  obtain ⟨e, he⟩ := C96_media hr hbet
  have : ∃ g : Group (Fl K rnd), e = g.toElem := by
    unfold Part.buildR Part.buildWith at he
    split at he
    · simp at he
    · obtain ⟨g, -, rfl⟩ := Except.map_ok he
      exact ⟨g, rfl⟩
  obtain ⟨g, rfl⟩ := this
  exact ⟨g, (C133_program n h1 h2 h3 h4 name g).2 he⟩

/-- indices 3/2 and 7/4 for the example -/
def someIndex (g : Glass) : ℚ := if g.name = "Air" then 1 else if g.name = "N_BK7" then 3 / 2 else 7 / 4
/-- the two glasses of a doublet -/
def doubletGlasses : List (Prescribed ℚ) :=
  [⟨1, some 100, some 25, ⟨"N_BK7", .laurent 0 0 0 0 0 0, 0⟩, 6⟩, ⟨2, some (-80), some 25, ⟨"N_SF5", .laurent 0 0 0 0 0 0, 0⟩, 2⟩]
/-- its last surface -/
def doubletLast : Prescribed ℚ := ⟨3, some (-300), some 25, air, 90⟩

theorem doublet_between : (Part.group "lens" (lensParts someIndex air (doubletGlasses ++ [doubletLast]))).Between unitRoundoff 1 1 := by
  have hR : ∀ (s : RStage ℚ) (n n' : ℚ), (decide (s.ops ≤ 1000) && decide (s.maj.a * s.maj.d + s.maj.b * s.maj.c ≤ 10 ^ 7) &&
      decide (|n / n'| ≤ 1000) && (decide (n = n') || decide (1 / 100000 ≤ |n / n' - 1|))) = true → s.RoomFor unitRoundoff n n' := by
    intro s n n' h
    simp only [Bool.and_eq_true, Bool.or_eq_true, decide_eq_true_eq] at h
    obtain ⟨⟨⟨h1, h2⟩, h3⟩, h4⟩ := h
    exact C96_room h1 h2 h3 h4
  have o1 : OpenDiam (none : Option ℚ) := by simp [OpenDiam]
  have o2 : OpenDiam (some 25 : Option ℚ) := by simp [OpenDiam]
  have e : lensParts someIndex air (doubletGlasses ++ [doubletLast]) = [.interface 1 (3 / 2) (some 100) (some 25), .space 6 (3 / 2) none,
      .interface (3 / 2) (7 / 4) (some (-80)) (some 25), .space 2 (7 / 4) none, .interface (7 / 4) 1 (some (-300)) (some 25)] := by rfl
  rw [e]
  unfold Part.Between
  refine ⟨one_ne_zero, ?_⟩
  unfold Part.BetweenList
  refine ⟨3 / 2, ?_, .inl trivial, hR _ _ _ (by decide +kernel), ?_⟩
  · unfold Part.Between; exact ⟨rfl, rfl, by norm_num, by norm_num, by simp, o2, hR _ _ _ (by decide +kernel)⟩
  unfold Part.BetweenList
  refine ⟨3 / 2, ?_, .inr ⟨rfl, trivial⟩, hR _ _ _ (by decide +kernel), ?_⟩
  · unfold Part.Between; exact ⟨rfl, by norm_num, by norm_num, o1⟩
  unfold Part.BetweenList
  refine ⟨7 / 4, ?_, .inl trivial, hR _ _ _ (by decide +kernel), ?_⟩
  · unfold Part.Between; exact ⟨rfl, rfl, by norm_num, by norm_num, by simp, o2, hR _ _ _ (by decide +kernel)⟩
  unfold Part.BetweenList
  refine ⟨7 / 4, ?_, .inr ⟨rfl, trivial⟩, hR _ _ _ (by decide +kernel), ?_⟩
  · unfold Part.Between; exact ⟨rfl, by norm_num, by norm_num, o1⟩
  unfold Part.BetweenList
  refine ⟨1, ?_, .inl trivial, hR _ _ _ (by decide +kernel), ?_⟩
  · unfold Part.Between; exact ⟨rfl, rfl, by norm_num, by norm_num, by simp, o2, hR _ _ _ (by decide +kernel)⟩
  unfold Part.BetweenList
  rfl

/-- A doublet of indices 3/2 and 7/4 between an object at infinity and an image plane meets the hypotheses, and is made in Python floats. -/
theorem C133_example : (∀ s ∈ doubletGlasses, Glass.isAir s.mat = false) ∧ doubletGlasses ≠ [] ∧ Glass.isAir doubletLast.mat = true ∧
    (∀ s ∈ doubletGlasses ++ [doubletLast], someIndex s.mat ≠ 0) ∧
    (Part.group "lens" (lensParts someIndex air (doubletGlasses ++ [doubletLast]))).Between unitRoundoff 1 1 ∧
    ∃ g : Group Double, matrixGroup (fun m => .ok (num (someIndex m))) "lens"
      ([⟨0, inf, inf, air, inf⟩] ++ doubletGlasses.map (Prescribed.inFloats double) ++ doubletLast.inFloats double :: [⟨4, inf, inf, air, num 0⟩]) = .ok g := by
  have h2 : ∀ s ∈ doubletGlasses, Glass.isAir s.mat = false := by decide +kernel
  have h3 : doubletGlasses ≠ [] := by simp [doubletGlasses]
  have h4 : Glass.isAir doubletLast.mat = true := by decide +kernel
  refine ⟨h2, h3, h4, by decide +kernel, doublet_between, ?_⟩
  refine C133_made double_rounding someIndex ?_ h2 h3 h4 "lens" doublet_between
  intro s hs
  rw [List.mem_singleton.1 hs]
  exact h4

end Zmx
end RT
