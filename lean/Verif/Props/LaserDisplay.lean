import Verif.Model.LaserDisplay
import Verif.Props.Beam
import Verif.Props.Figure
import Verif.Props.Marks

/-! # C89: the displays of laser paths and cavities -/

set_option linter.unusedSectionVars false

namespace RT
open PyNum Ext

section
variable {F : Type} [PyNum F] [PyMath F]

theorem beamsLoop_arrows (N : Nat) (heights : List (List F) → Except PyErr (List F)) (g : Group F) (input : Option (Beam F))
    (beams : List (Option (Beam F))) (l : List (List F × List F)) (a a' : List (F × F × F)) :
    g.beamsLoop N heights input beams ⟨l, a ++ a'⟩ =
      ((g.beamsLoop N heights input beams ⟨l, a'⟩).1,
        ⟨(g.beamsLoop N heights input beams ⟨l, a'⟩).2.lines, a ++ (g.beamsLoop N heights input beams ⟨l, a'⟩).2.arrows⟩) := by
  induction beams generalizing l a' with
  | nil => rfl
  | cons b bs ih =>
    cases b with
    | none => rfl
    | some b =>
      simp only [Group.beamsLoop]
      cases g.beamTraceLines N b with
      | error x => rfl
      | ok ls =>
        dsimp only
        cases g.beamWaists heights input (l ++ [ls.1, ls.2]) b with
        | error x => rfl
        | ok w => dsimp only; rw [List.append_assoc]; exact ih _ _

/-- The state after any number of displays, each with its beams, whether they succeed or not. -/
def displays (N : Nat) (heights : List (List F) → Except PyErr (List F)) (g : Group F) (input : Option (Beam F)) :
    List (Option (List (Beam F))) → LaserFigure F → LaserFigure F
  | [], f => f
  | bs :: bss, f => displays N heights g input bss (g.displayLaser N heights input bs f).2

/-- **C89** is violated by the arrows of the waists: the figure of a laser path that was displayed before shows again all the arrows of the earlier displays
(`f.arrows`), then its own. The rest (the lines, the exceptions) is that of a path never displayed. -/
theorem C89_violated_arrows (N : Nat) (heights : List (List F) → Except PyErr (List F)) (g : Group F) (input : Option (Beam F))
    (beams : Option (List (Beam F))) (f : LaserFigure F) :
    let alone := g.displayLaser N heights input beams ⟨[], []⟩
    let again := g.displayLaser N heights input beams f
    again.1 = alone.1 ∧ again.2.lines = alone.2.lines ∧ again.2.arrows = f.arrows ++ alone.2.arrows := by
  dsimp only
  unfold Group.displayLaser Group.displayBeams
  cases heights [] with
  | error x => simp
  | ok hs =>
    dsimp only
    have key : ∀ bs, (g.beamsLoop N heights input bs ⟨[], f.arrows⟩).1 = (g.beamsLoop N heights input bs ⟨[], []⟩).1 ∧
        (g.beamsLoop N heights input bs ⟨[], f.arrows⟩).2.lines = (g.beamsLoop N heights input bs ⟨[], []⟩).2.lines ∧
        (g.beamsLoop N heights input bs ⟨[], f.arrows⟩).2.arrows = f.arrows ++ (g.beamsLoop N heights input bs ⟨[], []⟩).2.arrows := by
      intro bs
      have := beamsLoop_arrows N heights g input bs [] f.arrows []
      rw [List.append_nil] at this
      rw [this]
      exact ⟨rfl, rfl, rfl⟩
    exact key _

/-- **C89** is violated: after any number of displays, the arrows in the figure are those of all of them. -/
theorem C89_violated_all (N : Nat) (heights : List (List F) → Except PyErr (List F)) (g : Group F) (input : Option (Beam F))
    (bss : List (Option (List (Beam F)))) (f : LaserFigure F) :
    (displays N heights g input bss f).arrows =
      f.arrows ++ bss.flatMap fun bs => (g.displayLaser N heights input bs ⟨[], []⟩).2.arrows := by
  induction bss generalizing f with
  | nil => simp [displays]
  | cons bs bss ih =>
    rw [displays, ih, (C89_violated_arrows N heights g input bs f).2.2, List.flatMap_cons, List.append_assoc]

theorem beamsLoop_lines {N : Nat} {heights : List (List F) → Except PyErr (List F)} {g : Group F} {input : Option (Beam F)}
    {beams : List (Beam F)} {f f' : LaserFigure F} (h : g.beamsLoop N heights input (beams.map some) f = (.ok (), f')) :
    ∃ ls, List.Forall₂ (fun b l => g.beamTraceLines N b = .ok l) beams ls ∧ f'.lines = f.lines ++ ls.flatMap fun l => [l.1, l.2] := by
  induction beams generalizing f with
  | nil =>
    simp only [List.map_nil, Group.beamsLoop, Prod.mk.injEq, true_and] at h
    exact ⟨[], .nil, by simp [h]⟩
  | cons b bs ih =>
    simp only [List.map_cons, Group.beamsLoop] at h
    cases hl : g.beamTraceLines N b with
    | error x => rw [hl] at h; simp at h
    | ok l =>
      rw [hl] at h
      dsimp only at h
      cases hw : g.beamWaists heights input (f.lines ++ [l.1, l.2]) b with
      | error x => rw [hw] at h; simp at h
      | ok a =>
        rw [hw] at h
        obtain ⟨ls, h1, h2⟩ := ih h
        exact ⟨l :: ls, .cons hl h1, by rw [h2]; simp⟩

/-- **C89** (lines): whatever was displayed before, the lines of the figure are those of the beams given, two for each, in order: those of C70, above and below
the axis. -/
theorem C89_lines {N : Nat} {heights : List (List F) → Except PyErr (List F)} {g : Group F} {input : Option (Beam F)}
    {beams : List (Beam F)} {f f' : LaserFigure F} (h : g.displayLaser N heights input (some beams) f = (.ok (), f')) :
    ∃ ls, List.Forall₂ (fun b l => g.beamTraceLines N b = .ok l) beams ls ∧ f'.lines = ls.flatMap fun l => [l.1, l.2] := by
  unfold Group.displayLaser Group.displayBeams at h
  cases hh : heights [] with
  | error x => rw [hh] at h; simp at h
  | ok hs =>
    rw [hh] at h
    simpa using beamsLoop_lines h

/-- **C89** is violated without beam: `display()` of a laser path whose `inputBeam` was not set raises `TypeError`, for all paths. -/
theorem C89_violated_none (N : Nat) {heights : List (List F) → Except PyErr (List F)} {hs : List F} (hh : heights [] = .ok hs) (g : Group F)
    (f : LaserFigure F) : (g.displayLaser N heights none none f).1 = .error .typeError := by
  unfold Group.displayLaser Group.displayBeams
  rw [hh]
  rfl

end

/-- **C89** (cavities), for every cavity of unit determinant with power (|C| over the threshold 1e-5 of the code): when its display succeeds, a stable cavity
(|A + D| < 2) shows one beam and no hint is given; an unstable one shows no beam, with a hint. -/
theorem C89_cavity {g : Group (Ext ℝ)} {s : Sys ℝ} (hd : Den g.mat s) (hc : 1 / 100000 < |s.c|) (hdet : s.det = 1) {N : Nat}
    {heights : List (List (Ext ℝ)) → Except PyErr (List (Ext ℝ))} {input : Option (Beam (Ext ℝ))} {f f' : LaserFigure (Ext ℝ)} {hint : Bool}
    (h : g.displayCavity N heights input f = (.ok hint, f')) :
    (|s.a + s.d| < 2 → hint = false ∧ ∃ b l, g.mat.laserModes = .ok [b] ∧ g.beamTraceLines N b = .ok l ∧ f'.lines = [l.1, l.2]) ∧
    (2 ≤ |s.a + s.d| → hint = true ∧ f'.lines = []) := by
  obtain ⟨modes, h1, h2, h3⟩ := C44_stable_partial hd hc hdet
  unfold Group.displayCavity at h
  constructor
  · intro hs
    rw [h2, decide_eq_true hs, h1] at h
    dsimp only at h
    rw [if_pos hs] at h3
    obtain ⟨b, rfl⟩ := List.length_eq_one_iff.1 h3
    cases hr : (g.displayLaser N heights input (some [b]) f) with
    | mk r f1 =>
      rw [hr] at h
      cases r with
      | error x => simp [Except.map] at h
      | ok u =>
        simp only [Except.map, Prod.mk.injEq, Except.ok.injEq] at h
        obtain ⟨h4, rfl⟩ := h
        obtain ⟨ls, h5, h6⟩ := C89_lines hr
        cases h5 with
        | cons h7 h8 =>
          cases h8
          exact ⟨h4.symm, b, _, h1, h7, by simpa using h6⟩
  · intro hs
    rw [h2, decide_eq_false (not_lt.2 hs)] at h
    dsimp only at h
    cases hr : (g.displayLaser N heights input (some []) f) with
    | mk r f1 =>
      rw [hr] at h
      cases r with
      | error x => simp [Except.map] at h
      | ok u =>
        simp only [Except.map, Prod.mk.injEq, Except.ok.injEq] at h
        obtain ⟨h4, rfl⟩ := h
        obtain ⟨ls, h5, h6⟩ := C89_lines hr
        cases h5
        exact ⟨h4.symm, by simpa using h6⟩

/-- the range of a laser path is a number -/
theorem laserRange_fin (hs : List ℝ) (h0 : ∀ h ∈ hs, 0 ≤ h) {input : Option (Beam (Ext ℝ))} (hi : ∀ b ∈ input, Confined b) :
    ∃ r, laserDisplayRange (hs.map fin) input = .ok (fin r) := by
  obtain ⟨h1, h2⟩ := C75_laser hs input h0
  by_cases h : ∃ h ∈ hs, h ≠ 0
  · obtain ⟨R, h3, -⟩ := h1 h
    exact ⟨R, h3⟩
  · push Not at h
    obtain ⟨h3, h4⟩ := h2 h
    cases input with
    | none => exact ⟨100, h3⟩
    | some b =>
      obtain ⟨-, w, hw, -⟩ := (hi b rfl).size
      exact ⟨_, h4 b w hw⟩

/-- **C89** (a beam is always shown): for every laser path made by a program with positive indices, the graphics of its elements having numbers as half
heights, and confined beams in the medium in front of the path, the display succeeds, whatever was displayed before. -/
theorem C89_shown {label : String} {ps : List (Part ℝ)} (hv : Part.ValidList ps) (hp : Part.PosMediaList ps) {m : Mat (Ext ℝ)} {c}
    {es : List (Elem (Ext ℝ))} (hb : (Part.group label ps).build = .ok (.group m c es)) (hc : (Elem.group m c es).Clean) {N : Nat} (hN : N ≠ 0)
    {heights : List (List (Ext ℝ)) → Except PyErr (List (Ext ℝ))}
    (hh : ∀ ls, ∃ hs : List ℝ, heights ls = .ok (hs.map fin) ∧ ∀ h ∈ hs, 0 ≤ h) {input : Option (Beam (Ext ℝ))} (hi : ∀ b ∈ input, Confined b)
    {beams : List (Beam (Ext ℝ))} (hbs : ∀ b ∈ beams, Confined b ∧ b.n = m.frontIndex) (f : LaserFigure (Ext ℝ)) :
    ∃ f', (⟨m, c, es⟩ : Group (Ext ℝ)).displayLaser N heights input (some beams) f = (.ok (), f') ∧ f'.lines.length = 2 * beams.length := by
  have main : ∀ (beams : List (Beam (Ext ℝ))), (∀ b ∈ beams, Confined b ∧ b.n = m.frontIndex) → ∀ f : LaserFigure (Ext ℝ),
      ∃ f', (⟨m, c, es⟩ : Group (Ext ℝ)).beamsLoop N heights input (beams.map some) f = (.ok (), f') := by
    intro beams
    induction beams with
    | nil => exact fun _ f => ⟨f, rfl⟩
    | cons b bs ih =>
      intro hbs f
      obtain ⟨hcf, hn⟩ := hbs b (by simp)
      obtain ⟨t, ht, -⟩ := C39_traced (p := .group label ps) hv hp hb hc hcf hn
      have hfin : b.Finite := by
        obtain ⟨q, wl, z, n, c, rfl, -⟩ := hcf
        exact ⟨q, wl, z, n, c, rfl⟩
      obtain ⟨-, w, hw, -⟩ := hcf.size
      obtain ⟨x, y, u, h1, -⟩ := C70_lines hv hb hc hN hfin ⟨_, hw⟩ ht
      obtain ⟨hs, h2, h3⟩ := hh ((f.lines ++ [(x, y), (x, y.map fun v => -v)]).map Prod.snd)
      obtain ⟨r, h4⟩ := laserRange_fin hs h3 hi
      obtain ⟨hgood, -⟩ := build_good (p := .group label ps) hv hb hc
      unfold Elem.Good at hgood
      have hL := hgood.2.den.L
      have hall := confined_trace (p := .group label ps) hv hp hb hc hcf ht
      obtain ⟨l, h5, -⟩ := C70_waists_partial m.sys.len (r * (1 / 10)) hall
      have hwa : (⟨m, c, es⟩ : Group (Ext ℝ)).beamWaists heights input (f.lines ++ [(x, y), (x, y.map fun v => -v)]) b = .ok l := by
        unfold Group.beamWaists
        rw [h2]
        dsimp only
        rw [h4]
        dsimp only [Group.toElem]
        rw [ht]
        dsimp only
        rw [lit_eq, fin_mul_fin, hL]
        simpa using h5
      obtain ⟨f', h6⟩ := ih (fun b hb => hbs b (by simp [hb])) ⟨f.lines ++ [(x, y), (x, y.map fun v => -v)], f.arrows ++ l⟩
      refine ⟨f', ?_⟩
      rw [List.map_cons, Group.beamsLoop, h1]
      dsimp only
      rw [hwa]
      exact h6
  obtain ⟨hs, h1, -⟩ := hh []
  obtain ⟨f', h2⟩ := main beams hbs { f with lines := [] }
  have h3 : (⟨m, c, es⟩ : Group (Ext ℝ)).displayLaser N heights input (some beams) f = (.ok (), f') := by
    unfold Group.displayLaser Group.displayBeams
    rw [h1]
    exact h2
  refine ⟨f', h3, ?_⟩
  obtain ⟨ls, h4, h5⟩ := C89_lines h3
  rw [h5, h4.length_eq]
  clear h5 h4
  induction ls with
  | nil => rfl
  | cons l ls ih => simp [ih]; ring

/-- a path, a beam and graphics which meet the hypotheses -/
example : ∃ m c es, (Part.group "" [.space (10 : ℝ) 1 none, .lens 20 (some 5), .space 3 1 none]).build = .ok (.group m c es) ∧
    ∀ f, ∃ f', (⟨m, c, es⟩ : Group (Ext ℝ)).displayLaser 100 (fun _ => .ok [fin 2, fin 3]) none (some [beamOf Complex.I 1 0 1 false]) f = (.ok (), f') ∧
      f'.lines.length = 2 := by
  obtain ⟨e, h1, h2, h3⟩ := simple_group (K := ℝ) (ps := [.space (10 : ℝ) 1 none, .lens 20 (some 5), .space 3 1 none]) (by
    intro p hp
    simp only [List.mem_cons, List.not_mem_nil, or_false] at hp
    rcases hp with rfl | rfl | rfl
    · exact .space _ _ diamOk_pinf
    · exact .lens _ (by norm_num) (by simp [DiamOk, optInf])
    · exact .space _ _ diamOk_pinf) ""
  have h1' := h1
  unfold Part.build at h1
  split at h1
  · cases h1
  · next es' he =>
    obtain ⟨g, hg, rfl⟩ := Except.map_ok h1
    refine ⟨g.mat, _, g.elems, h1', fun f => ?_⟩
    have hgood := (build_good h3 h1' h2).1
    have hnf : g.mat.frontIndex = fin 1 := by
      obtain ⟨m1, b1, n1, -⟩ := (Part.Simple.space (10 : ℝ) none diamOk_pinf).build
      obtain ⟨m2, b2, -⟩ := (Part.Simple.lens (f := (20 : ℝ)) (some 5) (by norm_num) (by simp [DiamOk, optInf])).build
      obtain ⟨m3, b3, -⟩ := (Part.Simple.space (3 : ℝ) none diamOk_pinf).build
      simp only [Part.buildList, b1, b2, b3, Except.ok.injEq] at he
      subst he
      have hh := Group.new_head hg
      exact (h2.1 (.leaf m1) hh).trans n1
    exact C89_shown (label := "") h3 (by simp [Part.PosMediaList, Part.PosMedia]) h1' h2 (by norm_num)
      (fun _ => ⟨[2, 3], rfl, by simp⟩) (by simp) (by
        intro b hb
        rw [List.mem_singleton] at hb
        subst hb
        exact ⟨⟨_, _, _, _, _, rfl, by simp, by norm_num, by norm_num⟩, hnf.symm⟩) f

/-- a stable and an unstable cavity which meet the hypotheses -/
example : ∃ (m1 m2 m : Mat (Ext ℝ)) (s : Sys ℝ), mkSpace (fin 10) (fin 1) = .ok m1 ∧ mkLens (fin 20) = .ok m2 ∧
    m2.mulMatrix m1 = .ok m ∧ Den m s ∧ 1 / 100000 < |s.c| ∧ s.det = 1 ∧ |s.a + s.d| < 2 := by
  obtain ⟨m1, m2, m, s, e1, e2, e3, e4, e5, e6⟩ := ring_den (d := 10) (f := 20) (by norm_num)
  refine ⟨m1, m2, m, s, e1, e2, e3, e4, ?_, ?_, ?_⟩
  · rw [e6]; norm_num [lt_abs]
  · rw [e6]; norm_num [Sys.det]
  · rw [e6]; norm_num [abs_lt]

example : ∃ (m1 m2 m : Mat (Ext ℝ)) (s : Sys ℝ), mkSpace (fin 100) (fin 1) = .ok m1 ∧ mkLens (fin 20) = .ok m2 ∧
    m2.mulMatrix m1 = .ok m ∧ Den m s ∧ 1 / 100000 < |s.c| ∧ s.det = 1 ∧ 2 ≤ |s.a + s.d| := by
  obtain ⟨m1, m2, m, s, e1, e2, e3, e4, e5, e6⟩ := ring_den (d := 100) (f := 20) (by norm_num)
  refine ⟨m1, m2, m, s, e1, e2, e3, e4, ?_, ?_, ?_⟩
  · rw [e6]; norm_num [lt_abs]
  · rw [e6]; norm_num [Sys.det]
  · rw [e6]; norm_num [le_abs]

end RT
