import Verif.Model.Figure
import Verif.Lemmas.Imaging

/-! # C72 what displaying a path shows and changes -/

set_option linter.unusedSectionVars false

namespace RT
open PyNum

section generic
variable {F : Type} [PyNum F]

theorem params_update (f : FigureDesign F) (u : Design F → Design F) : (f.update u).params = u f.params := by
  obtain ⟨a, b, c, st⟩ := f
  cases st <;> rfl

theorem update_update (f : FigureDesign F) (u v : Design F → Design F) : (f.update u).update v = f.update fun d => v (u d) := by
  obtain ⟨a, b, c, st⟩ := f
  cases st <;> rfl

/-- What `design` does to one parameter: the value given, or the same as before. -/
def Given {α : Type} (arg : Option α) (old new : α) : Prop := (∀ v, arg = some v → new = v) ∧ (arg = none → new = old)

theorem given_getD {α : Type} (arg : Option α) (old : α) : Given arg old (arg.getD old) := by
  cases arg <;> simp [Given]

/-- **C72**: before the first display, `design(...)` without a style sets the parameters given and keeps all the others, in every path
whatever was set before. -/
theorem C72_design {s : Shower F} (h : s.design = .method) {a : DesignArgs F} (ha : a.style = none) :
    ∃ s', s.callDesign a = (s', .ok ()) ∧ s'.ip = s.ip ∧ s'.design = .method ∧
      Given a.rayColors s.figure.params.rayColors s'.figure.params.rayColors ∧
      Given a.lampRayColors s.figure.params.lampRayColors s'.figure.params.lampRayColors ∧
      Given a.onlyAxialRay s.figure.params.onlyAxialRay s'.figure.params.onlyAxialRay ∧
      Given a.imageColor s.figure.params.imageColor s'.figure.params.imageColor ∧
      Given a.fillImage s.figure.params.fillImage s'.figure.params.fillImage ∧
      Given a.objectColor s.figure.params.objectColor s'.figure.params.objectColor ∧
      Given a.fillObject s.figure.params.fillObject s'.figure.params.fillObject ∧
      Given a.fontScale s.figure.params.fontScale s'.figure.params.fontScale ∧
      Given a.FOVColors s.figure.params.FOVColors s'.figure.params.FOVColors ∧
      Given a.showObjectImage s.figure.params.showObjectImage s'.figure.params.showObjectImage ∧
      s'.figure.params.limitObjectToFieldOfView = s.figure.params.limitObjectToFieldOfView ∧
      s'.figure.params.onlyPrincipalAndAxialRays = s.figure.params.onlyPrincipalAndAxialRays := by
  refine ⟨{ s with figure := s.figure.update a.apply }, ?_, rfl, h, ?_⟩
  · unfold Shower.callDesign FigureDesign.design
    rw [h, ha]
  · simp only [params_update]
    exact ⟨given_getD _ _, given_getD _ _, given_getD _ _, given_getD _ _, given_getD _ _, given_getD _ _, given_getD _ _,
      given_getD _ _, given_getD _ _, given_getD _ _, rfl, rfl⟩

/-- Specification: the parameters of the style with this name, in a figure. -/
def paramsOf (f : FigureDesign F) (name : String) : Option (Design F) :=
  if name = "default" then some f.default else if name = "publication" then some f.publication
  else if name = "presentation" then some f.presentation else none

/-- **C72**: before the first display, `design(style, ...)` takes the parameters of the style, except those given in the same call, in every
path. -/
theorem C72_style {s : Shower F} (h : s.design = .method) {a : DesignArgs F} {name : String} (ha : a.style = some name) {d : Design F}
    (hd : paramsOf s.figure name = some d) :
    ∃ s', s.callDesign a = (s', .ok ()) ∧ s'.ip = s.ip ∧ s'.design = .method ∧
      Given a.rayColors d.rayColors s'.figure.params.rayColors ∧
      Given a.lampRayColors d.lampRayColors s'.figure.params.lampRayColors ∧
      Given a.onlyAxialRay d.onlyAxialRay s'.figure.params.onlyAxialRay ∧
      Given a.imageColor d.imageColor s'.figure.params.imageColor ∧
      Given a.fillImage d.fillImage s'.figure.params.fillImage ∧
      Given a.objectColor d.objectColor s'.figure.params.objectColor ∧
      Given a.fillObject d.fillObject s'.figure.params.fillObject ∧
      Given a.fontScale d.fontScale s'.figure.params.fontScale ∧
      Given a.FOVColors d.FOVColors s'.figure.params.FOVColors ∧
      Given a.showObjectImage d.showObjectImage s'.figure.params.showObjectImage ∧
      s'.figure.params.limitObjectToFieldOfView = d.limitObjectToFieldOfView ∧
      s'.figure.params.onlyPrincipalAndAxialRays = d.onlyPrincipalAndAxialRays := by
  obtain ⟨st, h1, h2⟩ : ∃ st, Style.ofName name = some st ∧ ({ s.figure with current := st } : FigureDesign F).params = d := by
    unfold paramsOf at hd
    unfold Style.ofName
    split_ifs at hd with c1 c2 c3
    · exact ⟨.default, by rw [if_pos c1], by cases hd; rfl⟩
    · exact ⟨.publication, by rw [if_neg c1, if_pos c2], by cases hd; rfl⟩
    · exact ⟨.presentation, by rw [if_neg c1, if_neg c2, if_pos c3], by cases hd; rfl⟩
  refine ⟨{ s with figure := ({ s.figure with current := st } : FigureDesign F).update a.apply }, ?_, rfl, h, ?_⟩
  · unfold Shower.callDesign FigureDesign.design
    rw [h, ha]
    dsimp only
    rw [h1]
  · simp only [params_update, h2]
    exact ⟨given_getD _ _, given_getD _ _, given_getD _ _, given_getD _ _, given_getD _ _, given_getD _ _, given_getD _ _,
      given_getD _ _, given_getD _ _, given_getD _ _, rfl, rfl⟩

/-- a style, with a colour of its own -/
example (ip : ImagingPath F) : ∃ s', (Shower.new ip).callDesign { style := some "publication", imageColor := some "k" } = (s', .ok ()) ∧
    s'.figure.params.imageColor = "k" ∧ s'.figure.params.objectColor = "0.1" := ⟨_, rfl, rfl, rfl⟩

/-- **C72**: an unknown style is refused and changes nothing. -/
theorem C72_unknown_style {s : Shower F} (h : s.design = .method) {a : DesignArgs F} {name : String} (ha : a.style = some name)
    (hn : name ≠ "default" ∧ name ≠ "publication" ∧ name ≠ "presentation") : s.callDesign a = (s, .error .valueError) := by
  unfold Shower.callDesign FigureDesign.design Style.ofName
  obtain ⟨ip, f, d, fa, fn, rn⟩ := s
  dsimp only at h
  subst h
  rw [ha]
  simp [hn.1, hn.2.1, hn.2.2]

/-- the end of `display` -/
theorem finish_figure (fan : ImagingPath F → F) (s : Shower F) (l : List (Source F)) :
    (s.finish fan l).2.1.figure = .new ∧ (∃ d, (s.finish fan l).2.1.design = .dict d ∧ (s.finish fan l).1.design = d) ∧
      (s.finish fan l).2.1.ip = s.ip ∧ (s.finish fan l).1.objectHeight = s.ip.objectHeight := by
  unfold Shower.finish
  dsimp only
  split_ifs <;> exact ⟨rfl, ⟨_, rfl, rfl⟩, rfl, rfl⟩

theorem finish_sources (fan : ImagingPath F → F) (s : Shower F) (l : List (Source F)) :
    (s.finish fan l).1.sources = (s.finish fan l).2.2 ∧
    (s.finish fan l).2.2 = if hasObject l then l else
      l ++ [Source.object s.ip.objectHeight (s.fanAngle.getD (fan s.ip)) 0 s.fanNumber s.rayNumber] := by
  unfold Shower.finish Shower.addObject
  dsimp only
  split_ifs <;> exact ⟨rfl, rfl⟩

theorem display_run {fan : ImagingPath F → F} {fuel : Nat} {s : Shower F} {rays raysList removeBlocked only limit}
    {tr : F → F → List (Ray F)} {r} (h : (s.display fan fuel rays raysList removeBlocked only limit).run tr = .ok r) :
    ∃ s1 s2, (Shower.applyLimit fuel { s with figure := s.figure.update (displayArgs removeBlocked only limit) }).run tr = .ok s1 ∧
      (s1.applyOnly fuel).run tr = .ok s2 ∧ r = s2.finish fan (givenSources rays raysList) := by
  unfold Shower.display at h
  simp only [Prog.run_bind] at h
  cases h1 : (Shower.applyLimit fuel { s with figure := s.figure.update (displayArgs removeBlocked only limit) }).run tr with
  | error x => rw [h1] at h; cases h
  | ok s1 =>
    rw [h1] at h
    dsimp only at h
    cases h2 : (s1.applyOnly fuel).run tr with
    | error x => rw [h2] at h; cases h
    | ok s2 =>
      rw [h2] at h
      simp only [Prog.run_pure, Except.ok.injEq] at h
      exact ⟨s1, s2, rfl, h2, h.symm⟩

/-- **C72** is violated: whatever the path, what is displayed and how, once a path was displayed `design(...)` raises `TypeError`: its
appearance can no longer be chosen. -/
theorem C72_violated_design {fan : ImagingPath F → F} {fuel : Nat} {s : Shower F} {rays raysList removeBlocked only limit}
    {tr : F → F → List (Ray F)} {shown s' l} (h : (s.display fan fuel rays raysList removeBlocked only limit).run tr = .ok (shown, s', l))
    (a : DesignArgs F) : s'.callDesign a = (s', .error .typeError) := by
  obtain ⟨s1, s2, -, -, h3⟩ := display_run h
  obtain ⟨-, ⟨d, hd, -⟩, -, -⟩ := finish_figure fan s2 (givenSources rays raysList)
  rw [← h3] at hd
  unfold Shower.callDesign
  rw [hd]

/-- **C72** is violated: the design chosen for the first display is lost for the next ones. -/
theorem C72_violated_lost {fan : ImagingPath F → F} {fuel : Nat} {s : Shower F} {rays raysList removeBlocked only limit}
    {tr : F → F → List (Ray F)} {shown s' l} (h : (s.display fan fuel rays raysList removeBlocked only limit).run tr = .ok (shown, s', l)) :
    s'.figure.params = Design.default := by
  obtain ⟨s1, s2, -, -, h3⟩ := display_run h
  obtain ⟨hf, -⟩ := finish_figure fan s2 (givenSources rays raysList)
  rw [← h3] at hf
  rw [hf]
  rfl

/-- parameters which are not used by `applyDesign` -/
theorem applyOnly_ip {fuel : Nat} {s s2 : Shower F} {tr : F → F → List (Ray F)} (h : (s.applyOnly fuel).run tr = .ok s2) :
    s2.ip = s.ip ∧ s2.fanAngle = s.fanAngle ∧ s2.fanNumber = s.fanNumber ∧ s2.rayNumber = s.rayNumber ∧
      (s2.figure = s.figure ∨ s2.figure = s.figure.update fun d => { d with onlyPrincipalAndAxialRays := false }) := by
  unfold Shower.applyOnly at h
  split_ifs at h with h1
  · rw [Prog.run_bind] at h
    cases h2 : (s.noPrincipal fuel).run tr with
    | error x => rw [h2] at h; cases h
    | ok b =>
      rw [h2] at h
      dsimp only at h
      split_ifs at h with hb
      · simp only [Prog.run_pure, Except.ok.injEq] at h
        subst h
        exact ⟨rfl, rfl, rfl, rfl, .inr rfl⟩
      · simp only [Prog.run_pure, Except.ok.injEq] at h
        subst h
        exact ⟨rfl, rfl, rfl, rfl, .inl rfl⟩
  · simp only [Prog.run_pure, Except.ok.injEq] at h
    subst h
    exact ⟨rfl, rfl, rfl, rfl, .inl rfl⟩

/-- without a limit -/
theorem applyLimit_false {fuel : Nat} {s : Shower F} (h : s.figure.params.limitObjectToFieldOfView = false)
    (tr : F → F → List (Ray F)) : (s.applyLimit fuel).run tr = .ok s := by
  unfold Shower.applyLimit
  rw [h]
  rfl

/-- with a limit -/
theorem applyLimit_true {fuel : Nat} {s s1 : Shower F} (h : s.figure.params.limitObjectToFieldOfView = true)
    {tr : F → F → List (Ray F)} (h1 : (s.applyLimit fuel).run tr = .ok s1) :
    ∃ fov, (s.ip.path.fieldOfView s.ip.precision s.ip.maxHeight fuel).run tr = .ok fov ∧
      s1.ip = (if fov !=. inf then { s.ip with objectHeight := fov } else s.ip) ∧ ((fov !=. inf) = true → (fov <. 0) = false) ∧
      s1.fanAngle = s.fanAngle ∧ s1.fanNumber = s.fanNumber ∧ s1.rayNumber = s.rayNumber ∧ s1.design = s.design ∧
      s1.figure = s.figure.update (fun d => { d with limitObjectToFieldOfView := false }) ∧
      ∃ v, (s1.ip.path.imageSize s1.ip.precision s1.ip.maxHeight s1.ip.objectHeight fuel false).run tr = .ok v := by
  unfold Shower.applyLimit at h1
  rw [if_pos h] at h1
  simp only [Prog.run_bind] at h1
  cases hf : (s.ip.path.fieldOfView s.ip.precision s.ip.maxHeight fuel).run tr with
  | error x => rw [hf] at h1; cases h1
  | ok fov =>
    rw [hf] at h1
    simp only [Prog.run_lift] at h1
    cases hl : s.limitObject fov with
    | error x => rw [hl] at h1; cases h1
    | ok s2 =>
      rw [hl] at h1
      dsimp only at h1
      cases hi : (s2.ip.path.imageSize s2.ip.precision s2.ip.maxHeight s2.ip.objectHeight fuel false).run tr with
      | error x => rw [hi] at h1; cases h1
      | ok v =>
        rw [hi] at h1
        simp only [Prog.run_pure, Except.ok.injEq] at h1
        subst h1
        refine ⟨fov, rfl, ?_⟩
        unfold Shower.limitObject Shower.setObjectHeight ImagingPath.setObjectHeight at hl
        by_cases hfi : (fov !=. inf) = true
        · rw [if_pos hfi] at hl
          by_cases hn : (fov <. 0) = true
          · rw [if_pos hn] at hl; cases hl
          · rw [if_neg hn] at hl
            simp only [Except.ok.injEq] at hl
            subst hl
            rw [if_pos hfi]
            exact ⟨rfl, fun _ => by simpa using hn, rfl, rfl, rfl, rfl, rfl, v, hi⟩
        · rw [if_neg hfi] at hl
          simp only [Except.ok.injEq] at hl
          subst hl
          rw [if_neg hfi]
          exact ⟨rfl, fun h => absurd h hfi, rfl, rfl, rfl, rfl, rfl, v, hi⟩

/-- **C72**: an object height set before the first display of a path is the one shown (unless the limit to the field of view is
asked for). -/
theorem C72_height {fan : ImagingPath F → F} {fuel : Nat} {s s1 : Shower F} {v : F}
    (hset : s.setObjectHeight v = (s1, .ok ())) {rays raysList removeBlocked only} {tr : F → F → List (Ray F)} {shown s' l}
    (h : (s1.display fan fuel rays raysList removeBlocked only none).run tr = .ok (shown, s', l)) :
    shown.objectHeight = v ∧ s'.ip.objectHeight = v := by
  have hs1 : s1.ip.objectHeight = v ∧ s1.figure.params.limitObjectToFieldOfView = false := by
    unfold Shower.setObjectHeight ImagingPath.setObjectHeight at hset
    by_cases hn : (v <. 0) = true
    · rw [if_pos hn] at hset; cases hset
    · rw [if_neg hn] at hset
      simp only [Prod.mk.injEq, and_true] at hset
      subst hset
      exact ⟨rfl, by rw [params_update]⟩
  obtain ⟨s2, s3, h1, h2, h3⟩ := display_run h
  rw [applyLimit_false (by rw [params_update]; exact hs1.2)] at h1
  simp only [Except.ok.injEq] at h1
  subst h1
  obtain ⟨e1, -⟩ := applyOnly_ip h2
  obtain ⟨-, -, f1, f2⟩ := finish_figure fan s3 (givenSources rays raysList)
  rw [← h3] at f1 f2
  dsimp only at f1 f2
  rw [f1, f2, e1]
  exact ⟨hs1.1, hs1.1⟩

/-- **C72** is violated: with the height of the object set once and two displays, the first shows the height set, the second the
field of view (when it is finite) and the height set is forgotten. For every path, every height and whatever is displayed. -/
theorem C72_violated_height {fan : ImagingPath F → F} {fuel : Nat} {s s1 : Shower F} {v : F}
    (hset : s.setObjectHeight v = (s1, .ok ())) {rays raysList removeBlocked only rays' raysList' removeBlocked' only'}
    {tr : F → F → List (Ray F)} {shown s' l shown' s'' l'}
    (h : (s1.display fan fuel rays raysList removeBlocked only none).run tr = .ok (shown, s', l))
    (h' : (s'.display fan fuel rays' raysList' removeBlocked' only' none).run tr = .ok (shown', s'', l'))
    {fov : F} (hfov : (s1.ip.path.fieldOfView s1.ip.precision s1.ip.maxHeight fuel).run tr = .ok fov) (hfin : (fov !=. inf) = true) :
    shown.objectHeight = v ∧ shown'.objectHeight = fov ∧ s''.ip.objectHeight = fov := by
  refine ⟨(C72_height hset h).1, ?_⟩
  have hlost := C72_violated_lost h
  have hip : s'.ip = s1.ip := by
    obtain ⟨s2, s3, h1, h2, h3⟩ := display_run h
    have hl : s1.figure.params.limitObjectToFieldOfView = false := by
      unfold Shower.setObjectHeight ImagingPath.setObjectHeight at hset
      by_cases hn : (v <. 0) = true
      · rw [if_pos hn] at hset; cases hset
      · rw [if_neg hn] at hset
        simp only [Prod.mk.injEq, and_true] at hset
        subst hset
        rw [params_update]
    rw [applyLimit_false (by rw [params_update]; exact hl)] at h1
    simp only [Except.ok.injEq] at h1
    subst h1
    obtain ⟨e1, -⟩ := applyOnly_ip h2
    obtain ⟨-, -, f1, -⟩ := finish_figure fan s3 (givenSources rays raysList)
    rw [← h3] at f1
    exact f1.trans e1
  obtain ⟨s2, s3, h1, h2, h3⟩ := display_run h'
  obtain ⟨fov', g1, g2, -⟩ := applyLimit_true (by rw [params_update, hlost]; rfl) h1
  dsimp only at g1 g2
  rw [hip] at g1
  rw [hfov] at g1
  simp only [Except.ok.injEq] at g1
  subst g1
  rw [if_pos hfin] at g2
  obtain ⟨e1, -⟩ := applyOnly_ip h2
  obtain ⟨-, -, f1, f2⟩ := finish_figure fan s3 (givenSources rays' raysList')
  rw [← h3] at f1 f2
  dsimp only at f1 f2
  rw [f1, f2, e1, g2]
  exact ⟨rfl, rfl⟩

/-- **C72** is violated: choosing a style after the height of the object: the object will be limited to the field of view. -/
theorem C72_violated_style {ip : ImagingPath F} {s1 : Shower F} {v : F} (hset : (Shower.new ip).setObjectHeight v = (s1, .ok ()))
    {st : String} (hst : st = "publication" ∨ st = "presentation") {a : DesignArgs F} (ha : a.style = some st) :
    s1.figure.params.limitObjectToFieldOfView = false ∧ ∃ s2, s1.callDesign a = (s2, .ok ()) ∧
      s2.figure.params.limitObjectToFieldOfView = true := by
  unfold Shower.setObjectHeight ImagingPath.setObjectHeight at hset
  by_cases hn : (v <. 0) = true
  · rw [if_pos hn] at hset; cases hset
  · rw [if_neg hn] at hset
    simp only [Prod.mk.injEq, and_true] at hset
    subst hset
    refine ⟨by rw [params_update], ?_⟩
    unfold Shower.callDesign FigureDesign.design
    rw [ha]
    rcases hst with rfl | rfl <;> exact ⟨_, rfl, rfl⟩

/-- **C72**: whatever the path, the style and what was done before, a display shows the blocked rays up to where they are blocked with
`removeBlocked=False`, and not at all with `removeBlocked=True`. -/
theorem C72_removeBlocked {fan : ImagingPath F → F} {fuel : Nat} {s : Shower F} {rays raysList only limit} {removeBlocked : Bool}
    {tr : F → F → List (Ray F)} {shown s' l} (h : (s.display fan fuel rays raysList removeBlocked only limit).run tr = .ok (shown, s', l)) :
    shown.design.removeBlockedRaysCompletely = removeBlocked := by
  obtain ⟨s1, s2, h1, h2, h3⟩ := display_run h
  have e1 : s1.figure.params.removeBlockedRaysCompletely = removeBlocked := by
    by_cases hl : (s.figure.update (displayArgs removeBlocked only limit)).params.limitObjectToFieldOfView = true
    · obtain ⟨fov, -, -, -, -, -, -, -, hf, -⟩ := applyLimit_true hl h1
      rw [hf]
      simp only [params_update]
      rfl
    · rw [applyLimit_false (by simpa using hl)] at h1
      cases h1
      simp only [params_update]
      rfl
  have e2 : s2.figure.params.removeBlockedRaysCompletely = removeBlocked := by
    obtain ⟨-, -, -, -, hf | hf⟩ := applyOnly_ip h2 <;> rw [hf]
    · exact e1
    · rw [params_update]; exact e1
  have e3 : ∀ l : List (Source F), (s2.finish fan l).1.design.removeBlockedRaysCompletely = s2.figure.params.removeBlockedRaysCompletely := by
    intro l
    unfold Shower.finish showDesign showFOVOf
    dsimp only
    split_ifs <;> simp only [params_update]
  have : shown = (s2.finish fan (givenSources rays raysList)).1 := by rw [← h3]
  rw [this, e3, e2]

/-- **C72**: the list of sources of the caller after the display: the sources given, and a default object if they have none. -/
theorem C72_list {fan : ImagingPath F → F} {fuel : Nat} {s : Shower F} {rays} {given : List (Source F)} {removeBlocked only limit}
    {tr : F → F → List (Ray F)} {shown s' l}
    (h : (s.display fan fuel rays (some given) removeBlocked only limit).run tr = .ok (shown, s', l)) :
    shown.sources = l ∧ ((l = given) ↔ (rays = none ∧ hasObject given = true)) := by
  obtain ⟨s2, s3, -, -, h3⟩ := display_run h
  obtain ⟨f1, f2⟩ := finish_sources fan s3 (givenSources rays (some given))
  rw [← h3] at f1 f2
  dsimp only at f1 f2
  refine ⟨f1, ?_⟩
  cases rays with
  | none =>
    rw [f2]
    unfold givenSources
    simp only [Option.getD_some, Option.toList_none, List.append_nil, true_and]
    split_ifs with ho
    · simp [ho]
    · simp [ho]
  | some r =>
    simp only [reduceCtorEq, false_and, iff_false]
    have hlen : given.length < l.length := by
      rw [f2]
      split_ifs <;> simp [givenSources]
    intro hh
    rw [hh] at hlen
    exact lt_irrefl _ hlen

/-- **C72** is violated: the list given by the caller is changed, unless it has an object and no other rays are given. -/
theorem C72_violated_list {fan : ImagingPath F → F} {fuel : Nat} {s : Shower F} {given : List (Source F)} {removeBlocked only limit}
    {tr : F → F → List (Ray F)} {shown s' l} (hno : hasObject given = false)
    (h : (s.display fan fuel none (some given) removeBlocked only limit).run tr = .ok (shown, s', l)) :
    ∃ o, l = given ++ [o] ∧ o.cls = "ObjectRays" ∧ o.diameter = s'.ip.objectHeight := by
  obtain ⟨s2, s3, -, -, h3⟩ := display_run h
  obtain ⟨f1, f2⟩ := finish_sources fan s3 (givenSources none (some given))
  obtain ⟨-, -, f3, -⟩ := finish_figure fan s3 (givenSources none (some given))
  rw [← h3] at f1 f2 f3
  dsimp only at f1 f2 f3
  rw [f2, f3]
  simp only [givenSources, Option.getD_some, Option.toList_none, List.append_nil, hno, Bool.false_eq_true, if_false]
  exact ⟨_, rfl, rfl, rfl⟩

/-- **C72** is violated: using the same list again, after changing the height of the object, the object shown is still the first
one. -/
theorem C72_violated_list_again {fan : ImagingPath F → F} {fuel : Nat} {s : Shower F} {given : List (Source F)} {removeBlocked only limit}
    {tr : F → F → List (Ray F)} {shown s' l} (hno : hasObject given = false)
    (h : (s.display fan fuel none (some given) removeBlocked only limit).run tr = .ok (shown, s', l))
    {v : F} {s2 : Shower F} (hset : s'.setObjectHeight v = (s2, .ok ())) {tr' : F → F → List (Ray F)} {shown' s'' l'}
    (h' : (s2.display fan fuel none (some l) removeBlocked only none).run tr' = .ok (shown', s'', l')) :
    shown'.objectHeight = v ∧ shown'.sources = shown.sources ∧ ∃ o ∈ shown'.sources, o.cls = "ObjectRays" ∧
      o.diameter = s'.ip.objectHeight := by
  refine ⟨(C72_height hset h').1, ?_⟩
  obtain ⟨o, ho, h1, h2⟩ := C72_violated_list hno h
  have hobj : hasObject l = true := by
    subst ho
    simp [hasObject, h1]
  obtain ⟨a1, -⟩ := C72_list h
  obtain ⟨b1, b2⟩ := C72_list h'
  have b3 := b2.2 ⟨rfl, hobj⟩
  rw [b1, b3, a1]
  exact ⟨rfl, o, by rw [ho]; simp, h1, h2⟩

/-- **C72**: a new path shows its principal and axial rays, limits the object to its field of view, and has an object of three heights with
three rays each. -/
theorem C72_new (ip : ImagingPath F) :
    (Shower.new ip).fanAngle = none ∧ (Shower.new ip).fanNumber = 3 ∧ (Shower.new ip).rayNumber = 3 ∧
      (Shower.new ip).figure.params =
        { rayColors := ["b", "r", "g"], lampRayColors := ["y"], onlyAxialRay := false, imageColor := "r", fillImage := true,
          objectColor := "b", fillObject := true, fontScale := lit (12 / 10), FOVColors := ["blue", "red"],
          onlyPrincipalAndAxialRays := true, limitObjectToFieldOfView := true, removeBlockedRaysCompletely := false, showFOV := false,
          showObjectImage := true } := ⟨rfl, rfl, rfl, rfl⟩

/-- **C72**: without sources, the display shows one object at 0 of the height shown, with the angle, the number of heights and the number of
angles of the path. -/
theorem C72_object {fan : ImagingPath F → F} {fuel : Nat} {s : Shower F} {removeBlocked only limit}
    {tr : F → F → List (Ray F)} {shown s' l} (h : (s.display fan fuel none none removeBlocked only limit).run tr = .ok (shown, s', l)) :
    ∃ o, shown.sources = [o] ∧ o.cls = "ObjectRays" ∧ o.diameter = shown.objectHeight ∧ o.z = 0 ∧
      o.halfAngle = s.fanAngle.getD (fan s'.ip) ∧ o.H = s.fanNumber ∧ o.T = s.rayNumber := by
  obtain ⟨s1, s2, h1, h2, h3⟩ := display_run h
  have e1 : s1.fanAngle = s.fanAngle ∧ s1.fanNumber = s.fanNumber ∧ s1.rayNumber = s.rayNumber := by
    by_cases hl : (s.figure.update (displayArgs removeBlocked only limit)).params.limitObjectToFieldOfView = true
    · obtain ⟨fov, -, -, -, a, b, c, -⟩ := applyLimit_true hl h1
      exact ⟨a, b, c⟩
    · rw [applyLimit_false (by simpa using hl)] at h1
      simp only [Except.ok.injEq] at h1
      subst h1
      exact ⟨rfl, rfl, rfl⟩
  obtain ⟨-, e2, e3, e4, -⟩ := applyOnly_ip h2
  obtain ⟨f1, f2⟩ := finish_sources fan s2 (givenSources none none)
  obtain ⟨-, -, f3, f4⟩ := finish_figure fan s2 (givenSources none none)
  rw [← h3] at f1 f2 f3 f4
  dsimp only at f1 f2 f3 f4
  refine ⟨_, f1.trans f2, rfl, f4.symm, rfl, ?_, ?_, ?_⟩
  · change s2.fanAngle.getD (fan s2.ip) = _
    rw [e2, e1.1, f3]
  · exact e3.trans e1.2.1
  · exact e4.trans e1.2.2

theorem noPrincipal_congr {fuel : Nat} {s s1 : Shower F} (h1 : s1.ip.path = s.ip.path) (h2 : s1.ip.precision = s.ip.precision)
    (h3 : s1.ip.maxHeight = s.ip.maxHeight) : s1.noPrincipal fuel = s.noPrincipal fuel := by
  unfold Shower.noPrincipal
  rw [h1, h2, h3]

/-- The first display of a path, without sources, shows the principal and axial rays exactly when the path has an aperture stop and a
principal ray; otherwise it shows the object and its rays. -/
theorem first_noPrincipal {fan : ImagingPath F → F} {fuel : Nat} {s : Shower F} (hnew : s.figure = .new) {removeBlocked limit}
    {tr : F → F → List (Ray F)} {shown s' l} (h : (s.display fan fuel none none removeBlocked none limit).run tr = .ok (shown, s', l)) :
    ∃ b, (s.noPrincipal fuel).run tr = .ok b ∧ shown.principalVisible = !b ∧ shown.objectVisible = b := by
  obtain ⟨s1, s2, h1, h2, h3⟩ := display_run h
  have e1 : s1.ip.path = s.ip.path ∧ s1.ip.precision = s.ip.precision ∧ s1.ip.maxHeight = s.ip.maxHeight ∧
      s1.figure.params.onlyPrincipalAndAxialRays = true ∧ s1.figure.params.showFOV = false ∧ s1.figure.params.showObjectImage = true := by
    by_cases hl : (s.figure.update (displayArgs removeBlocked none limit)).params.limitObjectToFieldOfView = true
    · obtain ⟨fov, -, a, -, -, -, -, -, hf, -⟩ := applyLimit_true hl h1
      rw [a, hf]
      simp only [params_update, hnew]
      split <;> exact ⟨rfl, rfl, rfl, rfl, rfl, rfl⟩
    · rw [applyLimit_false (by simpa using hl)] at h1
      simp only [Except.ok.injEq] at h1
      subst h1
      refine ⟨rfl, rfl, rfl, ?_⟩
      simp only [params_update, hnew]
      exact ⟨rfl, rfl, rfl⟩
  obtain ⟨a1, a2, a3, a4, a5, a6⟩ := e1
  unfold Shower.applyOnly at h2
  rw [if_pos a4, Prog.run_bind, noPrincipal_congr a1 a2 a3] at h2
  cases hb : (s.noPrincipal fuel).run tr with
  | error x => rw [hb] at h2; cases h2
  | ok b =>
    rw [hb] at h2
    refine ⟨b, rfl, ?_⟩
    have h4 : shown = (s2.finish fan (givenSources none none)).1 := by rw [← h3]
    rw [h4]
    cases b
    · simp only [Bool.false_eq_true, if_false, Prog.run_pure, Except.ok.injEq] at h2
      subst h2
      simp [Shower.finish, params_update, update_update, hasObject, givenSources, showFOVOf, showDesign, a4, a6]
    · simp only [if_true, Prog.run_pure, Except.ok.injEq] at h2
      subst h2
      simp [Shower.finish, params_update, update_update, hasObject, givenSources, showFOVOf, showDesign, a5, a6, Shower.addObject, Source.object]

/-- **C72**: the first display of a path, without sources, shows the principal and axial rays exactly when the path has an aperture stop and a
principal ray; otherwise it shows the object and its rays. -/
theorem C72_first {fan : ImagingPath F → F} {fuel : Nat} {s : Shower F} (hnew : s.figure = .new) {removeBlocked limit}
    {tr : F → F → List (Ray F)} {shown s' l} (h : (s.display fan fuel none none removeBlocked none limit).run tr = .ok (shown, s', l)) :
    ∃ stop, (s.ip.path.apertureStop).run tr = .ok stop ∧
      (stop.1 = none → shown.principalVisible = false ∧ shown.objectVisible = true) ∧
      (∀ z, stop.1 = some z → ∃ r, (s.ip.path.principalRay s.ip.precision s.ip.maxHeight fuel).run tr = .ok r ∧
        shown.principalVisible = r.isSome ∧ shown.objectVisible = r.isNone) := by
  obtain ⟨b, hb, h1, h2⟩ := first_noPrincipal hnew h
  unfold Shower.noPrincipal at hb
  rw [Prog.run_bind] at hb
  cases hs : (s.ip.path.apertureStop).run tr with
  | error x => rw [hs] at hb; cases hb
  | ok stop =>
    rw [hs] at hb
    refine ⟨stop, rfl, fun hn => ?_, fun z hz => ?_⟩
    · simp only [hn, Prog.run_pure, Except.ok.injEq] at hb
      subst hb; exact ⟨h1, h2⟩
    · simp only [hz, Prog.run_bind] at hb
      cases hr : (s.ip.path.principalRay s.ip.precision s.ip.maxHeight fuel).run tr with
      | error x => rw [hr] at hb; cases hb
      | ok r =>
        rw [hr] at hb
        simp only [Prog.run_pure, Except.ok.injEq] at hb
        subst hb
        refine ⟨r, rfl, ?_, h2⟩
        rw [h1]; cases r <;> rfl

/-- **C72**: `displayWithObject` always succeeds, searches for nothing, and shows one object with the diameter asked for and all its
rays. -/
theorem C72_with_object (fan : ImagingPath F → F) (fuel : Nat) (s : Shower F) (v : F) (angle : Option F) (H T : Nat) (rb : Bool)
    (tr : F → F → List (Ray F)) :
    ∃ shown s', (s.displayWithObject fan fuel v angle H T rb).run tr = .ok (shown, s', shown.sources) ∧
      (∃ o, shown.sources = [o] ∧ o.cls = "ObjectRays" ∧ o.diameter = v ∧ o.z = 0 ∧ o.H = H ∧ o.T = T) ∧ shown.objectHeight = v ∧ shown.objectVisible = !shown.design.showFOV ∧
      shown.principalVisible = shown.design.showFOV ∧ shown.design.showFOV = s.figure.params.showFOV ∧ s'.ip.objectHeight = v := by
  unfold Shower.displayWithObject Shower.display
  dsimp only
  simp only [Prog.run_bind]
  rw [applyLimit_false (by rw [params_update]; rfl)]
  dsimp only
  have h2 : ∀ x : Shower F, x.figure.params.onlyPrincipalAndAxialRays = false → (x.applyOnly fuel).run tr = .ok x := by
    intro x hx
    unfold Shower.applyOnly
    rw [hx]
    rfl
  rw [h2 _ (by rw [params_update]; rfl)]
  dsimp only [Prog.run_pure]
  refine ⟨_, _, rfl, ⟨_, rfl, rfl, rfl, rfl, rfl, rfl⟩, rfl, ?_, ?_, ?_, rfl⟩ <;>
    simp [Shower.finish, params_update, update_update, hasObject, givenSources, Source.object, showFOVOf, showDesign, displayArgs]

/-- **C72** is violated: a negative height is refused when it is set, and accepted by `displayWithObject`. -/
theorem C72_violated_negative (fan : ImagingPath F → F) (fuel : Nat) (s : Shower F) {v : F} (hv : (v <. 0) = true)
    (tr : F → F → List (Ray F)) : (∃ s', s.setObjectHeight v = (s', .error .valueError)) ∧
      ∃ shown s' l, (s.displayWithObject fan fuel v).run tr = .ok (shown, s', l) ∧ s'.ip.objectHeight = v := by
  refine ⟨?_, ?_⟩
  · unfold Shower.setObjectHeight ImagingPath.setObjectHeight
    rw [if_pos hv]
    exact ⟨_, rfl⟩
  · obtain ⟨shown, s', h, -, -, -, -, -, hh⟩ := C72_with_object fan fuel s v none 3 3 true tr
    exact ⟨shown, s', _, h, hh⟩

/-- the parts of a path that the next display depends on -/
def Shower.Same (s s' : Shower F) : Prop := s'.fanAngle = s.fanAngle ∧ s'.fanNumber = s.fanNumber ∧ s'.rayNumber = s.rayNumber ∧
  s'.figure = s.figure ∧ s'.ip = s.ip

theorem applyOnly_eq {fuel : Nat} {s s' s2 : Shower F} (hs : s.Same s') {tr : F → F → List (Ray F)}
    (h : (s.applyOnly fuel).run tr = .ok s2) : ∃ s2', (s'.applyOnly fuel).run tr = .ok s2' ∧ s2.Same s2' := by
  obtain ⟨ip, f, d, fa, fn, rn⟩ := s
  obtain ⟨ip', f', d', fa', fn', rn'⟩ := s'
  obtain ⟨e1, e2, e3, e4, e5⟩ := hs
  dsimp only at e1 e2 e3 e4 e5
  subst e1 e2 e3 e4 e5
  unfold Shower.applyOnly at h ⊢
  dsimp only at h ⊢
  split_ifs at h with h1
  · rw [if_pos h1]
    rw [Prog.run_bind] at h ⊢
    have e : (Shower.mk ip' f' d' fa' fn' rn').noPrincipal fuel = (Shower.mk ip' f' d fa' fn' rn').noPrincipal fuel := rfl
    rw [e]
    cases h2 : ((Shower.mk ip' f' d fa' fn' rn').noPrincipal fuel).run tr with
    | error x => rw [h2] at h; cases h
    | ok b =>
      rw [h2] at h
      dsimp only at h ⊢
      split_ifs at h with hb
      · rw [if_pos hb]
        simp only [Prog.run_pure, Except.ok.injEq] at h ⊢
        subst h
        exact ⟨_, rfl, rfl, rfl, rfl, rfl, rfl⟩
      · rw [if_neg hb]
        simp only [Prog.run_pure, Except.ok.injEq] at h ⊢
        subst h
        exact ⟨_, rfl, rfl, rfl, rfl, rfl, rfl⟩
  · rw [if_neg h1]
    simp only [Prog.run_pure, Except.ok.injEq] at h ⊢
    subst h
    exact ⟨_, rfl, rfl, rfl, rfl, rfl, rfl⟩

theorem finish_eq (fan : ImagingPath F → F) {s s' : Shower F} (hs : s.Same s') (l : List (Source F)) :
    s'.finish fan l = s.finish fan l := by
  obtain ⟨ip, f, d, fa, fn, rn⟩ := s
  obtain ⟨ip', f', d', fa', fn', rn'⟩ := s'
  obtain ⟨e1, e2, e3, e4, e5⟩ := hs
  dsimp only at e1 e2 e3 e4 e5
  subst e1 e2 e3 e4 e5
  unfold Shower.finish Shower.addObject
  dsimp only
  split_ifs <;> rfl

theorem finish_rest (fan : ImagingPath F → F) (s : Shower F) (l : List (Source F)) :
    (s.finish fan l).2.1.fanAngle = s.fanAngle ∧ (s.finish fan l).2.1.fanNumber = s.fanNumber ∧
      (s.finish fan l).2.1.rayNumber = s.rayNumber := by
  unfold Shower.finish
  dsimp only
  split_ifs <;> exact ⟨rfl, rfl, rfl⟩

/-- displaying a path again, when its figure was new -/
theorem display_again {fan : ImagingPath F → F} {fuel : Nat} {s : Shower F} {rays raysList removeBlocked only limit}
    {tr : F → F → List (Ray F)} {shown s' l} (hnew : s.figure = .new)
    (h : (s.display fan fuel rays raysList removeBlocked only limit).run tr = .ok (shown, s', l)) :
    s'.figure = .new ∧ (s'.display fan fuel rays raysList removeBlocked only limit).run tr = .ok (shown, s', l) := by
  obtain ⟨s1, s2, h1, h2, h3⟩ := display_run h
  obtain ⟨f1, -, f3, -⟩ := finish_figure fan s2 (givenSources rays raysList)
  obtain ⟨f4, f5, f6⟩ := finish_rest fan s2 (givenSources rays raysList)
  rw [← h3] at f1 f3 f4 f5 f6
  dsimp only at f1 f3 f4 f5 f6
  refine ⟨f1, ?_⟩
  obtain ⟨e1, e2, e3, e4, -⟩ := applyOnly_ip h2
  obtain ⟨s1', g1, g2⟩ : ∃ s1', (Shower.applyLimit fuel { s' with figure := s'.figure.update (displayArgs removeBlocked only limit) }).run tr
      = .ok s1' ∧ s1.Same s1' := by
    by_cases hl : (s.figure.update (displayArgs removeBlocked only limit)).params.limitObjectToFieldOfView = true
    · obtain ⟨fov, a1, a2, a3, a4, a5, a6, a7, a8, v, a9⟩ := applyLimit_true hl h1
      dsimp only at a1 a2 a4 a5 a6 a7 a8
      have hpath : s1.ip.path = s.ip.path ∧ s1.ip.precision = s.ip.precision ∧ s1.ip.maxHeight = s.ip.maxHeight := by
        rw [a2]; split_ifs <;> exact ⟨rfl, rfl, rfl⟩
      have hip' : s'.ip = s1.ip := f3.trans e1
      unfold Shower.applyLimit
      dsimp only
      rw [f1, ← hnew, if_pos hl]
      simp only [Prog.run_bind]
      have a1' : (s'.ip.path.fieldOfView s'.ip.precision s'.ip.maxHeight fuel).run tr = .ok fov := by
        rw [hip', hpath.1, hpath.2.1, hpath.2.2, a1]
      rw [a1']
      dsimp only [Prog.run_lift]
      have hlim : ({ s' with figure := s.figure.update (displayArgs removeBlocked only limit) } : Shower F).limitObject fov =
          .ok { s' with figure := s1.figure } := by
        unfold Shower.limitObject Shower.setObjectHeight ImagingPath.setObjectHeight
        by_cases hfi : (fov !=. inf) = true
        · rw [if_pos hfi] at a2
          rw [if_pos hfi]
          rw [if_neg (by rw [a3 hfi]; simp)]
          dsimp only
          rw [← a8]
          have : ({ s'.ip with objectHeight := fov } : ImagingPath F) = s'.ip := by
            rw [hip', a2]
          rw [this]
        · rw [if_neg hfi]
          dsimp only
          rw [← a8]
      rw [hlim]
      dsimp only
      rw [hip', a9]
      refine ⟨_, rfl, ?_, ?_, ?_, rfl, rfl⟩
      · exact f4.trans e2
      · exact f5.trans e3
      · exact f6.trans e4
    · have hl' : (s.figure.update (displayArgs removeBlocked only limit)).params.limitObjectToFieldOfView = false := by simpa using hl
      rw [applyLimit_false hl'] at h1
      simp only [Except.ok.injEq] at h1
      subst h1
      rw [applyLimit_false (by rw [f1, ← hnew]; exact hl')]
      refine ⟨_, rfl, ?_, ?_, ?_, ?_, ?_⟩
      · exact f4.trans e2
      · exact f5.trans e3
      · exact f6.trans e4
      · rw [f1, ← hnew]
      · exact f3.trans e1
  obtain ⟨s2', g3, g4⟩ := applyOnly_eq g2 h2
  unfold Shower.display
  simp only [Prog.run_bind]
  rw [g1]
  dsimp only
  rw [g3]
  dsimp only [Prog.run_pure]
  rw [finish_eq fan g4, h3]

/-- `k` displays with the same arguments; the result of the last one -/
def Shower.displays (fan : ImagingPath F → F) (fuel : Nat) (s : Shower F) (rays : Option (Source F)) (raysList : Option (List (Source F)))
    (removeBlocked : Bool) (only limit : Option Bool) : Nat → Prog F (Shown F × Shower F × List (Source F))
  | 0 => s.display fan fuel rays raysList removeBlocked only limit
  | k + 1 => do
    let r ← s.displays fan fuel rays raysList removeBlocked only limit k
    r.2.1.display fan fuel rays raysList removeBlocked only limit

/-- **C72**: without any setting between them, all the displays of a path with the same arguments show the same thing. -/
theorem C72_repeat_partial {fan : ImagingPath F → F} {fuel : Nat} {s : Shower F} {rays raysList removeBlocked only limit}
    {tr : F → F → List (Ray F)} {shown s' l} (hnew : s.figure = .new)
    (h : (s.display fan fuel rays raysList removeBlocked only limit).run tr = .ok (shown, s', l)) (k : Nat) :
    (s.displays fan fuel rays raysList removeBlocked only limit k).run tr = .ok (shown, s', l) := by
  induction k with
  | zero => exact h
  | succ k ih =>
    unfold Shower.displays
    rw [Prog.run_bind, ih]
    exact (display_again hnew h).2

end generic

/-- a path with two irises, seen with a coarse precision: the height 3 is shown, then the field of view -/
def irisShower : Except PyErr (Shower (Ext ℚ)) :=
  match (Part.group "" [.space (10 : ℚ) 1 none, .lens 5 (some 4), .space 10 1 none, .aperture (some 5) none ""]).build with
  | .ok (.group m c es) => .ok (Shower.new ⟨⟨m, c, es⟩, Ext.fin (1 / 20), Ext.fin 100, Ext.fin 10⟩)
  | _ => .error .typeError

example : (match irisShower with
    | .error _ => none
    | .ok s =>
      let s1 := (s.setObjectHeight (Ext.fin 3)).1
      match (s1.display (fun _ => Ext.fin 1) 100).run (newTrace s1.ip.path) with
      | .error _ => none
      | .ok (shown, s', _) =>
        match (s'.display (fun _ => Ext.fin 1) 100).run (newTrace s1.ip.path) with
        | .error _ => none
        | .ok (shown', _, _) => some (shown.objectHeight, shown'.objectHeight)) = some (Ext.fin 3, Ext.fin (82801425 / 16777216)) := by
  decide +kernel

end RT
