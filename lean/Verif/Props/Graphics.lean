import Verif.Model.Graphics
import Verif.Props.Marks
import Verif.Props.Lenses
import Verif.Props.Derived

/-! # C77: the elements are drawn where they are -/

set_option linter.unusedSectionVars false

namespace RT
open PyNum Ext
variable {K : Type} [Field K] [LinearOrder K] [IsStrictOrderedRing K]

/-! ## Lists of graphics -/

section
variable {F : Type} [PyNum F] [PyMath F] [PyTrig F]

theorem faceA_vertex {h x : F} {s : Surf F} {p : Face F × F} (hp : faceA h x s = .ok p) : p.1.vertex = x := by
  unfold faceA at hp
  rcases s with ⟨sh, L, n⟩
  cases sh with
  | conical a => simp only [Except.ok.injEq] at hp; subst hp; rfl
  | flat => simp only [Except.ok.injEq] at hp; subst hp; rfl
  | spherical R =>
    simp only at hp
    split at hp
    · simp only [Except.ok.injEq] at hp; subst hp; rfl
    · cases ha : arc h R with
      | error e => simp [ha, bind, Except.bind] at hp
      | ok a => simp only [ha, bind, Except.bind, pure, Except.pure, Except.ok.injEq] at hp; subst hp; rfl

theorem faceB_vertex {h v : F} {s : Surf F} {f : Face F} (hp : faceB h v s = .ok f) : f.vertex = v := by
  unfold faceB at hp
  rcases s with ⟨sh, L, n⟩
  cases sh with
  | conical a => simp only [Except.ok.injEq] at hp; subst hp; rfl
  | flat => simp only [Except.ok.injEq] at hp; subst hp; rfl
  | spherical R =>
    simp only at hp
    split at hp
    · simp only [Except.ok.injEq] at hp; subst hp; rfl
    · cases ha : arc h R with
      | error e => simp [ha, bind, Except.bind] at hp
      | ok a => simp only [ha, bind, Except.bind, pure, Except.pure, Except.ok.injEq] at hp; subst hp; rfl

/-- two surfaces -/
theorem surfaceComps_pair {h : F} {a b : Surf F} {cs : List (Comp F)} (hc : surfaceComps h [a, b] = .ok cs) :
    ∃ p f bars, faceA h 0 a = .ok p ∧ faceB h (0 + p.2) b = .ok f ∧ cs = [.outline p.1 f, bars] := by
  unfold surfaceComps drawSurfaces drawPairs at hc
  cases ha : faceA h 0 a with
  | error e => simp [ha, bind, Except.bind] at hc
  | ok p =>
    cases hb : faceB h (0 + p.2) b with
    | error e => simp [ha, hb, bind, Except.bind] at hc
    | ok f =>
      simp [ha, hb, bind, Except.bind, drawPairs, pure, Except.pure] at hc
      exact ⟨p, f, _, rfl, hb, hc.symm⟩

/-- one surface -/
theorem surfaceComps_single {h : F} {a : Surf F} {cs : List (Comp F)} (hc : surfaceComps h [a] = .ok cs) :
    ∃ f, faceB h 0 a = .ok f ∧ cs = [.outline f f] := by
  unfold surfaceComps drawSurfaces at hc
  rcases a with ⟨sh, L, n⟩
  cases sh with
  | conical x => simp [bind, Except.bind] at hc
  | flat =>
    cases hb : faceB h 0 (⟨.flat, L, n⟩ : Surf F) with
    | error e => simp [hb, bind, Except.bind] at hc
    | ok f => simp [hb, bind, Except.bind, pure, Except.pure] at hc; exact ⟨f, rfl, hc.symm⟩
  | spherical R =>
    cases hb : faceB h 0 (⟨.spherical R, L, n⟩ : Surf F) with
    | error e => simp [hb, bind, Except.bind] at hc
    | ok f => simp [hb, bind, Except.bind, pure, Except.pure] at hc; exact ⟨f, rfl, hc.symm⟩

end

/-! ## Specification -/

/-- Where the bars of an aperture at `z`, over a length `l`, are: around `z` when the element is thin. -/
def barSpan (z l : K) : Ext K × Ext K := if l ≤ 1 / 100 then (fin (z - 1 / 200), fin (z + 1 / 200)) else (fin z, fin (z + l))

/-- `G` draws a single element at its place, when the element starts at `z`: a lens is an arrow at `z`, with bars at its diameter if it has
one; an aperture is bars at its diameter; a surface is drawn through `z`; a thick lens or a slab is drawn from `z` to its end;
an axicon is drawn from `z`. -/
def DrawnAt (m : Mat (Ext K)) (z : K) (G : Graphic (Ext K)) : Prop :=
  match m.kind with
  | .lens _ _ => ∃ dy bars, G.comps = .arrow dy :: bars ∧ (∀ d, m.apertureDiameter = fin d → dy = fin (d / 2)) ∧
      ∃ rest, G.extents = (fin z, fin z) :: rest ∧ ∀ r ∈ rest, r = barSpan z m.sys.len
  | .aperture => G.extents = [barSpan z m.sys.len] ∧ ∀ d, m.apertureDiameter = fin d → ∃ x w, G.comps = [.bars (fin (d / 2)) x w]
  | .dielectric _ _ _ | .curvedMirror => G.extents = [(fin z, fin z)]
  | .thickLens _ _ _ | .slab _ _ _ => ∃ bars, G.extents = [(fin z, fin (z + m.sys.len)), bars]
  | .axicon _ _ => ∃ b bars, G.extents = [(fin z, b), bars]
  | _ => False

/-- The elements `DrawnAt` speaks of: those that are neither spaces nor generic matrices; of thick lenses and slabs, those with a thickness. -/
def Mat.HasShape (m : Mat (Ext K)) : Prop :=
  match m.kind with
  | .lens _ _ | .aperture | .dielectric _ _ _ | .curvedMirror | .axicon _ _ => True
  | .thickLens _ _ _ | .slab _ _ _ => m.sys.len ≠ 0
  | _ => False

/-- `e` is at `z` in the list of elements: one of the elements, or an element of a group. -/
def ElemAt (es : List (Elem (Ext K))) (e : Elem (Ext K)) (z : K) : Prop :=
  (∃ j : Nat, es[j]? = some e ∧ (∀ m c fs, e ≠ .group m c fs) ∧ z = lengthOf (es.take j)) ∨
  ∃ (j i : Nat) (m : _) (c : _) (fs : _), es[j]? = some (.group m c fs) ∧ fs[i]? = some e ∧ z = lengthOf (es.take j) + lengthOf (fs.take i)

variable [PyMath (Ext K)] [PyTrig (Ext K)]

theorem barEnds_eq (x l : K) : (fin x + (barEnds 0 (fin l : Ext K)).1, fin x + (barEnds 0 (fin l : Ext K)).2) = barSpan x l := by
  have e1 : ((1 / 100 : ℚ) : K) = 1 / 100 := by norm_num
  have e2 : ((5 / 1000 : ℚ) : K) = 1 / 200 := by norm_num
  have e3 : (fin l ==. (fin 0 : Ext K)) = decide (l = 0) := by simp
  unfold barEnds barSpan
  simp only [zero_eq, lit_eq, e1, e2, e3]
  by_cases h0 : l = 0
  · subst h0
    rw [if_pos (by positivity : (0 : K) ≤ 1 / 100)]
    simp [sub_eq_add_neg]
  · simp only [decide_eq_false h0, Bool.false_eq_true, if_false, le_fin]
    by_cases hl : l ≤ 1 / 100
    · rw [if_pos hl, if_pos (by simpa using hl)]
      simp [sub_eq_add_neg]
    · rw [if_neg hl, if_neg (by simpa using hl)]
      simp

theorem apertureBars_spec {m : Mat (Ext K)} {l : K} (hl : m.L = fin l) (x : K) {r} (hr : r ∈ (⟨fin x, apertureBars m⟩ : Graphic (Ext K)).extents) :
    r = barSpan x l := by
  unfold Graphic.extents apertureBars at hr
  split at hr
  · simp only [List.map_cons, List.map_nil, List.mem_singleton, Comp.ends, hl] at hr
    rw [hr, barEnds_eq]
  · simp at hr

/-- a single element drawn at `z` -/
theorem graphic_drawnAt {m : Mat (Ext K)} (hl : m.L = fin m.sys.len) (hm : m.HasShape) {z : K} {minSize : Ext K} {o}
    (h : m.graphic (fin z) minSize = .ok o) : ∃ G, o = some G ∧ DrawnAt m z G := by
  unfold Mat.graphic at h
  unfold DrawnAt
  unfold Mat.HasShape at hm
  have hz : ∀ x : K, (fin x : Ext K) + 0 = fin x := fun x => by rw [zero_eq, fin_add_fin, add_zero]
  -- elements drawn by one or two surfaces
  have key : ∀ ss, m.forwardSurfaces = .ok ss → ss ≠ [] → (do
      let ss ← m.surfaces
      if ss.isEmpty then pure (some (⟨fin z, blackBox (.leaf m) (fin z) :: apertureBars m⟩ : Graphic (Ext K)))
      else do
        let cs ← surfaceComps m.displayHalfHeight.1 ss
        pure (some ⟨fin z, cs⟩) : Except PyErr (Option (Graphic (Ext K)))) = .ok o →
      ∃ cs, surfaceComps m.displayHalfHeight.1 (orient m.isFlipped ss) = .ok cs ∧ o = some ⟨fin z, cs⟩ := by
    intro ss hs hne h
    have he : (orient m.isFlipped ss).isEmpty = false := by
      cases ss with
      | nil => exact absurd rfl hne
      | cons a as =>
        unfold orient
        split
        · cases hr : (a :: as).reverse with
          | nil => simp at hr
          | cons b bs => rfl
        · rfl
    unfold Mat.surfaces at h
    simp only [hs, bind, Except.bind, pure, Except.pure, he, Bool.false_eq_true, if_false] at h
    cases hc : surfaceComps m.displayHalfHeight.1 (orient m.isFlipped ss) with
    | error e => simp [hc] at h
    | ok cs => simp only [hc, Except.ok.injEq] at h; exact ⟨cs, rfl, h.symm⟩
  have single : ∀ {a : Surf (Ext K)} {cs}, surfaceComps m.displayHalfHeight.1 (orient m.isFlipped [a]) = .ok cs →
      (⟨fin z, cs⟩ : Graphic (Ext K)).extents = [(fin z, fin z)] := by
    intro a cs h
    obtain ⟨b, hb⟩ : ∃ b, orient m.isFlipped [a] = [b] := by
      unfold orient
      split
      · exact ⟨_, rfl⟩
      · exact ⟨_, rfl⟩
    rw [hb] at h
    obtain ⟨f, hf, rfl⟩ := surfaceComps_single h
    simp [Graphic.extents, Comp.ends, faceB_vertex hf, hz]
  have pair : ∀ {a b : Surf (Ext K)} {cs}, surfaceComps m.displayHalfHeight.1 (orient m.isFlipped [a, b]) = .ok cs →
      ∃ e bars, (⟨fin z, cs⟩ : Graphic (Ext K)).extents = [(fin z, e), bars] ∧
        ∀ l, a.L = fin l → l ≠ 0 → e = fin (z + l) := by
    intro a b cs h
    obtain ⟨a', b', hb, hL⟩ : ∃ a' b', orient m.isFlipped [a, b] = [a', b'] ∧ a'.L = a.L := by
      unfold orient
      split
      · exact ⟨_, _, rfl, rfl⟩
      · exact ⟨_, _, rfl, rfl⟩
    rw [hb] at h
    obtain ⟨p, f, bars, hp, hf, rfl⟩ := surfaceComps_pair h
    refine ⟨fin z + (0 + p.2), (fin z + bars.ends.1, fin z + bars.ends.2), ?_, ?_⟩
    · simp only [Graphic.extents, List.map_cons, List.map_nil, Comp.ends, faceA_vertex hp, faceB_vertex hf, hz]
    · intro l hl h0
      rw [faceA_len (hL.trans hl) h0 hp]
      simp
  rcases hk : m.kind with _ | ⟨f, hh⟩ | _ | _ | ⟨n1, n2, R⟩ | ⟨n, R1, R2⟩ | ⟨n, R1, R2⟩ | _ | ⟨n, α⟩ | _ | _
  all_goals simp only [hk] at h hm ⊢
  · -- lens
    simp only [Except.ok.injEq] at h
    refine ⟨_, h.symm, _, _, rfl, ?_, ?_⟩
    · intro d hd
      have : m.enlarge minSize = m := by unfold Mat.enlarge; rw [hk]; simp [hd]
      rw [this]
      unfold Mat.displayHalfHeight
      rw [hk]
      simp [hd, half]
    · refine ⟨(⟨fin z, apertureBars m⟩ : Graphic (Ext K)).extents, ?_, fun r hr => apertureBars_spec hl z hr⟩
      simp [Graphic.extents, Comp.ends]
  · -- curved mirror
    cases hR : pyDiv (2 : Ext K) m.C with
    | error e =>
      have : m.forwardSurfaces = .error e := by unfold Mat.forwardSurfaces; simp only [hk, hR, bind, Except.bind]
      simp [Mat.surfaces, this, bind, Except.bind] at h
    | ok R =>
      have : m.forwardSurfaces = .ok [⟨.spherical R, 0, 1⟩] := by
        unfold Mat.forwardSurfaces; simp only [hk, hR, bind, Except.bind, pure, Except.pure]
      obtain ⟨cs, h1, h2⟩ := key _ this (by simp) h
      exact ⟨_, h2, single h1⟩
  · -- interface
    have : m.forwardSurfaces = .ok [⟨.spherical R, 0, n2⟩] := by unfold Mat.forwardSurfaces; simp only [hk]
    obtain ⟨cs, h1, h2⟩ := key _ this (by simp) h
    exact ⟨_, h2, single h1⟩
  · -- thick lens
    have : m.forwardSurfaces = .ok [⟨.spherical R1, m.L, n⟩, ⟨.spherical R2, 0, 1⟩] := by unfold Mat.forwardSurfaces; simp only [hk]
    obtain ⟨cs, h1, h2⟩ := key _ this (by simp) h
    obtain ⟨e, bars, h3, h4⟩ := pair h1
    exact ⟨_, h2, bars, by rw [h3, h4 _ hl hm]⟩
  · -- slab
    have : m.forwardSurfaces = .ok [⟨.flat, m.L, n⟩, ⟨.flat, 0, 1⟩] := by unfold Mat.forwardSurfaces; simp only [hk]
    obtain ⟨cs, h1, h2⟩ := key _ this (by simp) h
    obtain ⟨e, bars, h3, h4⟩ := pair h1
    exact ⟨_, h2, bars, by rw [h3, h4 _ hl hm]⟩
  · -- aperture
    split at h
    · cases h
    · rename_i hne
      simp only [Except.ok.injEq] at h
      have : apertureBars m = [.bars (half m.apertureDiameter) 0 m.L] := by
        unfold apertureBars at hne ⊢
        cases hd : (m.apertureDiameter !=. inf)
        · rw [hd] at hne; exact absurd rfl hne
        · rfl
      refine ⟨_, h.symm, ?_, ?_⟩
      · rw [this]
        simp only [Graphic.extents, List.map_cons, List.map_nil, Comp.ends, hl, barEnds_eq]
      · intro d hd
        rw [this, hd]
        exact ⟨0, m.L, by simp [half]⟩
  · -- axicon
    have : m.forwardSurfaces = .ok [⟨.flat, -PyTrig.tan α * m.displayHalfHeight.1, n⟩, ⟨.conical α, 0, 1⟩] := by
      unfold Mat.forwardSurfaces; simp only [hk]
    obtain ⟨cs, h1, h2⟩ := key _ this (by simp) h
    obtain ⟨e, bars, h3, -⟩ := pair h1
    exact ⟨_, h2, e, bars, h3⟩

/-! ## C77 -/

theorem lengthOf_nil : lengthOf ([] : List (Elem (Ext K))) = 0 := rfl

/-- the elements inside of a group at `x` -/
theorem standAlone_spec {es : List (Elem (Ext K))} (hok : OkList es) {x z : K} {gs} (h : standAlone (fin x) es (fin z) = .ok gs) :
    (∀ (i : Nat) e, es[i]? = some e → ∃ o, e.graphic (fin (z + lengthOf (es.take i) + x)) 0 = .ok o ∧ ∀ G ∈ o, G ∈ gs) ∧
    ∀ G ∈ gs, ∃ (i : Nat) (e : _), es[i]? = some e ∧ e.graphic (fin (z + lengthOf (es.take i) + x)) 0 = .ok (some G) := by
  induction es generalizing z gs with
  | nil => simp only [standAlone, Except.ok.injEq] at h; subst h; simp
  | cons e es ih =>
    have hL : e.mat.L = fin e.mat.sys.len := (hok e (by simp)).den.L
    unfold standAlone at h
    rw [hL, fin_add_fin, fin_add_fin] at h
    cases he : e.graphic (fin (z + x)) 0 with
    | error x => simp only [he, bind, Except.bind, reduceCtorEq] at h
    | ok o =>
      cases hr : standAlone (fin x) es (fin (z + e.mat.sys.len)) with
      | error x => simp only [he, hr, bind, Except.bind, reduceCtorEq] at h
      | ok rest =>
        simp only [he, hr, bind, Except.bind, pure, Except.pure, Except.ok.injEq] at h
        subst h
        obtain ⟨h1, h2⟩ := ih (fun e he => hok e (by simp [he])) hr
        have hz : ∀ i, z + lengthOf ((e :: es).take (i + 1)) + x = z + e.mat.sys.len + lengthOf (es.take i) + x := by
          intro i; rw [List.take_succ_cons, lengthOf_cons]; ring
        refine ⟨?_, ?_⟩
        · intro i f hf
          cases i with
          | zero =>
            simp only [List.getElem?_cons_zero, Option.some.injEq] at hf
            subst hf
            refine ⟨o, by rw [List.take_zero, lengthOf_nil, add_zero]; exact he, ?_⟩
            intro G hG; exact List.mem_append_left _ (by simpa using hG)
          | succ i =>
            simp only [List.getElem?_cons_succ] at hf
            obtain ⟨o', h3, h4⟩ := h1 i f hf
            exact ⟨o', by rw [hz]; exact h3, fun G hG => List.mem_append_right _ (h4 G hG)⟩
        · intro G hG
          rcases List.mem_append.1 hG with hG | hG
          · refine ⟨0, e, rfl, ?_⟩
            cases o with
            | none => simp at hG
            | some G' => simp at hG; subst hG; rw [List.take_zero, lengthOf_nil, add_zero]; exact he
          · obtain ⟨i, f, h3, h4⟩ := h2 G hG
            exact ⟨i + 1, f, h3, by rw [hz]; exact h4⟩

/-- the elements of the path -/
theorem graphicsLoop_spec {es : List (Elem (Ext K))} (hok : OkList es) {s : Ext K} {z : K} {gs} (h : graphicsLoop s es (fin z) = .ok gs) :
    (∀ (j : Nat) e, es[j]? = some e → ∃ l, e.graphics (fin (z + lengthOf (es.take j))) s = .ok l ∧ ∀ G ∈ l, G ∈ gs) ∧
    ∀ G ∈ gs, ∃ (j : Nat) (e : _) (l : _), es[j]? = some e ∧ e.graphics (fin (z + lengthOf (es.take j))) s = .ok l ∧ G ∈ l := by
  induction es generalizing z gs with
  | nil => simp only [graphicsLoop, Except.ok.injEq] at h; subst h; simp
  | cons e es ih =>
    have hL : e.mat.L = fin e.mat.sys.len := (hok e (by simp)).den.L
    unfold graphicsLoop at h
    rw [hL, fin_add_fin] at h
    cases he : e.graphics (fin z) s with
    | error x => simp only [he, bind, Except.bind, reduceCtorEq] at h
    | ok l =>
      cases hr : graphicsLoop s es (fin (z + e.mat.sys.len)) with
      | error x => simp only [he, hr, bind, Except.bind, reduceCtorEq] at h
      | ok rest =>
        simp only [he, hr, bind, Except.bind, pure, Except.pure, Except.ok.injEq] at h
        subst h
        obtain ⟨h1, h2⟩ := ih (fun e he => hok e (by simp [he])) hr
        have hz : ∀ i, z + lengthOf ((e :: es).take (i + 1)) = z + e.mat.sys.len + lengthOf (es.take i) := by
          intro i; rw [List.take_succ_cons, lengthOf_cons]; ring
        refine ⟨?_, ?_⟩
        · intro i f hf
          cases i with
          | zero =>
            simp only [List.getElem?_cons_zero, Option.some.injEq] at hf
            subst hf
            exact ⟨l, by rw [List.take_zero, lengthOf_nil, add_zero]; exact he, fun G hG => List.mem_append_left _ hG⟩
          | succ i =>
            simp only [List.getElem?_cons_succ] at hf
            obtain ⟨o', h3, h4⟩ := h1 i f hf
            exact ⟨o', by rw [hz]; exact h3, fun G hG => List.mem_append_right _ (h4 G hG)⟩
        · intro G hG
          rcases List.mem_append.1 hG with hG | hG
          · exact ⟨0, e, l, rfl, by rw [List.take_zero, lengthOf_nil, add_zero]; exact he, hG⟩
          · obtain ⟨i, f, l', h3, h4, h5⟩ := h2 G hG
            exact ⟨i + 1, f, l', h3, by rw [hz]; exact h4, h5⟩

/-- a path with its groups: each element has its graphic, at its position, and each graphic is that of an element -/
theorem graphics_spec {es : List (Elem (Ext K))} (hg : GoodList es) {s : Ext K} {gs} (h : graphicsLoop s es 0 = .ok gs) :
    (∀ e z, ElemAt es e z → ∃ o s', e.graphic (fin z) s' = .ok o ∧ ∀ G ∈ o, G ∈ gs) ∧
    ∀ G ∈ gs, ∃ e z s', ElemAt es e z ∧ e.graphic (fin z) s' = .ok (some G) := by
  have hgl := GoodList_iff.1 hg
  have hok : OkList es := fun e he => ⟨(hgl e he).den, (hgl e he).lawful⟩
  have hin : ∀ {m c fs}, Elem.group m c fs ∈ es → OkList fs := by
    intro m c fs hm
    have h0 := hgl _ hm
    unfold Elem.Good at h0
    have := GoodList_iff.1 h0.1
    exact fun e he => ⟨(this e he).den, (this e he).lawful⟩
  rw [zero_eq] at h
  obtain ⟨h1, h2⟩ := graphicsLoop_spec hok h
  simp only [zero_add] at h1 h2
  refine ⟨?_, ?_⟩
  · rintro e z (⟨j, hj, hleaf, rfl⟩ | ⟨j, i, m, c, fs, hj, hi, rfl⟩)
    · obtain ⟨l, hl, hG⟩ := h1 j e hj
      cases e with
      | group m c fs => exact absurd rfl (hleaf m c fs)
      | leaf m =>
        unfold Elem.graphics at hl
        cases ho : m.graphic (fin (lengthOf (es.take j))) s with
        | error x => simp [ho, Except.map] at hl
        | ok o =>
          simp only [ho, Except.map, Except.ok.injEq] at hl
          refine ⟨o, s, ho, fun G hG' => hG G ?_⟩
          rw [← hl]; simpa using hG'
    · obtain ⟨l, hl, hG⟩ := h1 j _ hj
      unfold Elem.graphics at hl
      rw [zero_eq] at hl
      obtain ⟨h3, -⟩ := standAlone_spec (hin (List.mem_of_getElem? hj)) hl
      obtain ⟨o, h4, h5⟩ := h3 i e hi
      refine ⟨o, 0, ?_, fun G hG' => hG G (h5 G hG')⟩
      rw [zero_add, add_comm] at h4
      exact h4
  · intro G hG
    obtain ⟨j, e, l, hj, hl, hGl⟩ := h2 G hG
    cases e with
    | leaf m =>
      unfold Elem.graphics at hl
      cases ho : m.graphic (fin (lengthOf (es.take j))) s with
      | error x => simp [ho, Except.map] at hl
      | ok o =>
        simp only [ho, Except.map, Except.ok.injEq] at hl
        rw [← hl] at hGl
        have : o = some G := by simpa using hGl
        exact ⟨.leaf m, _, s, .inl ⟨j, hj, by simp, rfl⟩, by rw [← this]; exact ho⟩
    | group m c fs =>
      unfold Elem.graphics at hl
      rw [zero_eq] at hl
      obtain ⟨-, h3⟩ := standAlone_spec (hin (List.mem_of_getElem? hj)) hl
      obtain ⟨i, f, hi, h4⟩ := h3 G hGl
      rw [zero_add, add_comm] at h4
      exact ⟨f, _, 0, .inr ⟨j, i, m, c, fs, hj, hi, rfl⟩, h4⟩

theorem graphics_loop {g : Group (Ext K)} {lines : List (List (Ext K))} {gs} (h : g.graphicsOfElements lines = .ok gs) :
    ∃ s, maxRayHeight lines 0 = .ok s ∧ graphicsLoop s g.elems 0 = .ok gs := by
  unfold Group.graphicsOfElements at h
  cases hm : maxRayHeight lines (0 : Ext K) with
  | error x => simp only [hm, bind, Except.bind, reduceCtorEq] at h
  | ok s => simp only [hm, bind, Except.bind] at h; exact ⟨s, rfl, h⟩

theorem graphic_leaf {m : Mat (Ext K)} {x s : Ext K} {G} (h : m.graphic x s = .ok (some G)) : G.x = x ∧ (Elem.leaf m).isSpace = false := by
  unfold Mat.graphic at h
  unfold Elem.isSpace Elem.mat
  rcases hk : m.kind with _ | ⟨f, hh⟩ | _ | _ | ⟨n1, n2, R⟩ | ⟨n, R1, R2⟩ | ⟨n, R1, R2⟩ | _ | ⟨n, α⟩ | _ | _
  all_goals simp only [hk] at h ⊢
  all_goals
    first
    | (simp only [Except.ok.injEq, Option.some.injEq] at h; rw [← h]; simp; done)
    | (simp at h; done)
    | (split at h
       · cases h
       · simp only [Except.ok.injEq, Option.some.injEq] at h; rw [← h]; simp)
    | (cases hss : m.surfaces with
       | error x => simp only [hss, bind, Except.bind, reduceCtorEq] at h
       | ok ss =>
         simp only [hss, bind, Except.bind] at h
         split at h
         · simp only [pure, Except.pure, Except.ok.injEq, Option.some.injEq] at h; rw [← h]; simp
         · cases hsc : surfaceComps m.displayHalfHeight.1 ss with
           | error x => simp only [hsc, reduceCtorEq] at h
           | ok cs => simp only [hsc, pure, Except.pure, Except.ok.injEq, Option.some.injEq] at h; rw [← h]; simp)

/-- **C77**, for every path described by parts and all rays shown, when the figure can be drawn: each lens, aperture, interface, curved
mirror, thick lens, slab and axicon of the path or of one of its groups is drawn at its place; and whatever is drawn is the
graphic of an element of the path (or of one of its groups) made for the place of that element. What is missing:
generic matrices and groups inside of groups, see `C77_violated_box`. -/
theorem C77_drawn_partial {label : String} {ps : List (Part K)} (hv : (Part.group label ps).Valid) {g : Group (Ext K)}
    (hb : (Part.group label ps).build = .ok g.toElem) (hc : g.toElem.Clean) {lines : List (List (Ext K))} {gs}
    (h : g.graphicsOfElements lines = .ok gs) :
    (∀ m z, ElemAt g.elems (.leaf m) z → m.HasShape → ∃ G ∈ gs, DrawnAt m z G) ∧
    (∀ G ∈ gs, ∃ e z, ElemAt g.elems e z ∧ e.isSpace = false ∧ G.x = fin z ∧ ∀ m, e = .leaf m → m.HasShape → DrawnAt m z G) := by
  obtain ⟨hgood, -⟩ := build_good hv hb hc
  unfold Group.toElem Elem.Good at hgood
  obtain ⟨s, -, hl⟩ := graphics_loop h
  obtain ⟨h1, h2⟩ := graphics_spec hgood.1 hl
  have hden : ∀ {e z}, ElemAt g.elems e z → e.Good := by
    rintro e z (⟨j, hj, -, -⟩ | ⟨j, i, m, c, fs, hj, hi, -⟩)
    · exact GoodList_iff.1 hgood.1 _ (List.mem_of_getElem? hj)
    · have h0 := GoodList_iff.1 hgood.1 _ (List.mem_of_getElem? hj)
      unfold Elem.Good at h0
      exact GoodList_iff.1 h0.1 _ (List.mem_of_getElem? hi)
  refine ⟨?_, ?_⟩
  · intro m z hs hm
    obtain ⟨o, s', h3, h4⟩ := h1 _ _ hs
    obtain ⟨G, rfl, h5⟩ := graphic_drawnAt (hden hs).den.L hm h3
    exact ⟨G, h4 G rfl, h5⟩
  · intro G hG
    obtain ⟨e, z, s', hs, h3⟩ := h2 G hG
    have hx : G.x = fin z ∧ e.isSpace = false := by
      cases e with
      | group m c fs =>
        simp only [Elem.graphic, Except.ok.injEq, Option.some.injEq] at h3
        have h0 := hden hs
        unfold Elem.Good at h0
        refine ⟨by rw [← h3], ?_⟩
        unfold Elem.isSpace Elem.mat
        rcases h0.2.kind with hk | hk <;> rw [hk]
      | leaf m => exact graphic_leaf h3
    refine ⟨e, z, hs, hx.2, hx.1, ?_⟩
    rintro m rfl hm
    obtain ⟨G', h4, h5⟩ := graphic_drawnAt (hden hs).den.L hm h3
    simp only [Option.some.injEq] at h4
    subst h4
    exact h5

/-- **C77 violated**: in every path, a generic matrix (alone or in a group) and a group inside of a group that start at `z` are drawn as a box
that starts at `2 z`. -/
theorem C77_violated_box {label : String} {ps : List (Part K)} (hv : (Part.group label ps).Valid) {g : Group (Ext K)}
    (hb : (Part.group label ps).build = .ok g.toElem) (hc : g.toElem.Clean) {lines : List (List (Ext K))} {gs}
    (h : g.graphicsOfElements lines = .ok gs) {e : Elem (Ext K)} {z : K} (hs : ElemAt g.elems e z)
    (he : (∃ m, e = .leaf m ∧ m.kind = .matrix) ∨ ∃ m c fs, e = .group m c fs) :
    ∃ G ∈ gs, ∃ rest, G.extents = (fin (2 * z), fin (2 * z + e.mat.sys.len)) :: rest := by
  obtain ⟨hgood, -⟩ := build_good hv hb hc
  unfold Group.toElem Elem.Good at hgood
  obtain ⟨s, -, hl⟩ := graphics_loop h
  obtain ⟨h1, -⟩ := graphics_spec hgood.1 hl
  have hL : e.mat.L = fin e.mat.sys.len := by
    rcases hs with ⟨j, hj, -, -⟩ | ⟨j, i, m, c, fs, hj, hi, -⟩
    · exact (GoodList_iff.1 hgood.1 _ (List.mem_of_getElem? hj)).den.L
    · have h0 := GoodList_iff.1 hgood.1 _ (List.mem_of_getElem? hj)
      unfold Elem.Good at h0
      exact (GoodList_iff.1 h0.1 _ (List.mem_of_getElem? hi)).den.L
  obtain ⟨o, s', h3, h4⟩ := h1 _ _ hs
  have hbox : ∃ rest, o = some ⟨fin z, blackBox e (fin z) :: rest⟩ := by
    rcases he with ⟨m, rfl, hk⟩ | ⟨m, c, fs, rfl⟩
    · have hsurf : m.surfaces = .ok [] := by
        unfold Mat.surfaces Mat.forwardSurfaces orient
        rw [hk]
        simp [bind, Except.bind, pure, Except.pure, flipLoop]
      unfold Elem.graphic Mat.graphic at h3
      simp only [hk, hsurf, bind, Except.bind, pure, Except.pure, List.isEmpty_nil, if_true, Except.ok.injEq] at h3
      exact ⟨_, h3.symm⟩
    · simp only [Elem.graphic, Except.ok.injEq] at h3
      exact ⟨_, h3.symm⟩
  obtain ⟨rest, rfl⟩ := hbox
  refine ⟨_, h4 _ rfl, (⟨fin z, rest⟩ : Graphic (Ext K)).extents, ?_⟩
  simp only [Graphic.extents, blackBox, List.map_cons, Comp.ends, hL, fin_add_fin]
  rw [show z + z = 2 * z by ring, show z + (z + e.mat.sys.len) = 2 * z + e.mat.sys.len by ring]

theorem apertureBars_inf {m : Mat (Ext K)} (hd : m.apertureDiameter = pinf) : apertureBars m = [] := by
  have : ((pinf : Ext K) !=. inf) = false := rfl
  unfold apertureBars
  rw [hd, this]; rfl

/-- **C77 violated**: a path that contains an `Aperture` without a diameter cannot be drawn. -/
theorem C77_violated_aperture {g : Group (Ext K)} {m : Mat (Ext K)} (hm : Elem.leaf m ∈ g.elems) (hk : m.kind = .aperture)
    (hd : m.apertureDiameter = pinf) (lines : List (List (Ext K))) : ∀ gs, g.graphicsOfElements lines ≠ .ok gs := by
  intro gs h
  obtain ⟨s, -, hl⟩ := graphics_loop h
  have key : ∀ (es : List (Elem (Ext K))) (z : Ext K) gs, Elem.leaf m ∈ es → graphicsLoop s es z ≠ .ok gs := by
    intro es
    induction es with
    | nil => simp
    | cons e es ih =>
      intro z gs hmem h
      unfold graphicsLoop at h
      cases he : e.graphics z s with
      | error x => simp only [he, bind, Except.bind, reduceCtorEq] at h
      | ok l =>
        cases hr : graphicsLoop s es (z + e.mat.L) with
        | error x => simp only [he, hr, bind, Except.bind, reduceCtorEq] at h
        | ok rest =>
          rcases List.mem_cons.1 hmem with rfl | hmem
          · have : (apertureBars m).isEmpty = true := by rw [apertureBars_inf hd]; rfl
            simp only [Elem.graphics, Mat.graphic, hk, this, if_true, Except.map, reduceCtorEq] at he
          · exact ih _ _ hmem hr
  exact key _ _ _ hm hl

/-! ## The height of the lenses -/

omit [PyMath (Ext K)] [PyTrig (Ext K)] in
theorem pyMaxFrom_eq (ys : List K) (m : K) : ∃ r, pyMaxFrom (ys.map fin) (fin m : Ext K) = fin r ∧ m ≤ r ∧ (∀ y ∈ ys, y ≤ r) ∧ (r = m ∨ r ∈ ys) := by
  induction ys generalizing m with
  | nil => exact ⟨m, rfl, le_rfl, by simp, .inl rfl⟩
  | cons y ys ih =>
    simp only [List.map_cons, pyMaxFrom, lt_fin]
    by_cases hy : m < y
    · obtain ⟨r, h1, h2, h3, h4⟩ := ih y
      refine ⟨r, by simpa [hy] using h1, hy.le.trans h2, ?_, ?_⟩
      · intro x hx
        rcases List.mem_cons.1 hx with rfl | hx
        · exact h2
        · exact h3 x hx
      · rcases h4 with rfl | h4 <;> simp_all
    · obtain ⟨r, h1, h2, h3, h4⟩ := ih m
      refine ⟨r, by simpa [hy] using h1, h2, ?_, ?_⟩
      · intro x hx
        rcases List.mem_cons.1 hx with rfl | hx
        · exact (not_lt.1 hy).trans h2
        · exact h3 x hx
      · rcases h4 with rfl | h4 <;> simp_all

omit [PyMath (Ext K)] [PyTrig (Ext K)] in
/-- the largest height of the lines above the axis -/
theorem maxRayHeight_eq (lines : List (List K)) (hne : ∀ l ∈ lines, l ≠ []) (r : K) :
    ∃ s, maxRayHeight (lines.map fun l => l.map fin) (fin r : Ext K) = .ok (fin s) ∧ r ≤ s ∧ (∀ l ∈ lines, ∀ y ∈ l, y ≤ s) ∧
      (s = r ∨ ∃ l ∈ lines, s ∈ l) := by
  induction lines generalizing r with
  | nil => exact ⟨r, rfl, le_rfl, by simp, .inl rfl⟩
  | cons l ls ih =>
    obtain ⟨y, ys, rfl⟩ : ∃ y ys, l = y :: ys := by
      cases l with
      | nil => exact absurd rfl (hne [] (by simp))
      | cons y ys => exact ⟨y, ys, rfl⟩
    obtain ⟨m, m1, m2, m3, m4⟩ := pyMaxFrom_eq ys y
    have hm : m ∈ y :: ys := by rcases m4 with rfl | m4 <;> simp_all
    have hall : ∀ x ∈ y :: ys, x ≤ m := by
      intro x hx
      rcases List.mem_cons.1 hx with rfl | hx
      · exact m2
      · exact m3 x hx
    simp only [List.map_cons, maxRayHeight, m1, lt_fin]
    have hne' : ∀ l ∈ ls, l ≠ [] := fun l hl => hne l (by simp [hl])
    by_cases hr : r < m
    · obtain ⟨s, h1, h2, h3, h4⟩ := ih hne' m
      refine ⟨s, by simpa [hr] using h1, hr.le.trans h2, ?_, ?_⟩
      · intro l hl x hx
        rcases List.mem_cons.1 hl with rfl | hl
        · exact (hall x hx).trans h2
        · exact h3 l hl x hx
      · right
        rcases h4 with rfl | ⟨l, hl, h4⟩
        · exact ⟨_, by simp, hm⟩
        · exact ⟨l, by simp [hl], h4⟩
    · obtain ⟨s, h1, h2, h3, h4⟩ := ih hne' r
      refine ⟨s, by simpa [hr] using h1, h2, ?_, ?_⟩
      · intro l hl x hx
        rcases List.mem_cons.1 hl with rfl | hl
        · exact (hall x hx).trans ((not_lt.1 hr).trans h2)
        · exact h3 l hl x hx
      · rcases h4 with rfl | ⟨l, hl, h4⟩
        · exact .inl rfl
        · exact .inr ⟨l, by simp [hl], h4⟩

/-- **C77**, the height of a lens without a diameter that is an element of the path: its own, or that of the highest point of the
rays if it is larger. Hence it reaches every ray above the axis. -/
theorem C77_height {g : Group (Ext K)} {m : Mat (Ext K)} {f : Ext K} {hh : K} (hm : Elem.leaf m ∈ g.elems) (hk : m.kind = .lens f (fin hh))
    (hd : m.apertureDiameter = pinf) {lines : List (List K)} (hne : ∀ l ∈ lines, l ≠ []) {gs}
    (h : g.graphicsOfElements (lines.map fun l => l.map fin) = .ok gs) :
    ∃ G ∈ gs, ∃ dy, G.comps = [.arrow (fin dy)] ∧ hh ≤ dy ∧ (∀ l ∈ lines, ∀ y ∈ l, y ≤ dy) ∧ (dy = hh ∨ dy = 0 ∨ ∃ l ∈ lines, dy ∈ l) := by
  obtain ⟨s, h1, hl⟩ := graphics_loop h
  rw [zero_eq] at h1
  obtain ⟨s', h2, h3, h4, h5⟩ := maxRayHeight_eq lines hne 0
  rw [h1, Except.ok.injEq] at h2
  subst h2
  have key : ∀ (es : List (Elem (Ext K))) (z : Ext K) gs, Elem.leaf m ∈ es → graphicsLoop (fin s') es z = .ok gs →
      ∃ x, (⟨x, [.arrow (fin (max hh s'))]⟩ : Graphic (Ext K)) ∈ gs := by
    intro es
    induction es with
    | nil => simp
    | cons e es ih =>
      intro z gs hmem h
      unfold graphicsLoop at h
      cases he : e.graphics z (fin s') with
      | error x => simp only [he, bind, Except.bind, reduceCtorEq] at h
      | ok l =>
        cases hr : graphicsLoop (fin s') es (z + e.mat.L) with
        | error x => simp only [he, hr, bind, Except.bind, reduceCtorEq] at h
        | ok rest =>
          simp only [he, hr, bind, Except.bind, pure, Except.pure, Except.ok.injEq] at h
          subst h
          rcases List.mem_cons.1 hmem with rfl | hmem
          · refine ⟨z, List.mem_append_left _ ?_⟩
            have hbars := apertureBars_inf hd
            have hinf : ((pinf : Ext K) !=. inf) = false := rfl
            have hinf' : ((pinf : Ext K) ==. inf) = true := rfl
            have harrow : half ((m.enlarge (fin s')).displayHalfHeight.1 * 2) = fin (max hh s') := by
              unfold Mat.enlarge
              rw [hk]
              by_cases hlt : hh < s'
              · simp [hd, hinf, hinf', hlt, Mat.displayHalfHeight, half, max_eq_right hlt.le]
              · simp [hd, hinf, hinf', hlt, Mat.displayHalfHeight, hk, half, max_eq_left (not_lt.1 hlt)]
            simp only [Elem.graphics, Mat.graphic, hk, Except.map, Except.ok.injEq, hbars, harrow] at he
            rw [← he]; simp
          · obtain ⟨x, hx⟩ := ih _ _ hmem hr
            exact ⟨x, List.mem_append_right _ hx⟩
  obtain ⟨x, hx⟩ := key _ _ _ hm hl
  refine ⟨_, hx, _, rfl, le_max_left _ _, fun l hl y hy => (h4 l hl y hy).trans (le_max_right _ _), ?_⟩
  rcases max_choice hh s' with h6 | h6
  · exact .inl h6
  · rw [h6]
    rcases h5 with h5 | h5
    · exact .inr (.inl h5)
    · exact .inr (.inr h5)

/-- **C77 violated** below the axis: rays that stay below the axis, however far, do not count. -/
theorem C77_violated_below {g : Group (Ext K)} {m : Mat (Ext K)} {f : Ext K} {hh : K} (hm : Elem.leaf m ∈ g.elems)
    (hk : m.kind = .lens f (fin hh)) (hd : m.apertureDiameter = pinf) (h0 : 0 ≤ hh) {lines : List (List K)} (hne : ∀ l ∈ lines, l ≠ [])
    (hlow : ∀ l ∈ lines, ∀ y ∈ l, y ≤ 0) {gs} (h : g.graphicsOfElements (lines.map fun l => l.map fin) = .ok gs) :
    ∃ G ∈ gs, G.comps = [.arrow (fin hh)] := by
  obtain ⟨G, hG, dy, h1, h2, -, h4⟩ := C77_height hm hk hd hne h
  refine ⟨G, hG, ?_⟩
  rcases h4 with rfl | rfl | ⟨l, hl, h5⟩
  · exact h1
  · rw [h1, le_antisymm h2 h0]
  · have := hlow l hl _ h5
    rw [h1, le_antisymm h2 (this.trans h0)]

/-! ## C78: the figure of one element -/

/-- **C78** for every element or group with power and with vertices: the graphic computes the two foci and the two principal
planes of the element, and four lengths; each is the length of its arrow, counted positively when the focus is outside, and is
written in the middle of its arrow. -/
theorem C78_computed {e : Elem (Ext K)} (hg : e.Good) (hc : 1 / 100000 < |e.mat.sys.c|) {fv bv : K} (hfv : e.mat.frontVertex = some (fin fv))
    (hbv : e.mat.backVertex = some (fin bv)) :
    ∃ F1 F2 P1 P2 ffl bfl f1 f2 x1 x2 x3 x4 vs, e.mat.measuresAt 0 = .ok ⟨[fin F1, fin F2], vs, [fin P1, fin P2],
        [⟨"EFL", fin P1, fin F1, fin f1, fin x1⟩, ⟨"EFL", fin P2, fin F2, fin f2, fin x2⟩,
          ⟨"FFL", fin fv, fin F1, fin ffl, fin x3⟩, ⟨"BFL", fin bv, fin F2, fin bfl, fin x4⟩]⟩ ∧
      AreFoci e.mat.sys 0 F1 F2 ∧
      (let t := ((Sys.space (0 - P1) e.mat.sys.nf).andThen e.mat.sys).andThen (Sys.space (P2 - e.mat.sys.len) e.mat.sys.nb)
       t.a = 1 ∧ t.b = 0) ∧
      f1 = P1 - F1 ∧ f2 = F2 - P2 ∧ ffl = fv - F1 ∧ bfl = F2 - bv ∧
      x1 = (P1 + F1) / 2 ∧ x2 = (P2 + F2) / 2 ∧ x3 = (fv + F1) / 2 ∧ x4 = (bv + F2) / 2 ∧
      vs = if e.mat.sys.len = 0 then [] else [fin fv, fin bv] := by
  have hd := hg.den
  have hs := hg.lawful
  have hb := hs.2.1
  have h0 := power_ne hc
  obtain ⟨p1, p2, f1, f2, z1, z2, e1, e2, e3, e4, e5, e6, e7⟩ := C24_principal_planes hd hs hc 0
  obtain ⟨z1', z2', e8, e9, e10⟩ := C23_foci_partial hd hb hc 0
  rw [e3] at e8
  simp only [Except.ok.injEq, Option.some.injEq, Prod.mk.injEq, fin.injEq] at e8
  obtain ⟨rfl, rfl⟩ := e8
  have e11 : e.mat.frontFocalLength = .ok (some (fin (fv - z1))) := by
    unfold Mat.frontFocalLength
    rw [hasPower_den hd, decide_eq_true hc, hfv, e2, zero_eq, e1]
    simp only [if_true, bind, Except.bind, pure, Except.pure, fin_sub_fin, neg_fin, Except.ok.injEq, Option.some.injEq, fin.injEq]
    rw [e5]; ring
  have e12 : e.mat.backFocalLength = .ok (some (fin (z2 - bv))) := by
    unfold Mat.backFocalLength
    rw [hasPower_den hd, decide_eq_true hc, hbv, e2, zero_eq, e1]
    simp only [if_true, bind, Except.bind, pure, Except.pure, fin_sub_fin, fin_add_fin, Except.ok.injEq, Option.some.injEq, fin.injEq]
    rw [e6]
  refine ⟨z1, z2, p1, p2, fv - z1, z2 - bv, f1, f2, (p1 + z1) / 2, (p2 + z2) / 2, (fv + z1) / 2, (bv + z2) / 2, _, ?_, ⟨e9, e10⟩, ?_,
    by rw [e5]; ring, by rw [e6]; ring, rfl, rfl, rfl, rfl, rfl, rfl, rfl⟩
  · have hhalf : ∀ x : K, half (fin x) = fin (x / 2) := fun x => by simp [half]
    have hm : principalMeasures e.mat (0 : Ext K) = .ok ([fin p1, fin p2],
        [⟨"EFL", fin p1, fin z1, fin f1, fin ((p1 + z1) / 2)⟩, ⟨"EFL", fin p2, fin z2, fin f2, fin ((p2 + z2) / 2)⟩,
          ⟨"FFL", fin fv, fin z1, fin (fv - z1), fin ((fv + z1) / 2)⟩, ⟨"BFL", fin bv, fin z2, fin (z2 - bv), fin ((bv + z2) / 2)⟩]) := by
      unfold principalMeasures
      rw [zero_eq, e1, e2, e3, e11, e12, hfv, hbv]
      simp only [bind, Except.bind, pure, Except.pure, hhalf, fin_sub_fin, fin_add_fin]
      rw [show p1 - f1 / 2 = (p1 + z1) / 2 by rw [e5]; ring, show p2 + f2 / 2 = (p2 + z2) / 2 by rw [e6]; ring]
    have hca : cardinalPoints e.mat (0 : Ext K) = .ok [fin z1, fin z2] := by
      unfold cardinalPoints
      rw [zero_eq, e3]; rfl
    unfold Mat.measuresAt
    simp only [bind, Except.bind, hca, hm, verticesPoints, hfv, hbv, hd.L]
    by_cases hl : e.mat.sys.len = 0
    · simp [hl, pure, Except.pure]
    · simp [hl, pure, Except.pure]
  · simpa using e4

/-- **C78** for every single element with power, with vertices, whose graphic can be drawn: the figure shows the two foci, the two principal
planes and the four lengths of `C78_computed`. -/
theorem C78_measures {m : Mat (Ext K)} (hg : (Elem.leaf m).Good) (hc : 1 / 100000 < |m.sys.c|) {fv bv : K} (hfv : m.frontVertex = some (fin fv))
    (hbv : m.backVertex = some (fin bv)) {G} (hG : (Elem.leaf m).graphic 0 0 = .ok (some G)) :
    ∃ F1 F2 P1 P2 ffl bfl f1 f2 x1 x2 x3 x4 vs, (Elem.leaf m).figure = .ok ⟨[fin F1, fin F2], vs, [fin P1, fin P2],
        [⟨"EFL", fin P1, fin F1, fin f1, fin x1⟩, ⟨"EFL", fin P2, fin F2, fin f2, fin x2⟩,
          ⟨"FFL", fin fv, fin F1, fin ffl, fin x3⟩, ⟨"BFL", fin bv, fin F2, fin bfl, fin x4⟩]⟩ ∧
      AreFoci m.sys 0 F1 F2 ∧
      (let t := ((Sys.space (0 - P1) m.sys.nf).andThen m.sys).andThen (Sys.space (P2 - m.sys.len) m.sys.nb)
       t.a = 1 ∧ t.b = 0) ∧
      f1 = P1 - F1 ∧ f2 = F2 - P2 ∧ ffl = fv - F1 ∧ bfl = F2 - bv ∧
      x1 = (P1 + F1) / 2 ∧ x2 = (P2 + F2) / 2 ∧ x3 = (fv + F1) / 2 ∧ x4 = (bv + F2) / 2 ∧
      vs = if m.sys.len = 0 then [] else [fin fv, fin bv] := by
  obtain ⟨F1, F2, P1, P2, ffl, bfl, f1, f2, x1, x2, x3, x4, vs, h, h'⟩ := C78_computed hg hc hfv hbv
  refine ⟨F1, F2, P1, P2, ffl, bfl, f1, f2, x1, x2, x3, x4, vs, ?_, h'⟩
  have h : m.measuresAt 0 = _ := h
  unfold Elem.figure Elem.figureAt
  simp only [hG, bind, Except.bind, Elem.mat, h]
  rfl

/-- **C78** is violated by every `MatrixGroup` with power and vertices whose elements can be drawn: the foci, the planes and the lengths are
computed (`C78_computed`), but the figure shows none of them. -/
theorem C78_violated_group {m : Mat (Ext K)} {c} {es : List (Elem (Ext K))} (hg : (Elem.group m c es).Good) (hc : 1 / 100000 < |m.sys.c|)
    {fv bv : K} (hfv : m.frontVertex = some (fin fv)) (hbv : m.backVertex = some (fin bv)) {gs} (hd : graphicsLoop 0 es 0 = .ok gs) :
    (Elem.group m c es).figure = .ok ⟨[], [], [], []⟩ := by
  obtain ⟨F1, F2, P1, P2, ffl, bfl, f1, f2, x1, x2, x3, x4, vs, h, -⟩ := C78_computed hg hc hfv hbv
  have h : m.measuresAt 0 = _ := h
  unfold Elem.figure Elem.figureAt
  simp only [Elem.graphic, bind, Except.bind, Elem.mat, h, hd]
  rfl

/-- **C78** is violated for the figure of a graphic that is not at 0 (`GraphicOf(element, x=x)`): the foci and the vertices are marked where they are, but
the arrows of the front and back focal lengths start from the vertices of the element at 0, so their lengths are not those written. -/
theorem C78_violated_moved {m : Mat (Ext K)} (hg : (Elem.leaf m).Good) (hc : 1 / 100000 < |m.sys.c|) {fv bv : K} (hfv : m.frontVertex = some (fin fv))
    (hbv : m.backVertex = some (fin bv)) (hL : m.sys.len ≠ 0) {x : K} (hx : x ≠ 0) {G} (hG : (Elem.leaf m).graphic (fin x) 0 = .ok (some G)) :
    ∃ fig F1 F2 ffl bfl m1 m2 x3 x4, (Elem.leaf m).figureAt (fin x) = .ok fig ∧ fig.foci = [fin F1, fin F2] ∧ AreFoci m.sys x F1 F2 ∧
      fig.vertices = [fin (x + fv), fin (x + bv)] ∧
      fig.measures = [m1, m2, ⟨"FFL", fin fv, fin F1, fin ffl, x3⟩, ⟨"BFL", fin bv, fin F2, fin bfl, x4⟩] ∧
      ffl = x + fv - F1 ∧ bfl = F2 - (x + bv) ∧ ffl ≠ fv - F1 ∧ bfl ≠ F2 - bv := by
  have hd : Den m m.sys := hg.den
  have hs : m.sys.Lawful := hg.lawful
  have hb := hs.2.1
  have h0 := power_ne hc
  obtain ⟨z1, z2, e8, e9, e10⟩ := C23_foci_partial hd hb hc x
  have e8' := e8
  rw [focusPositions_eq hd hb hc] at e8'
  simp only [Except.ok.injEq, Option.some.injEq, Prod.mk.injEq, fin.injEq] at e8'
  have hh : ∀ x : K, half (fin x) = fin (x / 2) := fun x => by simp [half]
  have hffl : m.frontFocalLength = .ok (some (fin (x + fv - z1))) := by
    unfold Mat.frontFocalLength
    rw [hasPower_den hd, decide_eq_true hc, hfv, effectiveFocalLengths_eq hd hb hc, zero_eq, principalPlanePositions_eq hd hb hc]
    simp only [if_true, bind, Except.bind, pure, Except.pure, fin_sub_fin, neg_fin, Except.ok.injEq, Option.some.injEq, fin.injEq]
    rw [← e8'.1]; field_simp; ring
  have hbfl : m.backFocalLength = .ok (some (fin (z2 - (x + bv)))) := by
    unfold Mat.backFocalLength
    rw [hasPower_den hd, decide_eq_true hc, hbv, effectiveFocalLengths_eq hd hb hc, zero_eq, principalPlanePositions_eq hd hb hc]
    simp only [if_true, bind, Except.bind, pure, Except.pure, fin_sub_fin, fin_add_fin, Except.ok.injEq, Option.some.injEq, fin.injEq]
    rw [← e8'.2]; field_simp; ring
  obtain ⟨p1, p2, hp⟩ : ∃ p1 p2, m.principalPlanePositions (fin x) = .ok (some (p1, p2)) := ⟨_, _, principalPlanePositions_eq hd hb hc x⟩
  obtain ⟨f, hf⟩ : ∃ f, m.effectiveFocalLengths = .ok f := ⟨_, effectiveFocalLengths_eq hd hb hc⟩
  have hm : principalMeasures m (fin x) = .ok ([p1, p2],
      [⟨"EFL", p1, fin z1, f.1, p1 - half f.1⟩, ⟨"EFL", p2, fin z2, f.2, p2 + half f.2⟩,
        ⟨"FFL", fin fv, fin z1, fin (x + fv - z1), half (fin fv + fin z1)⟩,
        ⟨"BFL", fin bv, fin z2, fin (z2 - (x + bv)), half (fin bv + fin z2)⟩]) := by
    unfold principalMeasures
    rw [hp, hf, e8, hffl, hbfl, hfv, hbv]; rfl
  have hca : cardinalPoints m (fin x) = .ok [fin z1, fin z2] := by
    unfold cardinalPoints
    rw [e8]; rfl
  have hfig : (Elem.leaf m).figureAt (fin x) = .ok ⟨[fin z1, fin z2], [fin (x + fv), fin (x + bv)], [p1, p2],
      [⟨"EFL", p1, fin z1, f.1, p1 - half f.1⟩, ⟨"EFL", p2, fin z2, f.2, p2 + half f.2⟩,
        ⟨"FFL", fin fv, fin z1, fin (x + fv - z1), half (fin fv + fin z1)⟩,
        ⟨"BFL", fin bv, fin z2, fin (z2 - (x + bv)), half (fin bv + fin z2)⟩]⟩ := by
    unfold Elem.figureAt Mat.measuresAt
    simp only [hG, bind, Except.bind, Elem.mat, hca, hm, verticesPoints, hfv, hbv, hd.L]
    simp [hL, pure, Except.pure]
  exact ⟨_, z1, z2, x + fv - z1, z2 - (x + bv), _, _, _, _, hfig, rfl, ⟨e9, e10⟩, rfl, rfl, rfl, rfl, fun h => hx (by linarith), fun h => hx (by linarith)⟩

/-- **C78 violated** for elements with power but without vertices, as generic matrices have by default: they cannot be displayed. -/
theorem C78_violated_vertices {e : Elem (Ext K)} (hg : e.Good) (hc : 1 / 100000 < |e.mat.sys.c|) (hfv : e.mat.frontVertex = none)
    {G} (hG : e.graphic 0 0 = .ok (some G)) : e.figure = .error .typeError := by
  have hd := hg.den
  have hb := hg.lawful.2.1
  unfold Elem.figure Elem.figureAt Mat.measuresAt
  simp only [hG, bind, Except.bind]
  have hca : ∃ l, cardinalPoints e.mat (0 : Ext K) = .ok l := by
    unfold cardinalPoints
    rw [zero_eq, focusPositions_eq hd hb hc]; exact ⟨_, rfl⟩
  obtain ⟨l, hl⟩ := hca
  rw [hl]
  have hm : principalMeasures e.mat (0 : Ext K) = .error .typeError := by
    unfold principalMeasures
    have h1 := (C25_none_iff hd hb).2.2 (.inl hfv)
    obtain ⟨b, hbf⟩ : ∃ b, e.mat.backFocalLength = .ok b := by
      unfold Mat.backFocalLength
      rw [hasPower_den hd, decide_eq_true hc, effectiveFocalLengths_eq hd hb hc, zero_eq, principalPlanePositions_eq hd hb hc]
      cases e.mat.backVertex <;> exact ⟨_, rfl⟩
    rw [zero_eq, principalPlanePositions_eq hd hb hc, effectiveFocalLengths_eq hd hb hc, h1, hbf, focusPositions_eq hd hb hc, hfv]
    rfl
  by_cases hL : e.mat.sys.len = 0
  · simp [hd.L, hL, pure, Except.pure]
    rw [zero_eq] at hm
    rw [hm]
  · simp [hd.L, hL, verticesPoints, hfv]

/-- **C78 violated** for spaces: they cannot be displayed. -/
theorem C78_violated_space {m : Mat (Ext K)} (hk : m.kind = .space) : (Elem.leaf m).figure = .error .attributeError := by
  unfold Elem.figure Elem.figureAt Elem.graphic Mat.graphic
  simp only [hk]; rfl

/-! ## Heights of boxes, bars of glass -/

/-- **C77**: a group with no `Lens` and no group without finite diameter, drawn as a box, reaches from `-M/2` to `M/2` where `M` is the
largest diameter of its elements; the box is as long as the group. -/
theorem C77_box_partial {label : String} {ps : List (Part K)} {g : Group (Ext K)}
    (hb : (Part.group label ps).build = .ok g.toElem)
    (hl : ∀ m ∈ leaves g.toElem.items, m.NotLens) (hf : g.toElem.InnerFinite) (hd : ∃ s ∈ (Part.group label ps).stages, s.diam ≠ none)
    (x minSize : Ext K) :
    ∃ (M : K) (left bottom width height : Ext K), g.toElem.graphic x minSize = .ok (some ⟨x, [.box left bottom width height]⟩) ∧
      (∃ s ∈ (Part.group label ps).stages, s.diam = some M) ∧ (∀ s ∈ (Part.group label ps).stages, ∀ D, s.diam = some D → D ≤ M) ∧
      bottom = fin (-(M / 2)) ∧ bottom + height = fin (M / 2) ∧ width = g.mat.L := by
  rcases C37_largestDiameter_partial hb hl hf with ⟨-, h2⟩ | ⟨M, h1, h2, h3⟩
  · obtain ⟨s, hs, hne⟩ := hd
    exact absurd (h2 s hs) hne
  · refine ⟨M, x, fin (-(M / 2)), g.mat.L, fin M, ?_, h2, h3, rfl, ?_, rfl⟩
    · have hh : half (fin M : Ext K) = fin (M / 2) := half_optInf (some M)
      have hne : ((fin (M / 2) : Ext K) ==. inf) = false := rfl
      have hL : g.toElem.mat.L = g.mat.L := rfl
      change Except.ok (some (⟨x, [blackBox g.toElem x]⟩ : Graphic (Ext K))) = _
      unfold blackBox
      rw [h1, hh]
      dsimp only
      rw [hne, if_neg (by simp), hL, neg_fin, ofNat_eq, fin_mul_fin]
      congr 6
      ring
    · rw [fin_add_fin]; congr 1; ring

/-- **C77**: the bars drawn with several surfaces are at the height of the element, and go from the edge of the first surface to the edge of
the last one (a bar of 0.01 in length, at most, has this length and is centred on the first edge). -/
theorem C77_bars {h : Ext K} {ss : List (Surf (Ext K))} {cs : List (Comp (Ext K))}
    (hc : surfaceComps h ss = .ok cs) (hs : 2 ≤ ss.length) :
    ∃ (outlines : List (Comp (Ext K))) (a a' z z' : Face (Ext K)) (width : Ext K),
      cs = outlines ++ [.bars h a.corner width] ∧ outlines.head? = some (.outline a a') ∧ outlines.getLast? = some (.outline z' z) ∧
      ∀ p q : K, a.corner = fin p → z.corner = fin q →
        (1 / 100 < q - p → (Comp.bars h a.corner width).ends = (fin p, fin q)) ∧
        (q - p ≤ 1 / 100 → (Comp.bars h a.corner width).ends = (fin (p - 1 / 200), fin (p + 1 / 200))) := by
  unfold surfaceComps at hc
  cases hd : drawSurfaces h ss with
  | error e => simp [hd, bind, Except.bind] at hc
  | ok ps =>
    simp only [hd, bind, Except.bind] at hc
    split at hc
    · omega
    · next p q h2 h3 _ =>
      simp only [pure, Except.pure, Except.ok.injEq] at hc
      refine ⟨ps.map fun p => .outline p.1 p.2, p.1, p.2, q.2, q.1, _, hc.symm, by simp [h2], by simp [h3], ?_⟩
      intro u v hu hv
      have e1 : (lit (1 / 100 : ℚ) : Ext K) = fin (1 / 100) := by rw [lit_eq]; norm_num
      have e2 : (lit (5 / 1000 : ℚ) : Ext K) = fin (1 / 200) := by rw [lit_eq]; norm_num
      have e3 : ((fin (v - u) : Ext K) ==. 0) = decide (v - u = 0) := by rw [zero_eq, eq_fin]
      simp only [Comp.ends, barEnds, hu, hv, fin_sub_fin, e1, e2, e3]
      by_cases h0 : v - u = 0
      · simp only [h0, decide_true, if_true]
        constructor
        · intro hlt; exfalso; norm_num at hlt
        · intro _; simp
      · simp only [h0, decide_false, Bool.false_eq_true, if_false, le_fin, decide_eq_true_eq]
        constructor
        · intro hlt
          rw [if_neg (not_le.2 hlt), fin_add_fin]
          congr 2; ring
        · intro hle
          rw [if_pos hle]; simp
    · simp [throw, throwThe, MonadExceptOf.throw] at hc

/-! ## Examples -/

section examples

/-- The elements below have no curved glass: no function of these instances is called. -/
local instance : PyMath (Ext ℚ) := ⟨id, 0⟩
local instance : PyTrig (Ext ℚ) := ⟨id, id, id, id⟩

/-- A lens at 10, an aperture of diameter 3 at 15 and a slab 20 long from 20. -/
example :
    withPath [.space 10 1 none, .lens 5 none, .space 5 1 none, .aperture (some 3) none "", .space 5 1 none, .slab (3/2) 20 none]
      (fun g => (g.graphicsOfElements [[fin 1, fin 7, fin (-9)], [fin 2]]).map fun gs => gs.map fun G => (G.x, G.extents)) =
      .ok (.ok [(fin 10, [(fin 10, fin 10)]), (fin 15, [(fin (2999/200), fin (3001/200))]),
        (fin 20, [(fin 20, fin 40), (fin 20, fin 40)])]) := by decide +kernel

/-- A ray reaches 7, hence the lens too. -/
example :
    withPath [.space 10 1 none, .lens 5 none] (fun g => g.graphicsOfElements [[fin 1, fin 7, fin (-9)], [fin 2]]) =
      .ok (.ok [⟨fin 10, [.arrow (fin 7)]⟩]) := by decide +kernel

/-- A generic matrix at 10 is drawn from 20. -/
example :
    withPath [.space 10 1 none, .matrix ⟨1, 2, 0, 1, 2, 1, 1⟩ none none none]
      (fun g => (g.graphicsOfElements []).map fun gs => gs.map fun G => (G.x, G.extents)) =
      .ok (.ok [(fin 10, [(fin 20, fin 22)])]) := by decide +kernel

/-- A group whose largest diameter is 6, inside of a group: a box from -3 to 3. -/
example :
    withPath [.aperture (some 4) none "", .space 5 1 none, .aperture (some 6) none ""] (fun g =>
      (g.toElem.graphic (fin 10) 0, (leaves g.toElem.items).length)) =
      .ok (.ok (some ⟨fin 10, [.box (fin 10) (fin (-3)) (fin 5) (fin 6)]⟩), 3) := by decide +kernel

/-- Two plane faces 20 apart. -/
example : surfaceComps (fin (3 : ℚ)) [⟨.flat, fin 20, fin (3/2)⟩, ⟨.flat, 0, 1⟩] =
    .ok [.outline (.line 0) (.line (fin 20)), .bars (fin 3) (fin 0) (fin 20)] := by decide +kernel

/-- The figure of a lens of focal length 5. -/
example : ((Part.lens (5 : ℚ) none).build).bind (fun e => e.figure) =
    .ok ⟨[fin (-5), fin 5], [], [fin 0, fin 0], [⟨"EFL", fin 0, fin (-5), fin 5, fin (-5/2)⟩, ⟨"EFL", fin 0, fin 5, fin 5, fin (5/2)⟩,
      ⟨"FFL", fin 0, fin (-5), fin 5, fin (-5/2)⟩, ⟨"BFL", fin 0, fin 5, fin 5, fin (5/2)⟩]⟩ := by decide +kernel

/-- That of a generic matrix with power and no vertices. -/
example : ((Part.matrix (⟨1, 0, -1/5, 1, 0, 1, 1⟩ : Sys ℚ) none none none).build).bind (fun e => e.figure) = .error .typeError := by
  decide +kernel

/-- A group of two lenses, with power and with vertices, meets the hypotheses of `C78_violated_group`: the lengths are computed, nothing is
shown. -/
example : ((Part.group "" [.lens (5 : ℚ) none, .space 2 1 none, .lens 5 none]).build).bind (fun e => e.figure) = .ok ⟨[], [], [], []⟩ ∧
    ((Part.group "" [.lens (5 : ℚ) none, .space 2 1 none, .lens 5 none]).build).bind (fun e => (e.mat.measuresAt 0).map fun f => f.vertices) =
      .ok [fin 0, fin 2] := by
  decide +kernel

end examples

end RT
