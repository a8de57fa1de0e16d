import Verif.Lemmas.FlipAgain
import Verif.Lemmas.RoundedBuild
import Verif.Spec.RoundedMatrix

/-! # C121: flipping twice in Python floats

C26 says that two flips give back the system with exact numbers. With floats nothing guarantees it: the flipped elements are recomputed, and every product of
the group is computed again in another order. They are nevertheless given back to the last bit. -/

set_option linter.unusedSectionVars false

namespace RT
open PyNum

section
variable {F : Type} [PyNum F] [FlipLaws F] {K : Type}

theorem mkLens_okF {f d : F} {m : Mat F} (h : mkLens f d = .ok m) : m.kind = .lens f 4 := by
  unfold mkLens at h
  simp only [bind, Except.bind] at h
  split at h
  · simp at h
  · rw [(init_okF h).1]

theorem mkMirror_okF {R d : F} {m : Mat F} (h : mkCurvedMirror R d = .ok m) : m.kind = .curvedMirror := by
  unfold mkCurvedMirror at h
  simp only [bind, Except.bind] at h
  split at h
  · simp at h
  · rw [(init_okF h).1]

theorem mkDielectric_okF {n1 n2 R d : F} {m : Mat F} (h : mkDielectric n1 n2 R d = .ok m) :
    m.kind = .dielectric n1 n2 R ∧ dielectricC n1 n2 R = .ok m.C ∧ pyDiv n1 n2 = .ok m.D := by
  unfold mkDielectric at h
  simp only [bind, Except.bind] at h
  split at h
  · simp at h
  · next c hc =>
    split at h
    · simp at h
    · next d hd =>
      rw [(init_okF h).1]
      exact ⟨rfl, hc, hd⟩

theorem mkThickOf_okF {k : Kind F} {n R1 R2 t d : F} {m : Mat F} (h : mkThickOf k n R1 R2 t d = .ok m) :
    m.kind = k ∧ thickA n R1 m.L = .ok m.A ∧ thickB n m.L = .ok m.B ∧ thickC n R1 R2 m.L = .ok m.C ∧ thickD n R2 m.L = .ok m.D := by
  unfold mkThickOf at h
  simp only [bind, Except.bind] at h
  split at h
  · simp at h
  · next a ha =>
    split at h
    · simp at h
    · next b hb =>
      split at h
      · simp at h
      · next c hc =>
        split at h
        · simp at h
        · next d hd =>
          rw [(init_okF h).1]
          exact ⟨rfl, ha, hb, hc, hd⟩

theorem plain_flip {k : Kind F} (h : k = .space ∨ k = .matrix ∨ k = .aperture ∨ (∃ f x, k = .lens f x)) (n : Mat F) (hn : n.kind = k) :
    n.flip = (n.flipBase, .ok ()) := by
  unfold Mat.flip
  rcases h with rfl | rfl | rfl | ⟨f, x, rfl⟩ <;> rw [hn]

mutual
/-- what a program builds is kept by two flips -/
theorem buildWith_kept (num : K → F) (opt : Option K → F) : ∀ {p : Part K} {e : Elem F}, p.buildWith num opt = .ok e → e.Kept
  | .group label ps, e, hb => by
    unfold Part.buildWith at hb
    split at hb
    · simp at hb
    · next fs hf =>
      obtain ⟨g, h1, rfl⟩ := Except.map_ok hb
      have h2 := buildListWith_kept num opt hf
      have h4 := Group.new_eq h1
      have h5 := appendAll_kept (g := Group.empty label) (by simp [Group.empty, KeptList]) h2 h4
      have h7 : g.elems.IsChain Touch := by
        have := appendAll_touch (g := Group.empty label) fs (by simp [Group.empty])
        rwa [h4] at this
      have hk : g.mat.kind = .group := by
        have h3 := Group.appendAll_kind (Group.empty label) fs
        rw [h4] at h3
        rw [h3]; rfl
      unfold Group.toElem Elem.Kept
      exact ⟨h5, Group.new_fresh h1, h7, hk⟩
  | .space d n diam, e, hb => by
    unfold Part.buildWith at hb
    obtain ⟨m, h1, rfl⟩ := Except.map_ok hb
    unfold mkSpace at h1
    obtain ⟨rfl, -⟩ := init_okF h1
    exact kept_plain (plain_flip (.inl rfl)) (by simp) (fun _ => rfl)
  | .lens f diam, e, hb => by
    unfold Part.buildWith at hb
    obtain ⟨m, h1, rfl⟩ := Except.map_ok hb
    have hk := mkLens_okF h1
    exact kept_plain (plain_flip (.inr (.inr (.inr ⟨_, _, hk⟩)))) (by simp [hk]) (by simp [hk])
  | .mirror R diam, e, hb => by
    unfold Part.buildWith at hb
    obtain ⟨m, h1, rfl⟩ := Except.map_ok hb
    exact kept_mirror (mkMirror_okF h1)
  | .interface n1 n2 R diam, e, hb => by
    unfold Part.buildWith at hb
    obtain ⟨m, h1, rfl⟩ := Except.map_ok hb
    obtain ⟨h2, h3, h4⟩ := mkDielectric_okF h1
    exact kept_interface h2 h3 h4
  | .thickLens n R1 R2 t diam, e, hb => by
    unfold Part.buildWith mkThickLens at hb
    obtain ⟨m, h1, rfl⟩ := Except.map_ok hb
    obtain ⟨h2, h3, h4, h5, h6⟩ := mkThickOf_okF h1
    exact kept_thick (.inl h2) h3 h4 h5 h6
  | .slab n t diam, e, hb => by
    unfold Part.buildWith mkSlab at hb
    obtain ⟨m, h1, rfl⟩ := Except.map_ok hb
    obtain ⟨h2, h3, h4, h5, h6⟩ := mkThickOf_okF h1
    exact kept_thick (.inr h2) h3 h4 h5 h6
  | .aperture diam na label, e, hb => by
    unfold Part.buildWith mkAperture at hb
    obtain ⟨m, h1, rfl⟩ := Except.map_ok hb
    obtain ⟨rfl, -⟩ := init_okF h1
    exact kept_plain (plain_flip (.inr (.inr (.inl rfl)))) (by simp) (by simp)
  | .matrix s fv bv diam, e, hb => by
    unfold Part.buildWith genericMatWith at hb
    obtain ⟨m, h1, rfl⟩ := Except.map_ok hb
    obtain ⟨rfl, -⟩ := init_okF h1
    exact kept_plain (plain_flip (.inr (.inl rfl))) (by simp [Mat.one]) (by simp [Mat.one])
theorem buildListWith_kept (num : K → F) (opt : Option K → F) : ∀ {ps : List (Part K)} {es : List (Elem F)},
    Part.buildListWith num opt ps = .ok es → KeptList es
  | [], es, h => by
    simp only [Part.buildListWith, Except.ok.injEq] at h; subst h
    exact trivial
  | p :: ps, es, h => by
    unfold Part.buildListWith at h
    split at h
    · simp at h
    · next e he =>
      split at h
      · simp at h
      · next fs hf =>
        simp only [Except.ok.injEq] at h
        subst h
        exact ⟨buildWith_kept num opt he, buildListWith_kept num opt hf⟩
end

/-! ## Systems in air: the second flip cannot fail -/

mutual
/-- every element and every group reports the index of air on both sides -/
def Elem.AllAir : Elem F → Prop
  | .leaf m => m.frontIndex = 1 ∧ m.backIndex = 1
  | .group m _ es => m.frontIndex = 1 ∧ m.backIndex = 1 ∧ AllAirList es
/-- each of them does -/
def AllAirList : List (Elem F) → Prop
  | [] => True
  | e :: es => e.AllAir ∧ AllAirList es
end

theorem AllAirList_iff {es : List (Elem F)} : AllAirList es ↔ ∀ e ∈ es, e.AllAir := by
  induction es with
  | nil => simp [AllAirList]
  | cons e es ih => simp [AllAirList, ih]

mutual
/-- the elements of every group can be appended again, one by one, to an empty group -/
def Elem.Redo : Elem F → Prop
  | .leaf _ => True
  | .group _ _ es => RedoList es ∧ ∀ m c, ((⟨m, c, []⟩ : Group F).appendAll es).2 = .ok ()
/-- each of them can -/
def RedoList : List (Elem F) → Prop
  | [] => True
  | e :: es => e.Redo ∧ RedoList es
end

theorem RedoList_iff {es : List (Elem F)} : RedoList es ↔ ∀ e ∈ es, e.Redo := by
  induction es with
  | nil => simp [RedoList]
  | cons e es ih => simp [RedoList, ih]

theorem push_header {g h : Group F} {e : Elem F} {t : Mat F} (hh : h.elems = g.elems) (ht : transferMatrixList (g.elems ++ [e]) inf Mat.one = .ok t) :
    h.push e = (⟨h.mat.refresh t, h.cache, g.elems ++ [e]⟩, .ok ()) := by
  unfold Group.push
  simp only [hh, ht]

theorem appendAll_redo : ∀ {fs : List (Elem F)} {g g' : Group F}, g.appendAll fs = (g', .ok ()) →
    ∃ es, g'.elems = g.elems ++ es ∧ (RedoList fs → RedoList es) ∧ ∀ h : Group F, h.elems = g.elems → (h.appendAll es).2 = .ok ()
  | [], g, g', h => by
    simp only [Group.appendAll, Prod.mk.injEq, and_true] at h
    subst h
    exact ⟨[], by simp, fun _ => trivial, fun h _ => rfl⟩
  | f :: fs, g, g', h => by
    obtain ⟨g1, h1, h2⟩ := Group.appendAll_cons_ok h
    obtain ⟨e', t, ht, rfl, h3⟩ := append_okF h1
    obtain ⟨es, h4, h5, h6⟩ := appendAll_redo h2
    refine ⟨e' :: es, by simpa using h4, ?_, ?_⟩
    · intro hr
      unfold RedoList at hr
      refine ⟨?_, h5 hr.2⟩
      rcases h3 with ⟨-, rfl⟩ | ⟨last, -, ⟨rfl, -⟩ | ⟨-, rfl⟩⟩
      · exact hr.1
      · exact hr.1
      · have := hr.1
        cases f with
        | leaf m => exact trivial
        | group m c l => exact this
    · intro k hk
      have : k.append e' = (⟨k.mat.refresh t, k.cache, g.elems ++ [e']⟩, .ok ()) := by
        unfold Group.append
        rw [hk]
        rcases h3 with ⟨h0, rfl⟩ | ⟨last, hl, ⟨rfl, h0⟩ | ⟨hs, rfl⟩⟩
        · have := push_header hk ht
          rw [h0] at this ⊢
          simpa using this
        · simp only [hl, h0, Bool.false_eq_true, if_false]
          exact push_header hk ht
        · simp only [hl]
          have hs' : (f.setIndices last.mat.backIndex).isSpace = true := by
            cases f <;> simpa [Elem.setIndices, Elem.isSpace, Elem.mat] using hs
          rw [hs', Elem.setIndices_twiceF]
          simp only [if_true]
          have := push_header (e := f.setIndices last.mat.backIndex) hk ht
          split <;> exact this
      unfold Group.appendAll
      rw [this]
      exact h6 _ rfl

mutual
theorem buildWith_redo (num : K → F) (opt : Option K → F) : ∀ {p : Part K} {e : Elem F}, p.buildWith num opt = .ok e → e.Redo
  | .group label ps, e, hb => by
    unfold Part.buildWith at hb
    split at hb
    · simp at hb
    · next fs hf =>
      obtain ⟨g, h1, rfl⟩ := Except.map_ok hb
      obtain ⟨es, h2, h3, h4⟩ := appendAll_redo (Group.new_eq h1)
      simp only [Group.empty, List.nil_append] at h2
      unfold Group.toElem Elem.Redo
      rw [h2]
      exact ⟨h3 (buildListWith_redo num opt hf), fun m c => h4 _ rfl⟩
  | .space _ _ _, e, hb => by unfold Part.buildWith at hb; obtain ⟨m, -, rfl⟩ := Except.map_ok hb; exact trivial
  | .lens _ _, e, hb => by unfold Part.buildWith at hb; obtain ⟨m, -, rfl⟩ := Except.map_ok hb; exact trivial
  | .mirror _ _, e, hb => by unfold Part.buildWith at hb; obtain ⟨m, -, rfl⟩ := Except.map_ok hb; exact trivial
  | .interface _ _ _ _, e, hb => by unfold Part.buildWith at hb; obtain ⟨m, -, rfl⟩ := Except.map_ok hb; exact trivial
  | .thickLens _ _ _ _ _, e, hb => by unfold Part.buildWith at hb; obtain ⟨m, -, rfl⟩ := Except.map_ok hb; exact trivial
  | .slab _ _ _, e, hb => by unfold Part.buildWith at hb; obtain ⟨m, -, rfl⟩ := Except.map_ok hb; exact trivial
  | .aperture _ _ _, e, hb => by unfold Part.buildWith at hb; obtain ⟨m, -, rfl⟩ := Except.map_ok hb; exact trivial
  | .matrix _ _ _ _, e, hb => by unfold Part.buildWith at hb; obtain ⟨m, -, rfl⟩ := Except.map_ok hb; exact trivial
theorem buildListWith_redo (num : K → F) (opt : Option K → F) : ∀ {ps : List (Part K)} {es : List (Elem F)},
    Part.buildListWith num opt ps = .ok es → RedoList es
  | [], es, h => by
    simp only [Part.buildListWith, Except.ok.injEq] at h; subst h
    exact trivial
  | p :: ps, es, h => by
    unfold Part.buildListWith at h
    split at h
    · simp at h
    · next e he =>
      split at h
      · simp at h
      · next fs hf =>
        simp only [Except.ok.injEq] at h
        subst h
        exact ⟨buildWith_redo num opt he, buildListWith_redo num opt hf⟩
end

theorem appendFlipped_appendAll : ∀ {ps : List (Elem F × Except PyErr Unit)} {es : List (Elem F)} {g : Group F}, ps = es.map (fun e => (e, .ok ())) →
    g.appendFlipped ps = g.appendAll es
  | _, [], g, rfl => rfl
  | _, e :: es, g, rfl => by
    unfold Group.appendAll
    simp only [List.map_cons, Group.appendFlipped]
    split
    · exact appendFlipped_appendAll rfl
    · rfl

/-- when nothing but air is seen before and after, the flip has changed the index of no space -/
theorem Reversed.air {a b : Elem F} (hk : a.Kept) (ha : a.AllAir) (hb : b.AllAir) (h : Reversed a b) : a.flip = (b, .ok ()) := by
  obtain ⟨f, hf, rfl | ⟨hs, k, rfl⟩⟩ := h
  · exact hf
  · cases hs' : a.isSpace with
    | false => rw [flip_isSpaceF hk hs' hf] at hs; cases hs
    | true =>
      obtain ⟨m, rfl, hm⟩ := isSpace_leafF hk hs'
      rw [flip_spaceF hm] at hf
      simp only [Prod.mk.injEq, and_true] at hf
      subst hf
      rw [flip_spaceF hm]
      unfold Elem.setIndices at hb ⊢
      unfold Elem.AllAir at ha hb
      obtain ⟨h1, h2⟩ := ha
      obtain ⟨h3, -⟩ := hb
      simp only at h3
      subst h3
      simp [Mat.flipBase, h1, h2]

theorem flip_groupF {m : Mat F} {c es f} (hk : m.kind = .group) :
    (Elem.group m c es).flip = (f, .ok ()) ↔
    ∃ g', Group.appendFlipped { mat := { m with isFlipped := !m.isFlipped }, cache := c, elems := [] } (es.reverse.map Elem.flip) = (g', .ok ()) ∧
      f = .group g'.mat g'.cache g'.elems := by
  unfold Elem.flip
  dsimp only
  have h1 : (Group.appendFlipped { mat := { m with isFlipped := !m.isFlipped }, cache := c, elems := [] } (flipList es).reverse).1.mat.kind = .group := by
    rw [appendFlipped_kind]; exact hk
  rw [flipList_eq_mapF, ← List.map_reverse] at h1 ⊢
  generalize Group.appendFlipped { mat := { m with isFlipped := !m.isFlipped }, cache := c, elems := [] } (es.reverse.map Elem.flip) = q at h1 ⊢
  obtain ⟨q1, q2⟩ := q
  rw [finishFlip_other (by rw [h1]; simp)]
  simp only [Prod.mk.injEq, Group.toElem]
  constructor
  · rintro ⟨rfl, rfl⟩
    exact ⟨q1, ⟨rfl, rfl⟩, rfl⟩
  · rintro ⟨g', ⟨rfl, rfl⟩, rfl⟩
    exact ⟨rfl, rfl⟩

mutual
/-- in air, a flip that succeeds can be undone -/
theorem flip_back : ∀ {e f : Elem F}, e.Kept → e.Redo → e.AllAir → f.AllAir → e.flip = (f, .ok ()) → f.flip = (e, .ok ())
  | .leaf m, f, hk, _, _, _, h => by
    unfold Elem.Kept at hk
    unfold Elem.flip at h
    simp only [Prod.mk.injEq] at h
    obtain ⟨rfl, h⟩ := h
    have := hk.2.2 m.flip.1 (Prod.ext rfl h)
    unfold Elem.flip
    rw [this]
  | .group m c es, f, hk, hr, ha, hf, h => by
    have hk0 := hk
    unfold Elem.Kept at hk
    unfold Elem.Redo at hr
    unfold Elem.AllAir at ha
    obtain ⟨g1, h1, rfl⟩ := (flip_groupF hk.2.2.2).1 h
    have hk1 : g1.mat.kind = .group := by
      have := appendFlipped_kind { mat := { m with isFlipped := !m.isFlipped }, cache := c, elems := [] } (es.reverse.map Elem.flip)
      rw [h1] at this
      exact this.trans hk.2.2.2
    obtain ⟨bs, h5, h6, -⟩ := first_passF h1
    simp only [List.nil_append] at h5
    unfold Elem.AllAir at hf
    rw [h5] at hf
    have h7 : List.Forall₂ Reversed es bs.reverse := by
      have := List.forall₂_reverse_iff.2 h6
      simpa using this
    have h8 := flipList_back hk.1 hr.1 ha.2.2 (AllAirList_iff.2 fun e he => AllAirList_iff.1 hf.2.2 e (by simpa using he)) h7
    have h9 : ((Elem.group g1.mat g1.cache g1.elems).flip).2 = .ok () := by
      have h10 : Group.appendFlipped { mat := { g1.mat with isFlipped := !g1.mat.isFlipped }, cache := g1.cache, elems := [] }
          (g1.elems.reverse.map Elem.flip) = ({ mat := { g1.mat with isFlipped := !g1.mat.isFlipped }, cache := g1.cache, elems := [] } : Group F).appendAll es := by
        refine appendFlipped_appendAll ?_
        rw [h5, h8]
      have h11 := hr.2 { g1.mat with isFlipped := !g1.mat.isFlipped } g1.cache
      rw [← h10] at h11
      have := (flip_groupF (c := g1.cache) (es := g1.elems) hk1).2 ⟨_, Prod.ext rfl h11, rfl⟩
      rw [this]
    have h12 := hk0.back _ ((Elem.group g1.mat g1.cache g1.elems).flip).1 h (Prod.ext rfl h9)
    exact Prod.ext h12 h9
theorem flipList_back : ∀ {es bs : List (Elem F)}, KeptList es → RedoList es → AllAirList es → AllAirList bs → List.Forall₂ Reversed es bs →
    bs.map Elem.flip = es.map (fun e => (e, .ok ()))
  | _, _, _, _, _, _, .nil => rfl
  | e :: es, b :: bs, hk, hr, ha, hb, .cons h hs => by
    unfold KeptList at hk
    unfold RedoList at hr
    unfold AllAirList at ha hb
    have h1 := h.air hk.1 ha.1 hb.1
    rw [List.map_cons, List.map_cons, flip_back hk.1 hr.1 ha.1 hb.1 h1, flipList_back hk.2 hr.2 ha.2 hb.2 hs]
end

end

instance {K : Type} [Field K] [LinearOrder K] [IsStrictOrderedRing K] {rnd : K → K} : FlipLaws (Fl K rnd) where
  neg_neg x := by
    obtain ⟨x⟩ := x
    show (⟨x.neg.neg⟩ : Fl K rnd) = ⟨x⟩
    cases x <;> simp [Ext.neg]
  eq_of {x y} h := by
    obtain ⟨x⟩ := x; obtain ⟨y⟩ := y
    exact congrArg Fl.mk (ne_false_eq (x := x) (y := y) h)

instance : FlipLaws B64 where
  neg_neg x := by
    obtain ⟨x⟩ := x
    show (⟨x.neg.neg⟩ : B64) = ⟨x⟩
    cases x <;> simp [Ext.neg]
  eq_of {x y} h := by
    obtain ⟨x⟩ := x; obtain ⟨y⟩ := y
    exact congrArg B64.mk (ne_false_eq (x := x) (y := y) h)

/-- **C121.** In Python floats, with their overflows and underflows, and for every program whatever its parameters and nesting: when neither of two flips
raises an error, the second gives back the system itself, with every attribute of every element to the last bit. -/
theorem C121_restored {p : Part ℚ} {e e' e'' : Elem B64} (hb : p.build64 = .ok e) (h1 : e.flip = (e', .ok ()))
    (h2 : e'.flip = (e'', .ok ())) : e'' = e :=
  (buildWith_kept B64.num B64.opt hb).back e' e'' h1 h2

/-- **C121**, for any rounding. -/
theorem C121_rounded {K : Type} [Field K] [LinearOrder K] [IsStrictOrderedRing K] {rnd : K → K} {p : Part K} {e e' e'' : Elem (Fl K rnd)}
    (hb : p.buildR rnd = .ok e) (h1 : e.flip = (e', .ok ())) (h2 : e'.flip = (e'', .ok ())) : e'' = e :=
  (buildWith_kept Fl.num Fl.optNum hb).back e' e'' h1 h2

/-- **C121** for a single element, which can always be flipped back -/
theorem C121_single {p : Part ℚ} {m m' : Mat B64} (hb : p.build64 = .ok (.leaf m)) (h1 : m.flip = (m', .ok ())) : m'.flip = (m, .ok ()) := by
  have := buildWith_kept B64.num B64.opt hb
  unfold Elem.Kept at this
  exact this.2.2 m' h1

/-- **C121** for systems of any nesting in air: when the first flip raises no error the second raises none either, and gives back the system. The errors of
rounding cannot make a system impossible to turn back. -/
theorem C121_again {p : Part ℚ} {e e' : Elem B64} (hb : p.build64 = .ok e) (ha : e.AllAir) (h1 : e.flip = (e', .ok ())) (ha' : e'.AllAir) :
    e'.flip = (e, .ok ()) :=
  flip_back (buildWith_kept B64.num B64.opt hb) (buildWith_redo B64.num B64.opt hb) ha ha' h1

/-- two flips in Python floats: what each of them raises, the number of elements left after the first, and whether the system is changed by the first and
restored by the second -/
def twoFlips64 (p : Part ℚ) : Option (Except PyErr Unit × Nat × Except PyErr Unit × Bool) :=
  match p.build64 with
  | .ok e => some (e.flip.2, (match e.flip.1 with | .group _ _ es => es.length | .leaf _ => 1), e.flip.1.flip.2, decide (e.flip.1.flip.1.mat = e.mat) && !decide (e.flip.1.mat = e.mat))
  | .error _ => none

/-- an object in air with a thick lens, a mirror and a group inside -/
def airTrain : Part ℚ := .group "train" [.space 10 1 none, .lens 50 (some 25), .group "inner" [.thickLens (3/2) (some 60) (some (-70)) 5 none, .space 30 1 none],
  .mirror 200 none, .space 7 1 none]

mutual
/-- the index can be looked at -/
def Elem.decAllAir : (e : Elem B64) → Decidable e.AllAir
  | .leaf m => by unfold Elem.AllAir; infer_instance
  | .group m c es => by
    unfold Elem.AllAir
    haveI := decAllAirList es
    infer_instance
/-- of each -/
def decAllAirList : (es : List (Elem B64)) → Decidable (AllAirList es)
  | [] => .isTrue trivial
  | e :: es => by
    unfold AllAirList
    haveI := e.decAllAir
    haveI := decAllAirList es
    infer_instance
end

instance (e : Elem B64) : Decidable e.AllAir := e.decAllAir

/-- whether a system and the flipped one are in air -/
def airTwice (p : Part ℚ) : Bool :=
  match p.build64 with
  | .ok e => decide e.AllAir && decide e.flip.1.AllAir
  | .error _ => false

/-- the hypotheses of `C121_again` are met, and the first flip changes the matrix -/
theorem C121_example : airTwice airTrain = true ∧ twoFlips64 airTrain = some (.ok (), 5, .ok (), true) := by
  constructor <;> decide +kernel

/-- a system with interfaces, a mirror and a generic matrix in glass: the hypotheses of `C121_restored` are met -/
theorem C121_example_media : twoFlips64 mixedSample = some (.ok (), 5, .ok (), true) := by decide +kernel

/-- two lenses and three spaces, with large products -/
def longTrain : Part ℚ := .group "" [.space 100 1 none, .lens 3 none, .space 1000 1 none, .lens (1/64) none, .space 1000 1 none]

/-- **C121** fails when the flip itself fails: a system in air that Python accepts may be refused once flipped, because the determinant of a product is tested
with its errors of rounding. The group is then left with four of its five elements. With exact numbers the system is flipped and flipped back. -/
theorem C121_violated : airTwice longTrain = true ∧ (twoFlips64 longTrain).map (fun r => (r.1, r.2.1)) = some (.error .valueError, 4) ∧
    (twoFlips longTrain) = some (.ok (), .ok (), true) := by
  refine ⟨?_, ?_, ?_⟩ <;> decide +kernel

end RT
