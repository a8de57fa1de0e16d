import Verif.Props.FlipTwice
import Verif.Props.Rounded
import Verif.Model.Binary64

/-! # Flipping twice with any numbers

The argument of `Props/FlipTwice.lean` for any numbers in which changing a sign twice changes nothing and `==` tells numbers apart: exact numbers, rounded
numbers, Python floats with overflow. No other law of arithmetic is used. -/

set_option linter.unusedSectionVars false

namespace RT
open PyNum

/-- what flipping twice needs from the numbers -/
class FlipLaws (F : Type) [PyNum F] : Prop where
  neg_neg : ∀ x : F, - -x = x
  eq_of : ∀ {x y : F}, (x !=. y) = false → x = y

variable {F : Type} [PyNum F] [FlipLaws F]

/-- the back index of each element is the front index of the next -/
def Touch (a b : Elem F) : Prop := a.mat.backIndex = b.mat.frontIndex

theorem append_touch {g : Group F} (e : Elem F) (h : g.elems.IsChain Touch) :
    (g.append e).1.elems.IsChain Touch := by
  rcases g.append_cases e with ⟨h', -⟩ | ⟨e', h', -, hl⟩
  · rw [h']; exact h
  · rw [h', Group.push_elems]
    refine List.IsChain.append h (by simp) ?_
    intro x hx y hy
    simp only [List.head?_cons, Option.mem_def, Option.some.injEq] at hy
    subst hy
    rcases hl x hx with ⟨rfl, h2⟩ | ⟨-, rfl⟩
    · exact FlipLaws.eq_of h2
    · exact (Elem.setIndices_front _ _).symm

theorem appendAll_touch {g : Group F} (es : List (Elem F)) (h : g.elems.IsChain Touch) :
    (g.appendAll es).1.elems.IsChain Touch := by
  induction es generalizing g with
  | nil => exact h
  | cons e es ih =>
    have := append_touch e h
    unfold Group.appendAll
    split
    · next g1 heq => rw [heq] at this; exact ih this
    · next g1 x heq => rw [heq] at this; exact this

theorem appendFlipped_touch {g : Group F} (es : List (Elem F × Except PyErr Unit))
    (h : g.elems.IsChain Touch) : (g.appendFlipped es).1.elems.IsChain Touch := by
  induction es generalizing g with
  | nil => exact h
  | cons p es ih =>
    obtain ⟨e, r⟩ := p
    cases r with
    | error x => exact h
    | ok u =>
      have := append_touch e h
      unfold Group.appendFlipped
      split
      · next g1 heq => rw [heq] at this; exact ih this
      · next g1 x heq => rw [heq] at this; exact this

mutual
/-- a tree made by a program: its headers are up to date, neighbours match, its leaves come back when flipped twice -/
def Elem.Kept : Elem F → Prop
  | .leaf m => (m.kind = .space → m.frontIndex = m.backIndex) ∧ m.kind ≠ .group ∧ ∀ m', m.flip = (m', .ok ()) → m'.flip = (m, .ok ())
  | .group m c es => KeptList es ∧ (⟨m, c, es⟩ : Group F).Fresh ∧ es.IsChain Touch ∧ m.kind = .group
/-- every element is -/
def KeptList : List (Elem F) → Prop
  | [] => True
  | e :: es => e.Kept ∧ KeptList es
end

theorem KeptList_iff {es : List (Elem F)} : KeptList es ↔ ∀ e ∈ es, e.Kept := by
  induction es with
  | nil => simp [KeptList]
  | cons e es ih => simp [KeptList, ih]

theorem isSpace_iffF {e : Elem F} : e.isSpace = true ↔ e.mat.kind = .space := by
  unfold Elem.isSpace
  cases e.mat.kind <;> simp

theorem isSpace_leafF {e : Elem F} (h : e.Kept) (hs : e.isSpace = true) : ∃ m, e = .leaf m ∧ m.kind = .space := by
  cases e with
  | leaf m => exact ⟨m, rfl, isSpace_iffF.1 hs⟩
  | group m c es =>
    unfold Elem.Kept at h
    have := isSpace_iffF.1 hs
    simp only [Elem.mat] at this
    rw [h.2.2.2] at this
    simp at this

theorem flip_spaceF {m : Mat F} (h : m.kind = .space) : (Elem.leaf m).flip = (.leaf m.flipBase, .ok ()) := by
  unfold Elem.flip Mat.flip
  rw [h]

theorem Kept.space_index {m : Mat F} (h : (Elem.leaf m).Kept) (hk : m.kind = .space) : m.frontIndex = m.backIndex := by
  unfold Elem.Kept at h
  exact h.1 hk

theorem setIndices_selfF {m : Mat F} (h : (Elem.leaf m).Kept) (hk : m.kind = .space) :
    (Elem.leaf m).setIndices m.frontIndex = .leaf m := by
  have := Kept.space_index h hk
  unfold Elem.setIndices
  cases m
  simp_all

theorem Elem.setIndices_backF {e : Elem F} {n : F} : (e.setIndices n).mat.backIndex = n := by cases e <;> rfl

theorem Elem.setIndices_twiceF {e : Elem F} {n n' : F} : (e.setIndices n).setIndices n' = e.setIndices n' := by cases e <;> rfl

/-- what one flip of a group does to each of its elements: it is flipped, and a space may get another index -/
def Reversed (a b : Elem F) : Prop :=
  ∃ f, a.flip = (f, .ok ()) ∧ (b = f ∨ f.isSpace = true ∧ ∃ k, b = f.setIndices k)

theorem flip_isSpaceF {e f : Elem F} (h : e.Kept) (hs : e.isSpace = false) (hf : e.flip = (f, .ok ())) : f.isSpace = false := by
  have hk : e.mat.kind ≠ .space := fun hk => by simp [isSpace_iffF.2 hk] at hs
  have hk' : f.mat.kind ≠ .space := by
    cases e with
    | leaf m =>
      unfold Elem.flip at hf
      simp only [Prod.mk.injEq] at hf
      rw [← hf.1]
      simp only [Elem.mat] at hk ⊢
      unfold Mat.flip
      split
      · next hm => simp [Mat.flipBase, hm]
      · dsimp only
        split
        · simp
        · split <;> simp
      · unfold Mat.flip.flipThick
        dsimp only
        repeat' split
        all_goals simp
      · unfold Mat.flip.flipThick
        dsimp only
        repeat' split
        all_goals simp
      · exact hk
    | group m c es =>
      unfold Elem.Kept at h
      unfold Elem.flip at hf
      simp only [Prod.mk.injEq] at hf
      rw [← hf.1]
      have h1 : (Group.appendFlipped { mat := { m with isFlipped := !m.isFlipped }, cache := c, elems := [] } (flipList es).reverse).1.mat.kind = .group := by
        rw [appendFlipped_kind]; exact h.2.2.2
      have h2 : (Group.finishFlip (Group.appendFlipped { mat := { m with isFlipped := !m.isFlipped }, cache := c, elems := [] } (flipList es).reverse)).1.mat.kind
          = .group := by
        generalize Group.appendFlipped { mat := { m with isFlipped := !m.isFlipped }, cache := c, elems := [] } (flipList es).reverse = q at h1
        obtain ⟨q1, q2⟩ := q
        rw [finishFlip_other (by rw [h1]; simp)]
        exact h1
      simp only [Group.toElem, Elem.mat]
      rw [h2]; simp
  cases hx : f.isSpace with
  | false => rfl
  | true => exact absurd (isSpace_iffF.1 hx) hk'

/-- two flips of an element give it back -/
def Elem.Restored (e : Elem F) : Prop := ∀ f f', e.flip = (f, .ok ()) → f.flip = (f', .ok ()) → f' = e

theorem Reversed.back {a b c : Elem F} (h : a.Kept) (hb : a.Restored) (ht : Reversed a b) (hc : b.flip = (c, .ok ())) :
    (a.isSpace = false ∧ c = a) ∨
    (a.isSpace = true ∧ ∃ k, b.mat.frontIndex = k ∧ b.mat.backIndex = k ∧ c = a.setIndices k) := by
  obtain ⟨f, hf, hbf⟩ := ht
  cases hs : a.isSpace with
  | false =>
    left
    rcases hbf with rfl | ⟨h1, -⟩
    · exact ⟨rfl, hb _ _ hf hc⟩
    · rw [flip_isSpaceF h hs hf] at h1; simp at h1
  | true =>
    right
    obtain ⟨m, rfl, hk⟩ := isSpace_leafF h hs
    have hi := Kept.space_index h hk
    rw [flip_spaceF hk] at hf
    simp only [Prod.mk.injEq, and_true] at hf
    subst hf
    refine ⟨rfl, ?_⟩
    rcases hbf with rfl | ⟨-, k, rfl⟩
    · refine ⟨m.frontIndex, ?_, rfl, ?_⟩
      · simp only [Elem.mat, Mat.flipBase]; exact hi.symm
      · rw [setIndices_selfF h hk]; exact hb _ _ (flip_spaceF hk) hc
    · refine ⟨k, Elem.setIndices_front _ _, Elem.setIndices_backF, ?_⟩
      unfold Elem.setIndices at hc
      rw [flip_spaceF (by simpa [Mat.flipBase] using hk)] at hc
      simp only [Prod.mk.injEq, and_true] at hc
      rw [← hc]
      unfold Elem.setIndices
      simp [Mat.flipBase]

theorem push_ok_eqF {g g' : Group F} {e : Elem F} (h : g.push e = (g', .ok ())) :
    ∃ t, transferMatrixList (g.elems ++ [e]) inf Mat.one = .ok t ∧ g' = ⟨g.mat.refresh t, g.cache, g.elems ++ [e]⟩ := by
  unfold Group.push at h
  dsimp only at h
  split at h
  · simp at h
  · next t ht =>
    simp only [Prod.mk.injEq, and_true] at h
    exact ⟨t, ht, h.symm⟩

theorem append_okF {g g' : Group F} {e : Elem F} (h : g.append e = (g', .ok ())) :
    ∃ e' t, transferMatrixList (g.elems ++ [e']) inf Mat.one = .ok t ∧ g' = ⟨g.mat.refresh t, g.cache, g.elems ++ [e']⟩ ∧
      (g.elems = [] ∧ e' = e ∨ ∃ last, g.elems.getLast? = some last ∧
        (e' = e ∧ (last.mat.backIndex !=. e.mat.frontIndex) = false ∨ e.isSpace = true ∧ e' = e.setIndices last.mat.backIndex)) := by
  unfold Group.append at h
  cases hl : g.elems.getLast? with
  | none =>
    simp only [hl] at h
    obtain ⟨t, h1, h2⟩ := push_ok_eqF h
    exact ⟨e, t, h1, h2, .inl ⟨by simpa using hl, rfl⟩⟩
  | some last =>
    simp only [hl] at h
    cases hx : last.mat.backIndex !=. e.mat.frontIndex with
    | false =>
      simp only [hx, Bool.false_eq_true, if_false] at h
      obtain ⟨t, h1, h2⟩ := push_ok_eqF h
      exact ⟨e, t, h1, h2, .inr ⟨last, rfl, .inl ⟨rfl, hx⟩⟩⟩
    | true =>
      simp only [hx, if_true] at h
      cases hs : e.isSpace with
      | false => simp [hs] at h
      | true =>
        simp only [hs, if_true] at h
        obtain ⟨t, h1, h2⟩ := push_ok_eqF h
        exact ⟨_, t, h1, h2, .inr ⟨last, rfl, .inr ⟨rfl, rfl⟩⟩⟩

theorem appendFlipped_cons_okF {g g' : Group F} {p : Elem F × Except PyErr Unit} {ps}
    (h : g.appendFlipped (p :: ps) = (g', .ok ())) :
    ∃ e g1, p = (e, .ok ()) ∧ g.append e = (g1, .ok ()) ∧ g1.appendFlipped ps = (g', .ok ()) := by
  obtain ⟨e, r⟩ := p
  cases r with
  | error x => simp [Group.appendFlipped] at h
  | ok u =>
    unfold Group.appendFlipped at h
    split at h
    · next g1 heq => exact ⟨e, g1, rfl, heq, h⟩
    · simp at h

theorem Mat.refresh_refreshF (m t t' : Mat F) : (m.refresh t).refresh t' = m.refresh t' := rfl

/-- the header after appending -/
theorem appendFlipped_headerF {ps : List (Elem F × Except PyErr Unit)} {g g' : Group F} (h : g.appendFlipped ps = (g', .ok ())) :
    (ps = [] ∧ g' = g) ∨ ∃ t, transferMatrixList g'.elems inf Mat.one = .ok t ∧ g'.mat = g.mat.refresh t ∧ g'.cache = g.cache := by
  induction ps generalizing g with
  | nil =>
    simp only [Group.appendFlipped, Prod.mk.injEq, and_true] at h
    exact .inl ⟨rfl, h.symm⟩
  | cons p ps ih =>
    right
    obtain ⟨e, g1, rfl, h1, h2⟩ := appendFlipped_cons_okF h
    obtain ⟨e', t, h3, rfl, -⟩ := append_okF h1
    rcases ih h2 with ⟨-, rfl⟩ | ⟨t', h4, h5, h6⟩
    · exact ⟨t, h3, rfl, rfl⟩
    · exact ⟨t', h4, by rw [h5]; rfl, h6⟩

/-- the first flip, as a relation between the elements before and after -/
theorem first_passF : ∀ {as : List (Elem F)} {g g' : Group F}, g.appendFlipped (as.map Elem.flip) = (g', .ok ()) →
    ∃ bs, g'.elems = g.elems ++ bs ∧ List.Forall₂ Reversed as bs ∧
      (g.elems = [] → ∀ a ∈ as.head?, ∀ b ∈ bs.head?, a.flip = (b, .ok ()))
  | [], g, g', h => by
    simp only [List.map_nil, Group.appendFlipped, Prod.mk.injEq, and_true] at h
    exact ⟨[], by simp [h], .nil, by simp⟩
  | a :: as, g, g', h => by
    obtain ⟨f, g1, h1, h2, h3⟩ := appendFlipped_cons_okF (p := a.flip) h
    obtain ⟨f', t, -, rfl, h4⟩ := append_okF h2
    obtain ⟨bs, h5, h6, -⟩ := first_passF h3
    refine ⟨f' :: bs, by rw [h5]; simp, .cons ⟨f, h1, ?_⟩ h6, ?_⟩
    · rcases h4 with ⟨-, rfl⟩ | ⟨last, -, ⟨rfl, -⟩ | ⟨hs, rfl⟩⟩
      · exact .inl rfl
      · exact .inl rfl
      · exact .inr ⟨hs, _, rfl⟩
    · intro hg a' ha' b hb
      simp only [List.head?_cons, Option.mem_def, Option.some.injEq] at ha' hb
      subst ha' hb
      rcases h4 with ⟨-, rfl⟩ | ⟨last, hl, -⟩
      · exact h1
      · simp [hg] at hl

/-- the second flip, when it starts well -/
theorem second_passF : ∀ {as bs : List (Elem F)} {g g' : Group F}, List.Forall₂ Reversed as bs → (∀ a ∈ as, a.Kept ∧ a.Restored) →
    (g.elems ++ as).IsChain Touch → g.elems ≠ [] → g.appendFlipped (bs.map Elem.flip) = (g', .ok ()) → g'.elems = g.elems ++ as
  | _, _, g, g', .nil, _, _, _, h => by
    simp only [List.map_nil, Group.appendFlipped, Prod.mk.injEq, and_true] at h
    simp [h]
  | a :: as, b :: bs, g, g', .cons ht hts, hm, hc, hne, h => by
    obtain ⟨c, g1, h1, h2, h3⟩ := appendFlipped_cons_okF (p := b.flip) h
    obtain ⟨c', t, -, rfl, h4⟩ := append_okF h2
    obtain ⟨hma, hba⟩ := hm a (by simp)
    have hc' : c' = a := by
      rcases h4 with ⟨h5, -⟩ | ⟨last, hl, h5⟩
      · exact absurd h5 hne
      · have hadj : last.mat.backIndex = a.mat.frontIndex := (List.isChain_append.1 hc).2.2 last hl a (by simp)
        rcases ht.back hma hba h1 with ⟨hs, rfl⟩ | ⟨hs, k, -, -, rfl⟩
        · rcases h5 with ⟨rfl, -⟩ | ⟨h6, -⟩
          · rfl
          · rw [hs] at h6; simp at h6
        · obtain ⟨m, rfl, hk⟩ := isSpace_leafF hma hs
          rcases h5 with ⟨rfl, h6⟩ | ⟨-, rfl⟩
          · rw [Elem.setIndices_front] at h6
            rw [← FlipLaws.eq_of h6, hadj]
            exact setIndices_selfF hma hk
          · rw [Elem.setIndices_twiceF, hadj]
            exact setIndices_selfF hma hk
    subst hc'
    have := second_passF (g := ⟨g.mat.refresh t, g.cache, g.elems ++ [c']⟩) hts (fun a ha => hm a (by simp [ha])) (by simpa using hc) (by simp) h3
    rw [this]; simp

/-- the second flip cannot succeed when a space at the start of the group has kept the index it was given by the first flip -/
theorem second_pass_badF {as : List (Elem F)} : ∀ {bs : List (Elem F)} {a b : Elem F} {g g' : Group F} {k p : F},
    Reversed a b → List.Forall₂ Reversed as bs → (∀ x ∈ as, x.Kept ∧ x.Restored) → (a :: as).IsChain Touch →
    (b :: bs).IsChain (fun x y => Touch y x) → (∀ x ∈ (a :: as).getLast?, ∀ y ∈ (b :: bs).getLast?, x.flip = (y, .ok ())) →
    a.Kept → a.isSpace = true → a.mat.backIndex = p → b.mat.frontIndex = k → k ≠ p →
    (∀ last, g.elems.getLast? = some last → last.mat.backIndex = k) → g.elems ≠ [] →
    g.appendFlipped (bs.map Elem.flip) = (g', .ok ()) → False := by
  induction as with
  | nil =>
    intro bs a b g g' k p ht hts _ _ _ hl hma hs hap hbk hkp _ _ _
    cases hts
    obtain ⟨m, rfl, hk⟩ := isSpace_leafF hma hs
    have h1 : (Elem.leaf m).flip = (b, .ok ()) := hl _ rfl _ rfl
    rw [flip_spaceF hk] at h1
    simp only [Prod.mk.injEq, and_true] at h1
    subst h1
    exact hkp (hbk.symm.trans hap)
  | cons a' as ih =>
    intro bs a b g g' k p ht hts hm hc hd hl hma hs hap hbk hkp hg hgne h
    cases hts with
    | @cons _ b' _ bs ht' hts =>
    obtain ⟨c, g1, h1, h2, h3⟩ := appendFlipped_cons_okF (p := b'.flip) h
    obtain ⟨c', t, -, rfl, h4⟩ := append_okF h2
    obtain ⟨hma', hba'⟩ := hm a' (by simp)
    have hadj : a'.mat.frontIndex = p := by
      have : Touch a a' := hc.rel
      rw [← this]; exact hap
    have hadj' : b'.mat.backIndex = k := by
      have : Touch b' b := hd.rel
      rw [this]; exact hbk
    rcases h4 with ⟨h5, -⟩ | ⟨last, hlast, h5⟩
    · exact hgne h5
    have hk := hg last hlast
    rcases ht'.back hma' hba' h1 with ⟨hs', rfl⟩ | ⟨hs', k', hk1, hk2, rfl⟩
    · rcases h5 with ⟨-, h6⟩ | ⟨h6, -⟩
      · exact hkp (by rw [← hk, ← hadj]; exact FlipLaws.eq_of h6)
      · rw [hs'] at h6; simp at h6
    · obtain rfl : k' = k := hk2.symm.trans hadj'
      have hc' : c' = a'.setIndices k' := by
        rcases h5 with ⟨rfl, -⟩ | ⟨-, rfl⟩
        · rfl
        · rw [Elem.setIndices_twiceF, hk]
      subst hc'
      obtain ⟨m', rfl, hkd⟩ := isSpace_leafF hma' hs'
      refine ih (p := p) ht' hts (fun x hx => hm x (by simp [hx])) hc.tail hd.tail ?_ hma' hs' ?_ hk1 hkp ?_ (by simp) h3
      · intro x hx y hy
        exact hl x (by rw [List.getLast?_cons_cons]; exact hx) y (by rw [List.getLast?_cons_cons]; exact hy)
      · rw [← hadj]; exact (Kept.space_index hma' hkd).symm
      · intro last hl
        simp only [List.getLast?_append, List.getLast?_singleton, Option.some_or, Option.some.injEq] at hl
        rw [← hl]; exact Elem.setIndices_backF

theorem flipList_eq_mapF (es : List (Elem F)) : flipList es = es.map Elem.flip := by
  induction es with
  | nil => rfl
  | cons e es ih => simp [flipList, ih]

mutual
/-- made trees come back -/
theorem Elem.Kept.back : ∀ {e : Elem F}, e.Kept → e.Restored
  | .leaf m, h => by
    intro f f' h1 h2
    unfold Elem.Kept at h
    unfold Elem.flip at h1
    simp only [Prod.mk.injEq] at h1
    obtain ⟨rfl, h1⟩ := h1
    have h3 := h.2.2 m.flip.1 (Prod.ext rfl h1)
    unfold Elem.flip at h2
    rw [h3] at h2
    simp only [Prod.mk.injEq, and_true] at h2
    exact h2.symm
  | .group m c es, h => by
    intro f f' h1 h2
    have hmade := h
    unfold Elem.Kept at h
    obtain ⟨hm, hf, hc, hk⟩ := h
    have hb := KeptList.back hm
    have hgrp : ∀ {m : Mat F} {c es f}, m.kind = .group → (Elem.group m c es).flip = (f, .ok ()) →
        ∃ g', Group.appendFlipped { mat := { m with isFlipped := !m.isFlipped }, cache := c, elems := [] } (es.reverse.map Elem.flip) = (g', .ok ()) ∧
          f = .group g'.mat g'.cache g'.elems := by
      intro m c es f hk h
      unfold Elem.flip at h
      dsimp only at h
      have h1 : (Group.appendFlipped { mat := { m with isFlipped := !m.isFlipped }, cache := c, elems := [] } (flipList es).reverse).1.mat.kind = .group := by
        rw [appendFlipped_kind]; exact hk
      rw [flipList_eq_mapF, ← List.map_reverse] at h1 h
      generalize Group.appendFlipped { mat := { m with isFlipped := !m.isFlipped }, cache := c, elems := [] } (es.reverse.map Elem.flip) = q at h h1
      obtain ⟨q1, q2⟩ := q
      rw [finishFlip_other (by rw [h1]; simp)] at h
      simp only [Prod.mk.injEq] at h
      exact ⟨q1, by rw [h.2], h.1.symm⟩
    obtain ⟨g1, h3, rfl⟩ := hgrp hk h1
    have hk1 : g1.mat.kind = .group := by
      have := appendFlipped_kind { mat := { m with isFlipped := !m.isFlipped }, cache := c, elems := [] } (es.reverse.map Elem.flip)
      rw [h3] at this
      exact this.trans hk
    obtain ⟨g2, h4, rfl⟩ := hgrp hk1 h2
    obtain ⟨bs, h5, h6, h7⟩ := first_passF h3
    have hchain : bs.IsChain Touch := by
      have := appendFlipped_touch (g := { mat := { m with isFlipped := !m.isFlipped }, cache := c, elems := [] }) (es.reverse.map Elem.flip) (by simp)
      rw [h3] at this
      simpa [h5] using this
    simp only [List.nil_append] at h5
    have h6' : List.Forall₂ Reversed es bs.reverse := by
      have := List.forall₂_reverse_iff.2 h6
      simpa using this
    have hrev : bs.reverse.IsChain fun x y => Touch y x := List.isChain_reverse.2 hchain
    have hlast : ∀ x ∈ es.getLast?, ∀ y ∈ bs.reverse.getLast?, x.flip = (y, .ok ()) := by
      intro x hx y hy
      exact h7 rfl x (by simpa using hx) y (by simpa using hy)
    rw [h5] at h4
    have helems : g2.elems = es := by
      generalize bs.reverse = cs at h4 h6' hrev hlast
      cases h6' with
      | nil =>
        simp only [List.map_nil, Group.appendFlipped, Prod.mk.injEq, and_true] at h4
        rw [← h4]
      | @cons a b as cs ht hts =>
        obtain ⟨c1, g3, h8, h9, h10⟩ := appendFlipped_cons_okF (p := b.flip) h4
        obtain ⟨c2, t, -, rfl, h11⟩ := append_okF h9
        simp only [List.getLast?_nil, reduceCtorEq, false_and, exists_false, or_false, true_and] at h11
        subst h11
        obtain ⟨hma, hba⟩ := hb a (by simp)
        have good : c2 = a → g2.elems = a :: as := by
          rintro rfl
          have := second_passF hts (fun x hx => hb x (by simp [hx])) (by simpa using hc) (by simp) h10
          simpa using this
        rcases ht.back hma hba h8 with ⟨-, h12⟩ | ⟨hs, k, hk1, hk2, rfl⟩
        · exact good h12
        · obtain ⟨m', rfl, hkd⟩ := isSpace_leafF hma hs
          by_cases hkp : k = m'.backIndex
          · refine good ?_
            rw [hkp, ← Kept.space_index hma hkd]
            exact setIndices_selfF hma hkd
          · exfalso
            refine second_pass_badF ht hts (fun x hx => hb x (by simp [hx])) hc hrev hlast hma hs rfl hk1 hkp ?_ (by simp) h10
            intro last hl
            simp only [List.nil_append, List.getLast?_singleton, Option.some.injEq] at hl
            rw [← hl]; exact Elem.setIndices_backF
    obtain ⟨t0, ht0, hm0⟩ := hf
    dsimp only at ht0 hm0
    rcases appendFlipped_headerF h3 with ⟨h8, rfl⟩ | ⟨t1, -, h9, h10⟩
    · have he : es = [] := by simpa using h8
      subst he
      simp only at h5
      subst h5
      simp only [List.reverse_nil, List.map_nil, Group.appendFlipped, Prod.mk.injEq, and_true] at h4
      rw [← h4]
      simp
    · rcases appendFlipped_headerF h4 with ⟨h8, rfl⟩ | ⟨t2, h11, h12, h13⟩
      · simp only at helems
        subst helems
        cases h6
        simp only [List.reverse_nil, List.map_nil, Group.appendFlipped, Prod.mk.injEq, and_true] at h3
        rw [← h3]
        simp
      · rw [helems, ht0] at h11
        cases h11
        rw [helems, h12, h13]
        simp only [h9, h10]
        congr 1
        conv_rhs => rw [hm0]
        simp [Mat.refresh]
theorem KeptList.back : ∀ {es : List (Elem F)}, KeptList es → ∀ e ∈ es, e.Kept ∧ e.Restored
  | [], _ => by simp
  | e :: es, h => by
    unfold KeptList at h
    intro x hx
    rcases List.mem_cons.1 hx with heq | hx
    · rw [heq]; exact ⟨h.1, Elem.Kept.back h.1⟩
    · exact KeptList.back h.2 x hx
end

theorem append_keptF {g g' : Group F} {e : Elem F} (hg : KeptList g.elems) (he : e.Kept)
    (h : g.append e = (g', .ok ())) : KeptList g'.elems := by
  obtain ⟨e', t, -, rfl, h1⟩ := append_okF h
  rw [KeptList_iff] at hg ⊢
  intro x hx
  rcases List.mem_append.1 hx with hx | hx
  · exact hg x hx
  · rw [List.mem_singleton] at hx
    subst hx
    rcases h1 with ⟨-, rfl⟩ | ⟨last, hl, ⟨rfl, -⟩ | ⟨hs, rfl⟩⟩
    · exact he
    · exact he
    · obtain ⟨m, rfl, hk⟩ := isSpace_leafF he hs
      unfold Elem.setIndices Elem.Kept
      refine ⟨fun _ => rfl, by simp [hk], ?_⟩
      intro m' hm'
      have e1 : ∀ m : Mat F, m.kind = .space → m.flip = (m.flipBase, .ok ()) := by
        intro m hk; unfold Mat.flip; rw [hk]
      rw [e1 _ (by simpa using hk)] at hm'
      simp only [Prod.mk.injEq, and_true] at hm'
      subst hm'
      rw [e1 _ (by simpa [Mat.flipBase] using hk)]
      simp [Mat.flipBase]

theorem appendAll_kept {g g' : Group F} {es : List (Elem F)} (hg : KeptList g.elems)
    (he : KeptList es) (h : g.appendAll es = (g', .ok ())) : KeptList g'.elems := by
  induction es generalizing g with
  | nil => simp only [Group.appendAll, Prod.mk.injEq, and_true] at h; subst h; exact hg
  | cons e es ih =>
    obtain ⟨g1, h1, h2⟩ := Group.appendAll_cons_ok h
    unfold KeptList at he
    exact ih (append_keptF hg he.1 h1) he.2 h2

theorem flipBase_twice (m : Mat F) : m.flipBase.flipBase = m := by simp [Mat.flipBase]

/-- elements without parameters to recompute -/
theorem kept_plain {m : Mat F} (h : ∀ n : Mat F, n.kind = m.kind → n.flip = (n.flipBase, .ok ())) (hg : m.kind ≠ .group)
    (hs : m.kind = .space → m.frontIndex = m.backIndex) : (Elem.leaf m).Kept := by
  unfold Elem.Kept
  refine ⟨hs, hg, ?_⟩
  intro m' hm'
  rw [h m rfl] at hm'
  simp only [Prod.mk.injEq, and_true] at hm'
  subst hm'
  rw [h m.flipBase rfl, flipBase_twice]

theorem kept_mirror {m : Mat F} (hk : m.kind = .curvedMirror) : (Elem.leaf m).Kept := by
  unfold Elem.Kept
  refine ⟨by simp [hk], by simp [hk], ?_⟩
  intro m' hm'
  unfold Mat.flip at hm' ⊢
  rw [hk] at hm'
  simp only [Prod.mk.injEq, and_true] at hm'
  subst hm'
  simp [Mat.flipBase, hk, FlipLaws.neg_neg]
  cases m; simp_all

theorem kept_interface {m : Mat F} {n1 n2 R : F} (hk : m.kind = .dielectric n1 n2 R) (hc : dielectricC n1 n2 R = .ok m.C)
    (hd : pyDiv n1 n2 = .ok m.D) : (Elem.leaf m).Kept := by
  unfold Elem.Kept
  refine ⟨by simp [hk], by simp [hk], ?_⟩
  intro m' hm'
  unfold Mat.flip at hm'
  rw [hk] at hm'
  dsimp only at hm'
  split at hm'
  · simp at hm'
  · split at hm'
    · simp at hm'
    · simp only [Prod.mk.injEq, and_true] at hm'
      subst hm'
      unfold Mat.flip
      simp only [FlipLaws.neg_neg, hc, hd, Mat.flipBase]
      cases m; simp_all

theorem flipThick_ok {k : Kind F} {m m' : Mat F} {n R1 R2 : F} (h : Mat.flip.flipThick k m n R1 R2 = (m', .ok ())) :
    ∃ a b c d, thickA n R1 m.L = .ok a ∧ thickB n m.L = .ok b ∧ thickC n R1 R2 m.L = .ok c ∧ thickD n R2 m.L = .ok d ∧
      m' = { m with kind := k, A := a, B := b, C := c, D := d } := by
  unfold Mat.flip.flipThick at h
  dsimp only at h
  split at h
  · simp at h
  · next a ha =>
    split at h
    · simp at h
    · next b hb =>
      split at h
      · simp at h
      · next c hc =>
        split at h
        · simp at h
        · next d hd =>
          simp only [Prod.mk.injEq, and_true] at h
          exact ⟨a, b, c, d, ha, hb, hc, hd, h.symm⟩

theorem flipThick_of {k : Kind F} {m : Mat F} {n R1 R2 a b c d : F} (ha : thickA n R1 m.L = .ok a) (hb : thickB n m.L = .ok b)
    (hc : thickC n R1 R2 m.L = .ok c) (hd : thickD n R2 m.L = .ok d) :
    Mat.flip.flipThick k m n R1 R2 = ({ m with kind := k, A := a, B := b, C := c, D := d }, .ok ()) := by
  unfold Mat.flip.flipThick
  simp only [ha, hb, hc, hd]

theorem kept_thick {m : Mat F} {n R1 R2 : F} (hk : m.kind = .thickLens n R1 R2 ∨ m.kind = .slab n R1 R2) (ha : thickA n R1 m.L = .ok m.A)
    (hb : thickB n m.L = .ok m.B) (hc : thickC n R1 R2 m.L = .ok m.C) (hd : thickD n R2 m.L = .ok m.D) : (Elem.leaf m).Kept := by
  unfold Elem.Kept
  refine ⟨by rcases hk with hk | hk <;> simp [hk], by rcases hk with hk | hk <;> simp [hk], ?_⟩
  intro m' hm'
  rcases hk with hk | hk <;>
  · unfold Mat.flip at hm'
    rw [hk] at hm'
    dsimp only at hm'
    obtain ⟨a, b, c, d, -, -, -, -, rfl⟩ := flipThick_ok hm'
    unfold Mat.flip
    simp only [FlipLaws.neg_neg]
    refine (flipThick_of (a := m.A) (b := m.B) (c := m.C) (d := m.D) ?_ ?_ ?_ ?_).trans ?_
    · exact ha
    · exact hb
    · exact hc
    · exact hd
    · cases m; simp_all [Mat.flipBase]

end RT
