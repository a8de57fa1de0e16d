import Verif.Props.Flip
import Verif.Props.Groups

/-! # C26 without restriction: two flips that do not fail restore the system

`Props/Flip.lean` says for which systems the two flips cannot fail. Here the systems are those of any program, with any
mixture of media, mirrors and generic matrices: when neither flip raises an error the system is restored, although the first flip may have
changed the index of some spaces. -/

set_option linter.unusedSectionVars false

namespace RT
open PyNum Ext
variable {K : Type} [Field K] [LinearOrder K] [IsStrictOrderedRing K]

mutual
/-- a tree made by a program: its headers are up to date, neighbours match, its leaves come back when flipped twice -/
def Elem.Made : Elem (Ext K) → Prop
  | .leaf m => m.Good ∧ m.kind ≠ .group ∧ ∀ m', m.flip = (m', .ok ()) → m'.flip = (m, .ok ())
  | .group m c es => MadeList es ∧ (⟨m, c, es⟩ : Group (Ext K)).Fresh ∧ es.IsChain Adjacent ∧ m.kind = .group
/-- every element is -/
def MadeList : List (Elem (Ext K)) → Prop
  | [] => True
  | e :: es => e.Made ∧ MadeList es
end

theorem MadeList_iff {es : List (Elem (Ext K))} : MadeList es ↔ ∀ e ∈ es, e.Made := by
  induction es with
  | nil => simp [MadeList]
  | cons e es ih => simp [MadeList, ih]

mutual
theorem Elem.Made.ok : ∀ {e : Elem (Ext K)}, e.Made → e.Ok
  | .leaf m, h => by unfold Elem.Made at h; exact ⟨h.1.den, h.1.lawful⟩
  | .group m c es, h => by
    unfold Elem.Made at h
    have := h.2.1.header (MadeList.ok h.1) h.2.2.1
    exact ⟨this.den, this.lawful⟩
theorem MadeList.ok : ∀ {es : List (Elem (Ext K))}, MadeList es → OkList es
  | [], _ => by intro e he; simp at he
  | a :: as, h => by
    unfold MadeList at h
    intro e he
    rcases List.mem_cons.1 he with heq | he
    · rw [heq]; exact Elem.Made.ok h.1
    · exact MadeList.ok h.2 e he
end

theorem isSpace_iff {e : Elem (Ext K)} : e.isSpace = true ↔ e.mat.kind = .space := by
  unfold Elem.isSpace
  cases e.mat.kind <;> simp

theorem isSpace_leaf {e : Elem (Ext K)} (h : e.Made) (hs : e.isSpace = true) : ∃ m, e = .leaf m ∧ m.kind = .space := by
  cases e with
  | leaf m => exact ⟨m, rfl, isSpace_iff.1 hs⟩
  | group m c es =>
    unfold Elem.Made at h
    have := isSpace_iff.1 hs
    simp only [Elem.mat] at this
    rw [h.2.2.2] at this
    simp at this

theorem flip_space {m : Mat (Ext K)} (h : m.kind = .space) : (Elem.leaf m).flip = (.leaf m.flipBase, .ok ()) := by
  unfold Elem.flip Mat.flip
  rw [h]

theorem Made.space_index {m : Mat (Ext K)} (h : (Elem.leaf m).Made) (hk : m.kind = .space) : m.frontIndex = m.backIndex := by
  unfold Elem.Made at h
  rw [h.1.den.nf, h.1.den.nb, h.1.space hk]
  rfl

theorem setIndices_self {m : Mat (Ext K)} (h : (Elem.leaf m).Made) (hk : m.kind = .space) :
    (Elem.leaf m).setIndices m.frontIndex = .leaf m := by
  have := Made.space_index h hk
  unfold Elem.setIndices
  cases m
  simp_all

theorem Elem.setIndices_back {e : Elem (Ext K)} {n : Ext K} : (e.setIndices n).mat.backIndex = n := by cases e <;> rfl

theorem Elem.setIndices_twice {e : Elem (Ext K)} {n n' : Ext K} : (e.setIndices n).setIndices n' = e.setIndices n' := by cases e <;> rfl

/-- what one flip of a group does to each of its elements: it is flipped, and a space may get another index -/
def Turned (a b : Elem (Ext K)) : Prop :=
  ∃ f, a.flip = (f, .ok ()) ∧ (b = f ∨ f.isSpace = true ∧ ∃ k, b = f.setIndices k)

theorem flip_isSpace {e f : Elem (Ext K)} (h : e.Made) (hs : e.isSpace = false) (hf : e.flip = (f, .ok ())) : f.isSpace = false := by
  have hk : e.mat.kind ≠ .space := fun hk => by simp [isSpace_iff.2 hk] at hs
  have hk' : f.mat.kind ≠ .space := by
    cases e with
    | leaf m =>
      unfold Elem.flip at hf
      simp only [Prod.mk.injEq] at hf
      rw [← hf.1]
      simp only [Elem.mat] at hk ⊢
      unfold Mat.flip
      split
      · next hm => simp [Mat.flipBase, hm]
      · dsimp only
        split
        · simp
        · split <;> simp
      · unfold Mat.flip.flipThick
        dsimp only
        repeat' split
        all_goals simp
      · unfold Mat.flip.flipThick
        dsimp only
        repeat' split
        all_goals simp
      · exact hk
    | group m c es =>
      unfold Elem.Made at h
      unfold Elem.flip at hf
      simp only [Prod.mk.injEq] at hf
      rw [← hf.1]
      have h1 : (Group.appendFlipped { mat := { m with isFlipped := !m.isFlipped }, cache := c, elems := [] } (flipList es).reverse).1.mat.kind = .group := by
        rw [appendFlipped_kind]; exact h.2.2.2
      have h2 : (Group.finishFlip (Group.appendFlipped { mat := { m with isFlipped := !m.isFlipped }, cache := c, elems := [] } (flipList es).reverse)).1.mat.kind
          = .group := by
        generalize Group.appendFlipped { mat := { m with isFlipped := !m.isFlipped }, cache := c, elems := [] } (flipList es).reverse = q at h1
        obtain ⟨q1, q2⟩ := q
        rw [finishFlip_other (by rw [h1]; simp)]
        exact h1
      simp only [Group.toElem, Elem.mat]
      rw [h2]; simp
  cases hx : f.isSpace with
  | false => rfl
  | true => exact absurd (isSpace_iff.1 hx) hk'

/-- two flips of an element give it back -/
def Elem.Back (e : Elem (Ext K)) : Prop := ∀ f f', e.flip = (f, .ok ()) → f.flip = (f', .ok ()) → f' = e

theorem Turned.back {a b c : Elem (Ext K)} (h : a.Made) (hb : a.Back) (ht : Turned a b) (hc : b.flip = (c, .ok ())) :
    (a.isSpace = false ∧ c = a) ∨
    (a.isSpace = true ∧ ∃ k, b.mat.frontIndex = k ∧ b.mat.backIndex = k ∧ c = a.setIndices k) := by
  obtain ⟨f, hf, hbf⟩ := ht
  cases hs : a.isSpace with
  | false =>
    left
    rcases hbf with rfl | ⟨h1, -⟩
    · exact ⟨rfl, hb _ _ hf hc⟩
    · rw [flip_isSpace h hs hf] at h1; simp at h1
  | true =>
    right
    obtain ⟨m, rfl, hk⟩ := isSpace_leaf h hs
    have hi := Made.space_index h hk
    rw [flip_space hk] at hf
    simp only [Prod.mk.injEq, and_true] at hf
    subst hf
    refine ⟨rfl, ?_⟩
    rcases hbf with rfl | ⟨-, k, rfl⟩
    · refine ⟨m.frontIndex, ?_, rfl, ?_⟩
      · simp only [Elem.mat, Mat.flipBase]; exact hi.symm
      · rw [setIndices_self h hk]; exact hb _ _ (flip_space hk) hc
    · refine ⟨k, Elem.setIndices_front _ _, Elem.setIndices_back, ?_⟩
      unfold Elem.setIndices at hc
      rw [flip_space (by simpa [Mat.flipBase] using hk)] at hc
      simp only [Prod.mk.injEq, and_true] at hc
      rw [← hc]
      unfold Elem.setIndices
      simp [Mat.flipBase]

theorem push_ok_eq {g g' : Group (Ext K)} {e : Elem (Ext K)} (h : g.push e = (g', .ok ())) :
    ∃ t, transferMatrixList (g.elems ++ [e]) inf Mat.one = .ok t ∧ g' = ⟨g.mat.refresh t, g.cache, g.elems ++ [e]⟩ := by
  unfold Group.push at h
  dsimp only at h
  split at h
  · simp at h
  · next t ht =>
    simp only [Prod.mk.injEq, and_true] at h
    exact ⟨t, ht, h.symm⟩

theorem append_ok {g g' : Group (Ext K)} {e : Elem (Ext K)} (h : g.append e = (g', .ok ())) :
    ∃ e' t, transferMatrixList (g.elems ++ [e']) inf Mat.one = .ok t ∧ g' = ⟨g.mat.refresh t, g.cache, g.elems ++ [e']⟩ ∧
      (g.elems = [] ∧ e' = e ∨ ∃ last, g.elems.getLast? = some last ∧
        (e' = e ∧ (last.mat.backIndex !=. e.mat.frontIndex) = false ∨ e.isSpace = true ∧ e' = e.setIndices last.mat.backIndex)) := by
  unfold Group.append at h
  cases hl : g.elems.getLast? with
  | none =>
    simp only [hl] at h
    obtain ⟨t, h1, h2⟩ := push_ok_eq h
    exact ⟨e, t, h1, h2, .inl ⟨by simpa using hl, rfl⟩⟩
  | some last =>
    simp only [hl] at h
    cases hx : last.mat.backIndex !=. e.mat.frontIndex with
    | false =>
      simp only [hx, Bool.false_eq_true, if_false] at h
      obtain ⟨t, h1, h2⟩ := push_ok_eq h
      exact ⟨e, t, h1, h2, .inr ⟨last, rfl, .inl ⟨rfl, hx⟩⟩⟩
    | true =>
      simp only [hx, if_true] at h
      cases hs : e.isSpace with
      | false => simp [hs] at h
      | true =>
        simp only [hs, if_true] at h
        obtain ⟨t, h1, h2⟩ := push_ok_eq h
        exact ⟨_, t, h1, h2, .inr ⟨last, rfl, .inr ⟨rfl, rfl⟩⟩⟩

theorem appendFlipped_cons_ok {g g' : Group (Ext K)} {p : Elem (Ext K) × Except PyErr Unit} {ps}
    (h : g.appendFlipped (p :: ps) = (g', .ok ())) :
    ∃ e g1, p = (e, .ok ()) ∧ g.append e = (g1, .ok ()) ∧ g1.appendFlipped ps = (g', .ok ()) := by
  obtain ⟨e, r⟩ := p
  cases r with
  | error x => simp [Group.appendFlipped] at h
  | ok u =>
    unfold Group.appendFlipped at h
    split at h
    · next g1 heq => exact ⟨e, g1, rfl, heq, h⟩
    · simp at h

theorem Mat.refresh_refresh (m t t' : Mat (Ext K)) : (m.refresh t).refresh t' = m.refresh t' := rfl

/-- the header after appending -/
theorem appendFlipped_header {ps : List (Elem (Ext K) × Except PyErr Unit)} {g g' : Group (Ext K)} (h : g.appendFlipped ps = (g', .ok ())) :
    (ps = [] ∧ g' = g) ∨ ∃ t, transferMatrixList g'.elems inf Mat.one = .ok t ∧ g'.mat = g.mat.refresh t ∧ g'.cache = g.cache := by
  induction ps generalizing g with
  | nil =>
    simp only [Group.appendFlipped, Prod.mk.injEq, and_true] at h
    exact .inl ⟨rfl, h.symm⟩
  | cons p ps ih =>
    right
    obtain ⟨e, g1, rfl, h1, h2⟩ := appendFlipped_cons_ok h
    obtain ⟨e', t, h3, rfl, -⟩ := append_ok h1
    rcases ih h2 with ⟨-, rfl⟩ | ⟨t', h4, h5, h6⟩
    · exact ⟨t, h3, rfl, rfl⟩
    · exact ⟨t', h4, by rw [h5]; rfl, h6⟩

/-- the first flip, as a relation between the elements before and after -/
theorem first_pass : ∀ {as : List (Elem (Ext K))} {g g' : Group (Ext K)}, g.appendFlipped (as.map Elem.flip) = (g', .ok ()) →
    ∃ bs, g'.elems = g.elems ++ bs ∧ List.Forall₂ Turned as bs ∧
      (g.elems = [] → ∀ a ∈ as.head?, ∀ b ∈ bs.head?, a.flip = (b, .ok ()))
  | [], g, g', h => by
    simp only [List.map_nil, Group.appendFlipped, Prod.mk.injEq, and_true] at h
    exact ⟨[], by simp [h], .nil, by simp⟩
  | a :: as, g, g', h => by
    obtain ⟨f, g1, h1, h2, h3⟩ := appendFlipped_cons_ok (p := a.flip) h
    obtain ⟨f', t, -, rfl, h4⟩ := append_ok h2
    obtain ⟨bs, h5, h6, -⟩ := first_pass h3
    refine ⟨f' :: bs, by rw [h5]; simp, .cons ⟨f, h1, ?_⟩ h6, ?_⟩
    · rcases h4 with ⟨-, rfl⟩ | ⟨last, -, ⟨rfl, -⟩ | ⟨hs, rfl⟩⟩
      · exact .inl rfl
      · exact .inl rfl
      · exact .inr ⟨hs, _, rfl⟩
    · intro hg a' ha' b hb
      simp only [List.head?_cons, Option.mem_def, Option.some.injEq] at ha' hb
      subst ha' hb
      rcases h4 with ⟨-, rfl⟩ | ⟨last, hl, -⟩
      · exact h1
      · simp [hg] at hl

theorem ne_fin {x : Ext K} {k : K} (h : x ≠ fin k) : (x !=. fin k) = true := by
  cases hx : x !=. fin k with
  | true => rfl
  | false => exact absurd (ne_false_eq hx) h

/-- the second flip, when it starts well -/
theorem second_pass : ∀ {as bs : List (Elem (Ext K))} {g g' : Group (Ext K)}, List.Forall₂ Turned as bs → (∀ a ∈ as, a.Made ∧ a.Back) →
    (g.elems ++ as).IsChain Adjacent → g.elems ≠ [] → g.appendFlipped (bs.map Elem.flip) = (g', .ok ()) → g'.elems = g.elems ++ as
  | _, _, g, g', .nil, _, _, _, h => by
    simp only [List.map_nil, Group.appendFlipped, Prod.mk.injEq, and_true] at h
    simp [h]
  | a :: as, b :: bs, g, g', .cons ht hts, hm, hc, hne, h => by
    obtain ⟨c, g1, h1, h2, h3⟩ := appendFlipped_cons_ok (p := b.flip) h
    obtain ⟨c', t, -, rfl, h4⟩ := append_ok h2
    obtain ⟨hma, hba⟩ := hm a (by simp)
    have hc' : c' = a := by
      rcases h4 with ⟨h5, -⟩ | ⟨last, hl, h5⟩
      · exact absurd h5 hne
      · have hadj : last.mat.backIndex = a.mat.frontIndex := (List.isChain_append.1 hc).2.2 last hl a (by simp)
        rcases ht.back hma hba h1 with ⟨hs, rfl⟩ | ⟨hs, k, -, -, rfl⟩
        · rcases h5 with ⟨rfl, -⟩ | ⟨h6, -⟩
          · rfl
          · rw [hs] at h6; simp at h6
        · obtain ⟨m, rfl, hk⟩ := isSpace_leaf hma hs
          rcases h5 with ⟨rfl, h6⟩ | ⟨-, rfl⟩
          · rw [Elem.setIndices_front] at h6
            rw [← ne_false_eq h6, hadj]
            exact setIndices_self hma hk
          · rw [Elem.setIndices_twice, hadj]
            exact setIndices_self hma hk
    subst hc'
    have := second_pass (g := ⟨g.mat.refresh t, g.cache, g.elems ++ [c']⟩) hts (fun a ha => hm a (by simp [ha])) (by simpa using hc) (by simp) h3
    rw [this]; simp

/-- the second flip cannot succeed when a space at the start of the group has kept the index it was given by the first flip -/
theorem second_pass_bad {as : List (Elem (Ext K))} : ∀ {bs : List (Elem (Ext K))} {a b : Elem (Ext K)} {g g' : Group (Ext K)} {k p : Ext K},
    Turned a b → List.Forall₂ Turned as bs → (∀ x ∈ as, x.Made ∧ x.Back) → (a :: as).IsChain Adjacent →
    (b :: bs).IsChain (fun x y => Adjacent y x) → (∀ x ∈ (a :: as).getLast?, ∀ y ∈ (b :: bs).getLast?, x.flip = (y, .ok ())) →
    a.Made → a.isSpace = true → a.mat.backIndex = p → b.mat.frontIndex = k → k ≠ p →
    (∀ last, g.elems.getLast? = some last → last.mat.backIndex = k) → g.elems ≠ [] →
    g.appendFlipped (bs.map Elem.flip) = (g', .ok ()) → False := by
  induction as with
  | nil =>
    intro bs a b g g' k p ht hts _ _ _ hl hma hs hap hbk hkp _ _ _
    cases hts
    obtain ⟨m, rfl, hk⟩ := isSpace_leaf hma hs
    have h1 : (Elem.leaf m).flip = (b, .ok ()) := hl _ rfl _ rfl
    rw [flip_space hk] at h1
    simp only [Prod.mk.injEq, and_true] at h1
    subst h1
    exact hkp (hbk.symm.trans hap)
  | cons a' as ih =>
    intro bs a b g g' k p ht hts hm hc hd hl hma hs hap hbk hkp hg hgne h
    cases hts with
    | @cons _ b' _ bs ht' hts =>
    obtain ⟨c, g1, h1, h2, h3⟩ := appendFlipped_cons_ok (p := b'.flip) h
    obtain ⟨c', t, -, rfl, h4⟩ := append_ok h2
    obtain ⟨hma', hba'⟩ := hm a' (by simp)
    have hadj : a'.mat.frontIndex = p := by
      have : Adjacent a a' := hc.rel
      rw [← this]; exact hap
    have hadj' : b'.mat.backIndex = k := by
      have : Adjacent b' b := hd.rel
      rw [this]; exact hbk
    rcases h4 with ⟨h5, -⟩ | ⟨last, hlast, h5⟩
    · exact hgne h5
    have hk := hg last hlast
    rcases ht'.back hma' hba' h1 with ⟨hs', rfl⟩ | ⟨hs', k', hk1, hk2, rfl⟩
    · rcases h5 with ⟨-, h6⟩ | ⟨h6, -⟩
      · exact hkp (by rw [← hk, ← hadj]; exact ne_false_eq h6)
      · rw [hs'] at h6; simp at h6
    · obtain rfl : k' = k := hk2.symm.trans hadj'
      have hc' : c' = a'.setIndices k' := by
        rcases h5 with ⟨rfl, -⟩ | ⟨-, rfl⟩
        · rfl
        · rw [Elem.setIndices_twice, hk]
      subst hc'
      obtain ⟨m', rfl, hkd⟩ := isSpace_leaf hma' hs'
      refine ih (p := p) ht' hts (fun x hx => hm x (by simp [hx])) hc.tail hd.tail ?_ hma' hs' ?_ hk1 hkp ?_ (by simp) h3
      · intro x hx y hy
        exact hl x (by rw [List.getLast?_cons_cons]; exact hx) y (by rw [List.getLast?_cons_cons]; exact hy)
      · rw [← hadj]; exact (Made.space_index hma' hkd).symm
      · intro last hl
        simp only [List.getLast?_append, List.getLast?_singleton, Option.some_or, Option.some.injEq] at hl
        rw [← hl]; exact Elem.setIndices_back

theorem flipList_eq_map (es : List (Elem (Ext K))) : flipList es = es.map Elem.flip := by
  induction es with
  | nil => rfl
  | cons e es ih => simp [flipList, ih]

mutual
/-- made trees come back -/
theorem Elem.Made.back : ∀ {e : Elem (Ext K)}, e.Made → e.Back
  | .leaf m, h => by
    intro f f' h1 h2
    unfold Elem.Made at h
    unfold Elem.flip at h1
    simp only [Prod.mk.injEq] at h1
    obtain ⟨rfl, h1⟩ := h1
    have h3 := h.2.2 m.flip.1 (Prod.ext rfl h1)
    unfold Elem.flip at h2
    rw [h3] at h2
    simp only [Prod.mk.injEq, and_true] at h2
    exact h2.symm
  | .group m c es, h => by
    intro f f' h1 h2
    have hmade := h
    unfold Elem.Made at h
    obtain ⟨hm, hf, hc, hk⟩ := h
    have hb := MadeList.back hm
    have hgrp : ∀ {m : Mat (Ext K)} {c es f}, m.kind = .group → (Elem.group m c es).flip = (f, .ok ()) →
        ∃ g', Group.appendFlipped { mat := { m with isFlipped := !m.isFlipped }, cache := c, elems := [] } (es.reverse.map Elem.flip) = (g', .ok ()) ∧
          f = .group g'.mat g'.cache g'.elems := by
      intro m c es f hk h
      unfold Elem.flip at h
      dsimp only at h
      have h1 : (Group.appendFlipped { mat := { m with isFlipped := !m.isFlipped }, cache := c, elems := [] } (flipList es).reverse).1.mat.kind = .group := by
        rw [appendFlipped_kind]; exact hk
      rw [flipList_eq_map, ← List.map_reverse] at h1 h
      generalize Group.appendFlipped { mat := { m with isFlipped := !m.isFlipped }, cache := c, elems := [] } (es.reverse.map Elem.flip) = q at h h1
      obtain ⟨q1, q2⟩ := q
      rw [finishFlip_other (by rw [h1]; simp)] at h
      simp only [Prod.mk.injEq] at h
      exact ⟨q1, by rw [h.2], h.1.symm⟩
    obtain ⟨g1, h3, rfl⟩ := hgrp hk h1
    have hk1 : g1.mat.kind = .group := by
      have := appendFlipped_kind { mat := { m with isFlipped := !m.isFlipped }, cache := c, elems := [] } (es.reverse.map Elem.flip)
      rw [h3] at this
      exact this.trans hk
    obtain ⟨g2, h4, rfl⟩ := hgrp hk1 h2
    obtain ⟨bs, h5, h6, h7⟩ := first_pass h3
    have hchain : bs.IsChain Adjacent := by
      have := appendFlipped_adjacent (g := { mat := { m with isFlipped := !m.isFlipped }, cache := c, elems := [] }) (es.reverse.map Elem.flip) (by simp)
      rw [h3] at this
      simpa [h5] using this
    simp only [List.nil_append] at h5
    have h6' : List.Forall₂ Turned es bs.reverse := by
      have := List.forall₂_reverse_iff.2 h6
      simpa using this
    have hrev : bs.reverse.IsChain fun x y => Adjacent y x := List.isChain_reverse.2 hchain
    have hlast : ∀ x ∈ es.getLast?, ∀ y ∈ bs.reverse.getLast?, x.flip = (y, .ok ()) := by
      intro x hx y hy
      exact h7 rfl x (by simpa using hx) y (by simpa using hy)
    rw [h5] at h4
    have helems : g2.elems = es := by
      generalize bs.reverse = cs at h4 h6' hrev hlast
      cases h6' with
      | nil =>
        simp only [List.map_nil, Group.appendFlipped, Prod.mk.injEq, and_true] at h4
        rw [← h4]
      | @cons a b as cs ht hts =>
        obtain ⟨c1, g3, h8, h9, h10⟩ := appendFlipped_cons_ok (p := b.flip) h4
        obtain ⟨c2, t, -, rfl, h11⟩ := append_ok h9
        simp only [List.getLast?_nil, reduceCtorEq, false_and, exists_false, or_false, true_and] at h11
        subst h11
        obtain ⟨hma, hba⟩ := hb a (by simp)
        have good : c2 = a → g2.elems = a :: as := by
          rintro rfl
          have := second_pass hts (fun x hx => hb x (by simp [hx])) (by simpa using hc) (by simp) h10
          simpa using this
        rcases ht.back hma hba h8 with ⟨-, h12⟩ | ⟨hs, k, hk1, hk2, rfl⟩
        · exact good h12
        · obtain ⟨m', rfl, hkd⟩ := isSpace_leaf hma hs
          by_cases hkp : k = m'.backIndex
          · refine good ?_
            rw [hkp, ← Made.space_index hma hkd]
            exact setIndices_self hma hkd
          · exfalso
            refine second_pass_bad ht hts (fun x hx => hb x (by simp [hx])) hc hrev hlast hma hs rfl hk1 hkp ?_ (by simp) h10
            intro last hl
            simp only [List.nil_append, List.getLast?_singleton, Option.some.injEq] at hl
            rw [← hl]; exact Elem.setIndices_back
    obtain ⟨t0, ht0, hm0⟩ := hf
    dsimp only at ht0 hm0
    rcases appendFlipped_header h3 with ⟨h8, rfl⟩ | ⟨t1, -, h9, h10⟩
    · have he : es = [] := by simpa using h8
      subst he
      simp only at h5
      subst h5
      simp only [List.reverse_nil, List.map_nil, Group.appendFlipped, Prod.mk.injEq, and_true] at h4
      rw [← h4]
      simp
    · rcases appendFlipped_header h4 with ⟨h8, rfl⟩ | ⟨t2, h11, h12, h13⟩
      · simp only at helems
        subst helems
        cases h6
        simp only [List.reverse_nil, List.map_nil, Group.appendFlipped, Prod.mk.injEq, and_true] at h3
        rw [← h3]
        simp
      · rw [helems, ht0] at h11
        cases h11
        rw [helems, h12, h13]
        simp only [h9, h10]
        congr 1
        conv_rhs => rw [hm0]
        simp [Mat.refresh]
theorem MadeList.back : ∀ {es : List (Elem (Ext K))}, MadeList es → ∀ e ∈ es, e.Made ∧ e.Back
  | [], _ => by simp
  | e :: es, h => by
    unfold MadeList at h
    intro x hx
    rcases List.mem_cons.1 hx with heq | hx
    · rw [heq]; exact ⟨h.1, Elem.Made.back h.1⟩
    · exact MadeList.back h.2 x hx
end

theorem append_made {g g' : Group (Ext K)} {e : Elem (Ext K)} (hg : MadeList g.elems) (he : e.Made)
    (h : g.append e = (g', .ok ())) : MadeList g'.elems := by
  obtain ⟨e', t, -, rfl, h1⟩ := append_ok h
  rw [MadeList_iff] at hg ⊢
  intro x hx
  rcases List.mem_append.1 hx with hx | hx
  · exact hg x hx
  · rw [List.mem_singleton] at hx
    subst hx
    rcases h1 with ⟨-, rfl⟩ | ⟨last, hl, ⟨rfl, -⟩ | ⟨hs, rfl⟩⟩
    · exact he
    · exact he
    · have hlast := (hg last (List.mem_of_getLast? hl)).ok
      obtain ⟨m, rfl, hk⟩ := isSpace_leaf he hs
      rw [hlast.den.nb]
      have hgd := he
      unfold Elem.Made at hgd
      have := Elem.Good.setIndices (e := .leaf m) (by unfold Elem.Good; exact hgd.1) hs hlast.lawful.2.1
      unfold Elem.setIndices Elem.Good at this
      unfold Elem.setIndices Elem.Made
      refine ⟨this, by simp [hk], ?_⟩
      intro m' hm'
      have e1 : ∀ m : Mat (Ext K), m.kind = .space → m.flip = (m.flipBase, .ok ()) := by
        intro m hk; unfold Mat.flip; rw [hk]
      rw [e1 _ (by simpa using hk)] at hm'
      simp only [Prod.mk.injEq, and_true] at hm'
      subst hm'
      rw [e1 _ (by simpa [Mat.flipBase] using hk)]
      simp [Mat.flipBase]

theorem appendAll_made {g g' : Group (Ext K)} {es : List (Elem (Ext K))} (hg : MadeList g.elems)
    (he : MadeList es) (h : g.appendAll es = (g', .ok ())) : MadeList g'.elems := by
  induction es generalizing g with
  | nil => simp only [Group.appendAll, Prod.mk.injEq, and_true] at h; subst h; exact hg
  | cons e es ih =>
    obtain ⟨g1, h1, h2⟩ := Group.appendAll_cons_ok h
    unfold MadeList at he
    exact ih (append_made hg he.1 h1) he.2 h2

theorem single_made {p : Part K} (hv : p.Valid) (hs : p.single = true) {e : Elem (Ext K)} (hb : p.build = .ok e) : e.Made := by
  have hleaf : ∃ m, e = .leaf m ∧ m.kind ≠ .group := by
    cases p with
    | group label ps => simp [Part.single] at hs
    | mirror R diam => unfold Part.build at hb; obtain ⟨m, h1, rfl⟩ := Except.map_ok hb; obtain ⟨-, -, rfl⟩ := mkCurvedMirror_ok h1; exact ⟨_, rfl, (nomatch ·)⟩
    | matrix s fv bv diam =>
      unfold Part.build at hb
      obtain ⟨m, h1, rfl⟩ := Except.map_ok hb
      obtain ⟨-, -, -, h3⟩ := init_ok_facts (genericMat_den s fv bv diam) h1
      exact ⟨m, rfl, by rw [h3]; exact (nomatch ·)⟩
    | space d n diam => unfold Part.build at hb; obtain ⟨m, h1, rfl⟩ := Except.map_ok hb; obtain ⟨-, -, rfl⟩ := mkSpace_ok h1; exact ⟨_, rfl, (nomatch ·)⟩
    | lens f diam => unfold Part.build at hb; obtain ⟨m, h1, rfl⟩ := Except.map_ok hb; obtain ⟨-, -, rfl⟩ := mkLens_ok h1; exact ⟨_, rfl, (nomatch ·)⟩
    | interface n1 n2 R diam => unfold Part.build at hb; obtain ⟨m, h1, rfl⟩ := Except.map_ok hb; obtain ⟨-, -, -, rfl⟩ := mkDielectric_ok h1; exact ⟨_, rfl, (nomatch ·)⟩
    | thickLens n R1 R2 t diam =>
      unfold Part.build at hb; obtain ⟨m, h1, rfl⟩ := Except.map_ok hb; obtain ⟨-, -, -, -, rfl⟩ := mkThickOf_ok h1; exact ⟨_, rfl, (nomatch ·)⟩
    | slab n t diam =>
      unfold Part.build mkSlab at hb; obtain ⟨m, h1, rfl⟩ := Except.map_ok hb
      obtain ⟨-, -, -, -, rfl⟩ := mkThickOf_ok (R1 := none) (R2 := none) h1; exact ⟨_, rfl, (nomatch ·)⟩
    | aperture diam na label => unfold Part.build at hb; obtain ⟨m, h1, rfl⟩ := Except.map_ok hb; obtain ⟨-, -, rfl⟩ := mkAperture_ok h1; exact ⟨_, rfl, (nomatch ·)⟩
  obtain ⟨m, rfl, hk⟩ := hleaf
  have hg := (build_good hv hb (by unfold Elem.Clean; trivial)).1
  unfold Elem.Good at hg
  unfold Elem.Made
  refine ⟨hg, hk, ?_⟩
  intro m' hm'
  obtain ⟨e', h1, h2⟩ := C26_single hv hs hb
  unfold Elem.flip at h1
  rw [hm'] at h1
  simp only [Prod.mk.injEq, and_true] at h1
  subst h1
  unfold Elem.flip at h2
  simp only [Prod.mk.injEq, Elem.leaf.injEq] at h2
  exact Prod.ext h2.1 h2.2

mutual
/-- every program makes such a tree -/
theorem build_made : ∀ {p : Part K}, p.Valid → ∀ {e : Elem (Ext K)}, p.build = .ok e → e.Made
  | .group label ps, hv, e, hb => by
    have hb0 := hb
    unfold Part.build at hb
    split at hb
    · simp at hb
    · next fs hf =>
      obtain ⟨g, h1, rfl⟩ := Except.map_ok hb
      unfold Part.Valid at hv
      have hk : g.mat.kind = .group := build_group_kind _ hb0 _ _ _ rfl
      have h2 := buildList_made hv hf
      have h4 := Group.new_eq h1
      have h5 := appendAll_made (g := Group.empty label) (by simp [Group.empty, MadeList]) h2 h4
      have h7 : g.elems.IsChain Adjacent := by
        have := appendAll_adjacent (g := Group.empty label) fs (by simp [Group.empty])
        rwa [h4] at this
      unfold Group.toElem Elem.Made
      exact ⟨h5, Group.new_fresh h1, h7, hk⟩
  | .space d n diam, hv, e, hb => single_made hv rfl hb
  | .lens f diam, hv, e, hb => single_made hv rfl hb
  | .mirror f diam, hv, e, hb => single_made hv rfl hb
  | .interface n1 n2 R diam, hv, e, hb => single_made hv rfl hb
  | .thickLens n R1 R2 t diam, hv, e, hb => single_made hv rfl hb
  | .slab n t diam, hv, e, hb => single_made hv rfl hb
  | .aperture diam na label, hv, e, hb => single_made hv rfl hb
  | .matrix s fv bv diam, hv, e, hb => single_made hv rfl hb
theorem buildList_made : ∀ {ps : List (Part K)}, Part.ValidList ps →
    ∀ {es : List (Elem (Ext K))}, Part.buildList ps = .ok es → MadeList es
  | [], _, es, h => by
    simp only [Part.buildList, Except.ok.injEq] at h; subst h
    exact trivial
  | p :: ps, hv, es, h => by
    unfold Part.buildList at h
    split at h
    · simp at h
    · next e he =>
      split at h
      · simp at h
      · next fs hf =>
        simp only [Except.ok.injEq] at h
        subst h
        unfold Part.ValidList at hv
        exact ⟨build_made hv.1 he, buildList_made hv.2 hf⟩
end

/-- **C26**, for all programs: elements and groups of any nesting, with any mixture of media, mirrors and generic matrices. When neither of two flips
raises an error, the second gives back the system itself, with every attribute of every element. -/
theorem C26_restored {p : Part K} (hv : p.Valid) {e e' e'' : Elem (Ext K)} (hb : p.build = .ok e) (h1 : e.flip = (e', .ok ()))
    (h2 : e'.flip = (e'', .ok ())) : e'' = e :=
  (build_made hv hb).back e' e'' h1 h2

/-- two flips of a program with rational parameters: what each of them raises, and whether the system is restored -/
def twoFlips (p : Part ℚ) : Option (Except PyErr Unit × Except PyErr Unit × Bool) :=
  match p.build with
  | .ok e => some (e.flip.2, e.flip.1.flip.2, decide (e.flip.1.flip.1.mat = e.mat) && !decide (e.flip.1.mat = e.mat))
  | .error _ => none

/-- three generic matrices in glass whose product is the identity in this order only -/
def glassCycle : Part ℚ := .group "glassCycle" [.matrix ⟨2, 0, 0, 1/2, 0, 3/2, 3/2⟩ none none none, .matrix ⟨1, 1, 0, 1, 0, 3/2, 3/2⟩ none none none,
  .matrix ⟨1/2, -1/2, 0, 2, 0, 3/2, 3/2⟩ none none none]

/-- **C26** fails for generic matrices in a medium: a group of them whose product is the identity reports the index 1 (C04), and the flipped
group, whose product is another matrix, reports 1.5. After a space in air the first flip raises no error, but changes the index
of the space; the second flip raises `ValueError` and the system is lost. Expected: the system, without error. -/
theorem C26_media_violated : glassCycle.Valid ∧ (twoFlips (.group "" [.space 1 1 none, .group "" [glassCycle]])).map (fun r => (r.1, r.2.1)) =
    some (.ok (), .error .valueError) := by
  constructor
  · norm_num [glassCycle, Part.Valid, Part.ValidList, Sys.Lawful, Sys.det]
  · decide +kernel

/-- a mirror and an asymmetric matrix in glass: not `Flippable` -/
def mixedSample : Part ℚ :=
  .group "mixed" [.mirror 100 (some 10), .space 10 1 none, .interface 1 (3/2) (some 20) none,
    .group "in glass" [.matrix ⟨2, 3, 1, 2, 3, 3/2, 3/2⟩ none none none, .space 4 (3/2) none], .interface (3/2) 1 none none]

/-- it runs, its flips do not fail, the first changes it and the second restores it -/
example : mixedSample.Valid ∧ twoFlips mixedSample = some (.ok (), .ok (), true) := by
  constructor
  · norm_num [mixedSample, Part.Valid, Part.ValidList, Sys.Lawful, Sys.det]
  · decide +kernel

end RT
