import Verif.Lemmas.Flip

/-! # Flipping trees -/

set_option linter.unusedSectionVars false

namespace RT
open PyNum Ext
variable {K : Type} [Field K] [LinearOrder K] [IsStrictOrderedRing K]

/-- A leaf that can be flipped, in a tree made of elements in air (`air = true`) or in a tree of reversible elements. -/
structure Mat.LeafTidy (air : Bool) (m : Mat (Ext K)) : Prop where
  flip : m.FlipOk
  inAir : air = true → m.sys.nf = 1 ∧ m.sys.nb = 1
  rev : air = false → m.RevOk

mutual
/-- a tree that flips without trouble -/
def Elem.Tidy (air : Bool) : Elem (Ext K) → Prop
  | .leaf m => m.LeafTidy air
  | .group m c es => TidyList air es ∧ (⟨m, c, es⟩ : Group (Ext K)).Fresh ∧ es.IsChain Adjacent ∧ m.kind = .group
/-- every element is tidy -/
def TidyList (air : Bool) : List (Elem (Ext K)) → Prop
  | [] => True
  | e :: es => e.Tidy air ∧ TidyList air es
end

theorem TidyList_iff {air : Bool} {es : List (Elem (Ext K))} : TidyList air es ↔ ∀ e ∈ es, e.Tidy air := by
  induction es with
  | nil => simp [TidyList]
  | cons e es ih => simp [TidyList, ih]

/-- the attributes of the element are those of a possible system -/
structure Elem.Ok (e : Elem (Ext K)) : Prop where
  den : Den e.mat e.mat.sys
  lawful : e.mat.sys.Lawful

/-- all of them -/
def OkList (es : List (Elem (Ext K))) : Prop := ∀ e ∈ es, e.Ok

theorem OkList.den {es : List (Elem (Ext K))} (h : OkList es) : DenList es (sysList es) := by
  induction es with
  | nil => exact .nil
  | cons e es ih => exact .cons (h e (by simp)).den (ih fun e he => h e (by simp [he]))

theorem OkList.lawful {es : List (Elem (Ext K))} (h : OkList es) : ∀ s ∈ sysList es, s.Lawful := by
  intro s hs
  simp only [sysList, List.mem_map] at hs
  obtain ⟨e, he, rfl⟩ := hs
  exact (h e he).lawful

theorem OkList.matched {es : List (Elem (Ext K))} (hg : OkList es) (hc : es.IsChain Adjacent) :
    ∀ n, (∀ e ∈ es.head?, e.mat.sys.nf = n) → Sys.Matched n (sysList es) := by
  induction es with
  | nil => intro n _; trivial
  | cons e es ih =>
    intro n hn
    refine ⟨hn e (by simp), ih (fun e he => hg e (by simp [he])) (List.IsChain.tail hc) _ ?_⟩
    intro e' he'
    cases es with
    | nil => simp at he'
    | cons f fs =>
      simp only [List.head?_cons, Option.mem_def, Option.some.injEq] at he'
      subst he'
      have h1 : Adjacent e f := by simpa using hc.rel
      unfold Adjacent at h1
      rw [(hg e (by simp)).den.nb, (hg f (by simp)).den.nf] at h1
      simpa using h1.symm

theorem endIndex_getLast (n : K) (ss : List (Sys K)) :
    Sys.endIndex n ss = match ss.getLast? with | none => n | some s => s.nb := by
  induction ss generalizing n with
  | nil => rfl
  | cons s ss ih =>
    unfold Sys.endIndex
    rw [ih]
    cases ss with
    | nil => rfl
    | cons t ts => rw [List.getLast?_cons_cons, List.getLast?_cons]

/-- what the header of a group says when it is computed from possible, adjacent elements -/
structure Header (m : Mat (Ext K)) (es : List (Elem (Ext K))) : Prop where
  den : Den m m.sys
  lawful : m.sys.Lawful
  same : m.sys.SameABCD (Sys.chain (Sys.one 1) (sysList es))
  out : ∀ r, m.sys.out r = (sysList es).foldl (fun r s => s.out r) r
  len : m.sys.len = ((sysList es).map Sys.len).sum
  allId : (∀ s ∈ sysList es, s.IsId) → m.sys.nf = 1 ∧ m.sys.nb = 1
  first : (∃ s ∈ sysList es, ¬ s.IsId) → ∀ e ∈ es.head?, m.sys.nf = e.mat.sys.nf
  last : (∃ s ∈ sysList es, ¬ s.IsId) → ∀ e ∈ es.getLast?, m.sys.nb = e.mat.sys.nb

theorem Group.Fresh.header {m : Mat (Ext K)} {c} {es : List (Elem (Ext K))} (hf : (⟨m, c, es⟩ : Group (Ext K)).Fresh)
    (hg : OkList es) (hc : es.IsChain Adjacent) : Header m es := by
  obtain ⟨t, ht, hm⟩ := hf
  obtain ⟨n, hn⟩ : ∃ n, ∀ e ∈ es.head?, e.mat.sys.nf = n := by
    cases es with
    | nil => exact ⟨1, by simp⟩
    | cons e es => exact ⟨e.mat.sys.nf, by simp⟩
  obtain ⟨t', u, h1, h2, h3, h4, h5, h6, -⟩ := fullTransfer hg.den hg.lawful (hg.matched hc n hn)
  dsimp only at ht hm
  rw [ht] at h1; cases h1
  have hd : Den m u := by rw [hm]; exact ⟨h2.A, h2.B, h2.C, h2.D, h2.L, h2.nf, h2.nb⟩
  have hs := hd.sys
  refine ⟨by rw [hs]; exact hd, by rw [hs]; exact h3, by rw [hs]; exact h4, ?_, ?_, by rw [hs]; exact h5, ?_, ?_⟩
  · intro r; rw [hs, h4.out, Sys.chain_out, Sys.one_out]
  · rw [hs, h4.2.2.2.2, Sys.chain_len]; simp [Sys.one]
  · intro h e he
    rw [hs, (h6 h).1, hn e he]
  · intro h e he
    have : (sysList es).getLast? = some e.mat.sys := by
      unfold sysList; rw [List.getLast?_map, he]; rfl
    rw [hs, (h6 h).2, endIndex_getLast, this]

mutual
theorem Elem.Tidy.ok {air : Bool} : ∀ {e : Elem (Ext K)}, e.Tidy air → e.Ok
  | .leaf m, h => by unfold Elem.Tidy at h; exact ⟨h.flip.good.den, h.flip.good.lawful⟩
  | .group m c es, h => by
    unfold Elem.Tidy at h
    have := h.2.1.header (TidyList.ok h.1) h.2.2.1
    exact ⟨this.den, this.lawful⟩
theorem TidyList.ok {air : Bool} : ∀ {es : List (Elem (Ext K))}, TidyList air es → OkList es
  | [], _ => by intro e he; simp at he
  | a :: as, h => by
    unfold TidyList at h
    intro e he
    rcases List.mem_cons.1 he with heq | he
    · rw [heq]; exact Elem.Tidy.ok h.1
    · exact TidyList.ok h.2 e he
end

/-- `append` of a matching element -/
theorem append_exact {g : Group (Ext K)} {e : Elem (Ext K)} (hg : OkList (g.elems ++ [e]))
    (hc : (g.elems ++ [e]).IsChain Adjacent) :
    ∃ t, transferMatrixList (g.elems ++ [e]) inf Mat.one = .ok t ∧
      g.append e = (⟨g.mat.refresh t, g.cache, g.elems ++ [e]⟩, .ok ()) := by
  have hm : Sys.Matched ((g.elems ++ [e]).head (by simp)).mat.sys.nf (sysList (g.elems ++ [e])) := by
    refine hg.matched hc _ ?_
    intro e' he'
    rw [List.head?_eq_some_head (by simp)] at he'
    simp only [Option.mem_def, Option.some.injEq] at he'
    rw [he']
  obtain ⟨t, u, h1, -⟩ := fullTransfer hg.den hg.lawful hm
  refine ⟨t, h1, ?_⟩
  have hp : g.append e = g.push e := by
    unfold Group.append
    cases hl : g.elems.getLast? with
    | none => rfl
    | some last =>
      have h2 : last.mat.backIndex = e.mat.frontIndex := by
        have := (List.isChain_append.1 hc).2.2 last hl e (by simp)
        exact this
      have hgood : e.Ok := hg e (by simp)
      simp only [h2]
      rw [hgood.den.nf]
      simp
  rw [hp]
  unfold Group.push
  simp only [h1]

theorem appendFlipped_exact : ∀ {fs : List (Elem (Ext K))} {g : Group (Ext K)}, OkList (g.elems ++ fs) →
    (g.elems ++ fs).IsChain Adjacent →
    (fs = [] ∧ g.appendFlipped (fs.map fun e => (e, .ok ())) = (g, .ok ())) ∨
    ∃ t, transferMatrixList (g.elems ++ fs) inf Mat.one = .ok t ∧
      g.appendFlipped (fs.map fun e => (e, .ok ())) = (⟨g.mat.refresh t, g.cache, g.elems ++ fs⟩, .ok ())
  | [], g, _, _ => .inl ⟨rfl, rfl⟩
  | f :: fs, g, hg, hc => by
    right
    have e1 : g.elems ++ f :: fs = (g.elems ++ [f]) ++ fs := by simp
    rw [e1] at hg hc
    have hg1 : OkList (g.elems ++ [f]) := fun e he => hg e (List.mem_append_left _ he)
    have hc1 := (List.isChain_append.1 hc).1
    obtain ⟨t, h1, h2⟩ := append_exact hg1 hc1
    rw [e1]
    simp only [List.map_cons, Group.appendFlipped, h2]
    rcases appendFlipped_exact (g := ⟨g.mat.refresh t, g.cache, g.elems ++ [f]⟩) hg hc with ⟨h3, h4⟩ | ⟨t', h3, h4⟩
    · subst h3
      exact ⟨t, by simpa using h1, by rw [h4]; simp⟩
    · exact ⟨t', h3, by rw [h4]; rfl⟩

/-- everything there is to say about flipping `e` into `e'` -/
structure FlipOf (air : Bool) (e e' : Elem (Ext K)) : Prop where
  flip : e.flip = (e', .ok ())
  back : e'.flip = (e, .ok ())
  tidy : e.Tidy air
  tidy' : e'.Tidy air
  nf : e'.mat.sys.nf = e.mat.sys.nb
  nb : e'.mat.sys.nb = e.mat.sys.nf
  len : e'.mat.sys.len = e.mat.sys.len
  rev : air = false → Rev e.mat.sys e'.mat.sys

theorem FlipOf.symm {air : Bool} {e e' : Elem (Ext K)} (h : FlipOf air e e') : FlipOf air e' e := by
  refine ⟨h.back, h.flip, h.tidy', h.tidy, h.nb.symm, h.nf.symm, h.len.symm, fun ha => ?_⟩
  have hr := h.rev ha
  intro y θ
  -- `s'` is onto, so `s` undoes it on the other side as well
  have hl := h.tidy'.ok.lawful
  have hdet : e'.mat.sys.det ≠ 0 := by
    rw [hl.2.2]; exact div_ne_zero hl.1 hl.2.1
  set s := e.mat.sys
  set t := e'.mat.sys
  have hinj : ∀ p q : K × K, t.out p = t.out q → p = q := by
    intro p q hpq
    simp only [Sys.out, Sys.outY, Sys.outθ, Prod.mk.injEq] at hpq
    obtain ⟨h1, h2⟩ := hpq
    unfold Sys.det at hdet
    refine Prod.ext ?_ ?_
    · apply mul_left_cancel₀ hdet
      linear_combination t.d * h1 - t.b * h2
    · apply mul_left_cancel₀ hdet
      linear_combination t.a * h2 - t.c * h1
  have h1 := hr (t.outY y θ) (-t.outθ y θ)
  rw [neg_neg] at h1
  have h2 := hinj _ (y, θ) h1
  simp only [Prod.mk.injEq] at h2
  simp only [Sys.out, Prod.mk.injEq]
  exact ⟨h2.1, neg_eq_iff_eq_neg.1 h2.2⟩

theorem forall₂_flipList {air : Bool} {es es' : List (Elem (Ext K))} (h : List.Forall₂ (FlipOf air) es es') :
    flipList es = es'.map fun e => (e, .ok ()) := by
  induction h with
  | nil => rfl
  | cons h _ ih => simp [flipList, ih, h.flip]

theorem forall₂_tidy' {air : Bool} {es es' : List (Elem (Ext K))} (h : List.Forall₂ (FlipOf air) es es') :
    TidyList air es' := by
  induction h with
  | nil => trivial
  | cons h _ ih => exact ⟨h.tidy', ih⟩

theorem forall₂_adjacent {air : Bool} {es es' : List (Elem (Ext K))} (h : List.Forall₂ (FlipOf air) es es')
    (hc : es.IsChain Adjacent) : es'.IsChain fun a b => Adjacent b a := by
  induction h with
  | nil => simp
  | @cons a a' l l' h1 h2 ih =>
    cases h2 with
    | nil => simp
    | @cons b b' l l' h3 h4 =>
      have ha : Adjacent a b := hc.rel
      refine List.IsChain.cons_cons ?_ (ih hc.tail)
      unfold Adjacent at ha ⊢
      have e1 := h1.tidy.ok.den.nb
      have e2 := h3.tidy.ok.den.nf
      have e3 := h1.tidy'.ok.den.nf
      have e4 := h3.tidy'.ok.den.nb
      rw [e4, e3, h3.nb, h1.nf, ← e1, ← e2, ha]

theorem forall₂_getLast {air : Bool} {es es' : List (Elem (Ext K))} (h : List.Forall₂ (FlipOf air) es es') :
    ∀ e' ∈ es'.getLast?, ∃ e ∈ es.getLast?, FlipOf air e e' := by
  induction h with
  | nil => simp
  | @cons a a' l l' h1 h2 ih =>
    cases h2 with
    | nil => simpa using h1
    | @cons b b' l l' h3 h4 =>
      intro e' he'
      simp only [List.getLast?_cons_cons] at he' ⊢
      exact ih e' he'

theorem forall₂_head {air : Bool} {es es' : List (Elem (Ext K))} (h : List.Forall₂ (FlipOf air) es es') :
    ∀ e' ∈ es'.head?, ∃ e ∈ es.head?, FlipOf air e e' := by
  cases h with
  | nil => simp
  | cons h1 h2 => simpa using h1

theorem forall₂_len {air : Bool} {es es' : List (Elem (Ext K))} (h : List.Forall₂ (FlipOf air) es es') :
    ((sysList es').map Sys.len).sum = ((sysList es).map Sys.len).sum := by
  induction h with
  | nil => rfl
  | cons h _ ih => simp [sysList] at ih ⊢; rw [ih, h.len]

theorem forall₂_rev {es es' : List (Elem (Ext K))} (h : List.Forall₂ (FlipOf false) es es') (r : K × K) :
    (sysList es').reverse.foldl (fun r s => s.out r)
      (((sysList es).foldl (fun r s => s.out r) r).1, -((sysList es).foldl (fun r s => s.out r) r).2) = (r.1, -r.2) := by
  induction h generalizing r with
  | nil => rfl
  | cons h1 _ ih =>
    simp only [sysList, List.map_cons, List.reverse_cons, List.foldl_append, List.foldl_cons, List.foldl_nil] at ih ⊢
    rw [ih]
    exact h1.rev rfl r.1 r.2

theorem forall₂_isId {es es' : List (Elem (Ext K))} (h : List.Forall₂ (FlipOf false) es es')
    (hid : ∀ s ∈ sysList es', s.IsId) : ∀ s ∈ sysList es, s.IsId := by
  induction h with
  | nil => simp [sysList]
  | cons h1 _ ih =>
    simp only [sysList, List.map_cons, List.mem_cons, forall_eq_or_imp] at hid ih ⊢
    exact ⟨(h1.rev rfl).isId.1 hid.1, ih hid.2⟩

mutual
theorem Elem.Tidy.inAir : ∀ {e : Elem (Ext K)}, e.Tidy true → e.mat.sys.nf = 1 ∧ e.mat.sys.nb = 1
  | .leaf m, h => by unfold Elem.Tidy at h; exact h.inAir rfl
  | .group m c es, h => by
    unfold Elem.Tidy at h
    have hh := h.2.1.header h.1.ok h.2.2.1
    have ha := TidyList.inAir h.1
    simp only [Elem.mat]
    by_cases hid : ∀ s ∈ sysList es, s.IsId
    · exact hh.allId hid
    · push Not at hid
      have hne : es ≠ [] := by
        rintro rfl; obtain ⟨s, hs, -⟩ := hid; simp [sysList] at hs
      rw [hh.first hid _ (List.head?_eq_some_head hne), hh.last hid _ (List.getLast?_eq_some_getLast hne)]
      exact ⟨(ha _ (List.head_mem hne)).1, (ha _ (List.getLast_mem hne)).2⟩
theorem TidyList.inAir : ∀ {es : List (Elem (Ext K))}, TidyList true es →
    ∀ e ∈ es, e.mat.sys.nf = 1 ∧ e.mat.sys.nb = 1
  | [], _, e, he => by simp at he
  | a :: as, h, e, he => by
    unfold TidyList at h
    rcases List.mem_cons.1 he with heq | he
    · rw [heq]; exact Elem.Tidy.inAir h.1
    · exact TidyList.inAir h.2 e he
end

theorem flip_group {air : Bool} {m : Mat (Ext K)} {c} {es es' : List (Elem (Ext K))}
    (ht : (Elem.group m c es).Tidy air) (h : List.Forall₂ (FlipOf air) es es') :
    ∃ t, transferMatrixList es'.reverse inf Mat.one = .ok t ∧
      (Elem.group m c es).flip =
        (.group (({ m with isFlipped := !m.isFlipped } : Mat (Ext K)).refresh t) c es'.reverse, .ok ()) ∧
      (Elem.group (({ m with isFlipped := !m.isFlipped } : Mat (Ext K)).refresh t) c es'.reverse).Tidy air := by
  unfold Elem.Tidy at ht
  obtain ⟨h1, h2, h3, h4⟩ := ht
  have ht' : TidyList air es'.reverse := by
    have := forall₂_tidy' h
    rw [TidyList_iff] at this ⊢
    intro e he; exact this e (by simpa using he)
  have hc' : es'.reverse.IsChain Adjacent := List.isChain_reverse.2 (forall₂_adjacent h h3)
  have hflip : ∃ t, transferMatrixList es'.reverse inf Mat.one = .ok t ∧ (Elem.group m c es).flip =
      (.group (({ m with isFlipped := !m.isFlipped } : Mat (Ext K)).refresh t) c es'.reverse, .ok ()) := by
    have hfl : (flipList es).reverse = es'.reverse.map fun e => (e, .ok ()) := by
      rw [forall₂_flipList h, List.map_reverse]
    unfold Elem.flip
    rw [hfl]
    rcases appendFlipped_exact (fs := es'.reverse)
      (g := { mat := { m with isFlipped := !m.isFlipped }, cache := c, elems := [] }) ht'.ok hc' with
      ⟨h6, h7⟩ | ⟨t, h6, h7⟩
    · have h8 : es' = [] := by simpa using h6
      subst h8
      cases h
      obtain ⟨t, ht, hm⟩ := h2
      dsimp only at ht hm
      refine ⟨t, ht, ?_⟩
      rw [h7]
      unfold Group.finishFlip
      simp only [h4]
      simp only [Group.toElem, List.reverse_nil]
      congr 2
      rw [Mat.refresh] at hm ⊢
      cases m
      simp_all
    · refine ⟨t, h6, ?_⟩
      rw [h7]
      unfold Group.finishFlip
      simp only [Mat.refresh, h4, Group.toElem, List.nil_append]
  obtain ⟨t, h6, h7⟩ := hflip
  refine ⟨t, h6, h7, ?_⟩
  unfold Elem.Tidy
  exact ⟨ht', ⟨t, h6, rfl⟩, hc', h4⟩

/-- the indices of a flipped group -/
theorem flip_indices {air : Bool} {m m' : Mat (Ext K)} {c} {es es' : List (Elem (Ext K))}
    (ht : (Elem.group m c es).Tidy air) (ht' : (Elem.group m' c es'.reverse).Tidy air)
    (h : List.Forall₂ (FlipOf air) es es') : m'.sys.nf = m.sys.nb ∧ m'.sys.nb = m.sys.nf := by
  cases air with
  | true =>
    have h1 := ht.inAir
    have h2 := ht'.inAir
    simp only [Elem.mat] at h1 h2
    rw [h1.1, h1.2, h2.1, h2.2]; exact ⟨rfl, rfl⟩
  | false =>
    unfold Elem.Tidy at ht ht'
    have hh := ht.2.1.header ht.1.ok ht.2.2.1
    have hh' := ht'.2.1.header ht'.1.ok ht'.2.2.1
    have hrev : ∀ s, s ∈ sysList es'.reverse ↔ s ∈ sysList es' := by intro s; simp [sysList]
    by_cases hid : ∀ s ∈ sysList es, s.IsId
    · have hid' : ∀ s ∈ sysList es'.reverse, s.IsId := by
        intro s hs
        exact forall₂_isId ((h.flip).imp fun _ _ hab => FlipOf.symm hab) hid s ((hrev s).1 hs)
      rw [(hh.allId hid).1, (hh.allId hid).2, (hh'.allId hid').1, (hh'.allId hid').2]; exact ⟨rfl, rfl⟩
    · have hid' : ¬ ∀ s ∈ sysList es'.reverse, s.IsId := fun hq => hid (forall₂_isId h fun s hs => hq s ((hrev s).2 hs))
      push Not at hid hid'
      have hne : es' ≠ [] := by
        rintro rfl; obtain ⟨s, hs, -⟩ := hid'; simp [sysList] at hs
      constructor
      · obtain ⟨e, he, hfe⟩ := forall₂_getLast h _ (List.getLast?_eq_some_getLast hne)
        rw [hh.last hid e he, ← hfe.nf]
        exact hh'.first hid' _ (by rw [List.head?_reverse]; exact List.getLast?_eq_some_getLast hne)
      · obtain ⟨e, he, hfe⟩ := forall₂_head h _ (List.head?_eq_some_head hne)
        rw [hh.first hid e he, ← hfe.nb]
        exact hh'.last hid' _ (by rw [List.getLast?_reverse]; exact List.head?_eq_some_head hne)

mutual
/-- Tidy trees flip, and flipping again gives back exactly the same tree. -/
theorem Elem.Tidy.flip {air : Bool} : ∀ {e : Elem (Ext K)}, e.Tidy air → ∃ e', FlipOf air e e'
  | .leaf m, h => by
    have ht := h
    unfold Elem.Tidy at h
    obtain ⟨m', h1⟩ := h.flip.flip
    refine ⟨.leaf m', ?_, ?_, ht, ?_, h1.nf, h1.nb, h1.len, fun ha => (h1.rev (h.rev ha)).2⟩
    · unfold Elem.flip; rw [h1.flip]
    · unfold Elem.flip; rw [h1.back]
    · unfold Elem.Tidy
      refine ⟨h1.ok, fun ha => ?_, fun ha => (h1.rev (h.rev ha)).1⟩
      rw [h1.nf, h1.nb]; exact (h.inAir ha).symm
  | .group m c es, h => by
    have ht := h
    unfold Elem.Tidy at h
    obtain ⟨es', h2⟩ := TidyList.flip h.1
    obtain ⟨t, h3, h4, h5⟩ := flip_group ht h2
    have h2' : List.Forall₂ (FlipOf air) es'.reverse es.reverse := by
      refine List.forall₂_reverse_iff.2 ?_
      exact (h2.flip).imp fun _ _ hab => FlipOf.symm hab
    obtain ⟨t', h6, h7, -⟩ := flip_group h5 h2'
    have hf := h.2.1.header h.1.ok h.2.2.1
    have hn := flip_indices ht h5 h2
    have h5' := h5
    unfold Elem.Tidy at h5'
    have hf' := h5'.2.1.header h5'.1.ok h5'.2.2.1
    refine ⟨_, h4, ?_, ht, h5, hn.1, hn.2, ?_, ?_⟩
    · rw [h7]
      simp only [List.reverse_reverse, Prod.mk.injEq, Elem.group.injEq, true_and, and_true]
      obtain ⟨t0, h8, h9⟩ := h.2.1
      dsimp only at h8 h9
      rw [List.reverse_reverse, h8] at h6; cases h6
      conv_rhs => rw [h9]
      simp [Mat.refresh]
    · simp only [Elem.mat]
      rw [hf'.len, hf.len, ← forall₂_len h2]
      simp [sysList]
    · intro ha
      subst ha
      intro y θ
      simp only [Elem.mat]
      rw [show (m.sys.outY y θ, -m.sys.outθ y θ) = ((m.sys.out (y, θ)).1, -(m.sys.out (y, θ)).2) from rfl]
      rw [hf'.out, hf.out]
      have := forall₂_rev h2 (y, θ)
      simpa [sysList] using this
theorem TidyList.flip {air : Bool} : ∀ {es : List (Elem (Ext K))}, TidyList air es →
    ∃ es', List.Forall₂ (FlipOf air) es es'
  | [], _ => ⟨[], .nil⟩
  | e :: es, h => by
    unfold TidyList at h
    obtain ⟨e', h1⟩ := Elem.Tidy.flip h.1
    obtain ⟨es', h2⟩ := TidyList.flip h.2
    exact ⟨e' :: es', .cons h1 h2⟩
end

theorem TidyList_append {air : Bool} {es fs : List (Elem (Ext K))} :
    TidyList air (es ++ fs) ↔ TidyList air es ∧ TidyList air fs := by
  simp only [TidyList_iff, List.mem_append]
  constructor
  · intro h; exact ⟨fun e he => h e (.inl he), fun e he => h e (.inr he)⟩
  · rintro ⟨h1, h2⟩ e (he | he)
    · exact h1 e he
    · exact h2 e he

theorem Elem.Tidy.setIndices {air : Bool} {e : Elem (Ext K)} (h : e.Tidy air) (hs : e.isSpace = true) {n : K}
    (hn : n ≠ 0) (ha : air = true → n = 1) : (e.setIndices (fin n)).Tidy air := by
  cases e with
  | group m c es =>
    unfold Elem.Tidy at h
    unfold Elem.isSpace Elem.mat at hs
    simp [h.2.2.2] at hs
  | leaf m =>
    unfold Elem.Tidy at h
    have hg := Elem.Good.setIndices (e := .leaf m) (by unfold Elem.Good; exact h.flip.good) hs hn
    have hk : m.kind = .space := by
      unfold Elem.isSpace Elem.mat at hs
      cases hk : m.kind <;> simp_all
    unfold Elem.setIndices Elem.Good at hg
    unfold Elem.setIndices Elem.Tidy
    have hsp := hg.space hk
    refine ⟨⟨hg, fun _ => rfl, fun hq => ?_, ⟨?_, ?_⟩, h.flip.linear⟩, fun h' => ?_, fun _ => ⟨?_, ?_⟩⟩
    · simp [hk] at hq
    · simp [hk]
    · simp [hk]
    · have := ha h'; subst this; exact ⟨rfl, rfl⟩
    · simp [hk]
    · intro _; rw [hsp]; rfl

theorem append_tidy {air : Bool} {g g' : Group (Ext K)} {e : Elem (Ext K)} (hg : TidyList air g.elems) (he : e.Tidy air)
    (h : g.append e = (g', .ok ())) : TidyList air g'.elems := by
  rcases g.append_cases e with ⟨h', -⟩ | ⟨e', h', -, hl⟩
  · rw [h] at h'; simp at h'
  · rw [h] at h'
    have : g'.elems = g.elems ++ [e'] := by rw [← Group.push_elems, ← h']
    rw [this, TidyList_append]
    refine ⟨hg, ?_⟩
    unfold TidyList TidyList
    refine ⟨?_, trivial⟩
    cases hlast : g.elems.getLast? with
    | none =>
      have h2 : g.append e = g.push e := by unfold Group.append; rw [hlast]
      rw [h, h'] at h2
      have := congrArg (fun p => p.1.elems) h2
      simp only [Group.push_elems, List.append_cancel_left_eq, List.cons.injEq, and_true] at this
      rw [this]; exact he
    | some last =>
      rcases hl last hlast with ⟨rfl, -⟩ | ⟨hs, rfl⟩
      · exact he
      · have ht := TidyList_iff.1 hg last (List.mem_of_getLast? hlast)
        rw [ht.ok.den.nb]
        refine he.setIndices hs ht.ok.lawful.2.1 fun ha => ?_
        subst ha
        exact ht.inAir.2

theorem appendAll_tidy {air : Bool} {g g' : Group (Ext K)} {es : List (Elem (Ext K))} (hg : TidyList air g.elems)
    (he : TidyList air es) (h : g.appendAll es = (g', .ok ())) : TidyList air g'.elems := by
  induction es generalizing g with
  | nil => simp only [Group.appendAll, Prod.mk.injEq, and_true] at h; subst h; exact hg
  | cons e es ih =>
    obtain ⟨g1, h1, h2⟩ := Group.appendAll_cons_ok h
    unfold TidyList at he
    exact ih (append_tidy hg he.1 h1) he.2 h2

mutual
/-- A flippable program builds a tidy tree. -/
theorem build_tidy {air : Bool} : ∀ {p : Part K}, p.Valid → p.Flippable air → ∀ {e : Elem (Ext K)}, p.build = .ok e →
    e.Tidy air
  | .space d n diam, hv, hfl, e, hb => by
    unfold Part.build at hb
    obtain ⟨m, h1, rfl⟩ := Except.map_ok hb
    obtain ⟨hn, hd, rfl⟩ := mkSpace_ok h1
    unfold Part.Flippable at hfl
    unfold Elem.Tidy
    have hs := (spaceMat_den d n (optInf diam)).sys
    refine ⟨⟨spaceMat_good d _ hn, fun _ => by rw [hs]; rfl, (nomatch ·), ⟨(nomatch ·), (nomatch ·)⟩, fun _ _ => (nomatch ·)⟩, fun h => ?_,
      fun _ => ⟨(nomatch ·), fun _ => by rw [hs]; rfl⟩⟩
    rw [hs]; exact ⟨hfl h, hfl h⟩
  | .lens f diam, hv, hfl, e, hb => by
    unfold Part.build at hb
    obtain ⟨m, h1, rfl⟩ := Except.map_ok hb
    obtain ⟨hn, hd, rfl⟩ := mkLens_ok h1
    unfold Elem.Tidy
    have hs := (lensMat_den f (optInf diam)).sys
    refine ⟨⟨lensMat_good f _, fun _ => by rw [hs]; rfl, (nomatch ·), ⟨(nomatch ·), (nomatch ·)⟩, fun _ _ => (nomatch ·)⟩, fun h => ?_,
      fun _ => ⟨(nomatch ·), fun _ => by rw [hs]; rfl⟩⟩
    rw [hs]; exact ⟨rfl, rfl⟩
  | .mirror f diam, hv, hfl, e, hb => by
    unfold Part.build at hb
    obtain ⟨m, h1, rfl⟩ := Except.map_ok hb
    obtain ⟨hn, hd, rfl⟩ := mkCurvedMirror_ok h1
    unfold Part.Flippable at hfl
    unfold Elem.Tidy
    have hs := (mirrorMat_den f (optInf diam)).sys
    refine ⟨⟨mirrorMat_good f _, fun _ => by rw [hs]; rfl, fun _ => by rw [hs]; rfl, ⟨(nomatch ·), (nomatch ·)⟩, fun _ _ => (nomatch ·)⟩,
      fun h => ?_, fun h => ?_⟩
    · rw [hs]; exact ⟨rfl, rfl⟩
    · rw [hfl] at h; simp at h
  | .interface n1 n2 R diam, hv, hfl, e, hb => by
    unfold Part.build at hb
    obtain ⟨m, h1, rfl⟩ := Except.map_ok hb
    obtain ⟨hn, hR, hd, rfl⟩ := mkDielectric_ok h1
    unfold Part.Flippable at hfl
    unfold Elem.Tidy
    have hs := (interfaceMat_den n1 n2 (optInf R) (optInf diam)).sys
    refine ⟨⟨interfaceMat_good _ hv hn hR, (nomatch ·), (nomatch ·), ⟨(nomatch ·), (nomatch ·)⟩, fun _ _ => (nomatch ·)⟩, fun h => ?_,
      fun _ => ⟨(nomatch ·), (nomatch ·)⟩⟩
    rw [hs]; exact hfl h
  | .thickLens n R1 R2 t diam, hv, hfl, e, hb => by
    unfold Part.build at hb
    obtain ⟨m, h1, rfl⟩ := Except.map_ok hb
    obtain ⟨hn, hR1, hR2, hd, rfl⟩ := mkThickOf_ok h1
    unfold Elem.Tidy
    refine ⟨⟨thickMat_good t hn hR1 hR2 hd, (nomatch ·), (nomatch ·), ⟨(nomatch ·), (nomatch ·)⟩, fun _ _ => (nomatch ·)⟩, fun h => ?_,
      fun _ => ⟨(nomatch ·), (nomatch ·)⟩⟩
    rw [(thickMat_den _ _ _ _ _ hn).sys, Sys.thick_eq _ _ _ hn]; exact ⟨rfl, rfl⟩
  | .slab n t diam, hv, hfl, e, hb => by
    unfold Part.build mkSlab at hb
    obtain ⟨m, h1, rfl⟩ := Except.map_ok hb
    obtain ⟨hn, hR1, hR2, hd, rfl⟩ := mkThickOf_ok (R1 := none) (R2 := none) h1
    unfold Elem.Tidy
    refine ⟨⟨slabMat_good t hn hd, (nomatch ·), (nomatch ·), ⟨(nomatch ·), (nomatch ·)⟩, fun _ _ => (nomatch ·)⟩, fun h => ?_,
      fun _ => ⟨(nomatch ·), (nomatch ·)⟩⟩
    rw [(thickMat_den _ _ _ _ _ hn).sys, Sys.thick_eq _ _ _ hn]; exact ⟨rfl, rfl⟩
  | .aperture diam na label, hv, hfl, e, hb => by
    unfold Part.build at hb
    obtain ⟨m, h1, rfl⟩ := Except.map_ok hb
    obtain ⟨hn, hd, rfl⟩ := mkAperture_ok h1
    unfold Elem.Tidy
    have hs := (apertureMat_den (optInf diam : Ext K) (optInf na) label).sys
    refine ⟨⟨apertureMat_good _ _ _, fun _ => by rw [hs]; rfl, (nomatch ·), ⟨(nomatch ·), (nomatch ·)⟩, fun _ _ => (nomatch ·)⟩, fun h => ?_,
      fun _ => ⟨(nomatch ·), fun _ => by rw [hs]; rfl⟩⟩
    rw [hs]; exact ⟨rfl, rfl⟩
  | .matrix s fv bv diam, hv, hfl, e, hb => by
    unfold Part.build at hb
    obtain ⟨m, h1, rfl⟩ := Except.map_ok hb
    unfold Part.Valid at hv
    unfold Part.Flippable at hfl
    have hd := genericMat_den s fv bv diam
    obtain ⟨h2, -, -, h3⟩ := init_ok_facts hd h1
    have h4 : m = genericMat s fv bv diam := h3
    subst h4
    have hs := hd.sys
    unfold Elem.Tidy
    refine ⟨⟨matrix_good hd hv rfl, fun _ => by rw [hs]; exact hfl.1, (nomatch ·), ⟨(nomatch ·), (nomatch ·)⟩, fun _ _ => (nomatch ·)⟩, fun h => ?_,
      fun h => ⟨(nomatch ·), fun _ => by rw [hs]; exact hfl.2.2 h⟩⟩
    rw [hs]; exact ⟨hfl.2.1 h, hfl.1 ▸ hfl.2.1 h⟩
  | .group label ps, hv, hfl, e, hb => by
    have hb0 := hb
    unfold Part.build at hb
    split at hb
    · simp at hb
    · next fs hf =>
      obtain ⟨g, h1, rfl⟩ := Except.map_ok hb
      unfold Part.Valid at hv
      unfold Part.Flippable at hfl
      have hk : g.mat.kind = .group := build_group_kind _ hb0 _ _ _ rfl
      have h2 := buildList_tidy hv hfl hf
      have h4 := Group.new_eq h1
      have h5 := appendAll_tidy (air := air) (g := Group.empty label) (by simp [Group.empty, TidyList]) h2 h4
      have h7 : g.elems.IsChain Adjacent := by
        have := appendAll_adjacent (g := Group.empty label) fs (by simp [Group.empty])
        rwa [h4] at this
      unfold Group.toElem Elem.Tidy
      exact ⟨h5, Group.new_fresh h1, h7, hk⟩
theorem buildList_tidy {air : Bool} : ∀ {ps : List (Part K)}, Part.ValidList ps → Part.FlippableList air ps →
    ∀ {es : List (Elem (Ext K))}, Part.buildList ps = .ok es → TidyList air es
  | [], _, _, es, h => by
    simp only [Part.buildList, Except.ok.injEq] at h; subst h
    exact trivial
  | p :: ps, hv, hfl, es, h => by
    unfold Part.buildList at h
    split at h
    · simp at h
    · next e he =>
      split at h
      · simp at h
      · next fs hf =>
        simp only [Except.ok.injEq] at h
        subst h
        unfold Part.ValidList at hv
        unfold Part.FlippableList at hfl
        exact ⟨build_tidy hv.1 hfl.1 he, buildList_tidy hv.2 hfl.2 hf⟩
end

end RT
