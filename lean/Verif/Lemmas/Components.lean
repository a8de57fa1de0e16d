import Verif.Model.Components
import Verif.Lemmas.Matched

/-! # Groups of single elements in air -/

set_option linter.unusedSectionVars false

namespace RT
open PyNum Ext
variable {K : Type} [Field K] [LinearOrder K] [IsStrictOrderedRing K]

/-- a single element in air that denotes `s` -/
structure InAir (m : Mat (Ext K)) (s : Sys K) : Prop where
  den : Den m s
  lawful : s.Lawful
  nf : s.nf = 1
  nb : s.nb = 1

/-- the elements, as elements of a group -/
def singles (ms : List (Mat (Ext K))) : List (Elem (Ext K)) := ms.map .leaf

theorem inAir_ok {ms : List (Mat (Ext K))} {ss : List (Sys K)} (h : List.Forall₂ InAir ms ss) : OkList (singles ms) := by
  induction h with
  | nil => intro e he; simp [singles] at he
  | @cons m s ms ss h1 _ ih =>
    intro e he
    rcases List.mem_cons.1 he with rfl | he
    · refine ⟨?_, ?_⟩
      · simp only [Elem.mat]; rw [h1.den.sys]; exact h1.den
      · simp only [Elem.mat]; rw [h1.den.sys]; exact h1.lawful
    · exact ih e he

theorem inAir_index {ms : List (Mat (Ext K))} {ss : List (Sys K)} (h : List.Forall₂ InAir ms ss) :
    ∀ e ∈ singles ms, e.mat.frontIndex = fin 1 ∧ e.mat.backIndex = fin 1 := by
  induction h with
  | nil => intro e he; simp [singles] at he
  | @cons m s ms ss h1 _ ih =>
    intro e he
    rcases List.mem_cons.1 he with rfl | he
    · exact ⟨by simp [Elem.mat, h1.den.nf, h1.nf], by simp [Elem.mat, h1.den.nb, h1.nb]⟩
    · exact ih e he

theorem chain_of_index {es : List (Elem (Ext K))} (hm : ∀ e ∈ es, e.mat.frontIndex = fin 1 ∧ e.mat.backIndex = fin 1) :
    es.IsChain Adjacent := by
  induction es with
  | nil => exact .nil
  | cons e es ih =>
    refine List.isChain_cons.2 ⟨fun f hf => ?_, ih fun e he => hm e (by simp [he])⟩
    unfold Adjacent
    rw [(hm e (by simp)).2, (hm f (by simp [List.mem_of_mem_head? hf])).1]

theorem inAir_sysList {ms : List (Mat (Ext K))} {ss : List (Sys K)} (h : List.Forall₂ InAir ms ss) :
    sysList (singles ms) = ss := by
  induction h with
  | nil => rfl
  | @cons m s ms ss h1 _ ih =>
    simp only [sysList, singles, List.map_cons, Elem.mat, h1.den.sys] at ih ⊢
    rw [ih]

/-- the header computed from elements in air -/
theorem inAir_header {m : Mat (Ext K)} {c} {ms : List (Mat (Ext K))} {ss : List (Sys K)} (h : List.Forall₂ InAir ms ss)
    (hf : (⟨m, c, singles ms⟩ : Group (Ext K)).Fresh) :
    Den m { Sys.chain (Sys.one 1) ss with nf := 1, nb := 1 } := by
  have hh := hf.header (inAir_ok h) (chain_of_index (inAir_index h))
  obtain ⟨h1, h2, h3, h4, h5⟩ := hh.same
  rw [inAir_sysList h] at h1 h2 h3 h4 h5
  have hd := hh.den
  have hi : m.sys.nf = 1 ∧ m.sys.nb = 1 := by
    by_cases hall : ∀ s ∈ sysList (singles ms), s.IsId
    · exact hh.allId hall
    · push Not at hall
      obtain ⟨s, hs, hs'⟩ := hall
      have hne : singles ms ≠ [] := by
        intro h0; rw [h0] at hs; simp [sysList] at hs
      have hx := inAir_index h
      have hok := inAir_ok h
      obtain ⟨a, ha⟩ : ∃ a, (singles ms).head? = some a := by
        cases hl : singles ms with
        | nil => exact absurd hl hne
        | cons a as => exact ⟨a, rfl⟩
      have hb : ∃ b, (singles ms).getLast? = some b := ⟨_, List.getLast?_eq_some_getLast hne⟩
      obtain ⟨b, hb⟩ := hb
      have ha' := List.mem_of_mem_head? (Option.mem_def.2 ha)
      have hb' : b ∈ singles ms := List.mem_of_getLast? hb
      refine ⟨?_, ?_⟩
      · rw [hh.first ⟨s, hs, hs'⟩ a ha]
        have := (hx a ha').1
        rw [(hok a ha').den.nf] at this
        simpa using this
      · rw [hh.last ⟨s, hs, hs'⟩ b hb]
        have := (hx b hb').2
        rw [(hok b hb').den.nb] at this
        simpa using this
  refine ⟨?_, ?_, ?_, ?_, ?_, ?_, ?_⟩
  · rw [hd.A, h1]
  · rw [hd.B, h2]
  · rw [hd.C, h3]
  · rw [hd.D, h4]
  · rw [hd.L, h5]
  · rw [hd.nf, hi.1]
  · rw [hd.nb, hi.2]

/-- A group of single elements in air: it can be made, keeps the elements, and has the entries of the chain. -/
theorem inAir_new {ms : List (Mat (Ext K))} {ss : List (Sys K)} (h : List.Forall₂ InAir ms ss) (label : String) :
    ∃ m, Group.new (singles ms) label = .ok ⟨m, none, singles ms⟩ ∧
      Den m { Sys.chain (Sys.one 1) ss with nf := 1, nb := 1 } ∧ m.isFlipped = false := by
  obtain ⟨g, h1, h2⟩ := new_exact (inAir_ok h) (chain_of_index (inAir_index h)) label
  obtain ⟨m, c, es⟩ := g
  dsimp only at h2
  subst h2
  have hc : c = none ∧ m.isFlipped = false := by
    have h3 := Group.new_eq h1
    have key : ∀ (es : List (Elem (Ext K))) (g g' : Group (Ext K)), g.appendAll es = (g', .ok ()) →
        g'.cache = g.cache ∧ g'.mat.isFlipped = g.mat.isFlipped := by
      intro es
      induction es with
      | nil => intro g g' hh; simp only [Group.appendAll, Prod.mk.injEq, and_true] at hh; subst hh; exact ⟨rfl, rfl⟩
      | cons e es ih =>
        intro g g' hh
        obtain ⟨g1, h4, h5⟩ := Group.appendAll_cons_ok hh
        obtain ⟨h6, h7⟩ := ih g1 g' h5
        have hp : ∀ e, (g.push e).1.cache = g.cache ∧ (g.push e).1.mat.isFlipped = g.mat.isFlipped := by
          intro e; unfold Group.push; dsimp only; split <;> exact ⟨rfl, rfl⟩
        rcases g.append_cases e with ⟨h', -⟩ | ⟨e', h', -, -⟩
        · rw [h4] at h'; simp at h'
        · rw [h4] at h'
          obtain ⟨h8, h9⟩ := hp e'
          rw [← h'] at h8 h9
          exact ⟨h6.trans h8, h7.trans h9⟩
    obtain ⟨h4, h5⟩ := key _ _ _ h3
    exact ⟨h4, h5⟩
  obtain ⟨rfl, hfl⟩ := hc
  refine ⟨m, h1, inAir_header h (Group.new_fresh h1), hfl⟩

/-- the elements whose flipping only exchanges vertices and indices -/
def Mat.PlainFlip (m : Mat (Ext K)) : Prop := m.flip = (m.flipBase, .ok ())

theorem InAir.flip {m : Mat (Ext K)} {s : Sys K} (h : InAir m s) : InAir m.flipBase s := by
  refine ⟨⟨h.den.A, h.den.B, h.den.C, h.den.D, h.den.L, ?_, ?_⟩, h.lawful, h.nf, h.nb⟩
  · exact h.den.nb.trans (by rw [h.nf, h.nb])
  · exact h.den.nf.trans (by rw [h.nf, h.nb])

theorem flipList_plain {ms : List (Mat (Ext K))} (h : ∀ m ∈ ms, m.PlainFlip) :
    flipList (singles ms) = (singles (ms.map Mat.flipBase)).map fun e => (e, .ok ()) := by
  induction ms with
  | nil => rfl
  | cons m ms ih =>
    have h1 : m.flip = (m.flipBase, .ok ()) := h m (by simp)
    have h2 := ih fun m hm => h m (by simp [hm])
    simp only [singles, List.map_cons, flipList, Elem.flip] at h2 ⊢
    rw [h1, h2]

/-- Flipping an objective made of single elements in air. -/
theorem objective_flip {m : Mat (Ext K)} (hk : m.kind = .objective) {c} {ms : List (Mat (Ext K))} {ss : List (Sys K)}
    (h : List.Forall₂ InAir ms ss) (hp : ∀ m ∈ ms, m.PlainFlip) (hne : ms ≠ []) :
    ∃ t, (Elem.group m c (singles ms)).flip =
        (.group (objectiveVertices (({ m with isFlipped := !m.isFlipped } : Mat (Ext K)).refresh t) 0
          (singles (ms.map Mat.flipBase).reverse)) c (singles (ms.map Mat.flipBase).reverse), .ok ()) ∧
      Den t { Sys.chain (Sys.one 1) ss.reverse with nf := 1, nb := 1 } := by
  have h' : List.Forall₂ InAir (ms.map Mat.flipBase).reverse ss.reverse := by
    refine List.rel_reverse ?_
    clear hp hne
    induction h with
    | nil => exact .nil
    | cons h1 _ ih => exact .cons h1.flip ih
  have hfl : (flipList (singles ms)).reverse = (singles (ms.map Mat.flipBase).reverse).map fun e => (e, .ok ()) := by
    rw [flipList_plain hp]
    simp [singles]
  have hne' : singles (ms.map Mat.flipBase).reverse ≠ [] := by
    cases ms with
    | nil => exact absurd rfl hne
    | cons a as => simp [singles]
  rcases appendFlipped_exact (fs := singles (ms.map Mat.flipBase).reverse)
      (g := { mat := { m with isFlipped := !m.isFlipped }, cache := c, elems := [] }) (inAir_ok h')
      (chain_of_index (inAir_index h')) with ⟨h6, -⟩ | ⟨t, h6, h7⟩
  · exact absurd h6 hne'
  · refine ⟨t, ?_, ?_⟩
    · unfold Elem.flip
      rw [hfl, h7]
      unfold Group.finishFlip
      simp only [Mat.refresh, hk, Group.toElem, List.nil_append]
    · have := inAir_header (m := ({ m with isFlipped := !m.isFlipped } : Mat (Ext K)).refresh t) (c := c) h' ⟨t, h6, rfl⟩
      exact ⟨this.A, this.B, this.C, this.D, this.L, this.nf, this.nb⟩

end RT
