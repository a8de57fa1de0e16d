import Verif.Lemmas.FlipTree

/-! # Groups of elements with matching media can always be made -/

set_option linter.unusedSectionVars false

namespace RT
open PyNum Ext
variable {K : Type} [Field K] [LinearOrder K] [IsStrictOrderedRing K]

theorem appendAll_exact : ∀ {es : List (Elem (Ext K))} {g : Group (Ext K)}, OkList (g.elems ++ es) →
    (g.elems ++ es).IsChain Adjacent → ∃ g', g.appendAll es = (g', .ok ()) ∧ g'.elems = g.elems ++ es
  | [], g, _, _ => ⟨g, rfl, by simp⟩
  | f :: fs, g, hg, hc => by
    have e1 : g.elems ++ f :: fs = (g.elems ++ [f]) ++ fs := by simp
    rw [e1] at hg hc
    have hg1 : OkList (g.elems ++ [f]) := fun e he => hg e (List.mem_append_left _ he)
    obtain ⟨t, h1, h2⟩ := append_exact hg1 (List.isChain_append.1 hc).1
    obtain ⟨g', h3, h4⟩ := appendAll_exact (g := ⟨g.mat.refresh t, g.cache, g.elems ++ [f]⟩) hg hc
    refine ⟨g', ?_, by rw [h4, e1]⟩
    simp only [Group.appendAll, h2]
    exact h3

theorem new_exact {es : List (Elem (Ext K))} (hg : OkList es) (hc : es.IsChain Adjacent) (label : String) :
    ∃ g, Group.new es label = .ok g ∧ g.elems = es := by
  obtain ⟨g, h1, h2⟩ := appendAll_exact (g := Group.empty label) (es := es) (by simpa [Group.empty] using hg)
    (by simpa [Group.empty] using hc)
  refine ⟨g, ?_, by simpa [Group.empty] using h2⟩
  unfold Group.new
  rw [h1]

theorem cleanList_leaves {es : List (Elem (Ext K))} (h : ∀ e ∈ es, ∃ m, e = .leaf m) : CleanList es := by
  induction es with
  | nil => trivial
  | cons e es ih =>
    obtain ⟨m, rfl⟩ := h e (by simp)
    exact ⟨trivial, ih fun e he => h e (by simp [he])⟩

/-- A group of single elements with matching media, the first one in air, can always be made. -/
theorem leaf_group {ps : List (Part K)} {es : List (Elem (Ext K))} (hv : Part.ValidList ps)
    (hes : Part.buildList ps = .ok es) (hl : ∀ e ∈ es, ∃ m, e = .leaf m) (hc : es.IsChain Adjacent)
    (h1 : ∀ e ∈ es.head?, e.mat.frontIndex = fin 1) (label : String) :
    ∃ e, (Part.group label ps).build = .ok e ∧ e.Clean ∧ (Part.group label ps).Valid := by
  have hgood := (buildList_good hv hes (cleanList_leaves hl)).1
  have hok : OkList es := fun e he => ⟨(GoodList_iff.1 hgood e he).den, (GoodList_iff.1 hgood e he).lawful⟩
  obtain ⟨g, h2, -⟩ := new_exact hok hc label
  exact ⟨g.toElem, by simp only [Part.build, hes, h2, Except.map], new_leaves_clean h2 hl hgood h1, hv⟩

/-- The parts in air that a list of thin lenses, mirrors, apertures and spaces is made of. -/
inductive Part.Simple : Part K → Prop
  | space (d : K) (diam : Option K) : DiamOk (optInf diam) → Part.Simple (.space d 1 diam)
  | lens {f : K} (diam : Option K) : f ≠ 0 → DiamOk (optInf diam) → Part.Simple (.lens f diam)

theorem Part.Simple.build {p : Part K} (h : p.Simple) : ∃ m, p.build = .ok (.leaf m) ∧ m.frontIndex = fin 1 ∧
    m.backIndex = fin 1 := by
  cases h with
  | space d diam hd =>
    exact ⟨_, by simp only [Part.build, mkSpace_eq d one_ne_zero hd]; rfl, rfl, rfl⟩
  | lens diam hf hd =>
    refine ⟨lensMat _ (optInf diam), by simp only [Part.build, mkLens_eq hf hd]; rfl, ?_, ?_⟩ <;> simp [lensMat, Mat.one]

theorem Part.Simple.valid {p : Part K} (h : p.Simple) : p.Valid := by
  cases h <;> simp [Part.Valid]

/-- A group of spaces and lenses in air can always be made. -/
theorem simple_group {ps : List (Part K)} (h : ∀ p ∈ ps, p.Simple) (label : String) :
    ∃ e, (Part.group label ps).build = .ok e ∧ e.Clean ∧ (Part.group label ps).Valid := by
  have hv : Part.ValidList ps := by
    induction ps with
    | nil => trivial
    | cons p ps ih => exact ⟨(h p (by simp)).valid, ih fun q hq => h q (by simp [hq])⟩
  have hl : ∃ es, Part.buildList ps = .ok es ∧
      (∀ e ∈ es, ∃ m, e = .leaf m ∧ m.frontIndex = fin 1 ∧ m.backIndex = fin 1) := by
    clear hv
    induction ps with
    | nil => exact ⟨[], rfl, by simp⟩
    | cons p ps ih =>
      obtain ⟨m, h1, h2, h3⟩ := (h p (by simp)).build
      obtain ⟨es, h4, h5⟩ := ih fun q hq => h q (by simp [hq])
      refine ⟨.leaf m :: es, by simp only [Part.buildList, h1, h4], ?_⟩
      intro e he
      rcases List.mem_cons.1 he with rfl | he
      · exact ⟨m, rfl, h2, h3⟩
      · exact h5 e he
  obtain ⟨es, hes, hm⟩ := hl
  have hch : es.IsChain Adjacent := by
    clear hes
    induction es with
    | nil => exact .nil
    | cons e es ih =>
      refine List.isChain_cons.2 ⟨fun f hf => ?_, ih fun e he => hm e (by simp [he])⟩
      obtain ⟨m, rfl, -, h1⟩ := hm e (by simp)
      obtain ⟨m', rfl, h2, -⟩ := hm f (by simp [List.mem_of_mem_head? hf])
      unfold Adjacent Elem.mat
      rw [h1, h2]
  refine leaf_group hv hes (fun e he => ?_) hch (fun e he => ?_) label
  · obtain ⟨m, h, -⟩ := hm e he
    exact ⟨m, h⟩
  · obtain ⟨m, rfl, h, -⟩ := hm e (List.mem_of_mem_head? he)
    exact h

end RT
