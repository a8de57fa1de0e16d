import Verif.Props.Beam

/-! # C106: cavities folded with `appendElementsInReverse` -/

set_option linter.unusedSectionVars false

namespace RT
open PyNum Ext
variable {K : Type} [Field K] [LinearOrder K] [IsStrictOrderedRing K]
variable {F : Type} [PyNum F]

/-- **C106** (elements). After `appendElementsInReverse(skipFirstElement, skipLastElement)` the elements are those of a way forth and back,
the last one once or twice, and the first one once or twice. -/
theorem C106_elements (g : Group F) {first last : Elem F} {mid : List (Elem F)} (h : g.elems = first :: (mid ++ [last])) :
    (g.appendElementsInReverse false false).elems = first :: (mid ++ [last, last] ++ mid.reverse ++ [first]) ∧
    (g.appendElementsInReverse true false).elems = first :: (mid ++ [last, last] ++ mid.reverse) ∧
    (g.appendElementsInReverse false true).elems = first :: (mid ++ [last] ++ mid.reverse ++ [first]) ∧
    (g.appendElementsInReverse true true).elems = first :: (mid ++ [last] ++ mid.reverse) := by
  have e : first :: (mid ++ [last]) = (first :: mid) ++ [last] := rfl
  refine ⟨?_, ?_, ?_, ?_⟩
  · simp [Group.appendElementsInReverse, h]
  · simp [Group.appendElementsInReverse, h]
  · simp only [Group.appendElementsInReverse, h, Bool.false_eq_true, if_false, if_true]
    rw [e, List.dropLast_concat]
    simp
  · simp [Group.appendElementsInReverse, h]

/-- **C106** (elements), for cavities of less than two elements: nothing is added when the only one is skipped. -/
theorem C106_short (g : Group F) :
    (g.elems = [] → ∀ a b, (g.appendElementsInReverse a b).elems = []) ∧
    (∀ e, g.elems = [e] → (g.appendElementsInReverse false false).elems = [e, e] ∧
      ∀ a b, (a || b) = true → (g.appendElementsInReverse a b).elems = [e]) := by
  refine ⟨fun h a b => ?_, fun e h => ⟨?_, fun a b hab => ?_⟩⟩
  · cases a <;> cases b <;> simp [Group.appendElementsInReverse, h]
  · simp [Group.appendElementsInReverse, h]
  · cases a <;> cases b <;> simp_all [Group.appendElementsInReverse]

/-- the way back through a system that is the same from behind, in air: `A` and `D` are exchanged -/
def Sys.turned (s : Sys K) : Sys K := ⟨s.d, s.b, s.c, s.a, s.len, s.nb, s.nf⟩

theorem Sys.turned_andThen (s t : Sys K) : (s.andThen t).turned = t.turned.andThen s.turned := by
  simp only [Sys.turned, Sys.andThen, Sys.mk.injEq]
  refine ⟨?_, ?_, ?_, ?_, ?_, trivial, trivial⟩ <;> ring

theorem chain_head (l : List (Sys K)) (s t : Sys K) : Sys.chain (s.andThen t) l = s.andThen (Sys.chain t l) := by
  induction l generalizing t with
  | nil => rfl
  | cons x l ih =>
    unfold Sys.chain at ih ⊢
    rw [List.foldl_cons, List.foldl_cons, Sys.andThen_assoc, ih]

theorem chain_append_one (l : List (Sys K)) (s t : Sys K) : Sys.chain s (l ++ [t]) = (Sys.chain s l).andThen t := by
  simp [Sys.chain]

theorem one_andThen_air (s : Sys K) (h : s.nf = 1) : (Sys.one 1).andThen s = s := by
  cases s; simp_all [Sys.andThen, Sys.one]

theorem andThen_one_air (s : Sys K) (h : s.nb = 1) : s.andThen (Sys.one 1) = s := by
  cases s; simp_all [Sys.andThen, Sys.one]

theorem chain_air {l : List (Sys K)} (h : ∀ s ∈ l, s.nf = 1 ∧ s.nb = 1) {s0 : Sys K} (h0 : s0.nf = 1 ∧ s0.nb = 1) :
    (Sys.chain s0 l).nf = 1 ∧ (Sys.chain s0 l).nb = 1 := by
  induction l generalizing s0 with
  | nil => exact h0
  | cons x l ih => exact ih (fun s hs => h s (by simp [hs])) ⟨h0.1, (h x (by simp)).2⟩

/-- the list met in the reverse order, each system turned, is the whole turned -/
theorem chain_reverse_turned {l : List (Sys K)} (h : ∀ s ∈ l, s.nf = 1 ∧ s.nb = 1) :
    Sys.chain (Sys.one 1) (l.map Sys.turned).reverse = (Sys.chain (Sys.one 1) l).turned := by
  induction l with
  | nil => rfl
  | cons x l ih =>
    have hx := h x (by simp)
    have hl : ∀ s ∈ l, s.nf = 1 ∧ s.nb = 1 := fun s hs => h s (by simp [hs])
    rw [List.map_cons, List.reverse_cons, chain_append_one, ih hl]
    have e : Sys.chain (Sys.one 1) (x :: l) = x.andThen (Sys.chain (Sys.one 1) l) := by
      rw [← chain_head, andThen_one_air x hx.2]
      show Sys.chain ((Sys.one 1).andThen x) l = _
      rw [one_andThen_air x hx.1]
    rw [e, Sys.turned_andThen]

/-- **C106** (round trip). A cavity in air of elements that are the same from behind, folded without skipping the first element: the matrix of
its elements has `A = D`, unit determinant, and the length of the way forth and back. -/
theorem C106_symmetric {g : Group (Ext K)} {ss : List (Sys K)} (hd : DenList g.elems ss)
    (hs : ∀ s ∈ ss, s.nf = 1 ∧ s.nb = 1 ∧ s.det = 1 ∧ s.a = s.d) (skipLast : Bool) :
    ∃ t u, transferMatrixList (g.appendElementsInReverse false skipLast).elems inf Mat.one = .ok t ∧ Den t u ∧ u.a = u.d ∧ u.det = 1 ∧
      u.len = (ss.map Sys.len).sum + ((if skipLast then ss.dropLast else ss).map Sys.len).sum := by
  set l : List (Sys K) := ss ++ (if skipLast then ss.dropLast else ss).reverse with hl
  have hden : DenList (g.appendElementsInReverse false skipLast).elems l := by
    unfold Group.appendElementsInReverse
    refine List.rel_append hd ?_
    rw [List.forall₂_reverse_iff]
    cases skipLast
    · exact hd
    · simp only [Bool.false_eq_true, if_false, if_true]
      rw [List.dropLast_eq_take, List.dropLast_eq_take, hd.length_eq]
      exact List.forall₂_take _ hd
  have hmem : ∀ s ∈ l, s ∈ ss := by
    intro s h
    rw [hl, List.mem_append, List.mem_reverse] at h
    rcases h with h | h
    · exact h
    · cases skipLast
      · exact h
      · exact List.dropLast_subset _ h
  have hall : ∀ s ∈ l, s.nf = 1 ∧ s.nb = 1 ∧ s.det = 1 ∧ s.a = s.d := fun s h => hs s (hmem s h)
  have hlaw : ∀ s ∈ l, s.Lawful := by
    intro s h
    obtain ⟨h1, h2, h3, -⟩ := hall s h
    unfold Sys.Lawful
    rw [h1, h2, h3]; simp
  have hmat : ∀ {l : List (Sys K)}, (∀ s ∈ l, s.nf = 1 ∧ s.nb = 1 ∧ s.det = 1 ∧ s.a = s.d) → Sys.Matched 1 l := by
    intro l h
    induction l with
    | nil => trivial
    | cons x l ih =>
      obtain ⟨h1, h2, -⟩ := h x (by simp)
      refine ⟨h1, ?_⟩
      rw [h2]; exact ih fun s hs => h s (by simp [hs])
  obtain ⟨t, u, h1, h2, h3, h4, -⟩ := fullTransfer hden hlaw (hmat hall)
  -- the list is the same in the reverse order, and each element is the same from behind
  have hpal : l.reverse = l := by
    rw [hl]
    cases skipLast
    · simp
    · simp only [if_true, List.reverse_append, List.reverse_reverse]
      cases List.eq_nil_or_concat ss with
      | inl h => simp [h]
      | inr h =>
        obtain ⟨r, x, rfl⟩ := h
        simp
  have hturn : l.map Sys.turned = l := by
    rw [List.map_congr_left (g := id), List.map_id]
    intro s h
    obtain ⟨e1, e2, -, e3⟩ := hall s h
    cases s; simp_all [Sys.turned]
  have key := chain_reverse_turned (fun s h => ⟨(hall s h).1, (hall s h).2.1⟩ : ∀ s ∈ l, s.nf = 1 ∧ s.nb = 1)
  rw [hturn, hpal] at key
  have had : (Sys.chain (Sys.one 1) l).a = (Sys.chain (Sys.one 1) l).d := by
    have := congrArg Sys.a key
    simpa [Sys.turned] using this
  have hdet : ∀ {l : List (Sys K)} {s0 : Sys K}, (∀ s ∈ l, s.det = 1) → (Sys.chain s0 l).det = s0.det := by
    intro l
    induction l with
    | nil => intros; rfl
    | cons x l ih =>
      intro s0 h
      show (Sys.chain (s0.andThen x) l).det = _
      rw [ih fun s hs => h s (by simp [hs]), Sys.andThen_det, h x (by simp), mul_one]
  have hlen : ∀ (l : List (Sys K)) (s0 : Sys K), (Sys.chain s0 l).len = s0.len + (l.map Sys.len).sum := by
    intro l
    induction l with
    | nil => intro s0; simp [Sys.chain]
    | cons x l ih =>
      intro s0
      show (Sys.chain (s0.andThen x) l).len = _
      rw [ih, List.map_cons, List.sum_cons]
      simp only [Sys.andThen]; ring
  refine ⟨t, u, h1, h2, ?_, ?_, ?_⟩
  · rw [h4.1, h4.2.2.2.1, had]
  · have := hdet (s0 := Sys.one 1) (fun s h => (hall s h).2.2.1 : ∀ s ∈ l, s.det = 1)
    simp only [Sys.det, h4.1, h4.2.1, h4.2.2.1, h4.2.2.2.1] at this ⊢
    rw [this]; simp [Sys.one]
  · rw [h4.2.2.2.2, hlen, hl]
    simp [Sys.one]

/-- **C106** (after an edit). The next element appended makes the matrix of the cavity that of all its elements, the way back included. -/
theorem C106_append {g g' : Group F} {a b : Bool} {e : Elem F} (h : (g.appendElementsInReverse a b).append e = (g', .ok ())) :
    ∃ t, transferMatrixList g'.elems inf Mat.one = .ok t ∧ g'.mat.A = t.A ∧ g'.mat.B = t.B ∧ g'.mat.C = t.C ∧ g'.mat.D = t.D ∧
      ∃ e', g'.elems = (g.appendElementsInReverse a b).elems ++ [e'] ∧ e'.mat.A = e.mat.A ∧ e'.mat.B = e.mat.B ∧ e'.mat.C = e.mat.C ∧
        e'.mat.D = e.mat.D := by
  have push : ∀ e', (g.appendElementsInReverse a b).push e' = (g', .ok ()) →
      ∃ t, transferMatrixList g'.elems inf Mat.one = .ok t ∧ g'.mat.A = t.A ∧ g'.mat.B = t.B ∧ g'.mat.C = t.C ∧ g'.mat.D = t.D ∧
        g'.elems = (g.appendElementsInReverse a b).elems ++ [e'] := by
    intro e' h
    unfold Group.push at h
    dsimp only at h
    split at h
    · simp at h
    · next t ht =>
      simp only [Prod.mk.injEq, and_true] at h
      subst h
      exact ⟨t, ht, rfl, rfl, rfl, rfl, rfl⟩
  unfold Group.append at h
  split at h
  · obtain ⟨t, h1, h2, h3, h4, h5, h6⟩ := push _ h
    exact ⟨t, h1, h2, h3, h4, h5, e, h6, rfl, rfl, rfl, rfl⟩
  · split_ifs at h
    · obtain ⟨t, h1, h2, h3, h4, h5, h6⟩ := push _ h
      refine ⟨t, h1, h2, h3, h4, h5, _, h6, ?_⟩
      cases e <;> exact ⟨rfl, rfl, rfl, rfl⟩
    · simp at h
    · obtain ⟨t, h1, h2, h3, h4, h5, h6⟩ := push _ h
      exact ⟨t, h1, h2, h3, h4, h5, e, h6, rfl, rfl, rfl, rfl⟩

/-- **C106** is violated by every cavity: the modes and the stability reported after folding it are those of before, of the way forth only. -/
theorem C106_violated_modes (g : Group (Ext ℝ)) (a b : Bool) :
    (g.appendElementsInReverse a b).mat.eigenModes = g.mat.eigenModes ∧ (g.appendElementsInReverse a b).mat.laserModes = g.mat.laserModes ∧
    (g.appendElementsInReverse a b).mat.isStable = g.mat.isStable := ⟨rfl, rfl, rfl⟩

theorem group_two {m1 m2 : Mat (Ext ℝ)} {s1 s2 : Sys ℝ} (h1 : Den m1 s1) (h2 : Den m2 s2) (l1 : s1.Lawful) (l2 : s2.Lawful) (e1 : s1.nf = 1)
    (e12 : s1.nb = s2.nf) : ∃ g u, Group.new [.leaf m1, .leaf m2] = .ok g ∧ g.elems = [.leaf m1, .leaf m2] ∧ Den g.mat u ∧
      u.SameABCD (s1.andThen s2) := by
  have d1 : DenList [Elem.leaf m1] [s1] := .cons h1 .nil
  have d2 : DenList [Elem.leaf m1, Elem.leaf m2] [s1, s2] := .cons h1 (.cons h2 .nil)
  obtain ⟨t1, u1, a1, -⟩ := fullTransfer d1 (by simpa using l1) (n := 1) ⟨e1, trivial⟩
  obtain ⟨t2, u2, b1, b2, b3, b4, -⟩ := fullTransfer d2 (by simpa using ⟨l1, l2⟩) (n := 1) ⟨e1, e12.symm, trivial⟩
  have hne : (m1.backIndex !=. m2.frontIndex) = false := by
    rw [h1.nb, h2.nf, e12]
    change (!((fin s2.nf : Ext ℝ) ==. fin s2.nf)) = false
    simp
  have q1 : (Group.empty "" : Group (Ext ℝ)).append (.leaf m1) =
      ({ (Group.empty "" : Group (Ext ℝ)) with elems := [.leaf m1], mat := (Group.empty "" : Group (Ext ℝ)).mat.refresh t1 }, .ok ()) := by
    unfold Group.append Group.push
    simp only [Group.empty, List.getLast?_nil, List.nil_append, a1]
  refine ⟨{ mat := ((Group.empty "" : Group (Ext ℝ)).mat.refresh t1).refresh t2, cache := none, elems := [.leaf m1, .leaf m2] }, u2, ?_, rfl,
    ⟨b2.A, b2.B, b2.C, b2.D, b2.L, b2.nf, b2.nb⟩, ?_⟩
  · unfold Group.new Group.appendAll
    rw [q1]
    dsimp only
    unfold Group.appendAll
    have q2 : Group.append { (Group.empty "" : Group (Ext ℝ)) with elems := [.leaf m1], mat := (Group.empty "" : Group (Ext ℝ)).mat.refresh t1 }
        (.leaf m2) = ({ mat := ((Group.empty "" : Group (Ext ℝ)).mat.refresh t1).refresh t2, cache := none, elems := [.leaf m1, .leaf m2] }, .ok ()) := by
      unfold Group.append Group.push
      simp only [List.getLast?_singleton, Elem.mat, hne, Bool.false_eq_true, if_false, List.singleton_append, b1]
      rfl
    rw [q2]
    rfl
  · have : Sys.SameABCD (Sys.chain (Sys.one 1) [s1, s2]) (s1.andThen s2) := by
      show Sys.SameABCD (((Sys.one 1).andThen s1).andThen s2) _
      simp [Sys.SameABCD, Sys.andThen, Sys.one]
    exact ⟨b4.1.trans this.1, b4.2.1.trans this.2.1, b4.2.2.1.trans this.2.2.1, b4.2.2.2.1.trans this.2.2.2.1, b4.2.2.2.2.trans this.2.2.2.2⟩

/-- **C106** is violated: 12 mm of space and a lens of focal length 10 mm, folded, is reported stable; the matrix of its elements has
`A + D = -2.8`. -/
theorem C106_violated : ∃ (m1 m2 : Mat (Ext ℝ)) (g : Group (Ext ℝ)) (t : Mat (Ext ℝ)) (u : Sys ℝ), mkSpace (fin 12) (fin 1) = .ok m1 ∧
    mkLens (fin 10) = .ok m2 ∧ Group.new [.leaf m1, .leaf m2] = .ok g ∧ g.appendElementsInReverse.mat.isStable = .ok true ∧
    transferMatrixList g.appendElementsInReverse.elems inf Mat.one = .ok t ∧ Den t u ∧ u.det = 1 ∧ u.a + u.d = -14 / 5 := by
  have d1 := spaceMat_den 12 1 (pinf : Ext ℝ)
  have d2 := lensMat_den 10 (pinf : Ext ℝ)
  have l1 := Sys.space_lawful (12 : ℝ) (one_ne_zero (α := ℝ))
  have l2 := Sys.lens_lawful (10 : ℝ)
  obtain ⟨g, u, h1, h2, h3, h4⟩ := group_two d1 d2 l1 l2 rfl rfl
  have hel : g.appendElementsInReverse.elems = [.leaf (spaceMat (fin 12) (fin 1) pinf), .leaf (lensMat 10 pinf), .leaf (lensMat 10 pinf),
      .leaf (spaceMat (fin 12) (fin 1) pinf)] := by
    simp [Group.appendElementsInReverse, h2]
  have dd : DenList g.appendElementsInReverse.elems [Sys.space 12 1, Sys.lens 10, Sys.lens 10, Sys.space 12 1] := by
    rw [hel]; exact .cons d1 (.cons d2 (.cons d2 (.cons d1 .nil)))
  obtain ⟨t, v, t1, t2, t3, t4, -⟩ := fullTransfer dd (by
    intro s hs
    simp only [List.mem_cons, List.not_mem_nil, or_false] at hs
    rcases hs with rfl | rfl | rfl | rfl <;> assumption) (n := 1) ⟨rfl, rfl, rfl, rfl, trivial⟩
  obtain ⟨a1, a2, a3, a4, -⟩ := t4
  obtain ⟨c1, c2, c3, c4, -⟩ := h4
  have hst : g.mat.isStable = .ok (decide (|u.a + u.d| < 2)) := by
    obtain ⟨-, -, h, -⟩ := C44_stable_partial h3 (by rw [c3]; norm_num [Sys.andThen, Sys.space, Sys.lens, abs_of_neg])
      (by rw [Sys.det, c1, c2, c3, c4]; norm_num [Sys.andThen, Sys.space, Sys.lens])
    exact h
  refine ⟨_, _, g, t, v, mkSpace_eq 12 one_ne_zero diamOk_pinf, mkLens_eq (by norm_num) diamOk_pinf, h1, ?_, t1, t2, ?_, ?_⟩
  · rw [(C106_violated_modes g false false).2.2, hst, c1, c4]
    norm_num [Sys.andThen, Sys.space, Sys.lens, abs_lt]
  · rw [Sys.det, a1, a2, a3, a4]
    norm_num [Sys.chain, Sys.andThen, Sys.space, Sys.lens, Sys.one]
  · rw [a1, a4]
    norm_num [Sys.chain, Sys.andThen, Sys.space, Sys.lens, Sys.one]

/-- The hypotheses of `C106_symmetric` hold for this cavity. -/
example : ∃ g : Group (Ext ℝ), DenList g.elems [Sys.space 12 1, Sys.lens 10] ∧
    ∀ s ∈ [Sys.space (12 : ℝ) 1, Sys.lens 10], s.nf = 1 ∧ s.nb = 1 ∧ s.det = 1 ∧ s.a = s.d := by
  obtain ⟨g, u, h1, h2, -⟩ := group_two (spaceMat_den 12 1 (pinf : Ext ℝ)) (lensMat_den 10 (pinf : Ext ℝ))
    (Sys.space_lawful (12 : ℝ) (one_ne_zero (α := ℝ))) (Sys.lens_lawful (10 : ℝ)) rfl rfl
  refine ⟨g, ?_, ?_⟩
  · rw [h2]; exact .cons (spaceMat_den 12 1 _) (.cons (lensMat_den 10 _) .nil)
  · simp [Sys.space, Sys.lens, Sys.det]

end RT
