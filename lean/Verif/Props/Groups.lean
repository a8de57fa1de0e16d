import Verif.Lemmas.Group
import Verif.Lemmas.RayDen
import Verif.Lemmas.Elements

/-! # C14-C17: building and editing groups -/

set_option linter.unusedSectionVars false

namespace RT
open PyNum Ext

section generic
variable {F : Type} [PyNum F]

/-- What a user can do to a group. -/
inductive GroupOp (F : Type) where
  | append (e : Elem F)
  | insert (i : Int) (es : List (Elem F))
  | pop (i : Int)
  | setItem (i : Int) (es : List (Elem F))
  | setSlice (start stop : Option Int) (es : List (Elem F))
  | flip
  | load (es : List (Elem F)) (append : Bool)

/-- One operation: the state it leaves, and its outcome. -/
def Group.step (g : Group F) : GroupOp F → Group F × Except PyErr Unit
  | .append e => g.append e
  | .insert i es => g.insert i es
  | .pop i => ((g.pop i).1, (g.pop i).2.map fun _ => ())
  | .setItem i es => g.setItem i es
  | .setSlice a b es => g.setSlice a b es
  | .flip => g.flip
  | .load es app => g.load es app

/-- A session in which every operation succeeds. -/
def Group.run (g : Group F) : List (GroupOp F) → Except PyErr (Group F)
  | [] => .ok g
  | op :: ops =>
    match g.step op with
    | (g1, .ok ()) => g1.run ops
    | (_, .error x) => .error x

/-- A session in which exceptions are caught by the user and the group is used further. -/
def Group.runCaught (g : Group F) (ops : List (GroupOp F)) : Group F := ops.foldl (fun g op => (g.step op).1) g

/-! ### The errors of a product: never `IndexError` -/

theorem init_noIndexError (m : Mat F) : Mat.init m ≠ .error .indexError := by
  unfold Mat.init pyDiv
  simp only [bind, Except.bind, pure, Except.pure, throw, throwThe, MonadExceptOf.throw]
  repeat' split
  all_goals first
    | (simp; done)
    | (rename_i h; intro he; cases he; split at h <;> simp at h)

theorem bind_noIndexError {α β : Type} {x : Except PyErr α} {f : α → Except PyErr β}
    (h : x ≠ .error .indexError) (h' : ∀ a, f a ≠ .error .indexError) : (x >>= f) ≠ .error .indexError := by
  cases x with
  | error e => simpa [bind, Except.bind] using h
  | ok a => exact h' a

theorem pyDiv_noIndexError (a b : F) : pyDiv a b ≠ .error .indexError := by
  unfold pyDiv; split <;> simp

theorem mulMatrix_noIndexError (m r : Mat F) : m.mulMatrix r ≠ .error .indexError := init_noIndexError _

theorem mkSpace_noIndexError (d n diam : F) : mkSpace d n diam ≠ .error .indexError := init_noIndexError _

theorem mkDielectric_noIndexError (n1 n2 R diam : F) : mkDielectric n1 n2 R diam ≠ .error .indexError := by
  unfold mkDielectric dielectricC
  repeat' first
    | exact init_noIndexError _
    | exact pyDiv_noIndexError _ _
    | (refine bind_noIndexError ?_ fun _ => ?_)

theorem Mat.transferMatrix_noIndexError (m : Mat F) (z : F) : m.transferMatrix z ≠ .error .indexError := by
  unfold Mat.transferMatrix
  split
  · split
    · exact mkSpace_noIndexError _ _ _
    · simp [pure, Except.pure]
  · split
    · simp [pure, Except.pure]
    · exact bind_noIndexError (mkSpace_noIndexError _ _ _) fun _ =>
        bind_noIndexError (mkDielectric_noIndexError _ _ _ _) fun _ => mulMatrix_noIndexError _ _
  · split
    · simp [pure, Except.pure]
    · exact bind_noIndexError (mkSpace_noIndexError _ _ _) fun _ =>
        bind_noIndexError (mkDielectric_noIndexError _ _ _ _) fun _ => mulMatrix_noIndexError _ _
  · split
    · simp [pure, Except.pure]
    · split <;> simp [pure, Except.pure, throw, throwThe, MonadExceptOf.throw]

mutual
theorem Elem.transferMatrix_noIndexError : ∀ (e : Elem F) (z : F), e.transferMatrix z ≠ .error .indexError
  | .leaf m, z => by unfold Elem.transferMatrix; exact m.transferMatrix_noIndexError z
  | .group _ _ es, z => by unfold Elem.transferMatrix; exact transferMatrixList_noIndexError es z _
theorem transferMatrixList_noIndexError :
    ∀ (es : List (Elem F)) (z : F) (acc : Mat F), transferMatrixList es z acc ≠ .error .indexError
  | [], z, acc => by simp [transferMatrixList]
  | e :: es, z, acc => by
    unfold transferMatrixList
    split
    · have := mulMatrix_noIndexError e.mat acc
      split
      · next x hx => rw [hx] at this; exact this
      · exact transferMatrixList_noIndexError es _ _
    · have := e.transferMatrix_noIndexError z
      split
      · next x hx => rw [hx] at this; exact this
      · exact mulMatrix_noIndexError _ _
end

theorem append_noIndexError (g : Group F) (e : Elem F) : (g.append e).2 ≠ .error .indexError := by
  rcases g.append_cases e with ⟨h, -⟩ | ⟨e', h, -⟩
  · rw [h]; simp
  · rw [h]
    have := transferMatrixList_noIndexError (g.elems ++ [e']) inf Mat.one
    unfold Group.push
    dsimp only
    split
    · next x hx => rw [hx] at this; simpa using this
    · simp

theorem appendAll_noIndexError (g : Group F) (es : List (Elem F)) : (g.appendAll es).2 ≠ .error .indexError := by
  induction es generalizing g with
  | nil => simp [Group.appendAll]
  | cons e es ih =>
    have := append_noIndexError g e
    unfold Group.appendAll
    split
    · exact ih _
    · next g1 x hx => rw [hx] at this; exact this

theorem pop_ok {g : Group F} {i : Int} {g' : Group F} {e : Elem F} (h : g.pop i = (g', .ok e)) :
    ∃ k, pyIndex i g.elems.length = some k ∧ g.elems[k]? = some e ∧
      g.rebuild (g.elems.eraseIdx k) = (g', .ok ()) := by
  unfold Group.pop at h
  split at h
  · simp at h
  · next k hk =>
    split at h
    · simp at h
    · next popped hp =>
      split at h
      · next g1 h1 =>
        simp only [Prod.mk.injEq, Except.ok.injEq] at h
        obtain ⟨rfl, rfl⟩ := h
        exact ⟨k, hk, hp, h1⟩
      · simp at h

theorem insert_ok {g g' : Group F} {i : Int} {new : List (Elem F)} (h : g.insert i new = (g', .ok ())) :
    ∃ ng, Group.new new = .ok ng ∧ g.rebuild (g.elems.take (pyClamp i g.elems.length) ++ ng.elems ++
      g.elems.drop (pyClamp i g.elems.length)) = (g', .ok ()) := by
  unfold Group.insert at h
  split at h
  · simp at h
  · next ng hng => exact ⟨ng, hng, h⟩

theorem setItem_ok {g g' : Group F} {i : Int} {new : List (Elem F)} (h : g.setItem i new = (g', .ok ())) :
    ∃ g1 e, g.pop i = (g1, .ok e) ∧ g1.insert i new = (g', .ok ()) := by
  unfold Group.setItem at h
  split at h
  · simp at h
  · next g1 e h1 => exact ⟨g1, e, h1, h⟩

theorem appendFlipped_fresh {g g' : Group F} {es : List (Elem F × Except PyErr Unit)}
    (h : g.appendFlipped es = (g', .ok ())) (hne : es ≠ [] ∨ g.Fresh) : g'.Fresh := by
  induction es generalizing g with
  | nil =>
    simp only [Group.appendFlipped, Prod.mk.injEq, and_true] at h
    rw [← h]; simpa using hne
  | cons p es ih =>
    obtain ⟨e, r⟩ := p
    cases r with
    | error x => simp [Group.appendFlipped] at h
    | ok u =>
      unfold Group.appendFlipped at h
      split at h
      · next g1 heq =>
        refine ih h (.inr ?_)
        have := Group.append_fresh (g := g) (e := e) (by rw [heq])
        rwa [heq] at this
      · simp at h

theorem appendFlipped_kind (g : Group F) (es : List (Elem F × Except PyErr Unit)) :
    (g.appendFlipped es).1.mat.kind = g.mat.kind := by
  induction es generalizing g with
  | nil => rfl
  | cons p es ih =>
    obtain ⟨e, r⟩ := p
    cases r with
    | error x => rfl
    | ok u =>
      have hk := g.append_kind e
      unfold Group.appendFlipped
      split
      · next g1 heq => rw [ih, ← hk, heq]
      · next g1 x heq => rw [← hk, heq]

theorem flipList_nil_iff (es : List (Elem F)) : flipList es = [] ↔ es = [] := by cases es <;> simp [flipList]

theorem finishFlip_other {g : Group F} {r : Except PyErr Unit} (h : g.mat.kind ≠ .objective) :
    Group.finishFlip (g, r) = (g, r) := by
  unfold Group.finishFlip
  cases r with
  | error x => rfl
  | ok u =>
    dsimp only
    split
    · next h' => exact absurd h' h
    · rfl

theorem flip_eq {g : Group F} (h : g.mat.kind ≠ .objective) :
    g.flip = Group.appendFlipped { mat := { g.mat with isFlipped := !g.mat.isFlipped }, cache := g.cache, elems := [] }
      (flipList g.elems).reverse := by
  unfold Group.flip
  exact finishFlip_other (by rw [appendFlipped_kind]; exact h)

theorem insert_kind (g : Group F) (i : Int) (es : List (Elem F)) : (g.insert i es).1.mat.kind = g.mat.kind := by
  unfold Group.insert; split
  · rfl
  · exact Group.appendAll_kind _ _

theorem pop_kind (g : Group F) (i : Int) : (g.pop i).1.mat.kind = g.mat.kind := by
  unfold Group.pop
  split
  · rfl
  · next k _ =>
    split
    · rfl
    · have hk := Group.appendAll_kind ({ g with elems := [] } : Group F) (g.elems.eraseIdx k)
      split
      · next g1 h1 => unfold Group.rebuild at h1; rw [h1] at hk; exact hk
      · next g1 x h1 => unfold Group.rebuild at h1; rw [h1] at hk; exact hk

theorem step_kind {g : Group F} (op : GroupOp F) (h : g.mat.kind ≠ .objective) :
    (g.step op).1.mat.kind = g.mat.kind := by
  cases op with
  | append e => exact g.append_kind e
  | insert i es => exact insert_kind g i es
  | pop i => exact pop_kind g i
  | setItem i es =>
    have hk := pop_kind g i
    simp only [Group.step, Group.setItem]
    split
    · next g1 x h1 => rw [h1] at hk; exact hk
    · next g1 x h1 => rw [h1] at hk; rw [insert_kind]; exact hk
  | setSlice a b es => simp only [Group.step, Group.setSlice]; rw [insert_kind]
  | flip => simp only [Group.step]; rw [flip_eq h, appendFlipped_kind]
  | load es app =>
    simp only [Group.step, Group.load]
    split <;> exact Group.appendAll_kind _ _

theorem step_fresh {g g' : Group F} {op : GroupOp F} (hk : g.mat.kind ≠ .objective)
    (h : g.step op = (g', .ok ())) (hne : g'.elems ≠ []) (hg : g.elems ≠ [] → g.Fresh) : g'.Fresh := by
  cases op with
  | append e =>
    have h' : g.append e = (g', .ok ()) := h
    have := Group.append_fresh (g := g) (e := e) (by rw [h'])
    rwa [h'] at this
  | insert i es =>
    obtain ⟨ng, -, h2⟩ := insert_ok (show g.insert i es = (g', .ok ()) from h)
    exact Group.rebuild_fresh h2 hne
  | pop i =>
    cases hp : g.pop i with
    | mk g1 r =>
      cases r with
      | error x => simp [Group.step, hp, Except.map] at h
      | ok e =>
        obtain ⟨k, -, -, h2⟩ := pop_ok hp
        simp only [Group.step, hp, Except.map, Prod.mk.injEq, and_true] at h
        subst h
        exact Group.rebuild_fresh h2 hne
  | setItem i es =>
    obtain ⟨g1, e, -, h2⟩ := setItem_ok (show g.setItem i es = (g', .ok ()) from h)
    obtain ⟨ng, -, h3⟩ := insert_ok h2
    exact Group.rebuild_fresh h3 hne
  | setSlice a b es =>
    obtain ⟨ng, -, h3⟩ := insert_ok (show _ = (g', Except.ok ()) from h)
    exact Group.rebuild_fresh h3 hne
  | flip =>
    have h' : g.flip = (g', .ok ()) := h
    rw [flip_eq hk] at h'
    by_cases hes : g.elems = []
    · simp only [hes, flipList, List.reverse_nil, Group.appendFlipped, Prod.mk.injEq, and_true] at h'
      rw [← h'] at hne; simp at hne
    · refine appendFlipped_fresh h' (.inl ?_)
      simp [flipList_nil_iff, hes]
  | load es app =>
    simp only [Group.step, Group.load] at h
    cases app with
    | true =>
      simp only [if_true] at h
      by_cases hes : es = []
      · subst hes
        simp only [Group.appendAll, Prod.mk.injEq, and_true] at h
        subst h
        exact hg hne
      · exact Group.appendAll_fresh h (.inl hes)
    | false => exact Group.rebuild_fresh h hne

theorem run_fresh {g g' : Group F} {ops : List (GroupOp F)} (hk : g.mat.kind ≠ .objective)
    (h : g.run ops = .ok g') (hne : g'.elems ≠ []) (hg : g.elems ≠ [] → g.Fresh) :
    g'.Fresh ∧ g'.mat.kind = g.mat.kind := by
  induction ops generalizing g with
  | nil =>
    simp only [Group.run, Except.ok.injEq] at h
    subst h
    exact ⟨hg hne, rfl⟩
  | cons op ops ih =>
    unfold Group.run at h
    split at h
    · next g1 h1 =>
      have hk1 := step_kind op hk
      rw [h1] at hk1
      obtain ⟨h2, h3⟩ := ih (by rw [hk1]; exact hk) h (fun hne1 => step_fresh hk h1 hne1 hg)
      exact ⟨h2, h3.trans hk1⟩
    · simp at h

end generic

variable {K : Type} [Field K] [LinearOrder K] [IsStrictOrderedRing K]

/-! ## C14 -/

/-- **C14.** After any sequence of successful operations leaving at least one element, the group's matrix is the
product of the matrices of its elements (last element leftmost) and its length the sum of their lengths. -/
theorem C14_product_partial {ops : List (GroupOp (Ext K))} {label : String} {g : Group (Ext K)}
    (h : (Group.empty label).run ops = .ok g) (hne : g.elems ≠ [])
    {ss : List (Sys K)} (hd : DenList g.elems ss) :
    ∃ s, Den g.mat s ∧ s.toMatrix = (ss.map Sys.toMatrix).reverse.prod ∧ s.len = (ss.map Sys.len).sum := by
  obtain ⟨⟨t, ht, hm⟩, -⟩ := run_fresh (by simp [Group.empty]) h hne (fun _ => Group.empty_fresh label)
  obtain ⟨u, h1, h2⟩ := transferMatrixList_chain hd one_den ht
  refine ⟨u, ?_, ?_, ?_⟩
  · rw [hm]
    exact ⟨h1.A, h1.B, h1.C, h1.D, h1.L, h1.nf, h1.nb⟩
  · have h3 := Sys.chain_toMatrix (Sys.one (1 : K)) ss
    have h4 : u.toMatrix = ((Sys.one (1 : K)).chain ss).toMatrix := by
      obtain ⟨a, b, c, d, -⟩ := h2
      simp [Sys.toMatrix, a, b, c, d]
    rw [h4, h3]
    have : (Sys.one (1 : K)).toMatrix = 1 := by
      simp [Sys.toMatrix, Sys.one, Matrix.one_fin_two]
    rw [this, mul_one]
  · rw [h2.2.2.2.2, Sys.chain_len]; simp [Sys.one]

/-- **C14.** The vertices of the group are the first and the last of the vertices of its elements, at their
positions along the group. -/
theorem C14_vertices_partial {ops : List (GroupOp (Ext K))} {label : String} {g : Group (Ext K)}
    (h : (Group.empty label).run ops = .ok g) (hne : g.elems ≠ [])
    {vs : List (Vtx K)} (hd : List.Forall₂ (fun e v => DenV e.mat v) g.elems vs) :
    g.mat.frontVertex = (firstVertex 0 vs).map fin ∧ g.mat.backVertex = (lastVertex 0 vs).map fin := by
  obtain ⟨⟨t, ht, hm⟩, -⟩ := run_fresh (by simp [Group.empty]) h hne (fun _ => Group.empty_fresh label)
  have h1 : DenV (Mat.one : Mat (Ext K)) (0, none, none) := by constructor <;> simp [Mat.one]
  have h2 := transferMatrixList_denV hd h1 ht
  rw [hm]
  refine ⟨?_, ?_⟩
  · have := h2.fv
    simpa [Mat.refresh, firstVertex] using this
  · have := h2.bv
    simp only [lastVertex, Option.map_none, zero_add] at this
    simp only [Mat.refresh, this]
    cases lastVertex 0 vs <;> rfl

/-- **C14** is violated by removing the last element: the group keeps the matrix of the element that is gone. -/
theorem C14_pop_violated :
    ((Group.new [.leaf (lensMat (10 : ℚ) pinf)]).map fun g =>
      ((g.pop 0).1.elems.length, (g.pop 0).2.isOk, (g.pop 0).1.mat.C)) =
    .ok (0, true, fin (-1/10)) := by decide +kernel

/-- **C14** is violated by `LaserCavity.appendElementsInReverse`: the elements are added but the matrix is not
updated. -/
theorem C14_reverse_violated :
    ((Group.new [.leaf (spaceMat (fin (10 : ℚ)) (fin 1) pinf), .leaf (lensMat (10 : ℚ) pinf)]).map fun g =>
      (g.appendElementsInReverse.elems.length, g.appendElementsInReverse.mat.L,
       ((transferMatrixList g.appendElementsInReverse.elems inf Mat.one).map fun (t : Mat (Ext ℚ)) => t.L))) =
    .ok (4, fin 10, .ok (fin 20)) := by decide +kernel

/-- a session: two appended elements, a third one inserted, the first one removed, flipped -/
example : ((Group.empty : Group (Ext ℚ)).run [.append (.leaf (spaceMat (fin 10) (fin 1) pinf)),
      .append (.leaf (lensMat 5 pinf)), .insert 1 [.leaf (spaceMat (fin 3) (fin 1) pinf)], .pop 0, .flip]).map
      (fun g => (g.elems.length, g.mat.B, g.mat.C)) = .ok (2, fin 3, fin (-1/5)) := by decide +kernel

/-! ## C15 -/

theorem step_adjacent {g g' : Group (Ext K)} {op : GroupOp (Ext K)} {r : Except PyErr Unit}
    (h : g.step op = (g', r)) (hop : r = .ok () ∨ ∀ a b es, op ≠ .setSlice a b es)
    (hg : g.elems.IsChain Adjacent) : g'.elems.IsChain Adjacent := by
  have hins : ∀ (g : Group (Ext K)) i es, g.elems.IsChain Adjacent → (g.insert i es).1.elems.IsChain Adjacent := by
    intro g i es hg
    unfold Group.insert
    split
    · exact hg
    · exact rebuild_adjacent _ _
  have hpop : ∀ i, (g.pop i).1.elems.IsChain Adjacent := by
    intro i
    unfold Group.pop
    split
    · exact hg
    · next k _ =>
      split
      · exact hg
      · have := rebuild_adjacent g (g.elems.eraseIdx k)
        split
        · next g1 h1 => rw [h1] at this; exact this
        · next g1 x h1 => rw [h1] at this; exact this
  have e : g' = (g.step op).1 := by rw [h]
  cases op with
  | append e => subst e; exact append_adjacent e hg
  | insert i es => subst e; exact hins g i es hg
  | pop i => subst e; exact hpop i
  | setItem i es =>
    subst e
    have := hpop i
    simp only [Group.step, Group.setItem]
    split
    · next g1 x h1 => rw [h1] at this; exact this
    · next g1 x h1 => rw [h1] at this; exact hins g1 i es this
  | setSlice a b es =>
    rcases hop with rfl | hop
    · obtain ⟨ng, -, h3⟩ := insert_ok (show _ = (g', Except.ok ()) from h)
      have e : g' = (g', (Except.ok () : Except PyErr Unit)).1 := rfl
      rw [e, ← h3]
      exact rebuild_adjacent _ _
    · exact absurd rfl (hop a b es)
  | flip =>
    subst e
    simp only [Group.step, Group.flip]
    rw [finishFlip_elems]
    exact appendFlipped_adjacent _ (by simp)
  | load es app =>
    subst e
    simp only [Group.step, Group.load]
    split
    · exact appendAll_adjacent es hg
    · exact appendAll_adjacent es (by simp)

/-- **C15.** After any sequence of operations, whether they succeeded or raised exceptions that the user caught,
the back index of each element is the front index of the next one — provided no slice assignment is made. -/
theorem C15_caught_partial {ops : List (GroupOp (Ext K))} {label : String}
    (hops : ∀ a b es, GroupOp.setSlice a b es ∉ ops) :
    ((Group.empty label).runCaught ops).elems.IsChain (fun a b => a.mat.backIndex = b.mat.frontIndex) := by
  have : ∀ g : Group (Ext K), g.elems.IsChain Adjacent → (g.runCaught ops).elems.IsChain Adjacent := by
    induction ops with
    | nil => exact fun _ h => h
    | cons op ops ih =>
      intro g hg
      refine ih (fun a b es hmem => hops a b es (by simp [hmem])) _ ?_
      exact step_adjacent (r := (g.step op).2) rfl (.inr fun a b es he => hops a b es (by simp [he])) hg
  exact this _ (by simp [Group.empty])

/-- **C15.** Same for sequences in which every operation succeeds, slice assignments included. -/
theorem C15_run {ops : List (GroupOp (Ext K))} {label : String} {g : Group (Ext K)}
    (h : (Group.empty label).run ops = .ok g) :
    g.elems.IsChain (fun a b => a.mat.backIndex = b.mat.frontIndex) := by
  have : ∀ g' : Group (Ext K), g'.elems.IsChain Adjacent → g'.run ops = .ok g → g.elems.IsChain Adjacent := by
    clear h
    induction ops with
    | nil =>
      intro g' hg h
      simp only [Group.run, Except.ok.injEq] at h
      rwa [← h]
    | cons op ops ih =>
      intro g' hg h
      unfold Group.run at h
      split at h
      · next g1 h1 => exact ih g1 (step_adjacent h1 (.inl rfl) hg) h
      · simp at h
  exact this _ (by simp [Group.empty]) h

/-- **C15.** `append` after a different medium: a `Space` takes the index of that medium, anything else is
refused with `ValueError` and the group is unchanged. -/
theorem C15_append {g : Group (Ext K)} {e last : Elem (Ext K)} (hl : g.elems.getLast? = some last)
    {n k : K} (hn : last.mat.backIndex = fin n) (hk : e.mat.frontIndex = fin k) (hne : n ≠ k) :
    (e.isSpace = false → g.append e = (g, .error .valueError)) ∧
    (e.isSpace = true → (g.append e).2 = .ok () →
      ∃ e', (g.append e).1.elems = g.elems ++ [e'] ∧ e'.mat.frontIndex = fin n ∧ e'.mat.backIndex = fin n ∧
        e'.mat.B = e.mat.B ∧ e'.mat.L = e.mat.L) := by
  have hb : (last.mat.backIndex !=. e.mat.frontIndex) = true := by rw [hn, hk]; simp [hne]
  constructor
  · intro hs
    unfold Group.append
    simp only [hl]
    rw [if_pos hb, hs]; rfl
  · intro hs _
    refine ⟨e.setIndices last.mat.backIndex, ?_, ?_⟩
    · unfold Group.append
      simp only [hl]
      rw [if_pos hb, if_pos hs, Group.push_elems]
    · cases e <;> exact ⟨hn, hn, rfl, rfl⟩

/-- **C15** is violated by a slice assignment that is refused: it has already removed the slice. Here
`[air-glass, glass-air]` followed by another pair; the two middle surfaces are replaced by an impossible pair. -/
theorem C15_slice_violated :
    (let gl : Elem (Ext ℚ) := .leaf (interfaceMat 1 (3/2) pinf pinf)
     let ag : Elem (Ext ℚ) := .leaf (interfaceMat (3/2) 1 pinf pinf)
     (Group.new [gl, ag, gl, ag]).map fun g =>
      let r := g.step (.setSlice (some 0) (some 1) [gl, gl])
      let r2 := r.1.step (.setSlice (some 1) (some 2) [gl, gl])
      (r.2.isOk, r2.2.isOk, r2.1.elems.map fun e => (e.mat.frontIndex, e.mat.backIndex))) =
    .ok (false, false, [(fin (3/2), fin 1), (fin (3/2), fin 1)]) := by decide +kernel

/-- **C15** is violated by `appendElementsInReverse`: an interface followed by itself, not flipped. -/
theorem C15_reverse_violated :
    ((Group.new [.leaf (interfaceMat (1 : ℚ) (3/2) pinf pinf)]).map fun g =>
      g.appendElementsInReverse.elems.map fun e => (e.mat.frontIndex, e.mat.backIndex)) =
    .ok [(fin 1, fin (3/2)), (fin 1, fin (3/2))] := by decide +kernel

/-- a Space between two media takes the index of the first -/
example : ((Group.new [.leaf (interfaceMat (1 : ℚ) (3/2) pinf pinf), .leaf (spaceMat (fin 10) (fin 1) pinf)]).map
    fun g => g.elems.map fun e => (e.mat.frontIndex, e.mat.backIndex)) =
    .ok [(fin 1, fin (3/2)), (fin (3/2), fin (3/2))] := by decide +kernel

/-! ## C16 — these hold for any kind of number, floating-point included -/

section C16
variable {F : Type} [PyNum F]

/-- **C16.** `append` adds the element at the end. Elements are compared apart from the index of a `Space`. -/
theorem C16_append {g g' : Group F} {e : Elem F} (h : g.append e = (g', .ok ())) :
    g'.elems.map Elem.forget = g.elems.map Elem.forget ++ [e.forget] := by
  have := Group.append_elems (g := g) (e := e) (by rw [h])
  rwa [h] at this

/-- **C16.** `insert(i, es)` is `l[i:i] = es`. -/
theorem C16_insert {g g' : Group F} {i : Int} {es : List (Elem F)} (h : g.insert i es = (g', .ok ())) :
    g'.elems.map Elem.forget =
      pySplice (g.elems.map Elem.forget) (pySlot g.elems.length i) (pySlot g.elems.length i)
        (es.map Elem.forget) := by
  obtain ⟨ng, h1, h2⟩ := insert_ok h
  rw [Group.rebuild_elems h2, pyClamp_eq]
  simp [pySplice, Group.new_elems h1, List.map_take, List.map_drop]

/-- **C16.** `pop(i)` returns `l[i]` and removes it; it raises `IndexError`, changing nothing, when `i` is
not a valid index. -/
theorem C16_pop (g : Group F) (i : Int) :
    (¬ PyValid g.elems.length i → g.pop i = (g, .error .indexError)) ∧
    (PyValid g.elems.length i → ∀ g' e, g.pop i = (g', .ok e) →
      g.elems[pyPlace g.elems.length i]? = some e ∧
      g'.elems.map Elem.forget = (g.elems.map Elem.forget).eraseIdx (pyPlace g.elems.length i)) ∧
    ((g.pop i).2 = .error .indexError → ¬ PyValid g.elems.length i) := by
  have hi := pyIndex_eq i g.elems.length
  refine ⟨fun hv => ?_, fun hv g' e h => ?_, fun h => ?_⟩
  · unfold Group.pop; rw [hi.2 hv]
  · obtain ⟨k, h1, h2, h3⟩ := pop_ok h
    rw [(hi.1 hv).1] at h1
    cases h1
    refine ⟨h2, ?_⟩
    rw [Group.rebuild_elems h3, List.eraseIdx_map]
  · intro hv
    obtain ⟨h1, h2⟩ := hi.1 hv
    unfold Group.pop at h
    rw [h1] at h
    simp only [List.getElem?_eq_getElem h2] at h
    split at h
    · simp at h
    · next g1 x h3 =>
      simp only [Except.error.injEq] at h
      refine appendAll_noIndexError ({ g with elems := [] } : Group F)
        (g.elems.eraseIdx (pyPlace g.elems.length i)) ?_
      unfold Group.rebuild at h3
      rw [h3, h]

/-- **C16.** `g[i]` is `l[i]`, with `IndexError` exactly when the index is not valid. -/
theorem C16_getItem (g : Group F) (i : Int) :
    (¬ PyValid g.elems.length i → g.getItem i = .error .indexError) ∧
    (PyValid g.elems.length i → ∃ e, g.elems[pyPlace g.elems.length i]? = some e ∧ g.getItem i = .ok e) := by
  have hi := pyIndex_eq i g.elems.length
  unfold Group.getItem
  refine ⟨fun hv => by rw [hi.2 hv], fun hv => ?_⟩
  obtain ⟨h1, h2⟩ := hi.1 hv
  exact ⟨g.elems[pyPlace g.elems.length i], by simp [h2], by rw [h1]; simp [h2]⟩

/-- **C16.** `g[s:e]` has the elements of `l[s:e]`. -/
theorem C16_getSlice {g g' : Group F} {s e : Option Int} (h : g.getSlice s e = .ok g') :
    g'.elems.map Elem.forget =
      ((g.elems.map Elem.forget).take (match e with | some e => pySlot g.elems.length e | none => g.elems.length)).drop
        (match s with | some s => pySlot g.elems.length s | none => 0) := by
  unfold Group.getSlice at h
  rw [Group.new_elems h, List.map_drop, List.map_take]
  have h0 : pyClamp 0 g.elems.length = 0 := by simp [pyClamp]
  have hn : pyClamp (g.elems.length : Int) g.elems.length = g.elems.length := by
    unfold pyClamp; split_ifs <;> omega
  rw [pyClamp_eq] at hn
  cases s <;> cases e <;> simp [h0, pyClamp_eq, hn]

/-- **C16**, for positions counted from the start. Missing: negative ones, see `C16_setItem_negative_violated`.
`g[i] = es` replaces the element by `es`. -/
theorem C16_setItem_partial {g g' : Group F} {i : Int} {es : List (Elem F)} (hi : 0 ≤ i)
    (h : g.setItem i es = (g', .ok ())) :
    PyValid g.elems.length i ∧
    g'.elems.map Elem.forget = pySplice (g.elems.map Elem.forget) i.toNat (i.toNat + 1) (es.map Elem.forget) := by
  obtain ⟨g1, e, h1, h2⟩ := setItem_ok h
  obtain ⟨k, h3, h4, h5⟩ := pop_ok h1
  have hidx := pyIndex_eq i g.elems.length
  have hv : PyValid g.elems.length i := by
    by_contra hc
    rw [hidx.2 hc] at h3; simp at h3
  refine ⟨hv, ?_⟩
  have hk : k = i.toNat := by
    rw [(hidx.1 hv).1] at h3
    cases h3
    unfold pyPlace; split_ifs <;> omega
  have hlen : g1.elems.length = g.elems.length - 1 := by
    have := congrArg List.length (Group.rebuild_elems h5)
    have hlt : k < g.elems.length := by rw [hk]; obtain ⟨a, b⟩ := hv; omega
    simpa [List.length_eraseIdx, hlt] using this
  have hlt : i.toNat < g.elems.length := by obtain ⟨a, b⟩ := hv; omega
  have hslot : pySlot g1.elems.length i = i.toNat := by
    rw [hlen]; unfold pySlot; split_ifs <;> omega
  rw [C16_insert h2, Group.rebuild_elems h5, hslot, hk]
  simp only [pySplice, List.eraseIdx_eq_take_drop_succ, List.map_append, List.map_take,
    List.map_drop, max_self]
  rw [List.take_append, List.drop_append]
  simp [List.take_take, List.drop_drop, hlt.le]

/-- **C16** is violated: `g[-j] = es` (for any `j` from 1 up to the length minus 1) removes the right
element but puts the new ones one place too early, before the element that was in front of it. -/
theorem C16_setItem_negative_violated {g g' : Group F} {j : Nat} {es : List (Elem F)} (hj : 1 ≤ j)
    (hj' : j < g.elems.length) (h : g.setItem (-(j : Int)) es = (g', .ok ())) :
    g'.elems.map Elem.forget =
      (g.elems.map Elem.forget).take (g.elems.length - 1 - j) ++ es.map Elem.forget ++
      ((g.elems.map Elem.forget).eraseIdx (g.elems.length - j)).drop (g.elems.length - 1 - j) := by
  obtain ⟨g1, e, h1, h2⟩ := setItem_ok h
  obtain ⟨k, h3, h4, h5⟩ := pop_ok h1
  have hidx := pyIndex_eq (-(j : Int)) g.elems.length
  have hv : PyValid g.elems.length (-(j : Int)) := by unfold PyValid; omega
  have hk : k = g.elems.length - j := by
    rw [(hidx.1 hv).1] at h3
    cases h3
    unfold pyPlace; split_ifs <;> omega
  have hlt : k < g.elems.length := by omega
  have hlen : g1.elems.length = g.elems.length - 1 := by
    have := congrArg List.length (Group.rebuild_elems h5)
    simpa [List.length_eraseIdx, hlt] using this
  have hslot : pySlot g1.elems.length (-(j : Int)) = g.elems.length - 1 - j := by
    rw [hlen]; unfold pySlot; split_ifs <;> omega
  rw [C16_insert h2, Group.rebuild_elems h5, hslot, hk]
  simp only [pySplice, max_self]
  rw [← List.eraseIdx_map]
  congr 2
  rw [List.eraseIdx_eq_take_drop_succ, List.take_append]
  simp only [List.take_take, List.length_map, List.length_take]
  have e1 : g.elems.length - 1 - j - min (g.elems.length - j) g.elems.length = 0 := by omega
  have e2 : min (g.elems.length - 1 - j) (g.elems.length - j) = g.elems.length - 1 - j := by omega
  rw [e1, e2]; simp

/-- **C16**, for `0 ≤ s ≤ e`. Missing: negative or reversed bounds, see `C16_setSlice_violated`.
`g[s:e] = es` is the list operation. -/
theorem C16_setSlice_partial {g g' : Group F} {s e : Nat} (hse : s ≤ e) {es : List (Elem F)}
    (h : g.setSlice (some s) (some e) es = (g', .ok ())) :
    g'.elems.map Elem.forget =
      pySplice (g.elems.map Elem.forget) (pySlot g.elems.length s) (pySlot g.elems.length e)
        (es.map Elem.forget) := by
  unfold Group.setSlice at h
  simp only [Option.getD_some, pyClamp_eq] at h
  have h2 := C16_insert h
  rw [h2]
  have hs : pySlot g.elems.length s = min s g.elems.length := by unfold pySlot; split_ifs <;> omega
  have he : pySlot g.elems.length e = min e g.elems.length := by unfold pySlot; split_ifs <;> omega
  have hl : (g.elems.take (min s g.elems.length) ++ g.elems.drop (min e g.elems.length)).length =
      min s g.elems.length + (g.elems.length - min e g.elems.length) := by simp
  have hslot : pySlot (min s g.elems.length + (g.elems.length - min e g.elems.length)) (s : Int) =
      min s g.elems.length := by
    unfold pySlot; split_ifs <;> omega
  have hm : max (min s g.elems.length) (min e g.elems.length) = min e g.elems.length := by omega
  simp only [pySplice, hs, he, hl, hslot, List.map_append, List.map_take, List.map_drop, max_self, hm]
  rw [List.take_append, List.drop_append]
  simp

end C16

/-- **C16** is violated by slice assignments with a negative start, and by reversed bounds: the elements left are not
those of the list operation. The elements are spaces of lengths 1, 2, 3 and 9. -/
theorem C16_setSlice_violated :
    (let sp : ℚ → Elem (Ext ℚ) := fun d => .leaf (spaceMat (fin d) (fin 1) pinf)
     (Group.new [sp 1, sp 2, sp 3]).map fun g =>
      ((g.setSlice (some (-1)) none [sp 9]).1.elems.map (·.mat.L),
       (g.setSlice (some 2) (some 1) [sp 9]).1.elems.map (·.mat.L))) =
    .ok ([fin 1, fin 9, fin 2], [fin 1, fin 2, fin 9, fin 2, fin 3]) ∧
    pySplice [1, 2, 3] (pySlot 3 (-1)) 3 [9] = [1, 2, 9] ∧
    pySplice [1, 2, 3] (pySlot 3 2) (pySlot 3 1) [9] = [1, 2, 9, 3] := by decide +kernel

/-- positions that exist: the operations succeed -/
example : (let sp : ℚ → Elem (Ext ℚ) := fun d => .leaf (spaceMat (fin d) (fin 1) pinf)
     (Group.new [sp 1, sp 2, sp 3]).map fun g =>
      ((g.setItem (-1) [sp 9]).1.elems.map (·.mat.L), (g.setItem 1 [sp 9]).1.elems.map (·.mat.L),
       (g.setSlice (some 1) (some 3) [sp 9]).1.elems.map (·.mat.L), (g.pop (-3)).1.elems.map (·.mat.L))) =
    .ok ([fin 1, fin 9, fin 2], [fin 1, fin 9, fin 3], [fin 1, fin 9], [fin 2, fin 3]) := by decide +kernel

/-! ## C17 -/

/-- **C17**, for `append` to a group of exactly consistent elements. Missing: elements whose determinant is only
within the tolerance, and the other operations (see the violations below). -/
theorem C17_append_partial {g : Group (Ext K)} {e : Elem (Ext K)} {ss : List (Sys K)} {s : Sys K} {n : K}
    (hd : DenList g.elems ss) (hl : ∀ s ∈ ss, s.Lawful) (hm : Sys.Matched n ss)
    (he : Den e.mat s) (hs : s.Lawful) (hsp : e.isSpace = true → s.det = 1) {x : PyErr} (h : (g.append e).2 = .error x) :
    (g.append e).1 = g ∧ x = .valueError ∧ e.isSpace = false ∧ g.elems ≠ [] ∧ Sys.endIndex n ss ≠ s.nf := by
  have hend : ∀ {es : List (Elem (Ext K))} {ss : List (Sys K)} {n : K}, DenList es ss → Sys.Matched n ss →
      ∀ last, es.getLast? = some last → last.mat.backIndex = fin (Sys.endIndex n ss) := by
    intro es ss n hd
    induction hd generalizing n with
    | nil => intro _ last h; simp at h
    | @cons a b es ss ha hd ih =>
      rintro ⟨h1, h2⟩ last hlast
      cases hd with
      | nil =>
        simp only [List.getLast?_singleton, Option.some.injEq] at hlast
        subst hlast
        exact ha.nb
      | cons hb hd' =>
        rw [List.getLast?_cons_cons] at hlast
        exact ih h2 last hlast
  have hend0 : ∀ (ss : List (Sys K)) (n : K), (∀ s ∈ ss, s.Lawful) → ss ≠ [] → Sys.endIndex n ss ≠ 0 := by
    intro ss
    induction ss with
    | nil => intro _ _ h; exact absurd rfl h
    | cons t ss ih =>
      intro n hl _
      cases ss with
      | nil => exact (hl t (by simp)).2.1
      | cons u ss => exact ih t.nb (fun s hs => hl s (by simp [hs])) (by simp)
  have happ : ∀ (ss : List (Sys K)) (s : Sys K) (n : K), Sys.Matched n ss →
      (ss = [] ∨ Sys.endIndex n ss = s.nf) → ∃ k, Sys.Matched k (ss ++ [s]) := by
    intro ss s n hm hs
    cases ss with
    | nil => exact ⟨s.nf, rfl, trivial⟩
    | cons t ss =>
      refine ⟨n, ?_⟩
      simp only [reduceCtorEq, false_or] at hs
      have : ∀ (ss : List (Sys K)) (n : K), Sys.Matched n ss → Sys.endIndex n ss = s.nf →
          Sys.Matched n (ss ++ [s]) := by
        intro ss
        induction ss with
        | nil => intro n _ h; exact ⟨h.symm, trivial⟩
        | cons t ss ih => rintro n ⟨h1, h2⟩ h; exact ⟨h1, ih _ h2 h⟩
      exact this _ _ hm hs
  have hpush : ∀ (e' : Elem (Ext K)) (s' : Sys K), Den e'.mat s' → s'.Lawful →
      (ss = [] ∨ Sys.endIndex n ss = s'.nf) → (g.push e').2 = .ok () := by
    intro e' s' he' hs' hk
    obtain ⟨k, hk⟩ := happ ss s' n hm hk
    have hd' : DenList (g.elems ++ [e']) (ss ++ [s']) := List.rel_append hd (by simp [he'])
    obtain ⟨t, u, ht, -⟩ := fullTransfer hd' (by
      intro a ha
      rcases List.mem_append.1 ha with ha | ha
      · exact hl a ha
      · rw [List.mem_singleton.1 ha]; exact hs') hk
    unfold Group.push
    dsimp only
    rw [ht]
  have hse : g.elems.getLast? = none → ss = [] := by
    intro hnone
    rw [List.getLast?_eq_none_iff] at hnone
    rw [hnone] at hd
    cases hd; rfl
  unfold Group.append at h ⊢
  cases hlast : g.elems.getLast? with
  | none =>
    rw [hlast] at h
    have := hpush e s he hs (.inl (hse hlast))
    simp only at h
    rw [this] at h; simp at h
  | some last =>
    rw [hlast] at h
    have hb := hend hd hm last hlast
    have hne : g.elems ≠ [] := by rintro h0; rw [h0] at hlast; simp at hlast
    simp only [hb, he.nf, eq_fin] at h ⊢
    by_cases hk : Sys.endIndex n ss = s.nf
    · simp only [hk, decide_true, Bool.not_true, Bool.false_eq_true, if_false] at h
      rw [hpush e s he hs (.inr hk)] at h; simp at h
    · simp only [hk, decide_false, Bool.not_false, if_true] at h ⊢
      cases hes : e.isSpace with
      | true =>
        simp only [hes, if_true] at h
        exfalso
        have hd2 : Den (e.setIndices (fin (Sys.endIndex n ss))).mat
            { s with nf := Sys.endIndex n ss, nb := Sys.endIndex n ss } := by
          cases e <;> exact ⟨he.A, he.B, he.C, he.D, he.L, rfl, rfl⟩
        have h0 : Sys.endIndex n ss ≠ 0 := hend0 ss n hl (fun h0 => hne (List.forall₂_nil_right_iff.1 (h0 ▸ hd)))
        rw [hpush _ _ hd2 ⟨h0, h0, ?_⟩ (.inr rfl)] at h
        · simp at h
        · rw [div_self h0]; exact hsp hes
      | false =>
        simp only [hes, Bool.false_eq_true, if_false, Except.error.injEq] at h ⊢
        exact ⟨trivial, h.symm, trivial, hne, hk⟩

/-- **C17.** Operations that are refused before touching the list: an invalid index of `pop` or `g[i] = es`,
elements that cannot form a group by themselves. -/
theorem C17_early_partial {F : Type} [PyNum F] (g : Group F) (i : Int) (es : List (Elem F)) :
    (¬ PyValid g.elems.length i → g.pop i = (g, .error .indexError) ∧
      g.setItem i es = (g, .error .indexError)) ∧
    (∀ x, Group.new es = .error x → g.insert i es = (g, .error x)) := by
  refine ⟨fun hv => ?_, fun x hx => ?_⟩
  · have h1 : g.pop i = (g, .error .indexError) := (C16_pop g i).1 hv
    refine ⟨h1, ?_⟩
    unfold Group.setItem; rw [h1]
  · unfold Group.insert; rw [hx]

/-- **C17** is violated by `pop`, `insert` and item assignment: from `[lens, air-glass, glass-air, lens]`, removing or
replacing the glass surface raises `ValueError` and leaves a group of one element, the three others being lost. -/
theorem C17_edit_violated :
    (let lens : Elem (Ext ℚ) := .leaf (lensMat 10 pinf)
     let gl : Elem (Ext ℚ) := .leaf (interfaceMat 1 (3/2) pinf pinf)
     let ag : Elem (Ext ℚ) := .leaf (interfaceMat (3/2) 1 pinf pinf)
     (Group.new [lens, gl, ag, lens]).map fun g =>
      (((g.pop 1).2.isOk, (g.pop 1).1.elems.length), ((g.setItem 1 [lens]).2.isOk, (g.setItem 1 [lens]).1.elems.length),
       ((g.insert 2 [lens]).2.isOk, (g.insert 2 [lens]).1.elems.length))) =
    .ok ((false, 1), (false, 1), (false, 2)) := by decide +kernel

/-- **C17** is violated by `append` itself when determinants are inexact: two elements each accepted on its own (the
determinant is 0.9e-5 away from 1); the second `append` raises `ValueError` but the element stays in the list,
whose matrix is still that of the first. -/
theorem C17_append_violated :
    (let m : Mat (Ext ℚ) := { (Mat.one : Mat (Ext ℚ)) with D := fin (1 + 9/1000000) }
     (Mat.init m).map fun m =>
      (Group.new [.leaf m]).map fun g =>
        ((g.append (.leaf m)).2.isOk, (g.append (.leaf m)).1.elems.length, (g.append (.leaf m)).1.mat.D)) =
    .ok (.ok (false, 2, fin (1 + 9/1000000))) := by decide +kernel

/-- the hypotheses of `C17_append_partial`: glass after a lens is refused -/
example : ((Group.new [.leaf (lensMat (10 : ℚ) pinf)]).map fun g =>
    ((g.append (.leaf (interfaceMat (3/2) 1 pinf pinf))).2.isOk,
     (g.append (.leaf (interfaceMat (3/2) 1 pinf pinf))).1.elems.length)) = .ok (false, 1) := by decide +kernel

end RT
