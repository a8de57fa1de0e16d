import Verif.Props.Rounded
import Verif.Lemmas.RoundedMatrix
import Verif.Lemmas.Group
import Verif.Lemmas.RoundedPrefix

/-! # C136: where a trace ends and the length of the group, in floats -/

set_option linter.unusedSectionVars false

namespace RT
open PyNum Ext Fl
variable {K : Type} [Field K] [LinearOrder K] [IsStrictOrderedRing K] {rnd : K → K} {u : K}

theorem single_leaf {p : Part K} (hp : p.Single) {e : Elem (Fl K rnd)} (hb : p.buildR rnd = .ok e) : ∃ m, e = .leaf m := by
  cases p with
  | group label ps => exact absurd hp (by simp [Part.Single])
  | _ =>
    unfold Part.buildR Part.buildWith at hb
    obtain ⟨m, -, rfl⟩ := Except.map_ok hb
    exact ⟨m, rfl⟩

theorem singles_leaf : ∀ {ps : List (Part K)} {es : List (Elem (Fl K rnd))}, (∀ p ∈ ps, p.Single) → Part.buildListWith num optNum ps = .ok es →
    ∀ e ∈ es, ∃ m, e = .leaf m
  | [], es, _, hb => by simp only [Part.buildListWith, Except.ok.injEq] at hb; subst hb; simp
  | p :: ps, es, hp, hb => by
    unfold Part.buildListWith at hb
    split at hb
    · simp at hb
    · next e he =>
      split at hb
      · simp at hb
      · next es' hes =>
        simp only [Except.ok.injEq] at hb; subst hb
        intro x hx
        rcases List.mem_cons.1 hx with rfl | hx
        · exact single_leaf (hp p (by simp)) he
        · exact singles_leaf (fun q hq => hp q (by simp [hq])) hes x hx

theorem leaf_of_forget {F : Type} [PyNum F] {e e' : Elem F} (h : e.forget = e'.forget) (hl : ∃ m, e' = .leaf m) : ∃ m, e = .leaf m := by
  obtain ⟨m, rfl⟩ := hl
  cases e with
  | leaf m' => exact ⟨m', rfl⟩
  | group a b c =>
    exfalso
    unfold Elem.forget at h
    split at h <;> split at h <;> simp_all [Elem.setIndices]

theorem all_leaves {F : Type} [PyNum F] : ∀ {es : List (Elem F)}, (∀ e ∈ es, ∃ m, e = .leaf m) → ∃ ms : List (Mat F), es = ms.map .leaf
  | [], _ => ⟨[], rfl⟩
  | e :: es, h => by
    obtain ⟨m, rfl⟩ := h e (by simp)
    obtain ⟨ms, rfl⟩ := all_leaves fun e he => h e (List.mem_cons_of_mem _ he)
    exact ⟨m :: ms, rfl⟩

theorem itemsList_leaves {F : Type} [PyNum F] (ms : List (Mat F)) : itemsList (ms.map Elem.leaf) = ms.map Item.leaf := by
  induction ms with
  | nil => rfl
  | cons m ms ih => simp only [List.map_cons, itemsList, Elem.items, ih, List.singleton_append]

theorem leaves_map {F : Type} (ms : List (Mat F)) : leaves (ms.map Item.leaf) = ms := by
  induction ms with
  | nil => rfl
  | cons m ms ih => simp [leaves, ih]

/-- the length of a product is the sum of the lengths, from the first element on -/
theorem transfer_length : ∀ {ms : List (Mat (Fl K rnd))} {acc t : Mat (Fl K rnd)}, (∀ m ∈ ms, ∃ l, m.L = num l) →
    transferMatrixList (ms.map Elem.leaf) inf acc = .ok t → t.L = ms.foldl (fun L m => m.L + L) acc.L
  | [], acc, t, _, h => by
    simp only [List.map_nil, transferMatrixList, Except.ok.injEq] at h
    subst h; rfl
  | m :: ms, acc, t, hl, h => by
    obtain ⟨l, hm⟩ := hl m (by simp)
    have hn : Fl.Near (0 : K) 0 m.L l |l| := by rw [hm]; exact near_num 0 l
    have e : (Elem.leaf m).mat = m := rfl
    simp only [List.map_cons, transferMatrixList, e] at h
    rw [if_pos (le_infR hn), inf_subR hn] at h
    split at h
    · simp at h
    · next t' ht' =>
      rw [transfer_length (fun m hm => hl m (by simp [hm])) h, mulMatrix_okF ht']
      rfl

/-- the position of a ray that goes through elements one after the other -/
theorem run_length {F : Type} [PyNum F] : ∀ (ms : List (Mat F)) (r : Ray F),
    ((runTrace (ms.map Item.leaf) r).getLast?.getD r).isBlocked = false →
      r.isBlocked = false ∧ ((runTrace (ms.map Item.leaf) r).getLast?.getD r).z = ms.foldl (fun L m => m.L + L) r.z
  | [], r, h => ⟨h, rfl⟩
  | m :: ms, r, h => by
    set r' := if r.isBlocked then r else settle (ms.map Item.leaf) (m.mulRayBase r) with hr'
    have e : (runTrace ((m :: ms).map Item.leaf) r).getLast?.getD r = (runTrace (ms.map Item.leaf) r').getLast?.getD r' := by
      simp only [List.map_cons, runTrace, ← hr']
      rw [List.getLast?_append, List.getLast?_cons]
      simp
    rw [e] at h ⊢
    obtain ⟨h1, h2⟩ := run_length ms r' h
    have hb : r.isBlocked = false := by
      by_contra hc
      rw [Bool.not_eq_false] at hc
      rw [hr', if_pos hc] at h1
      rw [h1] at hc; cases hc
    refine ⟨hb, h2.trans ?_⟩
    have hz : r'.z = m.L + r.z := by
      rw [hr', if_neg (by simp [hb])]
      unfold settle Mat.mulRayBase
      simp [hb]
    rw [hz, List.foldl_cons]

/-- **C136**: in floats, a ray traced from the entrance through a group without groups inside ends exactly at the length of the group, to the last bit,
unless it is blocked. -/
theorem C136_end (hr : Rounding rnd u) {label : String} {ps : List (Part K)} (hps : ∀ p ∈ ps, p.Single) {e : Elem (Fl K rnd)}
    (hb : (Part.group label ps).buildR rnd = .ok e) {a : Nat} {h : Heap (Fl K rnd)} (ha : a < h.length) (hz : (h.get a).z = num 0)
    (hopen : ((e.traceH a h).2.1.get (e.traceThroughH a h).1).isBlocked = false) :
    ((e.traceH a h).2.1.get (e.traceThroughH a h).1).z = e.mat.L := by
  obtain ⟨hs, -⟩ := buildR_stages hr hb
  have hnc := buildWith_noCache _ _ hb
  rw [through_eq hs.linear hnc ha] at hopen ⊢
  unfold Part.buildR Part.buildWith at hb
  split at hb
  · simp at hb
  · next es hes =>
    obtain ⟨g, hg, rfl⟩ := Except.map_ok hb
    have hf := Group.appendAll_elems (Group.new_eq hg)
    have hlv : ∀ e ∈ g.elems, ∃ m, e = .leaf m := by
      intro e he
      have h1 : e.forget ∈ g.elems.map Elem.forget := List.mem_map_of_mem he
      rw [hf] at h1
      simp only [Group.empty, List.map_nil, List.nil_append] at h1
      obtain ⟨e', he', h2⟩ := List.mem_map.1 h1
      exact leaf_of_forget h2.symm (singles_leaf hps hes e' he')
    obtain ⟨ms, hms⟩ := all_leaves hlv
    have hit : g.toElem.items = .dup :: ms.map Item.leaf := by
      unfold Group.toElem Elem.items
      rw [hms, itemsList_leaves]
    have hL : ∀ m ∈ ms, ∃ l, m.L = num l := by
      intro m hm
      have hm' : m ∈ leaves g.toElem.items := by
        rw [hit]
        show m ∈ leaves (ms.map Item.leaf)
        rw [leaves_map]; exact hm
      obtain ⟨i, hi, rfl⟩ := List.getElem_of_mem hm'
      exact ⟨_, (List.forall₂_iff_get.1 hs |>.2 i hi (by rw [← (List.forall₂_iff_get.1 hs).1]; exact hi)).L⟩
    obtain ⟨t, ht, hmat⟩ := Group.new_fresh hg
    rw [hms] at ht
    have e1 : g.mat.L = ms.foldl (fun L m => m.L + L) (Mat.one : Mat (Fl K rnd)).L := by
      rw [← transfer_length hL ht]
      rw [hmat]; rfl
    rw [hit] at hopen ⊢
    set r := settle (.dup :: ms.map Item.leaf) (h.get a)
    have e2 : (runTrace (.dup :: ms.map Item.leaf) r).getLast?.getD r = (runTrace (ms.map Item.leaf) r).getLast?.getD r := by
      simp only [runTrace]
      rw [List.getLast?_cons]
      simp
    rw [e2] at hopen ⊢
    rw [(run_length ms r hopen).2]
    show _ = g.mat.L
    rw [e1]
    have e3 : r.z = (h.get a).z := rfl
    rw [e3, hz]
    have e4 : (Mat.one : Mat (Fl K rnd)).L = num 0 := by
      simp only [Mat.one]
      exact zero_num hr
    rw [e4]

/-- **C136, for every program**: with groups inside groups, the ray that goes through with room for the errors ends at the length of the group up to
the errors of the two sums. -/
theorem C136_within (hr : Rounding rnd u) {p : Part K} {e : Elem (Fl K rnd)} (hb : p.buildR rnd = .ok e) {a : Nat} {h : Heap (Fl K rnd)}
    (ha : a < h.length) {y θ : K} (hray : IsRay (h.get a) y θ 0) (hopen : (h.get a).isBlocked = false)
    (hc : Clears u 0 p.rstages (y, θ) (absRay (y, θ))) :
    ∃ z' L', ((e.traceH a h).2.1.get (e.traceThroughH a h).1).z = num z' ∧ e.mat.L = num L' ∧
      |z' - L'| ≤ relErr u (roundings p.rstages) * majLen p.rstages + relErr u p.rmat.ops * p.rmat.maj.len := by
  obtain ⟨-, y', θ', z', hr', -, -, h3⟩ := C95_through hr hb ha hray hopen hc
  obtain ⟨L', hL, -, h4⟩ := (buildR_mat hr hb).L
  refine ⟨z', L', hr'.z, hL, ?_⟩
  rw [(rmat_whole p).2] at h4
  rw [abs_zero, zero_add, zero_add] at h3
  calc |z' - L'| = |(z' - exactLen p.rstages) - (L' - exactLen p.rstages)| := by congr 1; ring
    _ ≤ |z' - exactLen p.rstages| + |L' - exactLen p.rstages| := abs_sub _ _
    _ ≤ _ := add_le_add h3 h4

/-- the position of the last ray of the trace of a ray from the origin, and the length of the group -/
def endAndLength (p : Part ℚ) : Option (Double × Double) :=
  match p.buildR double with
  | .ok e =>
    let r : Ray Double := { y := num 1, theta := num 0, z := num 0, isBlocked := false, apertureDiameter := inf, wavelength := none }
    let t := e.traceH 0 [r]
    some ((t.2.1.get (e.traceThroughH 0 [r]).1).z, e.mat.L)
  | .error _ => none

/-- a tenth, two tenths and three tenths of free space, the last two in a group of their own if `inner` -/
def threeSpaces (inner : Bool) : Part ℚ :=
  if inner then .group "" [.space (double (1/10)) 1 none, .group "" [.space (double (2/10)) 1 none, .space (double (3/10)) 1 none]]
  else .group "" [.space (double (1/10)) 1 none, .space (double (2/10)) 1 none, .space (double (3/10)) 1 none]

/-- **C136, negated for groups inside groups**: with a tenth, and a group of two tenths and three tenths, the last position is not the length of the
group: the trace adds the three lengths from the left, the group adds the inner sum. -/
theorem C136_nested_violated : (endAndLength (threeSpaces true)).map (fun q => q.1 ==. q.2) = some false := by decide +kernel

/-- Without the inner group, the hypotheses of `C136_end` hold, for a sum that is rounded: the end and the length agree, and are not three fifths.
Those of `C136_within` hold with the inner group. -/
theorem C136_example : (∀ p ∈ [Part.space (double (1/10)) 1 none, .space (double (2/10)) 1 none, .space (double (3/10)) 1 none], p.Single) ∧
    (endAndLength (threeSpaces false)).map (fun q => (q.1 ==. q.2, q.1 ==. num (double (6/10)))) = some (true, false) ∧
    Clears (1 / 2 ^ 53) 0 (threeSpaces true).rstages (1, 0) (absRay (1, 0)) := by
  refine ⟨by simp [Part.Single], by decide +kernel, ?_⟩
  simp only [threeSpaces, if_true, Part.rstages, Part.rstagesList, List.cons_append, List.nil_append, Clears, Stage.withOps, Sys.stage, Sys.space, Stage.out,
    Stage.abs, absRay, relErr]
  norm_num
  refine ⟨?_, ?_, ?_, ?_, ?_, ?_⟩ <;> intro D hD <;> cases hD

end RT
