import Verif.Model.Figure
import Verif.Props.Beam

/-! # The path with divided spaces -/

set_option linter.unusedSectionVars false

namespace RT
open PyNum Ext

section build
variable {K : Type} [Field K] [LinearOrder K] [IsStrictOrderedRing K]

/-- what `append` of a list gives, as an exception or a group -/
def Group.appended {F : Type} [PyNum F] (g : Group F) (es : List (Elem F)) : Except PyErr (Group F) :=
  match g.appendAll es with
  | (_, .error x) => .error x
  | (g1, .ok ()) => .ok g1

theorem Group.appended_cons {F : Type} [PyNum F] (g : Group F) (e : Elem F) (es : List (Elem F)) :
    g.appended (e :: es) = match g.append e with
      | (_, .error x) => .error x
      | (g1, .ok ()) => g1.appended es := by
  unfold Group.appended
  rw [Group.appendAll]
  rcases g.append e with ⟨g1, _ | _⟩ <;> rfl

theorem Group.appended_append {F : Type} [PyNum F] (g : Group F) (es fs : List (Elem F)) :
    g.appended (es ++ fs) = match g.appended es with
      | .error x => .error x
      | .ok g1 => g1.appended fs := by
  induction es generalizing g with
  | nil => rfl
  | cons e es ih =>
    rw [List.cons_append, Group.appended_cons, Group.appended_cons]
    rcases g.append e with ⟨g1, _ | _⟩
    · rfl
    · exact ih g1

theorem appendSpaces_eq {F : Type} [PyNum F] {d n : F} {s : Mat F} (h : mkSpace d n = .ok s) (k : Nat) (g : Group F) :
    appendSpaces d n k g = g.appended (List.replicate k (.leaf s)) := by
  induction k generalizing g with
  | zero => rfl
  | succ k ih =>
    rw [appendSpaces, h, List.replicate_succ, Group.appended_cons]
    dsimp only
    rcases g.append (.leaf s) with ⟨g1, _ | _⟩
    · rfl
    · exact ih g1

/-- the elements in place of one element -/
def splitElem (N : Nat) (e : Elem (Ext K)) : List (Elem (Ext K)) :=
  if e.isSpace then List.replicate N (.leaf (spaceMat (fin (e.mat.sys.len / N)) (fin e.mat.sys.nf) pinf)) else [e]

theorem highResolutionLoop_eq {N : Nat} (hN : N ≠ 0) {es : List (Elem (Ext K))} (hg : OkList es) (g : Group (Ext K)) :
    highResolutionLoop N es g = g.appended (es.flatMap (splitElem N)) := by
  induction es generalizing g with
  | nil => rfl
  | cons e es ih =>
    have he := hg e (by simp)
    have ih := ih fun x hx => hg x (by simp [hx])
    rw [List.flatMap_cons, Group.appended_append, highResolutionLoop]
    by_cases hs : e.isSpace = true
    · have hN' : (N : K) ≠ 0 := by exact_mod_cast hN
      have e1 : (lit (N : ℚ) : Ext K) = fin (N : K) := by rw [lit_eq]; congr 1; exact Rat.cast_natCast N
      rw [if_pos hs, he.den.L, e1, pyDiv_fin _ _ hN']
      dsimp only
      rw [he.den.nf]
      have hm : mkSpace (fin (e.mat.sys.len / N)) (fin e.mat.sys.nf) =
          .ok (spaceMat (fin (e.mat.sys.len / N)) (fin e.mat.sys.nf) (pinf : Ext K)) := mkSpace_eq _ he.lawful.1 diamOk_pinf
      rw [appendSpaces_eq hm, splitElem, if_pos hs]
      cases g.appended (List.replicate N (.leaf (spaceMat (fin (e.mat.sys.len / N)) (fin e.mat.sys.nf) pinf))) with
      | error x => rfl
      | ok g1 => exact ih g1
    · rw [if_neg hs, splitElem, if_neg hs, Group.appended_cons]
      rcases g.append e with ⟨g1, _ | _⟩
      · rfl
      · exact ih g1

theorem splitElem_ok {N : Nat} {e : Elem (Ext K)} (h : e.Ok) : OkList (splitElem N e) := by
  intro x hx
  unfold splitElem at hx
  split_ifs at hx with hs
  · obtain rfl := List.eq_of_mem_replicate hx
    have hd := spaceMat_den (e.mat.sys.len / N) e.mat.sys.nf (pinf : Ext K)
    exact ⟨by rw [Elem.mat, hd.sys]; exact hd, by rw [Elem.mat, hd.sys]; exact Sys.space_lawful _ h.lawful.1⟩
  · obtain rfl := List.mem_singleton.1 hx
    exact h

/-- ends of what is put in place of an element -/
theorem splitElem_ends {N : Nat} (hN : N ≠ 0) {e : Elem (Ext K)} (h : e.Good) :
    ∃ a b, (splitElem N e).head? = some a ∧ (splitElem N e).getLast? = some b ∧ a.mat.frontIndex = e.mat.frontIndex ∧
      b.mat.backIndex = e.mat.backIndex := by
  unfold splitElem
  by_cases hs : e.isSpace = true
  · rw [if_pos hs]
    obtain ⟨k, rfl⟩ := Nat.exists_eq_succ_of_ne_zero hN
    refine ⟨_, _, by rw [List.replicate_succ]; rfl, by rw [List.replicate_succ', List.getLast?_concat], ?_, ?_⟩
    · exact h.den.nf.symm
    · cases e with
      | leaf m =>
        unfold Elem.Good at h
        have hk : m.kind = .space := by
          unfold Elem.isSpace Elem.mat at hs
          revert hs
          cases m.kind <;> simp
        have e1 := congrArg Sys.nb (h.space hk)
        have e2 := h.den.nb
        simp only [Elem.mat, spaceMat]
        rw [e2, e1]
        rfl
      | group m c es =>
        unfold Elem.Good at h
        unfold Elem.isSpace Elem.mat at hs
        rcases h.2.kind with hk | hk <;> simp [hk] at hs
  · rw [if_neg hs]
    exact ⟨e, e, rfl, rfl, rfl, rfl⟩

theorem splitElem_chain {N : Nat} {e : Elem (Ext K)} : (splitElem N e).IsChain Adjacent := by
  unfold splitElem
  split_ifs with hs
  · have : ∀ (j : Nat) (x : Elem (Ext K)), Adjacent x x → (List.replicate j x).IsChain Adjacent := by
      intro j x hx
      induction j with
      | zero => simp
      | succ j ih =>
        cases j with
        | zero => simp
        | succ j =>
          rw [List.replicate_succ, List.replicate_succ, List.isChain_cons_cons]
          exact ⟨hx, by rw [← List.replicate_succ]; exact ih⟩
    exact this _ _ rfl
  · simp

theorem splitAll_chain {N : Nat} (hN : N ≠ 0) {es : List (Elem (Ext K))} (hg : GoodList es) (hc : es.IsChain Adjacent) :
    (es.flatMap (splitElem N)).IsChain Adjacent ∧
      ∀ x ∈ (es.flatMap (splitElem N)).head?, ∀ y ∈ es.head?, x.mat.frontIndex = y.mat.frontIndex := by
  induction es with
  | nil => simp
  | cons e es ih =>
    unfold GoodList at hg
    obtain ⟨i1, i2⟩ := ih hg.2 (List.IsChain.tail hc)
    obtain ⟨a, b, h1, h2, h3, h4⟩ := splitElem_ends hN hg.1
    rw [List.flatMap_cons]
    refine ⟨?_, ?_⟩
    · rw [List.isChain_append]
      refine ⟨splitElem_chain, i1, ?_⟩
      intro x hx y hy
      rw [h2] at hx
      simp only [Option.mem_def, Option.some.injEq] at hx
      subst hx
      cases es with
      | nil => simp at hy
      | cons e' es =>
        have := i2 y hy e' (by simp)
        unfold Adjacent
        rw [h4, this]
        exact (List.isChain_cons_cons.1 hc).1
    · intro x hx y hy
      simp only [List.head?_cons, Option.mem_def, Option.some.injEq] at hy
      subst hy
      rw [List.head?_append, h1] at hx
      simp only [Option.some_or, Option.mem_def, Option.some.injEq] at hx
      subst hx
      exact h3

/-- The path with divided spaces is always made, and has the expected elements. -/
theorem highResolution_exact {N : Nat} (hN : N ≠ 0) {g : Group (Ext K)} (hg : GoodList g.elems)
    (hc : g.elems.IsChain Adjacent) :
    ∃ g', g.highResolution N = .ok g' ∧ g'.elems = g.elems.flatMap (splitElem N) := by
  have hok : OkList g.elems := fun e he => ⟨(GoodList_iff.1 hg e he).den, (GoodList_iff.1 hg e he).lawful⟩
  have hok' : OkList (g.elems.flatMap (splitElem N)) := by
    intro x hx
    obtain ⟨e, he, hx⟩ := List.mem_flatMap.1 hx
    exact splitElem_ok (hok e he) x hx
  obtain ⟨g', h1, h2⟩ := appendAll_exact (g := Group.empty "") (es := g.elems.flatMap (splitElem N))
    (by simpa [Group.empty] using hok') (by simpa [Group.empty] using (splitAll_chain hN hg hc).1)
  refine ⟨g', ?_, by simpa [Group.empty] using h2⟩
  unfold Group.highResolution
  rw [highResolutionLoop_eq hN hok]
  unfold Group.appended
  rw [h1]

end build

/-! ## Beams -/

section generic
variable {F : Type} [PyNum F] [PyMath F]

/-- a beam, apart from the mark of a beam too large -/
def Beam.still (b : Beam F) : Beam F := { b with isClipped := false }

theorem mulBeam_still {m : Mat F} {b b' b1 : Beam F} (h : b.still = b'.still) (e : m.mulBeam b = .ok b1) :
    ∃ b1', m.mulBeam b' = .ok b1' ∧ b1'.still = b1.still := by
  obtain ⟨q, wl, z, n, c⟩ := b
  obtain ⟨q', wl', z', n', c'⟩ := b'
  simp only [Beam.still, Beam.mk.injEq, and_true] at h
  obtain ⟨rfl, rfl, rfl, rfl⟩ := h
  unfold Mat.mulBeam at e ⊢
  have key : ∀ b1, m.mulBeamBase ⟨q, wl, z, n, c⟩ = .ok b1 →
      ∃ b1', m.mulBeamBase ⟨q, wl, z, n, c'⟩ = .ok b1' ∧ b1'.still = b1.still := by
    intro b1 e
    unfold Mat.mulBeamBase at e ⊢
    dsimp only at e ⊢
    split at e
    · cases e
    · next hn =>
      rw [if_neg hn]
      obtain ⟨q', hq, e⟩ := bind_ok e
      obtain ⟨w, hw, e⟩ := bind_ok e
      rw [hq]
      simp only [bind, Except.bind, hw]
      simp only [pure, Except.pure, Except.ok.injEq] at e ⊢
      subst e
      exact ⟨_, rfl, rfl⟩
  split at e
  · cases e
  · exact key b1 e

mutual
theorem traceBeam_still : ∀ (e : Elem F) {b b' : Beam F} {t : List (Beam F)}, b.still = b'.still → e.traceBeam b = .ok t →
    ∃ t', e.traceBeam b' = .ok t' ∧ t'.map Beam.still = t.map Beam.still
  | .leaf m, b, b', t, h, ht => by
    unfold Elem.traceBeam at ht ⊢
    cases hm : m.mulBeam b with
    | error x => rw [hm] at ht; cases ht
    | ok b1 =>
      rw [hm] at ht
      simp only [Except.ok.injEq] at ht
      subst ht
      obtain ⟨b1', h1, h2⟩ := mulBeam_still h hm
      rw [h1]
      exact ⟨_, rfl, by simp [h2]⟩
  | .group m c es, b, b', t, h, ht => by
    unfold Elem.traceBeam at ht ⊢
    cases hm : traceBeamList es b with
    | error x => rw [hm] at ht; cases ht
    | ok t1 =>
      rw [hm] at ht
      simp only [Except.ok.injEq] at ht
      subst ht
      obtain ⟨t1', h1, h2⟩ := traceBeamList_still es h hm
      rw [h1]
      exact ⟨_, rfl, by simp [h2, h]⟩
theorem traceBeamList_still : ∀ (es : List (Elem F)) {b b' : Beam F} {t : List (Beam F)}, b.still = b'.still →
    traceBeamList es b = .ok t → ∃ t', traceBeamList es b' = .ok t' ∧ t'.map Beam.still = t.map Beam.still
  | [], b, b', t, h, ht => by
    simp only [traceBeamList, Except.ok.injEq] at ht ⊢
    subst ht
    exact ⟨_, rfl, rfl⟩
  | e :: es, b, b', t, h, ht => by
    unfold traceBeamList at ht ⊢
    cases hm : e.traceBeam b with
    | error x => rw [hm] at ht; cases ht
    | ok t1 =>
      rw [hm] at ht
      dsimp only at ht
      obtain ⟨t1', h1, h2⟩ := traceBeam_still e h hm
      have hl : (t1.getLast?.getD b).still = (t1'.getLast?.getD b').still := by
        have e1 : ∀ (l : List (Beam F)) (d : Beam F), (l.getLast?.getD d).still = (l.map Beam.still).getLast?.getD d.still := by
          intro l d
          rw [List.getLast?_map]
          cases l.getLast? <;> rfl
        rw [e1, e1, h2, h]
      cases hm2 : traceBeamList es (t1.getLast?.getD b) with
      | error x => rw [hm2] at ht; cases ht
      | ok t2 =>
        rw [hm2] at ht
        simp only [Except.ok.injEq] at ht
        subst ht
        obtain ⟨t2', h3, h4⟩ := traceBeamList_still es hl hm2
        rw [h1]
        dsimp only
        rw [h3]
        exact ⟨_, rfl, by simp [h2, h4]⟩
end

theorem traceBeamList_append (es fs : List (Elem F)) (b : Beam F) :
    traceBeamList (es ++ fs) b = match traceBeamList es b with
      | .error x => .error x
      | .ok t => match traceBeamList fs (t.getLast?.getD b) with
        | .error x => .error x
        | .ok u => .ok (t ++ u) := by
  induction es generalizing b with
  | nil =>
    simp only [List.nil_append, traceBeamList, List.getLast?_nil, Option.getD_none]
    cases traceBeamList fs b <;> rfl
  | cons e es ih =>
    simp only [List.cons_append, traceBeamList]
    cases e.traceBeam b with
    | error x => rfl
    | ok t =>
      dsimp only
      rw [ih]
      cases traceBeamList es (t.getLast?.getD b) with
      | error x => rfl
      | ok t1 =>
        dsimp only
        have : (t ++ t1).getLast?.getD b = t1.getLast?.getD (t.getLast?.getD b) := by
          rw [List.getLast?_append]
          cases t1.getLast? <;> simp
        rw [this]
        cases traceBeamList fs (t1.getLast?.getD (t.getLast?.getD b)) with
        | error x => rfl
        | ok u => simp

end generic

/-- the conditions under which the size of a beam can be computed -/
theorem w_ok_iff (q : ℂ) (wl n : ℝ) (z : Ext ℝ) (c : Bool) :
    (∃ w, (Beam.mk (Cx.of q) (fin wl) z (fin n) c).w = .ok w) ↔ (0 < q.im → n ≠ 0 ∧ 0 ≤ wl / n) := by
  by_cases hq : 0 < q.im
  · have hi := im_neg_inv_pos.2 hq
    have hp : 0 < Real.pi * (-1 / q).im := mul_pos Real.pi_pos hi
    unfold Beam.w
    rw [(isFinite_of q _ _ _ _).2 hq]
    have e : Cx.ofReal (-1) = Cx.of (-1) := by
      rw [one_eq, neg_fin, Cx.ofReal_fin]; norm_num
    dsimp only
    rw [e, Cx.div_of _ (ne_zero_of_im hq)]
    simp only [Bool.not_true, Bool.false_eq_true, if_false, bind, Except.bind, Cx.of, hq, true_implies]
    by_cases hn : n = 0
    · subst hn
      rw [pyDiv_zero]
      simp
    · rw [pyDiv_fin _ _ hn]
      simp only [pi_eq, fin_mul_fin]
      rw [pyDiv_fin _ _ hp.ne']
      simp only [pySqrt, zero_eq, lt_fin, decide_eq_true_eq]
      by_cases h0 : 0 ≤ wl / n
      · rw [if_neg (not_lt.2 (div_nonneg h0 hp.le))]
        simp [hn, h0]
      · rw [if_pos (div_neg_of_neg_of_pos (not_le.1 h0) hp)]
        simp [hn, h0]
  · rw [w_infinite hq]
    simp [hq]

end RT
