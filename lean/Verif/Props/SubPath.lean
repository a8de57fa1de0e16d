import Verif.Model.Display
import Verif.Props.Components

/-! # C64 parts of a path -/

set_option linter.unusedSectionVars false

namespace RT
open PyNum Ext
variable {K : Type} [Field K] [LinearOrder K] [IsStrictOrderedRing K]

/-- the sum of the physical lengths of the elements -/
def lengthOf (es : List (Elem (Ext K))) : K := ((sysList es).map Sys.len).sum

theorem lengthOf_cons (e : Elem (Ext K)) (es : List (Elem (Ext K))) : lengthOf (e :: es) = e.mat.sys.len + lengthOf es := by
  simp [lengthOf, sysList]

theorem lengthOf_append (es fs : List (Elem (Ext K))) : lengthOf (es ++ fs) = lengthOf es + lengthOf fs := by
  simp [lengthOf, sysList]

theorem lengthOf_reverse (es : List (Elem (Ext K))) : lengthOf es.reverse = lengthOf es := by
  simp [lengthOf, sysList]

theorem lengthOf_nonneg {es : List (Elem (Ext K))} (h : ∀ e ∈ es, 0 ≤ e.mat.sys.len) : 0 ≤ lengthOf es := by
  induction es with
  | nil => simp [lengthOf, sysList]
  | cons e es ih =>
    rw [lengthOf_cons]
    exact add_nonneg (h e (by simp)) (ih fun e he => h e (by simp [he]))

/-- the elements that end before the position are passed -/
theorem subPath_skip (zStart : K) (bw : Bool) {pre : List (Elem (Ext K))} (post : List (Elem (Ext K))) (hok : OkList pre)
    (hl : ∀ e ∈ pre, 0 ≤ e.mat.sys.len) (z : K) (before : List (Elem (Ext K))) (hz : z + lengthOf pre ≤ zStart) :
    subPathElements (fin zStart) bw (fin z) before (pre ++ post) =
      subPathElements (fin zStart) bw (fin (z + lengthOf pre)) (pre.reverse ++ before) post := by
  induction pre generalizing z before with
  | nil => simp [lengthOf, sysList]
  | cons e pre ih =>
    rw [lengthOf_cons] at hz ⊢
    have h0 := lengthOf_nonneg (es := pre) fun e he => hl e (by simp [he])
    have hL := (hok e (by simp)).den.L
    have hno : ¬ zStart < z + e.mat.sys.len := by linarith
    rw [List.cons_append]
    simp only [subPathElements, hL, fin_add_fin, lt_fin, decide_eq_false hno, Bool.and_false, Bool.false_eq_true, if_false]
    rw [ih (fun e he => hok e (by simp [he])) (fun e he => hl e (by simp [he])) _ _ (by linarith)]
    rw [add_assoc]; simp

/-- elements beginning after the position are passed as well -/
theorem subPath_after (zStart : K) (bw : Bool) {es : List (Elem (Ext K))} (hok : OkList es)
    (hl : ∀ e ∈ es, 0 ≤ e.mat.sys.len) (z : K) (before : List (Elem (Ext K))) (hz : zStart ≤ z) :
    subPathElements (fin zStart) bw (fin z) before es = .error .valueError := by
  induction es generalizing z before with
  | nil => rfl
  | cons e es ih =>
    have hno : ¬ z < zStart := not_lt.2 hz
    have hL := (hok e (by simp)).den.L
    simp only [subPathElements, hL, fin_add_fin, lt_fin, decide_eq_false hno, Bool.false_and, Bool.false_eq_true, if_false]
    exact ih (fun e he => hok e (by simp [he])) (fun e he => hl e (by simp [he])) _ _
      (hz.trans (le_add_of_nonneg_right (hl e (by simp))))

/-- the element that contains the position -/
theorem subPath_at (zStart : K) (bw : Bool) {pre : List (Elem (Ext K))} {e : Elem (Ext K)} (post : List (Elem (Ext K)))
    (hok : OkList (pre ++ [e])) (hl : ∀ e ∈ pre, 0 ≤ e.mat.sys.len)
    (h1 : lengthOf pre < zStart) (h2 : zStart < lengthOf pre + e.mat.sys.len) :
    subPathElements (fin zStart) bw 0 [] (pre ++ e :: post) =
      if e.isSpace then
        if bw then .ok (.leaf (spaceMat (fin (zStart - lengthOf pre)) (fin 1) pinf) :: pre.reverse)
        else .ok (.leaf (spaceMat (fin (lengthOf pre + e.mat.sys.len - zStart)) (fin 1) pinf) :: post)
      else .error .assertionError := by
  have hL := (hok e (by simp)).den.L
  rw [zero_eq, subPath_skip zStart bw (e :: post) (fun e he => hok e (by simp [he])) hl 0 [] (by linarith)]
  simp only [subPathElements, zero_add, hL, fin_add_fin, lt_fin, h1, h2, decide_true, Bool.and_self, if_true, fin_sub_fin,
    space_air, Except.map, List.append_nil]

/-- all the elements are in air at the edges -/
def EdgesInAir (es : List (Elem (Ext K))) : Prop := ∀ e ∈ es, e.mat.frontIndex = fin 1 ∧ e.mat.backIndex = fin 1

theorem space_ok (d : K) : (Elem.leaf (spaceMat (fin d) (fin 1) pinf)).Ok := by
  have hd := spaceMat_den d 1 (pinf : Ext K)
  constructor
  · simp only [Elem.mat]; rw [hd.sys]; exact hd
  · simp only [Elem.mat]; rw [hd.sys]; exact Sys.space_lawful d one_ne_zero

theorem space_sys (d n : K) (diam : Ext K) : (Elem.leaf (spaceMat (fin d) (fin n) diam)).mat.sys = Sys.space d n :=
  (spaceMat_den d n diam).sys

/-- **C64.** Every path of elements of non-negative lengths, every position strictly inside a `Space` in air: `subPath(zStart)`
contains the rest of that space and the elements after it, its length is `L - zStart`, and the path is what comes before the
position followed by the sub-path: light goes through both in succession. -/
theorem C64_forward_partial {m : Mat (Ext K)} {c} {pre post : List (Elem (Ext K))} {d : K} {diam : Ext K} {zStart : K}
    (hf : (⟨m, c, pre ++ .leaf (spaceMat (fin d) (fin 1) diam) :: post⟩ : Group (Ext K)).Fresh)
    (hok : OkList (pre ++ .leaf (spaceMat (fin d) (fin 1) diam) :: post))
    (hc : (pre ++ .leaf (spaceMat (fin d) (fin 1) diam) :: post).IsChain Adjacent)
    (hl : ∀ e ∈ pre, 0 ≤ e.mat.sys.len) (h1 : lengthOf pre < zStart) (h2 : zStart < lengthOf pre + d) :
    ∃ s : Group (Ext K),
      (⟨m, c, pre ++ .leaf (spaceMat (fin d) (fin 1) diam) :: post⟩ : Group (Ext K)).subPath (fin zStart) = .ok s ∧
      s.elems = .leaf (spaceMat (fin (lengthOf pre + d - zStart)) (fin 1) pinf) :: post ∧
      s.mat.sys.len = m.sys.len - zStart ∧ s.mat.L = m.L - fin zStart ∧
      ∀ r, m.sys.out r = s.mat.sys.out ((Sys.space (zStart - lengthOf pre) 1).out
        ((sysList pre).foldl (fun r s => s.out r) r)) := by
  set e : Elem (Ext K) := .leaf (spaceMat (fin d) (fin 1) diam) with he
  set e' : Elem (Ext K) := .leaf (spaceMat (fin (lengthOf pre + d - zStart)) (fin 1) pinf) with he'
  have hlen : e.mat.sys.len = d := by rw [he, space_sys]; rfl
  have hokpre : OkList (pre ++ [e]) := fun x hx => hok x (by
    rcases List.mem_append.1 hx with h | h
    · simp [h]
    · simp only [List.mem_singleton] at h; simp [h])
  have hokpost : OkList (e' :: post) := fun x hx => by
    rcases List.mem_cons.1 hx with rfl | h
    · exact space_ok _
    · exact hok x (by simp [h])
  have hcpost : (e' :: post).IsChain Adjacent := by
    have h3 := (List.isChain_append.1 hc).2.1
    rw [List.isChain_cons] at h3 ⊢
    exact ⟨fun x hx => h3.1 x hx, h3.2⟩
  obtain ⟨s, hs1, hs2⟩ := new_exact hokpost hcpost ""
  obtain ⟨ms, cs, es⟩ := s
  dsimp only at hs2
  subst hs2
  have hsub : (⟨m, c, pre ++ e :: post⟩ : Group (Ext K)).subPath (fin zStart) = .ok ⟨ms, cs, e' :: post⟩ := by
    unfold Group.subPath
    rw [subPath_at zStart false post hokpre hl h1 (by rw [hlen]; exact h2)]
    simp only [hlen]
    exact hs1
  have hh := hf.header hok hc
  have hs := (Group.new_fresh hs1).header hokpost hcpost
  have e1 : m.sys.len = lengthOf pre + (d + lengthOf post) := by
    rw [hh.len]; change lengthOf _ = _; rw [lengthOf_append, lengthOf_cons, hlen]
  have e2 : ms.sys.len = lengthOf pre + d - zStart + lengthOf post := by
    rw [hs.len]; change lengthOf _ = _; rw [lengthOf_cons, he', space_sys]; rfl
  refine ⟨_, hsub, rfl, by rw [e1, e2]; ring, ?_, ?_⟩
  · rw [hh.den.L, hs.den.L, fin_sub_fin, e1, e2]; congr 1; ring
  · intro r
    rw [hh.out, hs.out]
    simp only [sysList, List.map_append, List.map_cons, List.foldl_append, List.foldl_cons]
    rw [he, he', space_sys, space_sys]
    congr 1
    simp only [Sys.out, Sys.space]
    generalize List.foldl _ r _ = q
    refine Prod.ext ?_ ?_ <;> simp [Sys.outY, Sys.outθ] <;> ring

/-- **C64.** Backwards, when all the elements before the position are in air: the sub-path begins with the part of the space before
the position, continues with the elements in reverse order, and has the length `zStart`. -/
theorem C64_backwards_partial {m : Mat (Ext K)} {c} {pre post : List (Elem (Ext K))} {e : Elem (Ext K)} {zStart : K}
    (hok : OkList (pre ++ e :: post)) (hair : EdgesInAir pre) (hsp : e.isSpace = true)
    (hl : ∀ e ∈ pre, 0 ≤ e.mat.sys.len) (h1 : lengthOf pre < zStart) (h2 : zStart < lengthOf pre + e.mat.sys.len) :
    ∃ s : Group (Ext K),
      (⟨m, c, pre ++ e :: post⟩ : Group (Ext K)).subPath (fin zStart) true = .ok s ∧
      s.elems = .leaf (spaceMat (fin (zStart - lengthOf pre)) (fin 1) pinf) :: pre.reverse ∧
      s.mat.L = fin zStart ∧
      ∀ r, s.mat.sys.out r = (sysList pre).foldr (fun s r => s.out r) ((Sys.space (zStart - lengthOf pre) 1).out r) := by
  set e' : Elem (Ext K) := .leaf (spaceMat (fin (zStart - lengthOf pre)) (fin 1) pinf) with he'
  have hokpre : OkList (pre ++ [e]) := fun x hx => hok x (by
    rcases List.mem_append.1 hx with h | h
    · simp [h]
    · simp only [List.mem_singleton] at h; simp [h])
  have hokpost : OkList (e' :: pre.reverse) := fun x hx => by
    rcases List.mem_cons.1 hx with rfl | h
    · exact space_ok _
    · exact hok x (by simp [List.mem_reverse.1 h])
  have hcpost : (e' :: pre.reverse).IsChain Adjacent := by
    refine chain_of_index fun x hx => ?_
    rcases List.mem_cons.1 hx with rfl | h
    · exact ⟨rfl, rfl⟩
    · exact hair x (List.mem_reverse.1 h)
  obtain ⟨s, hs1, hs2⟩ := new_exact hokpost hcpost ""
  obtain ⟨ms, cs, es⟩ := s
  dsimp only at hs2
  subst hs2
  have hsub : (⟨m, c, pre ++ e :: post⟩ : Group (Ext K)).subPath (fin zStart) true = .ok ⟨ms, cs, e' :: pre.reverse⟩ := by
    unfold Group.subPath
    rw [subPath_at zStart true post hokpre hl h1 h2]
    simp only [hsp, if_true]
    exact hs1
  have hs := (Group.new_fresh hs1).header hokpost hcpost
  refine ⟨_, hsub, rfl, ?_, ?_⟩
  · rw [hs.den.L, hs.len]
    change fin (lengthOf _) = _
    rw [lengthOf_cons, lengthOf_reverse, he', space_sys]
    congr 1; simp [Sys.space]
  · intro r
    rw [hs.out]
    simp only [sysList, List.map_cons, List.foldl_cons, List.map_reverse, List.foldl_reverse]
    rw [he', space_sys]

/-- **C64** is violated at the limit between two elements, at the beginning and at the end of every path: `ValueError`. -/
theorem C64_edge_violated {m : Mat (Ext K)} {c} {pre post : List (Elem (Ext K))} (hok : OkList (pre ++ post))
    (hl : ∀ e ∈ pre ++ post, 0 ≤ e.mat.sys.len) (bw : Bool) :
    (⟨m, c, pre ++ post⟩ : Group (Ext K)).subPath (fin (lengthOf pre)) bw = .error .valueError := by
  unfold Group.subPath
  rw [zero_eq, subPath_skip (lengthOf pre) bw post (fun e he => hok e (by simp [he])) (fun e he => hl e (by simp [he])) 0 []
    (by simp), subPath_after _ bw (fun e he => hok e (by simp [he])) (fun e he => hl e (by simp [he])) _ _ (by simp)]

/-- **C64.** Positions outside of the path raise `ValueError`. -/
theorem C64_outside {g : Group (Ext K)} (hok : OkList g.elems) (hl : ∀ e ∈ g.elems, 0 ≤ e.mat.sys.len) {zStart : K}
    (hz : zStart < 0 ∨ lengthOf g.elems < zStart) (bw : Bool) :
    g.subPath (fin zStart) bw = .error .valueError := by
  unfold Group.subPath
  rcases hz with hz | hz
  · rw [zero_eq, subPath_after _ bw hok hl _ _ hz.le]
  · have := subPath_skip zStart bw (pre := g.elems) [] hok hl 0 [] (by linarith)
    rw [List.append_nil] at this
    rw [zero_eq, this]; rfl

/-- **C64** is violated inside any element other than a `Space` (a thick lens, a slab, a group): `AssertionError`. -/
theorem C64_thick_violated {m : Mat (Ext K)} {c} {pre post : List (Elem (Ext K))} {e : Elem (Ext K)} {zStart : K}
    (hok : OkList (pre ++ [e])) (hl : ∀ e ∈ pre, 0 ≤ e.mat.sys.len) (hsp : e.isSpace = false)
    (h1 : lengthOf pre < zStart) (h2 : zStart < lengthOf pre + e.mat.sys.len) (bw : Bool) :
    (⟨m, c, pre ++ e :: post⟩ : Group (Ext K)).subPath (fin zStart) bw = .error .assertionError := by
  unfold Group.subPath
  rw [subPath_at zStart bw post hok hl h1 h2]
  simp [hsp]

/-- **C64** is violated inside a `Space` that is not in air: the space made is in air, so that the next element does not fit. -/
theorem C64_index_violated {m : Mat (Ext K)} {c} {pre post : List (Elem (Ext K))} {e f : Elem (Ext K)} {zStart : K}
    (hok : OkList (pre ++ [e])) (hl : ∀ e ∈ pre, 0 ≤ e.mat.sys.len) (hsp : e.isSpace = true)
    (h1 : lengthOf pre < zStart) (h2 : zStart < lengthOf pre + e.mat.sys.len)
    (hf : f.isSpace = false) (hn : f.mat.frontIndex ≠ fin 1) :
    (⟨m, c, pre ++ e :: f :: post⟩ : Group (Ext K)).subPath (fin zStart) = .error .valueError := by
  unfold Group.subPath
  rw [subPath_at zStart false (f :: post) hok hl h1 h2]
  simp only [hsp, if_true, Bool.false_eq_true, if_false]
  set e' : Elem (Ext K) := .leaf (spaceMat (fin (lengthOf pre + e.mat.sys.len - zStart)) (fin 1) pinf) with he'
  have hok' : OkList ([] ++ [e']) := by
    intro x hx
    simp only [List.nil_append, List.mem_singleton] at hx
    rw [hx]; exact space_ok _
  obtain ⟨t, h3, h4⟩ := append_exact (g := Group.empty "") (e := e') (by simpa [Group.empty] using hok')
    (by simp [Group.empty])
  set g1 : Group (Ext K) := ⟨(Group.empty "" : Group (Ext K)).mat.refresh t, (Group.empty "" : Group (Ext K)).cache,
      (Group.empty "" : Group (Ext K)).elems ++ [e']⟩ with hg1
  have hlast : g1.append f = (g1, .error .valueError) := by
    unfold Group.append
    have hne : ((fin 1 : Ext K) ==. f.mat.frontIndex) = false := by
      rw [Bool.eq_false_iff]; intro h; exact hn (eq_of_eq h).symm
    have hb : e'.mat.backIndex = fin 1 := rfl
    have hlast' : g1.elems.getLast? = some e' := by simp [hg1]
    rw [hlast']
    simp only [hb, hne, hf, Bool.not_false, if_true, Bool.false_eq_true, if_false]
  unfold Group.new
  simp only [Group.appendAll, h4, hlast]

/-- A path in glass: the sub-path cannot be made. -/
example : (match ((Part.group "" [.interface 1 (3/2) none none, .space 10 (3/2) none, .interface (3/2) 1 none none] :
      Part ℚ).build) with
    | .ok (.group m c es) => ((⟨m, c, es⟩ : Group (Ext ℚ)).subPath (fin 5)).map fun (g : Group (Ext ℚ)) => g.mat.L
    | _ => .error .typeError) = .error .valueError := by decide +kernel

/-- A path in air. -/
example : (match ((Part.group "" [.space 10 1 none, .lens 5 none, .space 20 1 none] : Part ℚ).build) with
    | .ok (.group m c es) => ((⟨m, c, es⟩ : Group (Ext ℚ)).subPath (fin 4)).map fun (g : Group (Ext ℚ)) => (g.mat.L, g.elems.length)
    | _ => .error .typeError) = .ok (fin 26, 3) := by decide +kernel

end RT
