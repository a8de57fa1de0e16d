import Verif.Lemmas.Store
import Verif.Spec.Objects
import Mathlib.Logic.Function.Basic

set_option linter.unusedSectionVars false

/-! # Running a program with objects or with values -/

namespace RT
open PyNum
variable {F : Type}

/-- The variables of both runs hold the same elements; no object belongs to two of them. -/
structure SimVars (s : Store F) (vs : List (Option (Elem F))) (cs : List (Option Nat)) (fp : Nat → List Nat) (d : Nat) : Prop where
  len : vs.length = cs.length
  rel : ∀ (i : Nat) (e : Elem F), vs[i]? = some (some e) → ∃ a, cs[i]? = some (some a) ∧ Rep s e a (fp i) ∧ (fp i).Nodup ∧ e.depth ≤ d
  gone : ∀ i : Nat, vs[i]? = some none → cs[i]? = some none
  dis : ∀ (i j : Nat) (e e' : Elem F), i ≠ j → vs[i]? = some (some e) → vs[j]? = some (some e') → List.Disjoint (fp i) (fp j)

theorem SimVars.mono {s : Store F} {vs : List (Option (Elem F))} {cs : List (Option Nat)} {fp : Nat → List Nat} {d d' : Nat}
    (h : SimVars s vs cs fp d) (hd : d ≤ d') : SimVars s vs cs fp d' where
  len := h.len
  rel i e hi := by obtain ⟨a, h1, h2, h3, h4⟩ := h.rel i e hi; exact ⟨a, h1, h2, h3, h4.trans hd⟩
  gone := h.gone
  dis := h.dis

theorem SimVars.frame {s s' : Store F} {vs : List (Option (Elem F))} {cs : List (Option Nat)} {fp : Nat → List Nat} {d : Nat}
    (h : SimVars s vs cs fp d) (hf : ∀ (i : Nat) (e : Elem F), vs[i]? = some (some e) → ∀ b ∈ fp i, s'[b]? = s[b]?) : SimVars s' vs cs fp d where
  len := h.len
  rel i e hi := by obtain ⟨a, h1, h2, h3, h4⟩ := h.rel i e hi; exact ⟨a, h1, h2.frame (hf i e hi), h3, h4⟩
  gone := h.gone
  dis := h.dis

theorem SimVars.pushNone {s : Store F} {vs : List (Option (Elem F))} {cs : List (Option Nat)} {fp : Nat → List Nat} {d : Nat}
    (h : SimVars s vs cs fp d) : SimVars s (vs ++ [none]) (cs ++ [none]) fp d := by
  have key : ∀ (i : Nat) (e : Elem F), (vs ++ [none])[i]? = some (some e) → vs[i]? = some (some e) := by
    intro i e hi
    rw [List.getElem?_append] at hi
    split_ifs at hi with h1
    · exact hi
    · rcases hk : i - vs.length with _ | k <;> simp [hk] at hi
  refine ⟨by simp [h.len], fun i e hi => ?_, fun i hi => ?_, fun i j e e' hij hi hj => h.dis i j e e' hij (key i e hi) (key j e' hj)⟩
  · obtain ⟨a, h1, h2⟩ := h.rel i e (key i e hi)
    exact ⟨a, by rw [List.getElem?_append_left (List.getElem?_eq_some_iff.1 h1).1]; exact h1, h2⟩
  · rw [List.getElem?_append] at hi ⊢
    rw [← h.len]
    split_ifs with h1
    · rw [if_pos h1] at hi; exact h.gone i hi
    · rw [if_neg h1] at hi
      rcases hk : i - vs.length with _ | k <;> simp [hk] at hi ⊢

theorem SimVars.put {s : Store F} {vs : List (Option (Elem F))} {cs : List (Option Nat)} {fp : Nat → List Nat} {d i a : Nat} {e : Elem F} {f : List Nat}
    (h : SimVars s vs cs fp d) (hr : Rep s e a f) (hn : f.Nodup) (hd : e.depth ≤ d)
    (hf : ∀ (j : Nat) (e' : Elem F), j ≠ i → vs[j]? = some (some e') → List.Disjoint (fp j) f) :
    SimVars s (vs.set i (some e)) (cs.set i (some a)) (Function.update fp i f) d := by
  have hne : ∀ (j : Nat) (x : Option (Elem F)), j ≠ i → (vs.set i (some e))[j]? = some x → vs[j]? = some x := fun j x hj hx => by
    rwa [List.getElem?_set_ne (Ne.symm hj)] at hx
  have hself : ∀ x, (vs.set i (some e))[i]? = some x → x = some e ∧ i < vs.length := fun x hx => by
    rw [List.getElem?_set_self'] at hx
    cases hv : vs[i]? with
    | none => simp [hv] at hx
    | some y => simp [hv] at hx; exact ⟨hx.symm, (List.getElem?_eq_some_iff.1 hv).1⟩
  refine ⟨by simp [h.len], fun j x hx => ?_, fun j hx => ?_, fun j k x y hjk hx hy => ?_⟩
  · by_cases hj : j = i
    · subst hj
      obtain ⟨h1, h2⟩ := hself _ hx
      cases h1
      rw [Function.update_self]
      exact ⟨a, List.getElem?_set_self (h.len ▸ h2), hr, hn, hd⟩
    · obtain ⟨b, h1, h2⟩ := h.rel j x (hne j _ hj hx)
      rw [Function.update_of_ne hj]
      exact ⟨b, by rw [List.getElem?_set_ne (Ne.symm hj)]; exact h1, h2⟩
  · by_cases hj : j = i
    · subst hj
      cases (hself _ hx).1
    · rw [List.getElem?_set_ne (Ne.symm hj)]
      exact h.gone j (hne j _ hj hx)
  · by_cases hj : j = i
    · subst hj
      rw [Function.update_self, Function.update_of_ne (Ne.symm hjk)]
      exact fun b hb hb' => hf k y (Ne.symm hjk) (hne k _ (Ne.symm hjk) hy) hb' hb
    · rw [Function.update_of_ne hj]
      by_cases hk : k = i
      · subst hk
        rw [Function.update_self]
        exact hf j x hj (hne j _ hj hx)
      · rw [Function.update_of_ne hk]
        exact h.dis j k x y hjk (hne j _ hj hx) (hne k _ hk hy)

theorem SimVars.push {s : Store F} {vs : List (Option (Elem F))} {cs : List (Option Nat)} {fp : Nat → List Nat} {d a : Nat} {e : Elem F} {f : List Nat}
    (h : SimVars s vs cs fp d) (hr : Rep s e a f) (hn : f.Nodup) (hd : e.depth ≤ d)
    (hf : ∀ (j : Nat) (e' : Elem F), vs[j]? = some (some e') → List.Disjoint (fp j) f) :
    SimVars s (vs ++ [some e]) (cs ++ [some a]) (Function.update fp vs.length f) d := by
  have h1 := h.pushNone.put (i := vs.length) hr hn hd (fun j e' hj hx => hf j e' (by
    rw [List.getElem?_append] at hx
    split_ifs at hx with h2
    · exact hx
    · rcases hk : j - vs.length with _ | k <;> simp [hk] at hx))
  rw [List.set_append_right _ _ (le_refl _), List.set_append_right _ _ (by rw [h.len])] at h1
  simpa [h.len] using h1

/-- Giving an element away. -/
theorem SimVars.take {s : Store F} {vs : List (Option (Elem F))} {cs : List (Option Nat)} {fp : Nat → List Nat} {d i : Nat} {e : Elem F}
    (h : SimVars s vs cs fp d) (hi : vs[i]? = some (some e)) :
    SimVars s (vs.set i none) (cs.set i none) fp d ∧ (∀ (j : Nat) (e' : Elem F), (vs.set i none)[j]? = some (some e') → j ≠ i ∧ vs[j]? = some (some e') ∧
      List.Disjoint (fp j) (fp i)) := by
  have hlt := (List.getElem?_eq_some_iff.1 hi).1
  have key : ∀ (j : Nat) (e' : Elem F), (vs.set i none)[j]? = some (some e') → j ≠ i ∧ vs[j]? = some (some e') := by
    intro j e' hj
    by_cases hji : j = i
    · subst hji; rw [List.getElem?_set_self hlt] at hj; cases hj
    · rw [List.getElem?_set_ne (Ne.symm hji)] at hj; exact ⟨hji, hj⟩
  refine ⟨⟨by simp [h.len], fun j x hx => ?_, fun j hx => ?_, fun j k x y hjk hx hy => ?_⟩, fun j e' hj => ?_⟩
  · obtain ⟨h1, h2⟩ := key j x hx
    obtain ⟨b, h3, h4⟩ := h.rel j x h2
    exact ⟨b, by rw [List.getElem?_set_ne (Ne.symm h1)]; exact h3, h4⟩
  · by_cases hji : j = i
    · subst hji; exact List.getElem?_set_self (h.len ▸ hlt)
    · rw [List.getElem?_set_ne (Ne.symm hji)] at hx ⊢; exact h.gone j hx
  · exact h.dis j k x y hjk (key j x hx).2 (key k y hy).2
  · obtain ⟨h1, h2⟩ := key j e' hj
    exact ⟨h1, h2, h.dis j i e' e h1 h2 hi⟩

/-- The elements given away, each with its objects. -/
def Taken (s : Store F) (fp : Nat → List Nat) : List Nat → List (Elem F) → List Nat → Prop
  | [], es, as => es = [] ∧ as = []
  | j :: js, es, as => ∃ e es' a as', es = e :: es' ∧ as = a :: as' ∧ Rep s e a (fp j) ∧ Taken s fp js es' as'

theorem Taken.repList {s : Store F} {fp : Nat → List Nat} : {js : List Nat} → {es : List (Elem F)} → {as : List Nat} → Taken s fp js es as →
    RepList s es as (js.flatMap fp)
  | [], es, as, h => by simp only [Taken] at h; simp [h.1, h.2, RepList]
  | j :: js, es, as, h => by
    simp only [Taken] at h
    obtain ⟨e, es', a, as', rfl, rfl, h1, h2⟩ := h
    simp only [RepList, List.flatMap_cons]
    exact ⟨a, as', fp j, _, rfl, h1, h2.repList, rfl⟩

/-- Giving several elements away. -/
theorem SimVars.takeAll {s : Store F} {fp : Nat → List Nat} {d : Nat} : {js : List Nat} → {vs : List (Option (Elem F))} → {cs : List (Option Nat)} →
    SimVars s vs cs fp d →
    (takeAll js vs = none ∧ takeAll js cs = none) ∨
    ∃ (es : List (Elem F)) (vs' : List (Option (Elem F))) (as : List Nat) (cs' : List (Option Nat)), takeAll js vs = some (es, vs') ∧ takeAll js cs = some (as, cs') ∧ SimVars s vs' cs' fp d ∧ vs'.length = vs.length ∧
      Taken s fp js es as ∧ (js.flatMap fp).Nodup ∧ (∀ e ∈ es, e.depth ≤ d) ∧
      (∀ j ∈ js, ∃ e : Elem F, vs[j]? = some (some e)) ∧
      (∀ (i : Nat) (e : Elem F), vs'[i]? = some (some e) → vs[i]? = some (some e) ∧ List.Disjoint (fp i) (js.flatMap fp))
  | [], vs, cs, h => by
    right
    refine ⟨[], vs, [], cs, rfl, rfl, h, rfl, ?_⟩
    simp [Taken]
  | j :: js, vs, cs, h => by
    simp only [RT.takeAll]
    cases hv : vs[j]? with
    | none =>
      have : cs[j]? = none := by rw [List.getElem?_eq_none_iff] at hv ⊢; rw [← h.len]; exact hv
      left; simp [this]
    | some o =>
      cases o with
      | none => left; simp [h.gone j hv]
      | some e =>
        obtain ⟨a, h1, h2, h3, h4⟩ := h.rel j e hv
        obtain ⟨h5, h6⟩ := h.take hv
        rcases SimVars.takeAll (js := js) h5 with ⟨k1, k2⟩ | ⟨es, vs', as, cs', k1, k2, k3, k4, k5, k6, k7, k8, k9⟩
        · left; simp [h1, k1, k2]
        · right
          refine ⟨e :: es, vs', a :: as, cs', by simp [k1], by simp [h1, k2], k3, by simpa using k4, ?_, ?_, ?_, ?_, ?_⟩
          · simp only [Taken]
            exact ⟨e, es, a, as, rfl, rfl, h2, k5⟩
          · rw [List.flatMap_cons]
            refine List.nodup_append'.2 ⟨h3, k6, ?_⟩
            intro b hb hb'
            obtain ⟨j', hj', hb'⟩ := List.mem_flatMap.1 hb'
            obtain ⟨e', he'⟩ := k8 j' hj'
            exact (h6 j' e' he').2.2 hb' hb
          · intro x hx
            rcases List.mem_cons.1 hx with rfl | hx
            · exact h4
            · exact k7 x hx
          · intro x hx
            rcases List.mem_cons.1 hx with rfl | hx
            · exact ⟨e, hv⟩
            · obtain ⟨e', he'⟩ := k8 x hx
              exact ⟨e', (h6 x e' he').2.1⟩
          · intro i x hx
            obtain ⟨m1, m2⟩ := k9 i x hx
            obtain ⟨m3, m4, m5⟩ := h6 i x m1
            refine ⟨m4, ?_⟩
            rw [List.flatMap_cons]
            intro b hb hb'
            rcases List.mem_append.1 hb' with hb' | hb'
            · exact m5 hb hb'
            · exact m2 hb hb'

/-! ## Splitting lists of objects -/

theorem RepList.split {s : Store F} : {es : List (Elem F)} → {as fps : List Nat} → RepList s es as fps → (k : Nat) →
    ∃ f1 f2, fps = f1 ++ f2 ∧ RepList s (es.take k) (as.take k) f1 ∧ RepList s (es.drop k) (as.drop k) f2
  | es, as, fps, h, 0 => ⟨[], fps, rfl, by simp [RepList], by simpa using h⟩
  | [], as, fps, h, k + 1 => by
    simp only [RepList] at h
    exact ⟨[], [], by simp [h.2], by simp [RepList, h.1], by simp [RepList, h.1]⟩
  | e :: es, as, fps, h, k + 1 => by
    simp only [RepList] at h
    obtain ⟨a, as', f, fs, rfl, h1, h2, rfl⟩ := h
    obtain ⟨f1, f2, rfl, h3, h4⟩ := RepList.split h2 k
    refine ⟨f ++ f1, f2, by simp, ?_, by simpa using h4⟩
    simp only [List.take_succ_cons, RepList]
    exact ⟨a, as'.take k, f, f1, rfl, h1, h3, rfl⟩

theorem RepList.length {s : Store F} {es : List (Elem F)} {as fps : List Nat} (h : RepList s es as fps) : as.length = es.length := by
  have := congrArg List.length h.mats
  simpa using this

variable [PyNum F]

/-- Pushing appends the reference to the list, if anything. -/
theorem push_elems {s s' : Store F} {n g a : Nat} {m : Mat F} {c : Option (Nat × List Nat)} {as : List Nat} (h : s[g]? = some (.group m c as))
    (h' : s.push n g a = (s', .ok ())) : ∃ m', s'[g]? = some (.group m' c (as ++ [a])) := by
  unfold Store.push at h'
  simp only [h] at h'
  have hw : (s.write g (.group m c (as ++ [a])))[g]? = _ := Store.get_write_self h
  cases ht : transferLoop (s.write g (.group m c (as ++ [a]))).mat? ((s.write g (.group m c (as ++ [a]))).transferMatrix n) (as ++ [a]) inf Mat.one with
  | error x => rw [ht] at h'; cases h'
  | ok t => rw [ht] at h'; cases h'; exact ⟨_, Store.get_write_self hw⟩

theorem append_elems {s s' : Store F} {n g a : Nat} {m : Mat F} {c : Option (Nat × List Nat)} {as : List Nat} (h : s[g]? = some (.group m c as))
    (h' : s.append n g a = (s', .ok ())) : ∃ m', s'[g]? = some (.group m' c (as ++ [a])) := by
  unfold Store.append at h'
  simp only [h] at h'
  cases ho : s[a]? with
  | none => rw [ho] at h'; cases h'
  | some o =>
    rw [ho] at h'
    dsimp only at h'
    cases hl : as.getLast? with
    | none => rw [hl] at h'; exact push_elems h h'
    | some l =>
      rw [hl] at h'
      dsimp only at h'
      cases hm : s.mat? l with
      | none => rw [hm] at h'; cases h'
      | some last =>
        rw [hm] at h'
        dsimp only at h'
        split_ifs at h' with h1 h2
        · by_cases hag : a = g
          · subst hag
            rw [h] at ho
            cases ho
            exact push_elems (Store.get_write_self h) h'
          · exact push_elems (by rw [Store.get_write_ne (Ne.symm hag)]; exact h) h'
        · exact absurd (congrArg Prod.snd h') (by simp)
        · exact push_elems h h'

theorem appendAll_elems {n g : Nat} {c : Option (Nat × List Nat)} : {as' : List Nat} → {s s' : Store F} → {m : Mat F} → {as : List Nat} →
    s[g]? = some (.group m c as) → s.appendAll n g as' = (s', .ok ()) → ∃ m', s'[g]? = some (.group m' c (as ++ as'))
  | [], s, s', m, as, h, h' => by
    simp only [Store.appendAll] at h'
    cases h'
    exact ⟨m, by simpa using h⟩
  | a :: as', s, s', m, as, h, h' => by
    simp only [Store.appendAll] at h'
    rcases hr : s.append n g a with ⟨s1, u | u⟩
    · rw [hr] at h'; cases h'
    · rw [hr] at h'
      obtain ⟨m1, h1⟩ := append_elems h hr
      obtain ⟨m2, h2⟩ := appendAll_elems h1 h'
      exact ⟨m2, by simpa using h2⟩

theorem appendAll_depth {n : Nat} : {es : List (Elem F)} → {g : Group F} → (∀ x ∈ g.elems ++ es, x.depth < n) → ∀ x ∈ (g.appendAll es).1.elems, x.depth < n
  | [], g, h => by simpa [Group.appendAll] using h
  | e :: es, g, h => by
    have h1 : ∀ x ∈ (g.append e).1.elems, x.depth < n := append_elems_depth fun x hx => h x (by
      simp only [List.mem_append, List.mem_cons, List.not_mem_nil, or_false] at hx ⊢; tauto)
    simp only [Group.appendAll]
    rcases hr : g.append e with ⟨g1, u | u⟩
    · rw [hr] at h1; exact h1
    · rw [hr] at h1
      refine appendAll_depth fun x hx => ?_
      rcases List.mem_append.1 hx with hx | hx
      · exact h1 x hx
      · exact h x (by simp [hx])

/-- `MatrixGroup(elements)` of objects that are nowhere else. -/
theorem newGroup_rep {s : Store F} {es : List (Elem F)} {as fs : List Nat} {n : Nat} (h : RepList s es as fs) (hn : fs.Nodup)
    (hd : ∀ x ∈ es, x.depth < n) (label : String) :
    ∃ s' : Store F, s.newGroup n as label = (s', (Group.new es label).map fun _ => s.length) ∧
      (∀ g, Group.new es label = .ok g → (∃ m c, s'[s.length]? = some (.group m c as)) ∧
        ∃ fps, GRep s' g s.length fps ∧ fps ⊆ fs ∧ fps.Nodup) ∧
      (∀ b, b < s.length → b ∉ fs → s'[b]? = s[b]?) ∧ s'.length = s.length + 1 := by
  set o : Obj F := .group { (Mat.one : Mat F) with label := label, kind := .group } none [] with ho
  have h0 : (s ++ [o] : Store F)[s.length]? = some o := by simp
  have hlt : s.length ∉ fs := fun hx => lt_irrefl _ (h.lt _ hx)
  have h1 : GRep (s ++ [o] : Store F) (Group.empty label) s.length [] := ⟨[], h0, by simp [RepList, Group.empty]⟩
  have h2 : RepList (s ++ [o] : Store F) es as fs := h.frame fun b hb => List.getElem?_append_left (h.lt b hb)
  obtain ⟨s', p1, ⟨fps, p2, p3, p4⟩, p5, p6⟩ := appendAll_rep h1 h2 (n := n) (by simpa [hlt] using hn) (by simpa [Group.empty] using hd)
  unfold Store.newGroup Group.new
  rw [← ho]
  simp only [List.nil_append] at p3 p5
  rcases hr : (Group.empty label : Group F).appendAll es with ⟨g1, x | u⟩
  · rw [hr] at p1 p2
    rw [p1]
    refine ⟨s', rfl, fun g hg => by simp at hg, fun b hb hb' => ?_, by simpa using p6⟩
    rw [p5 b (by simp only [List.mem_cons, not_or]; exact ⟨by omega, hb'⟩)]
    exact List.getElem?_append_left hb
  · rw [hr] at p1 p2
    rw [p1]
    refine ⟨s', rfl, fun g hg => ?_, fun b hb hb' => ?_, by simpa using p6⟩
    · cases hg
      obtain ⟨m', q⟩ := appendAll_elems h0 p1
      exact ⟨⟨m', none, by simpa using q⟩, fps, p2, p3, p4⟩
    · rw [p5 b (by simp only [List.mem_cons, not_or]; exact ⟨by omega, hb'⟩)]
      exact List.getElem?_append_left hb

/-- Rebuilding a group of the store from objects that are nowhere else. -/
theorem rebuild_rep {s : Store F} {m : Mat F} {c : Option (Nat × List Nat)} {es es0 : List (Elem F)} {as as0 fs : List Nat} {ga n : Nat}
    (h0 : s[ga]? = some (.group m c as0)) (h : RepList s es as fs) (hn : (ga :: fs).Nodup) (hd : ∀ x ∈ es, x.depth < n) :
    ∃ s' : Store F, s.rebuild n ga as = (s', (Group.rebuild ⟨m, c, es0⟩ es).2) ∧
      (∃ fps, GRep s' (Group.rebuild ⟨m, c, es0⟩ es).1 ga fps ∧ fps ⊆ fs ∧ fps.Nodup) ∧
      (∀ b, b ∉ ga :: fs → s'[b]? = s[b]?) ∧ s'.length = s.length := by
  have h1 : s.setElems ga [] = s.write ga (.group m c []) := by unfold Store.setElems; rw [h0]
  have h2 : GRep (s.write ga (.group m c [])) ⟨m, c, []⟩ ga [] := ⟨[], Store.get_write_self h0, by simp [RepList]⟩
  have h3 : RepList (s.write ga (.group m c [])) es as fs :=
    h.frame fun b hb => Store.get_write_ne (by rintro rfl; exact (List.nodup_cons.1 hn).1 hb)
  obtain ⟨s', p1, ⟨fps, p2, p3, p4⟩, p5, p6⟩ := appendAll_rep h2 h3 (n := n) (by simpa using hn) (by simpa using hd)
  unfold Store.rebuild Group.rebuild
  rw [h1]
  refine ⟨s', p1, ⟨fps, p2, by simpa using p3, p4⟩, fun b hb => ?_, p6.trans Store.length_write⟩
  rw [p5 b (by simpa using hb), Store.get_write_ne (by rintro rfl; exact hb (by simp))]

/-- `insert` of objects that are nowhere else. -/
theorem insert_rep {s : Store F} {m : Mat F} {c : Option (Nat × List Nat)} {es new : List (Elem F)} {nas fps fs : List Nat} {ga n : Nat}
    (h0 : GRep s ⟨m, c, es⟩ ga fps) (h : RepList s new nas fs) (hn : (ga :: (fps ++ fs)).Nodup) (hd : ∀ x ∈ es ++ new, x.depth < n)
    (index : Int) :
    ∃ s' : Store F, s.insert n ga index nas = (s', (Group.insert ⟨m, c, es⟩ index new).2) ∧
      (∃ fps', GRep s' (Group.insert ⟨m, c, es⟩ index new).1 ga fps' ∧ fps' ⊆ fps ++ fs ∧ fps'.Nodup) ∧
      (∀ b, b < s.length → b ∉ ga :: (fps ++ fs) → s'[b]? = s[b]?) := by
  obtain ⟨as, h1, h2⟩ := h0
  obtain ⟨n1, n2⟩ := List.nodup_cons.1 hn
  obtain ⟨n3, n4, n5⟩ := List.nodup_append'.1 n2
  obtain ⟨s1, p1, p2, p3, p4⟩ := newGroup_rep h n4 (n := n) (fun x hx => hd x (by simp [hx])) ""
  have hga : ga < s.length := (List.getElem?_eq_some_iff.1 h1).1
  unfold Store.insert Group.insert
  simp only [h1, p1]
  rcases hg : Group.new new "" with x | ng
  · simp only [Except.map]
    refine ⟨s1, rfl, ⟨fps, ⟨as, ?_, h2.frame fun b hb => p3 b (h2.lt b hb) fun hx => n5 hb hx⟩, fun b hb => by simp [hb], n3⟩, fun b hb hb' => p3 b hb ?_⟩
    · rw [p3 ga hga fun hx => n1 (by simp [hx])]; exact h1
    · simp only [List.mem_cons, List.mem_append, not_or] at hb'; exact hb'.2.2
  · simp only [Except.map]
    obtain ⟨⟨m', c', q1⟩, fps', ⟨as', q2, q3⟩, q4, q5⟩ := p2 ng hg
    rw [q1] at q2
    cases q2
    have h1' : s1[ga]? = some (.group m c as) := by rw [p3 ga hga fun hx => n1 (by simp [hx])]; exact h1
    have h2' : RepList s1 es as fps := h2.frame fun b hb => p3 b (h2.lt b hb) fun hx => n5 hb hx
    obtain ⟨f1, f2, rfl, r1, r2⟩ := h2'.split (pyClamp index as.length)
    have hd1 : ∀ x ∈ ng.elems, x.depth < n := by
      have : ng = ((Group.empty "" : Group F).appendAll new).1 := by
        unfold Group.new at hg
        rcases hr : (Group.empty "" : Group F).appendAll new with ⟨g1, x | u⟩
        · rw [hr] at hg; cases hg
        · rw [hr] at hg; cases hg; rfl
      rw [this]
      exact appendAll_depth fun x hx => hd x (by simp [Group.empty] at hx; simp [hx])
    obtain ⟨n6, n7, n8⟩ := List.nodup_append'.1 n3
    have hn' : (ga :: ((f1 ++ fps') ++ f2)).Nodup := by
      refine List.nodup_cons.2 ⟨fun hx => n1 ?_, List.nodup_append'.2 ⟨List.nodup_append'.2 ⟨n6, q5, ?_⟩, n7, ?_⟩⟩
      · simp only [List.mem_append] at hx ⊢
        rcases hx with (hx | hx) | hx
        · tauto
        · have := q4 hx; tauto
        · tauto
      · intro b hb hb'; exact n5 (by simp [hb]) (q4 hb')
      · intro b hb hb'
        rcases List.mem_append.1 hb with hb | hb
        · exact n8 hb hb'
        · exact n5 (by simp [hb']) (q4 hb)
    obtain ⟨s2, t1, ⟨fps2, t2, t3, t4⟩, t5, t6⟩ := rebuild_rep (es0 := es) (n := n) h1' ((r1.append q3).append r2) hn' (fun x hx => by
      simp only [List.mem_append] at hx
      rcases hx with (hx | hx) | hx
      · exact hd x (by simp [List.mem_of_mem_take hx])
      · exact hd1 x hx
      · exact hd x (by simp [List.mem_of_mem_drop hx]))
    rw [h2.length] at t1 t2
    rw [h2.length]
    refine ⟨s2, t1, ⟨fps2, t2, fun b hb => ?_, t4⟩, fun b hb hb' => ?_⟩
    · have := t3 hb
      simp only [List.mem_append] at this ⊢
      rcases this with (h | h) | h
      · tauto
      · have := q4 h; tauto
      · tauto
    · simp only [List.mem_cons, List.mem_append, not_or] at hb'
      rw [t5 b ?_, p3 b hb hb'.2.2]
      simp only [List.mem_cons, List.mem_append, not_or]
      exact ⟨hb'.1, ⟨hb'.2.1.1, fun hx => hb'.2.2 (q4 hx)⟩, hb'.2.1.2⟩

/-- `pop`: the object removed is what the value removed is, and belongs to nothing else. -/
theorem pop_rep {s : Store F} {m : Mat F} {c : Option (Nat × List Nat)} {es : List (Elem F)} {fps : List Nat} {ga n : Nat}
    (h0 : GRep s ⟨m, c, es⟩ ga fps) (hn : (ga :: fps).Nodup) (hd : ∀ x ∈ es, x.depth < n) (index : Int) :
    ∃ (s' : Store F) (fps' : List Nat), GRep s' (Group.pop ⟨m, c, es⟩ index).1 ga fps' ∧ fps' ⊆ fps ∧ fps'.Nodup ∧
      (∀ b, b ∉ ga :: fps → s'[b]? = s[b]?) ∧ s'.length = s.length ∧
      ((∃ x, s.pop n ga index = (s', .error x) ∧ (Group.pop ⟨m, c, es⟩ index).2 = .error x) ∨
       ∃ e a f, s.pop n ga index = (s', .ok a) ∧ (Group.pop ⟨m, c, es⟩ index).2 = .ok e ∧ Rep s' e a f ∧ f ⊆ fps ∧ f.Nodup ∧
         List.Disjoint f fps' ∧ ga ∉ f ∧ e ∈ es) := by
  have h0' := h0
  obtain ⟨as, h1, h2⟩ := h0
  obtain ⟨n1, n2⟩ := List.nodup_cons.1 hn
  have hl : as.length = es.length := h2.length
  unfold Store.pop Group.pop
  simp only [h1, hl]
  cases hk : pyIndex index es.length with
  | none => exact ⟨s, fps, h0', fun _ h => h, n2, fun _ _ => rfl, rfl, Or.inl ⟨_, rfl, rfl⟩⟩
  | some k =>
    dsimp only
    cases he : es[k]? with
    | none =>
      have ha : as[k]? = none := by rw [List.getElem?_eq_none_iff] at he ⊢; omega
      simp only [ha]
      exact ⟨s, fps, h0', fun _ h => h, n2, fun _ _ => rfl, rfl, Or.inl ⟨_, rfl, rfl⟩⟩
    | some e =>
      obtain ⟨hk1, hk2⟩ := List.getElem?_eq_some_iff.1 he
      obtain ⟨f1, f2, rfl, r1, r2⟩ := h2.split k
      rw [List.drop_eq_getElem_cons hk1, hk2] at r2
      have hka : k < as.length := by omega
      rw [List.drop_eq_getElem_cons hka] at r2
      simp only [RepList] at r2
      obtain ⟨a, as', f, fs, e1, r3, r4, rfl⟩ := r2
      simp only [List.cons.injEq] at e1
      obtain ⟨rfl, rfl⟩ := e1
      have ha : as[k]? = some as[k] := List.getElem?_eq_getElem hka
      simp only [ha]
      obtain ⟨m1, m2, m3⟩ := List.nodup_append'.1 n2
      obtain ⟨m4, m5, m6⟩ := List.nodup_append'.1 m2
      have hn' : (ga :: (f1 ++ fs)).Nodup := by
        refine List.nodup_cons.2 ⟨fun hx => n1 ?_, List.nodup_append'.2 ⟨m1, m5, fun b hb hb' => m3 hb (by simp [hb'])⟩⟩
        simp only [List.mem_append] at hx ⊢; tauto
      obtain ⟨s2, t1, ⟨fps2, t2, t3, t4⟩, t5, t6⟩ := rebuild_rep (es0 := es) (n := n) h1 (r1.append r4) hn' (fun x hx => by
        rcases List.mem_append.1 hx with hx | hx
        · exact hd x (List.mem_of_mem_take hx)
        · exact hd x (List.mem_of_mem_drop hx))
      have hsub : fps2 ⊆ f1 ++ (f ++ fs) := fun b hb => by
        have := t3 hb
        simp only [List.mem_append] at this ⊢; tauto
      have hfr : ∀ b, b ∉ ga :: (f1 ++ (f ++ fs)) → s2[b]? = s[b]? := fun b hb => t5 b (by
        simp only [List.mem_cons, List.mem_append, not_or] at hb ⊢; tauto)
      have hgaf : ga ∉ f := fun hx => n1 (by simp [hx])
      have hrep : Rep s2 e as[k] f := r3.frame fun b hb => t5 b (by
        simp only [List.mem_cons, List.mem_append, not_or]
        exact ⟨by rintro rfl; exact hgaf hb, fun hx => m3 hx (by simp [hb]), fun hx => m6 hb hx⟩)
      rw [← List.eraseIdx_eq_take_drop_succ, ← List.eraseIdx_eq_take_drop_succ] at *
      rw [t1]
      rcases hr : Group.rebuild ⟨m, c, es⟩ (es.eraseIdx k) with ⟨g1, x | u⟩
      · rw [hr] at t2
        exact ⟨s2, fps2, t2, hsub, t4, hfr, t6, Or.inl ⟨x, rfl, rfl⟩⟩
      · rw [hr] at t2
        refine ⟨s2, fps2, t2, hsub, t4, hfr, t6, Or.inr ⟨e, as[k], f, rfl, rfl, hrep, fun b hb => by simp [hb], m4, ?_, hgaf, ?_⟩⟩
        · intro b hb hb'
          rcases List.mem_append.1 (t3 hb') with h | h
          · exact m3 h (by simp [hb])
          · exact m6 hb h
        · exact hk2 ▸ List.getElem_mem hk1

/-! ## One step -/

/-- Both runs are in the same state. -/
structure Sim (v : ValState F) (c : ObjState F) (d : Nat) : Prop where
  rays : c.rays = v.rays
  vars : ∃ fp, SimVars c.store v.vars c.vars fp d

theorem GRep.of_rep {s : Store F} {m : Mat F} {c : Option (Nat × List Nat)} {es : List (Elem F)} {a : Nat} {f : List Nat}
    (h : Rep s (.group m c es) a f) : ∃ fps, f = a :: fps ∧ GRep s ⟨m, c, es⟩ a fps := by
  simp only [Rep] at h
  obtain ⟨as, fps, h1, h2, rfl⟩ := h
  exact ⟨fps, rfl, as, h1, h2⟩

theorem leaf_of_rep {s : Store F} {m : Mat F} {a : Nat} {f : List Nat} (h : Rep s (.leaf m) a f) : s[a]? = some (.leaf m) := by
  simp only [Rep] at h; exact h.1

theorem set_self {α : Type} {l : List α} {i : Nat} {x : α} (h : l[i]? = some x) : l.set i x = l := by
  apply List.ext_getElem?
  intro j
  by_cases hj : i = j
  · subst hj; rw [List.getElem?_set_self (List.getElem?_eq_some_iff.1 h).1, h]
  · rw [List.getElem?_set_ne hj]

theorem append_depth {g : Group F} {e : Elem F} {d : Nat} (hg : g.toElem.depth ≤ d + 1) (he : e.depth ≤ d) : (g.append e).1.toElem.depth ≤ d + 1 := by
  have h1 : ∀ x ∈ (g.append e).1.elems, x.depth < d + 1 := append_elems_depth fun x hx => by
    simp only [Group.toElem, Elem.depth] at hg
    rcases List.mem_append.1 hx with hx | hx
    · exact (depthList_lt.1 (show depthList g.elems < d + 1 by omega)).2 x hx
    · simp at hx; rw [hx]; omega
  have := depthList_lt.2 ⟨by omega, h1⟩
  simp only [Group.toElem, Elem.depth]; omega

theorem group_depth {g : Group F} {d : Nat} (h : ∀ x ∈ g.elems, x.depth ≤ d) : g.toElem.depth ≤ d + 1 := by
  have := depthList_lt (n := d + 1) (es := g.elems) |>.2 ⟨by omega, fun x hx => by have := h x hx; omega⟩
  simp only [Group.toElem, Elem.depth]; omega

theorem rebuild_depth {g : Group F} {es : List (Elem F)} {d : Nat} (h : ∀ x ∈ es, x.depth ≤ d) : (g.rebuild es).1.toElem.depth ≤ d + 1 := by
  refine group_depth fun x hx => ?_
  unfold Group.rebuild at hx
  have := appendAll_depth (n := d + 1) (g := { g with elems := [] }) (es := es) (fun x hx => by
    have := h x (by simpa using hx); omega) x hx
  omega

theorem new_depth {es : List (Elem F)} {label : String} {g : Group F} {d : Nat} (hg : Group.new es label = .ok g) (h : ∀ x ∈ es, x.depth ≤ d) :
    ∀ x ∈ g.elems, x.depth ≤ d := by
  have : g = ((Group.empty label : Group F).appendAll es).1 := by
    unfold Group.new at hg
    rcases hr : (Group.empty label : Group F).appendAll es with ⟨g1, x | u⟩
    · rw [hr] at hg; cases hg
    · rw [hr] at hg; cases hg; rfl
  rw [this]
  intro x hx
  have := appendAll_depth (n := d + 1) (fun x hx => by have := h x (by simpa [Group.empty] using hx); omega) x hx
  omega

theorem insert_depth {g : Group F} {new : List (Elem F)} {index : Int} {d : Nat} (hg : ∀ x ∈ g.elems, x.depth ≤ d) (hn : ∀ x ∈ new, x.depth ≤ d) :
    (g.insert index new).1.toElem.depth ≤ d + 1 := by
  unfold Group.insert
  rcases hr : (Group.new new : Except PyErr (Group F)) with x | ng
  · exact group_depth hg
  · refine rebuild_depth fun x hx => ?_
    simp only [List.mem_append] at hx
    rcases hx with (hx | hx) | hx
    · exact hg x (List.mem_of_mem_take hx)
    · exact new_depth hr hn x hx
    · exact hg x (List.mem_of_mem_drop hx)

theorem pop_depth {g : Group F} {index : Int} {d : Nat} (hg : ∀ x ∈ g.elems, x.depth ≤ d) : (g.pop index).1.toElem.depth ≤ d + 1 := by
  unfold Group.pop
  cases pyIndex index g.elems.length with
  | none => exact group_depth hg
  | some k =>
    dsimp only
    cases g.elems[k]? with
    | none => exact group_depth hg
    | some e =>
      dsimp only
      have := rebuild_depth (g := g) (es := g.elems.eraseIdx k) (d := d) fun x hx => hg x (List.mem_of_mem_eraseIdx hx)
      rcases hr : g.rebuild (g.elems.eraseIdx k) with ⟨g1, x | u⟩ <;> rw [hr] at this <;> exact this

theorem elems_depth {m : Mat F} {c : Option (Nat × List Nat)} {es : List (Elem F)} {d : Nat} (h : (Elem.group m c es).depth ≤ d) :
    ∀ x ∈ es, x.depth < d := by
  simp only [Elem.depth] at h
  exact (depthList_lt.1 (show depthList es < d by omega)).2

/-- Both runs see the same in every step. -/
theorem step_sim {v : ValState F} {c : ObjState F} {d n : Nat} (h : Sim v c d) (hn : d + 1 < n) (op : ObjOp F) :
    (c.step n op).2 = (v.step op).2 ∧ Sim (v.step op).1 (c.step n op).1 (d + 1) := by
  obtain ⟨hr, fp, hv⟩ := h
  have hskip : Sim v c (d + 1) := ⟨hr, fp, hv.mono (by omega)⟩
  have hvar : ∀ i, (∃ e a, v.vars[i]? = some (some e) ∧ c.vars[i]? = some (some a) ∧ Rep c.store e a (fp i) ∧ (fp i).Nodup ∧ e.depth ≤ d) ∨
      ((v.vars[i]? = none ∨ v.vars[i]? = some none) ∧ (c.vars[i]? = none ∨ c.vars[i]? = some none)) := by
    intro i
    cases hi : v.vars[i]? with
    | none =>
      right
      have : c.vars[i]? = none := by rw [List.getElem?_eq_none_iff] at hi ⊢; rw [← hv.len]; exact hi
      simp [this]
    | some o =>
      cases o with
      | none => right; simp [hv.gone i hi]
      | some e =>
        left
        obtain ⟨a, h1, h2⟩ := hv.rel i e hi
        exact ⟨e, a, rfl, h1, h2⟩
  /- put back the element of one variable -/
  have hback : ∀ (i a : Nat) (e e' : Elem F) (s' : Store F) (f' : List Nat) (d' : Nat), d ≤ d' → v.vars[i]? = some (some e) → c.vars[i]? = some (some a) →
      Rep s' e' a f' → f' ⊆ fp i → f'.Nodup → e'.depth ≤ d' → (∀ b, b ∉ fp i → s'[b]? = c.store[b]?) →
      SimVars s' (v.vars.set i (some e')) c.vars (Function.update fp i f') d' := by
    intro i a e e' s' f' d' hdd hi hc hr' hsub hnd hde hfr
    obtain ⟨t1, t2⟩ := hv.take hi
    have t3 : SimVars s' (v.vars.set i none) (c.vars.set i none) fp d := t1.frame fun j x hx b hb => hfr b fun hb' => (t2 j x hx).2.2 hb hb'
    have t4 := (t3.mono hdd).put (i := i) hr' hnd hde fun j x _ hx b hb hb' => (t2 j x hx).2.2 hb (hsub hb')
    rw [List.set_set, List.set_set, set_self hc] at t4
    exact t4
  cases op with
  | create m =>
    refine ⟨rfl, hr, Function.update fp v.vars.length [c.store.length], ?_⟩
    have h1 : SimVars (c.store ++ [.leaf m] : Store F) v.vars c.vars fp (d + 1) := (hv.mono (by omega)).frame fun i e hi b hb => by
      obtain ⟨a, h1, h2, _⟩ := hv.rel i e hi
      exact List.getElem?_append_left (h2.lt b hb)
    refine h1.push (e := .leaf m) (f := [c.store.length]) ?_ (by simp) (by simp [Elem.depth]) ?_
    · simp [Rep]
    · intro j e' hj b hb hb'
      obtain ⟨a, h1, h2, _⟩ := hv.rel j e' hj
      have := h2.lt b hb
      simp at hb'
      omega
  | group js label =>
    simp only [ValState.step, ObjState.step]
    rcases hv.takeAll (js := js) with ⟨k1, k2⟩ | ⟨es, vs', as, cs', k1, k2, k3, k4, k5', k6, k7, k8, k9⟩
    · simp only [k1, k2]; exact ⟨trivial, hskip⟩
    · have k5 := k5'.repList
      simp only [k1, k2]
      obtain ⟨s', p1, p2, p3, p4⟩ := newGroup_rep k5 k6 (n := n) (fun x hx => by have := k7 x hx; omega) label
      have h1 : SimVars s' vs' cs' fp (d + 1) := (k3.mono (by omega)).frame fun i e hi b hb => by
        obtain ⟨q1, q2⟩ := k9 i e hi
        obtain ⟨a, _, q3, _⟩ := hv.rel i e q1
        exact p3 b (q3.lt b hb) fun hb' => q2 hb hb'
      rw [p1]
      rcases hg : Group.new es label with x | g
      · exact ⟨rfl, hr, fp, h1.pushNone⟩
      · obtain ⟨_, fps, q1, q2, q3⟩ := p2 g hg
        refine ⟨rfl, hr, _, h1.push q1.rep (List.nodup_cons.2 ⟨fun hx => ?_, q3⟩) (group_depth (new_depth hg k7)) ?_⟩
        · exact lt_irrefl _ (k5.lt _ (q2 hx))
        · intro j e' hj b hb hb'
          obtain ⟨q4, q5⟩ := k9 j e' hj
          obtain ⟨a, _, q6, _⟩ := hv.rel j e' q4
          rcases List.mem_cons.1 hb' with rfl | hb'
          · exact lt_irrefl _ (q6.lt _ hb)
          · exact q5 hb (q2 hb')
  | append i j =>
    simp only [ValState.step, ObjState.step]
    rcases hv.takeAll (js := [j, i]) with ⟨k1, k2⟩ | ⟨es, vs', as, cs', k1, k2, k3, k4, k5, k6, k7, k8, k9⟩
    · simp only [k1, k2]; exact ⟨trivial, hskip⟩
    · have hfm : [j, i].flatMap fp = fp j ++ fp i := by simp
      rw [hfm] at k6 k9
      simp only [Taken] at k5
      obtain ⟨e, es', a, as', rfl, rfl, r1, e2, es2, g, as2, rfl, rfl, r2, rfl, rfl⟩ := k5
      simp only [k1, k2]
      cases e2 with
      | leaf m => simp only [leaf_of_rep r2]; exact ⟨trivial, hskip⟩
      | group m ca es =>
        obtain ⟨fpg, hfi, hG⟩ := GRep.of_rep r2
        have hG' := hG
        obtain ⟨asg, hg0, _⟩ := hG'
        rw [hfi] at k6 k9
        obtain ⟨n1, n2, n3⟩ := List.nodup_append'.1 k6
        obtain ⟨n4, n5⟩ := List.nodup_cons.1 n2
        have hde : e.depth ≤ d := k7 e (by simp)
        have hdg : (Elem.group m ca es).depth ≤ d := k7 _ (by simp)
        obtain ⟨s', p1, ⟨fps', p2, p3, p4⟩, p5, p6⟩ := append_rep hG r1 (n := n)
          (List.nodup_cons.2 ⟨fun hx => by
            rcases List.mem_append.1 hx with hx | hx
            · exact n4 hx
            · exact n3 hx (by simp), List.nodup_append'.2 ⟨n5, n1, fun b hb hb' => n3 hb' (by simp [hb])⟩⟩)
          (fun x hx => by
            rcases List.mem_append.1 hx with hx | hx
            · have := elems_depth hdg x hx; omega
            · simp at hx; rw [hx]; omega)
        simp only [hg0, p1]
        refine ⟨trivial, hr, _, (((k3.mono (show d ≤ d + 1 by omega)).frame fun l x hx b hb => p5 b fun hb' => ?_).put p2.rep
          (List.nodup_cons.2 ⟨fun hx => ?_, p4⟩) (append_depth (g := ⟨m, ca, es⟩) (by simp only [Group.toElem]; omega) hde) fun l x _ hx b hb hb' => ?_)⟩
        · refine (k9 l x hx).2 hb ?_
          simp only [List.mem_cons, List.mem_append] at hb' ⊢; tauto
        · rcases List.mem_append.1 (p3 hx) with hx | hx
          · exact n4 hx
          · exact n3 hx (by simp)
        · refine (k9 l x hx).2 hb ?_
          rcases List.mem_cons.1 hb' with rfl | hb'
          · simp
          · have := p3 hb'
            simp only [List.mem_cons, List.mem_append] at this ⊢; tauto
  | insert i index js =>
    simp only [ValState.step, ObjState.step]
    rcases hv.takeAll (js := i :: js) with ⟨k1, k2⟩ | ⟨es, vs', as, cs', k1, k2, k3, k4, k5, k6, k7, k8, k9⟩
    · simp only [k1, k2]; exact ⟨trivial, hskip⟩
    · rw [List.flatMap_cons] at k6 k9
      simp only [Taken] at k5
      obtain ⟨e2, new, g, nas, rfl, rfl, r2, r1'⟩ := k5
      have r1 := r1'.repList
      simp only [k1, k2]
      cases e2 with
      | leaf m => simp only [leaf_of_rep r2]; exact ⟨trivial, hskip⟩
      | group m ca es =>
        obtain ⟨fpg, hfi, hG⟩ := GRep.of_rep r2
        have hG' := hG
        obtain ⟨asg, hg0, _⟩ := hG'
        rw [hfi] at k6 k9
        rw [List.cons_append] at k6 k9
        have hdg : (Elem.group m ca es).depth ≤ d := k7 _ (by simp)
        have hdn : ∀ x ∈ new, x.depth ≤ d := fun x hx => k7 x (by simp [hx])
        obtain ⟨s', p1, ⟨fps', p2, p3, p4⟩, p5⟩ := insert_rep hG r1 k6 (n := n) (fun x hx => by
            rcases List.mem_append.1 hx with hx | hx
            · have := elems_depth hdg x hx; omega
            · have := hdn x hx; omega) index
        simp only [hg0, p1]
        refine ⟨trivial, hr, _, (((k3.mono (show d ≤ d + 1 by omega)).frame fun l x hx b hb => p5 b ?_ fun hb' => (k9 l x hx).2 hb hb').put p2.rep
          (List.nodup_cons.2 ⟨fun hx => (List.nodup_cons.1 k6).1 (p3 hx), p4⟩)
          (insert_depth (fun x hx => by have := elems_depth hdg x hx; omega) hdn) fun l x _ hx b hb hb' => ?_)⟩
        · obtain ⟨_, _, q3, _⟩ := hv.rel l x (k9 l x hx).1
          exact q3.lt b hb
        · refine (k9 l x hx).2 hb ?_
          rcases List.mem_cons.1 hb' with rfl | hb'
          · simp
          · exact List.mem_cons_of_mem _ (p3 hb')
  | pop i index =>
    simp only [ValState.step, ObjState.step]
    rcases hvar i with ⟨e, g, h1, h2, h3, h4, h5⟩ | ⟨e1, e2⟩
    · simp only [h1, h2]
      cases e with
      | leaf m => simp only [leaf_of_rep h3]; exact ⟨trivial, hskip⟩
      | group m ca es =>
        obtain ⟨fpg, hfi, hG⟩ := GRep.of_rep h3
        have hG' := hG
        obtain ⟨asg, hg0, _⟩ := hG'
        simp only [hg0]
        have hes : ∀ x ∈ es, x.depth ≤ d := fun x hx => by have := elems_depth h5 x hx; omega
        obtain ⟨s', fps', p1, p2, p3, p4, p5, p6⟩ := pop_rep hG (hfi ▸ h4) (n := n) (fun x hx => by have := hes x hx; omega) index
        have hsv := hback i g _ _ s' (g :: fps') (d + 1) (by omega) h1 h2 p1.rep
          (by rw [hfi]; exact List.cons_subset_cons _ p2) (List.nodup_cons.2 ⟨fun hx => (List.nodup_cons.1 (hfi ▸ h4)).1 (p2 hx), p3⟩)
          (pop_depth hes) (by rw [hfi]; exact p4)
        rcases p6 with ⟨x, q1, q2⟩ | ⟨e, a, f, q1, q2, q3, q4, q5, q6, q7, q8⟩
        · rcases hp : Group.pop ⟨m, ca, es⟩ index with ⟨g1, y | u⟩
          · rw [hp] at q2 hsv
            cases q2
            simp only [q1]
            exact ⟨trivial, hr, _, hsv.pushNone⟩
          · rw [hp] at q2; cases q2
        · rcases hp : Group.pop ⟨m, ca, es⟩ index with ⟨g1, y | u⟩
          · rw [hp] at q2; cases q2
          · rw [hp] at q2 hsv
            cases q2
            simp only [q1]
            refine ⟨trivial, hr, _, hsv.push q3 q5 (by have := hes e q8; omega) fun l x hx b hb hb' => ?_⟩
            by_cases hl : l = i
            · subst hl
              rw [Function.update_self] at hb
              rcases List.mem_cons.1 hb with rfl | hb
              · exact q7 hb'
              · exact q6 hb' hb
            · rw [Function.update_of_ne hl] at hb
              rw [List.getElem?_set_ne (Ne.symm hl)] at hx
              exact hv.dis l i x _ hl hx h1 hb (by rw [hfi]; exact List.mem_cons_of_mem _ (q4 hb'))
    · rcases e1 with e1 | e1 <;> rcases e2 with e2 | e2 <;> simp only [e1, e2] <;> exact ⟨trivial, hskip⟩
  | flip i =>
    simp only [ValState.step, ObjState.step]
    rcases hvar i with ⟨e, a, h1, h2, h3, h4, h5⟩ | ⟨e1, e2⟩
    · obtain ⟨s', p1, ⟨f', p2, p3, p4⟩, p5, p6⟩ := flip_rep e c.store a n (fp i) h3 h4 (by omega)
      simp only [h1, h2, p1]
      exact ⟨trivial, hr, _, hback i a e e.flip.1 s' f' (d + 1) (by omega) h1 h2 p2 p3 p4 (by have := flip_depth e; omega) p5⟩
    · rcases e1 with e1 | e1 <;> rcases e2 with e2 | e2 <;> simp only [e1, e2] <;> exact ⟨trivial, hskip⟩
  | trace i r =>
    simp only [ValState.step, ObjState.step]
    rcases hvar i with ⟨e, a, h1, h2, h3, h4, h5⟩ | ⟨e1, e2⟩
    · obtain ⟨s', p1, p2, p3, p4, p5⟩ := trace_rep e h3 h4 (show e.depth < n by omega) v.rays.length (v.rays ++ [r])
      simp only [h1, h2, hr, p1, Elem.traceNew]
      exact ⟨trivial, rfl, _, hback i a e _ s' (fp i) (d + 1) (by omega) h1 h2 p2 (fun _ h => h) h4 (by omega) p3⟩
    · rcases e1 with e1 | e1 <;> rcases e2 with e2 | e2 <;> simp only [e1, e2] <;> exact ⟨trivial, hskip⟩
  | transfer i upTo =>
    simp only [ValState.step, ObjState.step]
    rcases hvar i with ⟨e, a, h1, h2, h3, h4, h5⟩ | ⟨e1, e2⟩
    · simp only [h1, h2, h3.transfer (show e.depth < n by omega)]
      exact ⟨trivial, hskip⟩
    · rcases e1 with e1 | e1 <;> rcases e2 with e2 | e2 <;> simp only [e1, e2] <;> exact ⟨trivial, hskip⟩

end RT
