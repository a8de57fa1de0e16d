import Verif.Spec.Store
import Mathlib.Data.List.Perm.Basic
import Mathlib.Data.List.Nodup
import Mathlib.Tactic.Linarith

set_option linter.unusedSectionVars false

/-! # Objects that are not shared behave as values -/

namespace RT
open PyNum
variable {F : Type}

theorem depthList_lt {n : Nat} : {es : List (Elem F)} → depthList es < n ↔ 0 < n ∧ ∀ e ∈ es, e.depth < n
  | [] => by simp [depthList]
  | e :: es => by
    have := depthList_lt (n := n) (es := es)
    simp only [depthList, max_lt_iff, this, List.mem_cons, forall_eq_or_imp]
    exact ⟨fun h => ⟨h.2.1, h.1, h.2.2⟩, fun h => ⟨h.2.1, h.1, h.2.2⟩⟩

theorem Store.get_write {s : Store F} {a b : Nat} {o : Obj F} :
    (s.write a o)[b]? = if a = b ∧ a < s.length then some o else s[b]? := by
  unfold Store.write
  rw [List.getElem?_set]
  split_ifs <;> first | rfl | (simp_all; done) | (simp_all; omega)

theorem Store.get_write_self {s : Store F} {a : Nat} {o o' : Obj F} (h : s[a]? = some o') : (s.write a o)[a]? = some o := by
  rw [Store.get_write, if_pos ⟨rfl, (List.getElem?_eq_some_iff.1 h).1⟩]

theorem Store.get_write_ne {s : Store F} {a b : Nat} {o : Obj F} (h : b ≠ a) : (s.write a o)[b]? = s[b]? := by
  rw [Store.get_write, if_neg fun x => h x.1.symm]

theorem Store.length_write {s : Store F} {a : Nat} {o : Obj F} : (s.write a o).length = s.length := by
  simp [Store.write]

theorem Rep.mat {s : Store F} {a : Nat} {fp : List Nat} : {e : Elem F} → Rep s e a fp → s.mat? a = some e.mat
  | .leaf m, h => by simp only [Rep] at h; simp [Store.mat?, h.1, Obj.mat, Elem.mat]
  | .group m c es, h => by
    simp only [Rep] at h
    obtain ⟨as, fps, h1, _⟩ := h
    simp [Store.mat?, h1, Obj.mat, Elem.mat]

theorem RepList.mats {s : Store F} : {es : List (Elem F)} → {as fps : List Nat} → RepList s es as fps →
    as.map s.mat? = es.map fun e => some e.mat
  | [], as, fps, h => by simp only [RepList] at h; simp [h.1]
  | e :: es, as, fps, h => by
    simp only [RepList] at h
    obtain ⟨a, as', f, fs, rfl, h1, h2, rfl⟩ := h
    simp [h1.mat, RepList.mats h2]

mutual
theorem Rep.frame {s s' : Store F} : {e : Elem F} → {a : Nat} → {fp : List Nat} → (∀ b ∈ fp, s'[b]? = s[b]?) → Rep s e a fp → Rep s' e a fp
  | .leaf m, a, fp, hf, h => by
    simp only [Rep] at h ⊢
    exact ⟨by rw [hf a (by simp [h.2])]; exact h.1, h.2⟩
  | .group m c es, a, fp, hf, h => by
    simp only [Rep] at h ⊢
    obtain ⟨as, fps, h1, h2, rfl⟩ := h
    exact ⟨as, fps, by rw [hf a (by simp)]; exact h1, RepList.frame (fun b hb => hf b (by simp [hb])) h2, rfl⟩
theorem RepList.frame {s s' : Store F} : {es : List (Elem F)} → {as fps : List Nat} → (∀ b ∈ fps, s'[b]? = s[b]?) → RepList s es as fps →
    RepList s' es as fps
  | [], as, fps, _, h => by simp only [RepList] at h ⊢; exact h
  | e :: es, as, fps, hf, h => by
    simp only [RepList] at h ⊢
    obtain ⟨a, as', f, fs, rfl, h1, h2, rfl⟩ := h
    exact ⟨a, as', f, fs, rfl, Rep.frame (fun b hb => hf b (by simp [hb])) h1, RepList.frame (fun b hb => hf b (by simp [hb])) h2, rfl⟩
end

mutual
theorem Rep.lt {s : Store F} : {e : Elem F} → {a : Nat} → {fp : List Nat} → Rep s e a fp → ∀ b ∈ fp, b < s.length
  | .leaf m, a, fp, h => by
    simp only [Rep] at h
    have := (List.getElem?_eq_some_iff.1 h.1).1
    intro b hb; simp [h.2] at hb; omega
  | .group m c es, a, fp, h => by
    simp only [Rep] at h
    obtain ⟨as, fps, h1, h2, rfl⟩ := h
    have := (List.getElem?_eq_some_iff.1 h1).1
    intro b hb
    rcases List.mem_cons.1 hb with rfl | hb
    · exact this
    · exact RepList.lt h2 b hb
theorem RepList.lt {s : Store F} : {es : List (Elem F)} → {as fps : List Nat} → RepList s es as fps → ∀ b ∈ fps, b < s.length
  | [], as, fps, h => by simp only [RepList] at h; simp [h.2]
  | e :: es, as, fps, h => by
    simp only [RepList] at h
    obtain ⟨a, as', f, fs, rfl, h1, h2, rfl⟩ := h
    intro b hb
    rcases List.mem_append.1 hb with hb | hb
    · exact Rep.lt h1 b hb
    · exact RepList.lt h2 b hb
end

theorem RepList.append {s : Store F} : {es es' : List (Elem F)} → {as as' fps fps' : List Nat} → RepList s es as fps → RepList s es' as' fps' →
    RepList s (es ++ es') (as ++ as') (fps ++ fps')
  | [], es', as, as', fps, fps', h, h' => by simp only [RepList] at h; simpa [h.1, h.2] using h'
  | e :: es, es', as, as', fps, fps', h, h' => by
    simp only [RepList] at h
    obtain ⟨a, as1, f, fs, rfl, h1, h2, rfl⟩ := h
    simp only [List.cons_append, RepList]
    exact ⟨a, as1 ++ as', f, fs ++ fps', rfl, h1, RepList.append h2 h', by simp⟩

theorem RepList.single {s : Store F} {e : Elem F} {a : Nat} {f : List Nat} (h : Rep s e a f) : RepList s [e] [a] f := by
  simp only [RepList]; exact ⟨a, [], f, [], rfl, h, ⟨rfl, rfl⟩, by simp⟩

theorem RepList.reverse {s : Store F} : {es : List (Elem F)} → {as fps : List Nat} → RepList s es as fps →
    ∃ fps', RepList s es.reverse as.reverse fps' ∧ fps'.Perm fps
  | [], as, fps, h => by simp only [RepList] at h; exact ⟨[], by simp [RepList, h.1], by simp [h.2]⟩
  | e :: es, as, fps, h => by
    simp only [RepList] at h
    obtain ⟨a, as', f, fs, rfl, h1, h2, rfl⟩ := h
    obtain ⟨fps', h3, h4⟩ := RepList.reverse h2
    refine ⟨fps' ++ f, ?_, List.perm_append_comm.trans (List.Perm.append_left f h4)⟩
    simp only [List.reverse_cons]
    exact h3.append (RepList.single h1)

variable [PyNum F]

mutual
theorem Rep.transfer {s : Store F} : {e : Elem F} → {a : Nat} → {fp : List Nat} → {n : Nat} → Rep s e a fp → e.depth < n → (d : F) →
    s.transferMatrix n a d = e.transferMatrix d
  | .leaf m, a, fp, n, h, hn, d => by
    obtain ⟨n, rfl⟩ : ∃ k, n = k + 1 := ⟨n - 1, by simp only [Elem.depth] at hn; omega⟩
    simp only [Rep] at h
    simp [Store.transferMatrix, h.1, Elem.transferMatrix]
  | .group m c es, a, fp, n, h, hn, d => by
    obtain ⟨n, rfl⟩ : ∃ k, n = k + 1 := ⟨n - 1, by simp only [Elem.depth] at hn; omega⟩
    simp only [Rep] at h
    obtain ⟨as, fps, h1, h2, rfl⟩ := h
    simp only [Elem.depth] at hn
    simp only [Store.transferMatrix, h1, Elem.transferMatrix]
    exact RepList.transfer h2 (depthList_lt.1 (by omega)).2 d Mat.one
theorem RepList.transfer {s : Store F} : {es : List (Elem F)} → {as fps : List Nat} → {n : Nat} → RepList s es as fps →
    (∀ e ∈ es, e.depth < n) → (d : F) → (acc : Mat F) →
    transferLoop s.mat? (s.transferMatrix n) as d acc = transferMatrixList es d acc
  | [], as, fps, n, h, hn, d, acc => by simp only [RepList] at h; simp [h.1, transferLoop, transferMatrixList]
  | e :: es, as, fps, n, h, hn, d, acc => by
    simp only [RepList] at h
    obtain ⟨a, as', f, fs, rfl, h1, h2, rfl⟩ := h
    simp only [transferLoop, transferMatrixList, h1.mat]
    split_ifs
    · cases e.mat.mulMatrix acc with
      | error x => rfl
      | ok t => exact RepList.transfer h2 (fun e he => hn e (by simp [he])) _ _
    · rw [Rep.transfer h1 (hn e (by simp)) d]
      cases e.transferMatrix d <;> rfl
end

theorem depth_setIndices (e : Elem F) (x : F) : (e.setIndices x).depth = e.depth := by
  cases e <;> simp [Elem.setIndices, Elem.depth]

/-- Pushing a reference refines pushing a value. -/
theorem push_rep {s : Store F} {g : Group F} {e : Elem F} {ga a n : Nat} {as fps fe : List Nat}
    (h1 : s[ga]? = some (.group g.mat g.cache as)) (h2 : RepList s g.elems as fps) (h3 : Rep s e a fe) (h4 : ga ∉ fps ++ fe)
    (h5 : ∀ x ∈ g.elems ++ [e], x.depth < n) :
    ∃ s' : Store F, s.push n ga a = (s', (g.push e).2) ∧
      s'[ga]? = some (.group (g.push e).1.mat (g.push e).1.cache (as ++ [a])) ∧ (g.push e).1.elems = g.elems ++ [e] ∧
      (∀ b, b ≠ ga → s'[b]? = s[b]?) ∧ s'.length = s.length := by
  have hne : ∀ b ∈ fps ++ fe, b ≠ ga := fun b hb => by rintro rfl; exact h4 hb
  have h6 : RepList (s.write ga (.group g.mat g.cache (as ++ [a]))) (g.elems ++ [e]) (as ++ [a]) (fps ++ fe) :=
    (h2.append (RepList.single h3)).frame fun b hb => Store.get_write_ne (hne b hb)
  have h7 := h6.transfer h5 inf Mat.one
  have hw : (s.write ga (.group g.mat g.cache (as ++ [a])))[ga]? = _ := Store.get_write_self h1
  unfold Store.push Group.push
  simp only [h1, h7]
  cases transferMatrixList (g.elems ++ [e]) inf Mat.one with
  | error x =>
    exact ⟨_, rfl, hw, rfl, fun b hb => Store.get_write_ne hb, Store.length_write⟩
  | ok t =>
    exact ⟨_, rfl, Store.get_write_self hw, rfl, fun b hb => by rw [Store.get_write_ne hb, Store.get_write_ne hb],
      by rw [Store.length_write, Store.length_write]⟩

/-- A `Space` gets other indices. -/
theorem setIndices_rep {s : Store F} {e : Elem F} {a : Nat} {fe : List Nat} {o : Obj F} (h : Rep s e a fe) (ho : s[a]? = some o) (hn : fe.Nodup)
    (x : F) : Rep (s.write a (o.withMat { o.mat with frontIndex := x, backIndex := x })) (e.setIndices x) a fe := by
  cases e with
  | leaf m =>
    simp only [Rep] at h
    rw [h.1] at ho
    cases ho
    simp only [Elem.setIndices, Rep, Obj.withMat, Obj.mat]
    exact ⟨Store.get_write_self h.1, h.2⟩
  | group m c es =>
    simp only [Rep] at h
    obtain ⟨as, fps, h1, h2, rfl⟩ := h
    rw [h1] at ho
    cases ho
    simp only [Elem.setIndices, Rep, Obj.withMat, Obj.mat]
    refine ⟨as, fps, Store.get_write_self h1, h2.frame fun b hb => Store.get_write_ne ?_, rfl⟩
    rintro rfl
    exact (List.nodup_cons.1 hn).1 hb

theorem Rep.get {s : Store F} {e : Elem F} {a : Nat} {fe : List Nat} (h : Rep s e a fe) : ∃ o, s[a]? = some o ∧ o.mat = e.mat := by
  have := h.mat
  unfold Store.mat? at this
  cases ho : s[a]? with
  | none => rw [ho] at this; cases this
  | some o => rw [ho] at this; exact ⟨o, rfl, by simpa using this⟩

theorem Rep.self {s : Store F} {e : Elem F} {a : Nat} {fe : List Nat} (h : Rep s e a fe) : a ∈ fe := by
  cases e with
  | leaf m => simp only [Rep] at h; simp [h.2]
  | group m c es => simp only [Rep] at h; obtain ⟨as, fps, _, _, rfl⟩ := h; simp

/-- What it means that a group of the store refines a group. -/
def GRep (s : Store F) (g : Group F) (ga : Nat) (fps : List Nat) : Prop :=
  ∃ as, s[ga]? = some (.group g.mat g.cache as) ∧ RepList s g.elems as fps

theorem GRep.rep {s : Store F} {g : Group F} {ga : Nat} {fps : List Nat} (h : GRep s g ga fps) : Rep s g.toElem ga (ga :: fps) := by
  obtain ⟨as, h1, h2⟩ := h
  simp only [Group.toElem, Rep]
  exact ⟨as, fps, h1, h2, rfl⟩

theorem append_elems_depth {g : Group F} {e : Elem F} {n : Nat} (h : ∀ x ∈ g.elems ++ [e], x.depth < n) :
    ∀ x ∈ (g.append e).1.elems, x.depth < n := by
  have key : ∀ e' : Elem F, e'.depth < n → ∀ x ∈ (g.push e').1.elems, x.depth < n := by
    intro e' he' x hx
    have : (g.push e').1.elems = g.elems ++ [e'] := by
      unfold Group.push; dsimp only; cases transferMatrixList (g.elems ++ [e']) inf Mat.one <;> rfl
    rw [this] at hx
    rcases List.mem_append.1 hx with hx | hx
    · exact h x (by simp [hx])
    · simp at hx; rw [hx]; exact he'
  have he : e.depth < n := h e (by simp)
  unfold Group.append
  cases g.elems.getLast? with
  | none => exact key e he
  | some last =>
    dsimp only
    split_ifs
    · exact key _ (by rw [depth_setIndices]; exact he)
    · exact fun x hx => h x (by simp [hx])
    · exact key e he

/-- Appending an object that is nowhere else refines appending a value. -/
theorem append_rep {s : Store F} {g : Group F} {e : Elem F} {ga a n : Nat} {fps fe : List Nat}
    (h1 : GRep s g ga fps) (h3 : Rep s e a fe) (h4 : (ga :: (fps ++ fe)).Nodup) (h5 : ∀ x ∈ g.elems ++ [e], x.depth < n) :
    ∃ s' : Store F, s.append n ga a = (s', (g.append e).2) ∧
      (∃ fps', GRep s' (g.append e).1 ga fps' ∧ fps' ⊆ fps ++ fe ∧ fps'.Nodup) ∧
      (∀ b, b ∉ ga :: (fps ++ fe) → s'[b]? = s[b]?) ∧ s'.length = s.length := by
  obtain ⟨as, h1, h2⟩ := h1
  obtain ⟨hga, hnd⟩ := List.nodup_cons.1 h4
  obtain ⟨hn1, hn2, hdis⟩ := List.nodup_append.1 hnd
  obtain ⟨o, ho, hom⟩ := h3.get
  have finish : ∀ (s0 : Store F) (e' : Elem F), s0[ga]? = some (.group g.mat g.cache as) → RepList s0 g.elems as fps → Rep s0 e' a fe →
      e'.depth < n → (∀ b, b ∉ ga :: (fps ++ fe) → s0[b]? = s[b]?) → s0.length = s.length →
      ∃ s' : Store F, s0.push n ga a = (s', (g.push e').2) ∧
      (∃ fps', GRep s' (g.push e').1 ga fps' ∧ fps' ⊆ fps ++ fe ∧ fps'.Nodup) ∧
      (∀ b, b ∉ ga :: (fps ++ fe) → s'[b]? = s[b]?) ∧ s'.length = s.length := by
    intro s0 e' k1 k2 k3 k4 k5 k6
    obtain ⟨s', p1, p2, p3, p4, p5⟩ := push_rep k1 k2 k3 hga (n := n) (by
      intro x hx
      rcases List.mem_append.1 hx with hx | hx
      · exact h5 x (by simp [hx])
      · simp at hx; rw [hx]; exact k4)
    refine ⟨s', p1, ⟨fps ++ fe, ⟨as ++ [a], p2, ?_⟩, fun _ h => h, hnd⟩, fun b hb => ?_, p5.trans k6⟩
    · rw [p3]
      exact (k2.append (RepList.single k3)).frame fun b hb => p4 b (by rintro rfl; exact hga hb)
    · rw [p4 b (by rintro rfl; exact hb (by simp)), k5 b hb]
  have hlast : as.getLast?.map s.mat? = g.elems.getLast?.map fun e => some e.mat := by
    rw [← List.getLast?_map, ← List.getLast?_map, h2.mats]
  unfold Store.append Group.append
  simp only [h1, ho]
  cases hl : g.elems.getLast? with
  | none =>
    rw [hl] at hlast
    cases hl' : as.getLast? with
    | some x => rw [hl'] at hlast; cases hlast
    | none => exact finish s e h1 h2 h3 (h5 e (by simp)) (fun _ _ => rfl) rfl
  | some last =>
    rw [hl] at hlast
    cases hl' : as.getLast? with
    | none => rw [hl'] at hlast; cases hlast
    | some x =>
      rw [hl'] at hlast
      have hx : s.mat? x = some last.mat := by simpa using hlast
      simp only [hx, hom]
      by_cases hi : (last.mat.backIndex !=. e.mat.frontIndex) = true
      · have hos : o.isSpace = e.isSpace := by unfold Obj.isSpace Elem.isSpace; rw [hom]; cases e.mat.kind <;> rfl
        simp only [hi, if_true, hos]
        by_cases hk : e.isSpace = true
        · simp only [hk, if_true]
          have hae : a ∈ fe := h3.self
          have ha : a ≠ ga := by rintro rfl; exact hga (by simp [hae])
          have := finish (s.write a (o.withMat { o.mat with frontIndex := last.mat.backIndex, backIndex := last.mat.backIndex }))
            (e.setIndices last.mat.backIndex) (by rw [Store.get_write_ne (Ne.symm ha)]; exact h1)
            (h2.frame fun b hb => Store.get_write_ne (by rintro rfl; exact hdis _ hb _ hae rfl)) (setIndices_rep h3 ho hn2 _)
            (by rw [depth_setIndices]; exact h5 e (by simp))
            (fun b hb => Store.get_write_ne (by rintro rfl; exact hb (by simp [hae]))) Store.length_write
          rw [hom] at this
          exact this
        · simp only [hk, Bool.false_eq_true, if_false]
          exact ⟨s, rfl, ⟨fps, ⟨as, h1, h2⟩, fun b hb => by simp [hb], hn1⟩, fun _ _ => rfl, rfl⟩
      · simp only [hi, Bool.false_eq_true, if_false]
        exact finish s e h1 h2 h3 (h5 e (by simp)) (fun _ _ => rfl) rfl

/-- Appending objects that are nowhere else, one after the other. -/
theorem appendAll_rep : {es : List (Elem F)} → {s : Store F} → {g : Group F} → {ga n : Nat} → {as fps fs : List Nat} → 
    GRep s g ga fps → RepList s es as fs → (ga :: (fps ++ fs)).Nodup → (∀ x ∈ g.elems ++ es, x.depth < n) →
    ∃ s' : Store F, s.appendAll n ga as = (s', (g.appendAll es).2) ∧
      (∃ fps', GRep s' (g.appendAll es).1 ga fps' ∧ fps' ⊆ fps ++ fs ∧ fps'.Nodup) ∧
      (∀ b, b ∉ ga :: (fps ++ fs) → s'[b]? = s[b]?) ∧ s'.length = s.length
  | [], s, g, ga, n, as, fps, fs, h1, h2, h3, h4 => by
    simp only [RepList] at h2
    simp only [h2.1, Store.appendAll, Group.appendAll]
    exact ⟨s, rfl, ⟨fps, h1, fun b hb => by simp [hb], (List.nodup_append.1 (List.nodup_cons.1 h3).2).1⟩, fun _ _ => rfl, rfl⟩
  | e :: es, s, g, ga, n, as, fps, fs, h1, h2, h3, h4 => by
    simp only [RepList] at h2
    obtain ⟨a, as', f, fs', rfl, k1, k2, rfl⟩ := h2
    obtain ⟨n1, n2⟩ := List.nodup_cons.1 h3
    rw [← List.append_assoc] at n1 n2
    obtain ⟨n3, n4, n5⟩ := List.nodup_append.1 n2
    obtain ⟨s1, p1, ⟨fps1, p2, p3, p4⟩, p5, p6⟩ := append_rep h1 k1 (n := n)
      (List.nodup_cons.2 ⟨fun hx => n1 (List.mem_append.2 (Or.inl hx)), n3⟩)
      (fun x hx => h4 x (by simp only [List.mem_append, List.mem_cons, List.not_mem_nil, or_false] at hx ⊢; tauto))
    simp only [Store.appendAll, Group.appendAll, p1]
    have q1 : RepList s1 es as' fs' := k2.frame fun b hb => p5 b (by
      simp only [List.mem_cons, not_or]
      exact ⟨by rintro rfl; exact n1 (List.mem_append.2 (Or.inr hb)), fun hx => n5 b hx b hb rfl⟩)
    have q2 : (ga :: (fps1 ++ fs')).Nodup := by
      refine List.nodup_cons.2 ⟨fun hx => n1 ?_, List.nodup_append.2 ⟨p4, n4, fun x hx y hy => n5 x (p3 hx) y hy⟩⟩
      rcases List.mem_append.1 hx with hx | hx
      · exact List.mem_append.2 (Or.inl (p3 hx))
      · exact List.mem_append.2 (Or.inr hx)
    rcases hr : g.append e with ⟨g1, u | u⟩
    · rw [hr] at p2 p1
      exact ⟨s1, rfl, ⟨fps1, p2, fun b hb => by have := p3 hb; simp only [List.mem_append] at this ⊢; tauto, p4⟩,
        fun b hb => p5 b (by simp only [List.mem_cons, List.mem_append] at hb ⊢; tauto), p6⟩
    · rw [hr] at p2
      have hd : ∀ x ∈ g1.elems ++ es, x.depth < n := by
        intro x hx
        rcases List.mem_append.1 hx with hx | hx
        · have := append_elems_depth (g := g) (e := e) (n := n)
            (fun x hx => h4 x (by simp only [List.mem_append, List.mem_cons, List.not_mem_nil, or_false] at hx ⊢; tauto))
          rw [hr] at this
          exact this x hx
        · exact h4 x (by simp [hx])
      obtain ⟨s2, r1, ⟨fps2, r2, r3, r4⟩, r5, r6⟩ := appendAll_rep p2 q1 q2 hd
      refine ⟨s2, r1, ⟨fps2, r2, fun b hb => ?_, r4⟩, fun b hb => ?_, r6.trans p6⟩
      · have := r3 hb
        simp only [List.mem_append] at this ⊢
        rcases this with h | h
        · have := p3 h; simp only [List.mem_append] at this; tauto
        · tauto
      · simp only [List.mem_cons, List.mem_append, not_or] at hb
        rw [r5 b ?_, p5 b (by simp only [List.mem_cons, List.mem_append, not_or]; tauto)]
        simp only [List.mem_cons, List.mem_append, not_or]
        refine ⟨hb.1, fun h => ?_, hb.2.2.2⟩
        have := p3 h
        simp only [List.mem_append] at this
        tauto

theorem flipList_eq (es : List (Elem F)) : flipList es = es.map Elem.flip := by
  induction es with
  | nil => simp [flipList]
  | cons e es ih => simp [flipList, ih]

theorem appendFlipped_depth {n : Nat} : {es : List (Elem F)} → {g : Group F} → (∀ x ∈ g.elems, x.depth < n) →
    (∀ x ∈ es, x.flip.1.depth < n) → ∀ x ∈ (g.appendFlipped (es.map Elem.flip)).1.elems, x.depth < n
  | [], g, h, _ => by simpa [Group.appendFlipped] using h
  | e :: es, g, h, h' => by
    rcases hf : e.flip with ⟨e1, u | u⟩
    · simp only [List.map_cons, hf, Group.appendFlipped]; exact h
    · have hd : ∀ x ∈ (g.append e1).1.elems, x.depth < n := append_elems_depth fun x hx => by
        rcases List.mem_append.1 hx with hx | hx
        · exact h x hx
        · simp at hx; rw [hx]; have := h' e (by simp); rwa [hf] at this
      rcases ha : g.append e1 with ⟨g1, v | v⟩
      · simp only [List.map_cons, hf, Group.appendFlipped, ha]
        rw [ha] at hd; exact hd
      · simp only [List.map_cons, hf, Group.appendFlipped, ha]
        rw [ha] at hd
        exact appendFlipped_depth hd fun x hx => h' x (by simp [hx])

theorem finishFlip_elems_eq (r : Group F × Except PyErr Unit) : (Group.finishFlip r).1.elems = r.1.elems := by
  rcases r with ⟨g, u | u⟩
  · rfl
  · simp only [Group.finishFlip]; cases g.mat.kind <;> rfl

mutual
/-- Flipping does not nest deeper. -/
theorem flip_depth : (e : Elem F) → e.flip.1.depth ≤ e.depth
  | .leaf m => by simp [Elem.flip, Elem.depth]
  | .group m c es => by
    have h1 := flipList_depth es
    simp only [Elem.flip, Group.toElem, Elem.depth, finishFlip_elems_eq, flipList_eq, ← List.map_reverse]
    have : ∀ x ∈ (Group.appendFlipped (F := F) ⟨{ m with isFlipped := !m.isFlipped }, c, []⟩ (es.reverse.map Elem.flip)).1.elems,
        x.depth < depthList es + 1 :=
      appendFlipped_depth (by simp) fun x hx => by
        have := h1 x (by simpa using hx); omega
    have := depthList_lt.2 ⟨Nat.succ_pos _, this⟩
    omega
theorem flipList_depth : (es : List (Elem F)) → ∀ x ∈ es, x.flip.1.depth ≤ depthList es
  | [] => by simp
  | e :: es => by
    have h0 := flip_depth e
    have h1 := flipList_depth es
    intro x hx
    simp only [depthList]
    rcases List.mem_cons.1 hx with rfl | hx
    · exact le_trans h0 (le_max_left _ _)
    · exact le_trans (h1 x hx) (le_max_right _ _)
end

/-- What it means that flipping an object refines flipping the value. -/
def FlipRep (e : Elem F) : Prop :=
  ∀ (s : Store F) (a n : Nat) (fp : List Nat), Rep s e a fp → fp.Nodup → e.depth < n →
    ∃ s' : Store F, Store.flip n s a = (s', e.flip.2) ∧ (∃ fp', Rep s' e.flip.1 a fp' ∧ fp' ⊆ fp ∧ fp'.Nodup) ∧
      (∀ b, b ∉ fp → s'[b]? = s[b]?) ∧ s'.length = s.length

theorem flipObjs_rep : {es : List (Elem F)} → (∀ e ∈ es, FlipRep e) → {s : Store F} → {g : Group F} → {ga n : Nat} → {as fps fs : List Nat} → 
    GRep s g ga fps → RepList s es as fs → (ga :: (fps ++ fs)).Nodup → (∀ x ∈ g.elems ++ es, x.depth < n) →
    ∃ s' : Store F, flipObjs (Store.flip n) (fun s b => s.append n ga b) as s = (s', (g.appendFlipped (es.map Elem.flip)).2) ∧
      (∃ fps', GRep s' (g.appendFlipped (es.map Elem.flip)).1 ga fps' ∧ fps' ⊆ fps ++ fs ∧ fps'.Nodup) ∧
      (∀ b, b ∉ ga :: (fps ++ fs) → s'[b]? = s[b]?) ∧ s'.length = s.length
  | [], _, s, g, ga, n, as, fps, fs, h1, h2, h3, h4 => by
    simp only [RepList] at h2
    simp only [h2.1, flipObjs, List.map_nil, Group.appendFlipped]
    exact ⟨s, rfl, ⟨fps, h1, fun b hb => by simp [hb], (List.nodup_append.1 (List.nodup_cons.1 h3).2).1⟩, fun _ _ => rfl, rfl⟩
  | e :: es, hfr, s, g, ga, n, as, fps, fs, h1, h2, h3, h4 => by
    simp only [RepList] at h2
    obtain ⟨a, as', f, fs', rfl, k1, k2, rfl⟩ := h2
    obtain ⟨n1, n2⟩ := List.nodup_cons.1 h3
    obtain ⟨n6, n7, n8⟩ := List.nodup_append.1 n2
    obtain ⟨n9, n4, n10⟩ := List.nodup_append.1 n7
    have he : e.depth < n := h4 e (by simp)
    obtain ⟨s0, o1, ⟨f0, o2, o3, o4⟩, o5, o6⟩ := hfr e (by simp) _ _ _ _ k1 n9 he
    have h1' : GRep s0 g ga fps := by
      obtain ⟨as0, c1, c2⟩ := h1
      exact ⟨as0, by rw [o5 ga fun hx => n1 (by simp [hx])]; exact c1, c2.frame fun b hb => o5 b fun hx => n8 b hb b (by simp [hx]) rfl⟩
    have k2' : RepList s0 es as' fs' := k2.frame fun b hb => o5 b fun hx => n10 b hx b hb rfl
    simp only [flipObjs, List.map_cons, o1]
    rcases hf : e.flip with ⟨e1, u | u⟩
    · simp only [Group.appendFlipped]
      refine ⟨s0, rfl, ⟨fps, h1', fun b hb => by simp [hb], n6⟩, fun b hb => o5 b fun hx => hb (by simp [hx]), o6⟩
    · rw [hf] at o2
      have he1 : e1.depth < n := by have := flip_depth e; rw [hf] at this; exact lt_of_le_of_lt this he
      have m1 : (fps ++ f0).Nodup := List.nodup_append.2 ⟨n6, o4, fun x hx y hy => n8 x hx y (by simp [o3 hy])⟩
      have m2 : ga ∉ fps ++ f0 := fun hx => n1 (by
        rcases List.mem_append.1 hx with hx | hx
        · simp [hx]
        · simp [o3 hx])
      have hda : ∀ x ∈ g.elems ++ [e1], x.depth < n := fun x hx => by
        rcases List.mem_append.1 hx with hx | hx
        · exact h4 x (by simp [hx])
        · simp at hx; rw [hx]; exact he1
      obtain ⟨s1, p1, ⟨fps1, p2, p3, p4⟩, p5, p6⟩ := append_rep h1' o2 (n := n) (List.nodup_cons.2 ⟨m2, m1⟩) hda
      have p3' : ∀ b ∈ fps1, b ∈ fps ∨ b ∈ f := fun b hb => by
        rcases List.mem_append.1 (p3 hb) with h | h
        · exact Or.inl h
        · exact Or.inr (o3 h)
      have q0 : ∀ b, b ∉ ga :: (fps ++ f) → s1[b]? = s[b]? := fun b hb => by
        simp only [List.mem_cons, List.mem_append, not_or] at hb
        rw [p5 b ?_, o5 b hb.2.2]
        simp only [List.mem_cons, List.mem_append, not_or]
        exact ⟨hb.1, hb.2.1, fun h => hb.2.2 (o3 h)⟩
      have q1 : RepList s1 es as' fs' := k2.frame fun b hb => q0 b (by
        simp only [List.mem_cons, List.mem_append, not_or]
        exact ⟨by rintro rfl; exact n1 (by simp [hb]), fun hx => n8 b hx b (by simp [hb]) rfl, fun hx => n10 b hx b hb rfl⟩)
      have q2 : (ga :: (fps1 ++ fs')).Nodup := by
        refine List.nodup_cons.2 ⟨fun hx => n1 ?_, List.nodup_append.2 ⟨p4, n4, fun x hx y hy => ?_⟩⟩
        · simp only [List.mem_append] at hx ⊢
          rcases hx with hx | hx
          · rcases p3' _ hx with h | h <;> tauto
          · tauto
        · rcases p3' _ hx with h | h
          · exact n8 x h y (by simp [hy])
          · exact n10 x h y hy
      simp only [p1]
      rcases hr : g.append e1 with ⟨g1, v | v⟩
      · rw [hr] at p2
        simp only [Group.appendFlipped, hr]
        exact ⟨s1, rfl, ⟨fps1, p2, fun b hb => by have := p3' b hb; simp only [List.mem_append]; tauto, p4⟩,
          fun b hb => q0 b (by simp only [List.mem_cons, List.mem_append] at hb ⊢; tauto), p6.trans o6⟩
      · rw [hr] at p2
        simp only [Group.appendFlipped, hr]
        have hd : ∀ x ∈ g1.elems ++ es, x.depth < n := by
          intro x hx
          rcases List.mem_append.1 hx with hx | hx
          · have := append_elems_depth (g := g) (e := e1) (n := n) hda
            rw [hr] at this
            exact this x hx
          · exact h4 x (by simp [hx])
        obtain ⟨s2, r1, ⟨fps2, r2, r3, r4⟩, r5, r6⟩ := flipObjs_rep (fun x hx => hfr x (by simp [hx])) p2 q1 q2 hd
        refine ⟨s2, r1, ⟨fps2, r2, fun b hb => ?_, r4⟩, fun b hb => ?_, r6.trans (p6.trans o6)⟩
        · have := r3 hb
          simp only [List.mem_append] at this ⊢
          rcases this with h | h
          · have := p3' b h; tauto
          · tauto
        · simp only [List.mem_cons, List.mem_append, not_or] at hb
          rw [r5 b ?_, q0 b (by simp only [List.mem_cons, List.mem_append, not_or]; tauto)]
          simp only [List.mem_cons, List.mem_append, not_or]
          refine ⟨hb.1, fun h => ?_, hb.2.2.2⟩
          have := p3' b h
          tauto

theorem objectiveVertices_congr : {es es' : List (Elem F)} → es.map Elem.mat = es'.map Elem.mat → (m : Mat F) → (z : F) →
    objectiveVertices m z es = objectiveVertices m z es'
  | [], [], _, _, _ => rfl
  | [], e :: es', h, _, _ => by cases h
  | e :: es, [], h, _, _ => by cases h
  | e :: es, e' :: es', h, m, z => by
    simp only [List.map_cons, List.cons.injEq] at h
    simp only [objectiveVertices, h.1]
    exact objectiveVertices_congr h.2 _ _

/-- The last step of flipping an objective. -/
theorem finishFlip_rep {s : Store F} {g : Group F} {ga : Nat} {fps : List Nat} {u : Except PyErr Unit} (h : GRep s g ga fps) (hn : ga ∉ fps) :
    ∃ s' : Store F, Store.finishFlip ga (s, u) = (s', (Group.finishFlip (g, u)).2) ∧ GRep s' (Group.finishFlip (g, u)).1 ga fps ∧
      (∀ b, b ≠ ga → s'[b]? = s[b]?) ∧ s'.length = s.length := by
  cases u with
  | error x => exact ⟨s, rfl, h, fun _ _ => rfl, rfl⟩
  | ok u =>
    obtain ⟨as, h1, h2⟩ := h
    have hm : ((as.filterMap s.mat?).map Elem.leaf).map Elem.mat = g.elems.map Elem.mat := by
      have h3 := h2.mats
      have : as.filterMap s.mat? = g.elems.map Elem.mat := by
        have h4 : as.filterMap s.mat? = (as.map s.mat?).filterMap id := by rw [List.filterMap_map]; rfl
        rw [h4, h3, List.filterMap_map]
        simp [Function.comp_def]
      rw [this]
      simp [Elem.mat, Function.comp_def]
    simp only [Store.finishFlip, Group.finishFlip, h1]
    cases hk : g.mat.kind with
    | objective =>
      refine ⟨_, rfl, ⟨as, ?_, ?_⟩, fun b hb => Store.get_write_ne hb, Store.length_write⟩
      · rw [Store.get_write_self h1, objectiveVertices_congr hm]
      · exact h2.frame fun b hb => Store.get_write_ne (by rintro rfl; exact hn hb)
    | _ => exact ⟨s, rfl, ⟨as, h1, h2⟩, fun _ _ => rfl, rfl⟩

mutual
/-- Flipping an object made of objects that are nowhere else refines flipping the value. -/
theorem flip_rep : (e : Elem F) → FlipRep e
  | .leaf m => by
    intro s a n fp h hn hd
    obtain ⟨n, rfl⟩ : ∃ k, n = k + 1 := ⟨n - 1, by simp only [Elem.depth] at hd; omega⟩
    simp only [Rep] at h
    obtain ⟨h1, rfl⟩ := h
    simp only [Store.flip, h1, Elem.flip]
    refine ⟨_, rfl, ⟨[a], ?_, fun _ h => h, hn⟩, fun b hb => Store.get_write_ne (by simpa using hb), Store.length_write⟩
    simp only [Rep]
    exact ⟨Store.get_write_self h1, trivial⟩
  | .group m c es => by
    have ih := flipList_rep es
    intro s a n fp h hn hd
    obtain ⟨n, rfl⟩ : ∃ k, n = k + 1 := ⟨n - 1, by simp only [Elem.depth] at hd; omega⟩
    simp only [Rep] at h
    obtain ⟨as, fps, h1, h2, rfl⟩ := h
    simp only [Elem.depth] at hd
    have hd' := (depthList_lt.1 (show depthList es < n by omega)).2
    obtain ⟨hn1, hn2⟩ := List.nodup_cons.1 hn
    obtain ⟨fps', h3, h4⟩ := h2.reverse
    have h5 : GRep (s.write a (.group { m with isFlipped := !m.isFlipped } c [])) ⟨{ m with isFlipped := !m.isFlipped }, c, []⟩ a [] :=
      ⟨[], Store.get_write_self h1, by simp [RepList]⟩
    have h6 : RepList (s.write a (.group { m with isFlipped := !m.isFlipped } c [])) es.reverse as.reverse fps' :=
      h3.frame fun b hb => Store.get_write_ne (by rintro rfl; exact hn1 (h4.subset hb))
    obtain ⟨s1, p1, ⟨f1, p2, p3, p4⟩, p5, p6⟩ := flipObjs_rep (fun e he => ih e (by simpa using he)) (n := n) h5 h6
      (List.nodup_cons.2 ⟨fun hx => hn1 (h4.subset (by simpa using hx)), by simpa using h4.nodup_iff.2 hn2⟩)
      (fun x hx => hd' x (by simpa using hx))
    have p3' : ∀ b ∈ f1, b ∈ fps := fun b hb => h4.subset (by simpa using p3 hb)
    obtain ⟨s2, q1, q2, q3, q4⟩ := finishFlip_rep (u := (Group.appendFlipped (F := F) ⟨{ m with isFlipped := !m.isFlipped }, c, []⟩
      (es.reverse.map Elem.flip)).2) p2 fun hx => hn1 (p3' a hx)
    simp only [Store.flip, h1, p1, q1, Elem.flip, flipList_eq, ← List.map_reverse]
    refine ⟨s2, rfl, ⟨a :: f1, q2.rep, ?_, List.nodup_cons.2 ⟨fun hx => hn1 (p3' a hx), p4⟩⟩, fun b hb => ?_,
      q4.trans (p6.trans Store.length_write)⟩
    · intro b hb
      rcases List.mem_cons.1 hb with rfl | hb
      · simp
      · simp [p3' b hb]
    · have hba : b ≠ a := by rintro rfl; exact hb (by simp)
      rw [q3 b hba, p5 b ?_, Store.get_write_ne hba]
      simp only [List.nil_append, List.mem_cons, not_or]
      exact ⟨hba, fun hx => hb (by simp [h4.subset hx])⟩
theorem flipList_rep : (es : List (Elem F)) → ∀ e ∈ es, FlipRep e
  | [] => by simp
  | e :: es => by
    have h0 := flip_rep e
    have h1 := flipList_rep es
    intro x hx
    rcases List.mem_cons.1 hx with rfl | hx
    · exact h0
    · exact h1 x hx
end

/-! ## Tracing -/

mutual
/-- Tracing through an object made of objects that are nowhere else refines tracing through the value. -/
theorem trace_rep : (e : Elem F) → {s : Store F} → {ea n : Nat} → {fp : List Nat} → Rep s e ea fp → fp.Nodup → e.depth < n → (a : Nat) → (h : Heap F) →
    ∃ s' : Store F, Store.trace n s ea a h = ((e.traceH a h).1, (e.traceH a h).2.1, s') ∧ Rep s' (e.traceH a h).2.2 ea fp ∧
      (∀ b, b ∉ fp → s'[b]? = s[b]?) ∧ s'.length = s.length ∧ (e.traceH a h).2.2.depth = e.depth
  | .leaf m, s, ea, n, fp, hr, hn, hd, a, h => by
    obtain ⟨n, rfl⟩ : ∃ k, n = k + 1 := ⟨n - 1, by simp only [Elem.depth] at hd; omega⟩
    have hr' := hr
    simp only [Rep] at hr'
    simp only [Store.trace, hr'.1, Elem.traceH]
    exact ⟨s, rfl, hr, fun _ _ => rfl, by simp⟩
  | .group m c es, s, ea, n, fp, hr, hn, hd, a, h => by
    obtain ⟨n, rfl⟩ : ∃ k, n = k + 1 := ⟨n - 1, by simp only [Elem.depth] at hd; omega⟩
    have hr' := hr
    simp only [Rep] at hr'
    obtain ⟨as, fps, h1, h2, rfl⟩ := hr'
    simp only [Elem.depth] at hd
    have hd' := (depthList_lt.1 (show depthList es < n by omega)).2
    obtain ⟨hn1, hn2⟩ := List.nodup_cons.1 hn
    obtain ⟨s1, p1, p2, p3, p4, p5⟩ := traceList_rep es h2 hn2 hd' a h
    simp only [Store.trace, h1, Elem.traceH]
    cases cacheHit c a h with
    | some t => exact ⟨s, rfl, hr, fun _ _ => rfl, rfl, rfl⟩
    | none =>
      have h3 : s1[ea]? = some (.group m c as) := by rw [p3 ea hn1]; exact h1
      simp only [p1, h3]
      refine ⟨_, rfl, ?_, fun b hb => ?_, Store.length_write.trans p4, ?_⟩
      · simp only [Rep]
        exact ⟨as, fps, Store.get_write_self h3, p2.frame fun b hb => Store.get_write_ne (by rintro rfl; exact hn1 hb), rfl⟩
      · simp only [List.mem_cons, not_or] at hb
        rw [Store.get_write_ne hb.1, p3 b hb.2]
      · simp only [Elem.depth, p5]
theorem traceList_rep : (es : List (Elem F)) → {s : Store F} → {n : Nat} → {as fps : List Nat} → RepList s es as fps → fps.Nodup →
    (∀ e ∈ es, e.depth < n) → (a : Nat) → (h : Heap F) →
    ∃ s' : Store F, traceLoop (Store.trace n) as s a h = ((traceListH es a h).1, (traceListH es a h).2.1, s') ∧
      RepList s' (traceListH es a h).2.2 as fps ∧ (∀ b, b ∉ fps → s'[b]? = s[b]?) ∧ s'.length = s.length ∧
      depthList (traceListH es a h).2.2 = depthList es
  | [], s, n, as, fps, hr, hn, hd, a, h => by
    have hr' := hr
    simp only [RepList] at hr'
    simp only [hr'.1, traceLoop, traceListH]
    exact ⟨s, rfl, by rw [← hr'.1]; exact hr, fun _ _ => rfl, by simp⟩
  | e :: es, s, n, as, fps, hr, hn, hd, a, h => by
    simp only [RepList] at hr
    obtain ⟨ea, as', f, fs, rfl, h1, h2, rfl⟩ := hr
    obtain ⟨n1, n2, n3⟩ := List.nodup_append.1 hn
    obtain ⟨s1, p1, p2, p3, p4, p5⟩ := trace_rep e h1 n1 (hd e (by simp)) a h
    obtain ⟨s2, q1, q2, q3, q4, q5⟩ := traceList_rep es (h2.frame fun b hb => p3 b fun hx => n3 b hx b hb rfl) n2 (fun x hx => hd x (by simp [hx]))
      ((e.traceH a h).1.getLast?.getD a) (e.traceH a h).2.1
    simp only [traceLoop, traceListH, p1, q1]
    refine ⟨s2, rfl, ?_, fun b hb => ?_, q4.trans p4, by simp only [depthList, p5, q5]⟩
    · simp only [RepList]
      exact ⟨ea, as', f, fs, rfl, p2.frame fun b hb => q3 b fun hx => n3 b hb b hx rfl, q2, rfl⟩
    · simp only [List.mem_append, not_or] at hb
      rw [q3 b hb.2, p3 b hb.1]
end

end RT
