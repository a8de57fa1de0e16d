import Verif.Lemmas.Objects
import Verif.Model.Build
import Verif.Spec.PyList
import Verif.Lemmas.Group

set_option linter.unusedSectionVars false

/-! # C90: the same element object at several places -/

namespace RT
open PyNum Ext
variable {F : Type}

section Generic
variable [PyNum F]

/-- **C90.** A program that makes single elements and groups (any nesting), appends, inserts, pops, flips and traces them in any order and for any
number of steps, errors being caught, and puts every object at one place only, sees exactly what it would see if elements were values. -/
theorem C90_programs (ops : List (ObjOp F)) {fuel : Nat} (h : ops.length + 1 < fuel) :
    ObjState.run fuel ⟨[], [], []⟩ ops = ValState.run ⟨[], []⟩ ops := by
  have key : ∀ (ops : List (ObjOp F)) (v : ValState F) (c : ObjState F) (d : Nat), Sim v c d → d + ops.length + 1 < fuel →
      c.run fuel ops = v.run ops := by
    intro ops
    induction ops with
    | nil => intros; rfl
    | cons op ops ih =>
      intro v c d hs hd
      simp only [List.length_cons] at hd
      obtain ⟨h1, h2⟩ := step_sim hs (n := fuel) (by omega) op
      simp only [ObjState.run, ValState.run, h1, ih _ _ (d + 1) h2 (by omega)]
  refine key ops _ _ 0 ⟨rfl, fun _ => [], ⟨rfl, ?_, ?_, ?_⟩⟩ (by omega) <;> intros <;> simp_all

/-- **C90.** The transfer matrix, up to any position, of a path whose objects are at any number of places is that of the values. -/
theorem C90_matrix {s : Store F} {e : Elem F} {a : Nat} {fp : List Nat} (h : Rep s e a fp) {fuel : Nat} (hd : e.depth < fuel) (upTo : F) :
    s.transferMatrix fuel a upTo = e.transferMatrix upTo := h.transfer hd upTo

/-! ## Tracing when single elements are shared -/

mutual
/-- Specification: the object at `a` is the element `e`, and `gs` lists the groups it is made of (single elements are not listed). -/
def RepG (s : Store F) : Elem F → Nat → List Nat → Prop
  | .leaf m, a, gs => s[a]? = some (.leaf m) ∧ gs = []
  | .group m c es, a, gs => ∃ as gs', s[a]? = some (.group m c as) ∧ RepGList s es as gs' ∧ gs = a :: gs'
/-- The same for a list of objects. -/
def RepGList (s : Store F) : List (Elem F) → List Nat → List Nat → Prop
  | [], as, gs => as = [] ∧ gs = []
  | e :: es, as, gs => ∃ a as' g gs', as = a :: as' ∧ RepG s e a g ∧ RepGList s es as' gs' ∧ gs = g ++ gs'
end

/-- The single elements are the same objects with the same content. -/
def SameLeaves (s s' : Store F) : Prop := ∀ (b : Nat) (m : Mat F), s[b]? = some (.leaf m) → s'[b]? = some (.leaf m)

mutual
theorem RepG.frame {s s' : Store F} (hl : SameLeaves s s') : {e : Elem F} → {a : Nat} → {gs : List Nat} → (∀ b ∈ gs, s'[b]? = s[b]?) → RepG s e a gs → RepG s' e a gs
  | .leaf m, a, gs, _, h => by
    simp only [RepG] at h ⊢
    exact ⟨hl a m h.1, h.2⟩
  | .group m c es, a, gs, hf, h => by
    simp only [RepG] at h ⊢
    obtain ⟨as, gs', h1, h2, rfl⟩ := h
    exact ⟨as, gs', by rw [hf a (by simp)]; exact h1, RepGList.frame hl (fun b hb => hf b (by simp [hb])) h2, rfl⟩
theorem RepGList.frame {s s' : Store F} (hl : SameLeaves s s') : {es : List (Elem F)} → {as gs : List Nat} → (∀ b ∈ gs, s'[b]? = s[b]?) →
    RepGList s es as gs → RepGList s' es as gs
  | [], as, gs, _, h => by simp only [RepGList] at h ⊢; exact h
  | e :: es, as, gs, hf, h => by
    simp only [RepGList] at h ⊢
    obtain ⟨a, as', g, gs', rfl, h1, h2, rfl⟩ := h
    exact ⟨a, as', g, gs', rfl, RepG.frame hl (fun b hb => hf b (by simp [hb])) h1, RepGList.frame hl (fun b hb => hf b (by simp [hb])) h2, rfl⟩
end

mutual
theorem traceG : (e : Elem F) → {s : Store F} → {ea n : Nat} → {gs : List Nat} → RepG s e ea gs → gs.Nodup → e.depth < n → (a : Nat) → (h : Heap F) →
    ∃ s' : Store F, Store.trace n s ea a h = ((e.traceH a h).1, (e.traceH a h).2.1, s') ∧ RepG s' (e.traceH a h).2.2 ea gs ∧
      (∀ b, b ∉ gs → s'[b]? = s[b]?) ∧ SameLeaves s s'
  | .leaf m, s, ea, n, gs, hr, hn, hd, a, h => by
    obtain ⟨n, rfl⟩ : ∃ k, n = k + 1 := ⟨n - 1, by simp only [Elem.depth] at hd; omega⟩
    have hr' := hr
    simp only [RepG] at hr'
    simp only [Store.trace, hr'.1, Elem.traceH]
    exact ⟨s, rfl, hr, fun _ _ => rfl, fun _ _ h => h⟩
  | .group m c es, s, ea, n, gs, hr, hn, hd, a, h => by
    obtain ⟨n, rfl⟩ : ∃ k, n = k + 1 := ⟨n - 1, by simp only [Elem.depth] at hd; omega⟩
    have hr' := hr
    simp only [RepG] at hr'
    obtain ⟨as, gs', h1, h2, rfl⟩ := hr'
    simp only [Elem.depth] at hd
    have hd' := (depthList_lt.1 (show depthList es < n by omega)).2
    obtain ⟨hn1, hn2⟩ := List.nodup_cons.1 hn
    obtain ⟨s1, p1, p2, p3, p4⟩ := traceGList es h2 hn2 hd' a h
    simp only [Store.trace, h1, Elem.traceH]
    cases cacheHit c a h with
    | some t => exact ⟨s, rfl, hr, fun _ _ => rfl, fun _ _ h => h⟩
    | none =>
      have h3 : s1[ea]? = some (.group m c as) := by rw [p3 ea hn1]; exact h1
      simp only [p1, h3]
      have hsl : SameLeaves s1 (s1.write ea (.group m (some (a, a :: (traceListH es a h).1)) as)) := fun b x hb => by
        rw [Store.get_write_ne (by rintro rfl; rw [h3] at hb; cases hb)]; exact hb
      refine ⟨_, rfl, ?_, fun b hb => ?_, fun b x hb => hsl b x (p4 b x hb)⟩
      · simp only [RepG]
        exact ⟨as, gs', Store.get_write_self h3, p2.frame hsl fun b hb => Store.get_write_ne (by rintro rfl; exact hn1 hb), rfl⟩
      · simp only [List.mem_cons, not_or] at hb
        rw [Store.get_write_ne hb.1, p3 b hb.2]
theorem traceGList : (es : List (Elem F)) → {s : Store F} → {n : Nat} → {as gs : List Nat} → RepGList s es as gs → gs.Nodup →
    (∀ e ∈ es, e.depth < n) → (a : Nat) → (h : Heap F) →
    ∃ s' : Store F, traceLoop (Store.trace n) as s a h = ((traceListH es a h).1, (traceListH es a h).2.1, s') ∧
      RepGList s' (traceListH es a h).2.2 as gs ∧ (∀ b, b ∉ gs → s'[b]? = s[b]?) ∧ SameLeaves s s'
  | [], s, n, as, gs, hr, hn, hd, a, h => by
    have hr' := hr
    simp only [RepGList] at hr'
    simp only [hr'.1, traceLoop, traceListH]
    exact ⟨s, rfl, by rw [← hr'.1]; exact hr, fun _ _ => rfl, fun _ _ h => h⟩
  | e :: es, s, n, as, gs, hr, hn, hd, a, h => by
    simp only [RepGList] at hr
    obtain ⟨ea, as', g, gs', rfl, h1, h2, rfl⟩ := hr
    obtain ⟨n1, n2, n3⟩ := List.nodup_append'.1 hn
    obtain ⟨s1, p1, p2, p3, p4⟩ := traceG e h1 n1 (hd e (by simp)) a h
    obtain ⟨s2, q1, q2, q3, q4⟩ := traceGList es (h2.frame p4 fun b hb => p3 b fun hx => n3 hx hb) n2 (fun x hx => hd x (by simp [hx]))
      ((e.traceH a h).1.getLast?.getD a) (e.traceH a h).2.1
    simp only [traceLoop, traceListH, p1, q1]
    refine ⟨s2, rfl, ?_, fun b hb => ?_, fun b x hb => q4 b x (p4 b x hb)⟩
    · simp only [RepGList]
      exact ⟨ea, as', g, gs', rfl, p2.frame q4 fun b hb => q3 b fun hx => n3 hb hx, q2, rfl⟩
    · simp only [List.mem_append, not_or] at hb
      rw [q3 b hb.2, p3 b hb.1]
end

/-- **C90.** Single elements may be at any number of places, of the same path or of others (a cavity made with `appendElementsInReverse`, a slice): as
long as no group is at two places, tracing any ray gives the rays of the values, and no single element is changed. -/
theorem C90_trace {s : Store F} {e : Elem F} {ea n : Nat} {gs : List Nat} (hr : RepG s e ea gs) (hn : gs.Nodup) (hd : e.depth < n) (a : Nat) (h : Heap F) :
    (Store.trace n s ea a h).1 = (e.traceH a h).1 ∧ (Store.trace n s ea a h).2.1 = (e.traceH a h).2.1 ∧
      RepG (Store.trace n s ea a h).2.2 (e.traceH a h).2.2 ea gs ∧ SameLeaves s (Store.trace n s ea a h).2.2 := by
  obtain ⟨s', p1, p2, _, p4⟩ := traceG e hr hn hd a h
  rw [p1]
  exact ⟨rfl, rfl, p2, p4⟩

/-! ## Flipping when objects are shared -/

theorem push_other {s : Store F} {n g a b : Nat} (hb : b ≠ g) : (s.push n g a).1[b]? = s[b]? := by
  unfold Store.push
  cases hg : s[g]? with
  | none => rfl
  | some o =>
    cases o with
    | leaf m => rfl
    | group m c as =>
      dsimp only
      cases transferLoop (s.write g (.group m c (as ++ [a]))).mat? ((s.write g (.group m c (as ++ [a]))).transferMatrix n) (as ++ [a]) inf Mat.one with
      | error x => exact Store.get_write_ne hb
      | ok t => rw [Store.get_write_ne hb, Store.get_write_ne hb]

/-- Appending changes the group, and the element when it is a `Space`. -/
theorem append_other {s : Store F} {n g a b : Nat} {o : Obj F} (hb : b ≠ g) (ho : s[b]? = some o) (hs : o.isSpace = false) :
    (s.append n g a).1[b]? = s[b]? := by
  unfold Store.append
  cases hg : s[g]? with
  | none => rfl
  | some og =>
    cases og with
    | leaf m => rfl
    | group m c as =>
      cases ha : s[a]? with
      | none => rfl
      | some oa =>
        dsimp only
        cases as.getLast? with
        | none => exact push_other hb
        | some l =>
          dsimp only
          cases s.mat? l with
          | none => rfl
          | some last =>
            dsimp only
            split_ifs with h1 h2
            · rw [push_other hb, Store.get_write_ne]
              rintro rfl
              rw [ho] at ha
              cases ha
              rw [hs] at h2
              cases h2
            · rfl
            · exact push_other hb

/-- A single element flipped `k` times. -/
def flipTimes (k : Nat) (m : Mat F) : Mat F := (fun m : Mat F => m.flip.1)^[k] m

theorem flipThick_kind (k : Kind F) (m : Mat F) (n R1 R2 : F) : (Mat.flip.flipThick k m n R1 R2).1.kind = k := by
  unfold Mat.flip.flipThick
  dsimp only
  repeat' split
  all_goals rfl

theorem isSpace_eq {m m' : Mat F} (h : m.kind = m'.kind) : (Obj.leaf m).isSpace = (Obj.leaf m').isSpace := by
  unfold Obj.isSpace; simp only [Obj.mat, h]

theorem flip_obj_isSpace (m : Mat F) : (Obj.leaf m.flip.1).isSpace = (Obj.leaf m).isSpace := by
  cases hk : m.kind with
  | dielectric n1 n2 R =>
    have : ∃ x y z, m.flip.1.kind = .dielectric x y z := by
      unfold Mat.flip
      simp only [hk]
      cases dielectricC n2 n1 (-R) with
      | error x => exact ⟨_, _, _, rfl⟩
      | ok c => dsimp only; cases pyDiv n2 n1 <;> exact ⟨_, _, _, rfl⟩
    obtain ⟨x, y, z, h⟩ := this
    unfold Obj.isSpace; simp only [Obj.mat, h, hk]
  | thickLens n R1 R2 =>
    have : m.flip.1.kind = .thickLens n (-R2) (-R1) := by unfold Mat.flip; simp only [hk]; exact flipThick_kind _ _ _ _ _
    unfold Obj.isSpace; simp only [Obj.mat, this, hk]
  | slab n R1 R2 =>
    have : m.flip.1.kind = .slab n (-R2) (-R1) := by unfold Mat.flip; simp only [hk]; exact flipThick_kind _ _ _ _ _
    unfold Obj.isSpace; simp only [Obj.mat, this, hk]
  | _ => exact isSpace_eq (by unfold Mat.flip; simp only [hk]; first | rfl | (simp [Mat.flipBase, hk]))

/-- Appending leaves single elements single elements. -/
theorem append_leaf {s : Store F} {n g a b : Nat} {m : Mat F} (hb : b ≠ g) (ho : s[b]? = some (.leaf m)) :
    ∃ m', (s.append n g a).1[b]? = some (.leaf m') := by
  by_cases hs : (Obj.leaf m).isSpace = true
  · unfold Store.append
    cases hg : s[g]? with
    | none => exact ⟨m, ho⟩
    | some og =>
      cases og with
      | leaf m => exact ⟨_, ho⟩
      | group mg c as =>
        cases ha : s[a]? with
        | none => exact ⟨m, ho⟩
        | some oa =>
          dsimp only
          cases as.getLast? with
          | none => exact ⟨m, by rw [push_other hb]; exact ho⟩
          | some l =>
            dsimp only
            cases s.mat? l with
            | none => exact ⟨m, ho⟩
            | some last =>
              dsimp only
              split_ifs with h1 h2
              · rw [push_other hb]
                by_cases hab : b = a
                · subst hab
                  rw [ho] at ha
                  cases ha
                  exact ⟨_, Store.get_write_self ho⟩
                · exact ⟨m, by rw [Store.get_write_ne hab]; exact ho⟩
              · exact ⟨m, ho⟩
              · exact ⟨m, by rw [push_other hb]; exact ho⟩
  · exact ⟨m, by rw [append_other hb ho (by simpa using hs)]; exact ho⟩

theorem flipObjs_times {n g : Nat} {c : Option (Nat × List Nat)} : {as : List Nat} → {s s' : Store F} → {mg : Mat F} → {as0 : List Nat} →
    s[g]? = some (.group mg c as0) → (∀ a ∈ as, ∃ m, s[a]? = some (.leaf m)) →
    flipObjs (Store.flip (n + 1)) (fun s b => s.append (n + 1) g b) as s = (s', .ok ()) →
    (∃ m', s'[g]? = some (.group m' c (as0 ++ as))) ∧
    ∀ (b : Nat) (m : Mat F), s[b]? = some (.leaf m) → (Obj.leaf m).isSpace = false → s'[b]? = some (.leaf (flipTimes (as.count b) m))
  | [], s, s', mg, as0, hg, ha, h => by
    simp only [flipObjs] at h
    cases h
    exact ⟨⟨mg, by simpa using hg⟩, fun b m hb _ => by simpa [flipTimes] using hb⟩
  | a :: as, s, s', mg, as0, hg, ha, h => by
    obtain ⟨ma, hma⟩ := ha a (by simp)
    have hag : a ≠ g := by rintro rfl; rw [hma] at hg; cases hg
    simp only [flipObjs, Store.flip, hma] at h
    rcases hf : ma.flip with ⟨m1, x | u⟩
    · simp only [hf] at h; cases h
    · simp only [hf] at h
      have hg1 : (s.write a (.leaf m1))[g]? = some (.group mg c as0) := by rw [Store.get_write_ne (Ne.symm hag)]; exact hg
      have hl1 : ∀ (b : Nat) (m : Mat F), s[b]? = some (.leaf m) → ∃ m', (s.write a (.leaf m1))[b]? = some (.leaf m') := by
        intro b m hb
        by_cases hba : b = a
        · subst hba; exact ⟨m1, Store.get_write_self hb⟩
        · exact ⟨m, by rw [Store.get_write_ne hba]; exact hb⟩
      have hbg : ∀ (b : Nat) (m : Mat F), s[b]? = some (.leaf m) → b ≠ g := by
        rintro b m hb rfl; rw [hb] at hg; cases hg
      rcases hap : (s.write a (.leaf m1)).append (n + 1) g a with ⟨s2, x | u⟩
      · simp only [hap] at h; cases h
      · simp only [hap] at h
        obtain ⟨m2, hg2⟩ := append_elems hg1 hap
        have hs2 : s2 = ((s.write a (.leaf m1)).append (n + 1) g a).1 := by rw [hap]
        obtain ⟨r1, r2⟩ := flipObjs_times hg2 (fun b hb => by
          obtain ⟨m, hm⟩ := ha b (by simp [hb])
          obtain ⟨m', hm'⟩ := hl1 b m hm
          rw [hs2]
          exact append_leaf (hbg b m hm) hm') h
        refine ⟨by simpa using r1, fun b m hb hs => ?_⟩
        by_cases hba : b = a
        · subst hba
          rw [hma] at hb
          cases hb
          have h1 : (s.write b (.leaf m1))[b]? = some (.leaf m1) := Store.get_write_self hma
          have h2 : (Obj.leaf m1).isSpace = false := by
            have := flip_obj_isSpace ma; rw [hf] at this; rw [this]; exact hs
          have h3 : s2[b]? = some (.leaf m1) := by rw [hs2, append_other hag h1 h2]; exact h1
          rw [r2 b m1 h3 h2, List.count_cons_self]
          unfold flipTimes
          rw [Function.iterate_succ_apply, hf]
        · have h1 : (s.write a (.leaf m1))[b]? = some (.leaf m) := by rw [Store.get_write_ne hba]; exact hb
          have h3 : s2[b]? = some (.leaf m) := by rw [hs2, append_other (hbg b m hb) h1 hs]; exact h1
          rw [r2 b m h3 hs, List.count_cons_of_ne (Ne.symm hba)]

/-- **C90.** When a path of single elements is flipped, an object is flipped as many times as it is in the path, and the references are put in the
reverse order. -/
theorem C90_flip_times {s s' : Store F} {g n : Nat} {m : Mat F} {c : Option (Nat × List Nat)} {as : List Nat} (hg : s[g]? = some (.group m c as))
    (ha : ∀ a ∈ as, ∃ m, s[a]? = some (.leaf m)) (h : Store.flip (n + 2) s g = (s', .ok ())) :
    (∃ m', s'[g]? = some (.group m' c as.reverse)) ∧
    ∀ (b : Nat) (mb : Mat F), s[b]? = some (.leaf mb) → (Obj.leaf mb).isSpace = false → s'[b]? = some (.leaf (flipTimes (as.count b) mb)) := by
  rw [Store.flip] at h
  simp only [hg] at h
  have hw : (s.write g (.group { m with isFlipped := !m.isFlipped } c []))[g]? = _ := Store.get_write_self hg
  have hlg : ∀ (b : Nat) (mb : Mat F), s[b]? = some (.leaf mb) → b ≠ g := by rintro b mb hb rfl; rw [hb] at hg; cases hg
  rcases hl : flipObjs (Store.flip (n + 1)) (fun s b => s.append (n + 1) g b) as.reverse (s.write g (.group { m with isFlipped := !m.isFlipped } c []))
    with ⟨s1, x | u⟩
  · rw [hl] at h; simp [Store.finishFlip] at h
  · rw [hl] at h
    obtain ⟨⟨m1, r1⟩, r2⟩ := flipObjs_times hw (fun a ha' => by
      obtain ⟨ma, hma⟩ := ha a (by simpa using ha')
      exact ⟨ma, by rw [Store.get_write_ne (hlg a ma hma)]; exact hma⟩) hl
    have r3 : ∀ (b : Nat) (mb : Mat F), s[b]? = some (.leaf mb) → (Obj.leaf mb).isSpace = false → s1[b]? = some (.leaf (flipTimes (as.count b) mb)) := by
      intro b mb hb hs
      rw [r2 b mb (by rw [Store.get_write_ne (hlg b mb hb)]; exact hb) hs, List.count_reverse]
    simp only [List.nil_append] at r1
    simp only [Store.finishFlip, r1] at h
    cases hk : m1.kind with
    | objective =>
      simp only [hk] at h
      cases h
      exact ⟨⟨_, Store.get_write_self r1⟩, fun b mb hb hs => by rw [Store.get_write_ne (hlg b mb hb)]; exact r3 b mb hb hs⟩
    | _ =>
      simp only [hk] at h
      cases h
      exact ⟨⟨m1, r1⟩, r3⟩

/-- **C90** is violated by flipping: for all paths of single elements, an element that is at an even number of places, and that two flips restore, is
not flipped. -/
theorem C90_violated_flip {s s' : Store F} {g n : Nat} {m : Mat F} {c : Option (Nat × List Nat)} {as : List Nat} (hg : s[g]? = some (.group m c as))
    (ha : ∀ a ∈ as, ∃ m, s[a]? = some (.leaf m)) (h : Store.flip (n + 2) s g = (s', .ok ())) {b : Nat} {mb : Mat F} (hb : s[b]? = some (.leaf mb))
    (hs : (Obj.leaf mb).isSpace = false) (h2 : mb.flip.1.flip.1 = mb) {k : Nat} (hc : as.count b = 2 * k) : s'[b]? = some (.leaf mb) := by
  rw [(C90_flip_times hg ha h).2 b mb hb hs, hc]
  unfold flipTimes
  rw [Function.iterate_mul]
  have : (fun m : Mat F => m.flip.1)^[2] mb = mb := h2
  rw [Function.iterate_fixed this]

/-- **C90** is violated by `append`: for all stores, a `Space` that is already in a path and is appended to another one in a medium changes its
index in the first path too. -/
theorem C90_violated_space {s : Store F} {g a l n : Nat} {mg m ml : Mat F} {c : Option (Nat × List Nat)} {as : List Nat}
    (hg : s[g]? = some (.group mg c (as ++ [l]))) (ha : s[a]? = some (.leaf m)) (hl : s.mat? l = some ml) (hs : m.kind = .space)
    (hi : (ml.backIndex !=. m.frontIndex) = true) :
    (s.append n g a).1[a]? = some (.leaf { m with frontIndex := ml.backIndex, backIndex := ml.backIndex }) := by
  have hag : a ≠ g := by rintro rfl; rw [ha] at hg; cases hg
  have hsp : (Obj.leaf m).isSpace = true := by unfold Obj.isSpace; simp only [Obj.mat, hs]
  unfold Store.append
  simp only [hg, ha, List.getLast?_append, List.getLast?_singleton, Option.some_or, hl, Obj.mat, hi, if_true, hsp, Obj.withMat]
  rw [push_other hag]
  exact Store.get_write_self ha

/-! ## Slices -/

theorem pushRef_elems {s s' : Store F} {n g a : Nat} {m : Mat F} {c : Option (Nat × List Nat)} {as : List Nat} (hg : s[g]? = some (.group m c as))
    (h : s.push n g a = (s', .ok ())) : ∃ m', s'[g]? = some (.group m' c (as ++ [a])) := by
  unfold Store.push at h
  rw [hg] at h
  simp only at h
  split at h
  · simp at h
  · rename_i t ht
    simp only [Prod.mk.injEq, and_true] at h
    subst h
    exact ⟨_, Store.get_write_self (Store.get_write_self hg)⟩

theorem appendRef_elems {s s' : Store F} {n g a : Nat} {m : Mat F} {c : Option (Nat × List Nat)} {as : List Nat} (hg : s[g]? = some (.group m c as))
    (h : s.append n g a = (s', .ok ())) : ∃ m', s'[g]? = some (.group m' c (as ++ [a])) := by
  unfold Store.append at h
  rw [hg] at h
  cases ha : s[a]? with
  | none => rw [ha] at h; simp at h
  | some o =>
    rw [ha] at h
    simp only at h
    split at h
    · exact pushRef_elems hg h
    · split at h
      · simp at h
      · split_ifs at h
        · by_cases hga : g = a
          · subst hga
            rw [hg] at ha
            cases ha
            exact pushRef_elems (Store.get_write_self hg) h
          · exact pushRef_elems (by rw [Store.get_write_ne hga]; exact hg) h
        · simp at h
        · exact pushRef_elems hg h

theorem appendAllRef_elems {n g : Nat} {c : Option (Nat × List Nat)} : {new : List Nat} → {s s' : Store F} → {m : Mat F} → {as : List Nat} →
    s[g]? = some (.group m c as) → s.appendAll n g new = (s', .ok ()) → ∃ m', s'[g]? = some (.group m' c (as ++ new))
  | [], s, s', m, as, hg, h => by
    simp only [Store.appendAll, Prod.mk.injEq, and_true] at h
    subst h
    exact ⟨m, by simpa using hg⟩
  | a :: new, s, s', m, as, hg, h => by
    unfold Store.appendAll at h
    split at h
    · rename_i s1 h1
      obtain ⟨m1, hg1⟩ := appendRef_elems hg h1
      obtain ⟨m2, hg2⟩ := appendAllRef_elems hg1 h
      exact ⟨m2, by simpa using hg2⟩
    · simp at h

/-- **C90.** A slice `path[i:j]` is a new object whose elements are the objects of the path themselves, those of the slice of the list; the path keeps
its list. -/
theorem C90_slice {s s' : Store F} {n g sub : Nat} {m : Mat F} {c : Option (Nat × List Nat)} {as : List Nat} (hg : s[g]? = some (.group m c as))
    (start stop : Option Int) (h : s.getSlice n g start stop = (s', .ok sub)) :
    s[sub]? = none ∧ ∃ m', s'[sub]? = some (.group m' none
      ((as.take (match stop with | some e => pySlot as.length e | none => as.length)).drop
        (match start with | some i => pySlot as.length i | none => 0))) := by
  unfold Store.getSlice at h
  rw [hg] at h
  simp only at h
  unfold Store.newGroup at h
  split at h
  · rename_i s1 h1
    simp only [Prod.mk.injEq, Except.ok.injEq] at h
    obtain ⟨rfl, rfl⟩ := h
    obtain ⟨m', h2⟩ := appendAllRef_elems (c := none) (as := []) (by simp; rfl) h1
    refine ⟨by simp, m', ?_⟩
    rw [h2]
    have h0 : pyClamp 0 as.length = 0 := by simp [pyClamp]
    have hn : pyClamp (as.length : Int) as.length = as.length := by
      unfold pyClamp; split_ifs <;> omega
    rw [pyClamp_eq] at hn
    cases start <;> cases stop <;> simp [h0, pyClamp_eq, hn]
  · simp at h

end Generic

/-! ## Paths of shared objects -/

/-- The single elements made by `ms`, and a path that has them at the places `as`: the objects that exist and the address of the path. -/
def sharedPath (ms : List (Except PyErr (Mat (Ext ℚ)))) (as : List Nat) : Option (Store (Ext ℚ) × Nat) :=
  match ms.mapM id with
  | .error _ => none
  | .ok ms =>
    match Store.newGroup 10 (ms.map Obj.leaf) as with
    | (s, .ok g) => some (s, g)
    | _ => none

/-- The entries of a matrix. -/
def abcd (m : Mat (Ext ℚ)) : List (Ext ℚ) := [m.A, m.B, m.C, m.D]

/-- A program: two lenses and two spaces in a path, a flip, a ray, an element taken out and put back, another ray; a variable that was given away is
not used again. -/
def sharingProgram (lens space : Mat (Ext ℚ)) : List (ObjOp (Ext ℚ)) :=
  [.create space, .create lens, .group [0, 1] "inner", .create space, .create lens, .group [2, 3] "", .append 5 4, .append 5 4, .flip 5,
    .trace 5 (Ray.new (fin 1) (fin 0)), .pop 5 0, .insert 5 (-1) [6], .trace 5 (Ray.new (fin 1) (fin 0)), .transfer 5 (fin 15)]

/-- A number for what is seen: 0 skipped, 1 done, 2 an error, 3 a matrix, 10 and more: that many rays. -/
def ObjSeen.code : ObjSeen (Ext ℚ) → Nat
  | .skipped => 0
  | .done (.ok _) => 1
  | .done (.error _) => 2
  | .rays rs => 10 + rs.length
  | .matrix _ => 3

-- The program of `C90_programs` does something: it makes the path, the second append is skipped, and the rays are traced.
example : (match mkThickLens (fin (3/2 : ℚ)) (fin 10) (fin (-20)) (fin 2), mkSpace (fin (10 : ℚ)) with
    | .ok l, .ok s => (ObjState.run 20 ⟨[], [], []⟩ (sharingProgram l s)).map ObjSeen.code
    | _, _ => []) = [1, 1, 1, 1, 1, 1, 1, 0, 1, 20, 1, 1, 20, 3] := by decide +kernel

-- A cavity made with `appendElementsInReverse`: its two single elements are each at two places, and `C90_trace` applies.
example (m1 m2 mg : Mat (Ext ℚ)) :
    RepG (Store.appendElementsInReverse [Obj.leaf m1, Obj.leaf m2, Obj.group mg none [0, 1]] 2) (.group mg none [.leaf m1, .leaf m2, .leaf m2, .leaf m1]) 2 [2] := by
  simp [Store.appendElementsInReverse, Store.setElems, Store.write, RepG, RepGList]

-- The hypotheses of `C90_violated_flip` hold for a path that has the same thick lens at two places, and the lens has two different faces.
example : ((sharedPath [mkThickLens (fin (3/2)) (fin 10) (fin (-20)) (fin 2), mkSpace (fin 10)] [0, 1, 0]).bind fun p =>
    match (Store.flip 10 p.1 p.2), (p.1[p.2]? : Option (Obj (Ext ℚ))), (p.1[0]? : Option (Obj (Ext ℚ))) with
      | (_, .ok ()), some (Obj.group _ _ as), some (Obj.leaf m) => some (as.count 0, decide (m.flip.1.flip.1 = m), decide (m.flip.1.A = m.A))
      | _, _, _ => none) = some (2, true, false) := by decide +kernel

/-- **C90** is violated by flipping a path that has the same thick lens at two places: its entries stay what they were (first and second line), `A` and `D`
are not exchanged, as they are when the two lenses are two objects (third line). -/
theorem C90_violated_flip_twice :
    let one := sharedPath [mkThickLens (fin (3/2)) (fin 10) (fin (-20)) (fin 2), mkSpace (fin 10)] [0, 1, 0]
    let two := sharedPath [mkThickLens (fin (3/2)) (fin 10) (fin (-20)) (fin 2), mkSpace (fin 10),
      mkThickLens (fin (3/2)) (fin 10) (fin (-20)) (fin 2)] [0, 1, 2]
    (one.bind fun p => (p.1.mat? p.2).map abcd) = some [fin (4/45), fin (104/9), fin (-77/900), fin (23/180)] ∧
    (one.bind fun p => ((Store.flip 10 p.1 p.2).1.mat? p.2).map abcd) = some [fin (4/45), fin (104/9), fin (-77/900), fin (23/180)] ∧
    (two.bind fun p => ((Store.flip 10 p.1 p.2).1.mat? p.2).map abcd) = some [fin (23/180), fin (104/9), fin (-77/900), fin (4/45)] := by
  dsimp only; decide +kernel

/-- `path[:2].flipOrientation()`: the objects after it. -/
def flipSlice (p : Store (Ext ℚ) × Nat) : Option (Store (Ext ℚ)) :=
  match Store.getSlice 10 p.1 p.2 none (some 2) with
  | (s, .ok sub) => some (Store.flip 10 s sub).1
  | _ => none

/-- **C90** is violated by slices: flipping the slice `path[:2]` turns round the thick lens of the path itself. The entries of the path keep their old
values (second line), which are not those of its elements any more (third line). -/
theorem C90_violated_slice :
    let path := sharedPath [mkSpace (fin 10), mkThickLens (fin (3/2)) (fin 10) (fin (-20)) (fin 2), mkSpace (fin 20)] [0, 1, 2]
    (path.bind fun p => (p.1.mat? p.2).map abcd) = some [fin (-8/15), fin (46/3), fin (-11/150), fin (7/30)] ∧
    (path.bind fun p => (flipSlice p).bind fun s => (s.mat? p.2).map abcd) = some [fin (-8/15), fin (46/3), fin (-11/150), fin (7/30)] ∧
    (path.bind fun p => (flipSlice p).bind fun s => (s.transferMatrix 10 p.2 inf).toOption.map abcd) =
      some [fin (-1/2), fin 15, fin (-11/150), fin (1/5)] := by
  dsimp only; decide +kernel

/-- `MatrixGroup([inner, inner])`: the length of the path, and where the ray along the axis ends. -/
def twiceGroup (p : Store (Ext ℚ) × Nat) : Option (Option (Ext ℚ) × Option (Ext ℚ)) :=
  match Store.newGroup 10 p.1 [p.2, p.2] with
  | (s, .ok g) =>
    let t := Store.trace 10 s g 0 [Ray.new (fin 0) (fin 0)]
    some ((s.mat? g).map (·.L), (t.2.1.deref t.1).getLast?.map (·.z))
  | _ => none

/-- **C90** is violated by a group that is at two places of a path: the ray along the axis is found again in the record of the group, and the path of
length 20 is traced to position 10 only. -/
theorem C90_violated_group : (sharedPath [mkSpace (fin 10)] [0]).bind twiceGroup = some (some (fin 20), some (fin 10)) := by decide +kernel

-- `C90_matrix` applies to the cavity too: its objects are at two places each.
example (m1 m2 mg : Mat (Ext ℚ)) :
    Rep (Store.appendElementsInReverse [Obj.leaf m1, Obj.leaf m2, Obj.group mg none [0, 1]] 2) (.group mg none [.leaf m1, .leaf m2, .leaf m2, .leaf m1]) 2
      [2, 0, 1, 1, 0] := by
  simp [Store.appendElementsInReverse, Store.setElems, Store.write, Rep, RepList]

-- The hypotheses of `C90_violated_space` hold for a space in air that is in a path and is appended to an interface with glass: in the first path its
-- index becomes that of the glass.
example : ((sharedPath [mkSpace (fin 10), mkDielectric (fin 1) (fin (3/2))] [0]).bind fun p =>
    match Store.newGroup 10 p.1 [1] with
    | (s, .ok g) => ((s.append 10 g 0).1.mat? 0).map fun m => (m.frontIndex, m.backIndex)
    | _ => none) = some (fin (3/2), fin (3/2)) := by decide +kernel

end RT
