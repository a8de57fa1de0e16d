import Verif.Model.Iterating
import Verif.Props.Sources
import Verif.Props.Display

/-! # C49, C61: one position for all the iterations over a group -/

set_option linter.unusedSectionVars false

namespace RT
open PyNum Ext
variable {F : Type} [PyNum F]

theorem GroupLoop.next_some {s : GroupLoop F} {e : Elem F} (h : s.group.elems[s.iteration]? = some e) :
    s.next = (some e, { s with iteration := s.iteration + 1 }) := by
  unfold GroupLoop.next; rw [h]

theorem GroupLoop.next_none {s : GroupLoop F} (h : s.group.elems.length ≤ s.iteration) : s.next = (none, s) := by
  unfold GroupLoop.next; rw [List.getElem?_eq_none h]

theorem GroupLoop.search_spec (eq : Elem F → Elem F → Bool) (x : Elem F) : ∀ (fuel : Nat) (s : GroupLoop F),
    s.group.elems.length - s.iteration < fuel → s.iteration ≤ s.group.elems.length →
    (∃ j e, s.iteration ≤ j ∧ s.group.elems[j]? = some e ∧ eq e x = true ∧
      (∀ i < j, s.iteration ≤ i → ∀ f, s.group.elems[i]? = some f → eq f x = false) ∧
      GroupLoop.search eq x fuel s = (true, { s with iteration := j + 1 })) ∨
    ((∀ i, s.iteration ≤ i → ∀ f, s.group.elems[i]? = some f → eq f x = false) ∧
      GroupLoop.search eq x fuel s = (false, { s with iteration := s.group.elems.length }))
  | 0, s, h, _ => by omega
  | fuel + 1, s, h, hi => by
    unfold GroupLoop.search
    by_cases hlt : s.iteration < s.group.elems.length
    · have hs := List.getElem?_eq_getElem hlt
      rw [GroupLoop.next_some hs]
      simp only
      by_cases he : eq s.group.elems[s.iteration] x = true
      · rw [if_pos he]
        exact .inl ⟨s.iteration, _, le_rfl, hs, he, fun i h1 h2 => by omega, rfl⟩
      · rw [if_neg he]
        rcases GroupLoop.search_spec eq x fuel { s with iteration := s.iteration + 1 } (by dsimp only; omega) (by dsimp only; omega) with
          ⟨j, e, h1, h2, h3, h4, h5⟩ | ⟨h1, h2⟩
        · dsimp only at h1 h2 h4
          refine .inl ⟨j, e, by omega, h2, h3, fun i hij hi f hf => ?_, h5⟩
          rcases Nat.lt_or_ge s.iteration i with h6 | h6
          · exact h4 i hij (by omega) f hf
          · obtain rfl : i = s.iteration := by omega
            rw [hs] at hf; cases hf; simpa using he
        · dsimp only at h1
          refine .inr ⟨fun i hi f hf => ?_, h2⟩
          rcases Nat.lt_or_ge s.iteration i with h6 | h6
          · exact h1 i (by omega) f hf
          · obtain rfl : i = s.iteration := by omega
            rw [hs] at hf; cases hf; simpa using he
    · have hl : s.iteration = s.group.elems.length := by omega
      rw [GroupLoop.next_none (by omega)]
      refine .inr ⟨fun i h1 f hf => ?_, by simp [hl.symm]⟩
      rw [List.getElem?_eq_none (by omega)] at hf; simp at hf

/-- **C49**: `x in group` is True iff some element equals `x`, wherever the iteration was; the position is then just after the first such element, or
at the end. -/
theorem C49_contains (eq : Elem F → Elem F → Bool) (x : Elem F) (s : GroupLoop F) :
    (∃ j e, s.group.elems[j]? = some e ∧ eq e x = true ∧ (∀ i < j, ∀ f, s.group.elems[i]? = some f → eq f x = false) ∧
      s.contains eq x = (true, { s with iteration := j + 1 })) ∨
    ((∀ e ∈ s.group.elems, eq e x = false) ∧ s.contains eq x = (false, { s with iteration := s.group.elems.length })) := by
  rcases GroupLoop.search_spec eq x (s.group.elems.length + 1) s.iter (by simp [GroupLoop.iter]) (by simp [GroupLoop.iter]) with
    ⟨j, e, -, h2, h3, h4, h5⟩ | ⟨h1, h2⟩
  · exact .inl ⟨j, e, h2, h3, fun i hi f hf => h4 i hi (Nat.zero_le _) f hf, h5⟩
  · refine .inr ⟨fun e he => ?_, h2⟩
    obtain ⟨i, hi, rfl⟩ := List.mem_iff_getElem.1 he
    exact h1 i (Nat.zero_le _) _ (List.getElem?_eq_getElem hi)

/-- **C49**, loops that ask whether the element is in the group: every element is visited once, in order, when no two elements are equal. -/
theorem C49_contains_loop_partial (eq : Elem F → Elem F → Bool) (hr : ∀ e, eq e e = true) (s : GroupLoop F)
    (hd : s.group.elems.Pairwise (fun a b => eq a b = false)) {fuel : Nat} (hf : s.group.elems.length < fuel) :
    (GroupLoop.forLoop (fun e t => (t.contains eq e).2) fuel s).1 = s.group.elems := by
  have key : ∀ (fuel : Nat) (t : GroupLoop F), t.group.elems = s.group.elems → t.group.elems.length - t.iteration < fuel →
      (GroupLoop.forEach (fun e t => (t.contains eq e).2) fuel t).1 = t.group.elems.drop t.iteration := by
    intro fuel
    induction fuel with
    | zero => intro t _ h; omega
    | succ fuel ih =>
      intro t ht h
      unfold GroupLoop.forEach
      by_cases hi : t.iteration < t.group.elems.length
      · rw [GroupLoop.next_some (List.getElem?_eq_getElem hi)]
        simp only
        have hc : ({ t with iteration := t.iteration + 1 } : GroupLoop F).contains eq t.group.elems[t.iteration] =
            (true, { t with iteration := t.iteration + 1 }) := by
          rcases C49_contains eq t.group.elems[t.iteration] { t with iteration := t.iteration + 1 } with ⟨j, e, h1, h2, h3, h4⟩ | ⟨h1, -⟩
          · dsimp only at h1 h3
            obtain rfl : j = t.iteration := by
              rcases Nat.lt_trichotomy j t.iteration with h5 | h5 | h5
              · exfalso
                obtain ⟨hj, h6⟩ := List.getElem?_eq_some_iff.1 h1
                have := (List.pairwise_iff_getElem.1 (ht ▸ hd)) j t.iteration hj hi h5
                rw [h6, h2] at this; simp at this
              · exact h5
              · have := h3 _ h5 _ (List.getElem?_eq_getElem hi)
                rw [hr] at this; simp at this
            exact h4
          · have := h1 _ (List.getElem_mem hi)
            rw [hr] at this; simp at this
        rw [hc]
        dsimp only
        rw [ih { t with iteration := t.iteration + 1 } ht (by dsimp only; omega)]
        exact (List.drop_eq_getElem_cons hi).symm
      · rw [GroupLoop.next_none (by omega)]
        simp only
        rw [List.drop_of_length_le (by omega)]
  unfold GroupLoop.forLoop
  rw [key fuel s.iter rfl (by simpa [GroupLoop.iter] using hf)]
  simp [GroupLoop.iter]

/-- **C49** is violated: a loop over a group that asks whether each element is in the group never ends when two elements are equal (two equal
spaces, for instance). -/
theorem C49_violated_contains (eq : Elem F → Elem F → Bool) (hr : ∀ e, eq e e = true) (s : GroupLoop F) {i j : Nat} {a b : Elem F} (hij : i < j)
    (ha : s.group.elems[i]? = some a) (hb : s.group.elems[j]? = some b) (he : eq a b = true) (fuel : Nat) :
    (GroupLoop.forLoop (fun e t => (t.contains eq e).2) fuel s).1.length = fuel := by
  obtain ⟨hj, -⟩ := List.getElem?_eq_some_iff.1 hb
  have key : ∀ (fuel : Nat) (t : GroupLoop F), t.group = s.group → t.iteration ≤ j →
      (GroupLoop.forEach (fun e t => (t.contains eq e).2) fuel t).1.length = fuel := by
    intro fuel
    induction fuel with
    | zero => intro t _ _; rfl
    | succ fuel ih =>
      intro t ht hi
      unfold GroupLoop.forEach
      have hlt : t.iteration < t.group.elems.length := by rw [ht]; omega
      have hg := List.getElem?_eq_getElem hlt
      rw [GroupLoop.next_some hg]
      simp only [List.length_cons]
      congr 1
      have hx : t.group.elems[t.iteration]? = s.group.elems[t.iteration]? := by rw [ht]
      rw [hg] at hx
      have bound : ∀ k e, s.group.elems[k]? = some e → eq e t.group.elems[t.iteration] = true → k < j →
          (({ t with iteration := t.iteration + 1 } : GroupLoop F).contains eq t.group.elems[t.iteration]).2.iteration ≤ j ∧
          (({ t with iteration := t.iteration + 1 } : GroupLoop F).contains eq t.group.elems[t.iteration]).2.group = s.group := by
        intro k e hk hke hkj
        rcases C49_contains eq t.group.elems[t.iteration] { t with iteration := t.iteration + 1 } with ⟨l, f, h1, h2, h3, h4⟩ | ⟨h1, -⟩
        · rw [h4]
          dsimp only at h3 ⊢
          refine ⟨?_, ht⟩
          by_contra hc
          have := h3 k (by omega) e (by rw [ht]; exact hk)
          rw [hke] at this; simp at this
        · have := h1 e (by dsimp only; rw [ht]; exact List.mem_of_getElem? hk)
          rw [hke] at this; simp at this
      rcases Nat.lt_or_ge t.iteration j with h1 | h1
      · obtain ⟨h2, h3⟩ := bound t.iteration _ hx.symm (hr _) h1
        exact ih _ h3 h2
      · obtain h1 : t.iteration = j := by omega
        have hxb : t.group.elems[t.iteration] = b := by
          have h5 : s.group.elems[t.iteration]? = some b := by rw [h1]; exact hb
          rw [h5] at hx; simpa using hx
        obtain ⟨h2, h3⟩ := bound i a ha (by rw [hxb]; exact he) hij
        exact ih _ h3 h2
  exact key fuel s.iter rfl (Nat.zero_le _)

theorem GroupLoop.zipLoop_spec : ∀ (fuel : Nat) (s : GroupLoop F), s.group.elems.length - s.iteration < fuel →
    ∀ k, (GroupLoop.zipLoop fuel s).1[k]? =
      (s.group.elems[s.iteration + 2 * k]?).bind fun a => (s.group.elems[s.iteration + 2 * k + 1]?).map fun b => (a, b)
  | 0, s, h, k => by omega
  | fuel + 1, s, h, k => by
    unfold GroupLoop.zipLoop
    by_cases h1 : s.iteration < s.group.elems.length
    · rw [GroupLoop.next_some (List.getElem?_eq_getElem h1)]
      simp only
      by_cases h2 : s.iteration + 1 < s.group.elems.length
      · rw [GroupLoop.next_some (s := { s with iteration := s.iteration + 1 }) (List.getElem?_eq_getElem h2)]
        simp only
        cases k with
        | zero => simp [List.getElem?_eq_getElem h1, List.getElem?_eq_getElem h2]
        | succ k =>
          rw [List.getElem?_cons_succ, GroupLoop.zipLoop_spec fuel _ (by dsimp only; omega)]
          dsimp only
          rw [show s.iteration + 1 + 1 + 2 * k = s.iteration + 2 * (k + 1) by ring]
      · rw [GroupLoop.next_none (s := { s with iteration := s.iteration + 1 }) (by dsimp only; omega)]
        rw [List.getElem?_eq_none (i := s.iteration + 2 * k + 1) (by omega)]
        simp
    · rw [GroupLoop.next_none (by omega)]
      rw [List.getElem?_eq_none (i := s.iteration + 2 * k) (by omega)]
      simp

/-- **C49** is violated: `zip(group, group)` does not pair each element with itself. It pairs the first element with the second, the third with
the fourth, and so on; the last one is left out when their number is odd. -/
theorem C49_violated_zip (s : GroupLoop F) (k : Nat) :
    s.zipSelf.1[k]? = (s.group.elems[2 * k]?).bind fun a => (s.group.elems[2 * k + 1]?).map fun b => (a, b) := by
  have := GroupLoop.zipLoop_spec (s.group.elems.length + 1) s.iter.iter (by simp [GroupLoop.iter]) k
  simpa [GroupLoop.iter, GroupLoop.zipSelf] using this

/-- **C61** is violated by every group with elements: once it has been iterated over, it differs from any group that has not been, in
particular from the group it was. -/
theorem C61_violated_iteration (h : Heap F) (s t : GroupLoop F) (hne : s.group.elems ≠ []) (ht : t.iteration = 0) :
    s.toList.2.group = s.group ∧ s.toList.2.dictEq h t = false := by
  have key : ∀ (fuel : Nat) (u : GroupLoop F), (GroupLoop.forEach (fun _ t => t) fuel u).2.group = u.group := by
    intro fuel
    induction fuel with
    | zero => intro u; rfl
    | succ fuel ih =>
      intro u
      unfold GroupLoop.forEach GroupLoop.next
      split
      · next h => split at h <;> simp_all
      · next h => 
        split at h
        · simp only [Prod.mk.injEq] at h
          rw [← h.2]
          exact ih _
        · simp at h
  have hg : s.toList.2.group = s.group := key _ _
  obtain ⟨-, -, h3⟩ := GroupLoop.forEach_neutral (F := F) (body := fun _ t => t) (fun _ _ => ⟨rfl, rfl⟩) (s.group.elems.length + 1) s.iter
    (by simp [GroupLoop.iter])
  have h4 : s.toList.2.iteration = s.group.elems.length := h3 (by simp [GroupLoop.iter])
  refine ⟨hg, ?_⟩
  have : (s.toList.2.iteration == t.iteration) = false := by
    rw [h4, ht]
    simpa using hne
  unfold GroupLoop.dictEq
  rw [this, Bool.and_false]

/-- A group of two equal spaces: the loop of `C49_violated_contains` visits the first one, then the second one forever. -/
example : ((Part.group "" [.space (10 : ℚ) 1 none, .space 10 1 none]).build).map (fun e =>
    match e with
    | .group m c es => (GroupLoop.forLoop (fun e t => (t.contains (fun a b => a.dictEq [] b) e).2) 5 ⟨⟨m, c, es⟩, 0⟩).1.map fun x => x.mat.L
    | _ => []) = .ok [fin 10, fin 10, fin 10, fin 10, fin 10] := by decide +kernel

/-- Three elements in `zip(group, group)`. -/
example : ((Part.group "" [.space (10 : ℚ) 1 none, .space 20 1 none, .space 30 1 none]).build).map (fun e =>
    match e with
    | .group m c es => (GroupLoop.zipSelf ⟨⟨m, c, es⟩, 0⟩).1.map fun x => (x.1.mat.L, x.2.mat.L)
    | _ => []) = .ok [(fin 10, fin 20)] := by decide +kernel

end RT
