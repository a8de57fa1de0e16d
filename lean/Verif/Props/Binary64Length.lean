import Verif.Props.RoundedLength
import Verif.Props.Binary64
import Verif.Lemmas.Binary64Matrix

/-! # C136 in binary64: with overflow and underflow -/

set_option linter.unusedSectionVars false

namespace RT
open PyNum B64

theorem single_leaf64 {p : Part ℚ} (hp : p.Single) {e : Elem B64} (hb : p.build64 = .ok e) : ∃ m, e = .leaf m := by
  cases p with
  | group label ps => exact absurd hp (by simp [Part.Single])
  | _ =>
    unfold Part.build64 Part.buildWith at hb
    obtain ⟨m, -, rfl⟩ := Except.map_ok hb
    exact ⟨m, rfl⟩

theorem singles_leaf64 : ∀ {ps : List (Part ℚ)} {es : List (Elem B64)}, (∀ p ∈ ps, p.Single) → Part.buildListWith num opt ps = .ok es →
    ∀ e ∈ es, ∃ m, e = .leaf m
  | [], es, _, hb => by simp only [Part.buildListWith, Except.ok.injEq] at hb; subst hb; simp
  | p :: ps, es, hp, hb => by
    unfold Part.buildListWith at hb
    split at hb
    · simp at hb
    · next e he =>
      split at hb
      · simp at hb
      · next es' hes =>
        simp only [Except.ok.injEq] at hb; subst hb
        intro x hx
        rcases List.mem_cons.1 hx with rfl | hx
        · exact single_leaf64 (hp p (by simp)) he
        · exact singles_leaf64 (fun q hq => hp q (by simp [hq])) hes x hx

theorem transfer_length64 : ∀ {ms : List (Mat B64)} {acc t : Mat B64}, (∀ m ∈ ms, ∃ l, m.L = num l) →
    transferMatrixList (ms.map Elem.leaf) inf acc = .ok t → t.L = ms.foldl (fun L m => m.L + L) acc.L
  | [], acc, t, _, h => by
    simp only [List.map_nil, transferMatrixList, Except.ok.injEq] at h
    subst h; rfl
  | m :: ms, acc, t, hl, h => by
    obtain ⟨l, hm⟩ := hl m (by simp)
    have e : (Elem.leaf m).mat = m := rfl
    have h1 : (m.L ≤. (inf : B64)) = true := by rw [hm]; rfl
    have h2 : (inf : B64) - m.L = inf := by rw [hm]; rfl
    simp only [List.map_cons, transferMatrixList, e] at h
    rw [if_pos h1, h2] at h
    split at h
    · simp at h
    · next t' ht' =>
      rw [transfer_length64 (fun m hm => hl m (by simp [hm])) h, mulMatrix_okF ht']
      rfl

/-- **C136 in binary64**: for ordinary parameters, whatever overflows or underflows on the way, a ray traced from the entrance through a group without
groups inside ends exactly at the length of the group, unless it is blocked. There is no hypothesis on its height and angle, which may be infinite or `nan`. -/
theorem C136_binary64 {label : String} {ps : List (Part ℚ)} (hps : ∀ p ∈ ps, p.Single)
    (hg : (Part.group label ps).Ordinary) {e : Elem B64}
    (hb : (Part.group label ps).build64 = .ok e) {a : Nat} {h : Heap B64} (ha : a < h.length) (hz : (h.get a).z = 0)
    (hopen : ((e.traceH a h).2.1.get (e.traceThroughH a h).1).isBlocked = false) :
    ((e.traceH a h).2.1.get (e.traceThroughH a h).1).z = e.mat.L := by
  have hs := build64_stages hg hb
  have hnc := buildWith_noCache _ _ hb
  rw [through_eq hs.linear hnc ha] at hopen ⊢
  unfold Part.build64 Part.buildWith at hb
  split at hb
  · simp at hb
  · next es hes =>
    obtain ⟨g, hg, rfl⟩ := Except.map_ok hb
    have hf := Group.appendAll_elems (Group.new_eq hg)
    have hlv : ∀ e ∈ g.elems, ∃ m, e = .leaf m := by
      intro e he
      have h1 : e.forget ∈ g.elems.map Elem.forget := List.mem_map_of_mem he
      rw [hf] at h1
      simp only [Group.empty, List.map_nil, List.nil_append] at h1
      obtain ⟨e', he', h2⟩ := List.mem_map.1 h1
      exact leaf_of_forget h2.symm (singles_leaf64 hps hes e' he')
    obtain ⟨ms, hms⟩ := all_leaves hlv
    have hit : g.toElem.items = .dup :: ms.map Item.leaf := by
      unfold Group.toElem Elem.items
      rw [hms, itemsList_leaves]
    have hL : ∀ m ∈ ms, ∃ l, m.L = num l := by
      intro m hm
      have hm' : m ∈ leaves g.toElem.items := by
        rw [hit]
        show m ∈ leaves (ms.map Item.leaf)
        rw [leaves_map]; exact hm
      obtain ⟨i, hi, rfl⟩ := List.getElem_of_mem hm'
      exact ⟨_, (List.forall₂_iff_get.1 hs |>.2 i hi (by rw [← (List.forall₂_iff_get.1 hs).1]; exact hi)).L⟩
    obtain ⟨t, ht, hmat⟩ := Group.new_fresh hg
    rw [hms] at ht
    have e1 : g.mat.L = ms.foldl (fun L m => m.L + L) (Mat.one : Mat B64).L := by
      rw [← transfer_length64 hL ht]
      rw [hmat]; rfl
    rw [hit] at hopen ⊢
    set r := settle (.dup :: ms.map Item.leaf) (h.get a)
    have e2 : (runTrace (.dup :: ms.map Item.leaf) r).getLast?.getD r = (runTrace (ms.map Item.leaf) r).getLast?.getD r := by
      simp only [runTrace]
      rw [List.getLast?_cons]
      simp
    rw [e2] at hopen ⊢
    rw [(run_length ms r hopen).2]
    show _ = g.mat.L
    rw [e1]
    have e3 : r.z = (h.get a).z := rfl
    rw [e3, hz]
    rfl

/-- The hypotheses hold for a lens and a ray at height 1 and angle 1/16, which goes through. -/
theorem C136_binary64_example : ∃ ps, relay = .group "" ps ∧ (∀ p ∈ ps, p.Single) ∧ relay.Ordinary ∧
    ∃ e, relay.build64 = .ok e ∧
      ((e.traceH 0 [Ray.new (num 1) (num (1/16)) 0]).2.1.get (e.traceThroughH 0 [Ray.new (num 1) (num (1/16)) 0]).1).isBlocked = false := by
  refine ⟨_, rfl, by simp [Part.Single], relay_ordinary, ?_⟩
  have key : (match relay.build64 with
      | .ok e => ((e.traceH 0 [Ray.new (num 1) (num (1/16)) 0]).2.1.get (e.traceThroughH 0 [Ray.new (num 1) (num (1/16)) 0]).1).isBlocked == false
      | .error _ => false) = true := by decide +kernel
  split at key
  · next e he => exact ⟨e, he, by simpa using key⟩
  · cases key

end RT
