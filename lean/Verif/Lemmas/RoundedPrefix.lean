import Verif.Lemmas.RoundedHeight
import Verif.Props.RoundedAperture

/-! # The end of an element as a place to cut, and positions of traces -/

set_option linter.unusedSectionVars false

namespace RT
open PyNum Ext Fl
variable {K : Type} [Field K] [LinearOrder K] [IsStrictOrderedRing K]
variable {rnd : K → K} {u : K}

theorem exactOut_append (a b : List (RStage K)) (r : K × K) : exactOut (a ++ b) r = exactOut b (exactOut a r) := by
  simp [exactOut]

theorem exactLen_append (a b : List (RStage K)) : exactLen (a ++ b) = exactLen a + exactLen b := by
  simp [exactLen]

theorem exactOut_single (s : RStage K) (r : K × K) : exactOut [s] r = s.exact.out r := rfl

theorem exactLen_single (s : RStage K) : exactLen [s] = s.exact.len := by simp [exactLen]

mutual
/-- The matrix of a system is that of its stages. -/
theorem rmat_whole : ∀ (p : Part K), (∀ r, p.rmat.exact.out r = exactOut p.rstages r) ∧ p.rmat.exact.len = exactLen p.rstages
  | .space .. => ⟨fun _ => rfl, by simp [Part.rmat, Part.rstages, exactLen]⟩
  | .lens .. => ⟨fun _ => rfl, by simp [Part.rmat, Part.rstages, exactLen]⟩
  | .mirror .. => ⟨fun _ => rfl, by simp [Part.rmat, Part.rstages, exactLen]⟩
  | .interface .. => ⟨fun _ => rfl, by simp [Part.rmat, Part.rstages, exactLen]⟩
  | .thickLens .. => ⟨fun _ => rfl, by simp [Part.rmat, Part.rstages, exactLen]⟩
  | .slab .. => ⟨fun _ => rfl, by simp [Part.rmat, Part.rstages, exactLen]⟩
  | .aperture .. => ⟨fun _ => rfl, by simp [Part.rmat, Part.rstages, exactLen]⟩
  | .matrix .. => ⟨fun _ => rfl, by simp [Part.rmat, Part.rstages, exactLen]⟩
  | .group l ps => by
    have := rmatList_whole ps RStage.one
    unfold Part.rmat Part.rstages
    refine ⟨fun r => ?_, ?_⟩
    · rw [this.1]; simp [RStage.one, Stage.out]
    · rw [this.2]; simp [RStage.one]
theorem rmatList_whole : ∀ (ps : List (Part K)) (acc : RStage K), (∀ r, (Part.rmatList acc ps).exact.out r = exactOut (Part.rstagesList ps) (acc.exact.out r)) ∧
    (Part.rmatList acc ps).exact.len = acc.exact.len + exactLen (Part.rstagesList ps)
  | [], acc => ⟨fun _ => rfl, by simp [Part.rmatList, Part.rstagesList, exactLen]⟩
  | p :: ps, acc => by
    have h1 := rmat_whole p
    have h2 := rmatList_whole ps (acc.andThen p.rmat)
    unfold Part.rmatList Part.rstagesList
    refine ⟨fun r => ?_, ?_⟩
    · rw [h2.1, andThen_out, h1.1, exactOut_append]
    · rw [h2.2, exactLen_append, ← h1.2]
      simp only [RStage.andThen, Stage.andThen]; ring
end

theorem cutList_zero (acc : RStage K) (ps : List (Part K)) : Part.CutList acc ps 0 acc := by
  cases ps with
  | nil => exact ⟨rfl, rfl⟩
  | cons => exact .inl ⟨rfl, rfl⟩

theorem prefix_single {α : Type} {t : List α} {a : α} (h : t <+: [a]) : t = [] ∨ t = [a] := by
  cases t with
  | nil => exact .inl rfl
  | cons b t =>
    obtain ⟨s, hs⟩ := h
    simp only [List.cons_append, List.cons.injEq, List.append_eq_nil_iff] at hs
    exact .inr (by rw [hs.1, hs.2.1])

mutual
/-- Each stage ends where the system can be cut. -/
theorem prefix_cut : ∀ {p : Part K} {t : List (RStage K)}, t <+: p.rstages → t = [] ∨ t = p.rstages ∨
    ∃ c, p.CutAt (exactLen t) c ∧ ∀ r, c.exact.out r = exactOut t r
  | .space .., t, h => by unfold Part.rstages at h ⊢; rcases prefix_single h with h | h <;> simp [h]
  | .lens .., t, h => by unfold Part.rstages at h ⊢; rcases prefix_single h with h | h <;> simp [h]
  | .mirror .., t, h => by unfold Part.rstages at h ⊢; rcases prefix_single h with h | h <;> simp [h]
  | .interface .., t, h => by unfold Part.rstages at h ⊢; rcases prefix_single h with h | h <;> simp [h]
  | .thickLens .., t, h => by unfold Part.rstages at h ⊢; rcases prefix_single h with h | h <;> simp [h]
  | .slab .., t, h => by unfold Part.rstages at h ⊢; rcases prefix_single h with h | h <;> simp [h]
  | .aperture .., t, h => by unfold Part.rstages at h ⊢; rcases prefix_single h with h | h <;> simp [h]
  | .matrix .., t, h => by unfold Part.rstages at h ⊢; rcases prefix_single h with h | h <;> simp [h]
  | .group l ps, t, h => by
    unfold Part.rstages at h
    obtain ⟨c, h1, h2⟩ := prefix_cutList (acc := RStage.one) h
    refine .inr (.inr ⟨c, by unfold Part.CutAt; exact h1, fun r => ?_⟩)
    rw [h2]; simp [RStage.one, Stage.out]
theorem prefix_cutList : ∀ {ps : List (Part K)} {acc : RStage K} {t : List (RStage K)}, t <+: Part.rstagesList ps →
    ∃ c, Part.CutList acc ps (exactLen t) c ∧ ∀ r, c.exact.out r = exactOut t (acc.exact.out r)
  | [], acc, t, h => by
    unfold Part.rstagesList at h
    have : t = [] := List.prefix_nil.1 h
    subst this
    exact ⟨acc, ⟨by simp [exactLen], rfl⟩, fun _ => rfl⟩
  | p :: ps, acc, t, h => by
    unfold Part.rstagesList at h
    have hw := rmat_whole p
    have h' : t <+: p.rstages ∨ ∃ t', t = p.rstages ++ t' ∧ t' <+: Part.rstagesList ps := by
      obtain ⟨x, hx⟩ := h
      rcases List.append_eq_append_iff.1 hx with ⟨y, h1, -⟩ | ⟨y, h1, h2⟩
      · exact .inl ⟨y, h1.symm⟩
      · exact .inr ⟨y, h1, x, h2.symm⟩
    rcases h' with h | ⟨t', rfl, h3⟩
    · rcases prefix_cut h with rfl | rfl | ⟨c, c1, c2⟩
      · exact ⟨acc, .inl ⟨by simp [exactLen], rfl⟩, fun _ => rfl⟩
      · refine ⟨acc.andThen p.rmat, .inr (.inr ⟨0, ?_, cutList_zero _ _⟩), fun r => ?_⟩
        · rw [add_zero, hw.2]
        · rw [andThen_out, hw.1]
      · exact ⟨acc.andThen c, .inr (.inl ⟨c, c1, rfl⟩), fun r => by rw [andThen_out, c2]⟩
    · obtain ⟨c, c1, c2⟩ := prefix_cutList (acc := acc.andThen p.rmat) h3
      refine ⟨c, .inr (.inr ⟨exactLen t', ?_, c1⟩), fun r => ?_⟩
      · rw [exactLen_append, hw.2]
      · rw [c2, exactOut_append, andThen_out, hw.1]
end

theorem group_prefix {label : String} {ps : List (Part K)} {t : List (RStage K)} (h : t <+: (Part.group label ps).rstages) :
    ∃ c, (Part.group label ps).CutAt (exactLen t) c ∧ ∀ r, c.exact.out r = exactOut t r := by
  unfold Part.rstages at h
  obtain ⟨c, h1, h2⟩ := prefix_cutList (acc := RStage.one) h
  refine ⟨c, by unfold Part.CutAt; exact h1, fun r => ?_⟩
  rw [h2]; simp [RStage.one, Stage.out]

mutual
/-- no stage has a negative length -/
theorem slope_len {S : K} : ∀ {p : Part K} {r : K × K}, p.Slope S r → ∀ s ∈ p.rstages, 0 ≤ s.exact.len
  | .space .., r, h => by unfold Part.Slope at h; simpa [Part.rstages, Stage.withOps, Sys.space, Sys.stage] using h.1
  | .lens .., r, h => by simp [Part.rstages, Stage.withOps, Sys.lens, Sys.stage]
  | .mirror .., r, h => by simp [Part.rstages, Stage.withOps, Sys.mirror, Sys.stage]
  | .interface .., r, h => by simp [Part.rstages, Stage.withOps, Sys.interface, Sys.stage]
  | .thickLens .., r, h => by
    unfold Part.Slope at h; simpa [Part.rstages, Sys.thick, Sys.andThen, Sys.interface, Sys.space, Sys.stage] using h.1
  | .slab .., r, h => by
    unfold Part.Slope at h; simpa [Part.rstages, Sys.thick, Sys.andThen, Sys.interface, Sys.space, Sys.stage] using h.1
  | .aperture .., r, h => by simp [Part.rstages, Stage.withOps, Sys.one, Sys.stage]
  | .matrix .., r, h => by unfold Part.Slope at h; simp [Part.rstages, Stage.withOps, Sys.stage, h.2.2]
  | .group l ps, r, h => by unfold Part.Slope at h; unfold Part.rstages; exact slopeList_len h
theorem slopeList_len {S : K} : ∀ {ps : List (Part K)} {r : K × K}, Part.SlopeList S ps r → ∀ s ∈ Part.rstagesList ps, 0 ≤ s.exact.len
  | [], r, h => by simp [Part.rstagesList]
  | p :: ps, r, h => by
    unfold Part.SlopeList at h
    intro s hs
    unfold Part.rstagesList at hs
    rcases List.mem_append.1 hs with hs | hs
    · exact slope_len h.1 s hs
    · exact slopeList_len h.2 s hs
end

/-- an exit is at the end of a stage -/
theorem rexits_prefix {ss : List (RStage K)} {k : ℕ} {z Z : K} {r m : K × K} {o : RExit K} (h : o ∈ rexits ss k z Z r m) :
    ∃ pre s post, ss = pre ++ s :: post ∧ o.z = z + exactLen (pre ++ [s]) ∧ o.diam = s.exact.diam ∧ o.y = (exactOut (pre ++ [s]) r).1 := by
  induction ss generalizing k z Z r m with
  | nil => simp [rexits] at h
  | cons s ss ih =>
    unfold rexits at h
    split_ifs at h
    · simp at h
    · simp only [List.mem_cons, List.not_mem_nil, or_false] at h
      subst h
      exact ⟨[], s, ss, rfl, by simp [exactLen], rfl, rfl⟩
    · rcases List.mem_cons.1 h with rfl | h
      · exact ⟨[], s, ss, rfl, by simp [exactLen], rfl, rfl⟩
      · obtain ⟨pre, t, post, rfl, h1, h2, h3⟩ := ih h
        refine ⟨s :: pre, t, post, rfl, ?_, h2, h3⟩
        rw [h1]; simp [exactLen]; ring

theorem rexits_maj {ss : List (RStage K)} (hs : ∀ s ∈ ss, s.exact.len ≤ s.maj.len) {k : ℕ} {z Z : K} {r m : K × K} (hz : z ≤ Z) :
    ∀ o ∈ rexits ss k z Z r m, o.z ≤ o.zMaj := by
  induction ss generalizing k z Z r m with
  | nil => simp [rexits]
  | cons s ss ih =>
    intro o ho
    have h1 := hs s (by simp)
    unfold rexits at ho
    split_ifs at ho
    · simp at ho
    · simp only [List.mem_cons, List.not_mem_nil, or_false] at ho
      subst ho; simp only; linarith
    · rcases List.mem_cons.1 ho with rfl | ho
      · simp only; linarith
      · exact ih (fun t ht => hs t (List.mem_cons_of_mem _ ht)) (by linarith) o ho

/-- the position of the stop is one of a trace -/
theorem stopLoop_mem {F : Type} [PyNum F] {l : List (Ray F)} {m z0 d0 z d : F} (h : Group.stopLoop l m z0 d0 = .ok (z, d)) :
    z = z0 ∨ ∃ s ∈ l, z = s.z := by
  induction l generalizing m z0 d0 with
  | nil => simp only [Group.stopLoop, Except.pure, Except.ok.injEq, Prod.mk.injEq] at h; exact .inl h.1.symm
  | cons r l ih =>
    unfold Group.stopLoop at h
    obtain ⟨q, -, h⟩ := bind_ok h
    split_ifs at h
    · rcases ih h with h | ⟨s, h1, h2⟩
      · exact .inr ⟨r, by simp, h⟩
      · exact .inr ⟨s, List.mem_cons_of_mem _ h1, h2⟩
    · rcases ih h with h | ⟨s, h1, h2⟩
      · exact .inl h
      · exact .inr ⟨s, List.mem_cons_of_mem _ h1, h2⟩

theorem runTrace_nonneg (hr : Rounding rnd u) {is : List (Item (Fl K rnd))} (hL : ∀ m ∈ leaves is, ∃ L, m.L = num L ∧ 0 ≤ L) {r : Ray (Fl K rnd)}
    (hz : ∃ z, r.z = num z ∧ 0 ≤ z) : ∀ s ∈ runTrace is r, ∃ z, s.z = num z ∧ 0 ≤ z := by
  induction is generalizing r with
  | nil => simp [runTrace]
  | cons i is ih =>
    cases i with
    | dup =>
      intro s hs
      rcases List.mem_cons.1 hs with rfl | hs
      · exact hz
      · exact ih hL hz s hs
    | leaf m =>
      have hL' : ∀ m' ∈ leaves is, ∃ L, m'.L = num L ∧ 0 ≤ L := fun m' hm' => hL m' (by simp [leaves, hm'])
      have hn : ∃ z, (if r.isBlocked then r else settle is (m.mulRayBase r)).z = num z ∧ 0 ≤ z := by
        split_ifs with hb
        · exact hz
        · obtain ⟨L, h1, h2⟩ := hL m (by simp [leaves])
          obtain ⟨z, h3, h4⟩ := hz
          refine ⟨rnd (L + z), ?_, rnd_nonneg hr (by linarith)⟩
          simp [settle, Mat.mulRayBase, hb, h1, h3, num_add]
      intro s hs
      simp only [runTrace, List.mem_append, List.mem_cons] at hs
      rcases hs with hs | rfl | hs
      · split_ifs at hs
        · simp only [List.mem_singleton] at hs; rw [hs]; exact hz
        · simp at hs
      · exact hn
      · exact ih hL' hn s hs

end RT
