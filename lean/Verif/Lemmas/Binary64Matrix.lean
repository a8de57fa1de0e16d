import Verif.Spec.Binary64Matrix
import Verif.Lemmas.Binary64Trace
import Verif.Lemmas.RoundedMatrix

/-! # Matrices of groups in binary64 -/

set_option linter.unusedSectionVars false

namespace RT
open PyNum Ext

namespace B64

/-- the coefficients and the length of `m` are those of `s` up to errors -/
structure NearMat64 (m : Mat B64) (s : RStage ℚ) : Prop where
  A : Near64 s.ops m.A s.exact.a s.maj.a
  B : Near64 s.ops m.B s.exact.b s.maj.b
  C : Near64 s.ops m.C s.exact.c s.maj.c
  D : Near64 s.ops m.D s.exact.d s.maj.d
  L : Near64 s.ops m.L s.exact.len s.maj.len

theorem Stage64.nearMat {m : Mat B64} {s : RStage ℚ} (h : Stage64 m s) : NearMat64 m s := by
  refine ⟨h.A, h.B, h.C, h.D, ?_⟩
  rw [h.L, h.len]
  exact (near64_num _).mono (Nat.zero_le _) le_rfl

theorem zero64 : (0 : B64) = num 0 := by decide +kernel
theorem one64 : (1 : B64) = num 1 := by decide +kernel
theorem eps64 : (eps : B64) = num (double (1 / 100000)) := by decide +kernel

theorem near64_zero : Near64 0 (0 : B64) 0 0 := by rw [zero64]; simpa using near64_num 0
theorem near64_one : Near64 0 (1 : B64) 1 1 := by rw [one64]; simpa using near64_num 1

theorem nearMat64_one : NearMat64 (Mat.one : Mat B64) RStage.one := ⟨near64_one, near64_zero, near64_zero, near64_one, near64_zero⟩

theorem NearMat64.mulRaw {m r : Mat B64} {s t : RStage ℚ} (hm : NearMat64 m t) (h : NearMat64 r s)
    (hf : (s.andThenW tiny t).Fits tiny unitRoundoff (huge / 2)) : NearMat64 (m.mulRaw r) (s.andThenW tiny t) := by
  have hk : ((s.ops + t.ops + 2 : ℕ) : ℚ) * unitRoundoff ≤ 1 / 2 := mul_mono_u (by simp only [RStage.andThenW]; omega) hf.ops
  refine ⟨near_line hm.A hm.B h.A h.C hk hf.a, near_line hm.A hm.B h.B h.D hk hf.b, near_line hm.C hm.D h.A h.C hk hf.c,
    near_line hm.C hm.D h.B h.D hk hf.d, ?_⟩
  change Near64 (s.ops + t.ops + 2) (m.L + r.L) (s.exact.len + t.exact.len) (t.maj.len + s.maj.len + tiny)
  rw [add_comm s.exact.len]
  have h0 := tiny_pos
  have h1 := hm.L.nonneg
  have h2 := h.L.nonneg
  have h3 := ((hm.L.mono (by omega : _ ≤ s.ops + t.ops) (by linarith : _ ≤ t.maj.len + tiny)).add (h.L.mono (by omega : _ ≤ s.ops + t.ops) le_rfl)
    (by linarith) (fits_of (mul_mono_u (by omega) hk) (by linarith) (by have := hf.len; change t.maj.len + s.maj.len + tiny ≤ _ at this; linarith)))
  exact h3.mono (by omega) (by linarith)

theorem le_inf64 {x : B64} {k : ℕ} {a A : ℚ} (h : Near64 k x a A) : (x ≤. (inf : B64)) = true := by
  obtain ⟨x', rfl, -⟩ := h
  rfl

theorem inf_sub64 {x : B64} {k : ℕ} {a A : ℚ} (h : Near64 k x a A) : (inf : B64) - x = inf := by
  obtain ⟨x', rfl, -⟩ := h
  rfl

attribute [local irreducible] double64 double Good

/-- each of the successive products fits -/
def AllFit : RStage ℚ → List (RStage ℚ) → Prop
  | _, [] => True
  | s0, s :: ss => (s0.andThenW tiny s).Fits tiny unitRoundoff (huge / 2) ∧ AllFit (s0.andThenW tiny s) ss

theorem transferMatrixList_near64 {es : List (Elem B64)} {ss : List (RStage ℚ)}
    (hs : List.Forall₂ (fun e s => NearMat64 e.mat s) es ss) {acc t : Mat B64} {s0 : RStage ℚ} (ha : NearMat64 acc s0) (hf : AllFit s0 ss)
    (ht : transferMatrixList es inf acc = .ok t) : NearMat64 t (ss.foldl (RStage.andThenW tiny) s0) := by
  induction hs generalizing acc s0 with
  | nil =>
    simp only [transferMatrixList, Except.ok.injEq] at ht
    exact ht ▸ ha
  | @cons e s es ss he _ ih =>
    unfold transferMatrixList at ht
    rw [if_pos (le_inf64 he.L), inf_sub64 he.L] at ht
    cases hm : e.mat.mulMatrix acc with
    | error x => simp [hm] at ht
    | ok p =>
      simp only [hm] at ht
      rw [List.foldl_cons]
      refine ih ?_ hf.2 ht
      rw [mulMatrix_okF hm]
      exact he.mulRaw ha hf.1

theorem forget_near64 {e : Elem B64} {s : RStage ℚ} : NearMat64 e.forget.mat s ↔ NearMat64 e.mat s := by
  unfold Elem.forget
  split_ifs
  · cases e <;> exact ⟨fun h => ⟨h.A, h.B, h.C, h.D, h.L⟩, fun h => ⟨h.A, h.B, h.C, h.D, h.L⟩⟩
  · rfl

theorem forget_nearList64 {es fs : List (Elem B64)} (h : es.map Elem.forget = fs.map Elem.forget) {ss : List (RStage ℚ)}
    (hs : List.Forall₂ (fun e s => NearMat64 e.mat s) fs ss) : List.Forall₂ (fun e s => NearMat64 e.mat s) es ss := by
  induction hs generalizing es with
  | nil =>
    simp only [List.map_nil, List.map_eq_nil_iff] at h
    subst h; exact .nil
  | cons h1 _ ih =>
    cases es with
    | nil => simp at h
    | cons e es =>
      simp only [List.map_cons, List.cons.injEq] at h
      refine .cons ?_ (ih h.2)
      rw [← forget_near64, h.1, forget_near64]; exact h1

theorem rmatListW_foldl (w : ℚ) (ps : List (Part ℚ)) (acc : RStage ℚ) :
    Part.rmatListW w acc ps = (ps.map (Part.rmatW w)).foldl (RStage.andThenW w) acc := by
  induction ps generalizing acc with
  | nil => simp [Part.rmatListW]
  | cons p ps ih => simp [Part.rmatListW, ih]

theorem allFit_of {ps : List (Part ℚ)} {acc : RStage ℚ} (h : ∀ s ∈ Part.madeListW tiny acc ps, s.Fits tiny unitRoundoff (huge / 2)) :
    AllFit acc (ps.map (Part.rmatW tiny)) := by
  induction ps generalizing acc with
  | nil => trivial
  | cons p ps ih =>
    unfold Part.madeListW at h
    exact ⟨h _ (List.mem_append_right _ (by simp)), ih fun s hs => h s (List.mem_append_right _ (List.mem_cons_of_mem _ hs))⟩

/-- for an element alone -/
theorem leaf_near64 {p : Part ℚ} {m : Mat B64} {s : RStage ℚ} (hg : p.AllParams (Good range) (GoodO range)) (hb : p.build64 = .ok (.leaf m))
    (hs : p.rstages = [s]) : NearMat64 m s := by
  have h := build64_stages hg hb
  rw [hs] at h
  cases h with
  | cons h1 _ => exact h1.nearMat

mutual
/-- The matrix that a system reports, computed by Python. -/
theorem build64_mat : ∀ {p : Part ℚ} {e : Elem B64}, p.AllParams (Good range) (GoodO range) →
    (∀ s ∈ p.madeW tiny, s.Fits tiny unitRoundoff (huge / 2)) → p.build64 = .ok e → NearMat64 e.mat (p.rmatW tiny)
  | .space d n diam, e, hg, _, hb => by
    have hb' := hb; unfold Part.build64 Part.buildWith at hb'; obtain ⟨m, -, rfl⟩ := Except.map_ok hb'
    exact leaf_near64 hg hb (by simp [Part.rstages, Part.rmatW])
  | .lens f diam, e, hg, _, hb => by
    have hb' := hb; unfold Part.build64 Part.buildWith at hb'; obtain ⟨m, -, rfl⟩ := Except.map_ok hb'
    exact leaf_near64 hg hb (by simp [Part.rstages, Part.rmatW])
  | .mirror R diam, e, hg, _, hb => by
    have hb' := hb; unfold Part.build64 Part.buildWith at hb'; obtain ⟨m, -, rfl⟩ := Except.map_ok hb'
    exact leaf_near64 hg hb (by simp [Part.rstages, Part.rmatW])
  | .interface n1 n2 R diam, e, hg, _, hb => by
    have hb' := hb; unfold Part.build64 Part.buildWith at hb'; obtain ⟨m, -, rfl⟩ := Except.map_ok hb'
    exact leaf_near64 hg hb (by simp [Part.rstages, Part.rmatW])
  | .thickLens n R1 R2 t diam, e, hg, _, hb => by
    have hb' := hb; unfold Part.build64 Part.buildWith at hb'; obtain ⟨m, -, rfl⟩ := Except.map_ok hb'
    exact leaf_near64 hg hb (by simp [Part.rstages, Part.rmatW])
  | .slab n t diam, e, hg, _, hb => by
    have hb' := hb; unfold Part.build64 Part.buildWith at hb'; obtain ⟨m, -, rfl⟩ := Except.map_ok hb'
    exact leaf_near64 hg hb (by simp [Part.rstages, Part.rmatW])
  | .aperture diam na label, e, hg, _, hb => by
    have hb' := hb; unfold Part.build64 Part.buildWith at hb'; obtain ⟨m, -, rfl⟩ := Except.map_ok hb'
    exact leaf_near64 hg hb (by simp [Part.rstages, Part.rmatW])
  | .matrix s fv bv diam, e, hg, _, hb => by
    have hb' := hb; unfold Part.build64 Part.buildWith at hb'; obtain ⟨m, -, rfl⟩ := Except.map_ok hb'
    exact leaf_near64 hg hb (by simp [Part.rstages, Part.rmatW])
  | .group label ps, e, hg, hf, hb => by
    unfold Part.build64 Part.buildWith at hb
    unfold Part.madeW at hf
    split at hb
    · simp at hb
    · next es hes =>
      obtain ⟨g, hnew, rfl⟩ := Except.map_ok hb
      have h1 := forget_nearList64 (Group.new_elems hnew) (buildList64_mat hg RStage.one hf hes)
      obtain ⟨t, ht, hm⟩ := Group.new_fresh hnew
      have h2 := transferMatrixList_near64 h1 nearMat64_one (allFit_of hf) ht
      change NearMat64 g.mat _
      rw [hm]
      unfold Part.rmatW
      rw [rmatListW_foldl]
      exact ⟨h2.A, h2.B, h2.C, h2.D, h2.L⟩
theorem buildList64_mat : ∀ {ps : List (Part ℚ)} {es : List (Elem B64)}, Part.AllParamsList (Good range) (GoodO range) ps → ∀ acc : RStage ℚ,
    (∀ s ∈ Part.madeListW tiny acc ps, s.Fits tiny unitRoundoff (huge / 2)) →
    Part.buildListWith num opt ps = .ok es → List.Forall₂ (fun e s => NearMat64 e.mat s) es (ps.map (Part.rmatW tiny))
  | [], es, _, _, _, hb => by
    simp only [Part.buildListWith, Except.ok.injEq] at hb; subst hb; exact .nil
  | p :: ps, es, hg, acc, hf, hb => by
    unfold Part.buildListWith at hb
    unfold Part.madeListW at hf
    split at hb
    · simp at hb
    · next e he =>
      split at hb
      · simp at hb
      · next es' hes =>
        simp only [Except.ok.injEq] at hb; subst hb
        exact .cons (build64_mat (p := p) hg.1 (fun s hs => hf s (List.mem_append_left _ hs)) he)
          (buildList64_mat hg.2 _ (fun s hs => hf s (List.mem_append_right _ (List.mem_cons_of_mem _ hs))) hes)
end

end B64
end RT
