import Verif.Spec.RoundedMatrix
import Verif.Lemmas.RoundedBuild
import Verif.Lemmas.Group

/-! # Matrices of groups in rounded arithmetic -/

set_option linter.unusedSectionVars false

namespace RT
open PyNum Ext Fl
variable {K : Type} [Field K] [LinearOrder K] [IsStrictOrderedRing K]
variable {rnd : K → K} {u : K}

/-- the coefficients and the length of `m` are those of `s` up to errors -/
structure NearMat (u : K) (m : Mat (Fl K rnd)) (s : RStage K) : Prop where
  A : Near u s.ops m.A s.exact.a s.maj.a
  B : Near u s.ops m.B s.exact.b s.maj.b
  C : Near u s.ops m.C s.exact.c s.maj.c
  D : Near u s.ops m.D s.exact.d s.maj.d
  L : Near u s.ops m.L s.exact.len s.maj.len

theorem RStageOf.nearMat (hu : 0 ≤ u) {m : Mat (Fl K rnd)} {s : RStage K} (h : RStageOf u m s) : NearMat u m s := by
  refine ⟨h.A, h.B, h.C, h.D, ?_⟩
  rw [h.L, h.len]
  exact (near_num u _).mono hu (Nat.zero_le _) le_rfl

theorem nearMat_one (hr : Rounding rnd u) : NearMat u (Mat.one : Mat (Fl K rnd)) RStage.one :=
  ⟨near_one hr, near_zero hr, near_zero hr, near_one hr, near_zero hr⟩

theorem NearMat.mulRaw (hr : Rounding rnd u) {m r : Mat (Fl K rnd)} {s t : RStage K} (hm : NearMat u m t) (h : NearMat u r s) :
    NearMat u (m.mulRaw r) (s.andThen t) := by
  have key : ∀ {x y x' y' : Fl K rnd} {a b a' b' A B A' B' : K}, Near u t.ops x a A → Near u s.ops y b B → Near u t.ops x' a' A' →
      Near u s.ops y' b' B' → Near u (s.ops + t.ops + 2) (x * y + x' * y') (a * b + a' * b') (A * B + A' * B') := by
    intro x y x' y' a b a' b' A B A' B' h1 h2 h3 h4
    exact ((h1.mul hr h2).add hr (h3.mul hr h4)).mono hr.nonneg (by omega) le_rfl
  refine ⟨key hm.A h.A hm.B h.C, key hm.A h.B hm.B h.D, key hm.C h.A hm.D h.C, key hm.C h.B hm.D h.D, ?_⟩
  change Near u (s.ops + t.ops + 2) (m.L + r.L) (s.exact.len + t.exact.len) (s.maj.len + t.maj.len)
  rw [add_comm s.exact.len, add_comm s.maj.len]
  exact ((hm.L.mono hr.nonneg (by omega : _ ≤ s.ops + t.ops) le_rfl).add hr
    (h.L.mono hr.nonneg (by omega : _ ≤ s.ops + t.ops) le_rfl)).mono hr.nonneg (by omega) le_rfl

theorem le_infR {x : Fl K rnd} {k : ℕ} {a A : K} (h : Near u k x a A) : (x ≤. (inf : Fl K rnd)) = true := by
  obtain ⟨x', rfl, -⟩ := h
  rfl

theorem inf_subR {x : Fl K rnd} {k : ℕ} {a A : K} (h : Near u k x a A) : (inf : Fl K rnd) - x = inf := by
  obtain ⟨x', rfl, -⟩ := h
  rfl

theorem mulMatrix_okF {F : Type} [PyNum F] {m r p : Mat F} (h : m.mulMatrix r = .ok p) : p = m.mulRaw r := by
  obtain ⟨rfl, -⟩ := init_okF h; rfl

theorem transferMatrixList_near (hr : Rounding rnd u) {es : List (Elem (Fl K rnd))} {ss : List (RStage K)}
    (hs : List.Forall₂ (fun e s => NearMat u e.mat s) es ss) {acc t : Mat (Fl K rnd)} {s0 : RStage K} (ha : NearMat u acc s0)
    (ht : transferMatrixList es inf acc = .ok t) : NearMat u t (ss.foldl RStage.andThen s0) := by
  induction hs generalizing acc s0 with
  | nil =>
    simp only [transferMatrixList, Except.ok.injEq] at ht
    exact ht ▸ ha
  | @cons e s es ss he _ ih =>
    unfold transferMatrixList at ht
    rw [if_pos (le_infR he.L), inf_subR he.L] at ht
    cases hm : e.mat.mulMatrix acc with
    | error x => simp [hm] at ht
    | ok p =>
      simp only [hm] at ht
      rw [List.foldl_cons]
      refine ih ?_ ht
      rw [mulMatrix_okF hm]
      exact he.mulRaw hr ha

theorem forget_near {e : Elem (Fl K rnd)} {s : RStage K} : NearMat u e.forget.mat s ↔ NearMat u e.mat s := by
  unfold Elem.forget
  split_ifs
  · cases e <;> exact ⟨fun h => ⟨h.A, h.B, h.C, h.D, h.L⟩, fun h => ⟨h.A, h.B, h.C, h.D, h.L⟩⟩
  · rfl

theorem forget_nearList {es fs : List (Elem (Fl K rnd))} (h : es.map Elem.forget = fs.map Elem.forget) {ss : List (RStage K)}
    (hs : List.Forall₂ (fun e s => NearMat u e.mat s) fs ss) : List.Forall₂ (fun e s => NearMat u e.mat s) es ss := by
  induction hs generalizing es with
  | nil =>
    simp only [List.map_nil, List.map_eq_nil_iff] at h
    subst h; exact .nil
  | cons h1 _ ih =>
    cases es with
    | nil => simp at h
    | cons e es =>
      simp only [List.map_cons, List.cons.injEq] at h
      refine .cons ?_ (ih h.2)
      rw [← forget_near, h.1, forget_near]; exact h1

theorem rmatList_foldl (ps : List (Part K)) (acc : RStage K) : Part.rmatList acc ps = (ps.map Part.rmat).foldl RStage.andThen acc := by
  induction ps generalizing acc with
  | nil => simp [Part.rmatList]
  | cons p ps ih => simp [Part.rmatList, ih]

/-- for an element alone -/
theorem leaf_near (hr : Rounding rnd u) {p : Part K} {m : Mat (Fl K rnd)} {s : RStage K} (hb : p.buildR rnd = .ok (.leaf m))
    (hs : p.rstages = [s]) : NearMat u m s := by
  have h := (buildR_stages hr hb).1
  rw [hs] at h
  cases h with
  | cons h1 _ => exact h1.nearMat hr.nonneg

mutual
/-- The matrix that a system reports, computed with rounding. -/
theorem buildR_mat (hr : Rounding rnd u) : ∀ {p : Part K} {e : Elem (Fl K rnd)}, p.buildR rnd = .ok e → NearMat u e.mat p.rmat
  | .space d n diam, e, hb => by
    have hb' := hb; unfold Part.buildR Part.buildWith at hb'; obtain ⟨m, -, rfl⟩ := Except.map_ok hb'
    exact leaf_near hr hb (by simp [Part.rstages, Part.rmat])
  | .lens f diam, e, hb => by
    have hb' := hb; unfold Part.buildR Part.buildWith at hb'; obtain ⟨m, -, rfl⟩ := Except.map_ok hb'
    exact leaf_near hr hb (by simp [Part.rstages, Part.rmat])
  | .mirror R diam, e, hb => by
    have hb' := hb; unfold Part.buildR Part.buildWith at hb'; obtain ⟨m, -, rfl⟩ := Except.map_ok hb'
    exact leaf_near hr hb (by simp [Part.rstages, Part.rmat])
  | .interface n1 n2 R diam, e, hb => by
    have hb' := hb; unfold Part.buildR Part.buildWith at hb'; obtain ⟨m, -, rfl⟩ := Except.map_ok hb'
    exact leaf_near hr hb (by simp [Part.rstages, Part.rmat])
  | .thickLens n R1 R2 t diam, e, hb => by
    have hb' := hb; unfold Part.buildR Part.buildWith at hb'; obtain ⟨m, -, rfl⟩ := Except.map_ok hb'
    exact leaf_near hr hb (by simp [Part.rstages, Part.rmat])
  | .slab n t diam, e, hb => by
    have hb' := hb; unfold Part.buildR Part.buildWith at hb'; obtain ⟨m, -, rfl⟩ := Except.map_ok hb'
    exact leaf_near hr hb (by simp [Part.rstages, Part.rmat])
  | .aperture diam na label, e, hb => by
    have hb' := hb; unfold Part.buildR Part.buildWith at hb'; obtain ⟨m, -, rfl⟩ := Except.map_ok hb'
    exact leaf_near hr hb (by simp [Part.rstages, Part.rmat])
  | .matrix s fv bv diam, e, hb => by
    have hb' := hb; unfold Part.buildR Part.buildWith at hb'; obtain ⟨m, -, rfl⟩ := Except.map_ok hb'
    exact leaf_near hr hb (by simp [Part.rstages, Part.rmat])
  | .group label ps, e, hb => by
    unfold Part.buildR Part.buildWith at hb
    split at hb
    · simp at hb
    · next es hes =>
      obtain ⟨g, hnew, rfl⟩ := Except.map_ok hb
      have h1 := forget_nearList (Group.new_elems hnew) (buildListR_mat hr hes)
      obtain ⟨t, ht, hm⟩ := Group.new_fresh hnew
      have h2 := transferMatrixList_near hr h1 (nearMat_one hr) ht
      change NearMat u g.mat _
      rw [hm]
      unfold Part.rmat
      rw [rmatList_foldl]
      exact ⟨h2.A, h2.B, h2.C, h2.D, h2.L⟩
theorem buildListR_mat (hr : Rounding rnd u) : ∀ {ps : List (Part K)} {es : List (Elem (Fl K rnd))},
    Part.buildListWith num optNum ps = .ok es → List.Forall₂ (fun e s => NearMat u e.mat s) es (ps.map Part.rmat)
  | [], es, hb => by
    simp only [Part.buildListWith, Except.ok.injEq] at hb; subst hb; exact .nil
  | p :: ps, es, hb => by
    unfold Part.buildListWith at hb
    split at hb
    · simp at hb
    · next e he =>
      split at hb
      · simp at hb
      · next es' hes =>
        simp only [Except.ok.injEq] at hb; subst hb
        exact .cons (buildR_mat hr (p := p) he) (buildListR_mat hr hes)
end

end RT
