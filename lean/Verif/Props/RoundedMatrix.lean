import Verif.Lemmas.RoundedAccept
import Verif.Props.Rounded

/-! # C96: the matrix of a group in floats, and the systems that are refused -/

set_option linter.unusedSectionVars false

namespace RT
open PyNum Ext Fl
variable {K : Type} [Field K] [LinearOrder K] [IsStrictOrderedRing K]
variable {rnd : K → K} {u : K}

/-- the coefficients and length of `m`, computed exactly -/
structure ExactMat (m : Mat (Ext K)) (s : Stage K) : Prop where
  A : m.A = fin s.a
  B : m.B = fin s.b
  C : m.C = fin s.c
  D : m.D = fin s.d
  L : m.L = fin s.len

theorem transferMatrixList_exactMat {es : List (Elem (Ext K))} {ss : List (RStage K)}
    (hs : List.Forall₂ (fun e s => ExactMat e.mat s.exact) es ss) {acc t : Mat (Ext K)} {s0 : RStage K} (ha : ExactMat acc s0.exact)
    (ht : transferMatrixList es inf acc = .ok t) : ExactMat t (ss.foldl RStage.andThen s0).exact := by
  induction hs generalizing acc s0 with
  | nil =>
    simp only [transferMatrixList, Except.ok.injEq] at ht
    exact ht ▸ ha
  | @cons e s es ss he _ ih =>
    unfold transferMatrixList at ht
    rw [he.L] at ht
    change (if ((fin s.exact.len : Ext K) ≤. pinf) = true then _ else _) = _ at ht
    have hsub : (inf : Ext K) - fin s.exact.len = inf := rfl
    simp only [le_fin_pinf, if_true, hsub] at ht
    cases hm : e.mat.mulMatrix acc with
    | error x => simp [hm] at ht
    | ok p =>
      simp only [hm] at ht
      rw [List.foldl_cons]
      refine ih ?_ ht
      rw [mulMatrix_okF hm]
      refine ⟨?_, ?_, ?_, ?_, ?_⟩
      · simp only [Mat.mulRaw, he.A, he.B, ha.A, ha.C]; rfl
      · simp only [Mat.mulRaw, he.A, he.B, ha.B, ha.D]; rfl
      · simp only [Mat.mulRaw, he.C, he.D, ha.A, ha.C]; rfl
      · simp only [Mat.mulRaw, he.C, he.D, ha.B, ha.D]; rfl
      · simp only [Mat.mulRaw, he.L, ha.L]
        change fin (s.exact.len + s0.exact.len) = fin (s0.exact.len + s.exact.len)
        rw [add_comm]

theorem forget_exactMat {e : Elem (Ext K)} {s : Stage K} : ExactMat e.forget.mat s ↔ ExactMat e.mat s := by
  unfold Elem.forget
  split_ifs
  · cases e <;> exact ⟨fun h => ⟨h.A, h.B, h.C, h.D, h.L⟩, fun h => ⟨h.A, h.B, h.C, h.D, h.L⟩⟩
  · rfl

theorem forget_exactMatList {es fs : List (Elem (Ext K))} (h : es.map Elem.forget = fs.map Elem.forget) {ss : List (RStage K)}
    (hs : List.Forall₂ (fun e s => ExactMat e.mat s.exact) fs ss) : List.Forall₂ (fun e s => ExactMat e.mat s.exact) es ss := by
  induction hs generalizing es with
  | nil =>
    simp only [List.map_nil, List.map_eq_nil_iff] at h
    subst h; exact .nil
  | cons h1 _ ih =>
    cases es with
    | nil => simp at h
    | cons e es =>
      simp only [List.map_cons, List.cons.injEq] at h
      refine .cons ?_ (ih h.2)
      rw [← forget_exactMat, h.1, forget_exactMat]; exact h1

theorem leaf_exactMat {p : Part K} {m : Mat (Ext K)} {s : RStage K} (hb : p.build = .ok (.leaf m)) (hs : p.rstages = [s]) :
    ExactMat m s.exact := by
  have h := build_stages hb
  rw [← rstages_exact, hs] at h
  cases h with
  | cons h1 _ => exact ⟨h1.A, h1.B, h1.C, h1.D, h1.L⟩

mutual
theorem build_exactMat : ∀ {p : Part K} {e : Elem (Ext K)}, p.build = .ok e → ExactMat e.mat p.rmat.exact
  | .space d n diam, e, hb => by
    have hb' := hb; unfold Part.build at hb'; obtain ⟨m, -, rfl⟩ := Except.map_ok hb'
    exact leaf_exactMat hb (by simp [Part.rstages, Part.rmat])
  | .lens f diam, e, hb => by
    have hb' := hb; unfold Part.build at hb'; obtain ⟨m, -, rfl⟩ := Except.map_ok hb'
    exact leaf_exactMat hb (by simp [Part.rstages, Part.rmat])
  | .mirror R diam, e, hb => by
    have hb' := hb; unfold Part.build at hb'; obtain ⟨m, -, rfl⟩ := Except.map_ok hb'
    exact leaf_exactMat hb (by simp [Part.rstages, Part.rmat])
  | .interface n1 n2 R diam, e, hb => by
    have hb' := hb; unfold Part.build at hb'; obtain ⟨m, -, rfl⟩ := Except.map_ok hb'
    exact leaf_exactMat hb (by simp [Part.rstages, Part.rmat])
  | .thickLens n R1 R2 t diam, e, hb => by
    have hb' := hb; unfold Part.build at hb'; obtain ⟨m, -, rfl⟩ := Except.map_ok hb'
    exact leaf_exactMat hb (by simp [Part.rstages, Part.rmat])
  | .slab n t diam, e, hb => by
    have hb' := hb; unfold Part.build at hb'; obtain ⟨m, -, rfl⟩ := Except.map_ok hb'
    exact leaf_exactMat hb (by simp [Part.rstages, Part.rmat])
  | .aperture diam na label, e, hb => by
    have hb' := hb; unfold Part.build at hb'; obtain ⟨m, -, rfl⟩ := Except.map_ok hb'
    exact leaf_exactMat hb (by simp [Part.rstages, Part.rmat])
  | .matrix s fv bv diam, e, hb => by
    have hb' := hb; unfold Part.build at hb'; obtain ⟨m, -, rfl⟩ := Except.map_ok hb'
    exact leaf_exactMat hb (by simp [Part.rstages, Part.rmat])
  | .group label ps, e, hb => by
    unfold Part.build at hb
    split at hb
    · simp at hb
    · next es hes =>
      obtain ⟨g, hnew, rfl⟩ := Except.map_ok hb
      have h1 := forget_exactMatList (Group.new_elems hnew) (buildList_exactMat hes)
      obtain ⟨t, ht, hm⟩ := Group.new_fresh hnew
      have h2 := transferMatrixList_exactMat (s0 := RStage.one) h1
        ⟨by simp [Mat.one, RStage.one], by simp [Mat.one, RStage.one], by simp [Mat.one, RStage.one], by simp [Mat.one, RStage.one],
          by simp [Mat.one, RStage.one]⟩ ht
      change ExactMat g.mat _
      rw [hm]
      unfold Part.rmat
      rw [rmatList_foldl]
      exact ⟨h2.A, h2.B, h2.C, h2.D, h2.L⟩
theorem buildList_exactMat : ∀ {ps : List (Part K)} {es : List (Elem (Ext K))},
    Part.buildList ps = .ok es → List.Forall₂ (fun e s => ExactMat e.mat s.exact) es (ps.map Part.rmat)
  | [], es, hb => by
    simp only [Part.buildList, Except.ok.injEq] at hb; subst hb; exact .nil
  | p :: ps, es, hb => by
    unfold Part.buildList at hb
    split at hb
    · simp at hb
    · next e he =>
      split at hb
      · simp at hb
      · next es' hes =>
        simp only [Except.ok.injEq] at hb; subst hb
        exact .cons (build_exactMat he) (buildList_exactMat hes)
end

/-- the difference of a computed number with an exact one -/
def CloseTo (err : K) (x : Fl K rnd) (y : Ext K) : Prop := ∃ x' y', x = num x' ∧ y = fin y' ∧ |x' - y'| ≤ err

/-- The matrix that a system reports in floats is the one of the same program run exactly, up to the rounding errors; so is its length. -/
theorem C96_matrix (hr : Rounding rnd u) {p : Part K} {e : Elem (Fl K rnd)} {e' : Elem (Ext K)} (hb : p.buildR rnd = .ok e)
    (hb' : p.build = .ok e') :
    CloseTo (relErr u p.rmat.ops * p.rmat.maj.a) e.mat.A e'.mat.A ∧ CloseTo (relErr u p.rmat.ops * p.rmat.maj.b) e.mat.B e'.mat.B ∧
    CloseTo (relErr u p.rmat.ops * p.rmat.maj.c) e.mat.C e'.mat.C ∧ CloseTo (relErr u p.rmat.ops * p.rmat.maj.d) e.mat.D e'.mat.D ∧
    CloseTo (relErr u p.rmat.ops * p.rmat.maj.len) e.mat.L e'.mat.L := by
  have h1 := buildR_mat hr hb
  have h2 := build_exactMat hb'
  have key : ∀ {x : Fl K rnd} {y : Ext K} {a A : K}, Fl.Near u p.rmat.ops x a A → y = fin a → CloseTo (relErr u p.rmat.ops * A) x y := by
    rintro x y a A ⟨x', hx, -, hx'⟩ hy
    exact ⟨x', a, hx, hy, hx'⟩
  exact ⟨key h1.A h2.A, key h1.B h2.B, key h1.C h2.C, key h1.D h2.D, key h1.L h2.L⟩

/-- A system in air is accepted when, for each matrix made on the way, the error on the determinant is below the tolerance. -/
theorem C96_accepted (hr : Rounding rnd u) {p : Part K} (ha : p.InAir) (hroom : ∀ s ∈ p.made, s.Room u) :
    ∃ e, p.buildR rnd = .ok e := by
  obtain ⟨e, h, -⟩ := buildR_accepts hr ha hroom
  exact ⟨e, h⟩

/-- In Python floats, all systems in air of up to 1000 roundings (about 300 lenses and spaces) with moderate coefficients are accepted. -/
theorem C96_double {p : Part ℚ} (ha : p.InAir)
    (hm : ∀ s ∈ p.made, s.ops ≤ 1000 ∧ s.maj.a * s.maj.d + s.maj.b * s.maj.c ≤ 10 ^ 7) : ∃ e, p.buildR double = .ok e := by
  refine C96_accepted double_rounding ha fun s hs => ?_
  obtain ⟨h1, h2⟩ := hm s hs
  unfold RStage.Room
  have hu : (0 : ℚ) ≤ unitRoundoff := double_rounding.nonneg
  have e1 : relErr unitRoundoff (2 * s.ops + 2) ≤ relErr unitRoundoff 2002 := relErr_mono hu (by omega)
  have e2 : relErr unitRoundoff 2002 ≤ ((2002 : ℕ) : ℚ) * unitRoundoff / (1 - ((2002 : ℕ) : ℚ) * unitRoundoff) :=
    C95_bound hu 2002 (by norm_num [unitRoundoff])
  have e3 : 0 ≤ relErr unitRoundoff (2 * s.ops + 2) := relErr_nonneg hu _
  calc (1 + unitRoundoff) * (relErr unitRoundoff (2 * s.ops + 2) * (s.maj.a * s.maj.d + s.maj.b * s.maj.c))
      ≤ (1 + unitRoundoff) * (((2002 : ℕ) : ℚ) * unitRoundoff / (1 - ((2002 : ℕ) : ℚ) * unitRoundoff) * 10 ^ 7) := by
        have := e1.trans e2
        have h0 : (0 : ℚ) ≤ 1 + unitRoundoff := by linarith
        refine mul_le_mul_of_nonneg_left ?_ h0
        calc _ ≤ relErr unitRoundoff (2 * s.ops + 2) * 10 ^ 7 := mul_le_mul_of_nonneg_left h2 e3
          _ ≤ _ := mul_le_mul_of_nonneg_right this (by norm_num)
    _ ≤ _ := by norm_num [unitRoundoff]

/-- The relay meets these hypotheses. -/
theorem C96_example : relay.InAir ∧ ∀ s ∈ relay.made, s.ops ≤ 1000 ∧ s.maj.a * s.maj.d + s.maj.b * s.maj.c ≤ 10 ^ 7 := by
  refine ⟨?_, ?_⟩
  · simp [relay, Part.InAir, Part.InAirList, OpenDiam]
  · have : (relay.made.all fun s => decide (s.ops ≤ 1000 ∧ s.maj.a * s.maj.d + s.maj.b * s.maj.c ≤ 10 ^ 7)) = true := by decide +kernel
    simpa [List.all_eq_true] using this

/-- the Sun (at 149.6 million kilometres) through a lens of focal length 300 mm, and the plane 1 mm after its focus -/
def sun : Part ℚ := .group "" [.space 149600000000000 1 none, .lens 300 none, .space 301 1 none]

/-- Violated: the Sun seen through an ordinary lens is a legal system, accepted when computed exactly; in Python floats it is refused with a
`ValueError` about inconsistent indices, because the determinant is compared with 1 within 10⁻⁵ in absolute value. -/
theorem C96_violated : sun.InAir ∧ sun.buildR double = .error .valueError ∧
    (match sun.build with | .ok _ => true | .error _ => false) = true := by
  refine ⟨?_, ?_, by decide +kernel⟩
  · simp [sun, Part.InAir, Part.InAirList, OpenDiam]
  · have : (match sun.buildR double with | .error .valueError => true | _ => false) = true := by decide +kernel
    split at this
    · next h => exact h
    · cases this

end RT
