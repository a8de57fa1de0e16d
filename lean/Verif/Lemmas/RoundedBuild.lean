import Verif.Lemmas.RoundedTrace

/-! # What programs build in rounded arithmetic -/

set_option linter.unusedSectionVars false

namespace RT
open PyNum Ext

theorem init_okF {F : Type} [PyNum F] {m p : Mat F} (h : Mat.init m = .ok p) :
    p = { m with isFlipped := false } ∧ (m.apertureDiameter ≤. 0) = false := by
  unfold Mat.init at h
  simp only [bind, Except.bind, throw, throwThe, MonadExceptOf.throw, pure, Except.pure] at h
  repeat' split at h
  all_goals simp_all

variable {K : Type} [Field K] [LinearOrder K] [IsStrictOrderedRing K]
variable {rnd : K → K} {u : K}

namespace Fl

/-- dividing by `y` is multiplying by `c`, up to errors -/
def DivBy (u : K) (k : ℕ) (y : Fl K rnd) (c : K) : Prop :=
  (∃ b, RelD u k y b ∧ c = b⁻¹) ∨ ((y = ⟨.pinf⟩ ∨ y = ⟨.ninf⟩) ∧ c = 0)

theorem divBy_num {u b : K} (h : b ≠ 0) : DivBy u 0 (num b : Fl K rnd) b⁻¹ := .inl ⟨b, relD_num h, rfl⟩

theorem divBy_opt {u : K} {R : Option K} (h : R ≠ some 0) : DivBy u 0 (optNum R : Fl K rnd) (curvature R) := by
  cases R with
  | none => exact .inr ⟨.inl rfl, rfl⟩
  | some R => exact divBy_num (by simpa using h)

theorem infOf_cases {x : K} (h : x ≠ 0) : rndE rnd (infOf x) = (.pinf : Ext K) ∨ rndE rnd (infOf x) = (.ninf : Ext K) := by
  unfold infOf
  rcases lt_or_gt_of_ne h with h | h
  · simp [h, h.le, rndE, not_lt.2 h.le]
  · simp [h, rndE]

theorem DivBy.mul (hr : Rounding rnd u) {k : ℕ} {x : Fl K rnd} {c : K} (h : DivBy u k x c) {R : Option K} (hR : R ≠ some 0) :
    DivBy u (k + 2) (x * optNum R) (c * curvature R) := by
  cases R with
  | some R =>
    have hR' : R ≠ 0 := by simpa using hR
    rcases h with ⟨b, hb, rfl⟩ | ⟨h, rfl⟩
    · exact .inl ⟨b * R, hb.mul hr hR', by simp [curvature]; ring⟩
    · refine .inr ⟨?_, zero_mul _⟩
      rcases h with rfl | rfl
      · change (⟨rndE rnd (infOf R)⟩ : Fl K rnd) = _ ∨ (⟨rndE rnd (infOf R)⟩ : Fl K rnd) = _
        rcases infOf_cases (rnd := rnd) hR' with h | h <;> simp [h]
      · change (⟨rndE rnd (infOf (-R))⟩ : Fl K rnd) = _ ∨ (⟨rndE rnd (infOf (-R))⟩ : Fl K rnd) = _
        rcases infOf_cases (rnd := rnd) (neg_ne_zero.2 hR') with h | h <;> simp [h]
  | none =>
    refine .inr ⟨?_, by simp [curvature]⟩
    rcases h with ⟨b, ⟨x', rfl, -, h2, -⟩, rfl⟩ | ⟨h, rfl⟩
    · change (⟨rndE rnd (infOf x')⟩ : Fl K rnd) = _ ∨ (⟨rndE rnd (infOf x')⟩ : Fl K rnd) = _
      rcases infOf_cases (rnd := rnd) h2 with h | h <;> simp [h]
    · rcases h with rfl | rfl
      · exact .inl rfl
      · exact .inr rfl

theorem Near.divBy (hr : Rounding rnd u) {k l : ℕ} {x y : Fl K rnd} {a c A : K} (hx : Near u k x a A) (hy : DivBy u l y c) :
    ∃ q, pyDiv x y = .ok q ∧ Near u (k + l + 1) q (a * c) (A * |c|) := by
  rcases hy with ⟨b, hb, rfl⟩ | ⟨h, rfl⟩
  · obtain ⟨q, h1, h2⟩ := hx.div hr hb
    refine ⟨q, h1, ?_⟩
    rwa [div_eq_mul_inv, div_eq_mul_inv, ← abs_inv] at h2
  · have hA := hx.nonneg
    obtain ⟨x', rfl, h1, h2⟩ := hx
    have key : Near u (k + l + 1) (num 0 : Fl K rnd) (x' * 0) (A * |0|) := ⟨0, rfl, by simp, by simp⟩
    have e : (⟨rndE rnd (.fin 0)⟩ : Fl K rnd) = num 0 := by simp [rndE, num, hr.zero]
    refine ⟨num 0, ?_, by simpa using key⟩
    unfold pyDiv
    rcases h with rfl | rfl
    · rw [zero_num hr]
      exact congrArg Except.ok e
    · rw [zero_num hr]
      exact congrArg Except.ok e

theorem near_one (hr : Rounding rnd u) : Near u 0 (1 : Fl K rnd) 1 1 := by
  rw [one_num hr]; simpa using near_num (rnd := rnd) u 1

theorem near_zero (hr : Rounding rnd u) : Near u 0 (0 : Fl K rnd) 0 0 := by
  rw [zero_num hr]; simpa using near_num (rnd := rnd) u 0

end Fl

open Fl

theorem diam_pos_of (hr : Rounding rnd u) {o : Option K} (h : ((optNum o : Fl K rnd) ≤. 0) = false) : ∀ D, o = some D → 0 < D := by
  rintro D rfl
  rw [zero_num hr] at h
  change ((num D : Fl K rnd) ≤. num 0) = false at h
  rw [le_num] at h
  simpa using h

theorem pyDiv_okR (hr : Rounding rnd u) {a b c : Fl K rnd} (h : pyDiv a b = .ok c) : b ≠ num 0 := by
  rintro rfl
  rw [pyDiv_num_zero hr] at h; cases h

theorem mkSpace_R (hr : Rounding rnd u) {d n : K} {diam : Option K} {m : Mat (Fl K rnd)} (h : mkSpace (num d) (num n) (optNum diam) = .ok m) :
    RStageOf u m (((Sys.space d n).stage diam none).withOps 0) ∧ ∀ D, diam = some D → 0 < D := by
  obtain ⟨rfl, h2⟩ := init_okF h
  refine ⟨⟨?_, ?_, ?_, ?_, rfl, rfl, rfl, rfl, ?_⟩, diam_pos_of hr h2⟩
  · simpa [Stage.withOps, Stage.abs, Sys.stage, Sys.space] using near_one hr
  · simpa [Stage.withOps, Stage.abs, Sys.stage, Sys.space] using near_num (rnd := rnd) u d
  · simpa [Stage.withOps, Stage.abs, Sys.stage, Sys.space] using near_zero hr
  · simpa [Stage.withOps, Stage.abs, Sys.stage, Sys.space] using near_one hr
  · simp [Mat.Linear]

theorem mkLens_R (hr : Rounding rnd u) {f : K} {diam : Option K} {m : Mat (Fl K rnd)} (h : mkLens (num f) (optNum diam) = .ok m) :
    RStageOf u m (((Sys.lens f).stage diam none).withOps 1) ∧ ∀ D, diam = some D → 0 < D := by
  unfold mkLens at h
  obtain ⟨c, h1, h2⟩ := bind_ok h
  have hf : f ≠ 0 := by rintro rfl; exact pyDiv_okR hr h1 rfl
  obtain ⟨rfl, h3⟩ := init_okF h2
  obtain ⟨q, e1, e2⟩ := (near_one hr).neg.divBy hr (divBy_num hf)
  rw [h1] at e1; cases e1
  refine ⟨⟨?_, ?_, ?_, ?_, zero_num hr, rfl, rfl, rfl, ?_⟩, diam_pos_of hr h3⟩
  · simpa [Stage.withOps, Stage.abs, Sys.stage, Sys.lens] using (near_one hr).mono hr.nonneg (by omega : 0 ≤ 1) le_rfl
  · simpa [Stage.withOps, Stage.abs, Sys.stage, Sys.lens] using (near_zero hr).mono hr.nonneg (by omega : 0 ≤ 1) le_rfl
  · simpa [Stage.withOps, Stage.abs, Sys.stage, Sys.lens, div_eq_mul_inv, abs_inv] using e2
  · simpa [Stage.withOps, Stage.abs, Sys.stage, Sys.lens] using (near_one hr).mono hr.nonneg (by omega : 0 ≤ 1) le_rfl
  · simp [Mat.Linear]

theorem mkCurvedMirror_R (hr : Rounding rnd u) {R : K} {diam : Option K} {m : Mat (Fl K rnd)}
    (h : mkCurvedMirror (num R) (optNum diam) = .ok m) :
    RStageOf u m (((Sys.mirror R).stage diam none).withOps 1) ∧ ∀ D, diam = some D → 0 < D := by
  unfold mkCurvedMirror at h
  obtain ⟨c, h1, h2⟩ := bind_ok h
  have hf : R ≠ 0 := by rintro rfl; exact pyDiv_okR hr h1 rfl
  obtain ⟨rfl, h3⟩ := init_okF h2
  rw [two_num hr] at h1
  obtain ⟨q, e1, e2⟩ := (near_num (rnd := rnd) u 2).divBy hr (divBy_num hf)
  rw [h1] at e1; cases e1
  refine ⟨⟨?_, ?_, ?_, ?_, zero_num hr, rfl, rfl, rfl, ?_⟩, diam_pos_of hr h3⟩
  · simpa [Stage.withOps, Stage.abs, Sys.stage, Sys.mirror] using (near_one hr).mono hr.nonneg (by omega : 0 ≤ 1) le_rfl
  · simpa [Stage.withOps, Stage.abs, Sys.stage, Sys.mirror] using (near_zero hr).mono hr.nonneg (by omega : 0 ≤ 1) le_rfl
  · simpa [Stage.withOps, Stage.abs, Sys.stage, Sys.mirror, div_eq_mul_inv, abs_inv, abs_mul] using e2
  · simpa [Stage.withOps, Stage.abs, Sys.stage, Sys.mirror] using (near_one hr).mono hr.nonneg (by omega : 0 ≤ 1) le_rfl
  · simp [Mat.Linear]

theorem mkDielectric_R (hr : Rounding rnd u) {n1 n2 : K} {R diam : Option K} {m : Mat (Fl K rnd)}
    (h : mkDielectric (num n1) (num n2) (optNum R) (optNum diam) = .ok m) :
    RStageOf u m (((Sys.interface n1 n2 (curvature R)).stage diam none).withOps 4) ∧ ∀ D, diam = some D → 0 < D := by
  unfold mkDielectric at h
  obtain ⟨c, h1, h'⟩ := bind_ok h
  obtain ⟨d, h2, h''⟩ := bind_ok h'
  unfold dielectricC at h1
  have hn : n2 ≠ 0 := by rintro rfl; exact pyDiv_okR hr h2 rfl
  have hR : R ≠ some 0 := by
    rintro rfl
    refine pyDiv_okR hr h1 ?_
    change num n2 * num 0 = _
    rw [num_mul, mul_zero, hr.zero]
  obtain ⟨rfl, h3⟩ := init_okF h''
  obtain ⟨q, e1, e2⟩ := ((near_num (rnd := rnd) u n2).sub hr (near_num (rnd := rnd) u n1)).neg.divBy hr
    ((divBy_num (rnd := rnd) (u := u) hn).mul hr hR)
  rw [h1] at e1; cases e1
  obtain ⟨q', e3, e4⟩ := (near_num (rnd := rnd) u n1).divBy hr (divBy_num hn)
  rw [h2] at e3; cases e3
  -- the difference of the indices has no error before rounding, so its majorant is its absolute value
  have e5 : Near u 1 (-(num n2 - num n1) : Fl K rnd) (-(n2 - n1)) |n2 - n1| := by
    rw [num_sub, neg_num]
    have := (near_num (rnd := rnd) u (n2 - n1)).round hr
    have := this.neg
    rwa [neg_num] at this
  obtain ⟨q'', e6, e7⟩ := e5.divBy hr ((divBy_num (rnd := rnd) (u := u) hn).mul hr hR)
  rw [h1] at e6; cases e6
  refine ⟨⟨?_, ?_, ?_, ?_, zero_num hr, rfl, rfl, rfl, ?_⟩, diam_pos_of hr h3⟩
  · simpa [Stage.withOps, Stage.abs, Sys.stage, Sys.interface] using (near_one hr).mono hr.nonneg (by omega : 0 ≤ 4) le_rfl
  · simpa [Stage.withOps, Stage.abs, Sys.stage, Sys.interface] using (near_zero hr).mono hr.nonneg (by omega : 0 ≤ 4) le_rfl
  · have e8 : -((n2 - n1) * curvature R / n2) = -(n2 - n1) * (n2⁻¹ * curvature R) := by field_simp
    have e9 : |-((n2 - n1) * curvature R / n2)| = |n2 - n1| * |n2⁻¹ * curvature R| := by rw [e8, abs_mul, abs_neg]
    simp only [Stage.withOps, Stage.abs, Sys.stage, Sys.interface]
    rw [e9, e8]
    exact e7
  · simp only [Stage.withOps, Stage.abs, Sys.stage, Sys.interface]
    rw [abs_div, div_eq_mul_inv, div_eq_mul_inv, ← abs_inv]
    exact e4.mono hr.nonneg (by omega) le_rfl
  · simp [Mat.Linear]

theorem mkThickOf_R (hr : Rounding rnd u) {kind : Kind (Fl K rnd)} (hk : ∀ n a, kind ≠ .axicon n a) {n t : K} {R1 R2 diam : Option K} {m : Mat (Fl K rnd)}
    (h : mkThickOf kind (num n) (optNum R1) (optNum R2) (num t) (optNum diam) = .ok m) :
    RStageOf u m ⟨(Sys.thick n (curvature R1) (curvature R2) t).stage diam none, thickMaj n (curvature R1) (curvature R2) t diam, 10⟩ ∧
    ∀ D, diam = some D → 0 < D := by
  unfold mkThickOf at h
  obtain ⟨a, ha, h'⟩ := bind_ok h
  obtain ⟨b, hb, h'⟩ := bind_ok h'
  obtain ⟨c, hc, h'⟩ := bind_ok h'
  obtain ⟨d, hd, h'⟩ := bind_ok h'
  unfold thickB at hb
  have hn : n ≠ 0 := by rintro rfl; exact pyDiv_okR hr hb rfl
  unfold thickC at hc
  obtain ⟨i1, c1, hc⟩ := bind_ok hc
  obtain ⟨i2, c2, hc⟩ := bind_ok hc
  obtain ⟨q, c3, hc⟩ := bind_ok hc
  have hR1 : R1 ≠ some 0 := by rintro rfl; exact pyDiv_okR hr c1 rfl
  have hR2 : R2 ≠ some 0 := by rintro rfl; exact pyDiv_okR hr c2 rfl
  unfold thickA at ha
  obtain ⟨qa, a1, ha⟩ := bind_ok ha
  unfold thickD at hd
  obtain ⟨qd, d1, hd⟩ := bind_ok hd
  cases ha; cases hc; cases hd
  obtain ⟨rfl, h3⟩ := init_okF h'
  have one := near_one (rnd := rnd) hr
  rw [one_num hr] at *
  have n1 : Near u 1 (num 1 - num n : Fl K rnd) (1 - n) |1 - n| := by
    rw [num_sub]; exact (near_num (rnd := rnd) u (1 - n)).round hr
  have n2 : Near u 1 (num n - num 1 : Fl K rnd) (n - 1) |n - 1| := by
    rw [num_sub]; exact (near_num (rnd := rnd) u (n - 1)).round hr
  have dn := divBy_num (rnd := rnd) (u := u) hn
  -- A
  obtain ⟨x, ea1, ea2⟩ := ((near_num (rnd := rnd) u t).mul hr n1).divBy hr (dn.mul hr hR1)
  rw [a1] at ea1; cases ea1
  have eA := ea2.add hr (one.mono hr.nonneg (Nat.zero_le _) le_rfl)
  -- B
  obtain ⟨x, eb1, eb2⟩ := (near_num (rnd := rnd) u t).divBy hr dn
  rw [hb] at eb1; cases eb1
  -- D
  obtain ⟨x, ed1, ed2⟩ := ((near_num (rnd := rnd) u t).mul hr n2).divBy hr (dn.mul hr hR2)
  rw [d1] at ed1; cases ed1
  have eD := ed2.add hr (one.mono hr.nonneg (Nat.zero_le _) le_rfl)
  -- C
  obtain ⟨x, ec1, ec2⟩ := one.divBy hr (divBy_opt (rnd := rnd) (u := u) hR1)
  rw [c1] at ec1; cases ec1
  obtain ⟨x, ec3, ec4⟩ := one.divBy hr (divBy_opt (rnd := rnd) (u := u) hR2)
  rw [c2] at ec3; cases ec3
  obtain ⟨x, ec5, ec6⟩ := ((near_num (rnd := rnd) u t).mul hr n2).divBy hr ((dn.mul hr hR1).mul hr hR2)
  rw [c3] at ec5; cases ec5
  have eC := n2.neg.mul hr (((ec2.sub hr ec4).mono hr.nonneg (by omega : _ ≤ 0 + 1 + 1 + (0 + 2 + 2) + 1) le_rfl).add hr ec6)
  rw [Sys.thick_eq _ _ _ hn]
  refine ⟨⟨?_, ?_, ?_, ?_, rfl, rfl, rfl, rfl, ?_⟩, diam_pos_of hr h3⟩
  · simp only [Sys.stage, thickMaj]
    have e1 : t * (1 - n) * (curvature R1 / n) + 1 = t * (1 - n) * (n⁻¹ * curvature R1) + 1 := by field_simp
    have e2 : |t| * |1 - n| * |curvature R1 / n| + 1 = |t| * |1 - n| * |n⁻¹ * curvature R1| + 1 := by
      rw [div_eq_inv_mul]
    simp only [e1, e2]
    exact eA.mono hr.nonneg (by omega) le_rfl
  · simp only [Sys.stage, thickMaj]
    rw [div_eq_mul_inv, abs_mul]
    exact eb2.mono hr.nonneg (by omega) le_rfl
  · simp only [Sys.stage, thickMaj]
    have e1 : -(n - 1) * (curvature R1 - curvature R2 + t * (n - 1) * (curvature R1 * curvature R2 / n)) =
        -(n - 1) * (1 * curvature R1 - 1 * curvature R2 + t * (n - 1) * (n⁻¹ * curvature R1 * curvature R2)) := by
      field_simp
    have e2 : |n - 1| * (|curvature R1| + |curvature R2| + |t| * |n - 1| * |curvature R1 * curvature R2 / n|) =
        |n - 1| * (1 * |curvature R1| + 1 * |curvature R2| + |t| * |n - 1| * |n⁻¹ * curvature R1 * curvature R2|) := by
      rw [one_mul, one_mul, div_eq_inv_mul, mul_assoc n⁻¹]
    simp only [e1, e2]
    exact eC.mono hr.nonneg (by omega) le_rfl
  · simp only [Sys.stage, thickMaj]
    have e1 : t * (n - 1) * (curvature R2 / n) + 1 = t * (n - 1) * (n⁻¹ * curvature R2) + 1 := by field_simp
    have e2 : |t| * |n - 1| * |curvature R2 / n| + 1 = |t| * |n - 1| * |n⁻¹ * curvature R2| + 1 := by
      rw [div_eq_inv_mul]
    simp only [e1, e2]
    exact eD.mono hr.nonneg (by omega) le_rfl
  · exact hk

theorem mkAperture_R (hr : Rounding rnd u) {diam na : Option K} {label : String} {m : Mat (Fl K rnd)}
    (h : mkAperture (optNum diam) (optNum na) label = .ok m) :
    RStageOf u m (((Sys.one 1).stage diam na).withOps 0) ∧ ∀ D, diam = some D → 0 < D := by
  obtain ⟨rfl, h2⟩ := init_okF h
  refine ⟨⟨?_, ?_, ?_, ?_, zero_num hr, rfl, rfl, rfl, ?_⟩, diam_pos_of hr h2⟩
  · simpa [Stage.withOps, Stage.abs, Sys.stage, Sys.one, Mat.one] using near_one hr
  · simpa [Stage.withOps, Stage.abs, Sys.stage, Sys.one, Mat.one] using near_zero hr
  · simpa [Stage.withOps, Stage.abs, Sys.stage, Sys.one, Mat.one] using near_zero hr
  · simpa [Stage.withOps, Stage.abs, Sys.stage, Sys.one, Mat.one] using near_one hr
  · simp [Mat.Linear]

theorem mkMatrix_R (hr : Rounding rnd u) {s : Sys K} {fv bv diam : Option K} {m : Mat (Fl K rnd)}
    (h : Mat.init (genericMatWith num optNum s fv bv diam) = .ok m) :
    RStageOf u m ((s.stage diam none).withOps 0) ∧ ∀ D, diam = some D → 0 < D := by
  obtain ⟨rfl, h2⟩ := init_okF h
  refine ⟨⟨near_num u _, near_num u _, near_num u _, near_num u _, rfl, rfl, rfl, rfl, ?_⟩, diam_pos_of hr h2⟩
  simp [Mat.Linear, genericMatWith, Mat.one]

/-! ## Programs -/

theorem ItemRStages.append {is js : List (Item (Fl K rnd))} {ss ts : List (RStage K)} (h1 : ItemRStages u is ss)
    (h2 : ItemRStages u js ts) : ItemRStages u (is ++ js) (ss ++ ts) := by
  unfold ItemRStages; rw [leaves_append]; exact List.rel_append h1 h2

theorem itemRStages_forget {e : Elem (Fl K rnd)} {ss : List (RStage K)} :
    ItemRStages u e.forget.items ss ↔ ItemRStages u e.items ss := by
  unfold Elem.forget
  split_ifs
  · cases e with
    | group m c es => simp [Elem.setIndices, Elem.items, ItemRStages, leaves]
    | leaf m =>
      have key : ∀ st, RStageOf u { m with frontIndex := (0 : Fl K rnd), backIndex := 0 } st ↔ RStageOf u m st := fun st =>
        ⟨fun h => ⟨h.A, h.B, h.C, h.D, h.L, h.len, h.diam, h.na, h.linear⟩,
         fun h => ⟨h.A, h.B, h.C, h.D, h.L, h.len, h.diam, h.na, h.linear⟩⟩
      simp only [Elem.setIndices, Elem.items, ItemRStages, leaves]
      constructor
      · intro h; cases h with | cons h1 h2 => exact .cons ((key _).1 h1) h2
      · intro h; cases h with | cons h1 h2 => exact .cons ((key _).2 h1) h2
  · rfl

theorem itemRStages_congr {es fs : List (Elem (Fl K rnd))} (h : es.map Elem.forget = fs.map Elem.forget)
    {ss : List (RStage K)} (hs : ItemRStages u (itemsList fs) ss) : ItemRStages u (itemsList es) ss := by
  induction fs generalizing es ss with
  | nil =>
    simp only [List.map_nil, List.map_eq_nil_iff] at h
    subst h; exact hs
  | cons f fs ih =>
    cases es with
    | nil => simp at h
    | cons e es =>
      simp only [List.map_cons, List.cons.injEq] at h
      unfold itemsList at hs ⊢
      unfold ItemRStages at hs
      rw [leaves_append] at hs
      obtain ⟨s1, s2, rfl, h1, h2⟩ : ∃ s1 s2, ss = s1 ++ s2 ∧ List.Forall₂ (RStageOf u) (leaves f.items) s1 ∧
          List.Forall₂ (RStageOf u) (leaves (itemsList fs)) s2 := by
        refine ⟨ss.take (leaves f.items).length, ss.drop (leaves f.items).length, by simp, ?_, ?_⟩
        · exact (List.forall₂_take_append _ _ _ hs.flip).flip
        · exact (List.forall₂_drop_append _ _ _ hs.flip).flip
      refine ItemRStages.append ?_ (ih h.2 h2)
      rw [← itemRStages_forget, h.1, itemRStages_forget]
      exact h1

/-- openings are positive -/
def PosOpenings (ss : List (RStage K)) : Prop := ∀ s ∈ ss, ∀ D, s.exact.diam = some D → 0 < D

theorem single_R {m : Mat (Fl K rnd)} {s : RStage K} {diam : Option K} (hd : s.exact.diam = diam)
    (h : RStageOf u m s ∧ ∀ D, diam = some D → 0 < D) : ItemRStages u (Elem.leaf m).items [s] ∧ PosOpenings [s] := by
  refine ⟨.cons h.1 .nil, ?_⟩
  intro s' hs' D hD
  simp only [List.mem_singleton] at hs'
  subst hs'
  exact h.2 D (hd.symm.trans hD)

mutual
/-- The elements of a system built with rounding behave as its stages, up to errors. -/
theorem buildR_stages (hr : Rounding rnd u) : ∀ {p : Part K} {e : Elem (Fl K rnd)}, p.buildR rnd = .ok e →
    ItemRStages u e.items p.rstages ∧ PosOpenings p.rstages
  | .space d n diam, e, hb => by
    unfold Part.buildR Part.buildWith at hb
    obtain ⟨m, h1, rfl⟩ := Except.map_ok hb
    exact single_R rfl (mkSpace_R hr h1)
  | .lens f diam, e, hb => by
    unfold Part.buildR Part.buildWith at hb
    obtain ⟨m, h1, rfl⟩ := Except.map_ok hb
    exact single_R rfl (mkLens_R hr h1)
  | .mirror R diam, e, hb => by
    unfold Part.buildR Part.buildWith at hb
    obtain ⟨m, h1, rfl⟩ := Except.map_ok hb
    exact single_R rfl (mkCurvedMirror_R hr h1)
  | .interface n1 n2 R diam, e, hb => by
    unfold Part.buildR Part.buildWith at hb
    obtain ⟨m, h1, rfl⟩ := Except.map_ok hb
    exact single_R rfl (mkDielectric_R hr h1)
  | .thickLens n R1 R2 t diam, e, hb => by
    unfold Part.buildR Part.buildWith at hb
    obtain ⟨m, h1, rfl⟩ := Except.map_ok hb
    exact single_R rfl (mkThickOf_R hr (by simp) h1)
  | .slab n t diam, e, hb => by
    unfold Part.buildR Part.buildWith mkSlab at hb
    obtain ⟨m, h1, rfl⟩ := Except.map_ok hb
    exact single_R rfl (mkThickOf_R (R1 := none) (R2 := none) hr (by simp) h1)
  | .aperture diam na label, e, hb => by
    unfold Part.buildR Part.buildWith at hb
    obtain ⟨m, h1, rfl⟩ := Except.map_ok hb
    exact single_R rfl (mkAperture_R hr h1)
  | .matrix s fv bv diam, e, hb => by
    unfold Part.buildR Part.buildWith at hb
    obtain ⟨m, h1, rfl⟩ := Except.map_ok hb
    exact single_R rfl (mkMatrix_R hr h1)
  | .group label ps, e, hb => by
    unfold Part.buildR Part.buildWith at hb
    split at hb
    · simp at hb
    · next es hes =>
      obtain ⟨g, hnew, rfl⟩ := Except.map_ok hb
      obtain ⟨h1, h2⟩ := buildListR_stages hr hes
      exact ⟨itemRStages_congr (Group.new_elems hnew) h1, h2⟩
theorem buildListR_stages (hr : Rounding rnd u) : ∀ {ps : List (Part K)} {es : List (Elem (Fl K rnd))},
    Part.buildListWith num optNum ps = .ok es → ItemRStages u (itemsList es) (Part.rstagesList ps) ∧ PosOpenings (Part.rstagesList ps)
  | [], es, hb => by
    simp only [Part.buildListWith, Except.ok.injEq] at hb; subst hb
    exact ⟨.nil, by simp [PosOpenings, Part.rstagesList]⟩
  | p :: ps, es, hb => by
    unfold Part.buildListWith at hb
    split at hb
    · simp at hb
    · next e he =>
      split at hb
      · simp at hb
      · next es' hes =>
        simp only [Except.ok.injEq] at hb; subst hb
        obtain ⟨h1, h2⟩ := buildR_stages hr (p := p) he
        obtain ⟨h3, h4⟩ := buildListR_stages hr hes
        refine ⟨h1.append h3, ?_⟩
        intro s hs
        simp only [Part.rstagesList, List.mem_append] at hs
        exact hs.elim (h2 s) (h4 s)
end

end RT
