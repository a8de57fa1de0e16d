import Verif.Lemmas.RayDen
import Verif.Lemmas.Elements

/-! # C20-C25: conjugate planes, magnification, foci, principal planes, focal lengths -/

set_option linter.unusedSectionVars false

namespace RT
open PyNum Ext
variable {K : Type} [Field K] [LinearOrder K] [IsStrictOrderedRing K]

/-- Everything the constructor lets through: the determinant is within 1e-5 of the ratio of the indices. -/
def Sys.Accepted (s : Sys K) : Prop := s.nb ≠ 0 ∧ |s.det - s.nf / s.nb| ≤ 1 / 100000

theorem Sys.Lawful.accepted {s : Sys K} (h : s.Lawful) : s.Accepted := by
  refine ⟨h.2.1, ?_⟩
  rw [h.2.2]; simp

theorem eps_cast : ((1 / 100000 : ℚ) : K) = 1 / 100000 := by norm_num

theorem init_accepted {m : Mat (Ext K)} {s : Sys K} (h : Den m s) (hs : s.Accepted)
    (h1 : m.apertureDiameter = pinf) (h2 : m.apertureNA = pinf) (h3 : m.isFlipped = false) :
    Mat.init m = .ok m := by
  rw [init_den h, eps_cast, if_neg (by simp [h1, h2]), if_neg hs.1, if_neg (not_lt.2 hs.2)]
  rw [← h3]

theorem mulMatrix_accepted {m r : Mat (Ext K)} {u : Sys K} (hd : Den (m.mulRaw r) u) (hu : u.Accepted) :
    m.mulMatrix r = .ok (m.mulRaw r) := init_accepted hd hu rfl rfl rfl

/-! ## C20 -/

theorem forwardConjugate_eq {m : Mat (Ext K)} {s : Sys K} (h : Den m s) (hs : s.Accepted) (hd : s.d ≠ 0) :
    ∃ c, m.forwardConjugate = .ok (fin (-s.b / s.d), some c) ∧
      Den c (s.andThen (Sys.space (-s.b / s.d) s.nb)) := by
  have hsp := spaceMat_den (-s.b / s.d) s.nb pinf
  have hden : Den ((spaceMat (fin (-s.b / s.d)) (fin s.nb) pinf).mulRaw m)
      (s.andThen (Sys.space (-s.b / s.d) s.nb)) := by
    convert mulRaw_den hsp h using 1
    unfold Sys.andThen
    simp only [Sys.mk.injEq, true_and]
    by_cases a : (Sys.space (-s.b / s.d) s.nb).IsId
    · rw [if_pos a, if_pos a]; exact ⟨rfl, rfl⟩
    · have b : ¬ s.IsId := by
        rintro ⟨h1, h2, h3, h4⟩
        exact a ⟨rfl, by simp [Sys.space, h2], rfl, rfl⟩
      rw [if_neg a, if_neg a, if_neg b, ite_self]; exact ⟨rfl, rfl⟩
  refine ⟨_, ?_, hden⟩
  unfold Mat.forwardConjugate
  rw [h.D, h.B, h.nb]
  simp only [zero_eq, eq_fin, hd, decide_false, Bool.false_eq_true, if_false, neg_fin, pyDiv_fin _ _ hd,
    bind, Except.bind, inf_eq, mkSpace_eq _ hs.1 diamOk_pinf]
  rw [mulMatrix_accepted hden]
  · rfl
  · refine ⟨hs.1, ?_⟩
    rw [Sys.andThen_det]
    simpa [Sys.space, Sys.det, Sys.andThen] using hs.2

/-- **C20.** `forwardConjugate()` of any accepted system: either `D = 0` and it returns `(inf, None)`, or it returns a
distance `d` and the matrix `M'` of the system followed by `d`; then all the light of an object point at height `y`
is, after `d`, at the height `M'.A * y`, whatever its angle. -/
theorem C20_forwardConjugate {m : Mat (Ext K)} {s : Sys K} (h : Den m s) (hs : s.Accepted) :
    (s.d = 0 ∧ m.forwardConjugate = .ok (inf, none)) ∨
    (s.d ≠ 0 ∧ ∃ x c u, m.forwardConjugate = .ok (fin x, some c) ∧ Den c u ∧
      u.SameABCD (s.andThen (Sys.space x s.nb)) ∧ u.nf = s.nf ∧ u.nb = s.nb ∧
      ∀ y θ, (Sys.space x s.nb).outY (s.outY y θ) (s.outθ y θ) = u.a * y) := by
  by_cases hd : s.d = 0
  · left
    refine ⟨hd, ?_⟩
    unfold Mat.forwardConjugate
    rw [h.D, hd]
    simp [pure, Except.pure]
  · right
    obtain ⟨c, h1, h2⟩ := forwardConjugate_eq h hs hd
    refine ⟨hd, _, c, _, h1, h2, ⟨rfl, rfl, rfl, rfl, rfl⟩, rfl, rfl, fun y θ => ?_⟩
    simp only [Sys.outY, Sys.outθ, Sys.space, Sys.andThen]
    field_simp
    ring

/-- **C20.** When `D = 0` there is no image plane at a finite distance: no distance makes the height independent of
the angle. -/
theorem C20_no_image {s : Sys K} (hs : s.Lawful) (hd : s.d = 0) (x : K) :
    ∃ y θ θ', (Sys.space x s.nb).outY (s.outY y θ) (s.outθ y θ) ≠
      (Sys.space x s.nb).outY (s.outY y θ') (s.outθ y θ') := by
  refine ⟨0, 0, 1, ?_⟩
  have hdet : s.det ≠ 0 := by rw [hs.2.2]; exact div_ne_zero hs.1 hs.2.1
  have hb : s.b ≠ 0 := by
    intro hb; apply hdet; simp [Sys.det, hb, hd]
  simpa [Sys.outY, Sys.outθ, Sys.space, hd] using hb.symm

/-- 10 in front of a lens of focal length 5: image at 10 with magnification -1 -/
example : (do
      let m ← (lensMat (5 : ℚ) pinf).mulMatrix (spaceMat (fin 10) (fin 1) pinf)
      let r ← m.forwardConjugate
      pure (r.1, r.2.map (·.A), r.2.map (·.B))) = (.ok (fin 10, some (fin (-1)), some (fin 0)) : Except PyErr _) := by
  decide +kernel

/-! ## C21 -/

theorem backwardConjugate_eq {m : Mat (Ext K)} {s : Sys K} (h : Den m s) (hs : s.Accepted) (hn : s.nf = 1)
    (ha : s.a ≠ 0) :
    ∃ c, m.backwardConjugate = .ok (fin (-s.b / s.a), c) ∧
      c.A = fin s.a ∧ c.B = fin 0 ∧ c.C = fin s.c ∧ c.D = fin ((Sys.space (-s.b / s.a) 1).andThen s).d ∧
      c.L = fin (-s.b / s.a + s.len) := by
  have hsp := spaceMat_den (-s.b / s.a) 1 pinf
  have hraw := mulRaw_den h hsp
  refine ⟨{ (m.mulRaw (spaceMat (fin (-s.b / s.a)) (fin 1) pinf)) with B := 0 }, ?_, ?_, ?_, ?_, ?_, ?_⟩
  · unfold Mat.backwardConjugate
    rw [h.A, h.B]
    simp only [zero_eq, eq_fin, ha, decide_false, Bool.not_false, if_true, neg_fin, pyDiv_fin _ _ ha,
      bind, Except.bind, inf_eq, one_eq, mkSpace_eq _ one_ne_zero diamOk_pinf]
    rw [mulMatrix_accepted hraw]
    · rfl
    · constructor
      · dsimp only
        split_ifs
        · simp [Sys.space]
        · exact hs.1
        · exact hs.1
      · dsimp only
        have hdet : ∀ nf nb, ({ ((Sys.space (-s.b / s.a) 1).andThen s) with nf := nf, nb := nb } : Sys K).det
            = s.det := by
          intro nf nb
          change ((Sys.space (-s.b / s.a) 1).andThen s).det = _
          rw [Sys.andThen_det]; simp [Sys.space, Sys.det]
        rw [hdet]
        by_cases a : s.IsId
        · have : s.det = 1 := by obtain ⟨h1, h2, h3, h4⟩ := a; simp [Sys.det, h1, h2, h3, h4]
          simp [a, this, Sys.space]
        · by_cases b : (Sys.space (-s.b / s.a) 1).IsId
          · simpa [a, b] using hs.2
          · have : (Sys.space (-s.b / s.a) (1 : K)).nf = s.nf := hn.symm
            simpa [a, b, this] using hs.2
  · dsimp only; rw [hraw.A]; simp [Sys.andThen, Sys.space]
  · simp
  · dsimp only; rw [hraw.C]; simp [Sys.andThen, Sys.space]
  · dsimp only; rw [hraw.D]
  · dsimp only; rw [hraw.L]; simp [Sys.andThen, Sys.space]

/-- **C21**, for systems in air in front (`frontIndex = 1`) with `A ≠ 0`. Missing: other front indices, where the
code raises (see `C21_frontIndex_violated`); `A = 0` is `C21_at_infinity`. `backwardConjugate()` returns a distance `x`
and the matrix `M'` from the plane `x` in front of the system to its end; all the light of a point at height `y`
of that plane reaches the end at the height `M'.A * y`. -/
theorem C21_backwardConjugate_partial {m : Mat (Ext K)} {s : Sys K} (h : Den m s) (hs : s.Accepted)
    (hn : s.nf = 1) (ha : s.a ≠ 0) :
    ∃ x c, m.backwardConjugate = .ok (fin x, c) ∧
      (∀ y θ, s.outY ((Sys.space x s.nf).outY y θ) ((Sys.space x s.nf).outθ y θ) = s.a * y) ∧
      c.A = fin ((Sys.space x s.nf).andThen s).a ∧ c.B = fin ((Sys.space x s.nf).andThen s).b ∧
      c.C = fin ((Sys.space x s.nf).andThen s).c ∧ c.D = fin ((Sys.space x s.nf).andThen s).d ∧
      c.L = fin (x + s.len) := by
  obtain ⟨c, h1, h2, h3, h4, h5, h6⟩ := backwardConjugate_eq h hs hn ha
  have e : s.a * (-s.b / s.a) + s.b = 0 := by field_simp; ring
  refine ⟨_, c, h1, ?_, ?_, ?_, ?_, ?_, h6⟩
  · intro y θ
    simp only [Sys.outY, Sys.outθ, Sys.space]
    linear_combination θ * e
  · rw [h2]; simp [Sys.andThen, Sys.space]
  · rw [h3]; simp only [Sys.andThen, Sys.space]; rw [mul_one, e]
  · rw [h4]; simp [Sys.andThen, Sys.space]
  · rw [h5]; rfl

/-- **C21** is violated in front of any other medium: for every consistent system with `A ≠ 0`, `B ≠ 0` whose
front index differs from 1 by more than the tolerance, `backwardConjugate()` raises `ValueError` although the object
plane exists. -/
theorem C21_frontIndex_violated {m : Mat (Ext K)} {s : Sys K} (h : Den m s) (hs : s.Lawful)
    (ha : s.a ≠ 0) (hb : s.b ≠ 0) (hn : 1 / 100000 * |s.nb| < |s.nf - 1|) :
    m.backwardConjugate = .error .valueError ∧
    ∃ x, ∀ y θ, s.outY ((Sys.space x s.nf).outY y θ) ((Sys.space x s.nf).outθ y θ) = s.a * y := by
  constructor
  · have hsp := spaceMat_den (-s.b / s.a) 1 pinf
    have hraw := mulRaw_den h hsp
    have hid : ¬ s.IsId := fun ⟨_, h2, _, _⟩ => hb h2
    have hid' : ¬ (Sys.space (-s.b / s.a) (1 : K)).IsId := by
      rintro ⟨_, h2, _, _⟩
      have : -s.b / s.a = 0 := h2
      simp [hb, ha] at this
    unfold Mat.backwardConjugate
    rw [h.A, h.B]
    simp only [zero_eq, eq_fin, ha, decide_false, Bool.not_false, if_true, neg_fin, pyDiv_fin _ _ ha,
      bind, Except.bind, inf_eq, one_eq, mkSpace_eq _ one_ne_zero diamOk_pinf]
    have : m.mulMatrix (spaceMat (fin (-s.b / s.a)) (fin 1) pinf) = .error .valueError := by
      unfold Mat.mulMatrix
      rw [init_den hraw]
      have e1 : ((m.mulRaw (spaceMat (fin (-s.b / s.a)) (fin 1) pinf)).apertureDiameter ≤. 0) = false := by
        simp [Mat.mulRaw, Mat.one]
      have e2 : ((m.mulRaw (spaceMat (fin (-s.b / s.a)) (fin 1) pinf)).apertureNA ≤. 0) = false := by
        simp [Mat.mulRaw, Mat.one]
      have hdet : ∀ nf nb, ({ ((Sys.space (-s.b / s.a) 1).andThen s) with nf := nf, nb := nb } : Sys K).det
            = s.nf / s.nb := by
        intro nf nb
        change ((Sys.space (-s.b / s.a) 1).andThen s).det = _
        rw [Sys.andThen_det, hs.2.2]; simp [Sys.space, Sys.det]
      rw [hdet]
      simp only [e1, e2, hid, hid', if_false, eps_cast, Bool.false_eq_true, or_self, hs.2.1]
      rw [if_pos]
      have hnb : 0 < |s.nb| := abs_pos.2 hs.2.1
      have : s.nf / s.nb - (Sys.space (-s.b / s.a) (1 : K)).nf / s.nb = (s.nf - 1) / s.nb := by
        simp only [Sys.space]; ring
      rw [this, abs_div, lt_div_iff₀ hnb]
      exact hn
    rw [this]
  · refine ⟨-s.b / s.a, fun y θ => ?_⟩
    simp only [Sys.outY, Sys.outθ, Sys.space]
    field_simp
    ring

/-- **C21.** When `A = 0` the object plane is at infinity: the distance returned is `inf`, and the entries reported
are those of the limit (`A = B = 0`). -/
theorem C21_at_infinity {m : Mat (Ext K)} {s : Sys K} (h : Den m s) (hs : s.Lawful) (ha : s.a = 0) :
    ∃ c, m.backwardConjugate = .ok (pinf, c) ∧ c.A = fin 0 ∧ c.B = fin 0 ∧ c.C = fin s.c := by
  have hdet : s.det ≠ 0 := by rw [hs.2.2]; exact div_ne_zero hs.1 hs.2.1
  have hc : s.c ≠ 0 := by intro hc; apply hdet; simp [Sys.det, ha, hc]
  have hsp : mkSpace (pinf : Ext K) 1 pinf = .ok (spaceMat pinf (fin 1) pinf) := by
    unfold mkSpace Mat.init
    simp [Mat.determinant, Mat.one, pyDiv, areAbsolutelyNotEqual, eps_eq, bind, Except.bind, pure, Except.pure,
      spaceMat]
  have hnan : (nan : Ext K) + fin s.b = nan := rfl
  have hinf : infOf (0 : K) = nan := by simp [infOf]
  have hraw : m.mulMatrix (spaceMat pinf (fin 1) pinf) = .ok (m.mulRaw (spaceMat pinf (fin 1) pinf)) := by
    have hidm : m.isIdentity = false := by simp [Mat.isIdentity, h.A, ha]
    have hids : (spaceMat (pinf : Ext K) (fin 1) pinf).isIdentity = false := by
      simp [Mat.isIdentity, spaceMat]
    have h1 : ∀ x : Ext K, (nan : Ext K) - x = nan := fun x => by cases x <;> rfl
    have h2 : ∀ x : Ext K, x - (nan : Ext K) = nan := fun x => by cases x <;> rfl
    have h3 : ∀ x : Ext K, (nan : Ext K) * x = nan := fun x => by cases x <;> rfl
    have h4 : m.mulRaw (spaceMat pinf (fin 1) pinf) = { m.mulRaw (spaceMat pinf (fin 1) pinf) with
      A := fin 0, B := nan, C := fin s.c } := by
      simp [Mat.mulRaw, spaceMat, h.A, h.B, h.C, h.D, ha, hinf, hnan]
    unfold Mat.mulMatrix
    rw [h4]
    unfold Mat.init
    simp [Mat.determinant, hc, h1, h2, h3, pyDiv, areAbsolutelyNotEqual, bind, Except.bind, pure, Except.pure,
      Mat.mulRaw, Mat.mulBackIndex, Mat.mulFrontIndex, hidm, hids, h.nb, hs.2.1, Mat.one]
  refine ⟨{ m.mulRaw (spaceMat pinf (fin 1) pinf) with B := 0 }, ?_, ?_, ?_, ?_⟩
  · unfold Mat.backwardConjugate
    rw [h.A, ha]
    simp only [zero_eq, eq_fin, decide_true, Bool.not_true, Bool.false_eq_true, if_false, pure, Except.pure,
      bind, Except.bind, inf_eq, hsp, hraw]
  · simp [Mat.mulRaw, spaceMat, h.A, h.B, ha]
  · simp
  · simp [Mat.mulRaw, spaceMat, h.C, h.D]

/-- the hypotheses of the three theorems are met by 10 in front of a lens, 10 of glass, and a back focal plane -/
example : (Sys.space (10 : ℚ) 1).andThen (Sys.lens 5) = ⟨-1 + 2, 10, -1/5, -1, 10, 1, 1⟩ ∧
    (1 : ℚ) / 100000 * |(Sys.space (10 : ℚ) (3/2)).nb| < |(Sys.space (10 : ℚ) (3/2)).nf - 1| ∧
    ((Sys.lens (5 : ℚ)).andThen (Sys.space 5 1)).a = 0 := by
  refine ⟨?_, ?_, ?_⟩ <;> norm_num [Sys.andThen, Sys.space, Sys.lens, abs_of_pos]

/-! ## C22 -/

/-- **C22.** The magnifications are reported exactly when `|B| < 1e-5`; then an object of height `y` is imaged within
`1e-5 * |θ|` of `magnification * y`, and the product of the two magnifications is `frontIndex/backIndex` up to `B*C`
(exactly, for an exact image). -/
theorem C22_magnification {m : Mat (Ext K)} {s : Sys K} (h : Den m s) (hs : s.Lawful) :
    (m.magnification = none ↔ 1 / 100000 ≤ |s.b|) ∧
    (∀ mt ma, m.magnification = some (mt, ma) →
      ∃ t a, mt = fin t ∧ ma = fin a ∧ t * a = s.nf / s.nb + s.b * s.c ∧ (s.b = 0 → t * a = s.nf / s.nb) ∧
        ∀ y θ, |s.outY y θ - t * y| ≤ 1 / 100000 * |θ|) := by
  have hi : m.isImaging = decide (|s.b| < 1 / 100000) := by
    simp [Mat.isImaging, isAlmostZero, h.B, eps_eq]
  unfold Mat.magnification
  rw [hi]
  by_cases hb : |s.b| < 1 / 100000
  · simp only [hb, decide_true, if_true, reduceCtorEq, false_iff, not_le, true_and, Option.some.injEq, Prod.mk.injEq]
    rintro mt ma ⟨rfl, rfl⟩
    have hdet : s.a * s.d = s.nf / s.nb + s.b * s.c := by
      have := hs.2.2; simp only [Sys.det] at this; linear_combination this
    refine ⟨s.a, s.d, h.A, h.D, hdet, fun h0 => by rw [hdet, h0]; ring, fun y θ => ?_⟩
    have : s.outY y θ - s.a * y = s.b * θ := by simp only [Sys.outY]; ring
    rw [this, abs_mul]
    exact mul_le_mul_of_nonneg_right hb.le (abs_nonneg _)
  · rw [decide_eq_false hb]
    exact ⟨⟨fun _ => not_lt.1 hb, fun _ => rfl⟩, fun _ _ h => absurd h (by simp)⟩

example : (Mat.one : Mat (Ext ℚ)).magnification = some (1, 1) ∧ (spaceMat (fin (1:ℚ)) (fin 1) pinf).magnification = none := by
  decide +kernel

/-! ## C23 -/

theorem hasPower_den {m : Mat (Ext K)} {s : Sys K} (h : Den m s) :
    m.hasPower = decide (1 / 100000 < |s.c|) := by
  simp [Mat.hasPower, isNotZero, h.C, eps_eq]

theorem power_ne {s : Sys K} (hc : 1 / 100000 < |s.c|) : s.c ≠ 0 := by
  intro h; rw [h, abs_zero] at hc
  exact absurd hc (not_lt.2 (by positivity))

theorem effectiveFocalLengths_eq {m : Mat (Ext K)} {s : Sys K} (h : Den m s) (hb : s.nb ≠ 0)
    (hc : 1 / 100000 < |s.c|) :
    m.effectiveFocalLengths = .ok (fin (-(s.nf / s.nb) / s.c), fin (-1 / s.c)) := by
  unfold Mat.effectiveFocalLengths
  rw [hasPower_den h, h.C, h.nf, h.nb, decide_eq_true hc]
  simp [pyDiv_fin, power_ne hc, hb, bind, Except.bind, pure, Except.pure]

theorem principalPlanePositions_eq {m : Mat (Ext K)} {s : Sys K} (h : Den m s) (hb : s.nb ≠ 0)
    (hc : 1 / 100000 < |s.c|) (z : K) :
    m.principalPlanePositions (fin z) =
      .ok (some (fin (z - (s.nf / s.nb - s.d) / s.c), fin (z + s.len + (1 - s.a) / s.c))) := by
  unfold Mat.principalPlanePositions
  rw [hasPower_den h, h.C, h.nf, h.nb, h.D, h.A, h.L, decide_eq_true hc]
  simp [pyDiv_fin, power_ne hc, hb, bind, Except.bind, pure, Except.pure]

theorem focusPositions_eq {m : Mat (Ext K)} {s : Sys K} (h : Den m s) (hb : s.nb ≠ 0)
    (hc : 1 / 100000 < |s.c|) (z : K) :
    m.focusPositions (fin z) = .ok (some (fin (z + s.d / s.c), fin (z + s.len - s.a / s.c))) := by
  unfold Mat.focusPositions
  rw [hasPower_den h, effectiveFocalLengths_eq h hb hc, principalPlanePositions_eq h hb hc]
  have := power_ne hc
  simp only [hc, decide_true, if_true, bind, Except.bind, pure, Except.pure, fin_sub_fin, fin_add_fin]
  refine congrArg Except.ok (congrArg some (Prod.ext (congrArg fin ?_) (congrArg fin ?_))) <;>
    (field_simp; ring)

/-- **C23.** For a system with power above the tolerance of the code, the reported positions `(z1, z2)` are the
foci: a ray parallel to the axis is on the axis at `z2`, and only there; a ray from the axial point at `z1` leaves
parallel to the axis. `z` is the position of the front edge of the system. -/
theorem C23_foci_partial {m : Mat (Ext K)} {s : Sys K} (h : Den m s) (hb : s.nb ≠ 0)
    (hc : 1 / 100000 < |s.c|) (z : K) :
    ∃ z1 z2, m.focusPositions (fin z) = .ok (some (fin z1, fin z2)) ∧
      (∀ y, y ≠ 0 → ∀ x, (Sys.space (x - (z + s.len)) s.nb).outY (s.outY y 0) (s.outθ y 0) = 0 ↔ x = z2) ∧
      (∀ θ, s.outθ ((Sys.space (z - z1) s.nf).outY 0 θ) ((Sys.space (z - z1) s.nf).outθ 0 θ) = 0) := by
  refine ⟨_, _, focusPositions_eq h hb hc z, fun y hy x => ?_, fun θ => ?_⟩
  · have := power_ne hc
    simp only [Sys.outY, Sys.outθ, Sys.space]
    constructor
    · intro hx
      have h1 : y * (s.a + (x - (z + s.len)) * s.c) = 0 := by linear_combination hx
      have h2 := (mul_eq_zero.1 h1).resolve_left hy
      field_simp
      linear_combination h2
    · rintro rfl
      field_simp
      ring
  · have := power_ne hc
    simp only [Sys.outY, Sys.outθ, Sys.space]
    field_simp
    ring

/-- **C23** is violated for weak systems: any system with a power that is not zero but at most 1e-5 (a lens with a
focal length of 100000 or more) reports no focus, although parallel rays do cross the axis at a definite place. -/
theorem C23_weak_power_violated {m : Mat (Ext K)} {s : Sys K} (h : Den m s) (h0 : s.c ≠ 0)
    (hc : |s.c| ≤ 1 / 100000) (z : K) :
    m.focusPositions (fin z) = .ok none ∧
    ∃ x, ∀ y, (Sys.space x s.nb).outY (s.outY y 0) (s.outθ y 0) = 0 := by
  constructor
  · unfold Mat.focusPositions
    rw [hasPower_den h]
    have : ¬ (1 / 100000 < |s.c|) := not_lt.2 hc
    rw [decide_eq_false this]
    rfl
  · refine ⟨-s.a / s.c, fun y => ?_⟩
    simp only [Sys.outY, Sys.outθ, Sys.space]
    field_simp
    ring

/-- **C23.** A thin lens of focal length `f` (below 100000) in front of which light comes: effective, back and front
focal lengths are all `f`. -/
theorem C23_lens {f : K} (hf : f ≠ 0) (hf' : |f| < 100000) (diam : Ext K) :
    (lensMat f diam).effectiveFocalLengths = .ok (fin f, fin f) ∧
    (lensMat f diam).backFocalLength = .ok (some (fin f)) ∧
    (lensMat f diam).frontFocalLength = .ok (some (fin f)) := by
  have hd := lensMat_den f diam
  have hc : 1 / 100000 < |(Sys.lens f).c| := by
    simp only [Sys.lens, abs_div, abs_neg, abs_one]
    exact one_div_lt_one_div_of_lt (abs_pos.2 hf) hf'
  have hb : (Sys.lens f).nb ≠ 0 := one_ne_zero
  have e1 := effectiveFocalLengths_eq hd hb hc
  have e2 := principalPlanePositions_eq hd hb hc 0
  have e3 := hasPower_den hd
  simp only [hc, decide_true] at e3
  have e4 : (-((1 : K) / 1) / (-1 / f)) = f := by field_simp
  have e5 : (-(1 : K) / (-1 / f)) = f := by field_simp
  refine ⟨?_, ?_, ?_⟩
  · rw [e1]; simp only [Sys.lens, e4, e5]
  · unfold Mat.backFocalLength
    rw [e3, e1, zero_eq, e2]
    simp [lensMat, Sys.lens, bind, Except.bind, pure, Except.pure, e5]
  · unfold Mat.frontFocalLength
    rw [e3, e1, zero_eq, e2]
    simp only [Sys.lens, e4]
    simp [lensMat, bind, Except.bind, pure, Except.pure]

example : (lensMat (50 : ℚ) pinf).focusPositions (fin 0) = .ok (some (fin (-50), fin 50)) := by decide +kernel
example : (0 : ℚ) ≠ (Sys.lens (200000 : ℚ)).c ∧ |(Sys.lens (200000 : ℚ)).c| ≤ 1 / 100000 := by
  norm_num [Sys.lens, abs_of_neg]

/-! ## C24 -/

/-- **C24.** For a consistent system with power, the matrix from the plane at the reported front principal position to the
plane at the back one has `A = 1` and `B = 0`: conjugate planes with unit magnification. The focal lengths reported
are the distances from those planes to the foci, and are in the ratio of the indices. -/
theorem C24_principal_planes {m : Mat (Ext K)} {s : Sys K} (h : Den m s) (hs : s.Lawful)
    (hc : 1 / 100000 < |s.c|) (z : K) :
    ∃ p1 p2 f1 f2 z1 z2, m.principalPlanePositions (fin z) = .ok (some (fin p1, fin p2)) ∧
      m.effectiveFocalLengths = .ok (fin f1, fin f2) ∧
      m.focusPositions (fin z) = .ok (some (fin z1, fin z2)) ∧
      (let t := ((Sys.space (z - p1) s.nf).andThen s).andThen (Sys.space (p2 - (z + s.len)) s.nb)
       t.a = 1 ∧ t.b = 0) ∧
      z1 = p1 - f1 ∧ z2 = p2 + f2 ∧ f1 * s.nb = f2 * s.nf := by
  have h0 := power_ne hc
  have hb := hs.2.1
  have hdet := hs.2.2
  simp only [Sys.det] at hdet
  refine ⟨_, _, _, _, _, _, principalPlanePositions_eq h hb hc z, effectiveFocalLengths_eq h hb hc,
    focusPositions_eq h hb hc z, ⟨?_, ?_⟩, ?_, ?_, ?_⟩
  · simp only [Sys.andThen, Sys.space]; field_simp; ring
  · rw [eq_comm, div_eq_iff hb] at hdet
    simp only [Sys.andThen, Sys.space]; field_simp
    linear_combination hdet
  · field_simp; ring
  · field_simp; ring
  · field_simp

/-- a thick lens in glass on one side meets the hypotheses -/
example : (Sys.interface (1 : ℚ) (3/2) (1/10)).Lawful ∧ 1 / 100000 < |(Sys.interface (1 : ℚ) (3/2) (1/10)).c| := by
  refine ⟨Sys.interface_lawful _ (by norm_num) (by norm_num), ?_⟩
  norm_num [Sys.interface, abs_of_neg]

/-! ## C25 -/

/-- **C25.** `backFocalLength()` is the distance from the last vertex to the place where parallel light crosses the
axis; `frontFocalLength()` the distance from the point whose light leaves parallel to the first vertex. -/
theorem C25_focal_lengths {m : Mat (Ext K)} {s : Sys K} (h : Den m s) (hb : s.nb ≠ 0)
    (hc : 1 / 100000 < |s.c|) {fv bv : K} (hfv : m.frontVertex = some (fin fv))
    (hbv : m.backVertex = some (fin bv)) :
    ∃ ffl bfl, m.frontFocalLength = .ok (some (fin ffl)) ∧ m.backFocalLength = .ok (some (fin bfl)) ∧
      (∀ y, (Sys.space (bv + bfl - s.len) s.nb).outY (s.outY y 0) (s.outθ y 0) = 0) ∧
      (∀ θ, s.outθ ((Sys.space (ffl - fv) s.nf).outY 0 θ) ((Sys.space (ffl - fv) s.nf).outθ 0 θ) = 0) := by
  have h0 := power_ne hc
  have e1 := effectiveFocalLengths_eq h hb hc
  have e2 := principalPlanePositions_eq h hb hc 0
  have e3 := hasPower_den h
  simp only [hc, decide_true] at e3
  refine ⟨fv - s.d / s.c, s.len - s.a / s.c - bv, ?_, ?_, fun y => ?_, fun θ => ?_⟩
  · unfold Mat.frontFocalLength
    rw [e3, e1, zero_eq, e2, hfv]
    simp only [if_true, bind, Except.bind, pure, Except.pure, fin_sub_fin, neg_fin]
    congr 3
    field_simp
    ring
  · unfold Mat.backFocalLength
    rw [e3, e1, zero_eq, e2, hbv]
    simp only [if_true, bind, Except.bind, pure, Except.pure, fin_sub_fin, fin_add_fin]
    congr 3
    field_simp
    ring
  · simp only [Sys.outY, Sys.outθ, Sys.space]; field_simp; ring
  · simp only [Sys.outY, Sys.outθ, Sys.space]; field_simp; ring

/-- **C25.** They are `None` exactly when the system has no vertex or no power above the tolerance. -/
theorem C25_none_iff {m : Mat (Ext K)} {s : Sys K} (h : Den m s) (hb : s.nb ≠ 0) :
    (m.backFocalLength = .ok none ↔ m.backVertex = none ∨ |s.c| ≤ 1 / 100000) ∧
    (m.frontFocalLength = .ok none ↔ m.frontVertex = none ∨ |s.c| ≤ 1 / 100000) := by
  have e3 := hasPower_den h
  by_cases hc : 1 / 100000 < |s.c|
  · have e1 := effectiveFocalLengths_eq h hb hc
    have e2 := principalPlanePositions_eq h hb hc 0
    simp only [hc, decide_true] at e3
    have hc' : ¬ |s.c| ≤ 1 / 100000 := not_le.2 hc
    unfold Mat.backFocalLength Mat.frontFocalLength
    rw [e3, e1, zero_eq, e2]
    constructor
    · cases m.backVertex <;> simp [bind, Except.bind, pure, Except.pure]
      simpa using hc
    · cases m.frontVertex <;> simp [bind, Except.bind, pure, Except.pure]
      simpa using hc
  · simp only [hc, decide_false] at e3
    unfold Mat.backFocalLength Mat.frontFocalLength
    rw [e3]
    have := not_lt.1 hc
    constructor
    · cases m.backVertex <;> simp [pure, Except.pure]
      simpa using this
    · cases m.frontVertex <;> simp [pure, Except.pure]
      simpa using this

example : (lensMat (50 : ℚ) pinf).backFocalLength = .ok (some (fin 50)) ∧
    (spaceMat (fin (10 : ℚ)) (fin 1) pinf).backFocalLength = .ok none := by decide +kernel

end RT
