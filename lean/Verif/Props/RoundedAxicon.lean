import Verif.Lemmas.RoundedAccept
import Verif.Model.Components
import Verif.Lemmas.Double
import Verif.Props.Rounded

/-! # C132: axicons in floats -/

set_option linter.unusedSectionVars false

namespace RT
open PyNum Ext Fl
variable {K : Type} [Field K] [LinearOrder K] [IsStrictOrderedRing K]
variable {rnd : K → K} {u : K}

/-- a ray of floats at height `y`, angle `θ` and position `z` -/
structure FloatRay (rnd : K → K) (r : Ray (Fl K rnd)) (y θ z : K) : Prop where
  yFloat : rnd y = y
  thetaFloat : rnd θ = θ
  zFloat : rnd z = z
  y : r.y = num y
  theta : r.theta = num θ
  z : r.z = num z

/-- **C132.** In floats an axicon can be made with any index and angle; the diameter must be positive (or infinite). -/
theorem C132_made (hr : Rounding rnd u) (alpha n : K) (diam : Option K) :
    (∃ m, mkAxicon (num alpha : Fl K rnd) (num n) (optNum diam) = .ok m) ↔ OpenDiam diam := by
  constructor
  · rintro ⟨m, h⟩ D rfl
    unfold mkAxicon Mat.init at h
    by_contra hD
    have : ((optNum (some D) : Fl K rnd) ≤. 0) = true := by
      rw [zero_num hr]
      change ((num D : Fl K rnd) ≤. num 0) = true
      rw [le_num]; simpa using hD
    simp [this, bind, Except.bind, throw, throwThe, MonadExceptOf.throw] at h
  · intro h
    exact ⟨_, simple_accepts hr (m := { (Mat.one : Mat (Fl K rnd)) with apertureDiameter := optNum diam, kind := .axicon (num n) (num alpha) })
      rfl rfl (.inl rfl) ⟨one_num hr, one_num hr⟩ (le_zeroR hr h) (inf_openR hr)⟩

theorem axicon_okF {alpha n diam : Fl K rnd} {m : Mat (Fl K rnd)} (h : mkAxicon alpha n diam = .ok m) :
    m = { (Mat.one : Mat (Fl K rnd)) with apertureDiameter := diam, kind := .axicon n alpha } := by
  unfold mkAxicon at h
  exact (init_okF h).1

/-- the deviation, with two roundings -/
theorem deviation_near (hr : Rounding rnd u) (n alpha : K) :
    Fl.Near u 2 (deviationAngle (num n : Fl K rnd) (num alpha)) ((n - 1) * alpha) (|n - 1| * |alpha|) := by
  unfold deviationAngle
  rw [one_num hr, num_sub]
  exact ((near_num (rnd := rnd) u (n - 1)).round hr).mul hr (near_num u alpha)

/-- what a ray that is not blocked becomes before its angle is changed -/
theorem axicon_base (hr : Rounding rnd u) {alpha n : K} {diam : Option K} {m : Mat (Fl K rnd)}
    (h : mkAxicon (num alpha : Fl K rnd) (num n) (optNum diam) = .ok m) {r : Ray (Fl K rnd)} {y θ z : K} (hf : FloatRay rnd r y θ z)
    (hb : r.isBlocked = false) :
    (m.mulRay r).y = num y ∧ (m.mulRay r).z = num z ∧ (m.mulRay r).theta = axiconTurn (num n) (num alpha) (num y) (num θ) ∧
      (m.mulRay r).isBlocked = (half (optNum diam : Fl K rnd) <. num |y|) := by
  have hm := axicon_okF h
  have e1 : (1 : Fl K rnd) * num y + 0 * num θ = num y := by
    rw [one_num hr, zero_num hr, num_mul, num_mul, num_add, one_mul, zero_mul, hr.zero, add_zero, hf.yFloat, hf.yFloat]
  have e2 : (0 : Fl K rnd) * num y + 1 * num θ = num θ := by
    rw [one_num hr, zero_num hr, num_mul, num_mul, num_add, one_mul, zero_mul, hr.zero, zero_add, hf.thetaFloat, hf.thetaFloat]
  have e3 : (0 : Fl K rnd) + num z = num z := by
    rw [zero_num hr, num_add, zero_add, hf.zFloat]
  have e4 : ((inf : Fl K rnd) <. num |θ|) = false := rfl
  rw [hm]
  refine ⟨?_, ?_, ?_, ?_⟩
  · simp only [Mat.mulRay, Mat.mulRayBase, hb, hf.y, hf.theta, Mat.one, Bool.false_eq_true, if_false, e1]
  · simp only [Mat.mulRay, Mat.mulRayBase, hb, hf.z, Mat.one, Bool.false_eq_true, if_false, e3]
  · simp only [Mat.mulRay, Mat.mulRayBase, hb, hf.y, hf.theta, Mat.one, Bool.false_eq_true, if_false, e2]
  · simp only [Mat.mulRay, Mat.mulRayBase, hb, hf.y, hf.theta, Mat.one, Bool.false_eq_true, if_false, Mat.stops, abs_num, e4, Bool.or_false]
    split_ifs with hc
    · exact hc.symm
    · exact (Bool.eq_false_of_not_eq_true hc).symm

/-- **C132.** A ray of floats that is not blocked leaves an axicon at exactly the same height and position. Its angle is the exact one up to three roundings, towards the
axis on both sides; a ray on the axis keeps its angle exactly. It is blocked exactly when its height exceeds half the diameter, as rounded. -/
theorem C132_ray (hr : Rounding rnd u) {alpha n : K} {diam : Option K} {m : Mat (Fl K rnd)}
    (h : mkAxicon (num alpha : Fl K rnd) (num n) (optNum diam) = .ok m) {r : Ray (Fl K rnd)} {y θ z : K} (hf : FloatRay rnd r y θ z)
    (hb : r.isBlocked = false) :
    (m.mulRay r).y = num y ∧ (m.mulRay r).z = num z ∧
    (0 < y → ∃ θ', (m.mulRay r).theta = num θ' ∧ |θ' - (θ - (n - 1) * alpha)| ≤ relErr u 3 * (|θ| + |n - 1| * |alpha|)) ∧
    (y < 0 → ∃ θ', (m.mulRay r).theta = num θ' ∧ |θ' - (θ + (n - 1) * alpha)| ≤ relErr u 3 * (|θ| + |n - 1| * |alpha|)) ∧
    (y = 0 → (m.mulRay r).theta = num θ) ∧
    ((m.mulRay r).isBlocked = true ↔ ∃ d, diam = some d ∧ rnd (d / 2) < |y|) := by
  obtain ⟨h1, h2, h3, h4⟩ := axicon_base hr h hf hb
  have dev := deviation_near (rnd := rnd) hr n alpha
  have th : Fl.Near u 2 (num θ : Fl K rnd) θ |θ| := (near_num u θ).mono hr.nonneg (by omega) le_rfl
  refine ⟨h1, h2, fun hy => ?_, fun hy => ?_, fun hy => ?_, ?_⟩
  · obtain ⟨x, ex, -, hx⟩ := th.add hr dev.neg
    refine ⟨x, ?_, by rwa [sub_eq_add_neg θ]⟩
    rw [h3]; unfold axiconTurn
    rw [zero_num hr, lt_num, if_pos (by simpa using hy)]
    exact ex
  · obtain ⟨x, ex, -, hx⟩ := th.add hr dev
    refine ⟨x, ?_, hx⟩
    rw [h3]; unfold axiconTurn
    rw [zero_num hr, lt_num, lt_num, if_neg (by simpa using hy.le), if_pos (by simpa using hy)]
    exact ex
  · rw [h3]; unfold axiconTurn
    rw [zero_num hr, lt_num, lt_num, if_neg (by simp [hy]), if_neg (by simp [hy])]
  · rw [h4]
    cases diam with
    | none =>
      have : half (optNum none : Fl K rnd) = ⟨.pinf⟩ := half_inf hr
      rw [this]
      constructor
      · intro hc; cases hc
      · rintro ⟨d, hd, -⟩; cases hd
    | some d =>
      have : half (optNum (some d) : Fl K rnd) = num (rnd (d / 2)) := half_num hr d
      rw [this, lt_num, decide_eq_true_eq]
      simp

/-- **C132.** With a rounding that treats opposite numbers alike, as that of Python does, the rays `(y, θ)` and `(-y, -θ)` leave exactly opposite. -/
theorem C132_symmetric (hr : Rounding rnd u) (hodd : ∀ x, rnd (-x) = -rnd x) {alpha n : K} {diam : Option K} {m : Mat (Fl K rnd)}
    (h : mkAxicon (num alpha : Fl K rnd) (num n) (optNum diam) = .ok m) {r r' : Ray (Fl K rnd)} {y θ z : K} (hf : FloatRay rnd r y θ z)
    (hf' : FloatRay rnd r' (-y) (-θ) z) (hb : r.isBlocked = false) (hb' : r'.isBlocked = false) :
    (m.mulRay r').y = -(m.mulRay r).y ∧ (m.mulRay r').theta = -(m.mulRay r).theta ∧ (m.mulRay r').isBlocked = (m.mulRay r).isBlocked := by
  obtain ⟨h1, -, h3, h4⟩ := axicon_base hr h hf hb
  obtain ⟨h1', -, h3', h4'⟩ := axicon_base hr h hf' hb'
  obtain ⟨x, ex, -⟩ := deviation_near (rnd := rnd) hr n alpha
  refine ⟨by rw [h1, h1', neg_num], ?_, by rw [h4, h4', abs_neg]⟩
  rw [h3, h3']
  unfold axiconTurn
  rw [ex, zero_num hr]
  simp only [lt_num, neg_num, num_add, Left.neg_pos_iff, Left.neg_neg_iff, decide_eq_true_eq]
  rcases lt_trichotomy y 0 with hy | hy | hy
  · simp only [hy, not_lt.2 hy.le, if_true, if_false, neg_num]
    rw [← hodd]; congr 2; ring
  · simp [hy, neg_num]
  · simp only [hy, not_lt.2 hy.le, if_true, if_false, neg_num]
    rw [← hodd]; congr 2; ring

/-- **C132.** A parallel ray at height `y` that gets through is, at the distance `focalLineLength(y)` computed in floats, on the axis up to seven roundings of `y`; this is
for an index above 1 and a positive angle. The length itself is the exact one up to four roundings. -/
theorem C132_focal_line (hr : Rounding rnd u) {alpha n : K} {diam : Option K} {m : Mat (Fl K rnd)}
    (h : mkAxicon (num alpha : Fl K rnd) (num n) (optNum diam) = .ok m) (hn : 1 < n) (ha : 0 < alpha) {r : Ray (Fl K rnd)} {y z : K}
    (hf : FloatRay rnd r y 0 z) (hb : r.isBlocked = false) (hy : y ≠ 0) :
    ∃ l θ', focalLineLength m (num n) (num alpha) (some (num y)) = .ok (num l) ∧ (m.mulRay r).theta = num θ' ∧
      |l - |y| / (n - 1) / alpha| ≤ relErr u 4 * (|y| / (n - 1) / alpha) ∧ |y + l * θ'| ≤ relErr u 7 * |y| := by
  obtain ⟨-, -, h3, -⟩ := axicon_base hr h hf hb
  have hn0 : n - 1 ≠ 0 := (sub_pos.2 hn).ne'
  have hn1 : |n - 1| = n - 1 := abs_of_pos (sub_pos.2 hn)
  have ha1 : |alpha| = alpha := abs_of_pos ha
  have rd : RelD u 2 (num n - 1 : Fl K rnd) (n - 1) := by
    rw [one_num hr, num_sub]
    exact ⟨_, rfl, hn0, hr.ne_zero hn0, hr.inv_rel hn0⟩
  have ny : Fl.Near u 0 (num |y| : Fl K rnd) |y| |y| := by simpa using near_num (rnd := rnd) u |y|
  obtain ⟨q, hq, nq⟩ := ny.div hr rd
  obtain ⟨l, hl, nl⟩ := nq.div hr (relD_num (rnd := rnd) (u := u) ha.ne')
  rw [hn1, ha1] at nl
  have nl4 : Fl.Near u 4 l (|y| / (n - 1) / alpha) (|y| / (n - 1) / alpha) := by simpa using nl
  have hfl : focalLineLength m (num n : Fl K rnd) (num alpha) (some (num y)) = .ok l := by
    unfold focalLineLength
    simp only [Option.getD_some, abs_num, hq, bind, Except.bind, hl]
  have dev := deviation_near (rnd := rnd) hr n alpha
  rw [hn1, ha1] at dev
  have z2 : Fl.Near u 2 (num 0 : Fl K rnd) 0 0 := by
    simpa using (near_num (rnd := rnd) u (0 : K)).mono hr.nonneg (by omega : 0 ≤ 2) le_rfl
  have hnn : (n - 1) * alpha ≠ 0 := mul_ne_zero hn0 ha.ne'
  obtain ⟨l', rfl, -, hl2⟩ := id nl4
  have fin_ : ∀ t : K, ∀ s : K, s * ((n - 1) * alpha) * (|y| / (n - 1) / alpha) = -y → |s| = 1 →
      Fl.Near u 3 (num t : Fl K rnd) (s * ((n - 1) * alpha)) ((n - 1) * alpha) → |y + l' * t| ≤ relErr u 7 * |y| := by
    intro t s hs hs1 ht
    obtain ⟨x, ex, -, hx⟩ := near_mul_exact hr.nonneg nl4 ht
    have := num_inj ex; subst this
    have e1 : |y| / (n - 1) / alpha * (s * ((n - 1) * alpha)) = -y := by rw [mul_comm]; exact hs
    have e2 : |y| / (n - 1) / alpha * ((n - 1) * alpha) = |y| := by
      have := ha.ne'
      field_simp
    rw [e1, e2] at hx
    have e3 : y + l' * t = l' * t - -y := by ring
    rw [e3]; exact hx
  have e0 : |y| / (n - 1) / alpha * ((n - 1) * alpha) = |y| := by
    have := ha.ne'
    field_simp
  rcases lt_or_gt_of_ne hy with hy' | hy'
  · obtain ⟨t, et, b1, b2⟩ := z2.add hr dev
    refine ⟨l', t, hfl, ?_, hl2, fin_ t 1 ?_ (by simp) ?_⟩
    · rw [h3]; unfold axiconTurn
      rw [zero_num hr, lt_num, lt_num, if_neg (by simpa using hy'.le), if_pos (by simpa using hy')]
      exact et
    · rw [one_mul, mul_comm, e0, abs_of_neg hy']
    · rw [one_mul]
      simp only [zero_add] at b1 b2
      exact ⟨t, rfl, b1, b2⟩
  · obtain ⟨t, et, b1, b2⟩ := z2.add hr dev.neg
    refine ⟨l', t, hfl, ?_, hl2, fin_ t (-1) ?_ (by simp) ?_⟩
    · rw [h3]; unfold axiconTurn
      rw [zero_num hr, lt_num, if_pos (by simpa using hy')]
      exact et
    · rw [show -1 * ((n - 1) * alpha) * (|y| / (n - 1) / alpha) = -(|y| / (n - 1) / alpha * ((n - 1) * alpha)) by ring, e0, abs_of_pos hy']
    · rw [show (-1 : K) * ((n - 1) * alpha) = -((n - 1) * alpha) by ring]
      simp only [zero_add] at b1 b2
      exact ⟨t, rfl, b1, b2⟩

/-- a half is one power of two below -/
theorem binade_half {x : ℚ} (h : x ≠ 0) : binade (x / 2) = binade x - 1 := by
  have h2 : x / 2 ≠ 0 := div_ne_zero h two_ne_zero
  obtain ⟨a1, a2⟩ := binade_spec h
  obtain ⟨b1, b2⟩ := binade_spec h2
  rw [abs_div, abs_two] at b1 b2
  have e1 : (2 : ℚ) ^ (binade (x / 2) + 1) = 2 * 2 ^ binade (x / 2) := by rw [zpow_add₀ two_ne_zero, zpow_one, mul_comm]
  have e2 : (2 : ℚ) ^ (binade (x / 2) + 1 + 1) = 2 * 2 ^ (binade (x / 2) + 1) := by rw [zpow_add₀ two_ne_zero, zpow_one, mul_comm]
  have c1 : (2 : ℚ) ^ (binade (x / 2) + 1) < 2 ^ (binade x + 1) := by rw [e1]; linarith
  have c2 : (2 : ℚ) ^ binade x < 2 ^ (binade (x / 2) + 1 + 1) := by rw [e2]; linarith
  have d1 := (zpow_lt_zpow_iff_right₀ (one_lt_two (α := ℚ))).1 c1
  have d2 := (zpow_lt_zpow_iff_right₀ (one_lt_two (α := ℚ))).1 c2
  omega

/-- halving is exact -/
theorem double_half (x : ℚ) : double (x / 2) = double x / 2 := by
  by_cases h : x = 0
  · subst h; simp [double_zero]
  have h2 : x / 2 ≠ 0 := div_ne_zero h two_ne_zero
  have e : (2 : ℚ) ^ (binade x - 1 - 52) = 2 ^ (binade x - 52) / 2 := by
    rw [show binade x - 1 - 52 = (binade x - 52) - 1 by ring, zpow_sub₀ two_ne_zero, zpow_one]
  have e2 : x / 2 / (2 ^ (binade x - 52) / 2) = x / (2 : ℚ) ^ (binade x - 52) := by field_simp
  unfold double
  simp only [h, h2, if_false, binade_half h, pow2_eq, e, e2]
  ring

/-- **C132.** In Python floats: the ray is blocked exactly when its height exceeds half the diameter (halving is exact); opposite rays leave exactly opposite; and at the
distance `focalLineLength(y)` a parallel ray is on the axis up to `10⁻¹⁵` of its height. -/
theorem C132_double {alpha n : ℚ} {diam : Option ℚ} {m : Mat Double} (h : mkAxicon (num alpha : Double) (num n) (optNum diam) = .ok m)
    (hd : ∀ d, diam = some d → double d = d) {r : Ray Double} {y θ z : ℚ} (hf : FloatRay double r y θ z) (hb : r.isBlocked = false) :
    ((m.mulRay r).isBlocked = true ↔ ∃ d, diam = some d ∧ d / 2 < |y|) ∧
    (∀ r', FloatRay double r' (-y) (-θ) z → r'.isBlocked = false →
      (m.mulRay r').y = -(m.mulRay r).y ∧ (m.mulRay r').theta = -(m.mulRay r).theta ∧ (m.mulRay r').isBlocked = (m.mulRay r).isBlocked) ∧
    (1 < n → 0 < alpha → θ = 0 → y ≠ 0 → ∃ l θ', focalLineLength m (num n) (num alpha) (some (num y)) = .ok (num l) ∧ (m.mulRay r).theta = num θ' ∧
      |l - |y| / (n - 1) / alpha| ≤ 1 / 10 ^ 15 * (|y| / (n - 1) / alpha) ∧ |y + l * θ'| ≤ 1 / 10 ^ 15 * |y|) := by
  have hr := double_rounding
  have b4 : relErr unitRoundoff 4 ≤ 1 / 10 ^ 15 := by unfold relErr unitRoundoff; norm_num
  have b7 : relErr unitRoundoff 7 ≤ 1 / 10 ^ 15 := by unfold relErr unitRoundoff; norm_num
  refine ⟨?_, fun r' hf' hb' => C132_symmetric hr double_neg h hf hf' hb hb', ?_⟩
  · rw [(C132_ray hr h hf hb).2.2.2.2.2]
    constructor
    · rintro ⟨d, rfl, hlt⟩
      rw [double_half, hd d rfl] at hlt
      exact ⟨d, rfl, hlt⟩
    · rintro ⟨d, rfl, hlt⟩
      exact ⟨d, rfl, by rwa [double_half, hd d rfl]⟩
  · rintro hn ha rfl hy
    obtain ⟨l, θ', h1, h2, h3, h4⟩ := C132_focal_line hr h hn ha hf hb hy
    have hp : 0 ≤ |y| / (n - 1) / alpha := by
      have : 0 < n - 1 := by linarith
      positivity
    exact ⟨l, θ', h1, h2, h3.trans (mul_le_mul_of_nonneg_right b4 hp), h4.trans (mul_le_mul_of_nonneg_right b7 (abs_nonneg _))⟩

/-- the ray at height `y`, parallel to the axis, in Python floats -/
def parallelRay (y : ℚ) : Ray Double :=
  { y := num y, theta := num 0, z := num 0, isBlocked := false, apertureDiameter := inf, wavelength := none }

/-- what becomes of it in an axicon: height, angle, whether it is blocked, and the length of the focal line, for examples -/
def axiconRay (alpha n : ℚ) (diam : Option ℚ) (y : ℚ) : Except PyErr (Double × Double × Bool × Except PyErr Double) :=
  (mkAxicon (num alpha : Double) (num n) (optNum diam)).map fun m =>
    ((m.mulRay (parallelRay y)).y, (m.mulRay (parallelRay y)).theta, (m.mulRay (parallelRay y)).isBlocked,
      focalLineLength m (num n) (num alpha) (some (num y)))

/-- An axicon of index 1.45 and angle 0.1 (as floats), of diameter 25: a ray at 5 gets through, one at -13 is blocked. The first one is not exactly on the axis at the length computed. -/
theorem C132_example :
    axiconRay (3602879701896397 / 36028797018963968) (6530219459687219 / 4503599627370496) (some 25) 5 =
      .ok (num 5, num (-3242591731706757 / 72057594037927936), false, .ok (num (3909374676536889 / 35184372088832))) ∧
    axiconRay (3602879701896397 / 36028797018963968) (6530219459687219 / 4503599627370496) (some 25) (-13) =
      .ok (num (-13), num (3242591731706757 / 72057594037927936), true, .ok (num (1270546769874489 / 4398046511104))) ∧
    FloatRay double (parallelRay 5) 5 0 0 ∧ double 25 = 25 ∧
    (5 : ℚ) + 3909374676536889 / 35184372088832 * (-3242591731706757 / 72057594037927936) ≠ 0 := by
  refine ⟨by decide +kernel, by decide +kernel, ⟨by decide +kernel, by decide +kernel, by decide +kernel, rfl, rfl, rfl⟩, by decide +kernel, by norm_num⟩

end RT
