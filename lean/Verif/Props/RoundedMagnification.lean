import Verif.Props.RoundedImaging
import Verif.Props.RoundedField
import Verif.Props.RoundedInvariant

/-! # C118: magnifications and sizes of images in floats -/

set_option linter.unusedSectionVars false

namespace RT
open PyNum Ext Fl
variable {K : Type} [Field K] [LinearOrder K] [IsStrictOrderedRing K]
variable {rnd : K → K} {u : K}

/-- the four coefficients of a matrix of floats -/
structure Coefs (m : Mat (Fl K rnd)) (a b c d : K) : Prop where
  A : m.A = num a
  B : m.B = num b
  C : m.C = num c
  D : m.D = num d

/-- what the forward conjugate is made of -/
theorem forward_near (hr : Rounding rnd u) {m c : Mat (Fl K rnd)} {z : Fl K rnd} {a b k d : K} (hm : Coefs m a b k d)
    (h : m.forwardConjugate = .ok (z, some c)) :
    d ≠ 0 ∧ Fl.Near u 1 z (-b / d) (|b| / |d|) ∧ Fl.Near u 3 c.A (a + -b / d * k) (|a| + |b| / |d| * |k|) ∧ Fl.Near u 2 c.D d |d| := by
  unfold Mat.forwardConjugate at h
  rw [hm.D, hm.B, zero_num hr, eq_num] at h
  by_cases hd : d = 0
  · simp [hd, pure, Except.pure] at h
  simp only [hd, decide_false, Bool.false_eq_true, if_false] at h
  obtain ⟨z1, h1, h⟩ := bind_ok h
  obtain ⟨s, h2, h⟩ := bind_ok h
  obtain ⟨c1, h3, h⟩ := bind_ok h
  simp only [pure, Except.pure, Except.ok.injEq, Prod.mk.injEq, Option.some.injEq] at h
  obtain ⟨rfl, rfl⟩ := h
  obtain ⟨q, e1, nz⟩ := (near_num (rnd := rnd) u b).neg.div hr (relD_num (rnd := rnd) (u := u) hd)
  rw [e1] at h1; cases h1
  have hc := mulMatrix_okF h3
  unfold mkSpace at h2
  obtain ⟨rfl, -⟩ := init_okF h2
  refine ⟨hd, nz, ?_, ?_⟩
  · have hA : c1.A = 1 * m.A + z1 * m.C := by rw [hc]; rfl
    rw [hA, hm.A, hm.C]
    have := (((near_one (rnd := rnd) hr).mul hr (near_num (rnd := rnd) u a)).mono hr.nonneg (by omega : 0 + 0 + 1 ≤ 2) le_rfl).add hr
      ((nz.mul hr (near_num (rnd := rnd) u k)).mono hr.nonneg (by omega : 1 + 0 + 0 + 1 ≤ 2) le_rfl)
    simpa using this
  · have hD : c1.D = 0 * m.B + 1 * m.D := by rw [hc]; rfl
    rw [hD, hm.B, hm.D]
    have := ((near_zero (rnd := rnd) hr).mul hr (near_num (rnd := rnd) u b)).add hr
      ((near_one (rnd := rnd) hr).mul hr (near_num (rnd := rnd) u d))
    simpa using this

/-- what the backward conjugate is made of -/
theorem backward_conj_near (hr : Rounding rnd u) {m c : Mat (Fl K rnd)} {z : Fl K rnd} {a b k d : K} (hm : Coefs m a b k d) (ha : a ≠ 0)
    (h : m.backwardConjugate = .ok (z, c)) :
    Fl.Near u 1 z (-b / a) (|b| / |a|) ∧ Fl.Near u 2 c.A a |a| ∧ Fl.Near u 3 c.D (k * (-b / a) + d) (|k| * (|b| / |a|) + |d|) ∧ c.B = num 0 := by
  unfold Mat.backwardConjugate at h
  have hne : (num a !=. (0 : Fl K rnd)) = true := by
    rw [zero_num hr, eq_num]
    simp [ha]
  rw [hm.A, if_pos hne, hm.B] at h
  obtain ⟨q, e1, nz⟩ := (near_num (rnd := rnd) u b).neg.div hr (relD_num (rnd := rnd) (u := u) ha)
  rw [e1] at h
  obtain ⟨z1, h1, h⟩ := bind_ok h
  cases h1
  obtain ⟨s, h2, h⟩ := bind_ok h
  obtain ⟨c1, h3, h⟩ := bind_ok h
  simp only [pure, Except.pure, Except.ok.injEq, Prod.mk.injEq] at h
  obtain ⟨rfl, rfl⟩ := h
  have hc := mulMatrix_okF h3
  unfold mkSpace at h2
  obtain ⟨rfl, -⟩ := init_okF h2
  refine ⟨nz, ?_, ?_, zero_num hr⟩
  · have hA : c1.A = m.A * 1 + m.B * 0 := by rw [hc]; rfl
    change Fl.Near u 2 c1.A a |a|
    rw [hA, hm.A, hm.B]
    have := ((near_num (rnd := rnd) u a).mul hr (near_one (rnd := rnd) hr)).add hr
      ((near_num (rnd := rnd) u b).mul hr (near_zero (rnd := rnd) hr))
    simpa using this
  · have hD : c1.D = m.C * q + m.D * 1 := by rw [hc]; rfl
    change Fl.Near u 3 c1.D _ _
    rw [hD, hm.C, hm.D]
    have := (((near_num (rnd := rnd) u k).mul hr nz).mono hr.nonneg (by omega : 0 + 1 + 0 + 1 ≤ 2) le_rfl).add hr
      (((near_num (rnd := rnd) u d).mul hr (near_one (rnd := rnd) hr)).mono hr.nonneg (by omega : 0 + 0 + 1 ≤ 2) le_rfl)
    simpa using this

/-- **C118.** The magnifications of the matrix that `forwardConjugate` returns, for any matrix of floats: the angular one is `D`, and the transverse one is the
determinant divided by `D`, up to explicit rounding errors. -/
theorem C118_forward (hr : Rounding rnd u) {m c : Mat (Fl K rnd)} {z : Fl K rnd} {a b k d : K} (hm : Coefs m a b k d)
    (h : m.forwardConjugate = .ok (z, some c)) : ∃ z' x y, z = num z' ∧ c.A = num x ∧ c.D = num y ∧ |z' * d + b| ≤ relErr u 1 * |b| ∧
      |x * d - (a * d - b * k)| ≤ relErr u 3 * (|a * d| + |b * k|) ∧ |y - d| ≤ relErr u 2 * |d| ∧
      (4 * u * |b| < (1 - u) * (1 / 100000) → c.magnification = some (num x, num y)) := by
  obtain ⟨hd, ⟨z', rfl, -, h1⟩, ⟨x, hx, -, h2⟩, ⟨y, hy, -, h3⟩⟩ := forward_near hr hm h
  have hdp : 0 < |d| := abs_pos.2 hd
  refine ⟨z', x, y, rfl, hx, hy, ?_, ?_, h3, fun hlt => ?_⟩
  · have e1 : z' * d + b = (z' - -b / d) * d := by field_simp; ring
    rw [e1, abs_mul]
    refine (mul_le_mul_of_nonneg_right h1 hdp.le).trans_eq ?_
    field_simp
  · have e1 : x * d - (a * d - b * k) = (x - (a + -b / d * k)) * d := by field_simp; ring
    rw [e1, abs_mul]
    refine (mul_le_mul_of_nonneg_right h2 hdp.le).trans_eq ?_
    rw [abs_mul, abs_mul]
    field_simp
  · unfold Mat.magnification
    rw [if_pos ((C98_conjugate hr hm.B hm.D h).2.2 hlt), hx, hy]

/-- **C118.** The same for `backwardConjugate`, when `A` is not zero: the transverse magnification is `A` and the angular one the determinant divided by `A`. -/
theorem C118_backward (hr : Rounding rnd u) {m c : Mat (Fl K rnd)} {z : Fl K rnd} {a b k d : K} (hm : Coefs m a b k d) (ha : a ≠ 0)
    (h : m.backwardConjugate = .ok (z, c)) : ∃ z' x y, z = num z' ∧ c.magnification = some (num x, num y) ∧ |z' * a + b| ≤ relErr u 1 * |b| ∧
      |x - a| ≤ relErr u 2 * |a| ∧ |y * a - (a * d - b * k)| ≤ relErr u 3 * (|a * d| + |b * k|) := by
  obtain ⟨⟨z', rfl, -, h1⟩, ⟨x, hx, -, h2⟩, ⟨y, hy, -, h3⟩, h0⟩ := backward_conj_near hr hm ha h
  have hap : 0 < |a| := abs_pos.2 ha
  refine ⟨z', x, y, rfl, ?_, ?_, h2, ?_⟩
  · unfold Mat.magnification Mat.isImaging isAlmostZero
    have hpos : 0 < rnd (1 / 100000 : K) := hr.pos (by norm_num)
    rw [h0, eps_num, abs_num, lt_num, abs_zero, if_pos (by simpa using hpos), hx, hy]
  · have e1 : z' * a + b = (z' - -b / a) * a := by field_simp; ring
    rw [e1, abs_mul]
    refine (mul_le_mul_of_nonneg_right h1 hap.le).trans_eq ?_
    field_simp
  · have e1 : y * a - (a * d - b * k) = (y - (k * (-b / a) + d)) * a := by field_simp; ring
    rw [e1, abs_mul]
    refine (mul_le_mul_of_nonneg_right h3 hap.le).trans_eq ?_
    rw [abs_mul, abs_mul]
    field_simp
    ring

/-- the product of two numbers that carry errors -/
theorem near_prod {k : ℕ} {x y : Fl K rnd} {x' y' a b A B : K} (hu : 0 ≤ u) (hx : Fl.Near u k x a A) (hy : Fl.Near u k y b B) (ex : x = num x') (ey : y = num y') :
    |x' * y' - a * b| ≤ relErr u (2 * k) * (A * B) ∧ |x' * y'| ≤ (1 + relErr u (2 * k)) * (A * B) := by
  obtain ⟨x1, e1, ha, h1⟩ := hx
  obtain ⟨y1, e2, hb, h2⟩ := hy
  have := num_inj (e1.symm.trans ex); subst this
  have := num_inj (e2.symm.trans ey); subst this
  have hε := relErr_nonneg hu k
  have hA : 0 ≤ A := (abs_nonneg _).trans ha
  have hB : 0 ≤ B := (abs_nonneg _).trans hb
  have e3 : relErr u (2 * k) = 2 * relErr u k + relErr u k * relErr u k := by
    unfold relErr
    rw [two_mul, pow_add]; ring
  have e4 : x1 * y1 - a * b = (x1 - a) * b + a * (y1 - b) + (x1 - a) * (y1 - b) := by ring
  have t1 : |x1 * y1 - a * b| ≤ relErr u (2 * k) * (A * B) := by
    rw [e4, e3]
    refine (abs_add_le _ _).trans ?_
    refine (add_le_add (abs_add_le _ _) le_rfl).trans ?_
    rw [abs_mul, abs_mul, abs_mul]
    have s1 : |x1 - a| * |b| ≤ relErr u k * A * B := mul_le_mul h1 hb (abs_nonneg _) (by positivity)
    have s2 : |a| * |y1 - b| ≤ A * (relErr u k * B) := mul_le_mul ha h2 (abs_nonneg _) hA
    have s3 : |x1 - a| * |y1 - b| ≤ relErr u k * A * (relErr u k * B) := mul_le_mul h1 h2 (abs_nonneg _) (by positivity)
    linarith
  refine ⟨t1, ?_⟩
  have t2 : |a * b| ≤ A * B := by rw [abs_mul]; exact mul_le_mul ha hb (abs_nonneg _) hA
  have := abs_sub_abs_le_abs_sub (x1 * y1) (a * b)
  linarith

/-- **C118.** For a system built in floats: the transverse magnification times `D` is the determinant of the exact system, up to explicit errors. -/
theorem C118_system (hr : Rounding rnd u) {p : Part K} {e : Elem (Fl K rnd)} (hb : p.buildR rnd = .ok e) {z : Fl K rnd} {c : Mat (Fl K rnd)}
    (h : e.mat.forwardConjugate = .ok (z, some c)) : ∃ x d, c.A = num x ∧ e.mat.D = num d ∧ d ≠ 0 ∧
      |x * d - p.rmat.exact.dt| ≤ relErr u (2 * p.rmat.ops + 3) * (p.rmat.maj.a * p.rmat.maj.d + p.rmat.maj.b * p.rmat.maj.c) := by
  have hn := buildR_mat hr hb
  obtain ⟨a, ea, -⟩ := id hn.A
  obtain ⟨b, eb, -⟩ := id hn.B
  obtain ⟨k, ek, -⟩ := id hn.C
  obtain ⟨d, ed, -⟩ := id hn.D
  obtain ⟨z', x, y, -, hx, -, -, h1, -⟩ := C118_forward hr ⟨ea, eb, ek, ed⟩ h
  obtain ⟨hd, -⟩ := forward_near hr ⟨ea, eb, ek, ed⟩ h
  refine ⟨x, d, hx, ed, hd, ?_⟩
  obtain ⟨p1, p2⟩ := near_prod hr.nonneg hn.A hn.D ea ed
  obtain ⟨q1, q2⟩ := near_prod hr.nonneg hn.B hn.C eb ek
  have h3 := relErr_nonneg hr.nonneg 3
  have e3 : relErr u (2 * p.rmat.ops + 3) = relErr u (2 * p.rmat.ops) + relErr u 3 * (1 + relErr u (2 * p.rmat.ops)) := by
    unfold relErr
    rw [pow_add]; ring
  have e4 : x * d - p.rmat.exact.dt = (x * d - (a * d - b * k)) + (a * d - p.rmat.exact.a * p.rmat.exact.d) - (b * k - p.rmat.exact.b * p.rmat.exact.c) := by
    unfold Stage.dt; ring
  rw [e4, e3]
  have t1 := abs_sub ((x * d - (a * d - b * k)) + (a * d - p.rmat.exact.a * p.rmat.exact.d)) (b * k - p.rmat.exact.b * p.rmat.exact.c)
  have t2 := abs_add_le (x * d - (a * d - b * k)) (a * d - p.rmat.exact.a * p.rmat.exact.d)
  have t3 : relErr u 3 * (|a * d| + |b * k|) ≤
      relErr u 3 * ((1 + relErr u (2 * p.rmat.ops)) * (p.rmat.maj.a * p.rmat.maj.d) + (1 + relErr u (2 * p.rmat.ops)) * (p.rmat.maj.b * p.rmat.maj.c)) :=
    mul_le_mul_of_nonneg_left (add_le_add p2 q2) h3
  linarith

/-- **C118.** In air, in Python floats: the product of the two magnifications is 1 within 10⁻¹² of the majorant, up to 1000 roundings. -/
theorem C118_double {p : Part ℚ} (ha : p.InAir) {e : Elem Double} (hb : p.buildR double = .ok e) {z : Double} {c : Mat Double}
    (h : e.mat.forwardConjugate = .ok (z, some c)) (hk : p.rmat.ops ≤ 1000) : ∃ x d, c.A = num x ∧ e.mat.D = num d ∧ d ≠ 0 ∧
      |x * d - 1| ≤ 1 / 10 ^ 12 * (p.rmat.maj.a * p.rmat.maj.d + p.rmat.maj.b * p.rmat.maj.c) := by
  have hr := double_rounding
  obtain ⟨x, d, h1, h2, h3, h4⟩ := C118_system hr hb h
  rw [inAir_det ha] at h4
  refine ⟨x, d, h1, h2, h3, h4.trans (mul_le_mul_of_nonneg_right ?_ ?_)⟩
  · refine (relErr_mono hr.nonneg (by omega : 2 * p.rmat.ops + 3 ≤ 2003)).trans ((C95_bound hr.nonneg 2003 (by norm_num [unitRoundoff])).trans ?_)
    norm_num [unitRoundoff]
  · have hn := buildR_mat hr hb
    exact add_nonneg (mul_nonneg hn.A.nonneg hn.D.nonneg) (mul_nonneg hn.B.nonneg hn.C.nonneg)

/-- **C118.** The size of the image of the object: the height of the object times the transverse magnification of the conjugate, rounded. -/
theorem C118_object (g : Group (Fl K rnd)) {p H : Fl K rnd} {h : K} {fuel : Nat} {z : Fl K rnd} {c : Mat (Fl K rnd)}
    (hc : g.mat.forwardConjugate = .ok (z, some c)) {x : K} (hx : c.A = num x) (hr : Rounding rnd u) :
    ∃ s, (g.imageSize p H (num h) fuel true).run (newTrace g) = .ok (num s) ∧ |(s - |h * x|)| ≤ u * |h * x| := by
  refine ⟨|rnd (h * x)|, ?_, ?_⟩
  · unfold Group.imageSize
    rw [Prog.run_bind, hc]
    change Except.ok (PyNum.abs (num h * c.A)) = _
    rw [hx, num_mul, abs_num]
  · exact (abs_abs_sub_abs_le_abs_sub _ _).trans (hr.rel _)

/-- **C118.** The size of the image of the field: twice the half field of view found times the transverse magnification, up to two roundings; infinite or refused
when the field is. -/
theorem C118_field (hr : Rounding rnd u) (g : Group (Fl K rnd)) {p H y : Fl K rnd} {fuel : Nat} {z : Fl K rnd} {c : Mat (Fl K rnd)}
    (hc : g.mat.forwardConjugate = .ok (z, some c)) {x : K} (hx : c.A = num x) :
    (∀ h, 0 ≤ h → (g.halfFieldOfView p H fuel).run (newTrace g) = .ok (num h) →
      ∃ s, (g.imageSize p H y fuel false).run (newTrace g) = .ok (num s) ∧ |(s - 2 * h * |x|)| ≤ relErr u 2 * (2 * h * |x|)) ∧
    (x ≠ 0 → (g.halfFieldOfView p H fuel).run (newTrace g) = .ok inf → (g.imageSize p H y fuel false).run (newTrace g) = .ok inf) ∧
    ∀ er, (g.halfFieldOfView p H fuel).run (newTrace g) = .error er → (g.imageSize p H y fuel false).run (newTrace g) = .error er := by
  obtain ⟨f1, f2, f3⟩ := C115_whole hr g p H fuel
  have key : ∀ r, (g.fieldOfView p H fuel).run (newTrace g) = r → (g.imageSize p H y fuel false).run (newTrace g) = r.map (fun w => PyNum.abs (w * c.A)) := by
    intro r hr'
    unfold Group.imageSize
    rw [Prog.run_bind, hc]
    change (g.fieldOfView p H fuel >>= fun fov => pure (PyNum.abs (fov * c.A))).run (newTrace g) = _
    rw [Prog.run_bind, hr']
    cases r <;> rfl
  refine ⟨fun h h0 e => ?_, fun hx0 e => ?_, fun er e => key _ (f3 _ e)⟩
  · obtain ⟨w, e1, e2⟩ := f1 h h0 e
    have nw : Fl.Near u 1 (num w : Fl K rnd) (2 * h) (2 * h) := ⟨w, rfl, (abs_of_nonneg (by positivity)).le, by simpa [relErr] using e2⟩
    obtain ⟨s, e3, -, e4⟩ := nw.mul hr (near_num (rnd := rnd) u x)
    refine ⟨|s|, ?_, ?_⟩
    · rw [key _ e1, hx]
      change Except.ok (PyNum.abs (num w * num x)) = _
      rw [e3, abs_num]
    · have := (abs_abs_sub_abs_le_abs_sub s (2 * h * x)).trans e4
      rwa [abs_mul (2 * h), abs_of_nonneg (by positivity : 0 ≤ 2 * h)] at this
  · rw [key _ (f2 e), hx]
    rcases lt_or_gt_of_ne hx0 with hs | hs
    · change Except.ok (⟨(rndE rnd (infOf x)).abs⟩ : Fl K rnd) = _
      rw [infOf, if_neg (not_lt.2 hs.le), if_pos hs]; rfl
    · change Except.ok (⟨(rndE rnd (infOf x)).abs⟩ : Fl K rnd) = _
      rw [infOf, if_pos hs]; rfl

/-- the magnifications of the image, for examples -/
def magnificationOf (p : Part ℚ) : Except PyErr (Double × Option (Double × Double)) := p.buildR double >>= fun e => e.mat.forwardConjugate >>= fun r =>
  .ok (r.1, r.2.bind Mat.magnification)

/-- Violated to the last digit: the image of an object at twice the focal length, 49, is neither at 98 nor of the size of the object, and the product of the two
magnifications is not 1. -/
theorem C118_violated : magnificationOf (.group "" [.space 98 1 none, .lens 49 none]) =
      .ok (num (98 + 1 / 2 ^ 45), some (num (-(1 + 1 / 2 ^ 51)), num (-(1 - 1 / 2 ^ 52)))) ∧
    (-(1 + 1 / 2 ^ 51)) * (-(1 - 1 / 2 ^ 52)) ≠ (1 : ℚ) := by
  refine ⟨by decide +kernel, by norm_num⟩

/-- The hypotheses are met: the object at 147 before a lens of focal length 49, in air, has an image; the majorant is 7. -/
theorem C118_example : (Part.group "" [.space 147 1 none, .lens 49 none] : Part ℚ).InAir ∧
    (match (Part.group "" [.space 147 1 none, .lens 49 none] : Part ℚ).buildR double with
      | .ok e => (match e.mat.forwardConjugate with | .ok (_, some _) => decide (e.mat.A ≠ num 0) | _ => false)
      | _ => false) = true ∧
    (Part.group "" [.space 147 1 none, .lens 49 none] : Part ℚ).rmat.ops ≤ 1000 ∧
    (fun s : RStage ℚ => s.maj.a * s.maj.d + s.maj.b * s.maj.c) (Part.group "" [.space 147 1 none, .lens 49 none] : Part ℚ).rmat = 7 := by
  refine ⟨by simp [Part.InAir, Part.InAirList, OpenDiam], by decide +kernel, by decide +kernel, by decide +kernel⟩

end RT
