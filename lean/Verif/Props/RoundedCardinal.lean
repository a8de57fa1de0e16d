import Verif.Props.RoundedImaging

/-! # C117: foci and principal planes in floats -/

set_option linter.unusedSectionVars false

namespace RT
open PyNum Ext Fl
variable {K : Type} [Field K] [LinearOrder K] [IsStrictOrderedRing K]
variable {rnd : K → K} {u : K}

/-- the numbers of a matrix of floats -/
structure Holds (m : Mat (Fl K rnd)) (a c d l n1 n2 : K) : Prop where
  A : m.A = num a
  C : m.C = num c
  D : m.D = num d
  L : m.L = num l
  front : m.frontIndex = num n1
  back : m.backIndex = num n2

theorem power_ne_zero (hr : Rounding rnd u) {m : Mat (Fl K rnd)} {c : K} (hC : m.C = num c) (hp : m.hasPower = true) : c ≠ 0 := by
  rintro rfl
  unfold Mat.hasPower isNotZero at hp
  rw [hC, eps_num, abs_num, lt_num, decide_eq_true_iff, abs_zero] at hp
  have : 0 < rnd (1 / 100000 : K) := hr.pos (by norm_num)
  linarith

/-- the principal planes -/
theorem planes_near (hr : Rounding rnd u) {m : Mat (Fl K rnd)} {a c d l n1 n2 : K} (hm : Holds m a c d l n1 n2) (hp : m.hasPower = true) (hn : n2 ≠ 0)
    (z : K) : ∃ x1 x2, m.principalPlanePositions (num z) = .ok (some (x1, x2)) ∧
      Fl.Near u 4 x1 (z - (n1 / n2 - d) / c) (|z| + (|n1 / n2| + |d|) / |c|) ∧
      Fl.Near u 3 x2 (z + l + (1 - a) / c) (|z| + |l| + |1 - a| / |c|) := by
  have hc := power_ne_zero hr hm.C hp
  have dc := relD_num (rnd := rnd) (u := u) hc
  obtain ⟨ρ, e1, nρ⟩ := (near_num (rnd := rnd) u n1).div hr (relD_num (rnd := rnd) (u := u) hn)
  rw [← abs_div] at nρ
  obtain ⟨q1, e2, nq1⟩ := (nρ.sub hr ((near_num (rnd := rnd) u d).mono hr.nonneg (Nat.zero_le _) le_rfl)).div hr dc
  have n1a : Fl.Near u 1 (1 - num a : Fl K rnd) (1 - a) |1 - a| := by
    rw [one_num hr, num_sub]; exact (near_num (rnd := rnd) u (1 - a)).round hr
  obtain ⟨q2, e3, nq2⟩ := n1a.div hr dc
  refine ⟨num z - q1, num z + num l + q2, ?_, ?_, ?_⟩
  · unfold Mat.principalPlanePositions
    rw [if_pos hp, hm.front, hm.back, hm.A, hm.C, hm.D, hm.L]
    simp only [e1, e2, e3, bind, Except.bind, pure, Except.pure]
  · exact (((near_num (rnd := rnd) u z).mono hr.nonneg (Nat.zero_le _) le_rfl).sub hr nq1).mono hr.nonneg (by omega) le_rfl
  · have h1 := ((near_num (rnd := rnd) u z).add hr (near_num (rnd := rnd) u l)).mono hr.nonneg (by omega : 0 + 1 ≤ 2) le_rfl
    exact (h1.add hr (nq2.mono hr.nonneg (by omega : 1 + 0 + 1 ≤ 2) le_rfl)).mono hr.nonneg (by omega) le_rfl

/-- the focal lengths -/
theorem focal_near (hr : Rounding rnd u) {m : Mat (Fl K rnd)} {a c d l n1 n2 : K} (hm : Holds m a c d l n1 n2) (hp : m.hasPower = true) (hn : n2 ≠ 0) :
    ∃ f1 f2, m.effectiveFocalLengths = .ok (f1, f2) ∧ Fl.Near u 2 f1 (-(n1 / n2) / c) (|n1 / n2| / |c|) ∧ Fl.Near u 1 f2 (-1 / c) (1 / |c|) := by
  have hc := power_ne_zero hr hm.C hp
  have dc := relD_num (rnd := rnd) (u := u) hc
  obtain ⟨ρ, e1, nρ⟩ := (near_num (rnd := rnd) u n1).div hr (relD_num (rnd := rnd) (u := u) hn)
  rw [← abs_div] at nρ
  obtain ⟨f1, e2, nf1⟩ := nρ.neg.div hr dc
  obtain ⟨f2, e3, nf2⟩ := (near_one (rnd := rnd) hr).neg.div hr dc
  refine ⟨f1, f2, ?_, nf1, nf2⟩
  unfold Mat.effectiveFocalLengths
  rw [if_pos hp, hm.front, hm.back, hm.C]
  simp only [e1, e2, e3, bind, Except.bind, pure, Except.pure]

/-- **C117.** The principal planes and the focal lengths computed from a matrix of floats with power, from a medium of index `n1` to one of index `n2`. -/
theorem C117_planes (hr : Rounding rnd u) {m : Mat (Fl K rnd)} {a c d l n1 n2 : K} (hm : Holds m a c d l n1 n2) (hp : m.hasPower = true) (hn : n2 ≠ 0)
    (z : K) : ∃ x1 x2 f1 f2, m.principalPlanePositions (num z) = .ok (some (num x1, num x2)) ∧ m.effectiveFocalLengths = .ok (num f1, num f2) ∧
      |x1 - (z - (n1 / n2 - d) / c)| ≤ relErr u 4 * (|z| + (|n1 / n2| + |d|) / |c|) ∧
      |x2 - (z + l + (1 - a) / c)| ≤ relErr u 3 * (|z| + |l| + |1 - a| / |c|) ∧
      |f1 - -(n1 / n2) / c| ≤ relErr u 2 * (|n1 / n2| / |c|) ∧ |f2 - -1 / c| ≤ relErr u 1 * (1 / |c|) := by
  obtain ⟨x1, x2, h1, ⟨x1', rfl, -, h2⟩, ⟨x2', rfl, -, h3⟩⟩ := planes_near hr hm hp hn z
  obtain ⟨f1, f2, h4, ⟨f1', rfl, -, h5⟩, ⟨f2', rfl, -, h6⟩⟩ := focal_near hr hm hp hn
  exact ⟨x1', x2', f1', f2', h1, h4, h2, h3, h5, h6⟩

/-- **C117.** The foci: the exact ones, of this matrix, are at `z + d/c` and `z + l - a/c`. -/
theorem C117_foci (hr : Rounding rnd u) {m : Mat (Fl K rnd)} {a c d l n1 n2 : K} (hm : Holds m a c d l n1 n2) (hp : m.hasPower = true) (hn : n2 ≠ 0)
    (z : K) : ∃ x1 x2, m.focusPositions (num z) = .ok (some (num x1, num x2)) ∧
      |x1 - (z + d / c)| ≤ relErr u 5 * (|z| + (2 * |n1 / n2| + |d|) / |c|) ∧
      |x2 - (z + l - a / c)| ≤ relErr u 4 * (|z| + |l| + (|1 - a| + 1) / |c|) := by
  have hc := power_ne_zero hr hm.C hp
  obtain ⟨x1, x2, h1, h2, h3⟩ := planes_near hr hm hp hn z
  obtain ⟨f1, f2, h4, h5, h6⟩ := focal_near hr hm hp hn
  obtain ⟨y1, e1, -, k1⟩ := h2.sub hr (h5.mono hr.nonneg (by omega : 2 ≤ 4) le_rfl)
  obtain ⟨y2, e2, -, k2⟩ := h3.add hr (h6.mono hr.nonneg (by omega : 1 ≤ 3) le_rfl)
  refine ⟨y1, y2, ?_, ?_, ?_⟩
  · unfold Mat.focusPositions
    rw [if_pos hp]
    simp only [h1, h4, bind, Except.bind, pure, Except.pure, e1, e2]
  · have r1 : z - (n1 / n2 - d) / c - -(n1 / n2) / c = z + d / c := by ring
    have r2 : |z| + (|n1 / n2| + |d|) / |c| + |n1 / n2| / |c| = |z| + (2 * |n1 / n2| + |d|) / |c| := by ring
    rw [r1, r2] at k1
    exact k1
  · have r1 : z + l + (1 - a) / c + -1 / c = z + l - a / c := by ring
    have r2 : |z| + |l| + |1 - a| / |c| + 1 / |c| = |z| + |l| + (|1 - a| + 1) / |c| := by ring
    rw [r1, r2] at k2
    exact k2

/-- **C117.** For the system of which the matrix was computed: a ray parallel to the axis crosses the axis at the back focus found in floats, and a ray from the front focus
found in floats comes out parallel to the axis, up to explicit errors: `A + x C`, where `x` is the distance found, is the height for an incident ray of height 1, and
`D + x C` the angle for a ray of angle 1. -/
theorem C117_rays (hr : Rounding rnd u) {p : Part K} {e : Elem (Fl K rnd)} {e' : Elem (Ext K)} (hb : p.buildR rnd = .ok e) (hb' : p.build = .ok e')
    (hp : e.mat.hasPower = true) {n1 n2 : K} (h1 : e.mat.frontIndex = num n1) (h2 : e.mat.backIndex = num n2) (hn : n2 ≠ 0) (z : K) :
    ∃ x1 x2 a c d l a' c' d', e.mat.focusPositions (num z) = .ok (some (num x1, num x2)) ∧ e'.mat.A = fin a ∧ e'.mat.C = fin c ∧ e'.mat.D = fin d ∧
      e'.mat.L = fin l ∧ e.mat.A = num a' ∧ e.mat.C = num c' ∧ e.mat.D = num d' ∧
      |a + (x2 - (z + l)) * c| ≤ p.err u p.rmat.maj.a + |a' / c'| * p.err u p.rmat.maj.c +
        (p.err u p.rmat.maj.len + relErr u 4 * (|z| + |l| + p.err u p.rmat.maj.len + (|1 - a'| + 1) / |c'|)) * |c| ∧
      |d + (z - x1) * c| ≤ p.err u p.rmat.maj.d + |d' / c'| * p.err u p.rmat.maj.c +
        relErr u 5 * (|z| + (2 * |n1 / n2| + |d'|) / |c'|) * |c| := by
  obtain ⟨⟨a', a, hA, hA', ea⟩, -, ⟨c', c, hC, hC', ec⟩, ⟨d', d, hD, hD', ed⟩, ⟨l', l, hL, hL', el⟩⟩ := C96_matrix hr hb hb'
  obtain ⟨x1, x2, hf, k1, k2⟩ := C117_foci hr ⟨hA, hC, hD, hL, h1, h2⟩ hp hn z
  have hc := power_ne_zero hr hC hp
  refine ⟨x1, x2, a, c, d, l, a', c', d', hf, hA', hC', hD', hL', hA, hC, hD, ?_, ?_⟩
  · change |a' - a| ≤ p.err u p.rmat.maj.a at ea
    change |c' - c| ≤ p.err u p.rmat.maj.c at ec
    change |l' - l| ≤ p.err u p.rmat.maj.len at el
    have e1 : a + (x2 - (z + l)) * c = -(a' - a) + a' / c' * (c' - c) + ((l' - l) + (x2 - (z + l' - a' / c'))) * c := by
      field_simp; ring
    have hl : |l'| ≤ |l| + p.err u p.rmat.maj.len := by
      have := abs_sub_abs_le_abs_sub l' l
      linarith
    have k3 : |x2 - (z + l' - a' / c')| ≤ relErr u 4 * (|z| + |l| + p.err u p.rmat.maj.len + (|1 - a'| + 1) / |c'|) :=
      k2.trans (mul_le_mul_of_nonneg_left (by linarith) (relErr_nonneg hr.nonneg 4))
    rw [e1]
    refine (abs_add_le _ _).trans (add_le_add ((abs_add_le _ _).trans (add_le_add ?_ ?_)) ?_)
    · rw [abs_neg]; exact ea
    · rw [abs_mul]; exact mul_le_mul_of_nonneg_left ec (abs_nonneg _)
    · rw [abs_mul]
      exact mul_le_mul_of_nonneg_right ((abs_add_le _ _).trans (add_le_add el k3)) (abs_nonneg _)
  · change |d' - d| ≤ p.err u p.rmat.maj.d at ed
    change |c' - c| ≤ p.err u p.rmat.maj.c at ec
    have e1 : d + (z - x1) * c = -(d' - d) + d' / c' * (c' - c) + -(x1 - (z + d' / c')) * c := by
      field_simp; ring
    rw [e1]
    refine (abs_add_le _ _).trans (add_le_add ((abs_add_le _ _).trans (add_le_add ?_ ?_)) ?_)
    · rw [abs_neg]; exact ed
    · rw [abs_mul]; exact mul_le_mul_of_nonneg_left ec (abs_nonneg _)
    · rw [abs_mul, abs_neg]
      exact mul_le_mul_of_nonneg_right k1 (abs_nonneg _)

/-- **C117.** The focal lengths from the vertices `v1` and `v2`; the exact ones are `v1 - d/c` and `l - a/c - v2`. -/
theorem C117_vertices (hr : Rounding rnd u) {m : Mat (Fl K rnd)} {a c d l n1 n2 : K} (hm : Holds m a c d l n1 n2) (hp : m.hasPower = true) (hn : n2 ≠ 0)
    {v1 v2 : K} (h1 : m.frontVertex = some (num v1)) (h2 : m.backVertex = some (num v2)) :
    ∃ x1 x2, m.frontFocalLength = .ok (some (num x1)) ∧ m.backFocalLength = .ok (some (num x2)) ∧
      |x1 - (v1 - d / c)| ≤ relErr u 6 * ((2 * |n1 / n2| + |d|) / |c| + |v1|) ∧
      |x2 - (l - a / c - v2)| ≤ relErr u 5 * (|l| + (|1 - a| + 1) / |c| + |v2|) := by
  obtain ⟨x1, x2, p1, p2, p3⟩ := planes_near hr hm hp hn 0
  obtain ⟨f1, f2, q1, q2, q3⟩ := focal_near hr hm hp hn
  obtain ⟨y1, e1, -, k1⟩ := ((p2.sub hr (q2.mono hr.nonneg (by omega : 2 ≤ 4) le_rfl)).sub hr
    ((near_num (rnd := rnd) u v1).mono hr.nonneg (by omega : 0 ≤ 4 + 1) le_rfl)).neg
  obtain ⟨y2, e2, -, k2⟩ := (p3.add hr (q3.mono hr.nonneg (by omega : 1 ≤ 3) le_rfl)).sub hr
    ((near_num (rnd := rnd) u v2).mono hr.nonneg (by omega : 0 ≤ 3 + 1) le_rfl)
  rw [← zero_num hr] at p1
  refine ⟨y1, y2, ?_, ?_, ?_, ?_⟩
  · unfold Mat.frontFocalLength
    rw [h1]
    simp only [hp, if_true, p1, q1, bind, Except.bind, pure, Except.pure, e1]
  · unfold Mat.backFocalLength
    rw [h2]
    simp only [hp, if_true, p1, q1, bind, Except.bind, pure, Except.pure, e2]
  · have r1 : -(0 - (n1 / n2 - d) / c - -(n1 / n2) / c - v1) = v1 - d / c := by ring
    have r2 : |(0 : K)| + (|n1 / n2| + |d|) / |c| + |n1 / n2| / |c| + |v1| = (2 * |n1 / n2| + |d|) / |c| + |v1| := by rw [abs_zero]; ring
    rw [r1, r2] at k1
    exact k1
  · have r1 : 0 + l + (1 - a) / c + -1 / c - v2 = l - a / c - v2 := by ring
    have r2 : |(0 : K)| + |l| + |1 - a| / |c| + 1 / |c| + |v2| = |l| + (|1 - a| + 1) / |c| + |v2| := by rw [abs_zero]; ring
    rw [r1, r2] at k2
    exact k2

/-- In Python floats, these errors are below 7·10⁻¹⁶ of the sizes of the numbers involved. -/
theorem C117_double (k : ℕ) (hk : k ≤ 6) : relErr unitRoundoff k ≤ 7 / 10 ^ 16 := by
  have hu : (0 : ℚ) ≤ unitRoundoff := double_rounding.nonneg
  refine (relErr_mono hu hk).trans ((C95_bound hu 6 (by norm_num [unitRoundoff])).trans ?_)
  norm_num [unitRoundoff]

/-- foci of a part, for examples -/
def fociOf (p : Part ℚ) : Except PyErr (Option (Double × Double)) := p.buildR double >>= fun e => e.mat.focusPositions (num 0)

/-- Violated to the last digit: the back focus of `Lens(f=49)` is not at 49; nor is a bound in proportion of the position possible: the front focus of
`[Space(49), Lens(f=49), Space(49)]` is not at 0. -/
theorem C117_violated : fociOf (.lens 49 none) = .ok (some (num (-6896136929411073 / 2 ^ 47), num (6896136929411073 / 2 ^ 47))) ∧
    (6896136929411073 / 2 ^ 47 : ℚ) = 49 + 1 / 2 ^ 47 ∧
    fociOf (.group "" [.space 49 1 none, .lens 49 none, .space 49 1 none]) = .ok (some (num (-1 / 2 ^ 47), num 98)) := by
  refine ⟨by decide +kernel, by norm_num, by decide +kernel⟩

/-- The hypotheses are met by `ThickLens(n=1.5, R1=10, R2=-10, thickness=5)`, built in floats and exactly. -/
theorem C117_example : (match (Part.thickLens (3 / 2) (some 10) (some (-10)) 5 none : Part ℚ).buildR double with
      | .ok e => e.mat.hasPower && decide (e.mat.frontIndex = num 1) && decide (e.mat.backIndex = num 1) && decide (e.mat.frontVertex = some (num 0)) &&
          decide (e.mat.backVertex = some (num 5))
      | _ => false) = true ∧
    (match (Part.thickLens (3 / 2) (some 10) (some (-10)) 5 none : Part ℚ).build with
      | .ok e => decide (e.mat.focusPositions (fin 0) = .ok (some (fin (-100 / 11), fin (155 / 11))))
      | _ => false) = true := by
  refine ⟨by decide +kernel, by decide +kernel⟩

end RT
