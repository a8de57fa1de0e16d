import Verif.Lemmas.RoundedInvariant
import Verif.Props.RoundedPosition

/-! # C116: the optical invariant in floats -/

set_option linter.unusedSectionVars false

namespace RT
open PyNum Ext Fl
variable {K : Type} [Field K] [LinearOrder K] [IsStrictOrderedRing K]
variable {rnd : K → K} {u : K}

/-- majorant of the optical invariant of two rays computed after `s` -/
def RStage.invMaj (s : RStage K) (y1 θ1 y2 θ2 : K) : K :=
  (s.maj.c * |y1| + s.maj.d * |θ1|) * (s.maj.a * |y2| + s.maj.b * |θ2|) + (s.maj.a * |y1| + s.maj.b * |θ1|) * (s.maj.c * |y2| + s.maj.d * |θ2|)

/-- matrices made by `transferMatrix` of a group: no aperture -/
def OpenMat {F : Type} [PyNum F] (m : Mat F) : Prop := m.apertureDiameter = inf ∧ m.kind = .matrix

theorem group_matrix_open {F : Type} [PyNum F] : ∀ {es : List (Elem F)} {w : F} {acc t : Mat F}, OpenMat acc →
    transferMatrixList es w acc = .ok t → OpenMat t
  | [], w, acc, t, h, ht => by
    simp only [transferMatrixList, Except.ok.injEq] at ht
    exact ht ▸ h
  | e :: es, w, acc, t, h, ht => by
    unfold transferMatrixList at ht
    split_ifs at ht
    · split at ht
      · cases ht
      · next q hq =>
        rw [mulMatrix_okF hq] at ht
        exact group_matrix_open (acc := e.mat.mulRaw acc) ⟨rfl, rfl⟩ ht
    · split at ht
      · cases ht
      · rw [mulMatrix_okF ht]; exact ⟨rfl, rfl⟩

/-- a matrix without aperture and a ray: one more ray object, nothing else changes -/
theorem open_ray (hr : Rounding rnd u) {m : Mat (Fl K rnd)} (hm : OpenMat m) {a : Nat} {h : Heap (Fl K rnd)} {y : K}
    (hy : (h.get a).y = num y) (hb : (h.get a).isBlocked = false) :
    m.traceThroughH a h = (h.length, h ++ [m.mulRayBase (h.get a)]) := by
  have hk : m.mulRayH a h = (h.length, h ++ [m.mulRayBase (h.get a)]) := by
    unfold Mat.mulRayH
    rw [hm.2]
    simp [Mat.mulRayBaseH, hb]
  have hmark : m.markEntry a h = h := by
    unfold Mat.markEntry
    rw [hm.1, hy, abs_num, if_neg]
    change ¬ (half (optNum none : Fl K rnd) <. num |y|) = true
    rw [lt_half_of_num hr]
    simp
  unfold Mat.traceThroughH Mat.traceH
  rw [hmark, hk]
  split_ifs <;> simp [hk]

theorem open_out (hr : Rounding rnd u) {m : Mat (Fl K rnd)} {s : RStage K} (hm : NearMat u m s) {r : Ray (Fl K rnd)} {y θ : K} (hy : r.y = num y)
    (hθ : r.theta = num θ) (hb : r.isBlocked = false) :
    Fl.Near u (s.ops + 2) (m.mulRayBase r).y (s.exact.a * y + s.exact.b * θ) (s.maj.a * |y| + s.maj.b * |θ|) ∧
    Fl.Near u (s.ops + 2) (m.mulRayBase r).theta (s.exact.c * y + s.exact.d * θ) (s.maj.c * |y| + s.maj.d * |θ|) := by
  simp only [Mat.mulRayBase, hb, Bool.false_eq_true, if_false, hy, hθ]
  have ny := near_num (rnd := rnd) u y
  have nθ := near_num (rnd := rnd) u θ
  exact ⟨((hm.A.mul hr ny).add hr (hm.B.mul hr nθ)).mono hr.nonneg (by omega) le_rfl,
    ((hm.C.mul hr ny).add hr (hm.D.mul hr nθ)).mono hr.nonneg (by omega) le_rfl⟩

/-- **C116.** In rounded arithmetic, the optical invariant of two rays at a position `z` of a path in air is the one at the entrance, `θ₁ y₂ - y₁ θ₂`, up to the
rounding errors: `s` is the beginning of the path up to `z`, `n` the index there. -/
theorem C116_value (hr : Rounding rnd u) {label : String} {ps : List (Part K)} (ha : (Part.group label ps).InAir) {e : Elem (Fl K rnd)}
    (hb : (Part.group label ps).buildR rnd = .ok e) {z : K} (hz : 0 ≤ z) {m : Mat (Fl K rnd)} (hm : e.transferMatrix (num z) = .ok m)
    {h : Heap (Fl K rnd)} {a1 a2 : Nat} (l2 : a2 < h.length) {y1 θ1 y2 θ2 : K}
    (hy1 : (h.get a1).y = num y1) (hθ1 : (h.get a1).theta = num θ1) (b1 : (h.get a1).isBlocked = false)
    (hy2 : (h.get a2).y = num y2) (hθ2 : (h.get a2).theta = num θ2) (b2 : (h.get a2).isBlocked = false) :
    ∃ x v s n, (e.opticalInvariantH a1 a2 (num z) h).1 = .ok (num x) ∧ (Part.group label ps).UpTo v s ∧
      (|v - z| ≤ posErr u (Part.group label ps) z ∨
        s = (Part.group label ps).rmat ∧ v = (Part.group label ps).rmat.exact.len ∧ v ≤ z + posErr u (Part.group label ps) z) ∧
      (n * s.exact.dt = 1 ∨ n = 1) ∧
      |x - (θ1 * y2 - y1 * θ2)| ≤ 2 * relErr u (2 * s.ops + 7) * (|n| * s.invMaj y1 θ1 y2 θ2) := by
  set p := Part.group label ps with hp
  have hshow := buildR_shows hr hb
  obtain ⟨v, s, hup, hpos, hnear, n, hn, hdt⟩ : ∃ v s, p.UpTo v s ∧
      (|v - z| ≤ posErr u p z ∨ s = p.rmat ∧ v = p.rmat.exact.len ∧ v ≤ z + posErr u p z) ∧ NearMat u m s ∧ AfterIndex u m s := by
    have := cut_after hr hshow ha (buildR_airThrough hr ha hb) hz (k := 0) (d := z) (D := z) (by rw [abs_of_nonneg hz]) (by simp) hm
    rw [Nat.zero_add] at this
    rcases this with ⟨v, s, h1, h2, h3, h4⟩ | ⟨h1, h2, h3⟩
    · exact ⟨v, s, .inl h1, .inl h4, h2, h3⟩
    · exact ⟨_, _, .inr ⟨rfl, rfl⟩, .inr ⟨rfl, rfl, h3⟩, h1, h2⟩
  have hopen : OpenMat m := by
    cases e with
    | leaf _ => exact hshow.elim
    | group m0 c es =>
      unfold Elem.transferMatrix at hm
      exact group_matrix_open (acc := Mat.one) ⟨rfl, rfl⟩ hm
  -- the two rays
  have t1 := open_ray hr hopen hy1 b1
  have g2 : Heap.get (h ++ [m.mulRayBase (h.get a1)]) a2 = h.get a2 := Heap.get_append_lt h _ l2
  have t2 := open_ray hr hopen (h := h ++ [m.mulRayBase (h.get a1)]) (a := a2) (by rw [g2]; exact hy2) (by rw [g2]; exact b2)
  rw [g2] at t2
  obtain ⟨n1, n2⟩ := open_out hr hnear hy1 hθ1 b1
  obtain ⟨n3, n4⟩ := open_out hr hnear hy2 hθ2 b2
  have hval : (e.opticalInvariantH a1 a2 (num z) h).1 = .ok (num n * ((m.mulRayBase (h.get a1)).theta * (m.mulRayBase (h.get a2)).y -
      (m.mulRayBase (h.get a1)).y * (m.mulRayBase (h.get a2)).theta)) := by
    unfold Elem.opticalInvariantH
    rw [hm]
    dsimp only
    rw [t1]
    dsimp only
    rw [t2]
    dsimp only
    rw [Heap.get_append_eq (h ++ [m.mulRayBase (h.get a1)]) _, Heap.get_append_lt (h ++ [m.mulRayBase (h.get a1)]) _ (a := h.length) (by simp),
      Heap.get_append_eq, hn]
  obtain ⟨x, hx, hmaj, herr⟩ := (near_num (rnd := rnd) u n).mul hr ((n2.mul hr n3).sub hr (n1.mul hr n4))
  rw [hx] at hval
  refine ⟨x, v, s, n, hval, hup, hpos, hdt.imp_right And.left, ?_⟩
  have e0 : 0 + (s.ops + 2 + (s.ops + 2) + 1 + 1) + 1 = 2 * s.ops + 7 := by omega
  rw [e0] at herr
  have hM : |n| * ((s.maj.c * |y1| + s.maj.d * |θ1|) * (s.maj.a * |y2| + s.maj.b * |θ2|) +
      (s.maj.a * |y1| + s.maj.b * |θ1|) * (s.maj.c * |y2| + s.maj.d * |θ2|)) = |n| * s.invMaj y1 θ1 y2 θ2 := rfl
  rw [hM] at herr
  have e1 : (s.exact.c * y1 + s.exact.d * θ1) * (s.exact.a * y2 + s.exact.b * θ2) -
      (s.exact.a * y1 + s.exact.b * θ1) * (s.exact.c * y2 + s.exact.d * θ2) = s.exact.dt * (θ1 * y2 - y1 * θ2) := by
    unfold Stage.dt; ring
  rw [e1] at herr
  have c1 := hnear.A.nonneg
  have c2 := hnear.B.nonneg
  have c3 := hnear.C.nonneg
  have c4 := hnear.D.nonneg
  have hM0 : 0 ≤ s.invMaj y1 θ1 y2 θ2 := by unfold RStage.invMaj; positivity
  have hE := relErr_nonneg hr.nonneg (2 * s.ops + 7)
  have hEM : 0 ≤ relErr u (2 * s.ops + 7) * (|n| * s.invMaj y1 θ1 y2 θ2) := by positivity
  rcases hdt with hdt | ⟨rfl, hdt⟩
  · rw [← mul_assoc, hdt, one_mul] at herr
    rw [mul_assoc]
    linarith
  · rw [one_mul] at herr
    have h3 : |s.exact.dt * (θ1 * y2 - y1 * θ2) - (θ1 * y2 - y1 * θ2)| ≤ relErr u (2 * s.ops + 7) * (|(1 : K)| * s.invMaj y1 θ1 y2 θ2) := by
      rw [show s.exact.dt * (θ1 * y2 - y1 * θ2) - (θ1 * y2 - y1 * θ2) = (s.exact.dt - 1) * (θ1 * y2 - y1 * θ2) by ring, abs_mul]
      have h4 : |θ1 * y2 - y1 * θ2| ≤ |θ1| * |y2| + |y1| * |θ2| := by
        refine (abs_sub _ _).trans ?_
        rw [abs_mul, abs_mul]
      have h5 : (s.maj.a * s.maj.d + s.maj.b * s.maj.c) * (|θ1| * |y2| + |y1| * |θ2|) ≤ s.invMaj y1 θ1 y2 θ2 := by
        unfold RStage.invMaj
        have : (s.maj.c * |y1| + s.maj.d * |θ1|) * (s.maj.a * |y2| + s.maj.b * |θ2|) + (s.maj.a * |y1| + s.maj.b * |θ1|) * (s.maj.c * |y2| + s.maj.d * |θ2|) =
            (s.maj.a * s.maj.d + s.maj.b * s.maj.c) * (|θ1| * |y2| + |y1| * |θ2|) + 2 * (s.maj.a * s.maj.c * (|y1| * |y2|)) +
              2 * (s.maj.b * s.maj.d * (|θ1| * |θ2|)) := by ring
        rw [this]
        have : 0 ≤ s.maj.a * s.maj.c * (|y1| * |y2|) := by positivity
        have : 0 ≤ s.maj.b * s.maj.d * (|θ1| * |θ2|) := by positivity
        linarith
      unfold RStage.detErr at hdt
      calc |s.exact.dt - 1| * |θ1 * y2 - y1 * θ2|
          ≤ (relErr u (2 * s.ops + 2) * (s.maj.a * s.maj.d + s.maj.b * s.maj.c)) * (|θ1| * |y2| + |y1| * |θ2|) :=
            mul_le_mul hdt h4 (abs_nonneg _) ((abs_nonneg _).trans hdt)
        _ = relErr u (2 * s.ops + 2) * ((s.maj.a * s.maj.d + s.maj.b * s.maj.c) * (|θ1| * |y2| + |y1| * |θ2|)) := by ring
        _ ≤ relErr u (2 * s.ops + 7) * s.invMaj y1 θ1 y2 θ2 := relErr_grow hr.nonneg (by omega) (by positivity) h5
        _ = _ := by rw [abs_one, one_mul]
    have := abs_sub_le x (s.exact.dt * (θ1 * y2 - y1 * θ2)) (θ1 * y2 - y1 * θ2)
    rw [mul_assoc]
    linarith

/-- The optical invariant in floats at two positions of the same path in air: it is conserved up to the rounding errors of both computations. -/
theorem C116_conserved (hr : Rounding rnd u) {label : String} {ps : List (Part K)} (ha : (Part.group label ps).InAir) {e : Elem (Fl K rnd)}
    (hb : (Part.group label ps).buildR rnd = .ok e) {z z' : K} (hz : 0 ≤ z) (hz' : 0 ≤ z') {m m' : Mat (Fl K rnd)}
    (hm : e.transferMatrix (num z) = .ok m) (hm' : e.transferMatrix (num z') = .ok m')
    {h : Heap (Fl K rnd)} {a1 a2 : Nat} (l2 : a2 < h.length) {y1 θ1 y2 θ2 : K}
    (hy1 : (h.get a1).y = num y1) (hθ1 : (h.get a1).theta = num θ1) (b1 : (h.get a1).isBlocked = false)
    (hy2 : (h.get a2).y = num y2) (hθ2 : (h.get a2).theta = num θ2) (b2 : (h.get a2).isBlocked = false) {E : K}
    (hE : ∀ v s n, (Part.group label ps).UpTo v s → (n * s.exact.dt = 1 ∨ n = 1) → 2 * relErr u (2 * s.ops + 7) * (|n| * s.invMaj y1 θ1 y2 θ2) ≤ E) :
    ∃ x x', (e.opticalInvariantH a1 a2 (num z) h).1 = .ok (num x) ∧ (e.opticalInvariantH a1 a2 (num z') h).1 = .ok (num x') ∧ |x - x'| ≤ 2 * E := by
  obtain ⟨x, v, s, n, h1, h2, -, h3, h4⟩ := C116_value hr ha hb hz hm l2 hy1 hθ1 b1 hy2 hθ2 b2
  obtain ⟨x', v', s', n', h1', h2', -, h3', h4'⟩ := C116_value hr ha hb hz' hm' l2 hy1 hθ1 b1 hy2 hθ2 b2
  refine ⟨x, x', h1, h1', ?_⟩
  have k1 := h4.trans (hE v s n h2 h3)
  have k2 := h4'.trans (hE v' s' n' h2' h3')
  rw [abs_sub_comm] at k2
  have := abs_sub_le x (θ1 * y2 - y1 * θ2) x'
  linarith

/-- two rays and a path, for examples -/
def invariantAt (p : Part ℚ) (r1 r2 : ℚ × ℚ) (z : ℚ) : Except PyErr Double :=
  match p.buildR double with
  | .error x => .error x
  | .ok e => (e.opticalInvariantH 0 1 (num z) [Ray.new (num r1.1) (num r1.2), Ray.new (num r2.1) (num r2.2)]).1

/-- `[Space(10), Lens(f=10, diameter=10), Space(30), Lens(f=20, diameter=15), Space(20)]`, the example of the documentation -/
def docPath : Part ℚ := .group "" [.space 10 1 none, .lens 10 (some 10), .space 30 1 none, .lens 20 (some 15), .space 20 1 none]

/-- In Python floats, up to 1000 roundings: the error is at most 10⁻¹² of the majorant. -/
theorem C116_double {label : String} {ps : List (Part ℚ)} (ha : (Part.group label ps).InAir) {e : Elem Double}
    (hb : (Part.group label ps).buildR double = .ok e) {z : ℚ} (hz : 0 ≤ z) {m : Mat Double} (hm : e.transferMatrix (num z) = .ok m)
    {h : Heap Double} {a1 a2 : Nat} (l2 : a2 < h.length) {y1 θ1 y2 θ2 : ℚ}
    (hy1 : (h.get a1).y = num y1) (hθ1 : (h.get a1).theta = num θ1) (b1 : (h.get a1).isBlocked = false)
    (hy2 : (h.get a2).y = num y2) (hθ2 : (h.get a2).theta = num θ2) (b2 : (h.get a2).isBlocked = false)
    (hops : ∀ v s, (Part.group label ps).UpTo v s → s.ops ≤ 1000) {M : ℚ} (hM0 : 0 ≤ M)
    (hM : ∀ v s n, (Part.group label ps).UpTo v s → (n * s.exact.dt = 1 ∨ n = 1) → |n| * s.invMaj y1 θ1 y2 θ2 ≤ M) :
    ∃ x, (e.opticalInvariantH a1 a2 (num z) h).1 = .ok (num x) ∧ |x - (θ1 * y2 - y1 * θ2)| ≤ 1 / 10 ^ 12 * M := by
  obtain ⟨x, v, s, n, h1, h2, -, h3, h4⟩ := C116_value double_rounding ha hb hz hm l2 hy1 hθ1 b1 hy2 hθ2 b2
  refine ⟨x, h1, h4.trans ?_⟩
  have hu : (0 : ℚ) ≤ unitRoundoff := double_rounding.nonneg
  have k1 := hops v s h2
  have k2 := hM v s n h2 h3
  have e1 : relErr unitRoundoff (2 * s.ops + 7) ≤ relErr unitRoundoff 2007 := relErr_mono hu (by omega)
  have e2 : relErr unitRoundoff 2007 ≤ ((2007 : ℕ) : ℚ) * unitRoundoff / (1 - ((2007 : ℕ) : ℚ) * unitRoundoff) :=
    C95_bound hu 2007 (by norm_num [unitRoundoff])
  have e3 : ((2007 : ℕ) : ℚ) * unitRoundoff / (1 - ((2007 : ℕ) : ℚ) * unitRoundoff) ≤ 1 / 10 ^ 12 / 2 := by norm_num [unitRoundoff]
  have e4 : 0 ≤ relErr unitRoundoff (2 * s.ops + 7) := relErr_nonneg hu _
  have e5 : 2 * relErr unitRoundoff (2 * s.ops + 7) ≤ 1 / 10 ^ 12 := by linarith
  calc 2 * relErr unitRoundoff (2 * s.ops + 7) * (|n| * s.invMaj y1 θ1 y2 θ2)
      ≤ 2 * relErr unitRoundoff (2 * s.ops + 7) * M := mul_le_mul_of_nonneg_left k2 (by linarith)
    _ ≤ 1 / 10 ^ 12 * M := mul_le_mul_of_nonneg_right e5 hM0

/-- `[Space(10), Lens(f=7), Space(30)]` -/
def seventh : Part ℚ := .group "" [.space 10 1 none, .lens 7 none, .space 30 1 none]

/-- The optical invariant is not conserved to the last digit: that of the rays (1, 0) and (3, 1/4) is -1/4 at the entrance and another float after the lens. -/
theorem C116_violated : invariantAt seventh (1, 0) (3, 1 / 4) 0 = .ok (num (-1 / 4)) ∧
    invariantAt seventh (1, 0) (3, 1 / 4) 10 = .ok (num (-2251799813685249 / 9007199254740992)) := by
  decide +kernel

/-- Nor is a bound on the error in proportion of the value possible: the rays (1, 1) and (3, 3) have an optical invariant of 0 at the entrance and at
`z = 13`, not at `z = 10`. -/
theorem C116_violated_relative : invariantAt seventh (1, 1) (3, 3) 0 = .ok (num 0) ∧ invariantAt seventh (1, 1) (3, 3) 13 = .ok (num 0) ∧
    invariantAt seventh (1, 1) (3, 3) 10 = .ok (num (1 / 2 ^ 48)) := by
  decide +kernel

/-- The hypotheses are met by the path of the documentation, where the value is the printed one, 0.025000000000000022, at the entrance and at the end. -/
theorem C116_example : docPath.InAir ∧ invariantAt docPath (1 / 2, double (1 / 20)) (3, 1 / 4) 0 = .ok (num (225179981368525 / 9007199254740992)) ∧
    invariantAt docPath (1 / 2, double (1 / 20)) (3, 1 / 4) 90 = .ok (num (225179981368525 / 9007199254740992)) := by
  refine ⟨?_, by decide +kernel, by decide +kernel⟩
  simp [docPath, Part.InAir, Part.InAirList, OpenDiam]

end RT
