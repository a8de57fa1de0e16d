import Verif.Lemmas.RoundedMediaInvariant
import Verif.Props.RoundedInvariant
import Verif.Props.RoundedMedia

/-! # C116: the optical invariant in floats, with interfaces and media -/

set_option linter.unusedSectionVars false

namespace RT
open PyNum Ext Fl
variable {K : Type} [Field K] [LinearOrder K] [IsStrictOrderedRing K]
variable {rnd : K → K} {u : K}

/-- **C116.** In rounded arithmetic, the optical invariant of two rays at a position `z` of a path through media of any indices, from a medium of index `n0`, is the one
at the entrance, `n0 (θ₁ y₂ - y₁ θ₂)`, up to the rounding errors, when the path begins in air or when the matrix up to `z` is not computed as the identity:
`s` is the beginning of the path up to `z`, `n` the index there. -/
theorem C116_media (hr : Rounding rnd u) {label : String} {ps : List (Part K)} {n0 n1 : K} (ha : (Part.group label ps).Between u n0 n1) {e : Elem (Fl K rnd)}
    (hb : (Part.group label ps).buildR rnd = .ok e) {z : K} (hz : 0 ≤ z) {m : Mat (Fl K rnd)} (hm : e.transferMatrix (num z) = .ok m)
    (hid : n0 = 1 ∨ m.isIdentity = false)
    {h : Heap (Fl K rnd)} {a1 a2 : Nat} (l2 : a2 < h.length) {y1 θ1 y2 θ2 : K}
    (hy1 : (h.get a1).y = num y1) (hθ1 : (h.get a1).theta = num θ1) (b1 : (h.get a1).isBlocked = false)
    (hy2 : (h.get a2).y = num y2) (hθ2 : (h.get a2).theta = num θ2) (b2 : (h.get a2).isBlocked = false) :
    ∃ x v s n, (e.opticalInvariantH a1 a2 (num z) h).1 = .ok (num x) ∧ (Part.group label ps).UpTo v s ∧
      (|v - z| ≤ posErr u (Part.group label ps) z ∨
        s = (Part.group label ps).rmat ∧ v = (Part.group label ps).rmat.exact.len ∧ v ≤ z + posErr u (Part.group label ps) z) ∧
      |n * s.exact.dt - n0| ≤ |n| * s.detErr u ∧ |x - n0 * (θ1 * y2 - y1 * θ2)| ≤ 2 * relErr u (2 * s.ops + 7) * (|n| * s.invMaj y1 θ1 y2 θ2) := by
  set p := Part.group label ps with hp
  have hshow := buildR_shows hr hb
  obtain ⟨v, s, hup, hpos, hnear, n, hn, hdt⟩ : ∃ v s, p.UpTo v s ∧
      (|v - z| ≤ posErr u p z ∨ s = p.rmat ∧ v = p.rmat.exact.len ∧ v ≤ z + posErr u p z) ∧ NearMat u m s ∧
      ∃ n, m.backIndex = num n ∧ |n * s.exact.dt - n0| ≤ |n| * s.detErr u := by
    have hn0 : n0 ≠ 0 := by rw [hp] at ha; unfold Part.Between at ha; exact ha.1
    cases e with
    | leaf _ => exact hshow.elim
    | group m0 c es =>
      obtain ⟨k', hc⟩ := buildR_chain hr ha hb
      unfold Elem.transferMatrix at hm
      have i1 : (Mat.one : Mat (Fl K rnd)).isIdentity = true := identity_of_coeffs hr ⟨one_num hr, zero_num hr, zero_num hr, one_num hr⟩
      have hacc : (decide (n0 = 1) = false ∧ (Mat.one : Mat (Fl K rnd)).isIdentity = true) ∨ (Mat.one : Mat (Fl K rnd)).backIndex = num n0 := by
        by_cases h1 : n0 = 1
        · exact .inr (by rw [h1]; exact one_num hr)
        · exact .inl ⟨by simp [h1], i1⟩
      obtain ⟨g1, g2⟩ := group_len label ps
      have := cutList_afterMedia (n0 := n0) hr hshow.2 hc (nearMat_one hr) hacc hn0 (by simp [RStage.one, Stage.dt, hn0]) hz (k := 0) (d := z) (D := z)
        (by rw [abs_of_nonneg hz]) (by simp) hm
      rw [Nat.zero_add] at this
      have hafter : ∀ {s : RStage K}, AfterMedia u (decide (n0 = 1)) n0 m s → ∃ n, m.backIndex = num n ∧ |n * s.exact.dt - n0| ≤ |n| * s.detErr u := by
        rintro s (⟨q1, q2⟩ | q)
        · rcases hid with hid | hid
          · simp [hid] at q1
          · rw [hid] at q2; cases q2
        · exact q
      rcases this with ⟨v, s, h1, h2, h3, h4⟩ | ⟨h1, h2, h3⟩
      · refine ⟨v, s, .inl ?_, .inl ?_, h2, hafter h3⟩
        · rw [hp]; unfold Part.CutAt; exact h1
        · unfold posErr; rw [hp, g2]; unfold Part.cutOps; exact h4
      · refine ⟨p.rmat.exact.len, p.rmat, .inr ⟨rfl, rfl⟩, .inr ⟨rfl, rfl, ?_⟩, ?_, hafter ?_⟩
        · rw [hp, g1]; unfold posErr; rw [g2]; unfold Part.cutOps; exact h3
        · rw [hp]; unfold Part.rmat; exact h1
        · rw [hp]; unfold Part.rmat; exact h2
  have hopen : OpenMat m := by
    cases e with
    | leaf _ => exact hshow.elim
    | group m0 c es =>
      unfold Elem.transferMatrix at hm
      exact group_matrix_open (acc := Mat.one) ⟨rfl, rfl⟩ hm
  -- the two rays
  have t1 := open_ray hr hopen hy1 b1
  have g2 : Heap.get (h ++ [m.mulRayBase (h.get a1)]) a2 = h.get a2 := Heap.get_append_lt h _ l2
  have t2 := open_ray hr hopen (h := h ++ [m.mulRayBase (h.get a1)]) (a := a2) (by rw [g2]; exact hy2) (by rw [g2]; exact b2)
  rw [g2] at t2
  obtain ⟨n1, n2⟩ := open_out hr hnear hy1 hθ1 b1
  obtain ⟨n3, n4⟩ := open_out hr hnear hy2 hθ2 b2
  have hval : (e.opticalInvariantH a1 a2 (num z) h).1 = .ok (num n * ((m.mulRayBase (h.get a1)).theta * (m.mulRayBase (h.get a2)).y -
      (m.mulRayBase (h.get a1)).y * (m.mulRayBase (h.get a2)).theta)) := by
    unfold Elem.opticalInvariantH
    rw [hm]
    dsimp only
    rw [t1]
    dsimp only
    rw [t2]
    dsimp only
    rw [Heap.get_append_eq (h ++ [m.mulRayBase (h.get a1)]) _, Heap.get_append_lt (h ++ [m.mulRayBase (h.get a1)]) _ (a := h.length) (by simp),
      Heap.get_append_eq, hn]
  obtain ⟨x, hx, hmaj, herr⟩ := (near_num (rnd := rnd) u n).mul hr ((n2.mul hr n3).sub hr (n1.mul hr n4))
  rw [hx] at hval
  refine ⟨x, v, s, n, hval, hup, hpos, hdt, ?_⟩
  have e0 : 0 + (s.ops + 2 + (s.ops + 2) + 1 + 1) + 1 = 2 * s.ops + 7 := by omega
  rw [e0] at herr
  have hM : |n| * ((s.maj.c * |y1| + s.maj.d * |θ1|) * (s.maj.a * |y2| + s.maj.b * |θ2|) +
      (s.maj.a * |y1| + s.maj.b * |θ1|) * (s.maj.c * |y2| + s.maj.d * |θ2|)) = |n| * s.invMaj y1 θ1 y2 θ2 := rfl
  rw [hM] at herr
  have e1 : (s.exact.c * y1 + s.exact.d * θ1) * (s.exact.a * y2 + s.exact.b * θ2) -
      (s.exact.a * y1 + s.exact.b * θ1) * (s.exact.c * y2 + s.exact.d * θ2) = s.exact.dt * (θ1 * y2 - y1 * θ2) := by
    unfold Stage.dt; ring
  rw [e1] at herr
  have c1 := hnear.A.nonneg
  have c2 := hnear.B.nonneg
  have c3 := hnear.C.nonneg
  have c4 := hnear.D.nonneg
  have hM0 : 0 ≤ s.invMaj y1 θ1 y2 θ2 := by unfold RStage.invMaj; positivity
  have hE := relErr_nonneg hr.nonneg (2 * s.ops + 7)
  have hEM : 0 ≤ relErr u (2 * s.ops + 7) * (|n| * s.invMaj y1 θ1 y2 θ2) := by positivity
  have h3 : |n * (s.exact.dt * (θ1 * y2 - y1 * θ2)) - n0 * (θ1 * y2 - y1 * θ2)| ≤ relErr u (2 * s.ops + 7) * (|n| * s.invMaj y1 θ1 y2 θ2) := by
      rw [show n * (s.exact.dt * (θ1 * y2 - y1 * θ2)) - n0 * (θ1 * y2 - y1 * θ2) = (n * s.exact.dt - n0) * (θ1 * y2 - y1 * θ2) by ring, abs_mul]
      have h4 : |θ1 * y2 - y1 * θ2| ≤ |θ1| * |y2| + |y1| * |θ2| := by
        refine (abs_sub _ _).trans ?_
        rw [abs_mul, abs_mul]
      have h5 : (s.maj.a * s.maj.d + s.maj.b * s.maj.c) * (|θ1| * |y2| + |y1| * |θ2|) ≤ s.invMaj y1 θ1 y2 θ2 := by
        unfold RStage.invMaj
        have : (s.maj.c * |y1| + s.maj.d * |θ1|) * (s.maj.a * |y2| + s.maj.b * |θ2|) + (s.maj.a * |y1| + s.maj.b * |θ1|) * (s.maj.c * |y2| + s.maj.d * |θ2|) =
            (s.maj.a * s.maj.d + s.maj.b * s.maj.c) * (|θ1| * |y2| + |y1| * |θ2|) + 2 * (s.maj.a * s.maj.c * (|y1| * |y2|)) +
              2 * (s.maj.b * s.maj.d * (|θ1| * |θ2|)) := by ring
        rw [this]
        have : 0 ≤ s.maj.a * s.maj.c * (|y1| * |y2|) := by positivity
        have : 0 ≤ s.maj.b * s.maj.d * (|θ1| * |θ2|) := by positivity
        linarith
      unfold RStage.detErr at hdt
      calc |n * s.exact.dt - n0| * |θ1 * y2 - y1 * θ2|
          ≤ (|n| * (relErr u (2 * s.ops + 2) * (s.maj.a * s.maj.d + s.maj.b * s.maj.c))) * (|θ1| * |y2| + |y1| * |θ2|) :=
            mul_le_mul hdt h4 (abs_nonneg _) ((abs_nonneg _).trans hdt)
        _ = |n| * (relErr u (2 * s.ops + 2) * ((s.maj.a * s.maj.d + s.maj.b * s.maj.c) * (|θ1| * |y2| + |y1| * |θ2|))) := by ring
        _ ≤ |n| * (relErr u (2 * s.ops + 7) * s.invMaj y1 θ1 y2 θ2) :=
            mul_le_mul_of_nonneg_left (relErr_grow hr.nonneg (by omega) (by positivity) h5) (abs_nonneg _)
        _ = _ := by ring
  have := abs_sub_le x (n * (s.exact.dt * (θ1 * y2 - y1 * θ2))) (n0 * (θ1 * y2 - y1 * θ2))
  rw [mul_assoc]
  linarith

/-- Violated in glass: the optical invariant of a path that begins in glass is not that of its entrance, since the beginning of the path is then the identity, which is
taken to be in air. -/
theorem C116_violated_glass : invariantAt (.group "" [.space 10 (3 / 2) none]) (1, 0) (3, 1 / 4) 0 = .ok (num (-1 / 4)) ∧
    invariantAt (.group "" [.space 10 (3 / 2) none]) (1, 0) (3, 1 / 4) 5 = .ok (num (-3 / 8)) := by
  decide +kernel

/-- The hypotheses are met by the cell in oil of C96, with a position in the cell. -/
theorem C116_media_example : immersed.Between unitRoundoff 1 1 ∧ invariantAt immersed (1 / 2, 1 / 16) (3, 1 / 4) 26 ≠ .error .valueError ∧
    (match invariantAt immersed (1 / 2, 1 / 16) (3, 1 / 4) 26 with
      | .ok x => (num (1 / 16 - 1 / 10 ^ 10) <. x) && (x <. num (1 / 16 + 1 / 10 ^ 10))
      | _ => false) = true := by
  refine ⟨immersed_between, by decide +kernel, by decide +kernel⟩

end RT
