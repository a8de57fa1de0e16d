import Verif.Props.RoundedMagnification
import Verif.Lemmas.Conjugates
import Verif.Props.Imaging

/-! # C130: the intermediate images in floats -/

set_option linter.unusedSectionVars false

namespace RT
open PyNum Ext Fl
variable {K : Type} [Field K] [LinearOrder K] [IsStrictOrderedRing K]
variable {rnd : K → K} {u : K}

/-- The plane at `P`, with magnification `M`, is the image of the entrance plane through `s` up to rounding errors: `P` is the length of `s` plus some `z`; at `z` behind
`s` the rays of a point meet up to the errors; and `M` times `D` is the determinant up to the errors. -/
def ImageNear (u : K) (s : RStage K) (P M : K) : Prop :=
  ∃ z d, d ≠ 0 ∧ |d - s.exact.d| ≤ relErr u s.ops * s.maj.d ∧
    |P - (s.exact.len + z)| ≤ relErr u (s.ops + 1) * (s.maj.len + |z|) ∧
    |s.exact.b + z * s.exact.d| ≤ (1 + u) * (relErr u s.ops * s.maj.b) + u * |s.exact.b| + |z| * (relErr u s.ops * s.maj.d) ∧
    |M * d - s.exact.dt| ≤ relErr u (2 * s.ops + 3) * (s.maj.a * s.maj.d + s.maj.b * s.maj.c)

/-- two planes that the code may take to be the same -/
def MaySame (u : K) (p q : K × K) : Prop :=
  (1 - u) * |p.1 - q.1| ≤ (1 + u) * (1 / 1000) ∧ (1 - u) * |p.2 - q.2| ≤ (1 + u) * (1 / 1000)

/-- two planes that the code may take to be different -/
def MayDiffer (u : K) (p q : K × K) : Prop :=
  (1 - u) * (1 / 1000) ≤ (1 + u) * |p.1 - q.1| ∨ (1 - u) * (1 / 1000) ≤ (1 + u) * |p.2 - q.2|

/-- a plane as computed -/
def numPlane (rnd : K → K) (p : K × K) : Fl K rnd × Fl K rnd := (num p.1, num p.2)

/-- `M` times `D` is the determinant -/
theorem NearMat.magnification (hr : Rounding rnd u) {t c : Mat (Fl K rnd)} {s : RStage K} (hn : NearMat u t s) {z : Fl K rnd}
    (h : t.forwardConjugate = .ok (z, some c)) : ∃ x d, c.A = num x ∧ t.D = num d ∧ d ≠ 0 ∧
      |x * d - s.exact.dt| ≤ relErr u (2 * s.ops + 3) * (s.maj.a * s.maj.d + s.maj.b * s.maj.c) := by
  obtain ⟨a, ea, -⟩ := id hn.A
  obtain ⟨b, eb, -⟩ := id hn.B
  obtain ⟨k, ek, -⟩ := id hn.C
  obtain ⟨d, ed, -⟩ := id hn.D
  obtain ⟨z', x, y, -, hx, -, -, h1, -⟩ := C118_forward hr ⟨ea, eb, ek, ed⟩ h
  obtain ⟨hd, -⟩ := forward_near hr ⟨ea, eb, ek, ed⟩ h
  refine ⟨x, d, hx, ed, hd, ?_⟩
  obtain ⟨p1, p2⟩ := near_prod hr.nonneg hn.A hn.D ea ed
  obtain ⟨q1, q2⟩ := near_prod hr.nonneg hn.B hn.C eb ek
  have h3 := relErr_nonneg hr.nonneg 3
  have e3 : relErr u (2 * s.ops + 3) = relErr u (2 * s.ops) + relErr u 3 * (1 + relErr u (2 * s.ops)) := by
    unfold relErr
    rw [pow_add]; ring
  have e4 : x * d - s.exact.dt = (x * d - (a * d - b * k)) + (a * d - s.exact.a * s.exact.d) - (b * k - s.exact.b * s.exact.c) := by
    unfold Stage.dt; ring
  rw [e4, e3]
  have t1 := abs_sub ((x * d - (a * d - b * k)) + (a * d - s.exact.a * s.exact.d)) (b * k - s.exact.b * s.exact.c)
  have t2 := abs_add_le (x * d - (a * d - b * k)) (a * d - s.exact.a * s.exact.d)
  have t3 : relErr u 3 * (|a * d| + |b * k|) ≤
      relErr u 3 * ((1 + relErr u (2 * s.ops)) * (s.maj.a * s.maj.d) + (1 + relErr u (2 * s.ops)) * (s.maj.b * s.maj.c)) :=
    mul_le_mul_of_nonneg_left (add_le_add p2 q2) h3
  linarith

/-- The plane computed behind a matrix of floats. -/
theorem NearMat.image (hr : Rounding rnd u) {t c : Mat (Fl K rnd)} {s : RStage K} (hn : NearMat u t s) {z : Fl K rnd}
    (h : t.forwardConjugate = .ok (z, some c)) : ∃ P M, t.L + z = num P ∧ c.A = num M ∧ ImageNear u s P M := by
  obtain ⟨x, d, hx, hd, hd0, h1⟩ := hn.magnification hr h
  obtain ⟨b, eb, hb1, hb2⟩ := id hn.B
  obtain ⟨d', ed, hd1, hd2⟩ := id hn.D
  have := num_inj (hd.symm.trans ed); subst this
  obtain ⟨⟨z', rfl, hz⟩, -, -⟩ := C98_conjugate hr eb ed h
  obtain ⟨P, eP, -, hP⟩ := hn.L.add hr ((near_num (rnd := rnd) u z').mono hr.nonneg (Nat.zero_le s.ops) le_rfl)
  refine ⟨P, x, eP, hx, z', d, hd0, hd2, hP, ?_, h1⟩
  have e1 : s.exact.b + z' * s.exact.d = (b + z' * d) - (b - s.exact.b) - z' * (d - s.exact.d) := by ring
  have t1 := abs_sub (b + z' * d - (b - s.exact.b)) (z' * (d - s.exact.d))
  have t2 := abs_sub (b + z' * d) (b - s.exact.b)
  have t3 : |z' * (d - s.exact.d)| ≤ |z'| * (relErr u s.ops * s.maj.d) := by
    rw [abs_mul]; exact mul_le_mul_of_nonneg_left hd2 (abs_nonneg _)
  have t4 : |b| ≤ |s.exact.b| + relErr u s.ops * s.maj.b := by
    have := abs_sub_abs_le_abs_sub b s.exact.b
    linarith
  have t5 : u * |b| ≤ u * (|s.exact.b| + relErr u s.ops * s.maj.b) := mul_le_mul_of_nonneg_left t4 hr.nonneg
  rw [e1]
  linarith

/-- no plane: `D` is zero within its error -/
theorem forward_none (hr : Rounding rnd u) {t : Mat (Fl K rnd)} {s : RStage K} (hn : NearMat u t s) {z : Fl K rnd}
    (h : t.forwardConjugate = .ok (z, none)) : |s.exact.d| ≤ relErr u s.ops * s.maj.d := by
  obtain ⟨d, ed, -, hd⟩ := id hn.D
  unfold Mat.forwardConjugate at h
  rw [ed, zero_num hr, eq_num] at h
  by_cases h0 : d = 0
  · subst h0
    simpa using hd
  · simp only [h0, decide_false, Bool.false_eq_true, if_false] at h
    obtain ⟨z1, -, h⟩ := bind_ok h
    obtain ⟨s1, -, h⟩ := bind_ok h
    obtain ⟨c1, -, h⟩ := bind_ok h
    simp [pure, Except.pure] at h

/-- the comparison of two numbers of planes -/
theorem close_plane (hr : Rounding rnd u) (x y : K) :
    (areAbsolutelyAlmostEqual (num x : Fl K rnd) (num y) (lit (1 / 1000)) = true → (1 - u) * |x - y| ≤ (1 + u) * (1 / 1000)) ∧
    (areAbsolutelyAlmostEqual (num x : Fl K rnd) (num y) (lit (1 / 1000)) = false → (1 - u) * (1 / 1000) ≤ (1 + u) * |x - y|) := by
  have ht : (((1 / 1000 : ℚ)) : K) = 1 / 1000 := by norm_num
  have h1 := hr.le_abs (1 / 1000 : K)
  have h2 := hr.abs_le (1 / 1000 : K)
  have hpos : 0 < rnd (1 / 1000 : K) := hr.pos (by norm_num)
  have h0 : (0 : K) < 1 / 1000 := by norm_num
  rw [abs_of_pos hpos, abs_of_pos h0] at h1 h2
  have h3 := hr.le_abs (x - y)
  have h4 := hr.abs_le (x - y)
  unfold areAbsolutelyAlmostEqual
  rw [num_sub, abs_num, lit_num, lt_num, ht]
  constructor
  · intro h
    have := of_decide_eq_true h
    linarith
  · intro h
    have := not_lt.1 (of_decide_eq_false h)
    linarith

/-- the search among the planes already listed -/
theorem planeKnown_near (hr : Rounding rnd u) (planes : List (K × K)) (P M : K) :
    (planeKnown (planes.map (numPlane rnd)) (num P) (num M) = true → ∃ q ∈ planes, MaySame u q (P, M)) ∧
    (planeKnown (planes.map (numPlane rnd)) (num P) (num M) = false → ∀ q ∈ planes, MayDiffer u q (P, M)) := by
  unfold planeKnown
  constructor
  · intro h
    rw [List.any_map, List.any_eq_true] at h
    obtain ⟨q, hq, h⟩ := h
    simp only [Function.comp, Bool.and_eq_true] at h
    exact ⟨q, hq, (close_plane hr _ _).1 h.1, (close_plane hr _ _).1 h.2⟩
  · intro h q hq
    rw [List.any_map, List.any_eq_false] at h
    have h := h q hq
    simp only [Function.comp, Bool.not_eq_true, Bool.and_eq_false_iff] at h
    rcases h with h | h
    · exact .inl ((close_plane hr _ _).2 h)
    · exact .inr ((close_plane hr _ _).2 h)

/-- the loop -/
theorem conjugatesLoop_near (hr : Rounding rnd u) {ms : List (Mat (Fl K rnd))} {ss : List (RStage K)} (hst : List.Forall₂ (NearMat u) ms ss)
    {acc : Mat (Fl K rnd)} {s0 : RStage K} (ha : NearMat u acc s0) (old : List (K × K)) {res : List (Fl K rnd × Fl K rnd)}
    (h : conjugatesLoop ms acc (old.map (numPlane rnd)) = .ok res) :
    ∃ new : List (K × K), res = (old ++ new).map (numPlane rnd) ∧
      (∀ q ∈ new, q.1 ≠ 0 ∧ ∃ i, 0 < i ∧ i ≤ ss.length ∧ ImageNear u ((ss.take i).foldl RStage.andThen s0) q.1 q.2) ∧
      (∀ i, 0 < i → i ≤ ss.length →
        |((ss.take i).foldl RStage.andThen s0).exact.d| ≤
          relErr u ((ss.take i).foldl RStage.andThen s0).ops * ((ss.take i).foldl RStage.andThen s0).maj.d ∨
        ∃ P M, ImageNear u ((ss.take i).foldl RStage.andThen s0) P M ∧ (P = 0 ∨ (P, M) ∈ old ++ new ∨ ∃ q ∈ old ++ new, MaySame u q (P, M))) ∧
      (old.Pairwise (MayDiffer u) → (old ++ new).Pairwise (MayDiffer u)) := by
  induction hst generalizing acc s0 old with
  | nil =>
    unfold conjugatesLoop at h
    cases h
    refine ⟨[], by simp, by simp, ?_, by simp⟩
    intro i h1 h2; simp at h2; omega
  | @cons m st ms ss h1 h2 ih =>
    unfold conjugatesLoop at h
    obtain ⟨t, ht, h⟩ := bind_ok h
    obtain ⟨⟨z, c⟩, hc, h⟩ := bind_ok h
    have hn : NearMat u t (s0.andThen st) := by
      rw [mulMatrix_okF ht]; exact h1.mulRaw hr ha
    -- the planes behind the following elements, once the list is known
    have step : ∀ (mid : List (K × K)), (∀ q ∈ mid, q.1 ≠ 0 ∧ ImageNear u (s0.andThen st) q.1 q.2) →
        (|(s0.andThen st).exact.d| ≤ relErr u (s0.andThen st).ops * (s0.andThen st).maj.d ∨
          ∃ P M, ImageNear u (s0.andThen st) P M ∧ (P = 0 ∨ (P, M) ∈ old ++ mid ∨ ∃ q ∈ old ++ mid, MaySame u q (P, M))) →
        (old.Pairwise (MayDiffer u) → (old ++ mid).Pairwise (MayDiffer u)) →
        conjugatesLoop ms t ((old ++ mid).map (numPlane rnd)) = .ok res →
        ∃ new : List (K × K), res = (old ++ new).map (numPlane rnd) ∧
          (∀ q ∈ new, q.1 ≠ 0 ∧ ∃ i, 0 < i ∧ i ≤ (st :: ss).length ∧ ImageNear u (((st :: ss).take i).foldl RStage.andThen s0) q.1 q.2) ∧
          (∀ i, 0 < i → i ≤ (st :: ss).length →
            |(((st :: ss).take i).foldl RStage.andThen s0).exact.d| ≤
              relErr u (((st :: ss).take i).foldl RStage.andThen s0).ops * (((st :: ss).take i).foldl RStage.andThen s0).maj.d ∨
            ∃ P M, ImageNear u (((st :: ss).take i).foldl RStage.andThen s0) P M ∧
              (P = 0 ∨ (P, M) ∈ old ++ new ∨ ∃ q ∈ old ++ new, MaySame u q (P, M))) ∧
          (old.Pairwise (MayDiffer u) → (old ++ new).Pairwise (MayDiffer u)) := by
      intro mid hm1 hm2 hm3 hl
      obtain ⟨new, n1, n2, n3, n4⟩ := ih hn (old ++ mid) hl
      rw [List.append_assoc] at n1 n3 n4
      refine ⟨mid ++ new, n1, ?_, ?_, fun hp => n4 (hm3 hp)⟩
      · intro q hq
        rcases List.mem_append.1 hq with hq | hq
        · obtain ⟨a, b⟩ := hm1 q hq
          exact ⟨a, 1, one_pos, by simp, by simpa using b⟩
        · obtain ⟨a, i, b, c, d⟩ := n2 q hq
          exact ⟨a, i + 1, by omega, by simpa using c, by simpa using d⟩
      · intro i i1 i2
        obtain _ | _ | i := i
        · omega
        · rcases hm2 with hm2 | ⟨P, M, p1, p2⟩
          · exact .inl (by simpa using hm2)
          · refine .inr ⟨P, M, by simpa using p1, ?_⟩
            have sub : ∀ q, q ∈ old ++ mid → q ∈ old ++ (mid ++ new) := by
              intro q hq; rw [← List.append_assoc]; exact List.mem_append_left _ hq
            rcases p2 with p2 | p2 | ⟨q, q1, q2⟩
            · exact .inl p2
            · exact .inr (.inl (sub _ p2))
            · exact .inr (.inr ⟨q, sub _ q1, q2⟩)
        · have := n3 (i + 1) (by omega) (by simpa using i2)
          simpa using this
    cases c with
    | none =>
      refine step [] (by simp) (.inl (forward_none hr hn hc)) (by simp) (by simpa using h)
    | some c =>
      obtain ⟨P, M, eP, eM, him⟩ := hn.image hr hc
      dsimp only at h
      rw [eP, eM, zero_num hr, eq_num] at h
      by_cases hP : P = 0
      · simp only [hP, decide_true, Bool.not_true, Bool.false_eq_true, if_false] at h
        exact step [] (by simp) (.inr ⟨P, M, him, .inl hP⟩) (by simp) (by simpa using h)
      · simp only [hP, decide_false, Bool.not_false, if_true] at h
        cases hk : planeKnown (old.map (numPlane rnd)) (num P) (num M) with
        | true =>
          rw [hk, if_pos rfl] at h
          obtain ⟨q, q1, q2⟩ := (planeKnown_near hr old P M).1 hk
          exact step [] (by simp) (.inr ⟨P, M, him, .inr (.inr ⟨q, by simpa using q1, q2⟩)⟩) (by simp) (by simpa using h)
        | false =>
          rw [hk, if_neg (by simp)] at h
          refine step [(P, M)] (by simpa using ⟨hP, him⟩) (.inr ⟨P, M, him, .inr (.inl (by simp))⟩) ?_ (by simpa [numPlane] using h)
          intro hp
          rw [List.pairwise_append]
          refine ⟨hp, by simp, ?_⟩
          intro q hq r hr'
          rw [List.mem_singleton] at hr'; subst hr'
          exact (planeKnown_near hr old P M).2 hk q hq

/-- the first `i` elements of a system, in exact numbers, with their majorant and roundings -/
def Part.upTo (p : Part K) (i : ℕ) : RStage K := (p.rstages.take i).foldl RStage.andThen RStage.one

theorem foldl_out (ss : List (RStage K)) (s : RStage K) (r : K × K) :
    (ss.foldl RStage.andThen s).exact.out r = (ss.map RStage.exact).foldl (fun r s => s.out r) (s.exact.out r) ∧
    (ss.foldl RStage.andThen s).exact.len = s.exact.len + ((ss.map RStage.exact).map Stage.len).sum := by
  induction ss generalizing s with
  | nil => simp
  | cons t ss ih =>
    obtain ⟨a, b⟩ := ih (s.andThen t)
    simp only [List.foldl_cons, List.map_cons, List.sum_cons]
    rw [a, b, andThen_out]
    refine ⟨rfl, ?_⟩
    simp only [RStage.andThen, Stage.andThen]; ring

/-- **C130.** The first elements, as a stage, do to rays what the elements do one after the other, and end where they do. -/
theorem C130_upTo (p : Part K) (i : ℕ) : (∀ r, (p.upTo i).exact.out r = rayBefore p.stages i r) ∧ (p.upTo i).exact.len = zBefore p.stages i := by
  unfold Part.upTo rayBefore zBefore
  rw [← rstages_exact, ← List.map_take]
  refine ⟨fun r => ?_, ?_⟩
  · rw [(foldl_out _ _ r).1]
    simp [RStage.one, Stage.out]
  · rw [(foldl_out _ _ (0, 0)).2]
    simp [RStage.one]

/-- **C130.** In rounded arithmetic, when `intermediateConjugates()` returns a list: every plane listed is not at 0 and is the image of the entrance plane through the
first elements, up to explicit rounding errors; behind every element, unless `D` is zero within its error, the image computed is at 0 or in the list, up to the tolerance of
10⁻³; and two planes listed differ by the tolerance. -/
theorem C130_conjugates (hr : Rounding rnd u) {label : String} {ps : List (Part K)} {g : Group (Fl K rnd)}
    (hb : (Part.group label ps).buildR rnd = .ok g.toElem) {res : List (Fl K rnd × Fl K rnd)} (h : g.intermediateConjugates = .ok res) :
    ∃ planes : List (K × K), res = planes.map (fun q => (num q.1, num q.2)) ∧
      (∀ q ∈ planes, q.1 ≠ 0 ∧ ∃ i, 0 < i ∧ i ≤ (Part.group label ps).stages.length ∧ ImageNear u ((Part.group label ps).upTo i) q.1 q.2) ∧
      (∀ i, 0 < i → i ≤ (Part.group label ps).stages.length →
        |((Part.group label ps).upTo i).exact.d| ≤ relErr u ((Part.group label ps).upTo i).ops * ((Part.group label ps).upTo i).maj.d ∨
        ∃ P M, ImageNear u ((Part.group label ps).upTo i) P M ∧ (P = 0 ∨ (P, M) ∈ planes ∨ ∃ q ∈ planes, MaySame u q (P, M))) ∧
      planes.Pairwise (MayDiffer u) := by
  have hst := (buildR_stages hr hb).1
  have hl : leaves g.toElem.items = leaves (itemsList g.elems) := by simp [Group.toElem, Elem.items, leaves]
  unfold ItemRStages at hst
  rw [hl] at hst
  have hst' : List.Forall₂ (NearMat u) (leaves (itemsList g.elems)) (Part.group label ps).rstages := hst.imp fun _ _ h => h.nearMat hr.nonneg
  unfold Group.intermediateConjugates at h
  rw [transferMatricesList_leaves] at h
  obtain ⟨new, n1, n2, n3, n4⟩ := conjugatesLoop_near hr hst' (nearMat_one hr) [] h
  have hlen : (Part.group label ps).stages.length = (Part.group label ps).rstages.length := by rw [← rstages_exact, List.length_map]
  rw [hlen]
  exact ⟨new, n1, n2, n3, n4 .nil⟩

/-- **C130.** What a plane listed means for rays: behind the first `i` elements of the exact system, at the distance that takes to the plane, two rays of the same point
of the entrance plane are as close as the difference of their angles times an explicit error. -/
theorem C130_rays {p : Part K} {i : ℕ} {P M : K} (h : ImageNear u (p.upTo i) P M) :
    ∃ z, |P - (zBefore p.stages i + z)| ≤ relErr u ((p.upTo i).ops + 1) * ((p.upTo i).maj.len + |z|) ∧ ∀ y θ θ',
      |((rayBefore p.stages i (y, θ)).1 + z * (rayBefore p.stages i (y, θ)).2) - ((rayBefore p.stages i (y, θ')).1 + z * (rayBefore p.stages i (y, θ')).2)| ≤
        |θ - θ'| * ((1 + u) * (relErr u (p.upTo i).ops * (p.upTo i).maj.b) + u * |(p.upTo i).exact.b| + |z| * (relErr u (p.upTo i).ops * (p.upTo i).maj.d)) := by
  obtain ⟨z, d, -, -, h1, h2, -⟩ := h
  obtain ⟨o1, o2⟩ := C130_upTo p i
  refine ⟨z, by rw [← o2]; exact h1, fun y θ θ' => ?_⟩
  rw [← o1, ← o1]
  have e : ((p.upTo i).exact.out (y, θ)).1 + z * ((p.upTo i).exact.out (y, θ)).2 - (((p.upTo i).exact.out (y, θ')).1 + z * ((p.upTo i).exact.out (y, θ')).2) =
      (θ - θ') * ((p.upTo i).exact.b + z * (p.upTo i).exact.d) := by
    simp only [Stage.out]; ring
  rw [e, abs_mul]
  exact mul_le_mul_of_nonneg_left h2 (abs_nonneg _)

/-- the planes listed, for examples -/
def planesOf (ps : List (Part ℚ)) : Except PyErr (List (Double × Double)) :=
  match (Part.group "" ps).buildR double with
  | .ok (.group m c es) => Group.intermediateConjugates ⟨m, c, es⟩
  | .ok (.leaf _) => .error .typeError
  | .error x => .error x

/-- Violated for a relay of two lenses of focal length 49 (a 4f system): in exact numbers the only image is at its end, 196, inverted; in Python floats two more planes are
listed, at more than 4 × 10¹⁷ before the system, because `D` behind the first lens is not zero but some 10⁻¹⁶. -/
theorem C130_violated :
    withPath [.space 49 1 none, .lens 49 none, .space 98 1 none, .lens 49 none, .space 49 1 none] (fun g => g.intermediateConjugates) =
      .ok (.ok [(fin 196, fin (-1))]) ∧
    planesOf [.space 49 1 none, .lens 49 none, .space 98 1 none, .lens 49 none, .space 49 1 none] =
      .ok [(num (-441352763482308544), num 9007199254740992), (num (-441352763482308608), num 9007199254740994), (num 196, num (-1))] := by
  refine ⟨by decide +kernel, by decide +kernel⟩

/-- Two images, of an object at twice the focal length 49, in Python floats: a real one at 196 and a virtual one, through
the second lens, at 147. -/
theorem C130_example : planesOf [.space 98 1 none, .lens 49 none, .space 147 1 none, .lens 98 none, .space 98 1 none] =
      .ok [(num (6896136929411073 / 35184372088832), num (-2251799813685249 / 2251799813685248)),
        (num (5172102697058307 / 35184372088832), num (-2251799813685247 / 1125899906842624))] ∧
    planesOf [.lens 10 none, .space 30 1 none, .lens 20 none] = .ok [(num 90, num (-2))] := by
  refine ⟨by decide +kernel, by decide +kernel⟩

end RT
