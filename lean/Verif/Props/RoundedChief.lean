import Verif.Lemmas.RoundedPrefix
import Verif.Props.RoundedPosition
import Verif.Props.RoundedImaging

/-! # C108: chief rays, marginal rays and the entrance pupil computed with floats -/

set_option linter.unusedSectionVars false

namespace RT
open PyNum Ext Fl
variable {K : Type} [Field K] [LinearOrder K] [IsStrictOrderedRing K]
variable {rnd : K → K} {u : K}

theorem exactOut_linear (t : List (RStage K)) (y θ : K) :
    (exactOut t (y, θ)).1 = y * (exactOut t (1, 0)).1 + θ * (exactOut t (0, 1)).1 ∧
    (exactOut t (y, θ)).2 = y * (exactOut t (1, 0)).2 + θ * (exactOut t (0, 1)).2 := by
  induction t using List.reverseRecOn with
  | nil => simp [exactOut]
  | append_singleton t s ih =>
    simp only [exactOut_append, exactOut_single, Stage.out]
    rw [ih.1, ih.2]
    constructor <;> ring

theorem forall₂_mem {α β : Type} {R : α → β → Prop} {l : List α} {l' : List β} (h : List.Forall₂ R l l') :
    (∀ x ∈ l, ∃ y ∈ l', R x y) ∧ ∀ y ∈ l', ∃ x ∈ l, R x y := by
  induction h with
  | nil => simp
  | cons h _ ih =>
    refine ⟨fun x hx => ?_, fun y hy => ?_⟩
    · rcases List.mem_cons.1 hx with rfl | hx
      · exact ⟨_, by simp, h⟩
      · obtain ⟨y, h1, h2⟩ := ih.1 x hx; exact ⟨y, List.mem_cons_of_mem _ h1, h2⟩
    · rcases List.mem_cons.1 hy with rfl | hy
      · exact ⟨_, by simp, h⟩
      · obtain ⟨x, h1, h2⟩ := ih.2 y hy; exact ⟨x, List.mem_cons_of_mem _ h1, h2⟩

theorem apertureStop_mem {F : Type} [PyNum F] {g : Group F} {tr : F → F → List (Ray F)} {z d : F}
    (h : g.apertureStop.run tr = .ok (some z, d)) : z = 0 ∨ ∃ s ∈ tr 0 (lit (1 / 10)), z = s.z := by
  unfold Group.apertureStop at h
  split_ifs at h
  · simp only [Prog.run_bind, Prog.run_ask, Prog.run_lift, Prog.run_pure] at h
    cases hl : Group.stopLoop (tr 0 (lit (1 / 10))) 0 0 inf with
    | error x => rw [hl] at h; cases h
    | ok s =>
      rw [hl] at h
      obtain ⟨z1, d1⟩ := s
      simp only [Except.ok.injEq, Prod.mk.injEq, Option.some.injEq] at h
      obtain ⟨rfl, rfl⟩ := h
      exact stopLoop_mem hl
  · simp only [Prog.run_pure, Except.ok.injEq, Prod.mk.injEq] at h
    cases h.1

/-- The matrix up to the stop found in floats gives the heights at the stop of the exact system, up to errors. -/
theorem stop_matrix (hr : Rounding rnd u) {label : String} {ps : List (Part K)} {p : Part K} (hp : p = Part.group label ps) {g : Group (Fl K rnd)}
    (hb : p.buildR rnd = .ok g.toElem) {S : K} (hS : 0 ≤ S) (hS1 : p.Slope S (1, 0)) (hS2 : p.Slope S (0, 1))
    (hfin : ∃ s ∈ p.rstages, s.exact.diam ≠ none) (hd : Decided u 1 p.rstages (0, 1 / 10) (0, 1 / 10))
    (hsome : ∃ o ∈ probeExits p.rstages, o.err u < o.ratio) :
    ∃ z' D, g.apertureStop.run (newTrace g) = .ok (some (num z'), num D) ∧ 0 < D ∧ ∀ m, g.transferMatrix (num z') = .ok m →
      ∃ t eA eB, StopAt u S p t D eA eB ∧ Reads eA m.A (exactOut t (1, 0)).1 ∧ Reads eB m.B (exactOut t (0, 1)).1 := by
  subst hp
  obtain ⟨hs, hpos⟩ := buildR_stages hr hb
  rcases C107_stop hr hb rfl hfin hd with ⟨-, h2⟩ | ⟨o, ho, z', D, h1, h2, h3, h4⟩
  · obtain ⟨o, ho, h⟩ := hsome
    exact absurd (h2 o ho) (not_le.2 h)
  refine ⟨z', D, h2, rexits_pos hpos o ho D h1, fun m hm => ?_⟩
  obtain ⟨pre, s, post, e1, e2, e3, e4⟩ := rexits_prefix ho
  rw [zero_add] at e2
  have hpre : pre ++ [s] <+: (Part.group label ps).rstages := ⟨post, by rw [e1]; simp⟩
  obtain ⟨c0, c1, c2⟩ := group_prefix hpre
  have hlen : ∀ s ∈ (Part.group label ps).rstages, s.exact.len ≤ s.maj.len := by
    intro s hs'
    obtain ⟨m, -, hm⟩ := (forall₂_mem hs).2 s hs'
    rw [hm.len]; exact le_abs_self _
  have hzm := rexits_maj hlen le_rfl o ho
  have hz0 : 0 ≤ z' := by
    have hL : ∀ m ∈ leaves g.toElem.items, ∃ L, m.L = (num L : Fl K rnd) ∧ 0 ≤ L := by
      intro m hm
      obtain ⟨s, h1, h2⟩ := (forall₂_mem hs).1 m hm
      exact ⟨_, h2.L, slope_len hS1 s h1⟩
    rcases apertureStop_mem h2 with h | ⟨s, h5, h6⟩
    · rw [zero_num hr] at h; rw [num_inj h]
    · obtain ⟨z, h7, h8⟩ := runTrace_nonneg hr hL (r := settle g.toElem.items (Ray.new 0 (lit (1 / 10)))) ⟨0, by simp [settle, Ray.new, zero_num hr], le_rfl⟩ s h5
      rw [h7] at h6; rw [num_inj h6]; exact h8
  have hz1 : z' ≤ (1 + relErr u o.roundings) * o.zMaj := by
    have := (abs_le.1 h3).2
    linarith
  have hk : posErr u (Part.group label ps) z' ≤ relErr u (Part.group label ps).cutOps * ((1 + relErr u o.roundings) * o.zMaj + (Part.group label ps).rmat.maj.len) := by
    unfold posErr
    exact mul_le_mul_of_nonneg_left (by linarith) (relErr_nonneg hr.nonneg _)
  have hm' : g.toElem.transferMatrix (num z') = .ok m := hm
  obtain ⟨v, c, d1, d2, ⟨A, dA, dA'⟩, ⟨B, dB, dB'⟩⟩ := C97_heights hr hb hz0 hS1 hS2 hS c1 hm'
  have hδ : |z' - exactLen (pre ++ [s])| + posErr u (Part.group label ps) z' ≤ stopDelta u (Part.group label ps) o := by
    unfold stopDelta; rw [← e2]; linarith
  have hSδ := mul_le_mul_of_nonneg_left hδ hS
  have eA := c2 (1, 0)
  have eB := c2 (0, 1)
  refine ⟨pre ++ [s], _, _, ⟨o, ho, h4, h1, e2, e4, ⟨pre, s, rfl, by rw [← e3]; exact h1⟩, hpre, v, c, d1, d2.trans hδ, rfl, rfl⟩,
    ⟨A, dA, ?_⟩, ⟨B, dB, ?_⟩⟩
  · rw [← eA]; simp only [Stage.out, mul_one, mul_zero, add_zero]; linarith
  · rw [← eB]; simp only [Stage.out, mul_one, mul_zero, zero_add]; linarith

theorem toStop_ok {F : Type} [PyNum F] {g : Group F} {tr : F → F → List (Ray F)} {z D : F} (hs : g.apertureStop.run tr = .ok (some z, D))
    {m : Mat F} {d : F} (h : g.toStop.run tr = .ok (some (m, d))) : g.transferMatrix z = .ok m ∧ d = D := by
  unfold Group.toStop at h
  simp only [Prog.run_bind, hs, Prog.run_lift] at h
  cases ht : g.transferMatrix z with
  | error x => rw [ht] at h; cases h
  | ok t =>
    rw [ht] at h
    dsimp only at h
    split_ifs at h <;> simp only [Prog.run_pure, Except.ok.injEq, Option.some.injEq, Prod.mk.injEq, reduceCtorEq] at h
    exact ⟨by rw [h.1], h.2.symm⟩

theorem pyDiv_back (hr : Rounding rnd u) {x y : K} {q : Fl K rnd} (h : pyDiv (num x : Fl K rnd) (num y) = .ok q) : y ≠ 0 ∧ q = num (rnd (x / y)) := by
  by_cases hy : y = 0
  · rw [hy, pyDiv_num_zero hr] at h; cases h
  · rw [pyDiv_num hr x y hy] at h
    exact ⟨hy, (Except.ok.inj h).symm⟩

/-- a computed quotient times its divisor -/
theorem quot_back (hr : Rounding rnd u) {x x' y : K} (hy : y ≠ 0) {k : ℕ} {X : K} (hX : |x| ≤ X) (hx : |x' - x| ≤ relErr u k * X) :
    |y * rnd (x' / y) - x| ≤ relErr u (k + 1) * X := by
  obtain ⟨q, h1, h2, h3⟩ := Near.round hr (rnd := rnd) (u := u) (k := k) (x' := x') (a := x) (A := X) ⟨x', rfl, hX, hx⟩
  have e := hr.rel (x' / y)
  have : |y * rnd (x' / y) - x'| ≤ u * |x'| := by
    have e1 : y * rnd (x' / y) - x' = y * (rnd (x' / y) - x' / y) := by field_simp
    rw [e1, abs_mul]
    calc |y| * |rnd (x' / y) - x' / y| ≤ |y| * (u * |x' / y|) := mul_le_mul_of_nonneg_left e (abs_nonneg _)
      _ = u * |x'| := by rw [abs_div]; have := abs_pos.2 hy; field_simp
  have hx' : |x'| ≤ (1 + relErr u k) * X := by
    have := abs_sub_abs_le_abs_sub x' x
    linarith
  have h4 := abs_sub_le (y * rnd (x' / y)) x' x
  have h5 := mul_le_mul_of_nonneg_left hx' hr.nonneg
  have : relErr u (k + 1) = relErr u k + u * (1 + relErr u k) := by unfold relErr; ring
  rw [this]
  linarith

/-- **C108** for `chiefRay(y)`: the ray, followed exactly from the height `y` with the angle computed in floats, crosses the aperture stop at its centre up to errors. -/
theorem C108_chief (hr : Rounding rnd u) {label : String} {ps : List (Part K)} {p : Part K} (hp : p = Part.group label ps) {g : Group (Fl K rnd)}
    (hb : p.buildR rnd = .ok g.toElem) {S : K} (hS : 0 ≤ S) (hS1 : p.Slope S (1, 0)) (hS2 : p.Slope S (0, 1))
    (hfin : ∃ s ∈ p.rstages, s.exact.diam ≠ none) (hd : Decided u 1 p.rstages (0, 1 / 10) (0, 1 / 10))
    (hsome : ∃ o ∈ probeExits p.rstages, o.err u < o.ratio) {y : K} {ray : Ray (Fl K rnd)}
    (h : (g.chiefRay (num y)).run (newTrace g) = .ok (some ray)) :
    ∃ t D eA eB θ, StopAt u S p t D eA eB ∧ ray = Ray.new (num y) (num θ) ∧
      |(exactOut t (y, θ)).1| ≤ relErr u 2 * ((|(exactOut t (1, 0)).1| + eA) * |y|) + eA * |y| + eB * |θ| := by
  obtain ⟨z', D, h1, -, h2⟩ := stop_matrix hr hp hb hS hS1 hS2 hfin hd hsome
  unfold Group.chiefRay at h
  simp only [Prog.run_bind] at h
  cases ht : g.toStop.run (newTrace g) with
  | error x => rw [ht] at h; cases h
  | ok o =>
    rw [ht] at h
    cases o with
    | none => simp only [Prog.run_pure, Except.ok.injEq, reduceCtorEq] at h
    | some md =>
      obtain ⟨m, d⟩ := md
      obtain ⟨hm, rfl⟩ := toStop_ok h1 ht
      obtain ⟨t, eA, eB, hst, ⟨A, hA, hA'⟩, ⟨B, hB, hB'⟩⟩ := h2 m hm
      simp only [Prog.run_bind, Prog.run_lift, Prog.run_pure] at h
      rw [hA, hB, neg_num, num_mul] at h
      cases hq : pyDiv (num (rnd (-A * y)) : Fl K rnd) (num B) with
      | error x => rw [hq] at h; cases h
      | ok q =>
        rw [hq] at h
        obtain ⟨hB0, rfl⟩ := pyDiv_back hr hq
        simp only [Except.ok.injEq, Option.some.injEq] at h
        refine ⟨t, D, eA, eB, rnd (rnd (-A * y) / B), hst, h.symm, ?_⟩
        rw [(exactOut_linear t y _).1]
        set A0 := (exactOut t (1, 0)).1
        set B0 := (exactOut t (0, 1)).1
        have k1 := quot_back hr hB0 (x := -A * y) (x' := rnd (-A * y)) (k := 1) le_rfl (by simpa [relErr] using hr.rel (-A * y))
        set θ := rnd (rnd (-A * y) / B)
        have k2 : |-A * y| ≤ (|A0| + eA) * |y| := by
          rw [abs_mul, abs_neg]
          have := abs_sub_abs_le_abs_sub A A0
          exact mul_le_mul_of_nonneg_right (by linarith) (abs_nonneg _)
        have k3 := mul_le_mul_of_nonneg_left k2 (relErr_nonneg hr.nonneg 2)
        have k4 : |(A0 - A) * y| ≤ eA * |y| := by
          rw [abs_mul, abs_sub_comm]; exact mul_le_mul_of_nonneg_right hA' (abs_nonneg _)
        have k5 : |(B0 - B) * θ| ≤ eB * |θ| := by
          rw [abs_mul, abs_sub_comm]; exact mul_le_mul_of_nonneg_right hB' (abs_nonneg _)
        have e : y * A0 + θ * B0 = (B * θ - -A * y) + (A0 - A) * y + (B0 - B) * θ := by ring
        rw [e]
        have t1 := abs_add_le ((B * θ - -A * y) + (A0 - A) * y) ((B0 - B) * θ)
        have t2 := abs_add_le (B * θ - -A * y) ((A0 - A) * y)
        linarith

/-- **C108** for `marginalRays(y)`: the two rays, followed exactly, cross the aperture stop at its two edges up to errors, and the first one has the
larger angle. -/
theorem C108_marginal (hr : Rounding rnd u) {label : String} {ps : List (Part K)} {p : Part K} (hp : p = Part.group label ps) {g : Group (Fl K rnd)}
    (hb : p.buildR rnd = .ok g.toElem) {S : K} (hS : 0 ≤ S) (hS1 : p.Slope S (1, 0)) (hS2 : p.Slope S (0, 1))
    (hfin : ∃ s ∈ p.rstages, s.exact.diam ≠ none) (hd : Decided u 1 p.rstages (0, 1 / 10) (0, 1 / 10))
    (hsome : ∃ o ∈ probeExits p.rstages, o.err u < o.ratio) {y : K} {r1 r2 : Ray (Fl K rnd)}
    (h : (g.marginalRays (num y)).run (newTrace g) = .ok (some (r1, r2))) :
    ∃ t D eA eB θ1 θ2, StopAt u S p t D eA eB ∧ r1 = Ray.new (num y) (num θ1) ∧ r2 = Ray.new (num y) (num θ2) ∧ θ2 ≤ θ1 ∧
      ∃ e, (e = D / 2 ∨ e = -(D / 2)) ∧
      |(exactOut t (y, θ1)).1 - e| ≤ relErr u 3 * (D / 2 + (|(exactOut t (1, 0)).1| + eA) * |y|) + eA * |y| + eB * |θ1| ∧
      |(exactOut t (y, θ2)).1 - -e| ≤ relErr u 3 * (D / 2 + (|(exactOut t (1, 0)).1| + eA) * |y|) + eA * |y| + eB * |θ2| := by
  obtain ⟨z', D, h1, hD0, h2⟩ := stop_matrix hr hp hb hS hS1 hS2 hfin hd hsome
  unfold Group.marginalRays at h
  simp only [Prog.run_bind] at h
  cases ht : g.toStop.run (newTrace g) with
  | error x => rw [ht] at h; cases h
  | ok o =>
    rw [ht] at h
    cases o with
    | none => simp only [Prog.run_pure, Except.ok.injEq, reduceCtorEq] at h
    | some md =>
      obtain ⟨m, d⟩ := md
      obtain ⟨hm, rfl⟩ := toStop_ok h1 ht
      obtain ⟨t, eA, eB, hst, ⟨A, hA, hA'⟩, ⟨B, hB, hB'⟩⟩ := h2 m hm
      simp only [Prog.run_bind, Prog.run_lift] at h
      rw [hA, hB, num_mul, half_num hr, neg_num, half_num hr, num_sub, num_sub] at h
      set A0 := (exactOut t (1, 0)).1 with hA0
      set B0 := (exactOut t (0, 1)).1 with hB0'
      have key : ∀ e : K, |e| = D / 2 → B ≠ 0 → |(exactOut t (y, rnd (rnd (rnd e - rnd (A * y)) / B))).1 - e| ≤
          relErr u 3 * (D / 2 + (|A0| + eA) * |y|) + eA * |y| + eB * |rnd (rnd (rnd e - rnd (A * y)) / B)| := by
        intro e he hB0
        rw [(exactOut_linear t y _).1, ← hA0, ← hB0']
        have n1 : Fl.Near u 1 (num (rnd e) : Fl K rnd) e |e| := Near.round hr (near_num u e)
        have n2 : Fl.Near u 1 (num (rnd (A * y)) : Fl K rnd) (A * y) |A * y| := Near.round hr (near_num u (A * y))
        obtain ⟨x', e1, e2, e3⟩ := n1.sub hr n2
        rw [num_sub] at e1
        have e1 := num_inj e1
        rw [← e1] at e3
        have k1 := quot_back hr hB0 e2 e3
        set θ := rnd (rnd (rnd e - rnd (A * y)) / B)
        have k2 : |A * y| ≤ (|A0| + eA) * |y| := by
          rw [abs_mul]
          have := abs_sub_abs_le_abs_sub A A0
          exact mul_le_mul_of_nonneg_right (by linarith) (abs_nonneg _)
        rw [he] at k1
        have k3 := mul_le_mul_of_nonneg_left (add_le_add_left k2 (D / 2)) (relErr_nonneg hr.nonneg 3)
        have k4 : |(A0 - A) * y| ≤ eA * |y| := by
          rw [abs_mul, abs_sub_comm]; exact mul_le_mul_of_nonneg_right hA' (abs_nonneg _)
        have k5 : |(B0 - B) * θ| ≤ eB * |θ| := by
          rw [abs_mul, abs_sub_comm]; exact mul_le_mul_of_nonneg_right hB' (abs_nonneg _)
        have e' : y * A0 + θ * B0 - e = (B * θ - (e - A * y)) + (A0 - A) * y + (B0 - B) * θ := by ring
        rw [e']
        have t1 := abs_add_le ((B * θ - (e - A * y)) + (A0 - A) * y) ((B0 - B) * θ)
        have t2 := abs_add_le (B * θ - (e - A * y)) ((A0 - A) * y)
        have k1' : relErr u (1 + 1 + 1) = relErr u 3 := rfl
        rw [k1'] at k1
        rw [add_comm] at k3
        linarith
      cases hq : pyDiv (num (rnd (rnd (D / 2) - rnd (A * y))) : Fl K rnd) (num B) with
      | error x => rw [hq] at h; cases h
      | ok q =>
        rw [hq] at h
        obtain ⟨hB0, rfl⟩ := pyDiv_back hr hq
        cases hq' : pyDiv (num (rnd (rnd (-D / 2) - rnd (A * y))) : Fl K rnd) (num B) with
        | error x => rw [hq'] at h; cases h
        | ok q' =>
          rw [hq'] at h
          obtain ⟨-, rfl⟩ := pyDiv_back hr hq'
          have u1 := key (D / 2) (abs_of_pos (half_pos hD0)) hB0
          have u2 := key (-D / 2) (by rw [neg_div, abs_neg, abs_of_pos (half_pos hD0)]) hB0
          dsimp only at h
          by_cases hlt : rnd (rnd (rnd (D / 2) - rnd (A * y)) / B) < rnd (rnd (rnd (-D / 2) - rnd (A * y)) / B)
          · rw [if_pos (by rw [lt_num]; exact decide_eq_true hlt)] at h
            simp only [Prog.run_pure, Except.ok.injEq, Option.some.injEq, Prod.mk.injEq] at h
            refine ⟨t, D, eA, eB, _, _, hst, h.1.symm, h.2.symm, hlt.le, -(D / 2), .inr rfl, ?_, ?_⟩
            · rw [← neg_div]; exact u2
            · rw [neg_neg]; exact u1
          · rw [if_neg (by rw [lt_num, decide_eq_true_iff]; exact hlt)] at h
            rw [not_lt] at hlt
            simp only [Prog.run_pure, Except.ok.injEq, Option.some.injEq, Prod.mk.injEq] at h
            refine ⟨t, D, eA, eB, _, _, hst, h.1.symm, h.2.symm, hlt, D / 2, .inl rfl, u1, ?_⟩
            rw [← neg_div]; exact u2

/-- what `backwardConjugate` returns in floats -/
theorem backward_near (hr : Rounding rnd u) {m c : Mat (Fl K rnd)} {A B : K} (hA : m.A = num A) (hB : m.B = num B) (hA0 : A ≠ 0) {d : Fl K rnd}
    (h : m.backwardConjugate = .ok (d, c)) : d = num (rnd (-B / A)) ∧ c.A = num (rnd (rnd A)) ∧ c.B = num 0 := by
  unfold Mat.backwardConjugate at h
  have hne : (!(PyNum.eq m.A (0 : Fl K rnd))) = true := by rw [hA, zero_num hr, eq_num]; simpa using hA0
  simp only [hne, if_true] at h
  obtain ⟨q, h1, h⟩ := bind_ok h
  obtain ⟨s, h2, h⟩ := bind_ok h
  obtain ⟨cm, h3, h⟩ := bind_ok h
  rw [hA, hB, neg_num] at h1
  obtain ⟨-, rfl⟩ := pyDiv_back hr h1
  simp only [pure, Except.pure, Except.ok.injEq, Prod.mk.injEq] at h
  obtain ⟨rfl, rfl⟩ := h
  refine ⟨rfl, ?_, zero_num hr⟩
  rw [mulMatrix_okF h3]
  unfold mkSpace at h2
  obtain ⟨rfl, -⟩ := init_okF h2
  simp only [Mat.mulRaw, hA, hB, one_num hr, zero_num hr, num_mul, num_add, mul_one, mul_zero, hr.zero, add_zero]

/-- **C108** for `entrancePupil()`: rays aimed at the centre of the pupil cross the aperture stop at its centre, and rays aimed at its edges cross it at its edges,
up to errors; the pupil is at infinity only when the height at the stop does not depend on the height at the object, up to errors. -/
theorem C108_pupil (hr : Rounding rnd u) {label : String} {ps : List (Part K)} {p : Part K} (hp : p = Part.group label ps) {g : Group (Fl K rnd)}
    (hb : p.buildR rnd = .ok g.toElem) {S : K} (hS : 0 ≤ S) (hS1 : p.Slope S (1, 0)) (hS2 : p.Slope S (0, 1))
    (hfin : ∃ s ∈ p.rstages, s.exact.diam ≠ none) (hd : Decided u 1 p.rstages (0, 1 / 10) (0, 1 / 10))
    (hsome : ∃ o ∈ probeExits p.rstages, o.err u < o.ratio) {pos diam : Fl K rnd}
    (h : g.entrancePupil.run (newTrace g) = .ok (some (pos, diam))) :
    ∃ t D eA eB, StopAt u S p t D eA eB ∧ 0 ≤ eA ∧
      (|(exactOut t (1, 0)).1| ≤ eA ∨ ∃ x d, pos = num x ∧ diam = num d ∧
        |(exactOut t (1, 0)).1 * x - (exactOut t (0, 1)).1| ≤ relErr u 1 * (|(exactOut t (0, 1)).1| + eB) + eA * |x| + eB ∧
        |(|(exactOut t (1, 0)).1|) * d - D| ≤ relErr u 1 * D + (relErr u 2 * (|(exactOut t (1, 0)).1| + eA) + eA) * |d|) := by
  obtain ⟨z', D, h1, hD0, h2⟩ := stop_matrix hr hp hb hS hS1 hS2 hfin hd hsome
  unfold Group.entrancePupil at h
  split_ifs at h
  swap
  · simp only [Prog.run_pure, Except.ok.injEq, reduceCtorEq] at h
  simp only [Prog.run_bind, h1, Prog.run_lift] at h
  cases hm : g.transferMatrix (num z') with
  | error x => rw [hm] at h; cases h
  | ok m =>
    rw [hm] at h
    dsimp only at h
    obtain ⟨t, eA, eB, hst, ⟨A, hA, hA'⟩, ⟨B, hB, hB'⟩⟩ := h2 m hm
    refine ⟨t, D, eA, eB, hst, (abs_nonneg _).trans hA', ?_⟩
    set A0 := (exactOut t (1, 0)).1
    set B0 := (exactOut t (0, 1)).1
    by_cases hA0 : A = 0
    · left; rw [hA0, zero_sub, abs_neg] at hA'; exact hA'
    right
    cases hc : m.backwardConjugate with
    | error x => rw [hc] at h; cases h
    | ok dc =>
      obtain ⟨dist, c⟩ := dc
      rw [hc] at h
      dsimp only at h
      obtain ⟨rfl, c1, c2⟩ := backward_near hr hA hB hA0 hc
      have him : c.isImaging = true := by
        unfold Mat.isImaging isAlmostZero
        rw [c2, eps_num, abs_num, abs_zero, lt_num, decide_eq_true_iff]
        exact hr.pos (by norm_num)
      have hmt : c.magnification = some (c.A, c.D) := by unfold Mat.magnification; rw [if_pos him]
      simp only [hmt] at h
      have hne : rnd (rnd A) ≠ 0 := hr.ne_zero (hr.ne_zero hA0)
      have hne' : (!(PyNum.eq c.A (0 : Fl K rnd))) = true := by rw [c1, zero_num hr, eq_num]; simpa using hne
      rw [if_pos hne'] at h
      simp only [Prog.run_bind, Prog.run_lift, Prog.run_pure] at h
      rw [c1, abs_num] at h
      cases hq : pyDiv (num D : Fl K rnd) (num |rnd (rnd A)|) with
      | error x => rw [hq] at h; cases h
      | ok q =>
        rw [hq] at h
        obtain ⟨hq0, rfl⟩ := pyDiv_back hr hq
        simp only [Except.ok.injEq, Option.some.injEq, Prod.mk.injEq] at h
        rw [neg_num] at h
        refine ⟨_, _, h.1.symm, h.2.symm, ?_, ?_⟩
        · have k1 := quot_back hr hA0 (x := -B) (x' := -B) (k := 0) le_rfl (by simp)
          set x := rnd (-B / A)
          rw [abs_neg] at k1
          have k2 : |B| ≤ |B0| + eB := by
            have := abs_sub_abs_le_abs_sub B B0
            linarith
          have k3 := mul_le_mul_of_nonneg_left k2 (relErr_nonneg hr.nonneg (0 + 1))
          have k4 : |(A0 - A) * -x| ≤ eA * |-x| := by
            rw [abs_mul, abs_sub_comm]; exact mul_le_mul_of_nonneg_right hA' (abs_nonneg _)
          have e : A0 * -x - B0 = -(A * x - -B) + (A0 - A) * -x + (B - B0) := by ring
          rw [e]
          have t1 := abs_add_le (-(A * x - -B) + (A0 - A) * -x) (B - B0)
          have t2 := abs_add_le (-(A * x - -B)) ((A0 - A) * -x)
          rw [abs_neg] at t2
          rw [zero_add] at k1 k3
          linarith
        · have k1 := quot_back hr hq0 (x := D) (x' := D) (k := 0) le_rfl (by simp)
          set d := rnd (D / |rnd (rnd A)|)
          rw [abs_of_pos hD0, zero_add] at k1
          obtain ⟨a', e1, e2, e3⟩ := Near.round hr (Near.round hr (near_num (rnd := rnd) u A) : Fl.Near u 1 (num (rnd A) : Fl K rnd) A |A|)
          have e1 := num_inj e1
          rw [← e1] at e3
          have k2 : |A| ≤ |A0| + eA := by
            have := abs_sub_abs_le_abs_sub A A0
            linarith
          have k3 : |rnd (rnd A) - A| ≤ relErr u 2 * (|A0| + eA) :=
            e3.trans (mul_le_mul_of_nonneg_left k2 (relErr_nonneg hr.nonneg 2))
          have k4 : |(|A0|) - (|rnd (rnd A)|)| ≤ relErr u 2 * (|A0| + eA) + eA := by
            have a1 := abs_abs_sub_abs_le A0 (rnd (rnd A))
            have a2 := abs_sub_le A0 A (rnd (rnd A))
            rw [abs_sub_comm A0 A, abs_sub_comm A (rnd (rnd A))] at a2
            linarith
          have e : |A0| * d - D = (|rnd (rnd A)| * d - D) + (|A0| - |rnd (rnd A)|) * d := by ring
          rw [e]
          have t1 := abs_add_le (|rnd (rnd A)| * d - D) ((|A0| - |rnd (rnd A)|) * d)
          have t2 : |(|A0| - |rnd (rnd A)|) * d| ≤ (relErr u 2 * (|A0| + eA) + eA) * |d| := by
            rw [abs_mul]; exact mul_le_mul_of_nonneg_right k4 (abs_nonneg _)
          linarith

/-- angles of the chief ray and of the marginal rays, and entrance pupil of a path, in floats -/
def raysOf (e : Except PyErr (Elem Double)) (y : Double) :
    Except PyErr (Option Double × Option (Double × Double) × Option (Double × Double)) := do
  match ← e with
  | .leaf _ => throw .typeError
  | .group m c es =>
    let g := Group.mk m c es
    let c ← (g.chiefRay y).run (newTrace g)
    let ms ← (g.marginalRays y).run (newTrace g)
    pure (c.map Ray.theta, ms.map fun m => (m.1.theta, m.2.theta), ← g.entrancePupil.run (newTrace g))

/-- the hypotheses hold for a path with two apertures, for all roundings with a relative error less than 1/1000, and the program answers: from the height 1, an angle
of -0.1 to the centre of the stop at 10, 0.1 and -0.3 to its edges at ±2 -/
theorem C108_example {v : ℚ} (h0 : 0 ≤ v) (h1 : v ≤ 1 / 1000) : (twoStops 10 4 10 20).Slope 1 (1, 0) ∧ (twoStops 10 4 10 20).Slope 1 (0, 1) ∧
    (∃ s ∈ (twoStops 10 4 10 20).rstages, s.exact.diam ≠ none) ∧ Decided v 1 (twoStops 10 4 10 20).rstages (0, 1 / 10) (0, 1 / 10) ∧
    (∃ o ∈ probeExits (twoStops 10 4 10 20).rstages, o.err v < o.ratio) ∧
    raysOf ((twoStops 10 4 10 20).buildR double) 1 = .ok (some (num (double (-1 / 10))), some (num (double (1 / 10)), num (double (-3 / 10))),
      some (num 10, num 4)) := by
  obtain ⟨e1, ⟨o, e2, -, -, e3, -⟩, -⟩ := C107_example h0 h1
  refine ⟨?_, ?_, ?_, e1, ⟨o, e2, e3⟩, by decide +kernel⟩
  · simp [twoStops, Part.Slope, Part.SlopeList, Part.rmat, Part.rstages, Stage.withOps, Sys.space, Sys.one, Sys.stage, Stage.out]
  · simp [twoStops, Part.Slope, Part.SlopeList, Part.rmat, Part.rstages, Stage.withOps, Sys.space, Sys.one, Sys.stage, Stage.out]
  · refine ⟨((Sys.one 1).stage (some 4) none).withOps 0, by simp [twoStops, Part.rstages, Part.rstagesList], by simp [Stage.withOps, Sys.stage]⟩

end RT
