import Verif.Lemmas.Binary64Trace
import Verif.Lemmas.Binary64Mono
import Verif.Props.Rounded

/-! # C95 with the limits of Python floats: overflow and underflow -/

set_option linter.unusedSectionVars false

namespace RT
open PyNum Ext B64

/-- The ray in the heap has this height, angle and position. -/
structure IsRay64 (r : Ray B64) (y θ z : ℚ) : Prop where
  y : r.y = B64.num y
  theta : r.theta = B64.num θ
  z : r.z = B64.num z

theorem IsRay64.near {r : Ray B64} {y θ z : ℚ} (h : IsRay64 r y θ z) : NearRay64 0 r (y, θ) (absRay (y, θ)) z |z| :=
  ⟨by rw [h.y]; exact near64_num y, by rw [h.theta]; exact near64_num θ, by rw [h.z]; exact near64_num z⟩

/-- Every parameter of the program is a float, zero or between 2⁻⁴⁸ and 2⁴⁸ (4·10⁻¹⁵ and 3·10¹⁴) in absolute value, or infinite where this is allowed. -/
def Part.Ordinary (p : Part ℚ) : Prop := p.AllParams (Good range) (GoodO range)

/-- Numbers stay far from the largest float along the trace, which has less than 2⁵² roundings. -/
structure NoOverflow (p : Part ℚ) (r : ℚ × ℚ) (z : ℚ) : Prop where
  ray : Fits tiny (huge / 2) p.rstages (absRay r)
  pos : |z| + majLenW tiny p.rstages ≤ huge / 2
  steps : (roundings p.rstages : ℚ) * unitRoundoff ≤ 1 / 2

/-- **C95 for Python floats**, exponents being limited to 11 bits. A ray whose exact path leaves room for the errors in every opening comes out, and the height,
angle and position returned are the exact ones within the errors; results too small to keep their bits add at most 2⁻¹⁰²¹ to the majorants at each element. -/
theorem C95_python_through {p : Part ℚ} (hp : p.Ordinary) {e : Elem B64} (hb : p.build64 = .ok e) {a : Nat} {h : Heap B64}
    (ha : a < h.length) {y θ z : ℚ} (hray : IsRay64 (h.get a) y θ z) (hopen : (h.get a).isBlocked = false) (hno : NoOverflow p (y, θ) z)
    (hc : ClearsW tiny unitRoundoff 0 p.rstages (y, θ) (absRay (y, θ))) :
    ((e.traceH a h).2.1.get (e.traceThroughH a h).1).isBlocked = false ∧
    ∃ y' θ' z', IsRay64 ((e.traceH a h).2.1.get (e.traceThroughH a h).1) y' θ' z' ∧
      |y' - (exactOut p.rstages (y, θ)).1| ≤ relErr unitRoundoff (roundings p.rstages) * (majOutW tiny p.rstages (absRay (y, θ))).1 ∧
      |θ' - (exactOut p.rstages (y, θ)).2| ≤ relErr unitRoundoff (roundings p.rstages) * (majOutW tiny p.rstages (absRay (y, θ))).2 ∧
      |z' - (z + exactLen p.rstages)| ≤ relErr unitRoundoff (roundings p.rstages) * (|z| + majLenW tiny p.rstages) := by
  have hs := build64_stages hp hb
  rw [through_eq hs.linear (buildWith_noCache _ _ hb) ha]
  have hn := hray.near.settle e.items
  have hset : (settle e.items (h.get a)).isBlocked = false := by
    simp only [settle, hopen, Bool.false_or]
    exact entryStops_clears64 hs hray.near hc
  obtain ⟨q1, q2, q3, q4⟩ := runTrace_clears64 hs hn hset hc hno.ray (by rw [Nat.zero_add]; exact hno.steps) hno.pos
  obtain ⟨y', a1, y'', a0, -, a2⟩ := q2
  obtain rfl := Fl.num_inj a0
  obtain ⟨θ', b1, θ'', b0, -, b2⟩ := q3
  obtain rfl := Fl.num_inj b0
  obtain ⟨z', c1, z'', c0, -, c2⟩ := q4
  obtain rfl := Fl.num_inj c0
  rw [Nat.zero_add] at a2 b2 c2
  exact ⟨q1, y', θ', z', ⟨a1, b1, c1⟩, a2, b2, c2⟩

/-- A ray whose exact path passes outside some opening by more than the errors is blocked. -/
theorem C95_python_blocked {p : Part ℚ} (hp : p.Ordinary) {e : Elem B64} (hb : p.build64 = .ok e) {a : Nat} {h : Heap B64}
    (ha : a < h.length) {y θ z : ℚ} (hray : IsRay64 (h.get a) y θ z) (hno : NoOverflow p (y, θ) z)
    (hc : HitsW tiny unitRoundoff 0 p.rstages (y, θ) (absRay (y, θ))) :
    ((e.traceH a h).2.1.get (e.traceThroughH a h).1).isBlocked = true := by
  have hs := build64_stages hp hb
  rw [through_eq hs.linear (buildWith_noCache _ _ hb) ha]
  exact runTrace_hits64 hs (hray.near.settle e.items) hc hno.ray (by rw [Nat.zero_add]; exact hno.steps) hno.pos

theorem runTrace_z64 {is : List (Item B64)} {ss : List (RStage ℚ)} (hs : Stages64 is ss) (hn : ∀ s ∈ ss, 0 ≤ s.exact.len) {r : Ray B64}
    (hz : IsFloat r.z.val) (hz' : r.z.val ≠ .nan) : (r.z.val :: (runTrace is r).map fun r => r.z.val).Pairwise leE := by
  induction is generalizing ss r with
  | nil => simp [runTrace]
  | cons i is ih =>
    cases i with
    | dup =>
      have h2 := ih hs hn hz hz'
      simp only [runTrace, List.map_cons]
      refine List.pairwise_cons.2 ⟨?_, h2⟩
      intro w hw
      rcases List.mem_cons.1 hw with rfl | hw
      · exact leE_refl_of hz'
      · exact (List.pairwise_cons.1 h2).1 w hw
    | leaf m =>
      cases hs with
      | @cons _ s _ ss h1 h2 =>
        have hlen := hn s (by simp)
        obtain ⟨f1, f2, f3⟩ : IsFloat (if r.isBlocked then r else settle is (m.mulRayBase r)).z.val ∧
            (if r.isBlocked then r else settle is (m.mulRayBase r)).z.val ≠ .nan ∧
            leE r.z.val (if r.isBlocked then r else settle is (m.mulRayBase r)).z.val := by
          by_cases hb : r.isBlocked = true
          · rw [if_pos hb]; exact ⟨hz, hz', leE_refl_of hz'⟩
          · rw [if_neg hb]
            rw [Bool.not_eq_true] at hb
            have e : (settle is (m.mulRayBase r)).z.val = B64.round (Ext.add (.fin s.exact.len) r.z.val) := by
              change (m.mulRayBase r).z.val = _
              simp only [Mat.mulRayBase, hb, Bool.false_eq_true, if_false]
              rw [h1.L]
              rfl
            rw [e]
            obtain ⟨g1, g2⟩ := leE_add hz hz' hlen
            exact ⟨isFloat_round _, g2, g1⟩
        have e2 := ih h2 (fun s' hs' => hn s' (List.mem_cons_of_mem _ hs')) f1 f2
        have hall : ∀ w ∈ (if r.isBlocked then r else settle is (m.mulRayBase r)).z.val ::
            (runTrace is (if r.isBlocked then r else settle is (m.mulRayBase r))).map (fun r => r.z.val), leE r.z.val w := by
          intro w hw
          rcases List.mem_cons.1 hw with rfl | hw
          · exact f3
          · exact leE_trans f3 ((List.pairwise_cons.1 e2).1 w hw)
        simp only [runTrace]
        by_cases hL : (0 <. m.L) = true
        · rw [if_pos hL]
          refine List.pairwise_cons.2 ⟨?_, List.pairwise_cons.2 ⟨hall, e2⟩⟩
          intro w hw
          rcases List.mem_cons.1 hw with rfl | hw
          · exact leE_refl_of hz'
          · exact hall w hw
        · rw [if_neg hL]
          exact List.pairwise_cons.2 ⟨hall, e2⟩

/-- Positions along a trace never go backwards, even when they overflow. -/
theorem C95_python_positions {p : Part ℚ} (hp : p.Ordinary) (hn : p.NonNeg) {e : Elem B64} (hb : p.build64 = .ok e) {a : Nat} {h : Heap B64}
    (ha : a < h.length) (hz : IsFloat (h.get a).z.val) (hz' : (h.get a).z.val ≠ .nan) :
    ((h.get a).z.val :: ((e.traceH a h).2.1.deref (e.traceH a h).1).map fun r => r.z.val).Pairwise leE := by
  have hs := build64_stages hp hb
  obtain ⟨q1, q2⟩ := e.traceH_eq (buildWith_noCache _ _ hb) a h
  have hsp := (runH_spec e.items hs.linear ha).1
  rw [← q1, ← q2] at hsp
  rw [hsp]
  refine runTrace_z64 (r := settle e.items (h.get a)) hs ?_ hz hz'
  intro s hs'
  have h1 : s.exact ∈ p.stages := by rw [← rstages_exact]; exact List.mem_map_of_mem hs'
  exact stages_nonneg hn _ h1

/-- Without the terms due to underflow, the conditions and the errors are those of numbers without limits. -/
theorem C95_limits (u : ℚ) (rs : List (RStage ℚ)) (m : ℚ × ℚ) : majOutW 0 rs m = majOut rs m ∧ majLenW 0 rs = majLen rs ∧
    ∀ k r, (ClearsW 0 u k rs r m ↔ Clears u k rs r m) ∧ (HitsW 0 u k rs r m ↔ Hits u k rs r m) := by
  have e : ∀ (s : RStage ℚ) (m : ℚ × ℚ), s.majOut 0 m = s.maj.out m := by intro s m; simp [RStage.majOut]
  refine ⟨?_, by simp [majLenW, majLen], ?_⟩
  · unfold majOutW majOut; simp only [e]
  · intro k r
    induction rs generalizing k r m with
    | nil => simp [ClearsW, Clears, HitsW, Hits]
    | cons s rs ih =>
      obtain ⟨h1, h2⟩ := ih (s.maj.out m) (k + s.ops + 2) (s.exact.out r)
      simp only [ClearsW, Clears, HitsW, Hits, e, h1, h2, and_self]

/-! ## The relay of C95 again -/

theorem relay_built64 : ∃ e, relay.build64 = .ok e := by
  have : (match relay.build64 with | .ok _ => true | .error _ => false) = true := by decide +kernel
  split at this
  · next e he => exact ⟨e, he⟩
  · cases this

theorem good_of {x : ℚ} (h : double x = x) (h1 : 1 / 2 ^ 48 ≤ |x|) (h2 : |x| ≤ 2 ^ 48) : Good range x := ⟨h, .inr ⟨h1, h2⟩⟩

theorem relay_ordinary : relay.Ordinary := by
  have h100 : Good range 100 := good_of (by decide +kernel) (by norm_num) (by norm_num)
  have h1 : Good range 1 := good_of (by decide +kernel) (by norm_num) (by norm_num)
  have h50 : Good range 50 := good_of (by decide +kernel) (by norm_num) (by norm_num)
  have h25 : Good range 25 := good_of (by decide +kernel) (by norm_num) (by norm_num)
  exact ⟨⟨h100, h1, trivial⟩, ⟨h50, h25⟩, ⟨h100, h1, trivial⟩, trivial⟩

theorem limits_ex : ∃ w t : ℚ, tiny = w ∧ huge = t ∧ 0 < w ∧ w ≤ 1 / 1000 ∧ 1000000 ≤ t := by
  refine ⟨_, _, rfl, rfl, tiny_pos, ?_, ?_⟩
  · unfold tiny; rw [pow2_eq]
    calc (2 : ℚ) ^ (-1022 : Int) ≤ 2 ^ (-10 : Int) := zpow_le_zpow_right₀ (by norm_num) (by norm_num)
      _ ≤ _ := by norm_num
  · unfold huge; rw [pow2_eq]
    calc (1000000 : ℚ) ≤ 2 ^ (20 : Int) := by norm_num
      _ ≤ _ := zpow_le_zpow_right₀ (by norm_num) (by norm_num)

/-- The hypotheses hold for this lens: the ray at height 1 with angle 1/16 goes through; the one with angle 1/8 is stopped. -/
theorem C95_python_example : relay.Ordinary ∧ NoOverflow relay (1, 1 / 16) 0 ∧ NoOverflow relay (1, 1 / 8) 0 ∧
    ClearsW tiny unitRoundoff 0 relay.rstages (1, 1 / 16) (absRay (1, 1 / 16)) ∧
    HitsW tiny unitRoundoff 0 relay.rstages (1, 1 / 8) (absRay (1, 1 / 8)) := by
  refine ⟨relay_ordinary, ⟨?_, ?_, ?_⟩, ⟨?_, ?_, ?_⟩, ?_, ?_⟩
  all_goals
    obtain ⟨w, t, e1, e2, h1, h2, h3⟩ := limits_ex
    try simp only [e1, e2]
    simp only [relay, Part.rstages, Part.rstagesList, List.cons_append, List.nil_append, ClearsW, HitsW, Fits, majLenW, RStage.majOut, roundings, Stage.withOps,
      Sys.stage, Sys.space, Sys.lens, Stage.out, Stage.abs, absRay, relErr, unitRoundoff, List.map_cons, List.map_nil, List.sum_cons, List.sum_nil]
    try norm_num
  · refine ⟨?_, ?_, ?_, ?_, ?_, ?_⟩ <;> linarith
  · linarith
  · refine ⟨?_, ?_, ?_, ?_, ?_, ?_⟩ <;> linarith
  · linarith
  · refine ⟨nofun, nofun, ?_, nofun, nofun, nofun⟩
    linarith
  · refine .inr (.inr (.inl ?_))
    linarith

/-- a ray on the axis -/
def axial64 : Heap B64 := [Ray.new (B64.num 0) (B64.num 0) (B64.num 0)]

/-- The restriction on the parameters is needed: a lens of focal length 2⁻¹⁰³⁰ is accepted, its power overflows, and the ray along the axis comes out, not
blocked, with `nan` for an angle instead of 0. -/
theorem C95_python_overflow : ∃ e, (Part.lens (pow2 (-1030)) none).build64 = .ok e ∧
    ((e.traceH 0 axial64).2.1.get (e.traceThroughH 0 axial64).1).isBlocked = false ∧
    ((e.traceH 0 axial64).2.1.get (e.traceThroughH 0 axial64).1).theta = ⟨.nan⟩ := by
  have key : (match (Part.lens (pow2 (-1030)) none).build64 with
      | .ok e => (((e.traceH 0 axial64).2.1.get (e.traceThroughH 0 axial64).1).isBlocked == false) &&
          decide (((e.traceH 0 axial64).2.1.get (e.traceThroughH 0 axial64).1).theta = ⟨.nan⟩)
      | .error _ => false) = true := by decide +kernel
  split at key
  · next e he =>
    rw [Bool.and_eq_true, beq_iff_eq, decide_eq_true_iff] at key
    exact ⟨e, he, key⟩
  · cases key

end RT
