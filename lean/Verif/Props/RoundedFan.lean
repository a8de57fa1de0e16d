import Verif.Lemmas.Double
import Verif.Lemmas.Rounded
import Verif.Props.Rays

/-! # C124: fans of rays and uniform sources in floats

A user who asks for rays between two angles or heights relies on them to stay inside, in order and evenly spaced: the rays are compared with
apertures and numerical apertures. -/

set_option linter.unusedSectionVars false

namespace RT
open PyNum Ext Fl
variable {K : Type} [Field K] [LinearOrder K] [IsStrictOrderedRing K] {rnd : K → K} {u : K}

/-! ## Integers are floats -/

/-- Integers up to 2⁵³ are represented exactly. -/
theorem double_nat {n : ℕ} (h : n < 2 ^ 53) : double (n : ℚ) = n := by
  rcases Nat.eq_zero_or_pos n with rfl | hn
  · simp [double_zero]
  have h0 : (n : ℚ) ≠ 0 := by positivity
  obtain ⟨b1, b2⟩ := binade_spec h0
  have hb : binade (n : ℚ) ≤ 52 := by
    by_contra hc
    have h1 : (2 : ℚ) ^ (53 : ℤ) ≤ 2 ^ binade (n : ℚ) := zpow_le_zpow_right₀ (by norm_num) (by omega)
    have h2 : (n : ℚ) < 2 ^ (53 : ℤ) := by
      have : ((2 : ℚ) ^ (53 : ℤ)) = ((2 ^ 53 : ℕ) : ℚ) := by norm_num
      rw [this]; exact_mod_cast h
    rw [abs_of_pos (by positivity)] at b1
    linarith
  unfold double
  rw [if_neg h0, pow2_eq]
  obtain ⟨k, hk⟩ : ∃ k : ℕ, binade (n : ℚ) - 52 = -(k : ℤ) := ⟨(52 - binade (n : ℚ)).toNat, by omega⟩
  rw [hk, zpow_neg, zpow_natCast, div_inv_eq_mul]
  have e : (n : ℚ) * 2 ^ k = ((n * 2 ^ k : ℕ) : ℤ) := by push_cast; ring
  rw [e, roundEven_int]
  push_cast
  field_simp

/-! ## Points of a fan -/

/-- point `i` of `N` from `lo` to `hi`, with a rounding after each operation -/
def fanPoint (rnd : K → K) (lo hi : K) (N i : ℕ) : K := rnd (lo + rnd (i * rnd (rnd (hi - lo) / (N - 1 : ℕ))))

/-- whole numbers up to `N` are represented exactly -/
def Whole (rnd : K → K) (N : ℕ) : Prop := ∀ k : ℕ, k ≤ N → rnd (k : K) = k

theorem fanDelta_rounded {lo hi : K} {N : ℕ} (hN : 2 ≤ N) (hw : Whole rnd N) :
    fanDelta (num lo : Fl K rnd) (num hi) (N : Int) = .ok (num (rnd (rnd (hi - lo) / (N - 1 : ℕ)))) := by
  unfold fanDelta
  have h1 : ((N : Int) - 1 : Int) = ((N - 1 : ℕ) : Int) := by omega
  rw [if_pos (by omega), h1, lit_num, num_sub, rawDiv_num]
  have : ((((N - 1 : ℕ) : Int) : ℚ) : K) = ((N - 1 : ℕ) : K) := by norm_cast
  rw [this, hw (N - 1) (by omega)]

theorem term_rounded {s : K} {N i : ℕ} (hi : i ≤ N) (hw : Whole rnd N) : (lit (i : ℚ) : Fl K rnd) * num s = num (rnd (i * s)) := by
  rw [lit_num, Rat.cast_natCast, hw i hi, num_mul]

/-- **C124**: the rays of a fan: as many as asked, from one height, at the points computed with a rounding after each operation. -/
theorem C124_fan {y lo hi : K} {N : ℕ} (hN : 2 ≤ N) (hw : Whole rnd N) :
    Ray.fan (num y : Fl K rnd) (num lo) (num hi) (N : Int) = .ok ((List.range N).map fun i => Ray.new (num y) (num (fanPoint rnd lo hi N i))) := by
  unfold Ray.fan
  rw [fanDelta_rounded hN hw]
  change Except.ok _ = Except.ok _
  congr 1
  refine List.map_congr_left fun i hi => ?_
  rw [Int.toNat_natCast, List.mem_range] at hi
  rw [term_rounded hi.le hw, num_add]
  rfl

/-- `numpy.linspace` in floats -/
theorem linspace_rounded {lo hi : K} {N : ℕ} (hN : 2 ≤ N) (hw : Whole rnd N) :
    linspace (num lo : Fl K rnd) (num hi) (N : Int) = .ok ((List.range N).map fun i => num (if i + 1 = N then hi else fanPoint rnd lo hi N i)) := by
  unfold linspace
  rw [if_neg (by omega), if_neg (by omega)]
  congr 1
  have h1 : ((N : Int) - 1 : Int) = ((N - 1 : ℕ) : Int) := by omega
  refine List.map_congr_left fun i hi => ?_
  rw [Int.toNat_natCast, List.mem_range] at hi
  rw [Int.toNat_natCast]
  split
  · rfl
  · rw [h1, lit_num (((N - 1 : ℕ) : Int) : ℚ), num_sub, rawDiv_num]
    have : ((((N - 1 : ℕ) : Int) : ℚ) : K) = ((N - 1 : ℕ) : K) := by norm_cast
    rw [this, hw (N - 1) (by omega), term_rounded hi.le hw, num_add, add_comm]
    rfl

section points
variable {lo hi : K} {N i j : ℕ}

theorem step_nonneg (hr : Rounding rnd u) (hm : Monotone rnd) (h : lo ≤ hi) : 0 ≤ rnd (rnd (hi - lo) / (N - 1 : ℕ)) := by
  have h0 : ∀ x, 0 ≤ x → 0 ≤ rnd x := fun x hx => by rw [← hr.zero]; exact hm hx
  exact h0 _ (div_nonneg (h0 _ (sub_nonneg.2 h)) (by positivity))

/-- **C124**: in order, whatever the number of rays -/
theorem C124_order (hr : Rounding rnd u) (hm : Monotone rnd) (h : lo ≤ hi) (hij : i ≤ j) : fanPoint rnd lo hi N i ≤ fanPoint rnd lo hi N j := by
  unfold fanPoint
  have h1 : (i : K) ≤ j := by exact_mod_cast hij
  exact hm (add_le_add_right (hm (mul_le_mul_of_nonneg_right h1 (step_nonneg hr hm h))) _)

/-- **C124**: the first one is the first bound itself -/
theorem C124_first (hr : Rounding rnd u) (hlo : rnd lo = lo) : fanPoint rnd lo hi N 0 = lo := by
  unfold fanPoint
  rw [Nat.cast_zero, zero_mul, hr.zero, add_zero, hlo]

/-- **C124**: all but the last one are between the bounds, exactly; for floats, up to 10¹⁵ rays -/
theorem C124_inside (hr : Rounding rnd u) (hm : Monotone rnd) (h : lo ≤ hi) (hlo : rnd lo = lo) (hhi : rnd hi = hi) (hN : 4 * u * (N - 1 : ℕ) ≤ 1)
    (hi' : i + 2 ≤ N) : lo ≤ fanPoint rnd lo hi N i ∧ fanPoint rnd lo hi N i ≤ hi := by
  constructor
  · calc lo = fanPoint rnd lo hi N 0 := (C124_first hr hlo).symm
      _ ≤ _ := C124_order hr hm h (Nat.zero_le _)
  · unfold fanPoint
    rw [← hhi]
    refine hm ?_
    rw [hhi]
    have hu := hr.nonneg
    have hs := hr.small
    have up : ∀ x, 0 ≤ x → rnd x ≤ (1 + u) * x := fun x hx => by
      have := hr.abs_le x
      rw [abs_of_nonneg hx] at this
      exact (le_abs_self _).trans this
    set n : K := ((N - 1 : ℕ) : K) with hn
    have hn1 : (1 : K) ≤ n := by rw [hn]; exact_mod_cast (by omega : 1 ≤ N - 1)
    have hn0 : 0 < n := by linarith
    have hin : (i : K) ≤ n - 1 := by
      have : (i : K) + 1 ≤ n := by rw [hn]; exact_mod_cast (by omega : i + 1 ≤ N - 1)
      linarith
    have hi0 : (0 : K) ≤ i := Nat.cast_nonneg i
    have d0 : 0 ≤ hi - lo := sub_nonneg.2 h
    have s0 := step_nonneg (N := N) hr hm h
    rw [← hn] at s0
    have D0 : 0 ≤ rnd (hi - lo) := by rw [← hr.zero]; exact hm d0
    have h1 := up _ d0
    have h2 := up _ (div_nonneg D0 hn0.le)
    have h3 := up _ (mul_nonneg hi0 s0)
    have h4 : rnd (rnd (hi - lo) / n) ≤ (1 + u) * ((1 + u) * (hi - lo) / n) := h2.trans (by gcongr)
    have h5 : rnd (↑i * rnd (rnd (hi - lo) / n)) ≤ (1 + u) * ((n - 1) * ((1 + u) * ((1 + u) * (hi - lo) / n))) := by
      refine h3.trans ?_
      have h6 : (i : K) * rnd (rnd (hi - lo) / n) ≤ (n - 1) * ((1 + u) * ((1 + u) * (hi - lo) / n)) :=
        mul_le_mul hin h4 s0 (by linarith)
      exact mul_le_mul_of_nonneg_left h6 (by linarith)
    have h7 : (1 + u) * ((n - 1) * ((1 + u) * ((1 + u) * (hi - lo) / n))) = (1 + u) ^ 3 * (n - 1) / n * (hi - lo) := by
      field_simp
    have h8 : (1 + u) ^ 3 ≤ 1 + 4 * u := by nlinarith [mul_nonneg hu hu, mul_nonneg (mul_nonneg hu hu) hu]
    have h9 : (1 + u) ^ 3 * (n - 1) / n ≤ 1 := by
      rw [div_le_one hn0]
      have : (1 + u) ^ 3 * (n - 1) ≤ (1 + 4 * u) * (n - 1) := mul_le_mul_of_nonneg_right h8 (by linarith)
      nlinarith
    have h10 := mul_le_mul_of_nonneg_right h9 d0
    rw [h7] at h5
    linarith

/-- **C124**: evenly spaced up to rounding errors, the last one included -/
theorem C124_spaced (hr : Rounding rnd u) (hN : 2 ≤ N) :
    |fanPoint rnd lo hi N i - spaced lo hi N i| ≤ relErr u 4 * (|lo| + i / (N - 1 : ℕ) * |hi - lo|) := by
  have hn : ((N - 1 : ℕ) : K) ≠ 0 := by
    have : N - 1 ≠ 0 := by omega
    exact_mod_cast this
  have hn0 : (0 : K) < ((N - 1 : ℕ) : K) := lt_of_le_of_ne (Nat.cast_nonneg _) hn.symm
  have n1 : Fl.Near u 1 (num (rnd (hi - lo)) : Fl K rnd) (hi - lo) |hi - lo| := ((near_num (rnd := rnd) u (hi - lo)).mono hr.nonneg le_rfl le_rfl).round hr
  obtain ⟨q, hq, n2⟩ := n1.div hr (relD_num (rnd := rnd) hn)
  rw [pyDiv_num hr _ _ hn] at hq
  cases hq
  have n3 := (near_num (rnd := rnd) u (i : K)).mul hr n2
  have n4 := ((near_num (rnd := rnd) u lo).mono hr.nonneg (Nat.zero_le 3) le_rfl).add hr (n3.mono hr.nonneg (by omega : _ ≤ 3) le_rfl)
  rw [num_mul, num_add] at n4
  obtain ⟨x, hx, -, h⟩ := n4
  have hx' := num_inj hx
  have e : spaced lo hi N i = lo + i * ((hi - lo) / ((N - 1 : ℕ) : K)) := by
    unfold spaced
    rw [if_neg (by omega), Nat.cast_sub (by omega), Nat.cast_one]
  rw [e]
  have e2 : fanPoint rnd lo hi N i = x := hx'
  rw [e2]
  refine h.trans (le_of_eq ?_)
  rw [Nat.abs_cast, abs_of_pos hn0]
  ring

end points

/-- point `i` of a uniform source: the last one is the bound itself -/
def gridPoint (rnd : K → K) (lo hi : K) (N i : ℕ) : K := if i + 1 = N then hi else fanPoint rnd lo hi N i

theorem gridPoint_inside (hr : Rounding rnd u) (hm : Monotone rnd) {lo hi : K} (h : lo ≤ hi) (hlo : rnd lo = lo) (hhi : rnd hi = hi) {N i : ℕ}
    (hN : 4 * u * (N - 1 : ℕ) ≤ 1) (hi' : i < N) : lo ≤ gridPoint rnd lo hi N i ∧ gridPoint rnd lo hi N i ≤ hi := by
  unfold gridPoint
  split
  · exact ⟨h, le_rfl⟩
  · exact C124_inside hr hm h hlo hhi hN (by omega)

theorem gridRays_ok {F : Type} [PyNum F] {hs as : List F} (h : hs ≠ []) :
    gridRays hs (.ok as) = .ok (hs.flatMap fun y => as.map fun theta => Ray.new y theta) := by
  cases hs with
  | nil => exact absurd rfl h
  | cons x xs => rfl

/-- **C124**: `UniformRays` in floats, with at least two heights and two angles: `M * N` rays, of all heights and angles of the grid, and none outside the bounds, not even by a rounding. -/
theorem C124_uniform (hr : Rounding rnd u) (hm : Monotone rnd) {yMax tMax : K} {yMin tMin : Option K} {M N : ℕ} (hM : 2 ≤ M) (hN : 2 ≤ N) (hwM : Whole rnd M)
    (hwN : Whole rnd N) (hM4 : 4 * u * (M - 1 : ℕ) ≤ 1) (hN4 : 4 * u * (N - 1 : ℕ) ≤ 1)
    (hy : yMin.getD (-yMax) ≤ yMax) (ht : tMin.getD (-tMax) ≤ tMax) (hy1 : rnd yMax = yMax) (hy2 : rnd (yMin.getD (-yMax)) = yMin.getD (-yMax))
    (ht1 : rnd tMax = tMax) (ht2 : rnd (tMin.getD (-tMax)) = tMin.getD (-tMax)) :
    ∃ rays, uniformRays (num yMax : Fl K rnd) (yMin.map num) (num tMax) (tMin.map num) M N = .ok rays ∧ rays.length = M * N ∧
      (∀ j i, j < M → i < N → rays[j * N + i]? =
        some (Ray.new (num (gridPoint rnd (yMin.getD (-yMax)) yMax M j)) (num (gridPoint rnd (tMin.getD (-tMax)) tMax N i)))) ∧
      ∀ r ∈ rays, ∃ y t, r = Ray.new (num y) (num t) ∧ yMin.getD (-yMax) ≤ y ∧ y ≤ yMax ∧ tMin.getD (-tMax) ≤ t ∧ t ≤ tMax := by
  have e1 : ((yMin.map num).getD (-num yMax) : Fl K rnd) = num (yMin.getD (-yMax)) := by cases yMin <;> simp [neg_num]
  have e2 : ((tMin.map num).getD (-num tMax) : Fl K rnd) = num (tMin.getD (-tMax)) := by cases tMin <;> simp [neg_num]
  have key := flatMap_range_get (fun j i => (Ray.new (num (gridPoint rnd (yMin.getD (-yMax)) yMax M j))
    (num (gridPoint rnd (tMin.getD (-tMax)) tMax N i)) : Ray (Fl K rnd))) M N
  refine ⟨_, ?_, key.1, fun j i hj hi => key.2 j i hj hi, ?_⟩
  · unfold uniformRays
    dsimp only
    rw [e1, e2, if_neg (by omega), linspace_rounded hM hwM, linspace_rounded hN hwN]
    change gridRays _ _ = _
    rw [gridRays_ok (by simp; omega)]
    simp [List.flatMap_map, List.map_map, Function.comp_def, gridPoint]
  · intro r hr'
    rw [List.mem_flatMap] at hr'
    obtain ⟨j, hj, hr'⟩ := hr'
    rw [List.mem_map] at hr'
    obtain ⟨i, hi, rfl⟩ := hr'
    rw [List.mem_range] at hi hj
    obtain ⟨a1, a2⟩ := gridPoint_inside hr hm hy hy2 hy1 hM4 hj
    obtain ⟨b1, b2⟩ := gridPoint_inside hr hm ht ht2 ht1 hN4 hi
    exact ⟨_, _, rfl, a1, a2, b1, b2⟩

/-- **C124** in Python floats: up to 10¹⁵ rays, the hypotheses on the rounding hold -/
theorem C124_double {N : ℕ} (hN : N ≤ 10 ^ 15) : Whole double N ∧ 4 * unitRoundoff * (N - 1 : ℕ) ≤ 1 ∧ Monotone double ∧ Rounding double unitRoundoff := by
  refine ⟨fun k hk => double_nat (by have : k ≤ 10 ^ 15 := hk.trans hN; omega), ?_, double_mono, double_rounding⟩
  have : ((N - 1 : ℕ) : ℚ) ≤ 10 ^ 15 := by
    have : ((N - 1 : ℕ) : ℚ) ≤ ((10 ^ 15 : ℕ) : ℚ) := by exact_mod_cast (by omega : N - 1 ≤ 10 ^ 15)
    have e : ((10 ^ 15 : ℕ) : ℚ) = 10 ^ 15 := by norm_num
    rw [e] at this; exact this
  calc 4 * unitRoundoff * (N - 1 : ℕ) ≤ 4 * unitRoundoff * 10 ^ 15 := mul_le_mul_of_nonneg_left this (by norm_num [unitRoundoff])
    _ ≤ 1 := by norm_num [unitRoundoff]

/-- the angle of a ray of a fan in Python floats -/
def fanAngle64 (lo hi : ℚ) (N : Int) (i : ℕ) : Option Double :=
  match Ray.fan (num 0 : Double) (num (double lo)) (num (double hi)) N with
  | .ok rs => (rs[i]?).map (·.theta)
  | .error _ => none

/-- **C124** fails for the last ray of a fan: `Ray.fan(0, -0.1, 0.2, 2)` leaves at more than 0.2, since the last angle is computed from the first one. -/
theorem C124_last_violated : (fanAngle64 (-1/10) (1/5) 2 1).map (fun t => num (double (1/5)) <. t) = some true := by decide +kernel

/-- **C124** fails for the ray in the middle: the 50th of the 99 rays of `Ray.fan(0, -1, 1, 99)` is not on the axis. -/
theorem C124_middle_violated : (fanAngle64 (-1) 1 99 49) = some (num (-1 / 2 ^ 53)) ∧ spaced (-1 : ℚ) 1 99 49 = 0 := by
  constructor
  · decide +kernel
  · norm_num [spaced]

/-- The hypotheses of `C124_uniform` are met by `UniformRays(yMax=0.3, thetaMax=0.1, M=5, N=7)`. -/
theorem C124_example : double (double (3/10)) = double (3/10) ∧ double (-double (3/10)) = -double (3/10) ∧ -double (3/10) ≤ double (3/10) ∧ double (3/10) ≠ 3/10 ∧
    (match uniformRays (num (double (3/10)) : Double) none (num (double (1/10))) none 5 7 with | .ok rs => rs.length | _ => 0) = 35 := by
  refine ⟨by decide +kernel, by decide +kernel, by decide +kernel, by decide +kernel, by decide +kernel⟩

end RT
