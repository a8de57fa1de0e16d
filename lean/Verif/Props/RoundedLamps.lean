import Verif.Props.Lamps
import Verif.Props.RoundedFan
import Mathlib.Analysis.Real.Pi.Bounds

/-! # C134: Lambertian sources in floats

The numbers are rationals, rounded; the cosine of the library is any function of floats within `e` of the real one, and `np.pi / 2` any float. -/

set_option linter.unusedSectionVars false

namespace RT
open PyNum Ext Fl

section lambert
variable {rnd : ℚ → ℚ} {u : ℚ}

/-- `int(x)` of a float -/
def flInt : Fl ℚ rnd → Except PyErr Int
  | ⟨.fin x⟩ => .ok (if 0 ≤ x then ⌊x⌋ else ⌈x⌉)
  | _ => .error .valueError

/-- the cosine of a library, as a function of floats -/
def flCos (c : ℚ → ℚ) : Fl ℚ rnd → Fl ℚ rnd
  | ⟨.fin x⟩ => num (c x)
  | _ => ⟨.nan⟩

/-- number of rays at angle `i` of `N`: the cosine of the float, multiplied by the intensity with a rounding, cut to a whole number -/
def lambertCount (rnd c : ℚ → ℚ) (hp I : ℚ) (N i : ℕ) : ℕ := ⌊rnd (I * c (gridPoint rnd (-hp) hp N i))⌋₊

/-- what a source gives in floats -/
def lambertFloats (rnd c : ℚ → ℚ) (hp yLo yHi I : ℚ) (M N : ℕ) : List (Ray (Fl ℚ rnd)) :=
  (List.range N).flatMap fun i => (List.range M).flatMap fun j =>
    List.replicate (lambertCount rnd c hp I N i) (Ray.new (num (gridPoint rnd yLo yHi M j)) (num (gridPoint rnd (-hp) hp N i)))

theorem flInt_count (x : ℚ) : ∃ k : Int, flInt (num x : Fl ℚ rnd) = .ok k ∧ k.toNat = ⌊x⌋₊ := by
  by_cases h0 : 0 ≤ x
  · exact ⟨⌊x⌋, by simp [flInt, num, h0], Int.floor_toNat x⟩
  · have h1 : x ≤ 0 := (not_le.1 h0).le
    have h2 : ⌈x⌉ ≤ 0 := Int.ceil_le.2 (by simpa using h1)
    exact ⟨⌈x⌉, by simp [flInt, num, h0], by rw [Nat.floor_of_nonpos h1, Int.toNat_of_nonpos h2]⟩

theorem lambert_loopF (c : ℚ → ℚ) (yHi yLo I : ℚ) {M : ℕ} (hM : 2 ≤ M) (hw : Whole rnd M) : ∀ angles : List ℚ,
    lambertianRays.loop (flCos c) flInt (num yHi : Fl ℚ rnd) (M : Int) (num I) (num yLo) (angles.map num) =
      .ok (angles.flatMap fun t => (List.range M).flatMap fun j =>
        List.replicate ⌊rnd (I * c t)⌋₊ (Ray.new (num (gridPoint rnd yLo yHi M j)) (num t)))
  | [] => rfl
  | t :: angles => by
    obtain ⟨k, h1, h2⟩ := flInt_count (rnd := rnd) (rnd (I * c t))
    rw [List.map_cons, lambertianRays.loop]
    rw [show flInt ((num I : Fl ℚ rnd) * flCos c (num t)) = .ok k by rw [← h1, show flCos c (num t : Fl ℚ rnd) = num (c t) from rfl, num_mul]]
    simp only
    rw [linspace_rounded hM hw, lambert_loopF c yHi yLo I hM hw angles]
    simp only [List.flatMap_cons, List.flatMap_map, h2, gridPoint]

/-- **C134**: the rays of a Lambertian source in floats, in order, for all bounds and intensities and at least two heights and two angles. -/
theorem C134_rays (c : ℚ → ℚ) (hp yMax : ℚ) (yMin : Option ℚ) {M N : ℕ} (hM : 2 ≤ M) (hN : 2 ≤ N) (hwM : Whole rnd M) (hwN : Whole rnd N) (I : ℚ) :
    lambertianRays (flCos c) flInt (num hp : Fl ℚ rnd) (num yMax) (yMin.map num) M N (num I) =
      .ok (lambertFloats rnd c hp (yMin.getD (-yMax)) yMax I M N) := by
  have e1 : ((yMin.map num).getD (-num yMax) : Fl ℚ rnd) = num (yMin.getD (-yMax)) := by cases yMin <;> simp [neg_num]
  unfold lambertianRays
  rw [e1, neg_num, linspace_rounded hN hwN]
  simp only
  have h := lambert_loopF (rnd := rnd) c yMax (yMin.getD (-yMax)) I hM hwM ((List.range N).map (gridPoint rnd (-hp) hp N))
  rw [List.map_map] at h
  refine (Eq.trans ?_ h).trans ?_
  · rfl
  · rw [List.flatMap_map]
    rfl

/-- **C134**: no ray is out of the bounds, not even by a rounding, and the number of rays is the sum of those of the angles, for each height. -/
theorem C134_bounds (hr : Rounding rnd u) (hm : Monotone rnd) (c : ℚ → ℚ) {hp yLo yHi : ℚ} {M N : ℕ} (hp0 : 0 ≤ hp) (hp1 : rnd hp = hp)
    (hp2 : rnd (-hp) = -hp) (hy : yLo ≤ yHi) (hy1 : rnd yLo = yLo) (hy2 : rnd yHi = yHi) (hM4 : 4 * u * (M - 1 : ℕ) ≤ 1) (hN4 : 4 * u * (N - 1 : ℕ) ≤ 1)
    (I : ℚ) :
    (lambertFloats rnd c hp yLo yHi I M N).length = M * ((List.range N).map fun i => lambertCount rnd c hp I N i).sum ∧
    ∀ r ∈ lambertFloats rnd c hp yLo yHi I M N, ∃ y θ : ℚ, r = Ray.new (num y) (num θ) ∧ yLo ≤ y ∧ y ≤ yHi ∧ -hp ≤ θ ∧ θ ≤ hp := by
  constructor
  · unfold lambertFloats
    rw [List.length_flatMap, ← List.sum_map_mul_left]
    congr 1
    apply List.map_congr_left
    intro i _
    rw [List.length_flatMap]
    simp
  · intro r hr'
    simp only [lambertFloats, List.mem_flatMap, List.mem_range, List.mem_replicate] at hr'
    obtain ⟨i, hi, j, hj, h0, rfl⟩ := hr'
    obtain ⟨a1, a2⟩ := gridPoint_inside hr hm hy hy1 hy2 hM4 hj
    obtain ⟨b1, b2⟩ := gridPoint_inside hr hm (by linarith) hp2 hp1 hN4 hi
    exact ⟨_, _, rfl, a1, a2, b1, b2⟩

/-- the error on the number of rays before it is cut, for an intensity of 1: rounding of the product, error of the cosine, of the angle, and of `np.pi / 2` -/
noncomputable def lambertErr (u e hp d : ℝ) : ℝ := u * (1 + e) + e + relErr u 4 * (3 * hp) + d

/-- the angles in floats are those of the exact source up to four roundings and the error on π/2 -/
theorem lambert_angle (hr : Rounding rnd u) {hp : ℚ} (hp0 : 0 ≤ hp) {N i : ℕ} (hN : 2 ≤ N) (hi : i < N) :
    |((gridPoint rnd (-hp) hp N i : ℚ) : ℝ) - lambertAngle N i| ≤ relErr (u : ℝ) 4 * (3 * hp) + |(hp : ℝ) - Real.pi / 2| := by
  have hu := hr.nonneg
  have hq0 : (0 : ℝ) ≤ hp := by exact_mod_cast hp0
  have hN1 : ((N - 1 : ℕ) : ℚ) = N - 1 := by rw [Nat.cast_sub (by omega), Nat.cast_one]
  have hNpos : (0 : ℚ) < N - 1 := by
    have : (2 : ℚ) ≤ N := by exact_mod_cast hN
    linarith
  have hNposR : (0 : ℝ) < N - 1 := by exact_mod_cast hNpos
  have hi1 : (i : ℚ) ≤ N - 1 := by
    have : i + 1 ≤ N := hi
    have : (i : ℚ) + 1 ≤ N := by exact_mod_cast this
    linarith
  have hi1R : (i : ℝ) ≤ N - 1 := by exact_mod_cast hi1
  have e0 : 0 ≤ relErr u 4 := relErr_nonneg hu 4
  -- the float against the point of the grid
  have s1 : |gridPoint rnd (-hp) hp N i - spaced (-hp) hp N i| ≤ relErr u 4 * (3 * hp) := by
    unfold gridPoint
    split
    · next hl =>
      have : spaced (-hp) hp N i = hp := by
        unfold spaced
        rw [if_neg (by omega)]
        have : (i : ℚ) = N - 1 := by
          have : (i : ℚ) + 1 = N := by exact_mod_cast hl
          linarith
        rw [this]
        field_simp
        ring
      rw [this, sub_self, abs_zero]
      positivity
    · refine (C124_spaced hr hN).trans (mul_le_mul_of_nonneg_left ?_ e0)
      rw [abs_neg, abs_of_nonneg hp0, hN1, show hp - -hp = 2 * hp by ring, abs_of_nonneg (by linarith : (0 : ℚ) ≤ 2 * hp)]
      have h1 : (i : ℚ) / (N - 1) ≤ 1 := (div_le_one hNpos).2 hi1
      nlinarith [mul_le_mul_of_nonneg_right h1 (by linarith : (0 : ℚ) ≤ 2 * hp)]
  have s2 : |((gridPoint rnd (-hp) hp N i : ℚ) : ℝ) - ((spaced (-hp) hp N i : ℚ) : ℝ)| ≤ relErr (u : ℝ) 4 * (3 * hp) := by
    have : ((|gridPoint rnd (-hp) hp N i - spaced (-hp) hp N i| : ℚ) : ℝ) ≤ ((relErr u 4 * (3 * hp) : ℚ) : ℝ) := by exact_mod_cast s1
    simpa [relErr] using this
  -- the point of the grid against that of the exact source
  have s3 : |((spaced (-hp) hp N i : ℚ) : ℝ) - lambertAngle N i| ≤ |(hp : ℝ) - Real.pi / 2| := by
    have e : ((spaced (-hp) hp N i : ℚ) : ℝ) - lambertAngle N i = ((hp : ℝ) - Real.pi / 2) * (2 * (i / (N - 1)) - 1) := by
      unfold lambertAngle spaced
      rw [if_neg (by omega), if_neg (by omega)]
      push_cast
      field_simp
      ring
    rw [e, abs_mul]
    have h1 : (i : ℝ) / (N - 1) ≤ 1 := (div_le_one hNposR).2 hi1R
    have h2 : 0 ≤ (i : ℝ) / (N - 1) := by positivity
    exact mul_le_of_le_one_right (abs_nonneg _) (abs_le.2 ⟨by linarith, by linarith⟩)
  calc |((gridPoint rnd (-hp) hp N i : ℚ) : ℝ) - lambertAngle N i|
      ≤ |((gridPoint rnd (-hp) hp N i : ℚ) : ℝ) - ((spaced (-hp) hp N i : ℚ) : ℝ)| + |((spaced (-hp) hp N i : ℚ) : ℝ) - lambertAngle N i| := abs_sub_le _ _ _
    _ ≤ _ := add_le_add s2 s3

/-- the product of the intensity and the cosine before it is cut -/
theorem lambert_product (hr : Rounding rnd u) {c : ℚ → ℚ} {e : ℝ} (hc : ∀ x : ℚ, |((c x : ℚ) : ℝ) - Real.cos x| ≤ e) {hp I : ℚ} (hp0 : 0 ≤ hp) (hI : 0 ≤ I)
    {N i : ℕ} (hN : 2 ≤ N) (hi : i < N) :
    |((rnd (I * c (gridPoint rnd (-hp) hp N i)) : ℚ) : ℝ) - I * Real.cos (lambertAngle N i)| ≤ I * lambertErr u e hp |(hp : ℝ) - Real.pi / 2| := by
  set t := gridPoint rnd (-hp) hp N i with ht
  have hIR : (0 : ℝ) ≤ I := by exact_mod_cast hI
  have huR : (0 : ℝ) ≤ u := by exact_mod_cast hr.nonneg
  have h1 : |((rnd (I * c t) : ℚ) : ℝ) - I * c t| ≤ u * (I * |((c t : ℚ) : ℝ)|) := by
    have h := hr.rel (I * c t)
    rw [abs_mul, abs_of_nonneg hI] at h
    exact_mod_cast h
  have h2 : |((c t : ℚ) : ℝ)| ≤ 1 + e := by
    have a := hc t
    have b := Real.abs_cos_le_one (t : ℝ)
    rw [abs_le] at a b ⊢
    constructor <;> linarith
  have h3 : |Real.cos (t : ℝ) - Real.cos (lambertAngle N i)| ≤ relErr (u : ℝ) 4 * (3 * hp) + |(hp : ℝ) - Real.pi / 2| := by
    refine le_trans ?_ (lambert_angle hr hp0 hN hi)
    have := Real.cos_sub_cos (t : ℝ) (lambertAngle N i)
    rw [this, abs_mul, abs_mul, abs_neg, abs_two]
    have a := Real.abs_sin_le_one (((t : ℝ) + lambertAngle N i) / 2)
    have b : |Real.sin (((t : ℝ) - lambertAngle N i) / 2)| ≤ |((t : ℝ) - lambertAngle N i) / 2| := Real.abs_sin_le_abs
    rw [abs_div, abs_two] at b
    calc 2 * |Real.sin (((t : ℝ) + lambertAngle N i) / 2)| * |Real.sin (((t : ℝ) - lambertAngle N i) / 2)|
        ≤ 2 * 1 * (|(t : ℝ) - lambertAngle N i| / 2) :=
          mul_le_mul (mul_le_mul_of_nonneg_left a (by norm_num)) b (abs_nonneg _) (by norm_num)
      _ = |(t : ℝ) - lambertAngle N i| := by ring
  have h4 : |(c t : ℝ) - Real.cos (lambertAngle N i)| ≤ e + (relErr (u : ℝ) 4 * (3 * hp) + |(hp : ℝ) - Real.pi / 2|) :=
    (abs_sub_le _ (Real.cos t) _).trans (add_le_add (hc t) h3)
  have h5 : |(I : ℝ) * c t - I * Real.cos (lambertAngle N i)| ≤ I * (e + (relErr (u : ℝ) 4 * (3 * hp) + |(hp : ℝ) - Real.pi / 2|)) := by
    rw [← mul_sub, abs_mul, abs_of_nonneg hIR]
    exact mul_le_mul_of_nonneg_left h4 hIR
  have h6 : (u : ℝ) * (I * |((c t : ℚ) : ℝ)|) ≤ u * (I * (1 + e)) := mul_le_mul_of_nonneg_left (mul_le_mul_of_nonneg_left h2 hIR) huR
  calc |((rnd (I * c t) : ℚ) : ℝ) - I * Real.cos (lambertAngle N i)|
      ≤ |((rnd (I * c t) : ℚ) : ℝ) - I * c t| + |(I : ℝ) * c t - I * Real.cos (lambertAngle N i)| := abs_sub_le _ _ _
    _ ≤ u * (I * (1 + e)) + I * (e + (relErr (u : ℝ) 4 * (3 * hp) + |(hp : ℝ) - Real.pi / 2|)) := add_le_add (h1.trans h6) h5
    _ = _ := by unfold lambertErr; ring

/-- **C134**: in floats the number of rays at each angle and height is the intensity times the cosine of the exact angle, to less than one ray and the rounding errors. -/
theorem C134_cosine (hr : Rounding rnd u) {c : ℚ → ℚ} {e : ℝ} (hc : ∀ x : ℚ, |((c x : ℚ) : ℝ) - Real.cos x| ≤ e) {hp I : ℚ} (hp0 : 0 ≤ hp) (hI : 0 ≤ I)
    {N i : ℕ} (hN : 2 ≤ N) (hi : i < N) :
    (lambertCount rnd c hp I N i : ℝ) ≤ I * Real.cos (lambertAngle N i) + I * lambertErr u e hp |(hp : ℝ) - Real.pi / 2| ∧
    I * Real.cos (lambertAngle N i) - I * lambertErr u e hp |(hp : ℝ) - Real.pi / 2| < lambertCount rnd c hp I N i + 1 := by
  have h := lambert_product hr hc hp0 hI hN hi
  have h0 := (abs_nonneg _).trans h
  rw [abs_le] at h
  have hIR : (0 : ℝ) ≤ I := by exact_mod_cast hI
  have hpos := mul_nonneg hIR (lambertAngle_cos hi)
  unfold lambertCount
  constructor
  · by_cases hv : 0 ≤ rnd (I * c (gridPoint rnd (-hp) hp N i))
    · have h1 : ((⌊rnd (I * c (gridPoint rnd (-hp) hp N i))⌋₊ : ℕ) : ℝ) ≤ ((rnd (I * c (gridPoint rnd (-hp) hp N i)) : ℚ) : ℝ) := by
        exact_mod_cast Nat.floor_le hv
      linarith
    · rw [Nat.floor_of_nonpos (not_le.1 hv).le, Nat.cast_zero]
      linarith
  · have h1 : ((rnd (I * c (gridPoint rnd (-hp) hp N i)) : ℚ) : ℝ) < ((⌊rnd (I * c (gridPoint rnd (-hp) hp N i))⌋₊ : ℕ) : ℝ) + 1 := by
      exact_mod_cast Nat.lt_floor_add_one (rnd (I * c (gridPoint rnd (-hp) hp N i)))
    linarith

/-- **C134**: the number of rays is that of the exact source of C111 unless the intensity times the cosine is within the errors of a whole number. -/
theorem C134_same (hr : Rounding rnd u) {c : ℚ → ℚ} {e : ℝ} (hc : ∀ x : ℚ, |((c x : ℚ) : ℝ) - Real.cos x| ≤ e) {hp I : ℚ} (hp0 : 0 ≤ hp) (hI : 0 ≤ I)
    {N i : ℕ} (hN : 2 ≤ N) (hi : i < N)
    (h1 : (⌊I * Real.cos (lambertAngle N i)⌋₊ : ℝ) + I * lambertErr u e hp |(hp : ℝ) - Real.pi / 2| ≤ I * Real.cos (lambertAngle N i))
    (h2 : I * Real.cos (lambertAngle N i) + I * lambertErr u e hp |(hp : ℝ) - Real.pi / 2| < ⌊I * Real.cos (lambertAngle N i)⌋₊ + 1) :
    lambertCount rnd c hp I N i = ⌊(I : ℝ) * Real.cos (lambertAngle N i)⌋₊ := by
  obtain ⟨a, b⟩ := C134_cosine hr hc hp0 hI hN hi
  have l1 : (lambertCount rnd c hp I N i : ℝ) < (⌊(I : ℝ) * Real.cos (lambertAngle N i)⌋₊ : ℕ) + 1 := a.trans_lt h2
  have l2 : ((⌊(I : ℝ) * Real.cos (lambertAngle N i)⌋₊ : ℕ) : ℝ) < lambertCount rnd c hp I N i + 1 := lt_of_le_of_lt (by linarith) b
  have l1' : lambertCount rnd c hp I N i < ⌊(I : ℝ) * Real.cos (lambertAngle N i)⌋₊ + 1 := by exact_mod_cast l1
  have l2' : ⌊(I : ℝ) * Real.cos (lambertAngle N i)⌋₊ < lambertCount rnd c hp I N i + 1 := by exact_mod_cast l2
  omega

/-- **C134** in Python floats, with a cosine good to two units of 10⁻¹⁶ and π/2 to 10⁻¹⁶: the errors are at most 3·10⁻¹⁵ of the intensity. -/
theorem C134_double {e d : ℝ} {hp : ℚ} (he : e ≤ 2 / 10 ^ 16) (hd : d ≤ 1 / 10 ^ 16) (hp1 : hp ≤ 8 / 5) :
    lambertErr unitRoundoff e hp d ≤ 3 / 10 ^ 15 := by
  have h1 : (hp : ℝ) ≤ 8 / 5 := by
    have : ((hp : ℚ) : ℝ) ≤ ((8 / 5 : ℚ) : ℝ) := by exact_mod_cast hp1
    simpa using this
  have h2 : ((unitRoundoff : ℚ) : ℝ) = 1 / 2 ^ 53 := by norm_num [unitRoundoff]
  have h3 : relErr ((unitRoundoff : ℚ) : ℝ) 4 * (3 * (hp : ℝ)) ≤ relErr ((unitRoundoff : ℚ) : ℝ) 4 * (3 * (8 / 5)) :=
    mul_le_mul_of_nonneg_left (by linarith) (relErr_nonneg (by rw [h2]; norm_num) 4)
  unfold lambertErr
  have h4 : ((unitRoundoff : ℚ) : ℝ) * (1 + e) ≤ ((unitRoundoff : ℚ) : ℝ) * (1 + 2 / 10 ^ 16) := mul_le_mul_of_nonneg_left (by linarith) (by rw [h2]; norm_num)
  have h5 : ((unitRoundoff : ℚ) : ℝ) * (1 + 2 / 10 ^ 16) + 2 / 10 ^ 16 + relErr ((unitRoundoff : ℚ) : ℝ) 4 * (3 * (8 / 5)) + 1 / 10 ^ 16 ≤ 3 / 10 ^ 15 := by
    rw [h2]; norm_num [relErr]
  linarith

/-- **C134**: in floats a source with at least four angles and an intensity with room for the errors above 2 has rays. -/
theorem C134_emits (hr : Rounding rnd u) {c : ℚ → ℚ} {e : ℝ} (hc : ∀ x : ℚ, |((c x : ℚ) : ℝ) - Real.cos x| ≤ e) {hp I : ℚ} (hp0 : 0 ≤ hp) (hI : 0 ≤ I)
    {yLo yHi : ℚ} {M N : ℕ} (hM : 1 ≤ M) (hN : 4 ≤ N) (h : 2 + 2 * I * lambertErr u e hp |(hp : ℝ) - Real.pi / 2| ≤ I) :
    lambertFloats rnd c hp yLo yHi I M N ≠ [] := by
  have hi : N / 2 < N := by omega
  obtain ⟨-, b⟩ := C134_cosine hr hc hp0 hI (by omega) hi
  have hm := lambertAngle_middle hN
  have hIR : (0 : ℝ) ≤ I := by exact_mod_cast hI
  have h1 := mul_le_mul_of_nonneg_left hm hIR
  have h2 : (0 : ℝ) < lambertCount rnd c hp I N (N / 2) := by linarith
  have h3 : lambertCount rnd c hp I N (N / 2) ≠ 0 := by
    intro h0; rw [h0] at h2; simp at h2
  refine List.ne_nil_of_mem (a := Ray.new (num (gridPoint rnd yLo yHi M 0)) (num (gridPoint rnd (-hp) hp N (N / 2)))) ?_
  simp only [lambertFloats, List.mem_flatMap, List.mem_range, List.mem_replicate]
  exact ⟨_, hi, 0, hM, h3, rfl⟩

/-- `np.pi / 2` -/
def halfPi64 : ℚ := 884279719003555 / 562949953421312

theorem halfPi64_near : |((halfPi64 : ℚ) : ℝ) - Real.pi / 2| ≤ 1 / 10 ^ 16 := by
  have h1 := Real.pi_gt_d20
  have h2 := Real.pi_lt_d20
  have e : ((halfPi64 : ℚ) : ℝ) = 884279719003555 / 562949953421312 := by norm_num [halfPi64]
  rw [e, abs_le]
  constructor <;> norm_num at * <;> linarith

/-- There are cosines with this precision; with any of them the default source `LambertianRays()` meets the hypotheses, is made in Python floats, has rays, none out of
the bounds, and at each angle and height `100 cos θ` of them to less than one and 3·10⁻¹³. -/
theorem C134_example : (∃ c : ℚ → ℚ, ∀ x : ℚ, |((c x : ℚ) : ℝ) - Real.cos x| ≤ 2 / 10 ^ 16) ∧ double halfPi64 = halfPi64 ∧
    ∀ c : ℚ → ℚ, (∀ x : ℚ, |((c x : ℚ) : ℝ) - Real.cos x| ≤ 2 / 10 ^ 16) →
      lambertianRays (flCos c) flInt (num halfPi64 : Double) (num 1) none 100 100 (num 100) = .ok (lambertFloats double c halfPi64 (-1) 1 100 100 100) ∧
      lambertFloats double c halfPi64 (-1) 1 100 100 100 ≠ [] ∧
      (∀ r ∈ lambertFloats double c halfPi64 (-1) 1 100 100 100, ∃ y θ : ℚ, r = Ray.new (num y) (num θ) ∧ -1 ≤ y ∧ y ≤ 1 ∧ -halfPi64 ≤ θ ∧ θ ≤ halfPi64) ∧
      ∀ i < 100, |(lambertCount double c halfPi64 100 100 i : ℝ) - 100 * Real.cos (lambertAngle 100 i)| ≤ 1 + 3 / 10 ^ 13 := by
  obtain ⟨w, n4, hm, hr⟩ := C124_double (N := 100) (by norm_num)
  have p0 : (0 : ℚ) ≤ halfPi64 := by norm_num [halfPi64]
  have p1 : double halfPi64 = halfPi64 := by decide +kernel
  have p2 : double (-halfPi64) = -halfPi64 := by decide +kernel
  have hE := C134_double (e := 2 / 10 ^ 16) (hp := halfPi64) le_rfl halfPi64_near (by norm_num [halfPi64])
  refine ⟨?_, p1, fun c hc => ⟨?_, ?_, ?_, ?_⟩⟩
  · have : ∀ x : ℚ, ∃ q : ℚ, |((q : ℚ) : ℝ) - Real.cos x| ≤ 2 / 10 ^ 16 := by
      intro x
      obtain ⟨q, h1, h2⟩ := exists_rat_btwn (show Real.cos x < Real.cos x + 2 / 10 ^ 16 by norm_num)
      exact ⟨q, abs_le.2 ⟨by linarith, by linarith⟩⟩
    choose c hc using this
    exact ⟨c, hc⟩
  · exact C134_rays c halfPi64 1 none (by norm_num) (by norm_num) w w 100
  · refine C134_emits hr hc p0 (by norm_num) (by norm_num) (by norm_num) ?_
    push_cast
    linarith
  · exact (C134_bounds hr hm c p0 p1 p2 (by norm_num) (by decide +kernel) (by decide +kernel) n4 n4 100).2
  · intro i hi
    obtain ⟨a, b⟩ := C134_cosine hr hc p0 (by norm_num : (0 : ℚ) ≤ 100) (N := 100) (by norm_num) hi
    push_cast at a b
    rw [abs_le]
    constructor <;> linarith

end lambert
end RT
