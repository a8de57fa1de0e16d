import Verif.Props.Sources
import Verif.Props.RoundedFan

/-! # C135: random sources in floats -/

set_option linter.unusedSectionVars false

namespace RT
open PyNum Ext Fl
variable {K : Type} [Field K] [LinearOrder K] [IsStrictOrderedRing K] {rnd : K → K} {u : K}

/-- what `random()` can give: not negative, and at least one unit of the last place below 1 -/
def Random01 (u t : K) : Prop := 0 ≤ t ∧ t < 1 ∧ t ≤ 1 - u

/-- the height or the angle in floats -/
def randomPoint (rnd : K → K) (lo hi t : K) : K := rnd (lo + rnd (t * rnd (hi - lo)))

theorem between_rounded (lo hi t : K) : between (num lo : Fl K rnd) (num hi) (num t) = num (randomPoint rnd lo hi t) := by
  unfold between randomPoint
  rw [num_sub, num_mul, num_add]

/-- A width that was rounded up is rounded down again by the product: for floats `t` below 1, `t * (hi - lo)` is at most the exact width. -/
theorem random_width (hr : Rounding rnd u) (hm : Monotone rnd) (hid : ∀ x, rnd (rnd x) = rnd x) {d t : K} (hd : 0 ≤ d) (ht : Random01 u t) :
    0 ≤ rnd (t * rnd d) ∧ rnd (t * rnd d) ≤ d := by
  obtain ⟨t0, t1, t2⟩ := ht
  have h0 : ∀ x, 0 ≤ x → 0 ≤ rnd x := fun x hx => by rw [← hr.zero]; exact hm hx
  have hD := h0 d hd
  refine ⟨h0 _ (mul_nonneg t0 hD), ?_⟩
  have hle : rnd (t * rnd d) ≤ rnd d := by
    calc rnd (t * rnd d) ≤ rnd (rnd d) := hm (mul_le_of_le_one_left hD t1.le)
      _ = rnd d := hid d
  by_cases hc : rnd d ≤ d
  · exact hle.trans hc
  · have hc := not_le.1 hc
    have hDpos : 0 < rnd d := lt_of_le_of_lt hd hc
    have hne : rnd (t * rnd d) ≠ rnd d := by
      intro he
      have h := (abs_le.1 (hr.rel (t * rnd d))).2
      rw [he, abs_of_nonneg (mul_nonneg t0 hD)] at h
      have h1 : (1 - t) * rnd d ≤ (u * t) * rnd d := by linarith
      have h2 : 1 - t ≤ u * t := le_of_mul_le_mul_right h1 hDpos
      have h3 : u * t ≤ (1 - t) * t := mul_le_mul_of_nonneg_right (by linarith) t0
      nlinarith [mul_pos (sub_pos.2 t1) (sub_pos.2 t1)]
    by_contra hgt
    have hgt := not_le.1 hgt
    have h4 := hm hgt.le
    rw [hid] at h4
    exact hne (le_antisymm hle h4)

/-- **C135**: a random height or angle in floats is between the bounds, exactly, whatever the rounding of the width. -/
theorem C135_inside (hr : Rounding rnd u) (hm : Monotone rnd) (hid : ∀ x, rnd (rnd x) = rnd x) {lo hi t : K} (h : lo ≤ hi) (hlo : rnd lo = lo)
    (hhi : rnd hi = hi) (ht : Random01 u t) : lo ≤ randomPoint rnd lo hi t ∧ randomPoint rnd lo hi t ≤ hi := by
  obtain ⟨a, b⟩ := random_width hr hm hid (sub_nonneg.2 h) ht
  unfold randomPoint
  constructor
  · calc lo = rnd lo := hlo.symm
      _ ≤ _ := hm (by linarith)
  · calc rnd (lo + rnd (t * rnd (hi - lo))) ≤ rnd hi := hm (by linarith)
      _ = hi := hhi

/-- **C135**: it is the exact point up to three roundings, and in the order of the random numbers. -/
theorem C135_point (hr : Rounding rnd u) (hm : Monotone rnd) {lo hi : K} (h : lo ≤ hi) {t : K} :
    |randomPoint rnd lo hi t - (lo + t * (hi - lo))| ≤ relErr u 3 * (|lo| + |t| * (hi - lo)) ∧
      ∀ t', t ≤ t' → randomPoint rnd lo hi t ≤ randomPoint rnd lo hi t' := by
  constructor
  · have n1' : Fl.Near u 1 (num (rnd (hi - lo)) : Fl K rnd) (hi - lo) |hi - lo| := ((near_num (rnd := rnd) u (hi - lo)).mono hr.nonneg le_rfl le_rfl).round hr
    have n2 := (near_num (rnd := rnd) u t).mul hr n1'
    have n3 := ((near_num (rnd := rnd) u lo).mono hr.nonneg (Nat.zero_le 2) le_rfl).add hr (n2.mono hr.nonneg (by omega : _ ≤ 2) le_rfl)
    rw [num_mul, num_add] at n3
    obtain ⟨x, hx, -, hb⟩ := n3
    rw [show randomPoint rnd lo hi t = x from num_inj hx]
    rw [abs_of_nonneg (sub_nonneg.2 h)] at hb
    exact hb
  · intro t' htt
    have hD : 0 ≤ rnd (hi - lo) := by rw [← hr.zero]; exact hm (sub_nonneg.2 h)
    exact hm (add_le_add_right (hm (mul_le_mul_of_nonneg_right htt hD)) _)

/-- a ray of floats within bounds -/
def WithinF (r : Ray (Fl K rnd)) (yMin yMax thetaMin thetaMax : K) : Prop :=
  ∃ y theta, r = Ray.new (num y) (num theta) ∧ yMin ≤ y ∧ y ≤ yMax ∧ thetaMin ≤ theta ∧ theta ≤ thetaMax

section sources
variable {yMin yMax thetaMin thetaMax : K}

/-- the bounds are floats, in order -/
structure FloatBounds (rnd : K → K) (yMin yMax thetaMin thetaMax : K) : Prop where
  y : yMin ≤ yMax
  theta : thetaMin ≤ thetaMax
  y0 : rnd yMin = yMin
  y1 : rnd yMax = yMax
  theta0 : rnd thetaMin = thetaMin
  theta1 : rnd thetaMax = thetaMax

/-- the bounds as the source has them -/
def floatBounds (rnd : K → K) (yMin yMax thetaMin thetaMax : K) : Bounds (Fl K rnd) := ⟨num yMin, num yMax, num thetaMin, num thetaMax⟩

theorem random_ray (hr : Rounding rnd u) (hm : Monotone rnd) (hid : ∀ x, rnd (rnd x) = rnd x) (hb : FloatBounds rnd yMin yMax thetaMin thetaMax) {s t : K}
    (hs : Random01 u s) (ht : Random01 u t) :
    WithinF (Ray.new (between (num yMin : Fl K rnd) (num yMax) (num s)) (between (num thetaMin) (num thetaMax) (num t))) yMin yMax thetaMin thetaMax := by
  obtain ⟨a1, a2⟩ := C135_inside hr hm hid hb.y hb.y0 hb.y1 hs
  obtain ⟨b1, b2⟩ := C135_inside hr hm hid hb.theta hb.theta0 hb.theta1 ht
  exact ⟨_, _, by rw [between_rounded, between_rounded], a1, a2, b1, b2⟩

/-- **C135**: after any accesses and iterations, every ray of a `RandomUniformRays` is within the bounds in floats, not even a rounding out of them, for all streams of
random numbers, and another index raises `IndexError`. -/
theorem C135_uniform (hr : Rounding rnd u) (hm : Monotone rnd) (hid : ∀ x, rnd (rnd x) = rnd x) (hb : FloatBounds rnd yMin yMax thetaMin thetaMax) {t : Nat → K}
    (ht : ∀ i, Random01 u (t i)) (n : Int) (ops : List RandomRays.Op) (i : Int) :
    let draw := drawUniform (floatBounds rnd yMin yMax thetaMin thetaMax) (fun i => num (t i))
    let got := (RandomRays.getItem draw (RandomRays.after draw n ops) i).1
    if -n ≤ i ∧ i < n then ∃ r, got = .ok r ∧ WithinF r yMin yMax thetaMin thetaMax else got = .error .indexError := by
  intro draw got
  have h := RandomRays.C50_stable (draw := draw)
    (f := fun pos => (Ray.new (between (num yMin : Fl K rnd) (num yMax) (num (t (pos + 1)))) (between (num thetaMin) (num thetaMax) (num (t pos))), pos + 2))
    (fun p => rfl) n ops i
  split
  · next hi =>
    rw [if_pos hi] at h
    exact ⟨_, h, random_ray hr hm hid hb (ht _) (ht _)⟩
  · next hi =>
    rw [if_neg hi] at h
    exact h

/-- **C135**: the rays that `RandomLambertianRays` accepts are within the bounds in floats, whatever the cosine and the number of angles tried. -/
theorem C135_lambertian (hr : Rounding rnd u) (hm : Monotone rnd) (hid : ∀ x, rnd (rnd x) = rnd x) (hb : FloatBounds rnd yMin yMax thetaMin thetaMax) {t : Nat → K}
    (ht : ∀ i, Random01 u (t i)) (cos : Fl K rnd → Fl K rnd) : ∀ (fuel pos : Nat) (r : Ray (Fl K rnd)) (p : Nat),
    drawLambertian cos (floatBounds rnd yMin yMax thetaMin thetaMax) (fun i => num (t i)) fuel pos = .ok (r, p) → WithinF r yMin yMax thetaMin thetaMax
  | 0, pos, r, p, h => by simp [drawLambertian] at h
  | fuel + 1, pos, r, p, h => by
    unfold drawLambertian at h
    simp only at h
    split at h
    · cases h
      exact random_ray hr hm hid hb (ht _) (ht _)
    · exact C135_lambertian hr hm hid hb ht cos fuel (pos + 2) r p h

/-- **C135**: and those of `GaussianProfileUniformRays`. -/
theorem C135_gaussian (hr : Rounding rnd u) (hm : Monotone rnd) (hid : ∀ x, rnd (rnd x) = rnd x) (hb : FloatBounds rnd yMin yMax thetaMin thetaMax) {t : Nat → K}
    (ht : ∀ i, Random01 u (t i)) (profile : Fl K rnd → Fl K rnd) : ∀ (fuel pos : Nat) (r : Ray (Fl K rnd)) (p : Nat),
    drawGaussian profile (floatBounds rnd yMin yMax thetaMin thetaMax) (fun i => num (t i)) fuel pos = .ok (r, p) → WithinF r yMin yMax thetaMin thetaMax
  | 0, pos, r, p, h => by simp [drawGaussian] at h
  | fuel + 1, pos, r, p, h => by
    unfold drawGaussian at h
    simp only at h
    split at h
    · cases h
      exact random_ray hr hm hid hb (ht _) (ht _)
    · exact C135_gaussian hr hm hid hb ht profile fuel (pos + 2) r p h

end sources

/-- **C135** in Python floats: `random()` gives whole multiples of 2⁻⁵³ below 1, and the rounding meets the hypotheses. -/
theorem C135_double : (∀ k : ℕ, k < 2 ^ 53 → Random01 unitRoundoff ((k : ℚ) / 2 ^ 53)) ∧ Rounding double unitRoundoff ∧ Monotone double ∧
    ∀ x, double (double x) = double x := by
  refine ⟨fun k hk => ?_, double_rounding, double_mono, double_idem⟩
  have h : (k : ℚ) + 1 ≤ 2 ^ 53 := by exact_mod_cast hk
  refine ⟨by positivity, ?_, ?_⟩
  · rw [div_lt_one (by positivity)]; linarith
  · rw [div_le_iff₀ (by positivity)]
    norm_num [unitRoundoff] at h ⊢
    linarith

/-- The upper bound itself can be reached although `random()` is below 1: from 1 to 2, with the largest random number. -/
theorem C135_reached : randomPoint double 1 2 ((2 ^ 53 - 1) / 2 ^ 53) = 2 := by decide +kernel

/-- From -0.1 to 0.2 the width is rounded up, so that a random number of 1 would give a point out of the bounds; the largest one does not. -/
theorem C135_example : FloatBounds double (double (-1 / 10)) (double (1 / 5)) (double (-1 / 10)) (double (1 / 5)) ∧
    double (1 / 5) < randomPoint double (double (-1 / 10)) (double (1 / 5)) 1 ∧
    randomPoint double (double (-1 / 10)) (double (1 / 5)) ((2 ^ 53 - 1) / 2 ^ 53) ≤ double (1 / 5) := by
  refine ⟨⟨by decide +kernel, by decide +kernel, by decide +kernel, by decide +kernel, by decide +kernel, by decide +kernel⟩, by decide +kernel, by decide +kernel⟩

end RT
