import Verif.Props.RoundedFan
import Verif.Props.Sources
import Mathlib.Algebra.Order.Floor.Semiring

/-! # C131: histograms of rays in floats -/

set_option linter.unusedSectionVars false

namespace RT
open PyNum Ext Fl
variable {K : Type} [Field K] [LinearOrder K] [IsStrictOrderedRing K] {rnd : K → K} {u : K}

/-! ## Counting -/

/-- floats are compared as numbers -/
theorem binCounts_num (values : List K) : ∀ edges : List K,
    binCounts (values.map num) (edges.map (num : K → Fl K rnd)) = binCounts (values.map fin) (edges.map (fin : K → Ext K))
  | [] => rfl
  | [_] => rfl
  | [a, b] => by
    simp only [List.map_cons, List.map_nil, binCounts, List.filter_map, List.length_map]
    rfl
  | a :: b :: c :: rest => by
    have ih := binCounts_num values (b :: c :: rest)
    simp only [List.map_cons] at ih
    simp only [List.map_cons, binCounts, ih, List.filter_map, List.length_map]
    rfl

/-- the count of each bin -/
theorem binCounts_get {F : Type} [PyNum F] (values : List F) : ∀ (es : List F) (j : ℕ) (a b : F), es[j]? = some a → es[j + 1]? = some b →
    (binCounts values es)[j]? = some (values.filter fun v => (a ≤. v) && (if j + 2 = es.length then v ≤. b else v <. b)).length
  | [], j, a, b, h, _ => by simp at h
  | [_], j, a, b, _, h => by simp at h
  | [x, y], j, a, b, h1, h2 => by
    obtain _ | j := j
    · simp only [List.getElem?_cons_zero, Option.some.injEq, zero_add, List.getElem?_cons_succ] at h1 h2
      subst h1 h2
      simp [binCounts]
    · simp at h2
  | x :: y :: z :: rest, j, a, b, h1, h2 => by
    obtain _ | j := j
    · simp only [List.getElem?_cons_zero, Option.some.injEq, zero_add, List.getElem?_cons_succ] at h1 h2
      subst h1 h2
      simp [binCounts]
    · have ih := binCounts_get values (y :: z :: rest) j a b (by simpa using h1) (by simpa using h2)
      simp only [binCounts, List.getElem?_cons_succ]
      rw [ih]
      have : (j + 1 + 2 = (x :: y :: z :: rest).length) ↔ (j + 2 = (y :: z :: rest).length) := by simp
      simp only [this]

theorem binCounts_len {F : Type} [PyNum F] (values : List F) : ∀ edges : List F, (binCounts values edges).length = edges.length - 1
  | [] => rfl
  | [_] => rfl
  | [_, _] => rfl
  | _ :: b :: c :: rest => by
    have := binCounts_len values (b :: c :: rest)
    simp only [binCounts, List.length_cons, this]
    omega

theorem middles_len {F : Type} [PyNum F] : ∀ edges : List F, (middles edges).length = edges.length - 1
  | [] => rfl
  | [_] => rfl
  | _ :: b :: rest => by
    have := middles_len (b :: rest)
    simp only [middles, List.length_cons, this]
    omega

/-- the bounds really used: equal bounds are moved apart -/
def widenedR (rnd : K → K) (lo hi : K) : K × K := if lo = hi then (rnd (lo - rnd (1 / 2)), rnd (hi + rnd (1 / 2))) else (lo, hi)

/-- what is asked of the rounding for `n` bins: monotone, keeps its own values and whole numbers, and enough digits -/
structure BinRounding (rnd : K → K) (u : K) (n : ℕ) : Prop where
  round : Rounding rnd u
  mono : Monotone rnd
  idem : ∀ x, rnd (rnd x) = rnd x
  whole : Whole rnd (n + 1)
  digits : 4 * u * n ≤ 1

theorem widenedR_spec {n : ℕ} (h : BinRounding rnd u n) {lo hi : K} (hle : lo ≤ hi) (hlo : rnd lo = lo) (hhi : rnd hi = hi) :
    (widenedR rnd lo hi).1 ≤ lo ∧ hi ≤ (widenedR rnd lo hi).2 ∧ rnd (widenedR rnd lo hi).1 = (widenedR rnd lo hi).1 ∧
      rnd (widenedR rnd lo hi).2 = (widenedR rnd lo hi).2 := by
  have h2 : 0 < rnd (1 / 2) := h.round.pos (by norm_num)
  unfold widenedR
  split_ifs with hc
  · refine ⟨?_, ?_, h.idem _, h.idem _⟩
    · calc rnd (lo - rnd (1 / 2)) ≤ rnd lo := h.mono (by linarith)
        _ = lo := hlo
    · calc hi = rnd hi := hhi.symm
        _ ≤ _ := h.mono (by linarith)
  · exact ⟨le_rfl, le_rfl, hlo, hhi⟩

/-- the edges are in order -/
theorem gridPoint_mono {n : ℕ} (h : BinRounding rnd u n) {lo hi : K} (hle : lo ≤ hi) (hlo : rnd lo = lo) (hhi : rnd hi = hi) {i j : ℕ} (hij : i ≤ j)
    (hj : j < n + 1) : gridPoint rnd lo hi (n + 1) i ≤ gridPoint rnd lo hi (n + 1) j := by
  by_cases hjn : j + 1 = n + 1
  · rw [show gridPoint rnd lo hi (n + 1) j = hi from if_pos hjn]
    exact (gridPoint_inside h.round h.mono hle hlo hhi (by simpa using h.digits) (by omega)).2
  · unfold gridPoint
    rw [if_neg hjn, if_neg (by omega)]
    exact C124_order h.round h.mono hle hij

/-- the first edge is the lower bound -/
theorem gridPoint_zero (hr : Rounding rnd u) {lo hi : K} (hlo : rnd lo = lo) {n : ℕ} (hn : 1 ≤ n) : gridPoint rnd lo hi (n + 1) 0 = lo := by
  unfold gridPoint
  rw [if_neg (by omega)]
  exact C124_first hr hlo

/-- the value is in bin `j` of `n`, between the edges computed in floats -/
def InBin (rnd : K → K) (lo hi : K) (n j : ℕ) (v : K) : Prop :=
  gridPoint rnd lo hi (n + 1) j ≤ v ∧ (v < gridPoint rnd lo hi (n + 1) (j + 1) ∨ j + 1 = n ∧ v ≤ hi)

instance (rnd : K → K) (lo hi : K) (n j : ℕ) : DecidablePred (InBin rnd lo hi n j) := fun v => by unfold InBin; infer_instance

/-- **C131.** `numpy.histogram` of floats between two bounds: as many positions and counts as bins; the count of a bin is the number of values between its edges,
and the counts add up to the number of values between the bounds: no value is lost or counted twice by rounding. -/
theorem C131_counts (values : List K) {n : ℕ} (hn : 1 ≤ n) (h : BinRounding rnd u n) {lo hi : K} (hle : lo ≤ hi) (hlo : rnd lo = lo) (hhi : rnd hi = hi) :
    ∃ xs counts, histogram (values.map (num : K → Fl K rnd)) (n : Int) (num lo) (num hi) = .ok (xs, counts) ∧ xs.length = n ∧ counts.length = n ∧
      (∀ j < n, counts[j]? = some (values.filter fun v => decide (InBin rnd (widenedR rnd lo hi).1 (widenedR rnd lo hi).2 n j v)).length) ∧
      counts.sum = countBetween values (widenedR rnd lo hi).1 (widenedR rnd lo hi).2 := by
  obtain ⟨w1, w2, w3, w4⟩ := widenedR_spec h hle hlo hhi
  have hh : (((1 / 2 : ℚ)) : K) = 1 / 2 := by norm_num
  have e1 : (if (num lo : Fl K rnd) ==. num hi then num lo - lit (1 / 2) else num lo) = (num (widenedR rnd lo hi).1 : Fl K rnd) := by
    unfold widenedR
    rw [eq_num, lit_num, num_sub, hh]
    by_cases hc : lo = hi <;> simp [hc]
  have e2 : (if (num lo : Fl K rnd) ==. num hi then num hi + lit (1 / 2) else num hi) = (num (widenedR rnd lo hi).2 : Fl K rnd) := by
    unfold widenedR
    rw [eq_num, lit_num, num_add, hh]
    by_cases hc : lo = hi <;> simp [hc]
  generalize (widenedR rnd lo hi).1 = lo' at *
  generalize (widenedR rnd lo hi).2 = hi' at *
  have hw : lo' ≤ hi' := w1.trans (hle.trans w2)
  have hcond : (((num lo : Fl K rnd) ==. -inf) || ((num hi : Fl K rnd) ==. inf) || ((num hi : Fl K rnd) ==. -inf) || ((num lo : Fl K rnd) ==. inf)) = false := rfl
  have hE : (List.range (n + 1)).map (fun i => (num (if i + 1 = n + 1 then hi' else fanPoint rnd lo' hi' (n + 1) i) : Fl K rnd)) =
      ((List.range (n + 1)).map fun i => gridPoint rnd lo' hi' (n + 1) i).map num := by
    rw [List.map_map]; rfl
  have hhist : histogram (values.map (num : K → Fl K rnd)) (n : Int) (num lo) (num hi) = .ok
      (middles (((List.range (n + 1)).map fun i => gridPoint rnd lo' hi' (n + 1) i).map num),
       binCounts (values.map num) (((List.range (n + 1)).map fun i => gridPoint rnd lo' hi' (n + 1) i).map (num : K → Fl K rnd))) := by
    unfold histogram
    rw [if_neg (by omega)]
    have hb : (!((num lo : Fl K rnd) ≤. num hi)) = false := by rw [le_num]; simp [hle]
    rw [hb, if_neg (by simp), hcond, if_neg (by simp)]
    dsimp only
    have hc : ((n : Int) + 1) = ((n + 1 : ℕ) : Int) := by push_cast; rfl
    rw [e1, e2, hc, linspace_rounded (by omega) h.whole, hE]
  refine ⟨_, _, hhist, ?_, ?_, ?_, ?_⟩
  · rw [middles_len]; simp
  · rw [binCounts_len]; simp
  · intro j hj
    rw [binCounts_get _ _ j (num (gridPoint rnd lo' hi' (n + 1) j)) (num (gridPoint rnd lo' hi' (n + 1) (j + 1)))
      (by simp [show j < n + 1 by omega]) (by simp [hj])]
    congr 1
    rw [List.filter_map, List.length_map]
    congr 1
    refine List.filter_congr fun v _ => ?_
    rw [Bool.eq_iff_iff, decide_eq_true_eq]
    simp only [Function.comp, List.length_map, List.length_range, le_num, lt_num, InBin, Bool.and_eq_true, decide_eq_true_eq]
    refine and_congr_right fun _ => ?_
    by_cases hl : j + 1 = n
    · have hg : gridPoint rnd lo' hi' (n + 1) (j + 1) = hi' := by unfold gridPoint; rw [if_pos (by omega)]
      rw [if_pos (by omega), hg, decide_eq_true_eq]
      exact ⟨fun hv => .inr ⟨hl, hv⟩, fun hv => hv.elim le_of_lt (·.2)⟩
    · rw [if_neg (by omega), decide_eq_true_eq]
      exact ⟨.inl, fun hv => hv.elim id fun hv => absurd hv.1 hl⟩
  · rw [binCounts_num]
    obtain ⟨m, rfl⟩ : ∃ m, n = m + 1 := ⟨n - 1, by omega⟩
    have e3 : (List.range (m + 1 + 1)).map (fun i => gridPoint rnd lo' hi' (m + 1 + 1) i) =
        lo' :: (List.range (m + 1)).map fun i => gridPoint rnd lo' hi' (m + 1 + 1) (i + 1) := by
      rw [List.range_succ_eq_map]
      simp [gridPoint_zero h.round w3 hn, Function.comp_def]
    rw [e3]
    refine binCounts_sum values lo' _ hi' (by simp) ?_ ?_
    · rw [← e3, List.pairwise_map]
      refine (List.pairwise_lt_range (n := m + 1 + 1)).imp_of_mem ?_
      intro i j _ hj hij
      exact gridPoint_mono h hw w3 w4 hij.le (List.mem_range.1 hj)
    · rw [List.range_succ, List.map_append, List.map_singleton, List.getLast?_append]
      simp [gridPoint]
/-! ## The rays of a collection -/

theorem pyMin_rounded {l : List K} (h : l ≠ []) : ∃ m, pyMin (l.map (num : K → Fl K rnd)) = .ok (num m) ∧ m ∈ l ∧ ∀ x ∈ l, m ≤ x := by
  obtain ⟨x, xs, rfl⟩ := List.exists_cons_of_ne_nil h
  obtain ⟨m, h1, h2, h3⟩ := pyMin_spec h
  refine ⟨m, ?_, h2, h3⟩
  have key : ∀ (xs : List K) (x : K), (xs.map (num : K → Fl K rnd)).foldl (fun m v => if v <. m then v else m) (num x) =
      ⟨(xs.map fin).foldl (fun m v => if v <. m then v else m) (fin x : Ext K)⟩ := by
    intro xs
    induction xs with
    | nil => intro x; rfl
    | cons y ys ih =>
      intro x
      simp only [List.map_cons, List.foldl_cons, lt_num, lt_fin]
      by_cases hc : y < x
      · simpa [hc] using ih y
      · simpa [hc] using ih x
  simp only [pyMin, List.map_cons, Except.ok.injEq] at h1 ⊢
  rw [key, h1]; rfl

theorem pyMax_rounded {l : List K} (h : l ≠ []) : ∃ m, pyMax (l.map (num : K → Fl K rnd)) = .ok (num m) ∧ m ∈ l ∧ ∀ x ∈ l, x ≤ m := by
  obtain ⟨x, xs, rfl⟩ := List.exists_cons_of_ne_nil h
  obtain ⟨m, h1, h2, h3⟩ := pyMax_spec h
  refine ⟨m, ?_, h2, h3⟩
  have key : ∀ (xs : List K) (x : K), (xs.map (num : K → Fl K rnd)).foldl (fun m v => if m <. v then v else m) (num x) =
      ⟨(xs.map fin).foldl (fun m v => if m <. v then v else m) (fin x : Ext K)⟩ := by
    intro xs
    induction xs with
    | nil => intro x; rfl
    | cons y ys ih =>
      intro x
      simp only [List.map_cons, List.foldl_cons, lt_num, lt_fin]
      by_cases hc : x < y
      · simpa [hc] using ih y
      · simpa [hc] using ih x
  simp only [pyMax, List.map_cons, Except.ok.injEq] at h1 ⊢
  rw [key, h1]; rfl

/-- the histograms of a collection just made -/
theorem fresh_histograms {F : Type} [PyNum F] (l : List (Ray F)) (b : Option Int) (lo hi : Option F) {h : List F × List Nat} :
    (Rays.histogramOf (l.map Ray.y) b lo hi = .ok h → ((Rays.ofList l).rayCountHistogram b lo hi).1 = .ok (some h)) ∧
    (Rays.histogramOf (l.map Ray.theta) b lo hi = .ok h → ((Rays.ofList l).rayAnglesHistogram b lo hi).1 = .ok (some h)) := by
  constructor
  all_goals
    intro hh
    rw [Rays.histogramOf_eq] at hh
    cases lo with
    | some lo =>
      cases hi with
      | some hi =>
        simp only [Rays.bound] at hh
        simp [Rays.rayCountHistogram, Rays.rayAnglesHistogram, Rays.resolve, Rays.ofList, Rays.yValues, Rays.thetaValues, Rays.sameParams, hh]
      | none =>
        simp only [Rays.bound] at hh
        split at hh
        · cases hh
        · next hi e =>
          simp [Rays.rayCountHistogram, Rays.rayAnglesHistogram, Rays.resolve, Rays.ofList, Rays.yValues, Rays.thetaValues, Rays.sameParams, e, hh]
    | none =>
      simp only [Rays.bound] at hh
      split at hh
      · cases hh
      · next lo e0 =>
        cases hi with
        | some hi =>
          simp only at hh
          simp [Rays.rayCountHistogram, Rays.rayAnglesHistogram, Rays.resolve, Rays.ofList, Rays.yValues, Rays.thetaValues, Rays.sameParams, e0, hh]
        | none =>
          simp only at hh
          split at hh
          · cases hh
          · next hi e =>
            simp [Rays.rayCountHistogram, Rays.rayAnglesHistogram, Rays.resolve, Rays.ofList, Rays.yValues, Rays.thetaValues, Rays.sameParams, e0, e, hh]

/-- the histogram of values that are floats, between the smallest and the largest -/
theorem whole_histogram {n : ℕ} (hn : 1 ≤ n) (h : BinRounding rnd u n) {vs : List K} (hne : vs ≠ []) (hv : ∀ v ∈ vs, rnd v = v) :
    ∃ xs counts, Rays.histogramOf (vs.map (num : K → Fl K rnd)) (some (n : Int)) none none = .ok (xs, counts) ∧ xs.length = n ∧ counts.length = n ∧
      counts.sum = vs.length := by
  obtain ⟨lo, h1, h2, h3⟩ := pyMin_rounded (rnd := rnd) hne
  obtain ⟨hi, h4, h5, h6⟩ := pyMax_rounded (rnd := rnd) hne
  obtain ⟨xs, counts, c1, c2, c3, -, c4⟩ := C131_counts vs hn h (h3 hi h5) (hv lo h2) (hv hi h5)
  refine ⟨xs, counts, ?_, c2, c3, ?_⟩
  · rw [Rays.histogramOf_eq]
    simp only [Rays.bound, h1, h4, Option.getD_some, c1]
  · rw [c4]
    unfold countBetween
    rw [List.filter_eq_self.2]
    intro v hv'
    obtain ⟨w1, w2, -, -⟩ := widenedR_spec h (h3 hi h5) (hv lo h2) (hv hi h5)
    simp only [Bool.and_eq_true, decide_eq_true_eq]
    exact ⟨w1.trans (h3 v hv'), (h6 v hv').trans w2⟩

/-- **C131.** In floats, with the default bounds, every ray of a collection is counted exactly once in the histogram of heights and in that of angles. -/
theorem C131_every_ray {n : ℕ} (hn : 1 ≤ n) (h : BinRounding rnd u n) {l : List (Ray (Fl K rnd))} (hne : l ≠ []) {ys ts : List K}
    (hy : l.map Ray.y = ys.map num) (ht : l.map Ray.theta = ts.map num) (hys : ∀ v ∈ ys, rnd v = v) (hts : ∀ v ∈ ts, rnd v = v) :
    (∃ xs counts, ((Rays.ofList l).rayCountHistogram (some (n : Int)) none none).1 = .ok (some (xs, counts)) ∧ xs.length = n ∧ counts.length = n ∧
      counts.sum = l.length) ∧
    ∃ xs counts, ((Rays.ofList l).rayAnglesHistogram (some (n : Int)) none none).1 = .ok (some (xs, counts)) ∧ xs.length = n ∧ counts.length = n ∧
      counts.sum = l.length := by
  have l1 := congrArg List.length hy
  have l2 := congrArg List.length ht
  simp only [List.length_map] at l1 l2
  have n1 : ys ≠ [] := by rintro rfl; exact hne (List.length_eq_zero_iff.1 l1)
  have n2 : ts ≠ [] := by rintro rfl; exact hne (List.length_eq_zero_iff.1 l2)
  obtain ⟨xs, cs, a1, a2, a3, a4⟩ := whole_histogram hn h n1 hys
  obtain ⟨xs', cs', b1, b2, b3, b4⟩ := whole_histogram hn h n2 hts
  rw [← hy] at a1
  rw [← ht] at b1
  exact ⟨⟨xs, cs, (fresh_histograms l _ _ _).1 a1, a2, a3, a4.trans l1.symm⟩, xs', cs', (fresh_histograms l _ _ _).2 b1, b2, b3, b4.trans l2.symm⟩

/-! ## How numpy finds the bin -/

section numpy
variable [FloorSemiring K]

/-- The method of `numpy.histogram` for equal bins (numpy is not part of /repo): the bin of a value is computed by a division, then corrected by at most one by
comparing with the edges. -/
def numpyBin (rnd : K → K) (lo hi : K) (n : ℕ) (v : K) : ℕ :=
  let k0 := ⌊rnd (rnd (rnd (v - lo) / rnd (hi - lo)) * n)⌋₊
  let k1 := if k0 = n then k0 - 1 else k0
  let k2 := if v < gridPoint rnd lo hi (n + 1) k1 then k1 - 1 else k1
  if gridPoint rnd lo hi (n + 1) (k2 + 1) ≤ v ∧ k2 ≠ n - 1 then k2 + 1 else k2

/-- the quotient before it is cut to a whole number -/
theorem binQuotient_near {n : ℕ} (h : BinRounding rnd u n) {lo hi v : K} (hlt : lo < hi) (hv1 : lo ≤ v) (hv2 : v ≤ hi) (hu : u ≤ 1 / 16) :
    0 ≤ rnd (rnd (rnd (v - lo) / rnd (hi - lo)) * n) ∧ rnd (rnd (rnd (v - lo) / rnd (hi - lo)) * n) ≤ n ∧
    (1 - 5 * u) * ((v - lo) * n) ≤ rnd (rnd (rnd (v - lo) / rnd (hi - lo)) * n) * (hi - lo) ∧
    rnd (rnd (rnd (v - lo) / rnd (hi - lo)) * n) * (hi - lo) ≤ (1 + 5 * u) * ((v - lo) * n) := by
  have hr := h.round
  have u0 := hr.nonneg
  have nn : ∀ x, 0 ≤ x → 0 ≤ rnd x := fun x hx => by rw [← hr.zero]; exact h.mono hx
  have up : ∀ x, 0 ≤ x → rnd x ≤ (1 + u) * x := fun x hx => by
    have := hr.abs_le x
    rw [abs_of_nonneg hx, abs_of_nonneg (nn x hx)] at this
    exact this
  have dn : ∀ x, 0 ≤ x → (1 - u) * x ≤ rnd x := fun x hx => by
    have := hr.le_abs x
    rw [abs_of_nonneg hx, abs_of_nonneg (nn x hx)] at this
    exact this
  have w0 : 0 < hi - lo := sub_pos.2 hlt
  have x0 : 0 ≤ v - lo := sub_nonneg.2 hv1
  have n0 : (0 : K) ≤ n := Nat.cast_nonneg n
  set w := hi - lo with hw
  set x := v - lo with hx
  set a := rnd x with ha
  set b := rnd w with hb
  have b0 : 0 < b := hr.pos w0
  have a0 : 0 ≤ a := nn _ x0
  have hab : a ≤ b := h.mono (by rw [hw, hx]; linarith)
  set q := rnd (a / b) with hq
  have q0 : 0 ≤ q := nn _ (div_nonneg a0 b0.le)
  have q1 : q ≤ 1 := by rw [hq, ← hr.one]; exact h.mono ((div_le_one b0).2 hab)
  set f := rnd (q * n) with hf
  have f0 : 0 ≤ f := nn _ (mul_nonneg q0 n0)
  have f1 : f ≤ n := by
    rw [hf, ← h.whole n (by omega)]
    refine h.mono ?_
    rw [h.whole n (by omega)]
    exact mul_le_of_le_one_left n0 q1
  refine ⟨f0, f1, ?_, ?_⟩
  · have s1 := dn _ x0
    have s2 := up _ w0.le
    have s3 := dn _ (div_nonneg a0 b0.le)
    have s4 := dn _ (mul_nonneg q0 n0)
    have t1 : (1 - u) * a ≤ q * b := by
      have := mul_le_mul_of_nonneg_right s3 b0.le
      have e : (1 - u) * (a / b) * b = (1 - u) * a := by field_simp
      rw [e] at this; exact this
    have t2 : q * b ≤ q * ((1 + u) * w) := mul_le_mul_of_nonneg_left s2 q0
    have t3 : (1 - u) * ((1 - u) * x) ≤ (1 - u) * a := mul_le_mul_of_nonneg_left s1 (by linarith)
    have t4 : (1 - u) * ((1 - u) * x) ≤ q * ((1 + u) * w) := t3.trans (t1.trans t2)
    have t5 : (1 - u) * (q * n) * w ≤ f * w := mul_le_mul_of_nonneg_right s4 w0.le
    have t6 : (1 - u) * n * ((1 - u) * ((1 - u) * x)) ≤ (1 - u) * n * (q * ((1 + u) * w)) := mul_le_mul_of_nonneg_left t4 (mul_nonneg (by linarith) n0)
    have t7 : (1 + u) * ((1 - 5 * u) * (x * n)) ≤ (1 - u) ^ 3 * (x * n) := by
      have : (1 + u) * (1 - 5 * u) ≤ (1 - u) ^ 3 := by nlinarith [mul_nonneg u0 u0, mul_nonneg (mul_nonneg u0 u0) u0]
      have := mul_le_mul_of_nonneg_right this (mul_nonneg x0 n0)
      linarith
    have t8 : (1 + u) * ((1 - 5 * u) * (x * n)) ≤ (1 + u) * (f * w) := by
      have : (1 + u) * ((1 - u) * (q * n) * w) ≤ (1 + u) * (f * w) := mul_le_mul_of_nonneg_left t5 (by linarith)
      linarith
    exact le_of_mul_le_mul_left t8 (by linarith)
  · have s1 := up _ x0
    have s2 := dn _ w0.le
    have s3 := up _ (div_nonneg a0 b0.le)
    have s4 := up _ (mul_nonneg q0 n0)
    have t1 : q * b ≤ (1 + u) * a := by
      have := mul_le_mul_of_nonneg_right s3 b0.le
      have e : (1 + u) * (a / b) * b = (1 + u) * a := by field_simp
      rw [e] at this; exact this
    have t2 : q * ((1 - u) * w) ≤ q * b := mul_le_mul_of_nonneg_left s2 q0
    have t3 : (1 + u) * a ≤ (1 + u) * ((1 + u) * x) := mul_le_mul_of_nonneg_left s1 (by linarith)
    have t4 : q * ((1 - u) * w) ≤ (1 + u) * ((1 + u) * x) := t2.trans (t1.trans t3)
    have t5 : f * w ≤ (1 + u) * (q * n) * w := mul_le_mul_of_nonneg_right s4 w0.le
    have t6 : (1 + u) * n * (q * ((1 - u) * w)) ≤ (1 + u) * n * ((1 + u) * ((1 + u) * x)) := mul_le_mul_of_nonneg_left t4 (mul_nonneg (by linarith) n0)
    have t7 : (1 + u) ^ 3 * (x * n) ≤ (1 - u) * ((1 + 5 * u) * (x * n)) := by
      have h8 : u * (1 - 8 * u - u * u) ≥ 0 := mul_nonneg u0 (by nlinarith)
      have : (1 + u) ^ 3 ≤ (1 - u) * (1 + 5 * u) := by nlinarith
      have := mul_le_mul_of_nonneg_right this (mul_nonneg x0 n0)
      linarith
    have t8 : (1 - u) * (f * w) ≤ (1 - u) * ((1 + 5 * u) * (x * n)) := by
      have : (1 - u) * (f * w) ≤ (1 - u) * ((1 + u) * (q * n) * w) := mul_le_mul_of_nonneg_left t5 (by linarith)
      linarith
    exact le_of_mul_le_mul_left t8 (by linarith)

/-- **C131.** The method of numpy finds the bin between the edges of which the value is, whatever the rounding, when the width of a bin is more than four times the
errors on the edges: so the counts are those of `C131_counts`. -/
theorem C131_numpy {n : ℕ} (hn : 1 ≤ n) (h : BinRounding rnd u n) {lo hi v : K} (hlt : lo < hi) (hlo : rnd lo = lo) (hhi : rnd hi = hi) (hv1 : lo ≤ v) (hv2 : v ≤ hi)
    (hfine : relErr u 4 * (|lo| + (hi - lo)) * (4 * n) ≤ hi - lo) : numpyBin rnd lo hi n v < n ∧ InBin rnd lo hi n (numpyBin rnd lo hi n v) v := by
  have hr := h.round
  have u0 := hr.nonneg
  have w0 : 0 < hi - lo := sub_pos.2 hlt
  have hn0 : (0 : K) < n := by exact_mod_cast hn
  have hn1 : (1 : K) ≤ n := by exact_mod_cast hn
  have r4 : 4 * u ≤ relErr u 4 := by
    unfold relErr
    nlinarith [mul_nonneg u0 u0, mul_nonneg (mul_nonneg u0 u0) u0, mul_nonneg (mul_nonneg u0 u0) (mul_nonneg u0 u0)]
  have hun : 16 * (u * n) ≤ 1 := by
    have a1 : 4 * u * (hi - lo) ≤ relErr u 4 * (|lo| + (hi - lo)) :=
      mul_le_mul r4 (by linarith [abs_nonneg lo]) w0.le (relErr_nonneg u0 4)
    have a2 := mul_le_mul_of_nonneg_right a1 (by positivity : (0 : K) ≤ 4 * n)
    have a3 : (16 * (u * n)) * (hi - lo) ≤ 1 * (hi - lo) := by linarith
    exact le_of_mul_le_mul_right a3 w0
  have hu : u ≤ 1 / 16 := by
    have : u * 1 ≤ u * n := mul_le_mul_of_nonneg_left hn1 u0
    linarith
  obtain ⟨f0, f1, f2, f3⟩ := binQuotient_near h hlt hv1 hv2 hu
  -- the edges, to a quarter of a bin
  have edge : ∀ j : ℕ, j ≤ n → |(gridPoint rnd lo hi (n + 1) j - lo) * n - j * (hi - lo)| ≤ (hi - lo) / 4 := by
    intro j hj
    by_cases hjn : j = n
    · subst hjn
      unfold gridPoint
      rw [if_pos rfl]
      have : (hi - lo) * (j : K) - j * (hi - lo) = 0 := by ring
      rw [this, abs_zero]
      linarith
    · have := C124_spaced (rnd := rnd) (lo := lo) (hi := hi) (N := n + 1) (i := j) hr (by omega)
      have e : spaced lo hi (n + 1) j = lo + j * ((hi - lo) / n) := by
        unfold spaced
        rw [if_neg (by omega)]
        push_cast
        ring
      rw [e, Nat.add_sub_cancel] at this
      unfold gridPoint
      rw [if_neg (by omega)]
      have hj1 : (j : K) / n ≤ 1 := (div_le_one hn0).2 (by exact_mod_cast hj)
      have hb : relErr u 4 * (|lo| + j / n * |hi - lo|) ≤ relErr u 4 * (|lo| + (hi - lo)) := by
        refine mul_le_mul_of_nonneg_left ?_ (relErr_nonneg u0 4)
        rw [abs_of_pos w0]
        have := mul_le_mul_of_nonneg_right hj1 w0.le
        linarith
      have e2 : (fanPoint rnd lo hi (n + 1) j - lo) * n - j * (hi - lo) = (fanPoint rnd lo hi (n + 1) j - (lo + j * ((hi - lo) / n))) * n := by
        field_simp
        ring
      rw [e2, abs_mul, abs_of_pos hn0]
      have := mul_le_mul_of_nonneg_right (this.trans hb) hn0.le
      linarith
  have xn : (v - lo) * n ≤ (hi - lo) * n := mul_le_mul_of_nonneg_right (by linarith) hn0.le
  have x0 : 0 ≤ (v - lo) * n := mul_nonneg (by linarith) hn0.le
  have big : 5 * u * ((v - lo) * n) ≤ 5 / 16 * (hi - lo) := by
    have a1 : 5 * u * ((v - lo) * n) ≤ 5 * u * ((hi - lo) * n) := mul_le_mul_of_nonneg_left xn (by linarith)
    have a2 := mul_le_mul_of_nonneg_right hun w0.le
    linarith
  set f := rnd (rnd (rnd (v - lo) / rnd (hi - lo)) * n) with hf
  have k1 := Nat.floor_le f0
  have k2 := Nat.lt_floor_add_one f
  have hk0 : ⌊f⌋₊ ≤ n := by
    have : ((⌊f⌋₊ : ℕ) : K) ≤ n := k1.trans f1
    exact_mod_cast this
  -- where the value is, from its quotient
  have lower : ((⌊f⌋₊ : ℕ) : K) * (hi - lo) ≤ (v - lo) * n + 5 / 16 * (hi - lo) := by
    have := mul_le_mul_of_nonneg_right k1 w0.le
    linarith
  have upper : (v - lo) * n < (((⌊f⌋₊ : ℕ) : K) + 1) * (hi - lo) + 5 / 16 * (hi - lo) := by
    have := mul_lt_mul_of_pos_right k2 w0
    linarith
  have below : ∀ j : ℕ, j ≤ n → ((j : K) + 1 / 4) * (hi - lo) ≤ (v - lo) * n → gridPoint rnd lo hi (n + 1) j ≤ v := by
    intro j hj hx
    have := (abs_le.1 (edge j hj)).2
    have : (gridPoint rnd lo hi (n + 1) j - lo) * n ≤ (v - lo) * n := by linarith
    have := le_of_mul_le_mul_right this hn0
    linarith
  have above : ∀ j : ℕ, j ≤ n → (v - lo) * n < ((j : K) - 1 / 4) * (hi - lo) → v < gridPoint rnd lo hi (n + 1) j := by
    intro j hj hx
    have := (abs_le.1 (edge j hj)).1
    have : (v - lo) * n < (gridPoint rnd lo hi (n + 1) j - lo) * n := by linarith
    have := lt_of_mul_lt_mul_right this hn0.le
    linarith
  unfold numpyBin
  rw [← hf]
  dsimp only
  set k := ⌊f⌋₊ with hk
  set c := if k = n then k - 1 else k with hc
  have hcn : c < n := by rw [hc]; split_ifs <;> omega
  have hck : c ≤ k := by rw [hc]; split_ifs <;> omega
  by_cases hd : v < gridPoint rnd lo hi (n + 1) c
  · have hc1 : 1 ≤ c := by
      by_contra h0
      have : c = 0 := by omega
      rw [this, gridPoint_zero hr hlo hn] at hd
      linarith
    rw [if_pos hd]
    have e : c - 1 + 1 = c := by omega
    rw [e, if_neg (fun hh => absurd hh.1 (not_le.2 hd))]
    refine ⟨by omega, below _ (by omega) ?_, .inl (by rw [e]; exact hd)⟩
    have h1 : ((c - 1 : ℕ) : K) = c - 1 := by push_cast [Nat.cast_sub hc1]; ring
    have h2 : (c : K) ≤ k := by exact_mod_cast hck
    have h3 := mul_le_mul_of_nonneg_right h2 w0.le
    rw [h1]
    linarith
  · rw [if_neg hd]
    by_cases hi' : gridPoint rnd lo hi (n + 1) (c + 1) ≤ v ∧ c ≠ n - 1
    · rw [if_pos hi']
      obtain ⟨i1, i2⟩ := hi'
      have hkn : k ≠ n := by
        intro hkn
        apply i2
        rw [hc, if_pos hkn, hkn]
      have hckk : c = k := by rw [hc, if_neg hkn]
      refine ⟨by omega, i1, ?_⟩
      by_cases hl : c + 1 + 1 = n
      · exact .inr ⟨hl, hv2⟩
      · refine .inl (above _ (by omega) ?_)
        rw [hckk]
        push_cast
        linarith
    · rw [if_neg hi']
      refine ⟨hcn, not_lt.1 hd, ?_⟩
      rcases not_and_or.1 hi' with h1 | h1
      · exact .inl (not_le.1 h1)
      · have : c = n - 1 := not_not.1 h1
        exact .inr ⟨by omega, hv2⟩

end numpy

/-- **C131.** In Python floats the hypotheses on the rounding hold for up to 10¹⁴ bins. -/
theorem C131_double {n : ℕ} (hn : n ≤ 10 ^ 14) : BinRounding double unitRoundoff n := by
  obtain ⟨h1, -, h3, h4⟩ := C124_double (N := n + 1) (by omega)
  refine ⟨h4, h3, double_idem, h1, ?_⟩
  have : (n : ℚ) ≤ ((10 ^ 14 : ℕ) : ℚ) := by exact_mod_cast hn
  calc 4 * unitRoundoff * (n : ℚ) ≤ 4 * unitRoundoff * ((10 ^ 14 : ℕ) : ℚ) := mul_le_mul_of_nonneg_left this (by norm_num [unitRoundoff])
    _ ≤ 1 := by norm_num [unitRoundoff]

/-- Three rays at the heights 0, 0.1 and 0.3 in three bins: the edges in Python floats are not the exact ones, the ray at 0.1 is on the second edge up to rounding,
and each ray is counted once. The hypotheses of `C131_numpy` hold, and its method finds the same bins. -/
theorem C131_example : (((Rays.ofList [Ray.new (num 0 : Double) (num 0), Ray.new (num (double (1 / 10))) (num 0),
      Ray.new (num (double (3 / 10))) (num 0)]).rayCountHistogram (some 3) none none).1.toOption.map fun h => h.map (·.2)) = some (some [1, 1, 1]) ∧
    relErr unitRoundoff 4 * (|(0 : ℚ)| + (double (3 / 10) - 0)) * (4 * (3 : ℕ)) ≤ double (3 / 10) - 0 ∧
    [0, double (1 / 10), double (3 / 10)].map (numpyBin double 0 (double (3 / 10)) 3) = [0, 1, 2] := by
  refine ⟨by decide +kernel, by decide +kernel, by decide +kernel⟩

end RT
