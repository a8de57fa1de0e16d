import Verif.Model.Lamps
import Verif.Props.Sources
import Mathlib.Analysis.SpecialFunctions.Trigonometric.Bounds
import Mathlib.Algebra.Order.Floor.Ring

/-! # C111, C112: Lambertian sources, lamps, and rays added to a source -/

set_option linter.unusedSectionVars false

namespace RT
open PyNum Ext

/-! ## C111 -/

section lambert

/-- `int(x)` of a finite number -/
noncomputable def realInt : Ext ℝ → Except PyErr Int
  | fin x => .ok (if 0 ≤ x then ⌊x⌋ else ⌈x⌉)
  | _ => .error .valueError

/-- the cosine of a finite number -/
noncomputable def realCos : Ext ℝ → Ext ℝ
  | fin x => fin (Real.cos x)
  | _ => nan

/-- number `i` of `n` evenly spaced angles from `-π/2` to `π/2` -/
noncomputable def lambertAngle (n i : ℕ) : ℝ := spaced (-(Real.pi / 2)) (Real.pi / 2) n i

/-- what a source gives: the angles in order, for each one the heights in order, for each one `⌊I cos θ⌋` equal rays -/
noncomputable def lambertList (yLo yHi I : ℝ) (M N : ℕ) : List (Ray (Ext ℝ)) :=
  (List.range N).flatMap fun i => (List.range M).flatMap fun j =>
    List.replicate ⌊I * Real.cos (lambertAngle N i)⌋₊ (Ray.new (fin (spaced yLo yHi M j)) (fin (lambertAngle N i)))

theorem lambertAngle_bounds {n i : ℕ} (h : i < n) : -(Real.pi / 2) ≤ lambertAngle n i ∧ lambertAngle n i ≤ Real.pi / 2 :=
  spaced_bounds (by linarith [Real.pi_pos]) h

theorem lambertAngle_cos {n i : ℕ} (h : i < n) : 0 ≤ Real.cos (lambertAngle n i) :=
  Real.cos_nonneg_of_neg_pi_div_two_le_of_le (lambertAngle_bounds h).1 (lambertAngle_bounds h).2

/-- `range(int(x))` has `⌊x⌋` elements, none if `x` is negative -/
theorem realInt_count (x : ℝ) : ∃ k : Int, realInt (fin x) = .ok k ∧ k.toNat = ⌊x⌋₊ := by
  by_cases h0 : 0 ≤ x
  · exact ⟨⌊x⌋, by simp [realInt, h0], Int.floor_toNat x⟩
  · have h1 : x ≤ 0 := (not_le.1 h0).le
    have h2 : ⌈x⌉ ≤ 0 := Int.ceil_le.2 (by simpa using h1)
    exact ⟨⌈x⌉, by simp [realInt, h0], by rw [Nat.floor_of_nonpos h1, Int.toNat_of_nonpos h2]⟩

theorem lambert_loop (yHi yLo I : ℝ) {M : Int} (hM : 0 ≤ M) : ∀ angles : List ℝ,
    lambertianRays.loop realCos realInt (fin yHi) M (fin I) (fin yLo) (angles.map fin) =
      .ok (angles.flatMap fun t => (List.range M.toNat).flatMap fun j =>
        List.replicate ⌊I * Real.cos t⌋₊ (Ray.new (fin (spaced yLo yHi M.toNat j)) (fin t)))
  | [] => rfl
  | t :: angles => by
    obtain ⟨k, h1, h2⟩ := realInt_count (I * Real.cos t)
    rw [List.map_cons, lambertianRays.loop]
    rw [show realInt (fin I * realCos (fin t)) = .ok k by simpa [realCos] using h1]
    simp only
    rw [linspace_eq _ _ hM, lambert_loop yHi yLo I hM angles]
    simp only [List.flatMap_cons, List.flatMap_map, h2]

/-- **C111**: a Lambertian source has, for each of `N` evenly spaced angles from `-π/2` to `π/2` and each of `M` evenly spaced heights,
`⌊I cos θ⌋` rays, none if the intensity is negative, for all numbers. -/
theorem C111_rays (yMax : ℝ) (yMin : Option ℝ) {M N : Int} (hM : 0 ≤ M) (hN : 0 ≤ N) (I : ℝ) :
    lambertianRays realCos realInt (fin (Real.pi / 2)) (fin yMax) (yMin.map fin) M N (fin I) =
      .ok (lambertList (yMin.getD (-yMax)) yMax I M.toNat N.toNat) := by
  have e1 : (yMin.map fin).getD (-fin yMax) = fin (yMin.getD (-yMax)) := by cases yMin <;> simp
  unfold lambertianRays
  rw [e1, neg_fin, linspace_eq _ _ hN]
  simp only
  have h := lambert_loop yMax (yMin.getD (-yMax)) I hM ((List.range N.toNat).map (lambertAngle N.toNat))
  rw [List.map_map] at h
  refine (Eq.trans ?_ h).trans ?_
  · rfl
  · rw [List.flatMap_map]
    rfl

/-- **C111**: the number of rays, and their bounds. -/
theorem C111_count {yLo yHi : ℝ} (hy : yLo ≤ yHi) (I : ℝ) (M N : ℕ) :
    (lambertList yLo yHi I M N).length = M * ((List.range N).map fun i => ⌊I * Real.cos (lambertAngle N i)⌋₊).sum ∧
    ∀ r ∈ lambertList yLo yHi I M N, ∃ y θ : ℝ, r = Ray.new (fin y) (fin θ) ∧ yLo ≤ y ∧ y ≤ yHi ∧
      -(Real.pi / 2) ≤ θ ∧ θ ≤ Real.pi / 2 ∧ 1 ≤ I * Real.cos θ := by
  constructor
  · unfold lambertList
    rw [List.length_flatMap, ← List.sum_map_mul_left]
    congr 1
    apply List.map_congr_left
    intro i _
    rw [List.length_flatMap]
    simp
  · intro r hr
    simp only [lambertList, List.mem_flatMap, List.mem_range, List.mem_replicate] at hr
    obtain ⟨i, hi, j, hj, h0, rfl⟩ := hr
    obtain ⟨a1, a2⟩ := spaced_bounds hy hj
    obtain ⟨a3, a4⟩ := lambertAngle_bounds hi
    exact ⟨_, _, rfl, a1, a2, a3, a4, by
      by_contra hc
      exact h0 (Nat.floor_eq_zero.2 (not_le.1 hc))⟩

/-- **C111**: the number of equal rays is the intensity times the cosine of the angle to less than one ray. -/
theorem C111_cosine {I : ℝ} (hI : 0 ≤ I) {N i : ℕ} (h : i < N) :
    (⌊I * Real.cos (lambertAngle N i)⌋₊ : ℝ) ≤ I * Real.cos (lambertAngle N i) ∧
      I * Real.cos (lambertAngle N i) < ⌊I * Real.cos (lambertAngle N i)⌋₊ + 1 :=
  ⟨Nat.floor_le (mul_nonneg hI (lambertAngle_cos h)), Nat.lt_floor_add_one _⟩

/-- **C111**: a negative intensity is not refused: the source is empty. -/
theorem C111_negative (yMax : ℝ) (yMin : Option ℝ) {M N : Int} (hM : 0 ≤ M) (hN : 0 ≤ N) {I : ℝ} (hI : I < 0) :
    lambertianRays realCos realInt (fin (Real.pi / 2)) (fin yMax) (yMin.map fin) M N (fin I) = .ok [] := by
  rw [C111_rays yMax yMin hM hN I]
  congr 1
  rw [List.eq_nil_iff_forall_not_mem]
  intro r hr
  simp only [lambertList, List.mem_flatMap, List.mem_range, List.mem_replicate] at hr
  obtain ⟨i, hi, j, hj, h0, -⟩ := hr
  exact h0 (Nat.floor_of_nonpos (mul_nonpos_of_nonpos_of_nonneg hI.le (lambertAngle_cos hi)))

/-- an angle near the axis -/
theorem lambertAngle_middle {N : ℕ} (h : 4 ≤ N) : 1 / 2 ≤ Real.cos (lambertAngle N (N / 2)) := by
  have hN : (4 : ℝ) ≤ N := by exact_mod_cast h
  have hpi := Real.pi_pos
  have e : lambertAngle N (N / 2) = Real.pi * ((2 * ((N / 2 : ℕ) : ℝ) - (N - 1)) / (2 * (N - 1))) := by
    unfold lambertAngle spaced
    rw [if_neg (by omega)]
    have : (N : ℝ) - 1 ≠ 0 := by linarith
    field_simp
    ring
  have h1 : (N : ℝ) - 1 ≤ 2 * ((N / 2 : ℕ) : ℝ) := by
    have : N ≤ 2 * (N / 2) + 1 := by omega
    have : (N : ℝ) ≤ 2 * ((N / 2 : ℕ) : ℝ) + 1 := by exact_mod_cast this
    linarith
  have h2 : 2 * ((N / 2 : ℕ) : ℝ) ≤ N := by
    have : 2 * (N / 2) ≤ N := by omega
    exact_mod_cast this
  have h3 : 0 ≤ (2 * ((N / 2 : ℕ) : ℝ) - (N - 1)) / (2 * (N - 1)) := div_nonneg (by linarith) (by linarith)
  have h4 : (2 * ((N / 2 : ℕ) : ℝ) - (N - 1)) / (2 * (N - 1)) ≤ 1 / 3 := by
    rw [div_le_div_iff₀ (by linarith) (by norm_num)]
    linarith
  rw [e, ← Real.cos_pi_div_three]
  apply Real.cos_le_cos_of_nonneg_of_le_pi
  · positivity
  · linarith
  · nlinarith

theorem lambertAngle_axis {N : ℕ} (h : 3 ≤ N) (ho : N % 2 = 1) : lambertAngle N (N / 2) = 0 := by
  have hN : (3 : ℝ) ≤ N := by exact_mod_cast h
  unfold lambertAngle spaced
  rw [if_neg (by omega)]
  have h2 : ((N / 2 : ℕ) : ℝ) = ((N : ℝ) - 1) / 2 := by
    have : 2 * (N / 2) + 1 = N := by omega
    have : (2 * ((N / 2 : ℕ) : ℝ) + 1) = N := by exact_mod_cast this
    linarith
  rw [h2]
  have : (N : ℝ) - 1 ≠ 0 := by linarith
  field_simp
  ring

/-- **C111**: a source with at least four angles and an intensity of at least 2, or with an odd number of angles from 3 and an intensity of at
least 1, has rays. -/
theorem C111_emits {yLo yHi I : ℝ} {M N : ℕ} (hM : 1 ≤ M) (h : (4 ≤ N ∧ 2 ≤ I) ∨ (3 ≤ N ∧ N % 2 = 1 ∧ 1 ≤ I)) :
    lambertList yLo yHi I M N ≠ [] := by
  have key : 1 ≤ I * Real.cos (lambertAngle N (N / 2)) := by
    rcases h with ⟨h1, h2⟩ | ⟨h1, h2, h3⟩
    · have := lambertAngle_middle h1
      nlinarith
    · rw [lambertAngle_axis h1 h2, Real.cos_zero]
      linarith
  have hf : ⌊I * Real.cos (lambertAngle N (N / 2))⌋₊ ≠ 0 := by
    intro hc
    rw [Nat.floor_eq_zero] at hc
    linarith
  have hN : N / 2 < N := by omega
  refine List.ne_nil_of_mem (a := Ray.new (fin (spaced yLo yHi M 0)) (fin (lambertAngle N (N / 2)))) ?_
  simp only [lambertList, List.mem_flatMap, List.mem_range, List.mem_replicate]
  exact ⟨_, hN, 0, hM, hf, rfl⟩

/-- **C111** is violated for one or two angles: the angles are then `±π/2` only, and the source is empty whatever the intensity is. -/
theorem C111_violated_few (yLo yHi I : ℝ) (M : ℕ) {N : ℕ} (h : N ≤ 2) : lambertList yLo yHi I M N = [] := by
  have key : ∀ i, i < N → Real.cos (lambertAngle N i) = 0 := by
    intro i hi
    unfold lambertAngle spaced
    split_ifs with h1
    · rw [Real.cos_neg, Real.cos_pi_div_two]
    · have h2 : N = 2 := by omega
      subst h2
      obtain rfl | rfl : i = 0 ∨ i = 1 := by omega
      · norm_num
      · norm_num
  rw [List.eq_nil_iff_forall_not_mem]
  intro r hr
  simp only [lambertList, List.mem_flatMap, List.mem_range, List.mem_replicate] at hr
  obtain ⟨i, hi, j, hj, h0, -⟩ := hr
  rw [key i hi] at h0
  simp at h0

/-- **C111** is violated for an even number of angles and an intensity of one: no angle is on the axis, and the source is empty. -/
theorem C111_violated_even (yLo yHi : ℝ) (M : ℕ) {N : ℕ} (h : N % 2 = 0) : lambertList yLo yHi 1 M N = [] := by
  rw [List.eq_nil_iff_forall_not_mem]
  intro r hr
  simp only [lambertList, List.mem_flatMap, List.mem_range, List.mem_replicate] at hr
  obtain ⟨i, hi, j, hj, h0, -⟩ := hr
  refine h0 ?_
  rw [Nat.floor_eq_zero, one_mul]
  refine lt_of_le_of_ne (Real.cos_le_one _) ?_
  intro hc
  have hN : (2 : ℝ) ≤ N := by
    have : 2 ≤ N := by omega
    exact_mod_cast this
  obtain ⟨b1, b2⟩ := lambertAngle_bounds hi
  have h3 := (Real.cos_eq_one_iff_of_lt_of_lt (by linarith [Real.pi_pos]) (by linarith [Real.pi_pos])).1 hc
  unfold lambertAngle spaced at h3
  rw [if_neg (by omega)] at h3
  have h4 : (N : ℝ) - 1 ≠ 0 := by linarith
  have h5 : 2 * (i : ℝ) = N - 1 := by
    have hp := Real.pi_pos.ne'
    field_simp at h3
    rw [mul_zero, mul_eq_zero] at h3
    rcases h3 with h3 | h3
    · exact absurd h3 hp
    · linarith
  have h6 : 2 * i + 1 = N := by
    have : (2 * (i : ℝ) + 1) = N := by linarith
    exact_mod_cast this
  omega

/-- **C111** is violated for one height: all the rays start at the lower bound, although `UniformRays` puts them on the axis. -/
theorem C111_violated_height (yLo yHi I : ℝ) (N : ℕ) : ∀ r ∈ lambertList yLo yHi I 1 N, r.y = fin yLo := by
  intro r hr
  simp only [lambertList, List.mem_flatMap, List.mem_range, List.mem_replicate] at hr
  obtain ⟨i, hi, j, hj, h0, rfl⟩ := hr
  simp [spaced, Ray.new]

/-- **C111**: a negative number of angles is refused, and so is a negative number of heights when there are angles. -/
theorem C111_refused (yMax : ℝ) (yMin : Option ℝ) {M N : Int} (h : N < 0 ∨ (0 < N ∧ M < 0)) (I : ℝ) :
    lambertianRays realCos realInt (fin (Real.pi / 2)) (fin yMax) (yMin.map fin) M N (fin I) = .error .valueError := by
  unfold lambertianRays
  rw [show -(fin (Real.pi / 2) : Ext ℝ) = fin (-(Real.pi / 2)) from neg_fin _]
  rcases h with h | ⟨h1, h2⟩
  · rw [linspace_neg _ _ h]
  · rw [linspace_eq _ _ h1.le]
    obtain ⟨m, hm⟩ : ∃ m, N.toNat = m + 1 := ⟨N.toNat - 1, by omega⟩
    rw [hm, List.range_succ_eq_map]
    simp only [List.map_cons]
    rw [lambertianRays.loop]
    simp only [realCos, fin_mul_fin, realInt]
    rw [linspace_neg _ _ h2]

/-- three angles, two heights, an intensity of 2: the rays along the axis only -/
example : lambertList 0 1 2 2 3 = [Ray.new (fin 0) (fin 0), Ray.new (fin 0) (fin 0), Ray.new (fin 1) (fin 0), Ray.new (fin 1) (fin 0)] := by
  have e0 : lambertAngle 3 0 = -(Real.pi / 2) := by simp [lambertAngle, spaced]
  have e1 : lambertAngle 3 1 = 0 := lambertAngle_axis (by norm_num) rfl
  have e2 : lambertAngle 3 2 = Real.pi / 2 := by simp only [lambertAngle, spaced]; norm_num; ring
  simp only [lambertList, List.range_succ, List.range_zero, List.nil_append, List.cons_append, List.flatMap_cons, List.flatMap_nil,
    List.append_nil, e0, e1, e2, Real.cos_neg, Real.cos_pi_div_two, Real.cos_zero]
  norm_num [spaced, List.replicate]

end lambert

/-! ## C112 -/

section added
variable {F : Type} [PyNum F]

/-- **C112**: a ray appended to a collection is counted, has the last index, and is visited last. -/
theorem C112_rays (s : Rays F) (r : Ray F) : (s.append r).len = s.len + 1 ∧ (s.append r).getItem (s.len : Int) = .ok r ∧
    (Rays.forLoop (fun _ t => t) (s.len + 2) (s.append r)).1 = s.rays ++ [r] := by
  refine ⟨by simp [Rays.append, Rays.len, Rays.ofList], ?_, ?_⟩
  · have h : ¬ ((s.len : Int) < 0) := by omega
    unfold Rays.getItem
    simp only [if_neg h]
    simp [Rays.append, Rays.len, Rays.ofList]
  · have h := C49_loop_partial (body := fun (_ : Ray F) (t : Rays F) => t) (fun _ _ => ⟨rfl, rfl⟩) (s.append r) (fuel := s.len + 2)
      (by simp [Rays.append, Rays.ofList, Rays.len])
    rw [h]
    rfl

namespace RandomRays

/-- `k` rays made one after the other from a position in the random numbers -/
def drawn (f : Nat → Ray F × Nat) : Nat → Nat → List (Ray F)
  | _, 0 => []
  | pos, k + 1 => (f pos).1 :: drawn f (f pos).2 k

theorem drawn_length (f : Nat → Ray F × Nat) : ∀ pos k, (drawn f pos k).length = k
  | _, 0 => rfl
  | pos, k + 1 => by rw [drawn, List.length_cons, drawn_length f _ k]

/-- the rays of a source: those it holds, then those to be made, `maxCount` of them in all -/
def allRays (f : Nat → Ray F × Nat) (s : RandomRays F) : List (Ray F) :=
  (s.rays ++ drawn f s.pos (s.maxCount.toNat - s.rays.length)).take s.maxCount.toNat

theorem allRays_length (f : Nat → Ray F × Nat) (s : RandomRays F) : (allRays f s).length = s.maxCount.toNat := by
  unfold allRays
  rw [List.length_take, List.length_append, drawn_length]
  omega

theorem allRays_full (f : Nat → Ray F × Nat) {s : RandomRays F} (h : s.maxCount.toNat ≤ s.rays.length) :
    allRays f s = s.rays.take s.maxCount.toNat := by
  unfold allRays
  rw [show s.maxCount.toNat - s.rays.length = 0 by omega, drawn, List.append_nil]

variable {draw : Nat → Except PyErr (Ray F × Nat)} {f : Nat → Ray F × Nat}

/-- the source can make the rays that it lacks -/
def Able (draw : Nat → Except PyErr (Ray F × Nat)) (f : Nat → Ray F × Nat) (s : RandomRays F) : Prop :=
  s.rays.length < s.maxCount.toNat → ∀ p, draw p = .ok (f p)

theorem grow_all : ∀ (k : Nat) {s : RandomRays F}, Able draw f s → s.rays.length + k ≤ s.maxCount.toNat →
    ∃ s', grow draw k s = (.ok (), s') ∧ s'.rays.length = s.rays.length + k ∧ s'.iteration = s.iteration ∧ s'.maxCount = s.maxCount ∧
      (s'.rays ++ drawn f s'.pos (s.maxCount.toNat - s'.rays.length) = s.rays ++ drawn f s.pos (s.maxCount.toNat - s.rays.length)) ∧
      (0 < k → s'.yCache = none) ∧ (k = 0 → s' = s)
  | 0, s, _, _ => ⟨s, rfl, rfl, rfl, rfl, rfl, fun h => absurd h (lt_irrefl _), fun _ => rfl⟩
  | k + 1, s, h, hk => by
    have hd := h (by omega)
    have hne : ¬ (s.rays.length : Int) = s.maxCount := by omega
    obtain ⟨s', h2, h3, h4, h5, h6, h7, h8⟩ := grow_all k
      (s := { s with rays := s.rays ++ [(f s.pos).1], pos := (f s.pos).2, yCache := none }) (fun _ => hd) (by simp; omega)
    refine ⟨s', ?_, by rw [h3]; simp; omega, h4, h5, ?_, fun _ => ?_, fun h => by omega⟩
    · unfold grow randomRay
      rw [if_neg hne, hd]
      exact h2
    · rw [h6]
      simp only [List.length_append, List.length_singleton, List.append_assoc, List.singleton_append]
      rw [show s.maxCount.toNat - s.rays.length = (s.maxCount.toNat - (s.rays.length + 1)) + 1 by omega, drawn]
    · rcases Nat.eq_zero_or_pos k with hk0 | hk0
      · rw [h8 hk0]
      · exact h7 hk0

/-- what an access keeps -/
structure Keeps (draw : Nat → Except PyErr (Ray F × Nat)) (f : Nat → Ray F × Nat) (s s' : RandomRays F) : Prop where
  max : s'.maxCount = s.maxCount
  all : allRays f s' = allRays f s
  able : Able draw f s'
  more : s.rays <+: s'.rays
  full : s.maxCount.toNat ≤ s.rays.length → s'.rays = s.rays

theorem Keeps.refl {s : RandomRays F} (h : Able draw f s) : Keeps draw f s s := ⟨rfl, rfl, h, List.prefix_rfl, fun _ => rfl⟩

theorem Keeps.trans {s t u : RandomRays F} (h1 : Keeps draw f s t) (h2 : Keeps draw f t u) : Keeps draw f s u :=
  ⟨h2.max.trans h1.max, h2.all.trans h1.all, h2.able, h1.more.trans h2.more, fun h => by
    rw [h2.full (by rw [h1.max, h1.full h]; exact h), h1.full h]⟩

/-- same rays, another iteration or cache -/
theorem Keeps.of_eq {s s' : RandomRays F} (h : Able draw f s) (h1 : s'.maxCount = s.maxCount) (h2 : s'.rays = s.rays)
    (h3 : s'.pos = s.pos) : Keeps draw f s s' := by
  refine ⟨h1, by unfold allRays; rw [h1, h2, h3], ?_, by rw [h2], fun _ => h2⟩
  unfold Able at *
  rw [h1, h2]
  exact h

theorem grow_prefix : ∀ (k : Nat) (s : RandomRays F), s.rays <+: (grow draw k s).2.rays
  | 0, s => List.prefix_rfl
  | k + 1, s => by
    unfold grow randomRay
    split_ifs with h
    · exact List.prefix_rfl
    · cases hd : draw s.pos with
      | error x => exact List.prefix_rfl
      | ok rp =>
        obtain ⟨r, pos⟩ := rp
        simp only
        exact (List.prefix_append s.rays [r]).trans (grow_prefix k { s with rays := s.rays ++ [r], pos := pos, yCache := none })

theorem getItem_all {s : RandomRays F} (h : Able draw f s) (i : Int) :
    (getItem draw s i).1 = (if -s.maxCount ≤ i ∧ i < s.maxCount then
      (match (allRays f s)[(if i < 0 then i + s.maxCount else i).toNat]? with
        | some r => .ok r
        | none => .error .indexError) else .error .indexError) ∧
    Keeps draw f s (getItem draw s i).2 ∧ (getItem draw s i).2.iteration = s.iteration := by
  unfold getItem
  simp only
  by_cases hr : -s.maxCount ≤ i ∧ i < s.maxCount
  · have hk : ¬ ((if i < 0 then i + s.maxCount else i) < 0 ∨ s.maxCount ≤ if i < 0 then i + s.maxCount else i) := by
      split_ifs <;> omega
    rw [if_neg hk, if_pos hr]
    push Not at hk
    generalize (if i < 0 then i + s.maxCount else i) = k at *
    have hkn : k.toNat < s.maxCount.toNat := by omega
    rcases Nat.lt_or_ge k.toNat s.rays.length with hlt | hge
    · have : k.toNat + 1 - s.rays.length = 0 := by omega
      rw [this, grow]
      simp only
      have e : (allRays f s)[k.toNat]? = s.rays[k.toNat]? := by
        unfold allRays
        rw [List.getElem?_take_of_lt hkn, List.getElem?_append_left hlt]
      rw [e, List.getElem?_eq_getElem hlt]
      exact ⟨rfl, Keeps.refl h, rfl⟩
    · obtain ⟨s', h1, h2, h3, h4, h5, -, -⟩ := grow_all (k.toNat + 1 - s.rays.length) h (by omega)
      have hp := grow_prefix (draw := draw) (k.toNat + 1 - s.rays.length) s
      rw [h1] at hp ⊢
      simp only at hp ⊢
      have hlt : k.toNat < s'.rays.length := by omega
      have eall : allRays f s' = allRays f s := by
        unfold allRays
        rw [h4, h5]
      have e : (allRays f s)[k.toNat]? = s'.rays[k.toNat]? := by
        rw [← eall]
        unfold allRays
        rw [h4, List.getElem?_take_of_lt hkn, List.getElem?_append_left hlt]
      rw [e, List.getElem?_eq_getElem hlt]
      refine ⟨rfl, ⟨h4, eall, ?_, hp, fun hf => by omega⟩, h3⟩
      intro hx
      exact h (by omega)
  · have hk : ((if i < 0 then i + s.maxCount else i) < 0 ∨ s.maxCount ≤ if i < 0 then i + s.maxCount else i) := by
      split_ifs <;> omega
    rw [if_pos hk, if_neg hr]
    exact ⟨rfl, Keeps.refl h, rfl⟩

theorem next_all {s : RandomRays F} (h : Able draw f s) :
    (next draw s).1 = .ok (allRays f s)[s.iteration]? ∧ Keeps draw f s (next draw s).2 ∧
    (next draw s).2.iteration = s.iteration + (if s.iteration < s.maxCount.toNat then 1 else 0) := by
  unfold next
  by_cases hi : s.maxCount ≤ (s.iteration : Int)
  · rw [if_pos hi, if_neg (by omega)]
    refine ⟨?_, Keeps.refl h, rfl⟩
    rw [List.getElem?_eq_none (by rw [allRays_length]; omega)]
  · rw [if_neg hi, if_pos (by omega)]
    obtain ⟨h1, h2, h3⟩ := getItem_all h (s.iteration : Int)
    rw [if_pos (by omega), if_neg (by omega)] at h1
    simp only [Int.toNat_natCast] at h1
    have hl : s.iteration < (allRays f s).length := by rw [allRays_length]; omega
    rw [List.getElem?_eq_getElem hl] at h1 ⊢
    simp only at h1
    cases hg : getItem draw s (s.iteration : Int) with
    | mk a s1 =>
      rw [hg] at h1 h2 h3
      simp only at h1 h2 h3
      subst h1
      simp only
      exact ⟨trivial, h2.trans (Keeps.of_eq h2.able rfl rfl rfl), by rw [h3]⟩

theorem collect_every : ∀ (fuel : Nat) {s : RandomRays F}, Able draw f s → s.maxCount.toNat < s.iteration + fuel →
    ∃ s', collect draw fuel s = (.ok ((allRays f s).drop s.iteration), s') ∧ Keeps draw f s s'
  | 0, s, h, hf => by
    refine ⟨s, ?_, Keeps.refl h⟩
    rw [List.drop_eq_nil_of_le (by rw [allRays_length]; omega)]
    rfl
  | fuel + 1, s, h, hf => by
    obtain ⟨h1, h2, h3⟩ := next_all h
    unfold collect
    cases hn : next draw s with
    | mk a s1 =>
      rw [hn] at h1 h2 h3
      simp only at h1 h2 h3
      subst h1
      rcases Nat.lt_or_ge s.iteration s.maxCount.toNat with hlt | hge
      · have hl : s.iteration < (allRays f s).length := by rw [allRays_length]; omega
        rw [List.getElem?_eq_getElem hl]
        simp only
        rw [if_pos hlt] at h3
        obtain ⟨s', h6, h7⟩ := collect_every fuel h2.able (by rw [h2.max, h3]; omega)
        rw [h6]
        refine ⟨s', ?_, h2.trans h7⟩
        simp only
        rw [h2.all, h3, List.drop_eq_getElem_cons hl]
      · rw [List.getElem?_eq_none (by rw [allRays_length]; omega)]
        simp only
        rw [List.drop_eq_nil_of_le (by rw [allRays_length]; omega)]
        exact ⟨s1, rfl, h2⟩

/-- **C112**: iterating over a source gives its `maxCount` first rays: those that it holds, whether made, appended or loaded, then
those that it makes. -/
theorem C112_visits {s : RandomRays F} (h : Able draw f s) :
    (collect draw (s.maxCount.toNat + 1) s.iter).1 = .ok (allRays f s) := by
  obtain ⟨s', h1, -⟩ := collect_every (s.maxCount.toNat + 1) (s := s.iter)
    (Keeps.of_eq h (s' := s.iter) rfl rfl rfl).able (by simp [iter])
  rw [h1]
  rfl

/-- **C112**: a ray appended to a source that holds fewer than `maxCount` rays has the first free index and is visited. Missing from the
property: it is not counted, and it is not visited if the source holds `maxCount` rays. -/
theorem C112_append_partial (hd : ∀ p, draw p = .ok (f p)) (s : RandomRays F) (r : Ray F) (hl : (s.rays.length : Int) < s.maxCount) :
    (getItem draw (s.append r) s.rays.length).1 = .ok r ∧
    ∃ l, (collect draw (s.maxCount.toNat + 1) (s.append r).iter).1 = .ok l ∧ l[s.rays.length]? = some r ∧ r ∈ l := by
  have hb : Able draw f (s.append r) := fun _ => hd
  have e : (allRays f (s.append r))[s.rays.length]? = some r := by
    unfold allRays append
    simp only
    rw [List.getElem?_take_of_lt (by omega), List.getElem?_append_left (by simp)]
    simp
  constructor
  · rw [(getItem_all hb _).1]
    have hm : (s.append r).maxCount = s.maxCount := rfl
    rw [if_pos (by rw [hm]; omega), if_neg (by omega), Int.toNat_natCast, e]
  · exact ⟨_, C112_visits hb, e, List.mem_of_getElem? e⟩

/-- **C112** is violated: a ray appended to a source that holds `maxCount` rays is never visited, and a ray appended to any source is
not counted. -/
theorem C112_violated_append (s : RandomRays F) (r : Ray F) : (s.append r).len = s.len ∧
    (s.maxCount ≤ s.rays.length → (collect draw (s.maxCount.toNat + 1) (s.append r).iter).1 = .ok (s.rays.take s.maxCount.toNat) ∧
      ∀ i, (getItem draw (s.append r) i).1 = (getItem draw s i).1) := by
  refine ⟨rfl, fun hl => ?_⟩
  have hb : Able draw (fun _ => (r, 0)) (s.append r) := by
    intro h
    simp only [append, List.length_append, List.length_singleton] at h
    omega
  have hb0 : Able draw (fun _ => (r, 0)) s := fun h => by omega
  have e : allRays (fun _ => (r, 0)) (s.append r) = s.rays.take s.maxCount.toNat := by
    rw [allRays_full _ (by simp [append]; omega)]
    simp only [append]
    rw [List.take_append_of_le_length (by omega)]
  refine ⟨?_, fun i => ?_⟩
  · rw [← e]
    exact C112_visits hb
  · rw [(getItem_all hb i).1, (getItem_all hb0 i).1, e, allRays_full _ (by omega)]
    rfl

/-- What a program does with a source. -/
inductive Act (F : Type) where
  | getItem (i : Int)
  | iter
  | next
  | append (r : Ray F)

/-- the state after an action -/
def Act.run (draw : Nat → Except PyErr (Ray F × Nat)) : Act F → RandomRays F → RandomRays F
  | .getItem i, s => (RandomRays.getItem draw s i).2
  | .iter, s => s.iter
  | .next, s => (RandomRays.next draw s).2
  | .append r, s => s.append r

theorem acts_full (acts : List (Act F)) : ∀ {s : RandomRays F}, s.maxCount.toNat ≤ s.rays.length →
    (acts.foldl (fun s a => a.run draw s) s).maxCount = s.maxCount ∧ s.rays <+: (acts.foldl (fun s a => a.run draw s) s).rays := by
  induction acts with
  | nil => intro s _; exact ⟨rfl, List.prefix_rfl⟩
  | cons a acts ih =>
    intro s hs
    rw [List.foldl_cons]
    have key : (a.run draw s).maxCount = s.maxCount ∧ s.rays <+: (a.run draw s).rays := by
      have hb : ∀ r, Able draw (fun _ => (r, 0)) s := fun r h => by omega
      cases a with
      | getItem i => exact ⟨(getItem_all (hb (Ray.new 0 0)) i).2.1.max, (getItem_all (hb (Ray.new 0 0)) i).2.1.more⟩
      | iter => exact ⟨rfl, List.prefix_rfl⟩
      | next => exact ⟨(next_all (hb (Ray.new 0 0))).2.1.max, (next_all (hb (Ray.new 0 0))).2.1.more⟩
      | append r => exact ⟨rfl, List.prefix_append _ _⟩
    obtain ⟨h1, h2⟩ := ih (s := a.run draw s) (by rw [key.1]; exact hs.trans key.2.length_le)
    exact ⟨h1.trans key.1, key.2.trans h2⟩

end RandomRays

open RandomRays

theorem lampRays_count {K : Type} [Field K] [LinearOrder K] [IsStrictOrderedRing K] {diameter NA : K} {n T : Int}
    {rays : List (Ray (Ext K))} (hl : lampRays (fin diameter) (fin NA) n T none = .ok rays) : n * T = rays.length := by
  unfold lampRays at hl
  simp only [neg_fin, ofNat_eq, rawDiv_fin] at hl
  rcases lt_or_ge n 0 with hn | hn
  · rw [linspace_neg _ _ hn] at hl
    simp [bind, Except.bind] at hl
  · rcases lt_or_ge T 0 with ht | ht
    · rw [linspace_neg _ _ ht, linspace_eq _ _ hn] at hl
      simp [bind, Except.bind] at hl
    · rw [linspace_eq _ _ hn, linspace_eq _ _ ht] at hl
      simp only [bind, Except.bind] at hl
      rw [gridRays_eq] at hl
      simp only [Except.ok.injEq] at hl
      rw [← hl, (flatMap_range_get _ _ _).1]
      push_cast
      rw [Int.toNat_of_nonneg hn, Int.toNat_of_nonneg ht]

/-- a lamp holds as many rays as it counts -/
theorem lamp_full {K : Type} [Field K] [LinearOrder K] [IsStrictOrderedRing K] {diameter NA : K} {N T : Int} {H : Option Int}
    {s : RandomRays (Ext K)} (hs : lampSource (fin diameter) (fin NA) N T H = .ok s) :
    lampRays (fin diameter) (fin NA) N T H = .ok s.rays ∧ s.maxCount = s.rays.length := by
  unfold lampSource at hs
  cases hl : lampRays (fin diameter) (fin NA) N T H with
  | error x => rw [hl] at hs; simp at hs
  | ok rays =>
    rw [hl] at hs
    simp only [Except.ok.injEq] at hs
    subst hs
    refine ⟨rfl, ?_⟩
    simp only
    cases H with
    | none => exact lampRays_count hl
    | some h =>
      simp only
      split_ifs with h0
      · subst h0
        rw [(C46_lamp_heights diameter NA N T 0).2] at hl
        exact lampRays_count hl
      · rw [(C46_lamp_heights diameter NA N T h).1 h0] at hl
        exact lampRays_count hl

/-- **C112** is violated for every lamp: whatever is appended to it, between any accesses and iterations, its number of rays and the rays
visited are those it was made with. -/
theorem C112_violated_lamp {K : Type} [Field K] [LinearOrder K] [IsStrictOrderedRing K] {diameter NA : K} {N T : Int} {H : Option Int}
    {s : RandomRays (Ext K)} (hs : lampSource (fin diameter) (fin NA) N T H = .ok s) (acts : List (Act (Ext K))) :
    (acts.foldl (fun s a => a.run lampDraw s) s).len = s.len ∧
    (collect lampDraw (s.maxCount.toNat + 1) (acts.foldl (fun s a => a.run lampDraw s) s).iter).1 = .ok s.rays := by
  have hl := (lamp_full hs).2
  obtain ⟨h1, h2⟩ := acts_full (draw := lampDraw) acts (s := s) (by omega)
  refine ⟨h1, ?_⟩
  generalize acts.foldl (fun s a => a.run lampDraw s) s = t at h1 h2 ⊢
  have hle := h2.length_le
  have hb : Able lampDraw (fun _ => (Ray.new 0 0, 0)) t := fun h => by rw [h1] at h; omega
  rw [← h1, C112_visits hb, allRays_full _ (by rw [h1]; omega), h1]
  obtain ⟨l, hl'⟩ := h2
  rw [← hl', show s.maxCount.toNat = s.rays.length by omega, List.take_left']
  rfl

/-- **C112**: a lamp where at least as many rays as it counts are loaded visits the first ones of the file, no more. -/
theorem C112_violated_load (s : RandomRays F) (l : List (Ray F)) (hl : s.maxCount ≤ l.length) :
    (collect draw (s.maxCount.toNat + 1) ((s.load (some l) false).1).iter).1 = .ok (l.take s.maxCount.toNat) := by
  have hb : Able draw (fun _ => (Ray.new 0 0, 0)) (s.load (some l) false).1 := by
    intro h
    simp [load] at h
    omega
  have := C112_visits hb
  rw [allRays_full _ (by simp [load]; omega)] at this
  exact this

theorem lamp_collect_short : ∀ (fuel : Nat) {s : RandomRays F}, (s.rays.length : Int) < s.maxCount → s.iteration ≤ s.rays.length →
    s.rays.length < s.iteration + fuel → (collect lampDraw fuel s).1 = .error .attributeError
  | 0, s, _, h2, h3 => by omega
  | fuel + 1, s, h1, h2, h3 => by
    unfold collect next getItem
    rw [if_neg (by omega)]
    simp only
    rw [if_neg (by omega), if_neg (by omega), Int.toNat_natCast]
    rcases Nat.lt_or_ge s.iteration s.rays.length with hlt | hge
    · rw [show s.iteration + 1 - s.rays.length = 0 by omega, grow]
      simp only
      rw [List.getElem?_eq_getElem hlt]
      simp only
      have ih := lamp_collect_short fuel (s := { s with iteration := s.iteration + 1 }) h1 hlt (by simp only; omega)
      cases hc : collect lampDraw fuel { s with iteration := s.iteration + 1 } with
      | mk a s2 =>
        rw [hc] at ih
        simp only at ih
        subst ih
        rfl
    · rw [show s.iteration + 1 - s.rays.length = 1 by omega, grow]
      unfold randomRay
      rw [if_neg (by omega)]
      rfl

/-- **C112** is violated: a lamp where fewer rays than it counts are loaded cannot be iterated: `AttributeError`. -/
theorem C112_violated_short (s : RandomRays F) (l : List (Ray F)) (hl : (l.length : Int) < s.maxCount) :
    (collect lampDraw (s.maxCount.toNat + 1) ((s.load (some l) false).1).iter).1 = .error .attributeError :=
  lamp_collect_short _ (by simpa [load, iter] using hl) (Nat.zero_le _) (by simp [load, iter]; omega)

end added

/-- a lamp of two rays, one appended: two rays are visited -/
example : ((lampSource (fin (1 : ℚ)) (fin 1) 1 2 none).bind fun s =>
    (RandomRays.collect lampDraw 3 (s.append (Ray.new (fin 7) (fin 7))).iter).1) =
      .ok [Ray.new (fin (-1/2)) (fin (-1)), Ray.new (fin (-1/2)) (fin 1)] := by decide +kernel

end RT
