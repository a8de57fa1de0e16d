import Verif.Model.Rays
import Verif.Spec.Rays
import Verif.Lemmas.Stage
import Verif.Props.Trace
import Verif.Lemmas.Den

/-! # C45–C52, C66: rays, collections of rays and sources of rays -/

set_option linter.unusedSectionVars false

namespace RT
open PyNum Ext
variable {K : Type} [Field K] [LinearOrder K] [IsStrictOrderedRing K]

/-! ## C45 -/

/-- A list of rays indexed by a height `j` and an angle `i`: what `[... for j in range(M) for i in range(N)]` gives. -/
theorem flatMap_range_get {α : Type} (f : Nat → Nat → α) (M N : Nat) :
    ((List.range M).flatMap fun j => (List.range N).map fun i => f j i).length = M * N ∧
    ∀ j i, j < M → i < N → ((List.range M).flatMap fun j => (List.range N).map fun i => f j i)[j * N + i]? = some (f j i) := by
  induction M with
  | zero => exact ⟨by simp, by intro j i h; omega⟩
  | succ M ih =>
    rw [List.range_succ, List.flatMap_append]
    refine ⟨by simp [ih.1, Nat.succ_mul], ?_⟩
    intro j i hj hi
    by_cases h : j < M
    · rw [List.getElem?_append_left]
      · exact ih.2 j i h hi
      · rw [ih.1]
        calc j * N + i < j * N + N := by omega
          _ = (j + 1) * N := by ring
          _ ≤ M * N := Nat.mul_le_mul_right _ h
    · have : j = M := by omega
      subst this
      rw [List.getElem?_append_right (by rw [ih.1]; omega), ih.1]
      simp [hi]

theorem lit_int (n : Int) : (lit ((n : Int) : ℚ) : Ext K) = fin (n : K) := by rw [lit_eq]; simp
theorem lit_nat (n : Nat) : (lit ((n : Nat) : ℚ) : Ext K) = fin (n : K) := by rw [lit_eq]; simp

theorem cast_toNat {N : Int} (hN : 0 ≤ N) : ((N.toNat : ℕ) : K) = (N : K) := by
  obtain ⟨n, rfl⟩ := Int.eq_ofNat_of_zero_le hN
  simp

theorem fanDelta_eq (lo hi : K) {N : Int} (hN : 1 ≤ N) : ∃ delta : K, fanDelta (fin lo) (fin hi) N = .ok (fin delta) ∧
    ∀ i : ℕ, i < N.toNat → lo + i * delta = spaced lo hi N.toNat i := by
  unfold fanDelta
  by_cases h2 : 2 ≤ N
  · refine ⟨(hi - lo) / (N - 1), ?_, ?_⟩
    · rw [if_pos h2, lit_int]
      simp
    · intro i _
      rw [spaced, if_neg (by omega), cast_toNat (by omega)]
  · have : N = 1 := by omega
    subst this
    exact ⟨0, by simp, by intro i hi; simp at hi; simp [spaced]⟩

/-- **C45**: `Ray.fan` gives `N` rays from the same height, with evenly spaced angles from the first bound to the second. -/
theorem C45_fan (y lo hi : K) {N : Int} (hN : 1 ≤ N) : ∃ rays, Ray.fan (fin y) (fin lo) (fin hi) N = .ok rays ∧
    rays.length = N.toNat ∧
    ∀ i, i < N.toNat → rays[i]? = some (Ray.new (fin y) (fin (spaced lo hi N.toNat i))) := by
  obtain ⟨delta, h1, h2⟩ := fanDelta_eq lo hi hN
  refine ⟨_, by unfold Ray.fan; rw [h1]; rfl, by simp, ?_⟩
  intro i hi'
  rw [List.getElem?_map, List.getElem?_range hi', Option.map_some, lit_nat, fin_mul_fin, fin_add_fin, h2 i hi']

/-- **C45**: `Ray.fanGroup` gives `M * N` rays, the `N` angles for each of the `M` heights, both evenly spaced. -/
theorem C45_fanGroup (yLo yHi lo hi : K) {M N : Int} (hM : 1 ≤ M) (hN : 1 ≤ N) :
    ∃ rays, Ray.fanGroup (fin yLo) (fin yHi) M (fin lo) (fin hi) N = .ok rays ∧
    rays.length = M.toNat * N.toNat ∧
    ∀ j i, j < M.toNat → i < N.toNat →
      rays[j * N.toNat + i]? = some (Ray.new (fin (spaced yLo yHi M.toNat j)) (fin (spaced lo hi N.toNat i))) := by
  obtain ⟨d1, h1, h2⟩ := fanDelta_eq lo hi hN
  obtain ⟨d2, h3, h4⟩ := fanDelta_eq yLo yHi hM
  have key := flatMap_range_get (fun j i => Ray.new (fin yLo + lit ((j : Nat) : ℚ) * fin d2 : Ext K)
    (fin lo + lit ((i : Nat) : ℚ) * fin d1)) M.toNat N.toNat
  refine ⟨_, by unfold Ray.fanGroup; rw [h1, h3]; rfl, key.1, ?_⟩
  intro j i hj hi'
  rw [key.2 j i hj hi', lit_nat, lit_nat, fin_mul_fin, fin_add_fin, fin_mul_fin, fin_add_fin, h2 i hi', h4 j hj]

/-- **C45**: a number of rays or of heights below 1 is refused, whatever the numbers are. -/
theorem C45_refused {F : Type} [PyNum F] (y lo hi yLo yHi : F) (M N : Int) :
    (Ray.fan y lo hi N = .error .valueError ↔ N < 1) ∧
    (Ray.fanGroup yLo yHi M lo hi N = .error .valueError ↔ M < 1 ∨ N < 1) := by
  have key : ∀ (a b : F) (n : Int), (1 ≤ n → ∃ d, fanDelta a b n = .ok d) ∧ (n < 1 → fanDelta a b n = .error .valueError) := by
    intro a b n
    unfold fanDelta
    constructor
    · intro h
      split_ifs with h1 h2
      · exact ⟨_, rfl⟩
      · exact ⟨_, rfl⟩
      · omega
    · intro h
      rw [if_neg (by omega), if_neg (by omega)]
  constructor
  · unfold Ray.fan
    by_cases h : N < 1
    · simp [(key lo hi N).2 h, h, bind, Except.bind]
    · obtain ⟨d, hd⟩ := (key lo hi N).1 (by omega)
      simp [hd, h, bind, Except.bind, pure, Except.pure]
  · unfold Ray.fanGroup
    by_cases h : N < 1
    · simp [(key lo hi N).2 h, h, bind, Except.bind]
    · obtain ⟨d, hd⟩ := (key lo hi N).1 (by omega)
      by_cases h' : M < 1
      · simp [hd, (key yLo yHi M).2 h', h', bind, Except.bind]
      · obtain ⟨d', hd'⟩ := (key yLo yHi M).1 (by omega)
        simp [hd, hd', h, h', bind, Except.bind, pure, Except.pure]

/-- Evenly spaced: what `spaced` means. -/
theorem C45_spaced (lo hi : K) {n : ℕ} : spaced lo hi n 0 = lo ∧ (2 ≤ n → spaced lo hi n (n - 1) = hi) ∧
    (n ≠ 1 → ∀ i, spaced lo hi n (i + 1) - spaced lo hi n i = (hi - lo) / (n - 1)) ∧
    (lo ≤ hi → ∀ i, i < n → lo ≤ spaced lo hi n i ∧ spaced lo hi n i ≤ hi) :=
  ⟨spaced_first lo hi n, spaced_last lo hi, fun h i => spaced_step lo hi h i, fun h _ hi' => spaced_bounds h hi'⟩

/-- a fan of three rays -/
example : Ray.fan (fin (2 : ℚ)) (fin (-1)) (fin 1) 3 =
    .ok [Ray.new (fin 2) (fin (-1)), Ray.new (fin 2) (fin 0), Ray.new (fin 2) (fin 1)] := by decide +kernel

/-! ## C46 -/

theorem linspace_eq (lo hi : K) {n : Int} (hn : 0 ≤ n) :
    linspace (fin lo) (fin hi) n = .ok ((List.range n.toNat).map fun i => fin (spaced lo hi n.toNat i)) := by
  unfold linspace
  rw [if_neg (by omega)]
  split_ifs with h
  · subst h
    simp [spaced]
  · congr 1
    apply List.map_congr_left
    intro i hi'
    rw [List.mem_range] at hi'
    split_ifs with h1
    · have h2 : 2 ≤ n.toNat := by omega
      rw [show i = n.toNat - 1 by omega, spaced_last lo hi h2]
    · rw [lit_nat, lit_int, spaced, if_neg (by omega), cast_toNat hn]
      simp
      ring

theorem linspace_neg {F : Type} [PyNum F] (lo hi : F) {n : Int} (hn : n < 0) : linspace lo hi n = .error .valueError := by
  unfold linspace
  rw [if_pos hn]

theorem gridRays_eq (M N : Nat) (f g : Nat → Ext K) :
    gridRays ((List.range M).map f) (.ok ((List.range N).map g)) =
      .ok ((List.range M).flatMap fun j => (List.range N).map fun i => Ray.new (f j) (g i)) := by
  unfold gridRays
  cases M with
  | zero => rfl
  | succ M =>
    have e : ∀ l : List Nat, (l.map f).flatMap (fun y => ((List.range N).map g).map fun theta => Ray.new y theta) =
        l.flatMap fun j => (List.range N).map fun i => Ray.new (f j) (g i) := by
      intro l
      rw [List.flatMap_map]
      simp only [List.map_map]
      rfl
    rw [← e, List.range_succ_eq_map]
    rfl

/-- **C46**: `UniformRays` with at least two heights (or none) has the `N` angles for each of the `M` heights, evenly spaced, and all
rays are within the bounds. Missing from the property: a single height. -/
theorem C46_uniform_partial (yMax thetaMax : K) (yMin thetaMin : Option K) {M N : Int} (hM : 0 ≤ M) (hM1 : M ≠ 1) (hN : 0 ≤ N) :
    ∃ rays, uniformRays (fin yMax) (yMin.map fin) (fin thetaMax) (thetaMin.map fin) M N = .ok rays ∧
      rays.length = M.toNat * N.toNat ∧
      (∀ j i, j < M.toNat → i < N.toNat → rays[j * N.toNat + i]? =
        some (Ray.new (fin (spaced (yMin.getD (-yMax)) yMax M.toNat j)) (fin (spaced (thetaMin.getD (-thetaMax)) thetaMax N.toNat i)))) ∧
      (yMin.getD (-yMax) ≤ yMax → thetaMin.getD (-thetaMax) ≤ thetaMax → ∀ r ∈ rays, ∃ y theta : K, r = Ray.new (fin y) (fin theta) ∧
        yMin.getD (-yMax) ≤ y ∧ y ≤ yMax ∧ thetaMin.getD (-thetaMax) ≤ theta ∧ theta ≤ thetaMax) := by
  have e1 : (yMin.map fin).getD (-fin yMax) = fin (yMin.getD (-yMax)) := by cases yMin <;> simp
  have e2 : (thetaMin.map fin).getD (-fin thetaMax) = fin (thetaMin.getD (-thetaMax)) := by cases thetaMin <;> simp
  have key := flatMap_range_get (fun j i => Ray.new (fin (spaced (yMin.getD (-yMax)) yMax M.toNat j))
    (fin (spaced (thetaMin.getD (-thetaMax)) thetaMax N.toNat i))) M.toNat N.toNat
  refine ⟨_, ?_, key.1, key.2, ?_⟩
  · unfold uniformRays
    rw [e1, e2, if_neg hM1, linspace_eq _ _ hM, linspace_eq _ _ hN]
    simp only [bind, Except.bind]
    rw [gridRays_eq]
  · intro h1 h2 r hr
    simp only [List.mem_flatMap, List.mem_map, List.mem_range] at hr
    obtain ⟨j, hj, i, hi, rfl⟩ := hr
    obtain ⟨a1, a2⟩ := spaced_bounds h1 hj
    obtain ⟨a3, a4⟩ := spaced_bounds h2 hi
    exact ⟨_, _, rfl, a1, a2, a3, a4⟩

/-- **C46**: with a single height, all rays start on the axis, whatever the bounds are. -/
theorem C46_single (yMax thetaMax : K) (yMin thetaMin : Option K) {N : Int} (hN : 0 ≤ N) :
    ∃ rays, uniformRays (fin yMax) (yMin.map fin) (fin thetaMax) (thetaMin.map fin) 1 N = .ok rays ∧
      rays.length = N.toNat ∧ ∀ i, i < N.toNat →
        rays[i]? = some (Ray.new (fin 0) (fin (spaced (thetaMin.getD (-thetaMax)) thetaMax N.toNat i))) := by
  have e2 : (thetaMin.map fin).getD (-fin thetaMax) = fin (thetaMin.getD (-thetaMax)) := by cases thetaMin <;> simp
  have e3 : uniformRays (fin yMax) (yMin.map fin) (fin thetaMax) (thetaMin.map fin) 1 N =
      .ok ((List.range N.toNat).map fun i => Ray.new (fin 0) (fin (spaced (thetaMin.getD (-thetaMax)) thetaMax N.toNat i))) := by
    unfold uniformRays
    rw [e2, if_pos rfl, linspace_eq _ _ hN]
    simp [bind, Except.bind, pure, Except.pure, gridRays]
  exact ⟨_, e3, by simp, by intro i hi; simp [hi]⟩

/-- **C46** is violated: one height asked between 1 and 2 gives a ray at height 0. -/
theorem C46_violated : ∃ rays, uniformRays (fin (2 : ℚ)) (some (fin 1)) (fin 1) none 1 1 = .ok rays ∧
    ∃ r ∈ rays, r.y = fin 0 := ⟨[Ray.new (fin 0) (fin (-1))], by decide +kernel, by decide +kernel⟩

/-- **C46**: a negative number of heights, or of angles when there are heights, is refused with `ValueError`. -/
theorem C46_refused (yMax thetaMax : K) (yMin thetaMin : Option K) (M N : Int) (h : M < 0 ∨ (0 < M ∧ N < 0)) :
    uniformRays (fin yMax) (yMin.map fin) (fin thetaMax) (thetaMin.map fin) M N = .error .valueError := by
  unfold uniformRays
  rcases h with h | ⟨h1, h2⟩
  · rw [if_neg (by omega), linspace_neg _ _ h]
    rfl
  · simp only [linspace_neg _ _ h2]
    split_ifs with h3
    · simp [bind, Except.bind, pure, Except.pure, gridRays]
    · have e1 : (yMin.map fin).getD (-fin yMax) = fin (yMin.getD (-yMax)) := by cases yMin <;> simp
      rw [e1, linspace_eq _ _ h1.le]
      obtain ⟨m, hm⟩ : ∃ m, M.toNat = m + 1 := ⟨M.toNat - 1, by omega⟩
      rw [hm, List.range_succ_eq_map]
      simp [bind, Except.bind, gridRays]

/-- **C46**: the sources `ObjectRays` and `LampRays` are grids across their diameter. -/
theorem C46_sources {diameter angle : K} (hd : 0 ≤ diameter) (ha : 0 ≤ angle) {H T : Int} (hH : 0 ≤ H) (hT : 0 ≤ T) :
    ∃ rays, lampRays (fin diameter) (fin angle) H T none = .ok rays ∧ rays.length = H.toNat * T.toNat ∧
      (H ≠ 1 → objectRays (fin diameter) (fin angle) H T = .ok rays) ∧
      (∀ j i, j < H.toNat → i < T.toNat → rays[j * T.toNat + i]? =
        some (Ray.new (fin (spaced (-diameter / 2) (diameter / 2) H.toNat j)) (fin (spaced (-angle) angle T.toNat i)))) ∧
      ∀ r ∈ rays, ∃ y theta : K, r = Ray.new (fin y) (fin theta) ∧ |y| ≤ diameter / 2 ∧ |theta| ≤ angle := by
  have key := flatMap_range_get (fun j i => Ray.new (fin (spaced (-diameter / 2) (diameter / 2) H.toNat j))
    (fin (spaced (-angle) angle T.toNat i))) H.toNat T.toNat
  refine ⟨_, ?_, key.1, ?_, key.2, ?_⟩
  · unfold lampRays
    simp only [neg_fin, ofNat_eq, rawDiv_fin]
    rw [linspace_eq _ _ hH, linspace_eq _ _ hT]
    simp only [bind, Except.bind]
    rw [gridRays_eq]
  · intro h1
    obtain ⟨rays, h2, -⟩ := C46_uniform_partial (diameter / 2) angle (some (-diameter / 2)) (some (-angle)) hH h1 hT
    unfold objectRays uniformRays
    simp only [neg_fin, ofNat_eq, rawDiv_fin, Option.getD_some, if_neg h1]
    rw [linspace_eq _ _ hH, linspace_eq _ _ hT]
    simp only [bind, Except.bind]
    rw [gridRays_eq]
  · intro r hr
    simp only [List.mem_flatMap, List.mem_map, List.mem_range] at hr
    obtain ⟨j, hj, i, hi, rfl⟩ := hr
    obtain ⟨a1, a2⟩ := spaced_bounds (lo := -diameter / 2) (hi := diameter / 2) (by linarith) hj
    obtain ⟨a3, a4⟩ := spaced_bounds (lo := -angle) (hi := angle) (by linarith) hi
    exact ⟨_, _, rfl, abs_le.2 ⟨by linarith, a2⟩, abs_le.2 ⟨a3, a4⟩⟩

/-- **C46**: the number `H` of heights of a `LampRays`, when given and not zero, replaces `N`; zero counts as not given. -/
theorem C46_lamp_heights (diameter angle : K) (N T H : Int) :
    (H ≠ 0 → lampRays (fin diameter) (fin angle) N T (some H) = lampRays (fin diameter) (fin angle) H T none) ∧
      lampRays (fin diameter) (fin angle) N T (some 0) = lampRays (fin diameter) (fin angle) N T none := by
  refine ⟨fun h => ?_, rfl⟩
  unfold lampRays
  simp only [if_neg h]

/-- two heights replaced by three: six rays -/
example : (lampRays (fin (1 : ℚ)) (fin 1) 2 2 (some 3)).map List.length = .ok 6 := by decide +kernel

/-! ## C47 -/

/-- **C47**: `ray.at(z)` is on the straight line through the ray, with the same angle, at `z`, and blocked if the ray is. -/
theorem C47_at {r : Ray (Ext K)} {y θ z0 : K} (hr : FinRay r y θ z0) (z : K) :
    FinRay (r.at (fin z)) (y + (z - z0) * θ) θ z ∧ (r.at (fin z)).isBlocked = r.isBlocked := by
  refine ⟨⟨?_, ?_, ?_⟩, rfl⟩ <;> simp [Ray.at, Ray.new, hr.y, hr.theta, hr.z]

theorem runTrace_open {is : List (Item (Ext K))} {r : Ray (Ext K)} (hb : ((runTrace is r).getLast?.getD r).isBlocked = false) :
    r.isBlocked = false := by
  by_contra hc
  rw [Bool.not_eq_false] at hc
  have : ((runTrace is r).getLast?.getD r) = r := by
    cases hx : (runTrace is r).getLast? with
    | none => rfl
    | some x => exact runTrace_blocked is hc x (List.mem_of_getLast? hx)
  rw [this, hc] at hb; simp at hb

theorem alongLoop_pass {z : K} {r : Ray (Ext K)} {y θ z0 : K} (hr : FinRay r y θ z0) (h : z0 < z) (last c : Ray (Ext K))
    (l : List (Ray (Ext K))) : Ray.alongLoop (fin z) last c (r :: l) = Ray.alongLoop (fin z) last r l := by
  rw [Ray.alongLoop, hr.z]
  simp [h.ne, h.le]

theorem alongLoop_here {z : K} {r : Ray (Ext K)} {y θ : K} (hr : FinRay r y θ z) (last c : Ray (Ext K))
    (l : List (Ray (Ext K))) : Ray.alongLoop (fin z) last c (r :: l) = r := by
  rw [Ray.alongLoop, hr.z]
  simp

theorem alongLoop_before {z : K} {r : Ray (Ext K)} {y θ z0 : K} (hr : FinRay r y θ z0) (h : z < z0) (last c : Ray (Ext K))
    (l : List (Ray (Ext K))) : Ray.alongLoop (fin z) last c (r :: l) = c.at (fin z) := by
  rw [Ray.alongLoop, hr.z]
  simp [h.ne', h]

/-- The loop of `Ray.along` over the trace of a ray that gets through, past the position of the ray. -/
theorem alongLoop_trace {is : List (Item (Ext K))} {ss : List (Stage K)} (h : ItemStages is ss) {r : Ray (Ext K)}
    {y θ z0 z : K} (hr : FinRay r y θ z0) (hb : ((runTrace is r).getLast?.getD r).isBlocked = false)
    (h0 : z0 < z) (hz : z ≤ z0 + (ss.map Stage.len).sum) (hn : ∀ s ∈ ss, 0 ≤ s.len) (hi : ¬ Inside ss (z - z0)) (last c : Ray (Ext K)) :
    ∃ y' θ', FinRay (Ray.alongLoop (fin z) last c (runTrace is r)) y' θ' z ∧
      (Ray.alongLoop (fin z) last c (runTrace is r)).isBlocked = false ∧ OnPath ss (y, θ) (z - z0) (y', θ') := by
  induction is generalizing ss r y θ z0 c with
  | nil =>
    cases h
    simp at hz
    exact absurd h0 (not_lt.2 hz)
  | cons i is ih =>
    cases i with
    | dup =>
      rw [runTrace, alongLoop_pass hr h0]
      refine ih h hr ?_ h0 hz hn hi r
      rwa [runTrace, getLast?_cons_getD'] at hb
    | leaf m =>
      obtain ⟨st, ss, h1, h2, rfl⟩ : ∃ st ss', StageOf m st ∧ ItemStages is ss' ∧ ss = st :: ss' := by
        cases h with | cons a b => exact ⟨_, _, a, b, rfl⟩
      have hrb : r.isBlocked = false := runTrace_open hb
      rw [runTrace_leaf_last] at hb
      simp only [hrb, Bool.false_eq_true, if_false] at hb
      obtain ⟨o1, -, -⟩ := h1.out hr hrb
      have o2 := o1.settle is
      have hob : (settle is (m.mulRayBase r)).isBlocked = false := runTrace_open hb
      have hlen : 0 ≤ st.len := hn st (by simp)
      have hn' : ∀ s ∈ ss, 0 ≤ s.len := fun s hs => hn s (by simp [hs])
      simp only [List.map_cons, List.sum_cons] at hz
      simp only [Inside, not_or] at hi
      have hi2 : ¬ Inside ss (z - (z0 + st.len)) := by rw [← sub_sub]; exact hi.2
      -- the ray after this element
      have key : ∀ c', ((st.len = 0 ∨ c' = r) → ∃ y' θ', FinRay (Ray.alongLoop (fin z) last c' (settle is (m.mulRayBase r) :: runTrace is (settle is (m.mulRayBase r)))) y' θ' z ∧
          (Ray.alongLoop (fin z) last c' (settle is (m.mulRayBase r) :: runTrace is (settle is (m.mulRayBase r)))).isBlocked = false ∧
          OnPath (st :: ss) (y, θ) (z - z0) (y', θ')) := by
        intro c' hc'
        rcases lt_trichotomy z (z0 + st.len) with hlt | heq | hgt
        · have hc : c' = r := by
            rcases hc' with h | h
            · exfalso; linarith
            · exact h
          subst hc
          rw [alongLoop_before o2 hlt]
          obtain ⟨a1, a2⟩ := C47_at hr z
          refine ⟨_, _, a1, a2.trans hrb, .inr (.inl ⟨?_, by linarith, by linarith, rfl⟩)⟩
          by_contra hg
          exact hi.1 ⟨hg, by linarith, by linarith⟩
        · subst heq
          rw [alongLoop_here o2]
          refine ⟨_, _, o2, hob, .inr (.inr ?_)⟩
          have : z0 + st.len - z0 - st.len = 0 := by ring
          rw [this]
          cases ss with
          | nil => exact ⟨rfl, rfl⟩
          | cons s ss => exact .inl ⟨rfl, rfl⟩
        · rw [alongLoop_pass o2 hgt]
          obtain ⟨y', θ', b1, b2, b3⟩ := ih h2 o2 hb hgt (by linarith) hn' hi2 (settle is (m.mulRayBase r))
          refine ⟨y', θ', b1, b2, .inr (.inr ?_)⟩
          rw [sub_sub]; exact b3
      simp only [runTrace, hrb, Bool.false_eq_true, if_false]
      by_cases hL : (0 <. m.L) = true
      · rw [if_pos hL, List.cons_append, List.nil_append, alongLoop_pass hr h0]
        exact key r (.inr rfl)
      · rw [if_neg hL, List.nil_append]
        refine key c (.inl ?_)
        rw [h1.L] at hL
        simp at hL
        exact le_antisymm hL hlen

theorem stages_length {is : List (Item (Ext K))} {ss : List (Stage K)} (h : ItemStages is ss) :
    ((itemSys is).map Sys.len).sum = (ss.map Stage.len).sum := by
  induction is generalizing ss with
  | nil => cases h; rfl
  | cons i is ih =>
    cases i with
    | dup => exact ih h
    | leaf m =>
      cases h with
      | cons a b =>
        simp only [itemSys, List.map_cons, List.sum_cons, ih b]
        congr 1
        simp [Mat.sys, a.L]

/-- **C47**: `Ray.along(trace, z)`, for the trace of a ray that gets through any system without negative lengths, and any position in
the system that is not strictly inside a thick element: the ray on the path at that position. Missing from the
property: positions inside thick elements, positions past the end and blocked rays. -/
theorem C47_along_partial {p : Part K} (hn : p.NonNeg) {e : Elem (Ext K)} (hb : p.build = .ok e) {a : Nat}
    {h : Heap (Ext K)} (ha : a < h.length) {y θ z0 z : K} (hr : FinRay (h.get a) y θ z0)
    (hopen : ((e.traceH a h).2.1.get (e.traceThroughH a h).1).isBlocked = false) (h0 : z0 ≤ z)
    (hz : z ≤ z0 + (p.stages.map Stage.len).sum) (hi : ¬ Inside p.stages (z - z0)) :
    ∃ out y' θ', Ray.along ((e.traceH a h).2.1.deref (e.traceH a h).1) (fin z) = .ok out ∧ FinRay out y' θ' z ∧
      out.isBlocked = false ∧ OnPath p.stages (y, θ) (z - z0) (y', θ') := by
  obtain ⟨h1, h2, h3⟩ := build_sound hb
  obtain ⟨e1, e2⟩ := trace_values hb ha
  have hst := build_stages hb
  have hl : (e.traceH a h).2.1.get (e.traceThroughH a h).1 =
      (runTrace e.items (settle e.items (h.get a))).getLast?.getD (settle e.items (h.get a)) := by
    rw [← e1]
    unfold Elem.traceThroughH Heap.deref
    rw [List.getLast?_map]
    cases hx : (e.traceH a h).1.getLast? with
    | none => exact e2
    | some l => rfl
  rw [hl] at hopen
  rw [e1]
  have hr' := hr.settle e.items
  generalize settle e.items (h.get a) = r at *
  have hnl : ∀ s ∈ p.stages, 0 ≤ s.len := by
    have := h3 hn
    have key : ∀ {is : List (Item (Ext K))} {ss : List (Stage K)}, ItemStages is ss → NonNegItems is → ∀ s ∈ ss, 0 ≤ s.len := by
      intro is
      induction is with
      | nil => intro ss h _ s hs; cases h; simp at hs
      | cons i is ih =>
        intro ss h hn s hs
        cases i with
        | dup => exact ih h (fun m hm => hn m (by simp [hm])) s hs
        | leaf m =>
          cases h with
          | cons a b =>
            rcases List.mem_cons.1 hs with rfl | hs
            · have := hn m (by simp)
              simpa [Mat.sys, a.L] using this
            · exact ih b (fun m hm => hn m (by simp [hm])) s hs
    exact key hst this
  have hne : runTrace e.items r ≠ [] := by
    intro hc
    rw [hc] at e1
    simp only [Heap.deref, List.map_eq_nil_iff] at e1
    exact trace_ne_nil h2 _ _ e1
  obtain ⟨r0, rest, hcons⟩ := List.exists_cons_of_ne_nil hne
  have hal : ∀ {l : List (Ray (Ext K))} {x xs}, l = x :: xs → ∀ w, ∃ last, Ray.along l w = .ok (Ray.alongLoop w last x l) := by
    rintro l x xs rfl w
    exact ⟨_, rfl⟩
  obtain ⟨last, hal⟩ := hal hcons (fin z)
  rw [hal]
  rcases h0.lt_or_eq with hlt | rfl
  · obtain ⟨y', θ', b1, b2, b3⟩ := alongLoop_trace hst hr' hopen hlt hz hnl hi last r0
    exact ⟨_, y', θ', rfl, b1, b2, b3⟩
  · -- at the position of the ray
    have hrb := runTrace_open hopen
    rw [sub_self]
    have start : ∀ ss : List (Stage K), OnPath ss (y, θ) 0 (y, θ) := by
      intro ss; cases ss with
      | nil => exact ⟨rfl, rfl⟩
      | cons s ss => exact .inl ⟨rfl, rfl⟩
    cases hit : e.items with
    | nil => rw [hit] at hne; exact absurd rfl hne
    | cons i is =>
      cases i with
      | dup =>
        simp only [runTrace]
        exact ⟨_, y, θ, rfl, by rw [alongLoop_here hr']; exact hr', by rw [alongLoop_here hr']; exact hrb, start _⟩
      | leaf m =>
        rw [hit] at hst hopen
        generalize p.stages = ss at *
        cases hst with
        | @cons _ st _ ss h1 h2 =>
          simp only [runTrace, hrb, Bool.false_eq_true, if_false]
          rw [runTrace_leaf_last] at hopen
          simp only [hrb, Bool.false_eq_true, if_false] at hopen
          by_cases hL : (0 <. m.L) = true
          · rw [if_pos hL, List.cons_append, List.nil_append]
            exact ⟨_, y, θ, rfl, by rw [alongLoop_here hr']; exact hr', by rw [alongLoop_here hr']; exact hrb, start _⟩
          · rw [if_neg hL, List.nil_append]
            have hlen : st.len = 0 := by
              rw [h1.L] at hL
              simp at hL
              exact le_antisymm hL (hnl st (by simp))
            obtain ⟨o1, -, -⟩ := h1.out hr' hrb
            rw [hlen, add_zero] at o1
            have o2 := o1.settle is
            refine ⟨_, _, _, rfl, by rw [alongLoop_here o2]; exact o2, by rw [alongLoop_here o2]; exact runTrace_open hopen, .inr (.inr ?_)⟩
            rw [hlen, sub_self]
            cases ss with
            | nil => exact ⟨rfl, rfl⟩
            | cons s ss => exact .inl ⟨rfl, rfl⟩

/-- positions 5 (in the first space) and 10 (at the lens) of `tracePart` are not inside a thick element; position 15 is -/
example : ¬ Inside tracePart.stages 5 ∧ ¬ Inside tracePart.stages 10 ∧ Inside tracePart.stages 15 := by
  norm_num [tracePart, Part.stages, Part.stagesList, Inside, Stage.Gap, Sys.stage, Sys.space, Sys.lens, Sys.one, Sys.thick, Sys.andThen, Sys.interface, curvature]

/-- **C47.** An empty trace is an `IndexError`. -/
theorem C47_empty {F : Type} [PyNum F] (z : F) : Ray.along ([] : List (Ray F)) z = .error .indexError := rfl

/-- **C47** is violated past the end: whatever the trace is, a position past all its rays gives its last ray, which is not at that
position. -/
theorem C47_violated_end {l : List (Ray (Ext K))} (hne : l ≠ []) {z : K} (h : ∀ r ∈ l, ∃ y θ z0, FinRay r y θ z0 ∧ z0 < z) :
    Ray.along l (fin z) = .ok (l.getLast hne) ∧ (l.getLast hne).z ≠ fin z := by
  constructor
  · obtain ⟨r0, rest, rfl⟩ := List.exists_cons_of_ne_nil hne
    have key : ∀ (l : List (Ray (Ext K))) (last c : Ray (Ext K)), (∀ r ∈ l, ∃ y θ z0, FinRay r y θ z0 ∧ z0 < z) →
        Ray.alongLoop (fin z) last c l = last := by
      intro l
      induction l with
      | nil => intros; rfl
      | cons r l ih =>
        intro last c h
        obtain ⟨y, θ, z0, h1, h2⟩ := h r (by simp)
        rw [alongLoop_pass h1 h2]
        exact ih _ _ fun s hs => h s (by simp [hs])
    simp only [Ray.along]
    rw [key _ _ _ h]
  · obtain ⟨y, θ, z0, h1, h2⟩ := h _ (List.getLast_mem hne)
    rw [h1.z]
    simp [h2.ne]

/-- a trace of two rays -/
example : Ray.along [Ray.new (fin (0 : ℚ)) (fin 1), Ray.new (fin 2) (fin 1) (fin 2)] (fin 1) =
    .ok (Ray.new (fin 1) (fin 1) (fin 1)) := by decide +kernel

/-- **C47** is violated inside a thick element: in a flat slab of index 2 a ray at angle 1 travels at angle 1/2, so it is at the height 1/2 at the
depth 1, but `along` gives the height 1; the ray at the end of the slab has the height 1. -/
theorem C47_violated_inside :
    withBuilt (.slab 2 2 none) (fun e =>
      let t := e.traceH 0 [Ray.new (fin (0 : ℚ)) (fin 1)]
      (Ray.along (t.2.1.deref t.1) (fin 1), Ray.along (t.2.1.deref t.1) (fin 2))) =
    .ok (.ok (Ray.new (fin 1) (fin 1) (fin 1)), .ok { Ray.new (fin 1) (fin 1) (fin 2) with apertureDiameter := pinf }) ∧
    rayAt (Part.slab (2 : ℚ) 2 none).prims 1 (0, 1) = some (1 / 2, 1 / 2) := by
  constructor
  · decide +kernel
  · norm_num [Part.prims, rayAt, Prim.out, Sys.interface, Sys.outY, Sys.outθ, curvature]

/-! ## C48 -/

namespace Rays

/-- What a program does with a collection. -/
inductive Op (F : Type) where
  | append (r : Ray F)
  | load (file : List (Ray F)) (append : Bool)
  | yValues
  | thetaValues
  | countHistogram (bins : Option Int) (lo hi : Option F)
  | anglesHistogram (bins : Option Int) (lo hi : Option F)

/-- What it sees. -/
inductive Answer (F : Type) where
  | nothing
  | values (l : List F)
  | histogram (h : Except PyErr (Option (List F × List Nat)))

/-- one operation on a collection -/
def Op.run {F : Type} [PyNum F] : Op F → Rays F → Answer F × Rays F
  | .append r, s => (.nothing, s.append r)
  | .load l a, s => (.nothing, (s.load (some l) a).1)
  | .yValues, s => (.values s.yValues.1, s.yValues.2)
  | .thetaValues, s => (.values s.thetaValues.1, s.thetaValues.2)
  | .countHistogram b lo hi, s => (.histogram (s.rayCountHistogram b lo hi).1, (s.rayCountHistogram b lo hi).2)
  | .anglesHistogram b lo hi, s => (.histogram (s.rayAnglesHistogram b lo hi).1, (s.rayAnglesHistogram b lo hi).2)

/-- a sequence of operations: all the answers -/
def runAll {F : Type} [PyNum F] : List (Op F) → Rays F → List (Answer F)
  | [], _ => []
  | op :: ops, s => (op.run s).1 :: runAll ops (op.run s).2

/-! What the answers should be: they depend only on the list of rays. -/

/-- the histogram of some values, with the smallest and the largest ones as default bounds -/
def histogramOf {F : Type} [PyNum F] (values : List F) (bins : Option Int) (lo hi : Option F) :
    Except PyErr (List F × List Nat) := do
  let lo ← match lo with
    | some v => pure v
    | none => pyMin values
  let hi ← match hi with
    | some v => pure v
    | none => pyMax values
  RT.histogram values (bins.getD 40) lo hi

/-- the list of rays after an operation -/
def Op.after {F : Type} : Op F → List (Ray F) → List (Ray F)
  | .append r, l => l ++ [r]
  | .load f a, l => if a then l ++ f else f
  | _, l => l

/-- the answer, from the list of rays -/
def Op.ideal {F : Type} [PyNum F] : Op F → List (Ray F) → Answer F
  | .append _, _ => .nothing
  | .load _ _, _ => .nothing
  | .yValues, l => .values (l.map Ray.y)
  | .thetaValues, l => .values (l.map Ray.theta)
  | .countHistogram b lo hi, l => .histogram ((histogramOf (l.map Ray.y) b lo hi).map some)
  | .anglesHistogram b lo hi, l => .histogram ((histogramOf (l.map Ray.theta) b lo hi).map some)

/-- the answers to a sequence of operations -/
def idealAll {F : Type} [PyNum F] : List (Op F) → List (Ray F) → List (Answer F)
  | [], _ => []
  | op :: ops, l => op.ideal l :: idealAll ops (op.after l)

/-- The restriction on the operations: `fresh` says that nothing was asked since the beginning or since the last `append`; only
then is `load` allowed. A histogram may be refused only for lack of rays. -/
def Safe {F : Type} [PyNum F] : Bool → List (Op F) → List (Ray F) → Prop
  | _, [], _ => True
  | fresh, op :: ops, l =>
    match op with
    | .append _ => Safe true ops (op.after l)
    | .load _ _ => fresh = true ∧ Safe true ops (op.after l)
    | .yValues => Safe false ops l
    | .thetaValues => Safe false ops l
    | .countHistogram b lo hi => ((∃ h, histogramOf (l.map Ray.y) b lo hi = .ok h) ∨ (l = [] ∧ (lo = none ∨ hi = none))) ∧ Safe false ops l
    | .anglesHistogram b lo hi => ((∃ h, histogramOf (l.map Ray.theta) b lo hi = .ok h) ∨ (l = [] ∧ (lo = none ∨ hi = none))) ∧ Safe false ops l

/-- nothing is cached -/
def Bare {F : Type} (s : Rays F) : Prop :=
  s.yCache = none ∧ s.thetaCache = none ∧ s.countParams = none ∧ s.countHist = none ∧ s.anglesParams = none ∧ s.anglesHist = none

/-- what is cached is right -/
structure Coherent (s : Rays (Ext K)) : Prop where
  y : ∀ l, s.yCache = some l → l = s.rays.map Ray.y
  theta : ∀ l, s.thetaCache = some l → l = s.rays.map Ray.theta
  count : ∀ b lo hi, s.countParams = some (b, lo, hi) → ∃ h, s.countHist = some h ∧ RT.histogram (s.rays.map Ray.y) b lo hi = .ok h
  angles : ∀ b lo hi, s.anglesParams = some (b, lo, hi) → ∃ h, s.anglesHist = some h ∧ RT.histogram (s.rays.map Ray.theta) b lo hi = .ok h

theorem Bare.coherent {s : Rays (Ext K)} (h : s.Bare) : s.Coherent := by
  obtain ⟨h1, h2, h3, -, h5, -⟩ := h
  constructor <;> intros <;> simp_all

theorem yValues_spec {s : Rays (Ext K)} (h : s.Coherent) :
    s.yValues.1 = s.rays.map Ray.y ∧ s.yValues.2.Coherent ∧ s.yValues.2.rays = s.rays ∧ s.yValues.2.countParams = s.countParams := by
  unfold Rays.yValues
  cases hc : s.yCache with
  | some l => exact ⟨h.y l hc, h, rfl, rfl⟩
  | none =>
    refine ⟨rfl, ⟨?_, h.theta, h.count, h.angles⟩, rfl, rfl⟩
    intro l hl
    simpa using hl.symm

theorem thetaValues_spec {s : Rays (Ext K)} (h : s.Coherent) :
    s.thetaValues.1 = s.rays.map Ray.theta ∧ s.thetaValues.2.Coherent ∧ s.thetaValues.2.rays = s.rays ∧
      s.thetaValues.2.anglesParams = s.anglesParams := by
  unfold Rays.thetaValues
  cases hc : s.thetaCache with
  | some l => exact ⟨h.theta l hc, h, rfl, rfl⟩
  | none =>
    refine ⟨rfl, ⟨h.y, ?_, h.count, h.angles⟩, rfl, rfl⟩
    intro l hl
    simpa using hl.symm

/-- the value of a bound -/
def bound {F : Type} (v : Option F) (values : List F) (f : List F → Except PyErr F) : Except PyErr F :=
  match v with
  | some x => .ok x
  | none => f values

theorem resolve_y {s : Rays (Ext K)} (h : s.Coherent) (v : Option (Ext K)) (f : List (Ext K) → Except PyErr (Ext K)) :
    (resolve v yValues f s).1 = bound v (s.rays.map Ray.y) f ∧ (resolve v yValues f s).2.Coherent ∧
      (resolve v yValues f s).2.rays = s.rays := by
  unfold resolve bound
  obtain ⟨h1, h2, h3, -⟩ := yValues_spec h
  cases v with
  | some v => exact ⟨rfl, h, rfl⟩
  | none => exact ⟨by rw [← h1], h2, h3⟩

theorem resolve_theta {s : Rays (Ext K)} (h : s.Coherent) (v : Option (Ext K)) (f : List (Ext K) → Except PyErr (Ext K)) :
    (resolve v thetaValues f s).1 = bound v (s.rays.map Ray.theta) f ∧ (resolve v thetaValues f s).2.Coherent ∧
      (resolve v thetaValues f s).2.rays = s.rays := by
  unfold resolve bound
  obtain ⟨h1, h2, h3, -⟩ := thetaValues_spec h
  cases v with
  | some v => exact ⟨rfl, h, rfl⟩
  | none => exact ⟨by rw [← h1], h2, h3⟩

theorem histogramOf_eq {F : Type} [PyNum F] (values : List F) (bins : Option Int) (lo hi : Option F) :
    histogramOf values bins lo hi = match bound lo values pyMin with
      | .error x => .error x
      | .ok lo => match bound hi values pyMax with
        | .error x => .error x
        | .ok hi => RT.histogram values (bins.getD 40) lo hi := by
  unfold histogramOf bound
  cases lo <;> cases hi <;> simp only [bind, Except.bind, pure, Except.pure]
  all_goals (first | rfl | (cases pyMin values <;> first | rfl | (cases pyMax values <;> rfl)) | (cases pyMax values <;> rfl))

theorem beq_eq {a b : Ext K} (h : (a ==. b) = true) : a = b := by
  cases a <;> cases b <;> simp_all

theorem sameParams_eq {a : Option (Int × Ext K × Ext K)} {b : Int × Ext K × Ext K} (h : sameParams a b = true) : a = some b := by
  unfold sameParams at h
  cases a with
  | none => simp at h
  | some a =>
    simp only [Bool.and_eq_true, beq_iff_eq] at h
    obtain ⟨⟨h1, h2⟩, h3⟩ := h
    obtain ⟨a1, a2, a3⟩ := a
    obtain ⟨b1, b2, b3⟩ := b
    simp only at h1 h2 h3
    rw [h1, beq_eq h2, beq_eq h3]

theorem countHistogram_spec {s : Rays (Ext K)} (h : s.Coherent) (b : Option Int) (lo hi : Option (Ext K))
    (hs : (∃ h, histogramOf (s.rays.map Ray.y) b lo hi = .ok h) ∨ (s.rays = [] ∧ (lo = none ∨ hi = none))) :
    (s.rayCountHistogram b lo hi).1 = (histogramOf (s.rays.map Ray.y) b lo hi).map some ∧
      (s.rayCountHistogram b lo hi).2.Coherent ∧ (s.rayCountHistogram b lo hi).2.rays = s.rays := by
  obtain ⟨a1, a2, a3⟩ := resolve_y h lo pyMin
  obtain ⟨b1, b2, b3⟩ := resolve_y a2 hi pyMax
  rw [a3] at b1 b3
  rw [histogramOf_eq] at hs ⊢
  unfold rayCountHistogram
  simp only
  rw [a1]
  generalize (resolve lo yValues pyMin s).2 = s1 at *
  cases hlo : bound lo (s.rays.map Ray.y) pyMin with
  | error x => exact ⟨rfl, a2, a3⟩
  | ok lo' =>
    simp only
    rw [b1]
    generalize (resolve hi yValues pyMax s1).2 = s2 at *
    cases hhi : bound hi (s.rays.map Ray.y) pyMax with
    | error x => exact ⟨rfl, b2, b3⟩
    | ok hi' =>
      simp only [hlo, hhi] at hs ⊢
      have hok : ∃ h, RT.histogram (s.rays.map Ray.y) (b.getD 40) lo' hi' = .ok h := by
        rcases hs with h | ⟨h1, h2 | h2⟩
        · exact h
        · rw [h1, h2] at hlo; simp [bound, pyMin] at hlo
        · rw [h1, h2] at hhi; simp [bound, pyMax] at hhi
      obtain ⟨hist, hok⟩ := hok
      split_ifs with hp
      · obtain ⟨h1, h2, h3⟩ := b2.count _ _ _ (sameParams_eq hp)
        rw [b3] at h3
        rw [h2, h3]
        exact ⟨rfl, b2, b3⟩
      · have e : ∀ t : Rays (Ext K), ({ s2 with countParams := t.countParams } : Rays (Ext K)).yValues.1 = s.rays.map Ray.y := by
          intro t
          unfold Rays.yValues
          cases hc : s2.yCache with
          | none => simp only; rw [b3]
          | some l => simp only; rw [b2.y l hc, b3]
        have e' := e { s2 with countParams := some (b.getD 40, lo', hi') }
        simp only at e'
        rw [e', hok]
        refine ⟨rfl, ?_, ?_⟩
        · unfold Rays.yValues
          cases hc : s2.yCache with
          | none =>
            refine ⟨?_, b2.theta, ?_, b2.angles⟩
            · intro l hl; simpa using hl.symm
            · intro b' lo'' hi'' hp'
              simp only [Option.some.injEq, Prod.mk.injEq] at hp'
              obtain ⟨rfl, rfl, rfl⟩ := hp'
              exact ⟨hist, rfl, by simp only; rw [b3]; exact hok⟩
          | some l =>
            refine ⟨fun l' hl' => b2.y l' (hc.trans hl'), b2.theta, ?_, b2.angles⟩
            · intro b' lo'' hi'' hp'
              simp only [Option.some.injEq, Prod.mk.injEq] at hp'
              obtain ⟨rfl, rfl, rfl⟩ := hp'
              exact ⟨hist, rfl, by simp only; rw [b3]; exact hok⟩
        · unfold Rays.yValues
          cases hc : s2.yCache <;> exact b3

theorem anglesHistogram_spec {s : Rays (Ext K)} (h : s.Coherent) (b : Option Int) (lo hi : Option (Ext K))
    (hs : (∃ h, histogramOf (s.rays.map Ray.theta) b lo hi = .ok h) ∨ (s.rays = [] ∧ (lo = none ∨ hi = none))) :
    (s.rayAnglesHistogram b lo hi).1 = (histogramOf (s.rays.map Ray.theta) b lo hi).map some ∧
      (s.rayAnglesHistogram b lo hi).2.Coherent ∧ (s.rayAnglesHistogram b lo hi).2.rays = s.rays := by
  obtain ⟨a1, a2, a3⟩ := resolve_theta h lo pyMin
  obtain ⟨b1, b2, b3⟩ := resolve_theta a2 hi pyMax
  rw [a3] at b1 b3
  rw [histogramOf_eq] at hs ⊢
  unfold rayAnglesHistogram
  simp only
  rw [a1]
  generalize (resolve lo thetaValues pyMin s).2 = s1 at *
  cases hlo : bound lo (s.rays.map Ray.theta) pyMin with
  | error x => exact ⟨rfl, a2, a3⟩
  | ok lo' =>
    simp only
    rw [b1]
    generalize (resolve hi thetaValues pyMax s1).2 = s2 at *
    cases hhi : bound hi (s.rays.map Ray.theta) pyMax with
    | error x => exact ⟨rfl, b2, b3⟩
    | ok hi' =>
      simp only [hlo, hhi] at hs ⊢
      have hok : ∃ h, RT.histogram (s.rays.map Ray.theta) (b.getD 40) lo' hi' = .ok h := by
        rcases hs with h | ⟨h1, h2 | h2⟩
        · exact h
        · rw [h1, h2] at hlo; simp [bound, pyMin] at hlo
        · rw [h1, h2] at hhi; simp [bound, pyMax] at hhi
      obtain ⟨hist, hok⟩ := hok
      split_ifs with hp
      · obtain ⟨h1, h2, h3⟩ := b2.angles _ _ _ (sameParams_eq hp)
        rw [b3] at h3
        rw [h2, h3]
        exact ⟨rfl, b2, b3⟩
      · have e : ∀ t : Rays (Ext K), ({ s2 with anglesParams := t.anglesParams } : Rays (Ext K)).thetaValues.1 = s.rays.map Ray.theta := by
          intro t
          unfold Rays.thetaValues
          cases hc : s2.thetaCache with
          | none => simp only; rw [b3]
          | some l => simp only; rw [b2.theta l hc, b3]
        have e' := e { s2 with anglesParams := some (b.getD 40, lo', hi') }
        simp only at e'
        rw [e', hok]
        refine ⟨rfl, ?_, ?_⟩
        · unfold Rays.thetaValues
          cases hc : s2.thetaCache with
          | none =>
            refine ⟨b2.y, ?_, b2.count, ?_⟩
            · intro l hl; simpa using hl.symm
            · intro b' lo'' hi'' hp'
              simp only [Option.some.injEq, Prod.mk.injEq] at hp'
              obtain ⟨rfl, rfl, rfl⟩ := hp'
              exact ⟨hist, rfl, by simp only; rw [b3]; exact hok⟩
          | some l =>
            refine ⟨b2.y, fun l' hl' => b2.theta l' (hc.trans hl'), b2.count, ?_⟩
            · intro b' lo'' hi'' hp'
              simp only [Option.some.injEq, Prod.mk.injEq] at hp'
              obtain ⟨rfl, rfl, rfl⟩ := hp'
              exact ⟨hist, rfl, by simp only; rw [b3]; exact hok⟩
        · unfold Rays.thetaValues
          cases hc : s2.thetaCache <;> exact b3

/-- **C48**: for every sequence of `append`, `load` and queries where nothing is loaded after a query (unless something was appended since)
and no histogram is refused by numpy, all answers are those of the rays currently in the collection. Missing from the
property: `load` after a query, and queries after a refused histogram. -/
theorem C48_histories_partial (ops : List (Op (Ext K))) (l : List (Ray (Ext K))) (h : Safe true ops l) :
    runAll ops (ofList l) = idealAll ops l := by
  have key : ∀ (ops : List (Op (Ext K))) (fresh : Bool) (s : Rays (Ext K)), s.Coherent → (fresh = true → s.Bare) → Safe fresh ops s.rays →
      runAll ops s = idealAll ops s.rays := by
    intro ops
    induction ops with
    | nil => intros; rfl
    | cons op ops ih =>
      intro fresh s hc hb hs
      unfold runAll idealAll
      cases op with
      | append r =>
        unfold Safe at hs
        have hbare : (s.append r).Bare := ⟨rfl, rfl, rfl, rfl, rfl, rfl⟩
        congr 1
        exact ih true _ hbare.coherent (fun _ => hbare) hs
      | load f a =>
        unfold Safe at hs
        obtain ⟨hf, hs⟩ := hs
        have hbare : (s.load (some f) a).1.Bare := hb hf
        congr 1
        exact ih true _ hbare.coherent (fun _ => hbare) hs
      | yValues =>
        unfold Safe at hs
        obtain ⟨h1, h2, h3, -⟩ := yValues_spec hc
        congr 1
        · simp only [Op.run, Op.ideal, h1]
        · have := ih false _ h2 (by simp) (h3.symm ▸ hs)
          rw [h3] at this; exact this
      | thetaValues =>
        unfold Safe at hs
        obtain ⟨h1, h2, h3, -⟩ := thetaValues_spec hc
        congr 1
        · simp only [Op.run, Op.ideal, h1]
        · have := ih false _ h2 (by simp) (h3.symm ▸ hs)
          rw [h3] at this; exact this
      | countHistogram b lo hi =>
        unfold Safe at hs
        obtain ⟨h1, h2, h3⟩ := countHistogram_spec hc b lo hi hs.1
        congr 1
        · simp only [Op.run, Op.ideal, h1]
        · have := ih false _ h2 (by simp) (h3.symm ▸ hs.2)
          rw [h3] at this; exact this
      | anglesHistogram b lo hi =>
        unfold Safe at hs
        obtain ⟨h1, h2, h3⟩ := anglesHistogram_spec hc b lo hi hs.1
        congr 1
        · simp only [Op.run, Op.ideal, h1]
        · have := ih false _ h2 (by simp) (h3.symm ▸ hs.2)
          rw [h3] at this; exact this
  have hb : (ofList l).Bare := ⟨rfl, rfl, rfl, rfl, rfl, rfl⟩
  exact key ops true (ofList l) hb.coherent (fun _ => hb) h

/-- a sequence with a load, an append, and all queries -/
example : Safe true [.load [Ray.new (fin (1 : ℚ)) (fin 0)] true, .yValues, .countHistogram none none none, .append (Ray.new (fin 3) (fin 1)),
    .load [] true, .countHistogram (some 3) none (some (fin 5)), .anglesHistogram none none none, .thetaValues] [Ray.new (fin (0 : ℚ)) (fin 0)] := by
  refine ⟨rfl, ⟨.inl ⟨_, rfl⟩, ⟨rfl, .inl ⟨_, rfl⟩, .inl ⟨_, rfl⟩, trivial⟩⟩⟩

/-- **C48**: the length of a collection is the number of its rays, at any point of an iteration: starting one or going on does not change it, appending adds one. -/
theorem C48_length {F : Type} [PyNum F] (l : List (Ray F)) (s : Rays F) (r : Ray F) :
    (ofList l).len = l.length ∧ s.iter.len = s.len ∧ s.next.2.len = s.len ∧ (s.append r).len = s.len + 1 := by
  refine ⟨rfl, rfl, ?_, by simp [Rays.len, Rays.append, ofList]⟩
  unfold Rays.next
  split <;> rfl

/-- **C48** is violated: once the heights have been asked, loading a file does not change them, whatever the file contains. -/
theorem C48_violated_load {F : Type} [PyNum F] (s : Rays F) (file : List (Ray F)) (append : Bool) :
    ((s.yValues.2.load (some file) append).1.yValues).1 = s.yValues.1 ∧
    ((s.yValues.2.load (some file) append).1).rays = if append then s.rays ++ file else file := by
  unfold Rays.yValues Rays.load
  cases hc : s.yCache with
  | some l => simp [hc]
  | none => exact ⟨rfl, rfl⟩

/-- **C48** is violated: a histogram that numpy refuses leaves its parameters behind; asking the same thing again gives no error but
`(None, None)`, or the previous histogram. -/
theorem C48_violated_refused (s : Rays (Ext K)) {b : Int} {lo hi : K} (hb : b < 1)
    (hp : sameParams s.countParams (b, fin lo, fin hi) = false) :
    let first := s.rayCountHistogram (some b) (some (fin lo)) (some (fin hi))
    first.1 = .error .valueError ∧
      (first.2.rayCountHistogram (some b) (some (fin lo)) (some (fin hi))).1 = .ok s.countHist := by
  have hh : ∀ v : List (Ext K), RT.histogram v b (fin lo) (fin hi) = .error .valueError := by
    intro v; unfold RT.histogram; rw [if_pos hb]
  have e1 : s.rayCountHistogram (some b) (some (fin lo)) (some (fin hi)) =
      (.error .valueError, ({ s with countParams := some (b, fin lo, fin hi) } : Rays (Ext K)).yValues.2) := by
    unfold rayCountHistogram
    simp only [resolve, Option.getD_some, hp, Bool.false_eq_true, if_false, hh]
  simp only [e1, true_and]
  have hsame : ∀ t : Rays (Ext K), t.countParams = some (b, fin lo, fin hi) → (t.rayCountHistogram (some b) (some (fin lo)) (some (fin hi))).1 = .ok t.countHist := by
    intro t ht
    have hs : sameParams t.countParams (b, fin lo, fin hi) = true := by rw [ht]; simp [sameParams]
    unfold rayCountHistogram
    simp only [resolve, Option.getD_some, hs, if_true]
  rw [hsame]
  · unfold Rays.yValues
    cases s.yCache <;> rfl
  · unfold Rays.yValues
    cases s.yCache <;> rfl

end Rays

end RT
