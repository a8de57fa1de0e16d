import Verif.Lemmas.RoundedField
import Verif.Spec.RoundedField
import Verif.Props.RoundedChief
import Mathlib.Tactic.IntervalCases

/-! # C115: the field stop and the field of view computed with floats -/

set_option linter.unusedSectionVars false

namespace RT
open PyNum Ext Fl
variable {K : Type} [Field K] [LinearOrder K] [IsStrictOrderedRing K]
variable {rnd : K → K} {u : K}

theorem Clears.scale (hu : 0 ≤ u) {k : ℕ} {rs : List (RStage K)} {r m : K × K} (hm : 0 ≤ m.1 ∧ 0 ≤ m.2)
    (hmaj : ∀ s ∈ rs, 0 ≤ s.maj.a ∧ 0 ≤ s.maj.b ∧ 0 ≤ s.maj.c ∧ 0 ≤ s.maj.d) (h : Clears u k rs r m) {c : K} (hc : |c| ≤ 1) :
    Clears u k rs (c * r.1, c * r.2) (|c| * m.1, |c| * m.2) := by
  induction rs generalizing k r m with
  | nil => trivial
  | cons s rs ih =>
    obtain ⟨h1, h2, h3⟩ := h
    have he := relErr_nonneg hu k
    have key : ∀ {x y X : K}, 0 ≤ y → |x| + relErr u k * y ≤ X → |c * x| + relErr u k * (|c| * y) ≤ X := by
      intro x y X hy hX
      have h0 : 0 ≤ |x| + relErr u k * y := add_nonneg (abs_nonneg _) (mul_nonneg he hy)
      calc |c * x| + relErr u k * (|c| * y) = |c| * (|x| + relErr u k * y) := by rw [abs_mul]; ring
        _ ≤ 1 * (|x| + relErr u k * y) := mul_le_mul_of_nonneg_right hc h0
        _ ≤ X := by rw [one_mul]; exact hX
    refine ⟨fun D hD => key hm.1 (h1 D hD), fun N hN => key hm.2 (h2 N hN), ?_⟩
    obtain ⟨a1, a2, a3, a4⟩ := hmaj s (by simp)
    have := ih (r := s.exact.out r) (m := s.maj.out m) ⟨by simp only [Stage.out]; exact add_nonneg (mul_nonneg a1 hm.1) (mul_nonneg a2 hm.2),
      by simp only [Stage.out]; exact add_nonneg (mul_nonneg a3 hm.1) (mul_nonneg a4 hm.2)⟩ (fun s' hs' => hmaj s' (List.mem_cons_of_mem _ hs')) h3
    convert this using 2 <;> simp only [Stage.out] <;> ring

theorem Hits.scale (hu : 0 ≤ u) {k : ℕ} {rs : List (RStage K)} {r m : K × K} (hpos : PosOpenings rs)
    (hna : ∀ s ∈ rs, ∀ N, s.exact.na = some N → 0 ≤ N) (h : Hits u k rs r m) {c : K} (hc : 1 ≤ |c|) :
    Hits u k rs (c * r.1, c * r.2) (|c| * m.1, |c| * m.2) := by
  induction rs generalizing k r m with
  | nil => exact h.elim
  | cons s rs ih =>
    have key : ∀ {x y X : K}, 0 ≤ X → X < |x| - relErr u k * y → X < |c * x| - relErr u k * (|c| * y) := by
      intro x y X hX h1
      have h0 : 0 ≤ |x| - relErr u k * y := hX.trans h1.le
      calc X < |x| - relErr u k * y := h1
        _ ≤ |c| * (|x| - relErr u k * y) := by nlinarith
        _ = |c * x| - relErr u k * (|c| * y) := by rw [abs_mul]; ring
    rcases h with ⟨D, h1, h2⟩ | ⟨N, h1, h2⟩ | h
    · refine .inl ⟨D, h1, key ?_ h2⟩
      have := hpos s (by simp) D h1
      positivity
    · exact .inr (.inl ⟨N, h1, key (hna s (by simp) N h1) h2⟩)
    · refine .inr (.inr ?_)
      have := ih (fun s' hs' => hpos s' (List.mem_cons_of_mem _ hs')) (fun s' hs' => hna s' (List.mem_cons_of_mem _ hs')) h
      convert this using 2 <;> simp only [Stage.out] <;> ring

theorem Hits.blocked (hu : 0 ≤ u) {k : ℕ} {rs : List (RStage K)} {r m : K × K} (hm : 0 ≤ m.1 ∧ 0 ≤ m.2)
    (hmaj : ∀ s ∈ rs, 0 ≤ s.maj.a ∧ 0 ≤ s.maj.b ∧ 0 ≤ s.maj.c ∧ 0 ≤ s.maj.d) (hpos : PosOpenings rs) (h : Hits u k rs r m) :
    Blocked (rs.map RStage.exact) r := by
  induction rs generalizing k r m with
  | nil => exact h.elim
  | cons s rs ih =>
    have he := relErr_nonneg hu k
    simp only [List.map_cons, Blocked]
    rcases h with ⟨D, h1, h2⟩ | ⟨N, h1, h2⟩ | h
    · refine .inl (.inl ⟨D, h1, ?_⟩)
      have := mul_nonneg he hm.1
      have := mul_nonneg hu (half_pos (hpos s (by simp) D h1)).le
      linarith
    · refine .inl (.inr ⟨N, h1, ?_⟩)
      have := mul_nonneg he hm.2
      linarith
    · obtain ⟨a1, a2, a3, a4⟩ := hmaj s (by simp)
      exact .inr (ih ⟨by simp only [Stage.out]; exact add_nonneg (mul_nonneg a1 hm.1) (mul_nonneg a2 hm.2),
        by simp only [Stage.out]; exact add_nonneg (mul_nonneg a3 hm.1) (mul_nonneg a4 hm.2)⟩ (fun s' hs' => hmaj s' (List.mem_cons_of_mem _ hs'))
        (fun s' hs' => hpos s' (List.mem_cons_of_mem _ hs')) h)

/-- When one chief ray exists they all do, and all cross the same stop at its centre up to errors. -/
theorem chiefs_all (hr : Rounding rnd u) {label : String} {ps : List (Part K)} {p : Part K} (hp : p = Part.group label ps) {g : Group (Fl K rnd)}
    (hb : p.buildR rnd = .ok g.toElem) {S : K} (hS : 0 ≤ S) (hS1 : p.Slope S (1, 0)) (hS2 : p.Slope S (0, 1))
    (hfin : ∃ s ∈ p.rstages, s.exact.diam ≠ none) (hd : Decided u 1 p.rstages (0, 1 / 10) (0, 1 / 10))
    (hsome : ∃ o ∈ probeExits p.rstages, o.err u < o.ratio) {y0 : Fl K rnd} {ray : Ray (Fl K rnd)}
    (h : (g.chiefRay y0).run (newTrace g) = .ok (some ray)) :
    ∃ (t : List (RStage K)) (D eA eB z : K) (ang : K → K), StopAt u S p t D eA eB ∧ 0 ≤ eA ∧ 0 ≤ eB ∧ g.apertureStop.run (newTrace g) = .ok (some (num z), num D) ∧
      (∀ y, (g.chiefRay (num y)).run (newTrace g) = .ok (some (Ray.new (num y) (num (ang y))))) ∧ ang 0 = 0 ∧
      ∀ y, |y * (exactOut t (1, 0)).1 + ang y * (exactOut t (0, 1)).1| ≤
        relErr u 2 * ((|(exactOut t (1, 0)).1| + eA) * |y|) + eA * |y| + eB * |ang y| := by
  obtain ⟨z', D, h1, -, h2⟩ := stop_matrix hr hp hb hS hS1 hS2 hfin hd hsome
  unfold Group.chiefRay at h
  simp only [Prog.run_bind] at h
  cases ht : g.toStop.run (newTrace g) with
  | error x => rw [ht] at h; cases h
  | ok o =>
    rw [ht] at h
    cases o with
    | none => simp only [Prog.run_pure, Except.ok.injEq, reduceCtorEq] at h
    | some md =>
      obtain ⟨m, d⟩ := md
      obtain ⟨hm, -⟩ := toStop_ok h1 ht
      obtain ⟨t, eA, eB, hst, ⟨A, hA, hA'⟩, ⟨B, hB, hB'⟩⟩ := h2 m hm
      simp only [Prog.run_bind, Prog.run_lift, Prog.run_pure] at h
      have hB0 : B ≠ 0 := by
        rintro rfl
        rw [hB, pyDiv_num_zero hr] at h
        cases h
      have hch : ∀ y, (g.chiefRay (num y)).run (newTrace g) = .ok (some (Ray.new (num y) (num (rnd (rnd (-A * y) / B))))) := by
        intro y
        unfold Group.chiefRay
        simp only [Prog.run_bind, ht, Prog.run_lift, Prog.run_pure]
        rw [hA, hB, neg_num, num_mul, pyDiv_num hr _ _ hB0]
      refine ⟨t, D, eA, eB, z', fun y => rnd (rnd (-A * y) / B), hst, (abs_nonneg _).trans hA', (abs_nonneg _).trans hB', h1, hch, ?_, fun y => ?_⟩
      · simp [hr.zero]
      · have hc := hch y
        set A0 := (exactOut t (1, 0)).1
        set B0 := (exactOut t (0, 1)).1
        have k1 := quot_back hr hB0 (x := -A * y) (x' := rnd (-A * y)) (k := 1) le_rfl (by simpa [relErr] using hr.rel (-A * y))
        beta_reduce
        set θ := rnd (rnd (-A * y) / B)
        have k2 : |-A * y| ≤ (|A0| + eA) * |y| := by
          rw [abs_mul, abs_neg]
          have := abs_sub_abs_le_abs_sub A A0
          exact mul_le_mul_of_nonneg_right (by linarith) (abs_nonneg _)
        have k3 := mul_le_mul_of_nonneg_left k2 (relErr_nonneg hr.nonneg 2)
        have k4 : |(A0 - A) * y| ≤ eA * |y| := by
          rw [abs_mul, abs_sub_comm]; exact mul_le_mul_of_nonneg_right hA' (abs_nonneg _)
        have k5 : |(B0 - B) * θ| ≤ eB * |θ| := by
          rw [abs_mul, abs_sub_comm]; exact mul_le_mul_of_nonneg_right hB' (abs_nonneg _)
        have e : y * A0 + θ * B0 = (B * θ - -A * y) + (A0 - A) * y + (B0 - B) * θ := by ring
        rw [e]
        have t1 := abs_add_le ((B * θ - -A * y) + (A0 - A) * y) ((B0 - B) * θ)
        have t2 := abs_add_le (B * θ - -A * y) ((A0 - A) * y)
        linarith

theorem absRay_scale (c y θ : K) : absRay (c * y, c * θ) = (|c| * (absRay (y, θ)).1, |c| * (absRay (y, θ)).2) := by
  simp [absRay, abs_mul]

/-- what the search sees of the path -/
theorem field_noisy (hr : Rounding rnd u) (hu : u ≤ 1 / 1000000) {q : Part K} {g : Group (Fl K rnd)} (hb : q.buildR rnd = .ok g.toElem)
    (hna : ∀ s ∈ q.rstages, ∀ N, s.exact.na = some N → 0 ≤ N) {t : List (RStage K)} {eA eB : K} {ang : K → K} (h0 : ang 0 = 0)
    (hang : ∀ y, |y * (exactOut t (1, 0)).1 + ang y * (exactOut t (0, 1)).1| ≤
      relErr u 2 * ((|(exactOut t (1, 0)).1| + eA) * |y|) + eA * |y| + eB * |ang y|)
    {p Y1 Y2 : K} (hp : 0 < p) (he : EdgeBetween u q.rstages t eA eB Y1 Y2)
    (hz : Y2 - Y1 ≤ p / 20) (hf : u * Y2 ≤ p / 10000) (hB : 70 * p ≤ Y1) (hY : 0 < Y2) :
    Noisy rnd u p Y1 Y2 fun y => (lastV g.toElem.items (Ray.new (num y) (num (ang y)))).isBlocked := by
  obtain ⟨hs, hpos⟩ := buildR_stages hr hb
  have hY1 : 0 < Y1 := by linarith
  have slope : ∀ y, y ≠ 0 → ChiefSlope u t eA eB (ang y / y) := by
    intro y hy
    unfold ChiefSlope
    have hy' : 0 < |y| := abs_pos.2 hy
    have h1 := hang y
    have e1 : y * (exactOut t (1, 0)).1 + ang y * (exactOut t (0, 1)).1 = y * ((exactOut t (1, 0)).1 + ang y / y * (exactOut t (0, 1)).1) := by
      field_simp
    rw [e1, abs_mul] at h1
    refine le_of_mul_le_mul_left (h1.trans (le_of_eq ?_)) hy'
    rw [abs_div]
    field_simp
  have near : ∀ y, NearRay u 0 (Ray.new (num y) (num (ang y)) : Ray (Fl K rnd)) (y, ang y) (absRay (y, ang y)) 0 |(0 : K)| := fun y =>
    IsRay.near ⟨rfl, rfl, by simp [Ray.new, zero_num hr]⟩ u
  refine ⟨hr, hu, hp, fun y hy => ?_, fun y hy => ?_, hz, hf, hB⟩
  · have hc : Clears u 0 q.rstages (y, ang y) (absRay (y, ang y)) := by
      by_cases hy0 : y = 0
      · subst hy0
        have := (he.clear _ (slope 1 one_ne_zero)).scale hr.nonneg (m := absRay _) ⟨abs_nonneg _, abs_nonneg _⟩ hs.maj_nonneg (c := 0) (by simp)
        rw [← absRay_scale] at this
        simpa [h0] using this
      · have := (he.clear _ (slope y hy0)).scale hr.nonneg (m := absRay _) ⟨abs_nonneg _, abs_nonneg _⟩ hs.maj_nonneg (c := y / Y1)
          (by rw [abs_div, abs_of_pos hY1, div_le_one hY1]; exact hy)
        rw [← absRay_scale] at this
        have e1 : y / Y1 * Y1 = y := by field_simp
        have e2 : y / Y1 * (ang y / y * Y1) = ang y := by field_simp
        dsimp only at this
        rwa [e1, e2] at this
    have hset : (settle g.toElem.items (Ray.new (num y) (num (ang y)))).isBlocked = false := by
      have := entryStops_clears hr hs (near y) hc
      simp only [settle, this]
      rfl
    obtain ⟨q1, -⟩ := runTrace_clears hr hs ((near y).settle g.toElem.items) hset hc
    beta_reduce
    unfold lastV traceV
    cases hx : (runTrace g.toElem.items (settle g.toElem.items (Ray.new (num y) (num (ang y))))).getLast? with
    | none => rfl
    | some o => rw [hx] at q1; exact q1
  · have hyp : |y| ≠ 0 := by linarith
    have hy0 : y ≠ 0 := fun h => hyp (by rw [h, abs_zero])
    have hc : Hits u 0 q.rstages (y, ang y) (absRay (y, ang y)) := by
      have := (he.hit _ (slope y hy0)).scale hr.nonneg hpos hna (c := y / Y2) (by rw [abs_div, abs_of_pos hY, le_div_iff₀ hY, one_mul]; exact hy.le)
      rw [← absRay_scale] at this
      have e1 : y / Y2 * Y2 = y := by field_simp
      have e2 : y / Y2 * (ang y / y * Y2) = ang y := by field_simp
      dsimp only at this
      rwa [e1, e2] at this
    have q1 := runTrace_hits hr hs hpos ((near y).settle g.toElem.items) hc
    beta_reduce
    unfold lastV traceV
    cases hx : (runTrace g.toElem.items (settle g.toElem.items (Ray.new (num y) (num (ang y))))).getLast? with
    | none =>
      exfalso
      rw [List.getLast?_eq_none_iff] at hx
      have hs' := hs
      unfold ItemRStages at hs'
      cases hi : g.toElem.items with
      | nil =>
        rw [hi] at hs'
        cases hq : q.rstages with
        | nil => rw [hq] at hc; exact hc
        | cons _ _ => rw [hq] at hs'; cases hs'
      | cons i is => rw [hi] at hx; cases i <;> simp [runTrace] at hx
    | some o => rw [hx] at q1; exact q1

theorem firstBlocked_find {F : Type} [PyNum F] (l : List (Ray F)) : Group.firstBlocked l =
    match l.find? (·.isBlocked) with
    | none => (none, inf)
    | some r => (some r.z, r.apertureDiameter) := by
  induction l with
  | nil => rfl
  | cons r l ih =>
    unfold Group.firstBlocked
    by_cases h : r.isBlocked
    · simp [h]
    · simp [h, ih]

/-- the chief ray of height `y` comes out of the path -/
def ChiefPasses {F : Type} [PyNum F] (g : Group F) (y : F) : Prop :=
  ∃ r o, (g.chiefRay y).run (newTrace g) = .ok (some r) ∧ (newTrace g r.y r.theta).getLast? = some o ∧ o.isBlocked = false

/-- the chief ray of height `y` is blocked, first at the position `z` by an opening of diameter `d` -/
def ChiefStopped {F : Type} [PyNum F] (g : Group F) (y z d : F) : Prop :=
  ∃ r s, (g.chiefRay y).run (newTrace g) = .ok (some r) ∧ (newTrace g r.y r.theta).find? (·.isBlocked) = some s ∧ z = s.z ∧ d = s.apertureDiameter

/-- **C115**. In floats, the searches of `fieldStop()` and `halfFieldOfView()` end when the errors are small before the precision `p`. The half field of
view is less than `3 p` below the heights between which the exact edge of the field is, and its chief ray comes out; or it is infinite and the field is at
least 4/7 or so of the largest height. The field stop is the first to block a chief ray, that starts less than `3 p` above the edge. The only exceptions
are those of the matrix up to the field stop. -/
theorem C115_field [Archimedean K] (hr : Rounding rnd u) (hu : u ≤ 1 / 1000000) {label : String} {ps : List (Part K)} {q : Part K}
    (hq : q = Part.group label ps) {g : Group (Fl K rnd)} (hb : q.buildR rnd = .ok g.toElem) {S : K} (hS : 0 ≤ S) (hS1 : q.Slope S (1, 0))
    (hS2 : q.Slope S (0, 1)) (hna : ∀ s ∈ q.rstages, ∀ N, s.exact.na = some N → 0 ≤ N)
    (hfin : ∃ s ∈ q.rstages, s.exact.diam ≠ none) (hd : Decided u 1 q.rstages (0, 1 / 10) (0, 1 / 10))
    (hsome : ∃ o ∈ probeExits q.rstages, o.err u < o.ratio) (hz0 : ∀ D, g.apertureStop.run (newTrace g) ≠ .ok (some 0, D))
    {y0 : Fl K rnd} {ray : Ray (Fl K rnd)} (hchief : (g.chiefRay y0).run (newTrace g) = .ok (some ray)) {p H : K} (hp : 0 < p) :
    ∃ t D eA eB, StopAt u S q t D eA eB ∧ 0 ≤ eA ∧ 0 ≤ eB ∧
      ∀ Y1 Y2, EdgeBetween u q.rstages t eA eB Y1 Y2 → Y1 ≤ Y2 → Y2 - Y1 ≤ p / 20 → u * Y2 ≤ p / 10000 → 70 * p ≤ Y1 →
      ∃ N, ∀ fuel, N ≤ fuel →
        (((g.fieldStop (num p) (num H) fuel).run (newTrace g) = .ok (none, inf) ∧ H < 17 / 10 * Y2 + 200 * p) ∨
          ∃ v z d, (g.fieldStop (num p) (num H) fuel).run (newTrace g) = .ok (some z, d) ∧ Y1 < v ∧ v ≤ Y2 + 3 * p ∧ ChiefStopped g (num v) z d) ∧
        (((g.halfFieldOfView (num p) (num H) fuel).run (newTrace g) = .ok inf ∧ H < 17 / 10 * Y2 + 200 * p) ∨
          (∃ h, (g.halfFieldOfView (num p) (num H) fuel).run (newTrace g) = .ok (num h) ∧ Y1 - 3 * p < h ∧ h ≤ Y2 ∧ ChiefPasses g (num h)) ∨
          ∃ z d x, (g.fieldStop (num p) (num H) fuel).run (newTrace g) = .ok (some z, d) ∧ g.transferMatrix z = .error x ∧
            (g.halfFieldOfView (num p) (num H) fuel).run (newTrace g) = .error x) := by
  obtain ⟨t, D, eA, eB, z, ang, h1, hA, hB', h2, h3, h4, h5⟩ := chiefs_all hr hq hb hS hS1 hS2 hfin hd hsome hchief
  refine ⟨t, D, eA, eB, h1, hA, hB', fun Y1 Y2 he hY12 hz hf hB => ?_⟩
  have hY2 : 0 < Y2 := by linarith
  have hn := field_noisy hr hu hb hna h4 h5 hp he hz hf hB hY2
  have hz' : z ≠ 0 := by
    rintro rfl
    rw [← zero_num hr] at h2
    exact hz0 _ h2
  have hfa : hasFiniteApertureList g.elems = true := by
    by_contra hf
    unfold Group.apertureStop at h2
    rw [if_neg hf] at h2
    simp [Prog.run_pure] at h2
  have hne : leaves g.toElem.items ≠ [] := by
    intro hl
    have hs := (buildR_stages hr hb).1
    obtain ⟨s, hs1, -⟩ := hfin
    unfold ItemRStages at hs
    rw [hl] at hs
    cases hx : q.rstages with
    | nil => rw [hx] at hs1; cases hs1
    | cons _ _ => rw [hx] at hs; cases hs
  set blk : K → Bool := fun y => (lastV g.toElem.items (Ray.new (num y) (num (ang y)))).isBlocked with hblk
  have getLast : ∀ v, ∃ o, (newTrace g (num v) (num (ang v))).getLast? = some o ∧ o.isBlocked = blk v := by
    intro v
    have hv : (lastV g.toElem.items (Ray.new (num v) (num (ang v)))).isBlocked = blk v := rfl
    unfold lastV at hv
    unfold newTrace
    cases hx : (traceV g.toElem.items (Ray.new (num v) (num (ang v)))).getLast? with
    | none =>
      exfalso
      rw [List.getLast?_eq_none_iff] at hx
      unfold traceV at hx
      generalize settle g.toElem.items (Ray.new (num v) (num (ang v))) = r at hx
      cases hi : g.toElem.items with
      | nil => rw [hi] at hne; exact hne rfl
      | cons i is => rw [hi] at hx; cases i <;> simp [runTrace] at hx
    | some o => rw [hx] at hv; exact ⟨o, rfl, hv⟩
  have eqS := fun fuel => fieldStop_eqR hr h3 hne (fun _ => rfl) h2 hz' hfa p H fuel (blk := blk)
  have eqV := fun fuel => halfFieldOfView_eqR hr h3 hne (fun _ => rfl) p H fuel (blk := blk)
  obtain ⟨o, ho, N, hN⟩ := searchR_ends (H := H) (sw := true) hn
  obtain ⟨o', ho', N', hN'⟩ := searchR_ends (H := H) (sw := false) hn
  refine ⟨max N N', fun fuel hfuel => ?_⟩
  have eS := eqS fuel
  have eV := eqV fuel
  rw [hN fuel (le_trans (le_max_left _ _) hfuel)] at eS
  rw [hN' fuel (le_trans (le_max_right _ _) hfuel), eS] at eV
  cases o with
  | timeout => exact ho.elim
  | beyond => exact ⟨.inl ⟨eS, ho⟩, .inl ⟨eV, ho⟩⟩
  | found v =>
    obtain ⟨ho1, ho2⟩ := ho
    simp only [if_true] at ho2
    obtain ⟨w, hw1, hw2⟩ := getLast v
    have hw2 : w.isBlocked = true := hw2.trans ho1
    dsimp only at eS eV
    rw [firstBlocked_find] at eS eV
    cases hfd : (newTrace g (num v) (num (ang v))).find? (·.isBlocked) with
    | none =>
      rw [List.find?_eq_none] at hfd
      exact absurd hw2 (hfd w (List.mem_of_getLast? hw1))
    | some s =>
      rw [hfd] at eS eV
      dsimp only at eS eV
      refine ⟨.inr ⟨v, s.z, s.apertureDiameter, eS, ho2.1, ho2.2, _, s, h3 v, hfd, rfl, rfl⟩, ?_⟩
      cases ht : g.transferMatrix s.z with
      | error x =>
        rw [ht] at eV
        exact .inr (.inr ⟨s.z, _, x, eS, ht, eV⟩)
      | ok m =>
        rw [ht] at eV
        cases o' with
        | timeout => exact ho'.elim
        | beyond => exact .inl ⟨eV, ho'⟩
        | found h =>
          obtain ⟨ho3, ho4⟩ := ho'
          simp only [Bool.false_eq_true, if_false] at ho4
          obtain ⟨w', hw3, hw4⟩ := getLast h
          exact .inr (.inl ⟨h, eV, ho4.1, ho4.2, _, w', h3 h, hw3, hw4.trans ho3⟩)

/-- The exact edge of the field is between the two heights: exact chief rays pass up to the first one, and are blocked from the second one. -/
theorem C115_exact (hr : Rounding rnd u) {q : Part K} {e : Elem (Fl K rnd)} (hb : q.buildR rnd = .ok e)
    (hna : ∀ s ∈ q.rstages, ∀ N, s.exact.na = some N → 0 ≤ N) {t : List (RStage K)} {eA eB Y1 Y2 : K} (hA : 0 ≤ eA) (hB : 0 ≤ eB)
    (he : EdgeBetween u q.rstages t eA eB Y1 Y2) (h1 : 0 < Y1) (h2 : 0 < Y2) {s : K} (hs : (exactOut t (1, s)).1 = 0) (y : K) :
    (|y| ≤ Y1 → ¬ Blocked q.stages (y, s * y)) ∧ (Y2 ≤ |y| → Blocked q.stages (y, s * y)) := by
  obtain ⟨hst, hpos⟩ := buildR_stages hr hb
  have hsl : ChiefSlope u t eA eB s := by
    unfold ChiefSlope
    rw [(exactOut_linear t 1 s).1, one_mul] at hs
    rw [hs, abs_zero]
    have := relErr_nonneg hr.nonneg 2
    positivity
  rw [← rstages_exact]
  constructor
  · intro hy
    have := (he.clear s hsl).scale hr.nonneg (m := absRay _) ⟨abs_nonneg _, abs_nonneg _⟩ hst.maj_nonneg (c := y / Y1)
      (by rw [abs_div, abs_of_pos h1, div_le_one h1]; exact hy)
    rw [← absRay_scale] at this
    have e1 : y / Y1 * Y1 = y := by field_simp
    have e2 : y / Y1 * (s * Y1) = s * y := by field_simp
    dsimp only at this
    rw [e1, e2] at this
    exact this.not_blocked hr.nonneg ⟨abs_nonneg _, abs_nonneg _⟩ hst.maj_nonneg hpos
  · intro hy
    have := (he.hit s hsl).scale hr.nonneg hpos hna (c := y / Y2) (by rw [abs_div, abs_of_pos h2, le_div_iff₀ h2, one_mul]; exact hy)
    rw [← absRay_scale] at this
    have e1 : y / Y2 * Y2 = y := by field_simp
    have e2 : y / Y2 * (s * Y2) = s * y := by field_simp
    dsimp only at this
    rw [e1, e2] at this
    exact this.blocked hr.nonneg ⟨abs_nonneg _, abs_nonneg _⟩ hst.maj_nonneg hpos

/-! ## Examples -/

theorem relErr_tiny {v : ℚ} (h0 : 0 ≤ v) (h1 : v ≤ 1 / 10 ^ 15) {k : ℕ} (hk : k ≤ 60) : 0 ≤ relErr v k ∧ relErr v k ≤ 1 / 10 ^ 13 := by
  refine ⟨relErr_nonneg h0 k, (relErr_mono h0 hk).trans ?_⟩
  have : (1 + v) ^ 60 ≤ (1 + 1 / 10 ^ 15) ^ 60 := by gcongr
  have : (1 + 1 / 10 ^ 15 : ℚ) ^ 60 ≤ 1 + 1 / 10 ^ 13 := by norm_num
  unfold relErr
  linarith

/-- the stages of the path of the examples, up to its stop -/
theorem twoStops_stop {v D eA eB : ℚ} (h0 : 0 ≤ v) (h1 : v ≤ 1 / 10 ^ 15) {t : List (RStage ℚ)} (h : StopAt v 1 (twoStops 10 4 10 20) t D eA eB) :
    t = (twoStops 10 4 10 20).rstages.take 2 ∧ eA ≤ 1 / 10 ^ 10 ∧ eB ≤ 1 / 10 ^ 10 := by
  obtain ⟨o, ho, hmax, hD, -, -, ⟨pre, s, ht, hs⟩, hpre, w, c, hc, -, hA, hB⟩ := h
  have r6 := relErr_tiny h0 h1 (k := 6) (by norm_num)
  have r10 := relErr_tiny h0 h1 (k := 10) (by norm_num)
  have r5 := relErr_tiny h0 h1 (k := 5) (by norm_num)
  have e : rexits (twoStops 10 4 10 20).rstages 1 0 0 (0, 1 / 10) (0, 1 / 10) = _ := twoStops_exits
  rw [e] at ho hmax
  have hD4 : o = ⟨5, 10, 10, 1, 1, some 4⟩ := by
    simp only [List.mem_cons, List.not_mem_nil, or_false] at ho
    rcases ho with rfl | rfl | rfl | rfl
    · cases hD
    · rfl
    · cases hD
    · exfalso
      have := hmax ⟨5, 10, 10, 1, 1, some 4⟩ (by simp)
      simp only [RExit.ratio, RExit.err] at this
      norm_num at this
      linarith [r6.1, r6.2, r10.1, r10.2]
  subst hD4
  cases hD
  have hstop : stopDelta v (twoStops 10 4 10 20) ⟨5, 10, 10, 1, 1, some 4⟩ ≤ 1 / 10 ^ 11 := by
    have rc := relErr_tiny h0 h1 (k := (twoStops 10 4 10 20).cutOps) (by decide +kernel)
    have hl : (twoStops 10 4 10 20).rmat.maj.len = 20 := by decide +kernel
    unfold stopDelta
    rw [hl]
    generalize relErr v (twoStops 10 4 10 20).cutOps = x at *
    dsimp only
    generalize relErr v 5 = y at *
    norm_num at *
    nlinarith
  have hbound : c.ops ≤ 60 ∧ 0 ≤ c.maj.a ∧ c.maj.a ≤ 1 ∧ 0 ≤ c.maj.b ∧ c.maj.b ≤ 20 := by
    rcases hc with hc | ⟨-, rfl⟩
    · simp only [twoStops, Part.CutAt, Part.CutList, false_and, exists_false, false_or] at hc
      rcases hc with ⟨-, rfl⟩ | ⟨c, ⟨k1, k2, rfl⟩, rfl⟩ | ⟨v1, -, ⟨-, rfl⟩ | ⟨v2, -, ⟨-, rfl⟩ | ⟨c, ⟨k1, k2, rfl⟩, rfl⟩ | ⟨v3, -, ⟨-, rfl⟩ | ⟨v4, -, -, rfl⟩⟩⟩⟩
      · decide +kernel
      · simp [RStage.andThen, Stage.andThen, RStage.one, Stage.withOps, Stage.abs, Sys.space, Sys.stage, abs_of_nonneg k1]
        constructor <;> linarith
      · decide +kernel
      · decide +kernel
      · simp [Part.rmat, Part.rstages, RStage.andThen, Stage.andThen, RStage.one, Stage.withOps, Stage.abs, Sys.space, Sys.one, Sys.stage, abs_of_nonneg k1]
        constructor <;> linarith
      · decide +kernel
      · decide +kernel
    · decide +kernel
  refine ⟨?_, ?_, ?_⟩
  · rw [List.prefix_iff_eq_take] at hpre
    have hl : t.length ≤ 4 := by
      have := congrArg List.length hpre
      rw [List.length_take] at this
      have h4 : (twoStops 10 4 10 20).rstages.length = 4 := rfl
      omega
    have hlast : t.getLast?.bind (fun s => s.exact.diam) = some 4 := by rw [ht]; simp [hs]
    generalize t.length = n at hpre hl
    subst hpre
    interval_cases n
    · exact absurd hlast (by decide +kernel)
    · exact absurd hlast (by decide +kernel)
    · rfl
    · exact absurd hlast (by decide +kernel)
    · exact absurd hlast (by decide +kernel)
  · have := relErr_tiny h0 h1 hbound.1
    have := mul_le_mul this.2 hbound.2.2.1 hbound.2.1 (by norm_num)
    rw [hA]
    norm_num at *
    linarith
  · have := relErr_tiny h0 h1 hbound.1
    have := mul_le_mul this.2 hbound.2.2.2.2 hbound.2.2.2.1 (by norm_num)
    rw [hB]
    norm_num at *
    linarith

theorem twoStops_slope {v eA eB s : ℚ} (h0 : 0 ≤ v) (h1 : v ≤ 1 / 10 ^ 15) (hA0 : 0 ≤ eA) (hA : eA ≤ 1 / 10 ^ 10) (hB : eB ≤ 1 / 10 ^ 10)
    (h : ChiefSlope v ((twoStops 10 4 10 20).rstages.take 2) eA eB s) : |10 * s + 1| ≤ 12 / 10 ^ 11 := by
  unfold ChiefSlope at h
  have e1 : (exactOut ((twoStops 10 4 10 20).rstages.take 2) (1, 0)).1 = 1 := by decide +kernel
  have e2 : (exactOut ((twoStops 10 4 10 20).rstages.take 2) (0, 1)).1 = 10 := by decide +kernel
  rw [e1, e2, abs_one] at h
  have r2 := relErr_tiny h0 h1 (k := 2) (by norm_num)
  have hs := abs_nonneg s
  have k1 : eB * |s| ≤ 1 / 10 ^ 10 * |s| := mul_le_mul_of_nonneg_right hB hs
  have k2 : relErr v 2 * (1 + eA) ≤ 1 / 10 ^ 13 * (1 + 1 / 10 ^ 10) := mul_le_mul r2.2 (by linarith) (by linarith) (by norm_num)
  have k3 : |1 + s * 10| = |10 * s + 1| := by congr 1; ring
  rw [k3] at h
  have k4 : 10 * |s| ≤ |10 * s + 1| + 1 := by
    have := abs_sub (10 * s + 1) 1
    rw [abs_one, add_sub_cancel_right, abs_mul, abs_of_pos (by norm_num : (0 : ℚ) < 10)] at this
    exact this
  norm_num at *
  linarith

theorem twoStops_clears {v y θ : ℚ} : Clears v 0 (twoStops 10 4 10 20).rstages (y, θ) (absRay (y, θ)) ↔
    |y + 10 * θ| + relErr v 2 * (|y| + 10 * |θ|) ≤ (1 - v) * 2 ∧ |y + 20 * θ| + relErr v 6 * (|y| + 20 * |θ|) ≤ (1 - v) * 10 := by
  simp only [twoStops, Part.rstages, Part.rstagesList, List.cons_append, List.nil_append, Clears, Stage.withOps, Stage.abs, Stage.out,
    Sys.stage, Sys.space, Sys.one, absRay, Option.some.injEq, reduceCtorEq, false_implies, implies_true, true_and, forall_eq', and_true, abs_zero, abs_one]
  have e1 : |(10 : ℚ)| = 10 := by norm_num
  rw [e1]
  refine and_congr (iff_of_eq ?_) (iff_of_eq ?_)
  · congr 1 <;> ring_nf
  · congr 1 <;> ring_nf

theorem twoStops_hits {v y θ : ℚ} (h : (1 + v) * 10 < |y + 20 * θ| - relErr v 6 * (|y| + 20 * |θ|)) :
    Hits v 0 (twoStops 10 4 10 20).rstages (y, θ) (absRay (y, θ)) := by
  simp only [twoStops, Part.rstages, Part.rstagesList, List.cons_append, List.nil_append, Hits, Stage.withOps, Stage.abs, Stage.out,
    Sys.stage, Sys.space, Sys.one, absRay, Option.some.injEq, reduceCtorEq, false_and, exists_false, false_or, exists_eq_left', or_false, abs_zero, abs_one]
  right
  have e1 : |(10 : ℚ)| = 10 := by norm_num
  rw [e1]
  have e2 : (1 + v) * (20 / 2) = (1 + v) * 10 := by ring
  have e3 : 1 * (1 * (1 * y + 10 * θ) + 0 * (0 * y + 1 * θ)) + 10 * (0 * (1 * y + 10 * θ) + 1 * (0 * y + 1 * θ)) = y + 20 * θ := by ring
  have e4 : 1 * (1 * (1 * |y| + 10 * |θ|) + 0 * (0 * |y| + 1 * |θ|)) + 10 * (0 * (1 * |y| + 10 * |θ|) + 1 * (0 * |y| + 1 * |θ|)) = |y| + 20 * |θ| := by ring
  rw [e2, e3, e4]
  exact h

/-- The edge of the field of the path of the examples is at 10. -/
theorem twoStops_edge {v D eA eB : ℚ} (h0 : 0 ≤ v) (h1 : v ≤ 1 / 10 ^ 15) {t : List (RStage ℚ)} (hA0 : 0 ≤ eA)
    (h : StopAt v 1 (twoStops 10 4 10 20) t D eA eB) :
    EdgeBetween v (twoStops 10 4 10 20).rstages t eA eB (10 - 1 / 10 ^ 8) (10 + 1 / 10 ^ 8) := by
  obtain ⟨rfl, hA, hB⟩ := twoStops_stop h0 h1 h
  have r2 := relErr_tiny h0 h1 (k := 2) (by norm_num)
  have r6 := relErr_tiny h0 h1 (k := 6) (by norm_num)
  have key : ∀ {s Y : ℚ}, |10 * s + 1| ≤ 12 / 10 ^ 11 → 9 ≤ Y → Y ≤ 11 →
      |Y + 10 * (s * Y)| ≤ 1 / 10 ^ 7 ∧ |Y + 20 * (s * Y)| ≤ Y + 1 / 10 ^ 8 / 3 ∧ Y - 1 / 10 ^ 8 / 3 ≤ |Y + 20 * (s * Y)| ∧ |s * Y| ≤ 2 ∧ |Y| ≤ 11 := by
    intro s Y hs hY1 hY2
    obtain ⟨s1, s2⟩ := abs_le.1 hs
    have a1 : (-(12 / 10 ^ 11)) * Y ≤ (10 * s + 1) * Y := mul_le_mul_of_nonneg_right s1 (by linarith)
    have a2 : (10 * s + 1) * Y ≤ 12 / 10 ^ 11 * Y := mul_le_mul_of_nonneg_right s2 (by linarith)
    refine ⟨abs_le.2 ⟨?_, ?_⟩, abs_le.2 ⟨?_, ?_⟩, ?_, abs_le.2 ⟨?_, ?_⟩, abs_le.2 ⟨?_, ?_⟩⟩
    all_goals norm_num at *
    all_goals try linarith
    rw [abs_of_neg (by linarith)]
    linarith
  constructor
  · intro s hs
    obtain ⟨k1, k2, -, k4, k5⟩ := key (Y := 10 - 1 / 10 ^ 8) (twoStops_slope h0 h1 hA0 hA hB hs) (by norm_num) (by norm_num)
    rw [twoStops_clears]
    have m2 := mul_le_mul r2.2 (add_le_add k5 (mul_le_mul_of_nonneg_left k4 (by norm_num : (0 : ℚ) ≤ 10))) (by positivity) (by norm_num)
    have m6 := mul_le_mul r6.2 (add_le_add k5 (mul_le_mul_of_nonneg_left k4 (by norm_num : (0 : ℚ) ≤ 20))) (by positivity) (by norm_num)
    constructor
    · norm_num at *
      linarith
    · norm_num at *
      linarith
  · intro s hs
    obtain ⟨-, -, k3, k4, k5⟩ := key (Y := 10 + 1 / 10 ^ 8) (twoStops_slope h0 h1 hA0 hA hB hs) (by norm_num) (by norm_num)
    apply twoStops_hits
    have m6 := mul_le_mul r6.2 (add_le_add k5 (mul_le_mul_of_nonneg_left k4 (by norm_num : (0 : ℚ) ≤ 20))) (by positivity) (by norm_num)
    norm_num at *
    linarith

/-- the status of the ray of height `y` and angle `ang y` at the end of a path -/
def blockedAt (q : Part ℚ) (ang : ℚ → ℚ) (y : ℚ) : Bool :=
  match q.buildR double with
  | .ok e => (lastV e.items (Ray.new (num y) (num (ang y)) : Ray Double)).isBlocked
  | .error _ => true

/-- the angle of a chief ray to the centre of a stop at 10 -/
def angle10 (y : ℚ) : ℚ := double (double (-1 * y) / 10)

/-- 229 turns of the search on two irises: back and forth between 1000 and the next float -/
theorem twoStops_turns : (turns double (blockedAt (twoStops 10 4 10 2000) angle10) (double (1 / 10 ^ 14)) 10000 true 229 0
    (double (double (1 / 10 ^ 14) * double 100)) false).any (fun s => decide (Hops 1000 (1 / 2 ^ 43) s.1 s.2.1 s.2.2)) = true := by
  decide +kernel

/-- **C115**. `fieldOfView()` is twice `halfFieldOfView()`, up to one rounding error, infinite when it is, and raises when it does. -/
theorem C115_whole (hr : Rounding rnd u) (g : Group (Fl K rnd)) (p H : Fl K rnd) (fuel : Nat) :
    (∀ h, 0 ≤ h → (g.halfFieldOfView p H fuel).run (newTrace g) = .ok (num h) →
      ∃ w, (g.fieldOfView p H fuel).run (newTrace g) = .ok (num w) ∧ |w - 2 * h| ≤ u * (2 * h)) ∧
    ((g.halfFieldOfView p H fuel).run (newTrace g) = .ok inf → (g.fieldOfView p H fuel).run (newTrace g) = .ok inf) ∧
    ∀ x, (g.halfFieldOfView p H fuel).run (newTrace g) = .error x → (g.fieldOfView p H fuel).run (newTrace g) = .error x := by
  refine ⟨fun h h0 e => ⟨rnd (2 * h), ?_, ?_⟩, fun e => ?_, fun x e => ?_⟩
  · unfold Group.fieldOfView
    rw [Prog.run_bind, e]
    change Except.ok ((2 : Fl K rnd) * num h) = _
    rw [two_num hr, num_mul]
  · have := hr.rel (2 * h)
    rwa [abs_of_nonneg (by positivity : 0 ≤ 2 * h)] at this
  · unfold Group.fieldOfView
    rw [Prog.run_bind, e]
    change Except.ok ((2 : Fl K rnd) * inf) = _
    rw [two_num hr]
    change Except.ok (⟨rndE rnd (Ext.mul (fin 2) pinf)⟩ : Fl K rnd) = .ok ⟨pinf⟩
    simp [Ext.mul, rndE, infOf]
  · unfold Group.fieldOfView
    rw [Prog.run_bind, e]

/-- what a program gives for a path in floats -/
def withFloats {α : Type} (q : Part ℚ) (f : Group Double → α) : Except PyErr α :=
  match q.buildR double with
  | .ok (.group m c es) => .ok (f ⟨m, c, es⟩)
  | .ok (.leaf _) => .error .typeError
  | .error x => .error x

theorem withFloats_ok {α : Type} {q : Part ℚ} {f : Group Double → α} {x : α} (h : withFloats q f = .ok x) :
    ∃ g : Group Double, q.buildR double = .ok g.toElem ∧ f g = x := by
  unfold withFloats at h
  split at h
  · next m c es he => exact ⟨⟨m, c, es⟩, he, Except.ok.inj h⟩
  · cases h
  · cases h

/-- **C115** without the hypotheses on the precision is violated: with irises of diameters 4 and 2000, 10 apart, and a precision of 10⁻¹⁴, less than a
quarter of the distance between 1000 and the next float, `fieldStop()`, `halfFieldOfView()` and `fieldOfView()` do not return. -/
theorem C115_precision_violated : ∃ g : Group Double, (twoStops 10 4 10 2000).buildR double = .ok g.toElem ∧
    ∀ fuel, (g.fieldStop (lit (1 / 10 ^ 14)) 10000 fuel).run (newTrace g) = .error .nonTermination ∧
      (g.halfFieldOfView (lit (1 / 10 ^ 14)) 10000 fuel).run (newTrace g) = .error .nonTermination ∧
      (g.fieldOfView (lit (1 / 10 ^ 14)) 10000 fuel).run (newTrace g) = .error .nonTermination := by
  have hr := double_rounding
  have hcomp : withFloats (twoStops 10 4 10 2000) (fun g => ((match g.toStop.run (newTrace g) with
      | .ok (some (m, _)) => decide (m.A = num 1 ∧ m.B = num 10)
      | _ => false) && (match g.apertureStop.run (newTrace g) with
      | .ok (some z, _) => decide (z = num 10)
      | _ => false) && hasFiniteApertureList g.elems && !(leaves g.toElem.items).isEmpty)) = .ok true := by
    decide +kernel
  obtain ⟨g, hg, hc⟩ := withFloats_ok hcomp
  simp only [Bool.and_eq_true, Bool.not_eq_true'] at hc
  obtain ⟨⟨⟨c1, c2⟩, c3⟩, c4⟩ := hc
  refine ⟨g, hg, ?_⟩
  have hne : leaves g.toElem.items ≠ [] := by intro h; rw [h] at c4; cases c4
  have hch : ∀ y : ℚ, (g.chiefRay (num y)).run (newTrace g) = .ok (some (Ray.new (num y) (num (angle10 y)))) := by
    intro y
    unfold Group.chiefRay
    rw [Prog.run_bind]
    split at c1
    · next m d hm =>
      rw [hm]
      obtain ⟨hA, hB⟩ := of_decide_eq_true c1
      simp only [Prog.run_bind, Prog.run_lift, Prog.run_pure]
      rw [hA, hB, neg_num, num_mul, pyDiv_num hr _ _ (by norm_num)]
      rfl
    · cases c1
  have hs : ∃ D, g.apertureStop.run (newTrace g) = .ok (some (num 10), D) := by
    split at c2
    · next z D hz => exact ⟨D, by rw [hz, of_decide_eq_true c2]⟩
    · cases c2
  obtain ⟨D, hs⟩ := hs
  have hblk : ∀ y : ℚ, (lastV g.toElem.items (Ray.new (num y) (num (angle10 y)))).isBlocked = blockedAt (twoStops 10 4 10 2000) angle10 y := by
    intro y
    unfold blockedAt
    rw [hg]
  have d32 : double (3 / 2) = 3 / 2 := by decide +kernel
  have hnb : Neighbours double (blockedAt (twoStops 10 4 10 2000) angle10) (double (1 / 10 ^ 14)) 10000 1000 (1 / 2 ^ 43) := by
    refine ⟨by decide +kernel, by decide +kernel, fun x h1 h2 => ?_, fun x h1 h2 => ?_, fun x h1 h2 => ?_, double_neg, by decide +kernel, by norm_num,
      by norm_num [abs_of_pos], by norm_num [abs_of_pos]⟩
    · have := double_neighbours (n := 1000 * 2 ^ 43) (by norm_num) (by norm_num) (x := x) (by push_cast; norm_num at *; linarith) (by push_cast; norm_num at *; linarith)
      push_cast at this
      norm_num at *
      exact this
    · have e1 : double (1 / 2 ^ 43 / 4) = 1 / 2 ^ 43 / 4 := by decide +kernel
      have e2 : double (3 / 8 * (1 / 2 ^ 43)) = 3 / 8 * (1 / 2 ^ 43) := by decide +kernel
      exact ⟨by rw [← e1]; exact double_mono (by linarith), by rw [← e2]; exact double_mono (by linarith)⟩
    · have e1 : double (3 / 8 * (1 / 2 ^ 43)) = 3 / 8 * (1 / 2 ^ 43) := by decide +kernel
      have e2 : double (3 / 4 * (1 / 2 ^ 43)) = 3 / 4 * (1 / 2 ^ 43) := by decide +kernel
      rw [d32]
      exact ⟨by rw [← e1]; exact double_mono (by linarith), by rw [← e2]; exact double_mono (by linarith)⟩
  have hnever : NeverR double (blockedAt (twoStops 10 4 10 2000) angle10) (double (1 / 10 ^ 14)) 10000 true 0 (double (double (1 / 10 ^ 14) * double 100)) false := by
    have ht := twoStops_turns
    rw [Option.any_eq_true_iff_get] at ht
    obtain ⟨h1, h2⟩ := ht
    obtain ⟨⟨y, d, w⟩, hx⟩ := Option.isSome_iff_exists.1 h1
    simp only [hx, Option.get_some] at h2
    exact NeverR.turns hx (Hops.never hnb (of_decide_eq_true h2))
  have hp : (lit (1 / 10 ^ 14) : Double) = num (double (1 / 10 ^ 14)) := by rw [lit_num]; norm_num
  have hH : (10000 : Double) = num 10000 := by decide +kernel
  intro fuel
  rw [hp, hH]
  have eS := fieldStop_eqR hr hch hne hblk hs (by norm_num) c3 (double (1 / 10 ^ 14)) 10000 fuel
  rw [hnever fuel 0] at eS
  have eV : (g.halfFieldOfView (num (double (1 / 10 ^ 14))) (num 10000) fuel).run (newTrace g) = .error .nonTermination := by
    rw [halfFieldOfView_eqR hr hch hne hblk, eS]
  refine ⟨eS, eV, ?_⟩
  unfold Group.fieldOfView
  rw [Prog.run_bind, eV]

/-- field stop and half field of view of a path in floats -/
def fieldOf (q : Part ℚ) (p H : Double) (fuel : Nat) : Except PyErr (Except PyErr ((Option Double × Double) × Double)) :=
  withFloats q fun g => do
    let s ← (g.fieldStop p H fuel).run (newTrace g)
    let h ← (g.halfFieldOfView p H fuel).run (newTrace g)
    pure (s, h)

/-- the hypotheses of `C115_field` hold for a path with two irises, for all roundings with an error less than 10⁻¹⁵, and the program answers in floats, with the
precision and largest height of a new `ImagingPath`: the field stop is at 20, and the field ends at 9.99999956 -/
theorem C115_example {v : ℚ} (h0 : 0 ≤ v) (h1 : v ≤ 1 / 10 ^ 15) : (twoStops 10 4 10 20).Slope 1 (1, 0) ∧ (twoStops 10 4 10 20).Slope 1 (0, 1) ∧
    (∀ s ∈ (twoStops 10 4 10 20).rstages, ∀ N, s.exact.na = some N → 0 ≤ N) ∧
    (∃ s ∈ (twoStops 10 4 10 20).rstages, s.exact.diam ≠ none) ∧ Decided v 1 (twoStops 10 4 10 20).rstages (0, 1 / 10) (0, 1 / 10) ∧
    (∃ o ∈ probeExits (twoStops 10 4 10 20).rstages, o.err v < o.ratio) ∧
    (∀ t D eA eB, 0 ≤ eA → StopAt v 1 (twoStops 10 4 10 20) t D eA eB →
      EdgeBetween v (twoStops 10 4 10 20).rstages t eA eB (10 - 1 / 10 ^ 8) (10 + 1 / 10 ^ 8)) ∧
    (10 + 1 / 10 ^ 8) - (10 - 1 / 10 ^ 8) ≤ (1 / 10 ^ 6 / 20 : ℚ) ∧ v * (10 + 1 / 10 ^ 8) ≤ 1 / 10 ^ 6 / 10000 ∧ 70 * (1 / 10 ^ 6) ≤ (10 - 1 / 10 ^ 8 : ℚ) ∧
    fieldOf (twoStops 10 4 10 20) (lit (1 / 10 ^ 6)) 10000 200 = .ok (.ok ((some 20, 20), num (1407374821905925 / 140737488355328))) := by
  obtain ⟨a1, a2, a3, a4, a5, -⟩ := C108_example h0 (h1.trans (by norm_num))
  refine ⟨a1, a2, ?_, a3, a4, a5, fun t D eA eB hA hs => twoStops_edge h0 h1 hA hs, by norm_num, by norm_num at *; linarith, by norm_num, ?_⟩
  · simp [twoStops, Part.rstages, Part.rstagesList, Stage.withOps, Sys.stage]
  · decide +kernel

end RT
