import Verif.Spec.RoundedStop
import Verif.Lemmas.RoundedTrace
import Verif.Lemmas.RoundedBuild
import Verif.Lemmas.Imaging

/-! # The loop of `apertureStop` in rounded arithmetic -/

set_option linter.unusedSectionVars false

namespace RT
open PyNum Ext Fl
variable {K : Type} [Field K] [LinearOrder K] [IsStrictOrderedRing K]
variable {rnd : K → K} {u : K}

/-- the entry of a trace seen at an exit, up to the errors -/
structure SeenNear (u : K) (s : Ray (Fl K rnd)) (o : RExit K) : Prop where
  z : Fl.Near u o.roundings s.z o.z o.zMaj
  y : Fl.Near u o.roundings s.y o.y o.yMaj
  diam : s.apertureDiameter = Fl.optNum o.diam

theorem exact_inside (hu : 0 ≤ u) {k : ℕ} {e M D : K} (hM : 0 ≤ M) (hD : 0 < D) (h : |e| + relErr u k * M ≤ (1 - u) * (D / 2)) :
    ¬ D / 2 < |e| := by
  have := mul_nonneg (relErr_nonneg hu k) hM
  have := mul_nonneg hu (half_pos hD).le
  intro hlt; nlinarith

theorem exact_outside (hu : 0 ≤ u) {k : ℕ} {e M D : K} (hM : 0 ≤ M) (hD : 0 < D) (h : (1 + u) * (D / 2) < |e| - relErr u k * M) :
    D / 2 < |e| := by
  have := mul_nonneg (relErr_nonneg hu k) hM
  have := mul_nonneg hu (half_pos hD).le
  nlinarith

theorem RStageOf.entry_clears (hr : Rounding rnd u) {m : Mat (Fl K rnd)} {s : RStage K} (h : RStageOf u m s) {k : ℕ} {r : Ray (Fl K rnd)}
    {e M : K × K} {z Z : K} (hn : NearRay u k r e M z Z)
    (h1 : ∀ D, s.exact.diam = some D → |e.1| + relErr u k * M.1 ≤ (1 - u) * (D / 2)) : m.stopsEntry r = false := by
  have h' : RStageOf u { m with apertureNA := optNum none } { s with exact := { s.exact with na := none }, maj := s.maj } :=
    ⟨h.A, h.B, h.C, h.D, h.L, h.len, h.diam, rfl, h.linear⟩
  have := stopsEntry_stops (h'.clears hr hn h1 (by simp))
  exact this

theorem RStageOf.entry_hits (hr : Rounding rnd u) {m : Mat (Fl K rnd)} {s : RStage K} (h : RStageOf u m s) {k : ℕ} {r : Ray (Fl K rnd)}
    {e M : K × K} {z Z : K} (hn : NearRay u k r e M z Z) (hpos : ∀ D, s.exact.diam = some D → 0 < D)
    (h1 : ∃ D, s.exact.diam = some D ∧ (1 + u) * (D / 2) < |e.1| - relErr u k * M.1) : m.stopsEntry r = decide (0 < s.exact.len) := by
  have h' : RStageOf u { m with apertureNA := optNum none } { s with exact := { s.exact with na := none }, maj := s.maj } :=
    ⟨h.A, h.B, h.C, h.D, h.L, h.len, h.diam, rfl, h.linear⟩
  have hs := h'.hits hr hn (.inl h1) hpos
  unfold Mat.stops at hs
  have hna : ((optNum none : Fl K rnd) <. PyNum.abs r.theta) = false := by
    obtain ⟨t, ht, -⟩ := hn.theta
    rw [ht, abs_num]
    exact Bool.eq_false_iff.2 fun hx => by
      obtain ⟨D, hD, -⟩ := (lt_optNum hr).1 hx
      cases hD
  simp only [hna, Bool.or_false] at hs
  unfold Mat.stopsEntry
  rw [h.L, zero_num hr, lt_num]
  simp only [hs, Bool.and_true, Bool.true_and]

/-- The trace of a ray whose fate does not depend on the errors shows the ray itself, the exits of the exact ray, and nothing else. -/
theorem runTrace_rexits (hr : Rounding rnd u) {is : List (Item (Fl K rnd))} {ss : List (RStage K)} (h : ItemRStages u is ss)
    (hpos : PosOpenings ss) {k : ℕ} {r : Ray (Fl K rnd)} {e M : K × K} {z Z : K} (hn : NearRay u k r e M z Z) (hb : r.isBlocked = false)
    (hc : Decided u k ss e M) :
    (∀ s ∈ runTrace is (settle is r), s = settle is r ∨ ∃ o ∈ rexits ss k z Z e M, SeenNear u s o) ∧
    (∀ o ∈ rexits ss k z Z e M, ∃ s ∈ runTrace is (settle is r), SeenNear u s o) := by
  induction is generalizing ss k r e M z Z with
  | nil => cases h; simp [runTrace, rexits]
  | cons i is ih =>
    cases i with
    | dup =>
      obtain ⟨i1, i2⟩ := ih h hpos hn hb hc
      have hset : settle (Item.dup :: is) r = settle is r := rfl
      simp only [runTrace, List.mem_cons, hset]
      refine ⟨?_, fun o ho => ?_⟩
      · rintro s (rfl | hs)
        · exact .inl rfl
        · exact i1 s hs
      · obtain ⟨s, h1, h2⟩ := i2 o ho
        exact ⟨s, .inr h1, h2⟩
    | leaf m =>
      cases h with
      | @cons _ st _ ss h1 h2 =>
        have hM1 := hn.y.nonneg
        have hM2 := hn.theta.nonneg
        have hp := hpos st (by simp)
        have hps : PosOpenings ss := fun s hs => hpos s (List.mem_cons_of_mem _ hs)
        have hent : m.stopsEntry r = true ↔ st.exact.StopsEntry e := by
          rcases hc with c | ⟨c, -⟩
          · rw [h1.entry_hits hr hn hp c, decide_eq_true_iff]
            obtain ⟨D, hD, hlt⟩ := c
            exact ⟨fun hl => ⟨hl, D, hD, exact_outside hr.nonneg hM1 (hp D hD) hlt⟩, fun hl => hl.1⟩
          · rw [h1.entry_clears hr hn c]
            refine ⟨fun hx => (by cases hx), ?_⟩
            rintro ⟨-, D, hD, hlt⟩
            exact absurd hlt (exact_inside hr.nonneg hM1 (hp D hD) (c D hD))
        have hstop : m.stops r = true ↔ st.exact.Stops e := by
          rcases hc with c | ⟨c, d | ⟨d, -⟩⟩
          · refine ⟨fun _ => ?_, fun _ => h1.hits hr hn (.inl c) hp⟩
            obtain ⟨D, hD, hlt⟩ := c
            exact .inl ⟨D, hD, exact_outside hr.nonneg hM1 (hp D hD) hlt⟩
          · refine ⟨fun _ => ?_, fun _ => h1.hits hr hn (.inr d) hp⟩
            obtain ⟨N, hN, hlt⟩ := d
            exact .inr ⟨N, hN, by have := mul_nonneg (relErr_nonneg hr.nonneg k) hM2; linarith⟩
          · rw [h1.clears hr hn c d]
            refine ⟨fun hx => (by cases hx), ?_⟩
            rintro (⟨D, hD, hlt⟩ | ⟨N, hN, hlt⟩)
            · exact absurd hlt (exact_inside hr.nonneg hM1 (hp D hD) (c D hD))
            · have := mul_nonneg (relErr_nonneg hr.nonneg k) hM2
              have := d N hN
              exact absurd hlt (by linarith)
        by_cases hse : st.exact.StopsEntry e
        · have hbl : (settle (Item.leaf m :: is) r).isBlocked = true := by
            simp [settle, entryStops, hent.2 hse]
          refine ⟨fun s hs => .inl (runTrace_blocked _ hbl s hs), ?_⟩
          unfold rexits; rw [if_pos hse]; simp
        · have hset : settle (Item.leaf m :: is) r = r := by
            have : m.stopsEntry r = false := by rw [← Bool.not_eq_true, hent]; exact hse
            simp [settle, entryStops, this]
          rw [hset]
          have o1 := h1.out hr hn hb
          have o1' := o1.settle is
          have hseen : SeenNear u (settle is (m.mulRayBase r)) ⟨k + st.ops + 2, z + st.exact.len, Z + st.maj.len, (st.exact.out e).1,
              (st.maj.out M).1, st.exact.diam⟩ := ⟨o1'.z, o1'.y, by rw [← h1.diam]; simp [settle, Mat.mulRayBase, hb]⟩
          unfold rexits
          rw [if_neg hse]
          simp only [runTrace, hb, Bool.false_eq_true, if_false, List.mem_append, List.mem_cons]
          have hpre : ∀ s ∈ (if 0 <. m.L then [r] else []), s = r := by
            intro s hs; split_ifs at hs
            · simpa using hs
            · simp at hs
          by_cases hst : st.exact.Stops e
          · have hbl : (settle is (m.mulRayBase r)).isBlocked = true := by simp [settle, Mat.mulRayBase, hb, hstop.2 hst]
            rw [if_pos hst]
            refine ⟨?_, ?_⟩
            · rintro s (hs | rfl | hs)
              · exact .inl (hpre s hs)
              · exact .inr ⟨_, .inl rfl, hseen⟩
              · rw [runTrace_blocked is hbl s hs]
                exact .inr ⟨_, .inl rfl, hseen⟩
            · rintro o (rfl | ho)
              · exact ⟨_, .inr (.inl rfl), hseen⟩
              · simp at ho
          · have hstf : m.stops r = false := by rw [← Bool.not_eq_true, hstop]; exact hst
            have hbl : (m.mulRayBase r).isBlocked = false := by simp [Mat.mulRayBase, hb, hstf]
            rw [if_neg hst]
            have hc' : Decided u (k + st.ops + 2) ss (st.exact.out e) (st.maj.out M) := by
              rcases hc with c | ⟨c, d | ⟨d, hc'⟩⟩
              · rw [h1.hits hr hn (.inl c) hp] at hstf; cases hstf
              · rw [h1.hits hr hn (.inr d) hp] at hstf; cases hstf
              · exact hc'
            obtain ⟨i1, i2⟩ := ih h2 hps o1 hbl hc'
            refine ⟨?_, ?_⟩
            · rintro s (hs | rfl | hs)
              · exact .inl (hpre s hs)
              · exact .inr ⟨_, .inl rfl, hseen⟩
              · rcases i1 s hs with rfl | ⟨o, h3, h4⟩
                · exact .inr ⟨_, .inl rfl, hseen⟩
                · exact .inr ⟨o, .inr h3, h4⟩
            · rintro o (rfl | ho)
              · exact ⟨_, .inr (.inl rfl), hseen⟩
              · obtain ⟨s, h3, h4⟩ := i2 o ho
                exact ⟨s, .inr (.inr h3), h4⟩

/-- The entries of the list all have a ratio that can be computed; `q` gives it. -/
theorem stopLoop_max (l : List (Ray (Fl K rnd))) (q : Ray (Fl K rnd) → K)
    (hl : ∀ s ∈ l, pyDiv s.y s.apertureDiameter = .ok (num (q s))) (m : K) (z0 d0 : Fl K rnd) :
    (Group.stopLoop l (num m) z0 d0 = .ok (z0, d0) ∧ ∀ s ∈ l, |q s| ≤ m) ∨
    (∃ s ∈ l, Group.stopLoop l (num m) z0 d0 = .ok (s.z, s.apertureDiameter) ∧ m < |q s| ∧ ∀ s' ∈ l, |q s'| ≤ |q s|) := by
  induction l generalizing m z0 d0 with
  | nil => exact .inl ⟨rfl, by simp⟩
  | cons r l ih =>
    have e1 := hl r (by simp)
    have hl' : ∀ s ∈ l, pyDiv s.y s.apertureDiameter = .ok (num (q s)) := fun s hs => hl s (List.mem_cons_of_mem _ hs)
    unfold Group.stopLoop
    rw [e1]
    simp only [bind, Except.bind, abs_num, lt_num, decide_eq_true_eq]
    split_ifs with hm
    · rcases ih hl' (|q r|) r.z r.apertureDiameter with ⟨h1, h2⟩ | ⟨s, hs, h2, h3, h4⟩
      · refine .inr ⟨r, by simp, h1, hm, fun s' hs' => ?_⟩
        rcases List.mem_cons.1 hs' with rfl | hs'
        · exact le_rfl
        · exact h2 s' hs'
      · refine .inr ⟨s, List.mem_cons_of_mem _ hs, h2, hm.trans h3, fun s' hs' => ?_⟩
        rcases List.mem_cons.1 hs' with rfl | hs'
        · exact h3.le
        · exact h4 s' hs'
    · rw [not_lt] at hm
      rcases ih hl' m z0 d0 with ⟨h1, h2⟩ | ⟨s, hs, h2, h3, h4⟩
      · refine .inl ⟨h1, fun s' hs' => ?_⟩
        rcases List.mem_cons.1 hs' with rfl | hs'
        · exact hm
        · exact h2 s' hs'
      · refine .inr ⟨s, List.mem_cons_of_mem _ hs, h2, h3, fun s' hs' => ?_⟩
        rcases List.mem_cons.1 hs' with rfl | hs'
        · exact hm.trans h3.le
        · exact h4 s' hs'

theorem pyDiv_num_inf (hr : Rounding rnd u) (x : K) : pyDiv (num x : Fl K rnd) ⟨.pinf⟩ = .ok (num 0) := by
  unfold pyDiv
  rw [zero_num hr]
  have e : ((⟨.pinf⟩ : Fl K rnd) ==. num 0) = false := rfl
  rw [e]
  have e2 : PyNum.rawDiv (num x : Fl K rnd) ⟨.pinf⟩ = num (rnd 0) := rfl
  simp [e2, hr.zero]

/-- the computed ratio at an exit -/
theorem SeenNear.quot (hr : Rounding rnd u) {s : Ray (Fl K rnd)} {o : RExit K} (h : SeenNear u s o) (hp : ∀ D, o.diam = some D → 0 < D) :
    ∃ q, pyDiv s.y s.apertureDiameter = .ok (num q) ∧ |(|q|) - o.ratio| ≤ o.err u ∧ (o.diam = none → q = 0) := by
  rw [h.diam]
  cases hd : o.diam with
  | none =>
    obtain ⟨y', hy, -⟩ := h.y
    refine ⟨0, ?_, by simp [RExit.ratio, RExit.err, hd], fun _ => rfl⟩
    rw [hy]; exact pyDiv_num_inf hr y'
  | some D =>
    have hD := hp D hd
    obtain ⟨q, h1, q', rfl, h2, h3⟩ := h.y.div hr (relD_num (u := u) (rnd := rnd) hD.ne')
    refine ⟨q', h1, ?_, by simp⟩
    simp only [RExit.ratio, RExit.err, hd]
    rw [abs_of_pos hD] at h3
    have : |o.y| / D = |o.y / D| := by rw [abs_div, abs_of_pos hD]
    rw [this]
    exact (abs_abs_sub_abs_le _ _).trans h3

end RT
