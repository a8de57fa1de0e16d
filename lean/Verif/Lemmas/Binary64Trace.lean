import Verif.Lemmas.Binary64Build

/-! # Traces in binary64 -/

set_option linter.unusedSectionVars false

namespace RT
open PyNum Ext

namespace B64

/-- `Fl.Near` for binary64 numbers -/
def Near64 (k : ℕ) (x : B64) (a A : ℚ) : Prop := ∃ x', x = num x' ∧ Fl.Near unitRoundoff k (Fl.num x' : Double) a A

theorem u_nonneg : (0 : ℚ) ≤ unitRoundoff := double_rounding.nonneg

theorem near64_num (x : ℚ) : Near64 0 (num x) x |x| := ⟨x, rfl, Fl.near_num _ x⟩

theorem Near64.nonneg {k : ℕ} {x : B64} {a A : ℚ} (h : Near64 k x a A) : 0 ≤ A := by
  obtain ⟨x', -, h⟩ := h; exact h.nonneg

theorem Near64.mono {k l : ℕ} {x : B64} {a A B : ℚ} (h : Near64 k x a A) (hkl : k ≤ l) (hAB : A ≤ B) : Near64 l x a B := by
  obtain ⟨x', rfl, h⟩ := h; exact ⟨x', rfl, h.mono u_nonneg hkl hAB⟩

theorem near_round {u w x r a A : ℚ} {k : ℕ} (hu : 0 ≤ u) (h : Fl.Near u k (Fl.num x : Double) a A) (hA : w ≤ A)
    (hr : |r - x| ≤ u * max |x| w) : Fl.Near u (k + 1) (Fl.num r : Double) a A := by
  have h0 := h.le
  have hA0 := h.nonneg
  obtain ⟨y, e1, h3, h4⟩ := h
  obtain rfl := Fl.num_inj e1
  refine ⟨r, rfl, h3, ?_⟩
  have h5 : |r - a| ≤ |r - x| + |x - a| := abs_sub_le _ _ _
  have h6 : max |x| w ≤ (1 + u) ^ k * A := by
    refine max_le h0 (hA.trans ?_)
    have : (1 : ℚ) ≤ (1 + u) ^ k := one_le_pow₀ (by linarith)
    nlinarith
  have h7 : u * max |x| w ≤ u * ((1 + u) ^ k * A) := mul_le_mul_of_nonneg_left h6 hu
  have h8 : relErr u (k + 1) * A = u * ((1 + u) ^ k * A) + relErr u k * A := by unfold relErr; ring
  linarith

/-- one rounding, above the smallest numbers and below the largest -/
theorem near_double64 {k : ℕ} {x a A : ℚ} (h : Fl.Near unitRoundoff k (Fl.num x : Double) a A) (hA : tiny ≤ A)
    (hk : (1 + unitRoundoff) ^ k * A ≤ huge) :
    ∃ r, double64 x = .fin r ∧ Fl.Near unitRoundoff (k + 1) (Fl.num r : Double) a A := by
  obtain ⟨r, h1, h2⟩ := double64_near (h.le.trans hk)
  exact ⟨r, h1, near_round u_nonneg h hA h2⟩

theorem Near64.mul {k l : ℕ} {x y : B64} {a b A B : ℚ} (hx : Near64 k x a A) (hy : Near64 l y b B)
    (hk : (1 + unitRoundoff) ^ (k + l) * (A * B + tiny) ≤ huge) : Near64 (k + l + 1) (x * y) (a * b) (A * B + tiny) := by
  have hA := hx.nonneg
  have hB := hy.nonneg
  obtain ⟨x', rfl, h1⟩ := hx
  obtain ⟨y', rfl, h2⟩ := hy
  have h3 := (Fl.near_mul_exact u_nonneg h1 h2).mono u_nonneg le_rfl (by have := tiny_pos; linarith : A * B ≤ A * B + tiny)
  obtain ⟨r, e, h4⟩ := near_double64 h3 (by nlinarith [mul_nonneg hA hB]) hk
  exact ⟨r, by change (⟨double64 (x' * y')⟩ : B64) = _; rw [e]; rfl, h4⟩

theorem Near64.add {k : ℕ} {x y : B64} {a b A B : ℚ} (hx : Near64 k x a A) (hy : Near64 k y b B) (hw : tiny ≤ A + B)
    (hk : (1 + unitRoundoff) ^ k * (A + B) ≤ huge) : Near64 (k + 1) (x + y) (a + b) (A + B) := by
  obtain ⟨x', rfl, h1⟩ := hx
  obtain ⟨y', rfl, h2⟩ := hy
  obtain ⟨r, e, h4⟩ := near_double64 (Fl.near_add_exact h1 h2) hw hk
  exact ⟨r, by change (⟨double64 (x' + y')⟩ : B64) = _; rw [e]; rfl, h4⟩

/-- the element `m`, computed by Python, behaves as the stage `s` up to its errors -/
structure Stage64 (m : Mat B64) (s : RStage ℚ) : Prop where
  A : Near64 s.ops m.A s.exact.a s.maj.a
  B : Near64 s.ops m.B s.exact.b s.maj.b
  C : Near64 s.ops m.C s.exact.c s.maj.c
  D : Near64 s.ops m.D s.exact.d s.maj.d
  L : m.L = num s.exact.len
  len : s.maj.len = |s.exact.len|
  diam : m.apertureDiameter = opt s.exact.diam
  na : m.apertureNA = opt s.exact.na
  linear : m.Linear
  good : GoodO range s.exact.diam
  pos : ∀ D, s.exact.diam = some D → 0 < D

theorem Sim.near {k l : ℕ} {x : B64} {y : Double} (h : Sim k x y) {a A : ℚ} (hn : Fl.Near unitRoundoff l y a A) : Near64 l x a A := by
  obtain ⟨y', rfl, h1⟩ := hn
  obtain ⟨x⟩ := x
  have := h.val
  simp only [Fl.num] at this
  subst this
  exact ⟨y', rfl, ⟨y', rfl, h1⟩⟩

theorem Sim.eq_opt {k : ℕ} {x : B64} {o : Option ℚ} (h : Sim k x (Fl.optNum o)) : x = opt o := by
  obtain ⟨x⟩ := x
  have := h.val
  simp only at this
  subst this
  cases o <;> rfl

/-- what rounding does to a matrix of moderate numbers is known from the numbers without limits -/
theorem SimMat.stage {k : ℕ} {m : Mat B64} {m' : Mat Double} (h : SimMat k m m') {s : RStage ℚ} (hs : RStageOf unitRoundoff m' s)
    (hg : GoodO range s.exact.diam) (hpos : ∀ D, s.exact.diam = some D → 0 < D) : Stage64 m s where
  A := h.A.near hs.A
  B := h.B.near hs.B
  C := h.C.near hs.C
  D := h.D.near hs.D
  L := by
    have h1 := h.L
    rw [hs.L] at h1
    exact h1.eq_opt (o := some s.exact.len)
  len := hs.len
  diam := by have h1 := h.diam; rw [hs.diam] at h1; exact h1.eq_opt
  na := by have h1 := h.na; rw [hs.na] at h1; exact h1.eq_opt
  linear := h.linear.2 hs.linear
  good := hg
  pos := hpos

/-- the state of a ray known up to errors -/
structure NearRay64 (k : ℕ) (r : Ray B64) (e m : ℚ × ℚ) (z Z : ℚ) : Prop where
  y : Near64 k r.y e.1 m.1
  theta : Near64 k r.theta e.2 m.2
  z : Near64 k r.z z Z

theorem NearRay64.settle {k : ℕ} {r : Ray B64} {e m : ℚ × ℚ} {z Z : ℚ} (h : NearRay64 k r e m z Z) (is : List (Item B64)) :
    NearRay64 k (settle is r) e m z Z := ⟨h.y, h.theta, h.z⟩

/-- not more than 2^52 roundings: their errors do not double anything -/
theorem pow_le_two {k : ℕ} (h : (k : ℚ) * unitRoundoff ≤ 1 / 2) : (1 + unitRoundoff) ^ k ≤ 2 := by
  have key : ∀ k : ℕ, (k : ℚ) * unitRoundoff ≤ 1 / 2 → (1 + unitRoundoff) ^ k * (1 - k * unitRoundoff) ≤ 1 := by
    intro k
    induction k with
    | zero => intro _; simp
    | succ k ih =>
      intro hk
      push_cast at hk ⊢
      have hu := u_nonneg
      have h1 : (k : ℚ) * unitRoundoff ≤ 1 / 2 := by nlinarith
      have h2 := ih h1
      have h3 : (0 : ℚ) ≤ (1 + unitRoundoff) ^ k := by positivity
      have h4 : (1 + unitRoundoff) * (1 - (k + 1) * unitRoundoff) ≤ 1 - k * unitRoundoff := by
        nlinarith [mul_nonneg hu hu, mul_nonneg (mul_nonneg hu hu) (Nat.cast_nonneg (α := ℚ) k)]
      calc (1 + unitRoundoff) ^ (k + 1) * (1 - (k + 1) * unitRoundoff) = (1 + unitRoundoff) ^ k * ((1 + unitRoundoff) * (1 - (k + 1) * unitRoundoff)) := by ring
        _ ≤ (1 + unitRoundoff) ^ k * (1 - k * unitRoundoff) := by gcongr
        _ ≤ 1 := h2
  have h1 := key k h
  have h3 : (0 : ℚ) ≤ (1 + unitRoundoff) ^ k := by have := u_nonneg; positivity
  nlinarith

theorem fits_of {k : ℕ} {A : ℚ} (hk : (k : ℚ) * unitRoundoff ≤ 1 / 2) (h0 : 0 ≤ A) (hA : A ≤ huge / 2) : (1 + unitRoundoff) ^ k * A ≤ huge := by
  have := pow_le_two hk
  nlinarith

theorem mul_mono_u {k l : ℕ} (h : k ≤ l) (hl : (l : ℚ) * unitRoundoff ≤ 1 / 2) : (k : ℚ) * unitRoundoff ≤ 1 / 2 := by
  have : (k : ℚ) ≤ l := by exact_mod_cast h
  have := mul_le_mul_of_nonneg_right this u_nonneg
  linarith

/-- two products and their sum -/
theorem near_line {o k : ℕ} {p q y t : B64} {a b A B e₁ e₂ M₁ M₂ : ℚ} (hp : Near64 o p a A) (hq : Near64 o q b B) (hy : Near64 k y e₁ M₁)
    (ht : Near64 k t e₂ M₂) (hk : ((k + o + 2 : ℕ) : ℚ) * unitRoundoff ≤ 1 / 2) (hf : A * M₁ + B * M₂ + 2 * tiny ≤ huge / 2) :
    Near64 (k + o + 2) (p * y + q * t) (a * e₁ + b * e₂) (A * M₁ + B * M₂ + 2 * tiny) := by
  have h1 := mul_nonneg hp.nonneg hy.nonneg
  have h2 := mul_nonneg hq.nonneg ht.nonneg
  have h3 := tiny_pos
  have f1 := hp.mul hy (fits_of (mul_mono_u (by omega) hk) (by linarith) (by linarith))
  have f2 := hq.mul ht (fits_of (mul_mono_u (by omega) hk) (by linarith) (by linarith))
  have f3 := f1.add f2 (by linarith) (fits_of (mul_mono_u (by omega) hk) (by linarith) (by linarith))
  exact f3.mono (by omega) (by linarith)

theorem Stage64.out {m : Mat B64} {s : RStage ℚ} (h : Stage64 m s) {k : ℕ} {r : Ray B64} {e M : ℚ × ℚ} {z Z : ℚ}
    (hn : NearRay64 k r e M z Z) (hb : r.isBlocked = false) (hk : ((k + s.ops + 2 : ℕ) : ℚ) * unitRoundoff ≤ 1 / 2)
    (hf1 : (s.majOut tiny M).1 ≤ huge / 2) (hf2 : (s.majOut tiny M).2 ≤ huge / 2) (hfz : Z + (s.maj.len + tiny) ≤ huge / 2) :
    NearRay64 (k + s.ops + 2) (m.mulRayBase r) (s.exact.out e) (s.majOut tiny M) (z + s.exact.len) (Z + (s.maj.len + tiny)) := by
  have hL : Near64 0 m.L s.exact.len s.maj.len := by rw [h.L, h.len]; exact near64_num _
  refine ⟨?_, ?_, ?_⟩
  · simp only [Mat.mulRayBase, hb, Bool.false_eq_true, if_false, Stage.out]
    exact near_line h.A h.B hn.y hn.theta hk hf1
  · simp only [Mat.mulRayBase, hb, Bool.false_eq_true, if_false, Stage.out]
    exact near_line h.C h.D hn.y hn.theta hk hf2
  · simp only [Mat.mulRayBase, hb, Bool.false_eq_true, if_false]
    rw [add_comm z]
    have h3 := tiny_pos
    have h1 := hL.nonneg
    have h2 := hn.z.nonneg
    have f := (hL.mono (Nat.zero_le k) (by linarith : s.maj.len ≤ s.maj.len + tiny)).add hn.z (by linarith)
      (fits_of (mul_mono_u (by omega) hk) (by linarith) (by linarith))
    exact f.mono (by omega) (by linarith)

theorem half64 {o : Option ℚ} (h : GoodO range o) : (half (opt o)).val = (half (Fl.optNum o : Double)).val :=
  ((sim_opt h).rawDiv sim_two (by decide)).val

theorem lt_half64 {o : Option ℚ} (h : GoodO range o) {y' : ℚ} :
    (half (opt o) <. num y') = true ↔ ∃ D, o = some D ∧ double (D / 2) < y' := by
  rw [← lt_half_of_num double_rounding]
  change PyNum.lt (half (opt o)).val (.fin y') = true ↔ PyNum.lt (half (Fl.optNum o : Double)).val (.fin y') = true
  rw [half64 h]

theorem lt_opt64 {o : Option ℚ} {y' : ℚ} : (opt o <. num y') = true ↔ ∃ D, o = some D ∧ D < y' := by
  rw [← lt_optNum (o := o) double_rounding]
  cases o <;> rfl

theorem abs_num64 (x : ℚ) : PyNum.abs (num x) = num |x| := rfl

/-- no stop when there is room for the errors -/
theorem Stage64.clears {m : Mat B64} {s : RStage ℚ} (h : Stage64 m s) {k : ℕ} {r : Ray B64} {e M : ℚ × ℚ} {z Z : ℚ}
    (hn : NearRay64 k r e M z Z) (h1 : ∀ D, s.exact.diam = some D → |e.1| + relErr unitRoundoff k * M.1 ≤ (1 - unitRoundoff) * (D / 2))
    (h2 : ∀ N, s.exact.na = some N → |e.2| + relErr unitRoundoff k * M.2 ≤ N) : m.stops r = false := by
  obtain ⟨y', hy, y'', e1, hy1, hy2⟩ := hn.y
  obtain rfl := Fl.num_inj e1
  obtain ⟨t', ht, t'', e2, ht1, ht2⟩ := hn.theta
  obtain rfl := Fl.num_inj e2
  have hy3 : |y'| ≤ |e.1| + relErr unitRoundoff k * M.1 := by
    have : |y'| ≤ |y' - e.1| + |e.1| := by simpa using abs_add_le (y' - e.1) e.1
    linarith
  have ht3 : |t'| ≤ |e.2| + relErr unitRoundoff k * M.2 := by
    have : |t'| ≤ |t' - e.2| + |e.2| := by simpa using abs_add_le (t' - e.2) e.2
    linarith
  unfold Mat.stops
  rw [h.diam, h.na, hy, ht, abs_num64, abs_num64, Bool.or_eq_false_iff, Bool.eq_false_iff, Bool.eq_false_iff, ne_eq, ne_eq,
    lt_half64 h.good, lt_opt64]
  refine ⟨?_, ?_⟩
  · rintro ⟨D, hD, hlt⟩
    have h3 := h1 D hD
    have h4 := double_rounding.le_abs (D / 2)
    have hD0 := half_pos (h.pos D hD)
    rw [abs_of_pos hD0, abs_of_pos (double_rounding.pos hD0)] at h4
    linarith
  · rintro ⟨N, hN, hlt⟩
    have := h2 N hN
    linarith

/-- a stop when the ray is further than the errors -/
theorem Stage64.hits {m : Mat B64} {s : RStage ℚ} (h : Stage64 m s) {k : ℕ} {r : Ray B64} {e M : ℚ × ℚ} {z Z : ℚ}
    (hn : NearRay64 k r e M z Z) (h1 : (∃ D, s.exact.diam = some D ∧ (1 + unitRoundoff) * (D / 2) < |e.1| - relErr unitRoundoff k * M.1) ∨
      (∃ N, s.exact.na = some N ∧ N < |e.2| - relErr unitRoundoff k * M.2)) : m.stops r = true := by
  obtain ⟨y', hy, y'', e1, hy1, hy2⟩ := hn.y
  obtain rfl := Fl.num_inj e1
  obtain ⟨t', ht, t'', e2, ht1, ht2⟩ := hn.theta
  obtain rfl := Fl.num_inj e2
  have hy3 : |e.1| - relErr unitRoundoff k * M.1 ≤ |y'| := by
    have : |e.1| ≤ |y' - e.1| + |y'| := by
      have := abs_sub_abs_le_abs_sub e.1 y'
      rw [abs_sub_comm] at this; linarith
    linarith
  have ht3 : |e.2| - relErr unitRoundoff k * M.2 ≤ |t'| := by
    have : |e.2| ≤ |t' - e.2| + |t'| := by
      have := abs_sub_abs_le_abs_sub e.2 t'
      rw [abs_sub_comm] at this; linarith
    linarith
  unfold Mat.stops
  rw [h.diam, h.na, hy, ht, abs_num64, abs_num64, Bool.or_eq_true, lt_half64 h.good, lt_opt64]
  rcases h1 with ⟨D, hD, hlt⟩ | ⟨N, hN, hlt⟩
  · refine .inl ⟨D, hD, ?_⟩
    have h4 := double_rounding.abs_le (D / 2)
    have hD0 := half_pos (h.pos D hD)
    rw [abs_of_pos hD0, abs_of_pos (double_rounding.pos hD0)] at h4
    linarith
  · exact .inr ⟨N, hN, by linarith⟩

/-- what the traces rely on -/
def Stages64 (is : List (Item B64)) (ss : List (RStage ℚ)) : Prop := List.Forall₂ Stage64 (leaves is) ss

theorem entryStops_clears64 {is : List (Item B64)} {ss : List (RStage ℚ)} (h : Stages64 is ss) {k : ℕ}
    {r : Ray B64} {e M : ℚ × ℚ} {z Z : ℚ} (hn : NearRay64 k r e M z Z) (hc : ClearsW tiny unitRoundoff k ss e M) : entryStops is r = false := by
  induction is with
  | nil => rfl
  | cons i is ih =>
    cases i with
    | dup => exact ih h
    | leaf m =>
      cases h with
      | cons h1 h2 => exact stopsEntry_stops (h1.clears hn hc.1 hc.2.1)

theorem majLenW_nonneg {is : List (Item B64)} {ss : List (RStage ℚ)} (h : Stages64 is ss) : 0 ≤ majLenW tiny ss := by
  unfold Stages64 at h
  generalize leaves is = l at h
  induction h with
  | nil => simp [majLenW]
  | @cons _ s _ _ h1 _ ih =>
    simp only [majLenW, List.map_cons, List.sum_cons] at ih ⊢
    have h2 := tiny_pos
    have h3 := abs_nonneg s.exact.len
    rw [← h1.len] at h3
    linarith

theorem runTrace_clears64 {is : List (Item B64)} {ss : List (RStage ℚ)} (h : Stages64 is ss) {k : ℕ}
    {r : Ray B64} {e M : ℚ × ℚ} {z Z : ℚ} (hn : NearRay64 k r e M z Z) (hb : r.isBlocked = false) (hc : ClearsW tiny unitRoundoff k ss e M)
    (hf : Fits tiny (huge / 2) ss M) (hk : ((k + roundings ss : ℕ) : ℚ) * unitRoundoff ≤ 1 / 2) (hZ : Z + majLenW tiny ss ≤ huge / 2) :
    ((runTrace is r).getLast?.getD r).isBlocked = false ∧
    NearRay64 (k + roundings ss) ((runTrace is r).getLast?.getD r) (exactOut ss e) (majOutW tiny ss M) (z + exactLen ss) (Z + majLenW tiny ss) := by
  induction is generalizing ss k r e M z Z with
  | nil => cases h; simpa [runTrace, roundings, exactOut, majOutW, exactLen, majLenW] using ⟨hb, hn⟩
  | cons i is ih =>
    cases i with
    | dup =>
      simp only [runTrace, getLast?_cons_getD']
      exact ih h hn hb hc hf hk hZ
    | leaf m =>
      rw [runTrace_leaf_last]
      cases h with
      | @cons _ s _ ss h1 h2 =>
        obtain ⟨c1, c2, c3⟩ := hc
        obtain ⟨f1, f2, f3⟩ := hf
        have e1 : k + roundings (s :: ss) = k + s.ops + 2 + roundings ss := by simp only [roundings, List.map_cons, List.sum_cons]; omega
        have e2 : z + exactLen (s :: ss) = z + s.exact.len + exactLen ss := by simp only [exactLen, List.map_cons, List.sum_cons]; ring
        have e3 : Z + majLenW tiny (s :: ss) = Z + (s.maj.len + tiny) + majLenW tiny ss := by
          simp only [majLenW, List.map_cons, List.sum_cons]; ring
        rw [e1] at hk ⊢
        rw [e3] at hZ ⊢
        rw [e2]
        have hst := h1.clears hn c1 c2
        have ho := h1.out hn hb (mul_mono_u (by omega) hk) f1 f2 (by have := majLenW_nonneg h2; linarith)
        simp only [hb, Bool.false_eq_true, if_false]
        have hb' : (settle is (m.mulRayBase r)).isBlocked = false := by
          simp only [settle, Bool.or_eq_false_iff]
          exact ⟨by simp [Mat.mulRayBase, hb, hst], entryStops_clears64 h2 ho c3⟩
        exact ih h2 (ho.settle is) hb' c3 f3 hk hZ

theorem runTrace_hits64 {is : List (Item B64)} {ss : List (RStage ℚ)} (h : Stages64 is ss) {k : ℕ} {r : Ray B64} {e M : ℚ × ℚ} {z Z : ℚ}
    (hn : NearRay64 k r e M z Z) (hc : HitsW tiny unitRoundoff k ss e M) (hf : Fits tiny (huge / 2) ss M)
    (hk : ((k + roundings ss : ℕ) : ℚ) * unitRoundoff ≤ 1 / 2) (hZ : Z + majLenW tiny ss ≤ huge / 2) : ((runTrace is r).getLast?.getD r).isBlocked = true := by
  induction is generalizing ss k r e M z Z with
  | nil => cases h; exact hc.elim
  | cons i is ih =>
    cases i with
    | dup =>
      simp only [runTrace, getLast?_cons_getD']
      exact ih h hn hc hf hk hZ
    | leaf m =>
      by_cases hb : r.isBlocked = true
      · exact last_of_blocked _ hb
      rw [Bool.not_eq_true] at hb
      rw [runTrace_leaf_last]
      cases h with
      | @cons _ s _ ss h1 h2 =>
        obtain ⟨f1, f2, f3⟩ := hf
        have e1 : k + roundings (s :: ss) = k + s.ops + 2 + roundings ss := by simp only [roundings, List.map_cons, List.sum_cons]; omega
        have e3 : Z + majLenW tiny (s :: ss) = Z + (s.maj.len + tiny) + majLenW tiny ss := by
          simp only [majLenW, List.map_cons, List.sum_cons]; ring
        rw [e1] at hk
        rw [e3] at hZ
        simp only [hb, Bool.false_eq_true, if_false]
        have ho := h1.out hn hb (mul_mono_u (by omega) hk) f1 f2 (by have := majLenW_nonneg h2; linarith)
        have stop : ∀ hs : m.stops r = true,
            ((runTrace is (settle is (m.mulRayBase r))).getLast?.getD (settle is (m.mulRayBase r))).isBlocked = true := by
          intro hs
          apply last_of_blocked
          simp [settle, Mat.mulRayBase, hb, hs]
        rcases hc with c | c | c
        · exact stop (h1.hits hn (.inl c))
        · exact stop (h1.hits hn (.inr c))
        · exact ih h2 (ho.settle is) c f3 hk hZ

theorem Stages64.linear {is : List (Item B64)} {ss : List (RStage ℚ)} (h : Stages64 is ss) : LinearItems is := by
  intro m hm
  have : m ∈ leaves is := by
    clear h
    induction is with
    | nil => cases hm
    | cons i is ih =>
      cases i with
      | dup => simp only [List.mem_cons, reduceCtorEq, false_or] at hm; exact ih hm
      | leaf m' =>
        simp only [List.mem_cons, Item.leaf.injEq] at hm
        rcases hm with rfl | hm
        · simp [leaves]
        · exact List.mem_cons_of_mem _ (ih hm)
  unfold Stages64 at h
  generalize leaves is = l at h this
  induction h with
  | nil => cases this
  | cons h1 _ ih =>
    rcases List.mem_cons.1 this with rfl | hm
    · exact h1.linear
    · exact ih hm

/-! ## Programs -/

attribute [local irreducible] double64 double Good

theorem Stages64.append {is js : List (Item B64)} {ss ts : List (RStage ℚ)} (h1 : Stages64 is ss)
    (h2 : Stages64 js ts) : Stages64 (is ++ js) (ss ++ ts) := by
  unfold Stages64; rw [leaves_append]; exact List.rel_append h1 h2

theorem stages64_forget {e : Elem B64} {ss : List (RStage ℚ)} : Stages64 e.forget.items ss ↔ Stages64 e.items ss := by
  unfold Elem.forget
  split_ifs
  · cases e with
    | group m c es => simp [Elem.setIndices, Elem.items, Stages64, leaves]
    | leaf m =>
      have key : ∀ (a b : B64) (st : RStage ℚ), Stage64 { m with frontIndex := a, backIndex := b } st ↔ Stage64 m st := fun a b st =>
        ⟨fun h => ⟨h.A, h.B, h.C, h.D, h.L, h.len, h.diam, h.na, h.linear, h.good, h.pos⟩,
         fun h => ⟨h.A, h.B, h.C, h.D, h.L, h.len, h.diam, h.na, h.linear, h.good, h.pos⟩⟩
      simp only [Elem.setIndices, Elem.items, Stages64, leaves]
      constructor
      · intro h; cases h with | cons h1 h2 => exact .cons ((key _ _ _).1 h1) h2
      · intro h; cases h with | cons h1 h2 => exact .cons ((key _ _ _).2 h1) h2
  · rfl

theorem stages64_congr {es fs : List (Elem B64)} (h : es.map Elem.forget = fs.map Elem.forget)
    {ss : List (RStage ℚ)} (hs : Stages64 (itemsList fs) ss) : Stages64 (itemsList es) ss := by
  induction fs generalizing es ss with
  | nil =>
    simp only [List.map_nil, List.map_eq_nil_iff] at h
    subst h; exact hs
  | cons f fs ih =>
    cases es with
    | nil => simp at h
    | cons e es =>
      simp only [List.map_cons, List.cons.injEq] at h
      unfold itemsList at hs ⊢
      unfold Stages64 at hs
      rw [leaves_append] at hs
      obtain ⟨s1, s2, rfl, h1, h2⟩ : ∃ s1 s2, ss = s1 ++ s2 ∧ List.Forall₂ Stage64 (leaves f.items) s1 ∧
          List.Forall₂ Stage64 (leaves (itemsList fs)) s2 := by
        refine ⟨ss.take (leaves f.items).length, ss.drop (leaves f.items).length, by simp, ?_, ?_⟩
        · exact (List.forall₂_take_append _ _ _ hs.flip).flip
        · exact (List.forall₂_drop_append _ _ _ hs.flip).flip
      refine Stages64.append ?_ (ih h.2 h2)
      rw [← stages64_forget, h.1, stages64_forget]
      exact h1

theorem single64 {k : ℕ} {m : Mat B64} {s : RStage ℚ} {P : Mat Double → Prop} (hS : ∃ m', P m' ∧ SimMat k m m')
    (hR : ∀ m', P m' → RStageOf unitRoundoff m' s ∧ ∀ D, s.exact.diam = some D → 0 < D) (hg : GoodO range s.exact.diam) :
    Stages64 (Elem.leaf m).items [s] := by
  obtain ⟨m', h1, h2⟩ := hS
  obtain ⟨h3, h4⟩ := hR m' h1
  exact .cons (h2.stage h3 hg h4) .nil

theorem space_built64 {d n : ℚ} {diam : Option ℚ} {e : Elem B64}
    (hg : (Part.space d n diam).AllParams (Good range) (GoodO range)) (hb : (Part.space d n diam).build64 = .ok e) :
    Stages64 e.items (Part.space d n diam).rstages := by
  unfold Part.build64 Part.buildWith at hb
  obtain ⟨m, h1, rfl⟩ := Except.map_ok hb
  obtain ⟨g1, g2, g3⟩ := hg
  exact single64 (mkSpace_S g1 g2 g3 h1) (fun m' h => mkSpace_R double_rounding h) g3

theorem lens_built64 {f : ℚ} {diam : Option ℚ} {e : Elem B64}
    (hg : (Part.lens f diam).AllParams (Good range) (GoodO range)) (hb : (Part.lens f diam).build64 = .ok e) :
    Stages64 e.items (Part.lens f diam).rstages := by
  unfold Part.build64 Part.buildWith at hb
  obtain ⟨m, h1, rfl⟩ := Except.map_ok hb
  obtain ⟨g1, g2⟩ := hg
  exact single64 (mkLens_S g1 g2 h1) (fun m' h => mkLens_R double_rounding h) g2

theorem mirror_built64 {R : ℚ} {diam : Option ℚ} {e : Elem B64}
    (hg : (Part.mirror R diam).AllParams (Good range) (GoodO range)) (hb : (Part.mirror R diam).build64 = .ok e) :
    Stages64 e.items (Part.mirror R diam).rstages := by
  unfold Part.build64 Part.buildWith at hb
  obtain ⟨m, h1, rfl⟩ := Except.map_ok hb
  obtain ⟨g1, g2⟩ := hg
  exact single64 (mkCurvedMirror_S g1 g2 h1) (fun m' h => mkCurvedMirror_R double_rounding h) g2

theorem interface_built64 {n1 n2 : ℚ} {R diam : Option ℚ} {e : Elem B64}
    (hg : (Part.interface n1 n2 R diam).AllParams (Good range) (GoodO range)) (hb : (Part.interface n1 n2 R diam).build64 = .ok e) :
    Stages64 e.items (Part.interface n1 n2 R diam).rstages := by
  unfold Part.build64 Part.buildWith at hb
  obtain ⟨m, h1, rfl⟩ := Except.map_ok hb
  obtain ⟨g1, g2, g3, g4⟩ := hg
  exact single64 (mkDielectric_S g1 g2 g3 g4 h1) (fun m' h => mkDielectric_R double_rounding h) g4

theorem thickLens_built64 {n : ℚ} {R1 R2 : Option ℚ} {t : ℚ} {diam : Option ℚ} {e : Elem B64}
    (hg : (Part.thickLens n R1 R2 t diam).AllParams (Good range) (GoodO range)) (hb : (Part.thickLens n R1 R2 t diam).build64 = .ok e) :
    Stages64 e.items (Part.thickLens n R1 R2 t diam).rstages := by
  unfold Part.build64 Part.buildWith at hb
  obtain ⟨m, h1, rfl⟩ := Except.map_ok hb
  obtain ⟨g1, g2, g3, g4, g5⟩ := hg
  exact single64 (mkThickOf_S (kind' := .matrix) (by simp) (by simp) g1 g4 g2 g3 g5 h1)
    (fun m' h => mkThickOf_R double_rounding (by simp) h) g5

theorem slab_built64 {n t : ℚ} {diam : Option ℚ} {e : Elem B64}
    (hg : (Part.slab n t diam).AllParams (Good range) (GoodO range)) (hb : (Part.slab n t diam).build64 = .ok e) :
    Stages64 e.items (Part.slab n t diam).rstages := by
  unfold Part.build64 Part.buildWith mkSlab at hb
  obtain ⟨m, h1, rfl⟩ := Except.map_ok hb
  obtain ⟨g1, g2, g3⟩ := hg
  have h2 : mkThickOf (.slab (num n) inf inf) (num n) (opt none) (opt none) (num t) (opt diam) = .ok m := h1
  have e0 : (0 : ℚ) = curvature none := rfl
  unfold Part.rstages
  rw [e0]
  exact single64 (mkThickOf_S (R1 := none) (R2 := none) (kind' := .matrix) (by simp) (by simp) g1 g2 trivial trivial g3 h2)
    (fun m' h => mkThickOf_R (R1 := none) (R2 := none) double_rounding (by simp) h) g3

theorem aperture_built64 {diam na : Option ℚ} {label : String} {e : Elem B64}
    (hg : (Part.aperture diam na label).AllParams (Good range) (GoodO range)) (hb : (Part.aperture diam na label).build64 = .ok e) :
    Stages64 e.items (Part.aperture diam na label).rstages := by
  unfold Part.build64 Part.buildWith at hb
  obtain ⟨m, h1, rfl⟩ := Except.map_ok hb
  obtain ⟨g1, g2⟩ := hg
  exact single64 (mkAperture_S g1 g2 h1) (fun m' h => mkAperture_R double_rounding h) g1

theorem matrix_built64 {s : Sys ℚ} {fv bv diam : Option ℚ} {e : Elem B64}
    (hg : (Part.matrix s fv bv diam).AllParams (Good range) (GoodO range)) (hb : (Part.matrix s fv bv diam).build64 = .ok e) :
    Stages64 e.items (Part.matrix s fv bv diam).rstages := by
  unfold Part.build64 Part.buildWith at hb
  obtain ⟨m, h1, rfl⟩ := Except.map_ok hb
  obtain ⟨g1, g2, g3, g4, g5, g6, g7, g8⟩ := hg
  exact single64 (mkMatrix_S g1 g2 g3 g4 g5 g6 g7 g8 h1) (fun m' h => mkMatrix_R double_rounding h) g8

mutual
/-- The elements of a system built by Python behave as its stages, up to errors. -/
theorem build64_stages : ∀ {p : Part ℚ} {e : Elem B64}, p.AllParams (Good range) (GoodO range) → p.build64 = .ok e →
    Stages64 e.items p.rstages
  | .space d n diam, e, hg, hb => space_built64 hg hb
  | .lens f diam, e, hg, hb => lens_built64 hg hb
  | .mirror R diam, e, hg, hb => mirror_built64 hg hb
  | .interface n1 n2 R diam, e, hg, hb => interface_built64 hg hb
  | .thickLens n R1 R2 t diam, e, hg, hb => thickLens_built64 hg hb
  | .slab n t diam, e, hg, hb => slab_built64 hg hb
  | .aperture diam na label, e, hg, hb => aperture_built64 hg hb
  | .matrix s fv bv diam, e, hg, hb => matrix_built64 hg hb
  | .group label ps, e, hg, hb => by
    unfold Part.build64 Part.buildWith at hb
    split at hb
    · simp at hb
    · next es hes =>
      obtain ⟨g, hnew, rfl⟩ := Except.map_ok hb
      exact stages64_congr (Group.new_elems hnew) (buildList64_stages hg hes)
theorem buildList64_stages : ∀ {ps : List (Part ℚ)} {es : List (Elem B64)}, Part.AllParamsList (Good range) (GoodO range) ps →
    Part.buildListWith num opt ps = .ok es → Stages64 (itemsList es) (Part.rstagesList ps)
  | [], es, hg, hb => by
    simp only [Part.buildListWith, Except.ok.injEq] at hb; subst hb
    exact .nil
  | p :: ps, es, hg, hb => by
    unfold Part.buildListWith at hb
    split at hb
    · simp at hb
    · next e he =>
      split at hb
      · simp at hb
      · next es' hes =>
        simp only [Except.ok.injEq] at hb; subst hb
        exact (build64_stages (p := p) hg.1 he).append (buildList64_stages hg.2 hes)
end

end B64
end RT
