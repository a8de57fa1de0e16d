import Verif.Lemmas.RoundedMatrix

/-! # Which matrices the constructor accepts in rounded arithmetic -/

set_option linter.unusedSectionVars false

namespace RT
open PyNum Ext Fl
variable {K : Type} [Field K] [LinearOrder K] [IsStrictOrderedRing K]
variable {rnd : K → K} {u : K}

/-- determinant of the exact coefficients -/
def Stage.dt (s : Stage K) : K := s.a * s.d - s.b * s.c

theorem Stage.andThen_dt (s t : Stage K) : (s.andThen t).dt = s.dt * t.dt := by
  simp only [Stage.andThen, Stage.dt]; ring

/-- in air on both sides -/
def AirMat (m : Mat (Fl K rnd)) : Prop := m.frontIndex = num 1 ∧ m.backIndex = num 1

theorem eps_num : (eps : Fl K rnd) = num (rnd (1 / 100000)) := by
  unfold eps; rw [lit_num]; push_cast; rfl

theorem le_zeroR (hr : Rounding rnd u) {o : Option K} (h : OpenDiam o) : ((optNum o : Fl K rnd) ≤. 0) = false := by
  rw [zero_num hr]
  cases o with
  | none => rfl
  | some D =>
    change ((num D : Fl K rnd) ≤. num 0) = false
    rw [le_num]
    simpa using h D rfl

/-- a rounding as a factor -/
theorem Rounding.factor (hr : Rounding rnd u) (x : K) : ∃ δ, |δ| ≤ u ∧ rnd x = x * (1 + δ) := by
  by_cases hx : x = 0
  · exact ⟨0, by simpa using hr.nonneg, by simp [hx, hr.zero]⟩
  · refine ⟨(rnd x - x) / x, ?_, by field_simp; ring⟩
    rw [abs_div, div_le_iff₀ (abs_pos.2 hx)]
    exact hr.rel x

/-- The checks of the constructor pass when the determinant is near 1. -/
theorem init_accepts (hr : Rounding rnd u) {m : Mat (Fl K rnd)} (ha : AirMat m) (h1 : (m.apertureDiameter ≤. 0) = false)
    (h2 : (m.apertureNA ≤. 0) = false) {x : K} (hx : m.determinant = num x) (hd : (1 + u) * |x - 1| ≤ (1 - u) * (1 / 100000)) :
    Mat.init m = .ok { m with isFlipped := false } := by
  unfold Mat.init
  have e1 : pyDiv (num 1 : Fl K rnd) (num 1) = .ok (num 1) := by
    rw [pyDiv_num hr _ _ one_ne_zero, div_one, hr.one]
  have e2 : areAbsolutelyNotEqual (num x : Fl K rnd) (num 1) eps = false := by
    unfold areAbsolutelyNotEqual
    rw [num_sub, abs_num, eps_num, lt_num, decide_eq_false_iff_not, not_lt]
    have p1 := hr.abs_le (x - 1)
    have p2 := hr.le_abs (1 / 100000)
    have p3 : 0 < rnd (1 / 100000 : K) := hr.pos (by norm_num)
    rw [abs_of_pos p3, abs_of_pos (by norm_num : (0 : K) < 1 / 100000)] at p2
    linarith
  simp only [h1, h2, ha.1, ha.2, hx, e1, e2, bind, Except.bind, Bool.false_eq_true, if_false, pure, Except.pure]

theorem NearMat.determinant (hr : Rounding rnd u) {m : Mat (Fl K rnd)} {s : RStage K} (h : NearMat u m s) :
    ∃ x, m.determinant = num x ∧ |x - s.exact.dt| ≤ relErr u (2 * s.ops + 2) * (s.maj.a * s.maj.d + s.maj.b * s.maj.c) := by
  unfold Mat.determinant
  have hAD := h.A.mul hr h.D
  have hBC := h.B.mul hr h.C
  by_cases hC : (m.C ==. 0) = true
  · rw [if_pos hC]
    have hB0 := h.B.nonneg
    have hC0 := h.C.nonneg
    have hAD0 := hAD.nonneg
    obtain ⟨c, hc, c1, c2⟩ := h.C
    obtain ⟨b, -, b1, -⟩ := h.B
    rw [hc, zero_num hr, eq_num, decide_eq_true_eq] at hC
    subst hC
    obtain ⟨x, hx, x1, x2⟩ := hAD
    refine ⟨x, hx, ?_⟩
    have e1 : x - s.exact.dt = (x - s.exact.a * s.exact.d) + s.exact.b * s.exact.c := by
      unfold Stage.dt; ring
    have e2 : |s.exact.b * s.exact.c| ≤ s.maj.b * (relErr u s.ops * s.maj.c) := by
      rw [abs_mul]
      have : |s.exact.c| ≤ relErr u s.ops * s.maj.c := by simpa using c2
      gcongr
    have e3 : relErr u s.ops ≤ relErr u (2 * s.ops + 2) := relErr_mono hr.nonneg (by omega)
    have e4 : relErr u (s.ops + s.ops + 1) ≤ relErr u (2 * s.ops + 2) := relErr_mono hr.nonneg (by omega)
    have e5 : s.maj.b * (relErr u s.ops * s.maj.c) ≤ relErr u (2 * s.ops + 2) * (s.maj.b * s.maj.c) := by
      have := mul_le_mul_of_nonneg_right e3 (mul_nonneg hB0 hC0)
      linarith
    have e6 : relErr u (s.ops + s.ops + 1) * (s.maj.a * s.maj.d) ≤ relErr u (2 * s.ops + 2) * (s.maj.a * s.maj.d) :=
      mul_le_mul_of_nonneg_right e4 hAD0
    have e7 := abs_add_le (x - s.exact.a * s.exact.d) (s.exact.b * s.exact.c)
    rw [e1]
    linarith
  · rw [if_neg hC]
    obtain ⟨x, hx, x1, x2⟩ := hAD.sub hr hBC
    refine ⟨x, hx, ?_⟩
    change |x - s.exact.dt| ≤ _ at x2
    have : s.ops + s.ops + 1 + 1 = 2 * s.ops + 2 := by ring
    rwa [this] at x2

theorem NearMat.accepts (hr : Rounding rnd u) {m : Mat (Fl K rnd)} {s : RStage K} (h : NearMat u m s) (hd : s.exact.dt = 1)
    (ha : AirMat m) (h1 : (m.apertureDiameter ≤. 0) = false) (h2 : (m.apertureNA ≤. 0) = false) (hroom : s.Room u) :
    Mat.init m = .ok { m with isFlipped := false } := by
  obtain ⟨x, hx, hb⟩ := h.determinant hr
  rw [hd] at hb
  refine init_accepts hr ha h1 h2 hx (le_trans ?_ hroom)
  have := hr.nonneg
  gcongr

/-- what is needed of an element of a group in air -/
structure AirElem (u : K) (e : Elem (Fl K rnd)) (s : RStage K) : Prop where
  near : NearMat u e.mat s
  air : AirMat e.mat
  det : s.exact.dt = 1

theorem mulRaw_air {m r : Mat (Fl K rnd)} (h1 : AirMat m) (h2 : AirMat r) : AirMat (m.mulRaw r) := by
  unfold AirMat Mat.mulRaw Mat.mulFrontIndex Mat.mulBackIndex
  dsimp only
  split_ifs <;> simp [h1.1, h1.2, h2.1, h2.2]

theorem inf_openR (hr : Rounding rnd u) : ((inf : Fl K rnd) ≤. 0) = false := le_zeroR hr (o := none) (by simp [OpenDiam])

theorem transferMatrixList_accepts (hr : Rounding rnd u) {es : List (Elem (Fl K rnd))} {ss : List (RStage K)}
    (hs : List.Forall₂ (AirElem u) es ss) {acc : Mat (Fl K rnd)} {s0 : RStage K} (ha : NearMat u acc s0) (hair : AirMat acc)
    (hd : s0.exact.dt = 1) (hroom : ∀ l, l <+: ss → l ≠ [] → (l.foldl RStage.andThen s0).Room u) :
    ∃ t, transferMatrixList es inf acc = .ok t ∧ AirMat t ∧ (ss.foldl RStage.andThen s0).exact.dt = 1 := by
  induction hs generalizing acc s0 with
  | nil => exact ⟨acc, by simp [transferMatrixList], hair, hd⟩
  | @cons e s es ss he _ ih =>
    have hn := he.near.mulRaw hr ha
    have hd' : (s0.andThen s).exact.dt = 1 := by
      change (s0.exact.andThen s.exact).dt = 1
      rw [Stage.andThen_dt, hd, he.det, one_mul]
    have hm : e.mat.mulMatrix acc = .ok (e.mat.mulRaw acc) :=
      hn.accepts hr hd' (mulRaw_air he.air hair) (inf_openR hr) (inf_openR hr)
        (hroom [s] (by simp) (by simp))
    obtain ⟨t, h1, h2, h3⟩ := ih hn (mulRaw_air he.air hair) hd' (by
      intro l hl hne
      exact hroom (s :: l) (List.cons_prefix_cons.2 ⟨rfl, hl⟩) (by simp))
    refine ⟨t, ?_, h2, h3⟩
    unfold transferMatrixList
    rw [if_pos (le_infR he.near.L), inf_subR he.near.L, hm]
    exact h1

theorem forall₂_fst {α β : Type} {R : α → β → Prop} {l : List α} {l' : List β} (h : List.Forall₂ R l l') : ∀ x ∈ l, ∃ y, R x y := by
  induction h with
  | nil => simp
  | cons h1 _ ih =>
    intro x hx
    rcases List.mem_cons.1 hx with rfl | hx
    · exact ⟨_, h1⟩
    · exact ih x hx

/-- A list of elements in air makes a group when each product has room. -/
theorem appendAll_accepts (hr : Rounding rnd u) {es : List (Elem (Fl K rnd))} {ts : List (RStage K)} (hes : List.Forall₂ (AirElem u) es ts)
    {g : Group (Fl K rnd)} {ss : List (RStage K)} (hg : List.Forall₂ (AirElem u) g.elems ss) (hga : AirMat g.mat)
    (hroom : ∀ l, l <+: ss ++ ts → l ≠ [] → (l.foldl RStage.andThen RStage.one).Room u) :
    ∃ g', g.appendAll es = (g', .ok ()) ∧ AirMat g'.mat := by
  induction hes generalizing g ss with
  | nil => exact ⟨g, rfl, hga⟩
  | @cons e s es ts he _ ih =>
    have h1 : g.append e = g.push e := by
      unfold Group.append
      cases hl : g.elems.getLast? with
      | none => rfl
      | some last =>
        obtain ⟨s', hs'⟩ := forall₂_fst hg last (List.mem_of_getLast? hl)
        simp only [hs'.air.2, he.air.1]
        have : ((num 1 : Fl K rnd) !=. num 1) = false := by
          show (!((num 1 : Fl K rnd) ==. num 1)) = false
          rw [eq_num]; simp
        rw [this]; rfl
    have h2 : List.Forall₂ (AirElem u) (g.elems ++ [e]) (ss ++ [s]) := List.rel_append hg (.cons he .nil)
    obtain ⟨t, t1, t2, -⟩ := transferMatrixList_accepts hr h2 (nearMat_one hr) ⟨one_num hr, one_num hr⟩
      (by simp [RStage.one, Stage.dt]) (by
        intro l hl hne
        refine hroom l (hl.trans ?_) hne
        rw [show ss ++ s :: ts = (ss ++ [s]) ++ ts by simp]
        exact List.prefix_append _ _)
    have h3 : g.append e = ({ g with elems := g.elems ++ [e], mat := g.mat.refresh t }, .ok ()) := by
      rw [h1]; unfold Group.push; simp only [t1]
    obtain ⟨g', q1, q2⟩ := ih (g := { g with elems := g.elems ++ [e], mat := g.mat.refresh t }) h2 t2 (by simpa using hroom)
    refine ⟨g', ?_, q2⟩
    unfold Group.appendAll
    rw [h3]; exact q1

/-! ## Elements -/

theorem thick_near (hr : Rounding rnd u) {n t : K} {R1 R2 diam : Option K} (hn : n ≠ 0) (hR1 : R1 ≠ some 0) (hR2 : R2 ≠ some 0) :
    ∃ a b c d, thickA (num n : Fl K rnd) (optNum R1) (num t) = .ok a ∧ thickB (num n : Fl K rnd) (num t) = .ok b ∧
      thickC (num n : Fl K rnd) (optNum R1) (optNum R2) (num t) = .ok c ∧ thickD (num n : Fl K rnd) (optNum R2) (num t) = .ok d ∧
      ∀ m : Mat (Fl K rnd), m.A = a → m.B = b → m.C = c → m.D = d → m.L = num t →
        NearMat u m ⟨(Sys.thick n (curvature R1) (curvature R2) t).stage diam none, thickMaj n (curvature R1) (curvature R2) t diam, 10⟩ := by
  have one := near_one (rnd := rnd) hr
  have n1 : Near u 1 (1 - num n : Fl K rnd) (1 - n) |1 - n| := by
    rw [one_num hr, num_sub]; exact (near_num (rnd := rnd) u (1 - n)).round hr
  have n2 : Near u 1 (num n - 1 : Fl K rnd) (n - 1) |n - 1| := by
    rw [one_num hr, num_sub]; exact (near_num (rnd := rnd) u (n - 1)).round hr
  have dn := divBy_num (rnd := rnd) (u := u) hn
  obtain ⟨qa, ea1, ea2⟩ := ((near_num (rnd := rnd) u t).mul hr n1).divBy hr (dn.mul hr hR1)
  have eA := ea2.add hr (one.mono hr.nonneg (Nat.zero_le _) le_rfl)
  obtain ⟨b, eb1, eb2⟩ := (near_num (rnd := rnd) u t).divBy hr dn
  obtain ⟨qd, ed1, ed2⟩ := ((near_num (rnd := rnd) u t).mul hr n2).divBy hr (dn.mul hr hR2)
  have eD := ed2.add hr (one.mono hr.nonneg (Nat.zero_le _) le_rfl)
  obtain ⟨i1, ec1, ec2⟩ := one.divBy hr (divBy_opt (rnd := rnd) (u := u) hR1)
  obtain ⟨i2, ec3, ec4⟩ := one.divBy hr (divBy_opt (rnd := rnd) (u := u) hR2)
  obtain ⟨q, ec5, ec6⟩ := ((near_num (rnd := rnd) u t).mul hr n2).divBy hr ((dn.mul hr hR1).mul hr hR2)
  have eC := n2.neg.mul hr (((ec2.sub hr ec4).mono hr.nonneg (by omega : _ ≤ 0 + 1 + 1 + (0 + 2 + 2) + 1) le_rfl).add hr ec6)
  refine ⟨qa + 1, b, -(num n - 1) * (i1 - i2 + q), qd + 1, ?_, eb1, ?_, ?_, ?_⟩
  · unfold thickA; rw [ea1]; rfl
  · unfold thickC; rw [ec1, ec3, ec5]; rfl
  · unfold thickD; rw [ed1]; rfl
  intro m hA hB hC hD hL
  rw [Sys.thick_eq _ _ _ hn]
  refine ⟨?_, ?_, ?_, ?_, ?_⟩
  · simp only [Sys.stage, thickMaj, hA]
    have e1 : t * (1 - n) * (curvature R1 / n) + 1 = t * (1 - n) * (n⁻¹ * curvature R1) + 1 := by field_simp
    have e2 : |t| * |1 - n| * |curvature R1 / n| + 1 = |t| * |1 - n| * |n⁻¹ * curvature R1| + 1 := by
      rw [div_eq_inv_mul]
    simp only [e1, e2]
    exact eA.mono hr.nonneg (by omega) le_rfl
  · simp only [Sys.stage, thickMaj, hB]
    rw [div_eq_mul_inv, abs_mul]
    exact eb2.mono hr.nonneg (by omega) le_rfl
  · simp only [Sys.stage, thickMaj, hC]
    have e1 : -(n - 1) * (curvature R1 - curvature R2 + t * (n - 1) * (curvature R1 * curvature R2 / n)) =
        -(n - 1) * (1 * curvature R1 - 1 * curvature R2 + t * (n - 1) * (n⁻¹ * curvature R1 * curvature R2)) := by
      field_simp
    have e2 : |n - 1| * (|curvature R1| + |curvature R2| + |t| * |n - 1| * |curvature R1 * curvature R2 / n|) =
        |n - 1| * (1 * |curvature R1| + 1 * |curvature R2| + |t| * |n - 1| * |n⁻¹ * curvature R1 * curvature R2|) := by
      rw [one_mul, one_mul, div_eq_inv_mul, mul_assoc n⁻¹]
    simp only [e1, e2]
    exact eC.mono hr.nonneg (by omega) le_rfl
  · simp only [Sys.stage, thickMaj, hD]
    have e1 : t * (n - 1) * (curvature R2 / n) + 1 = t * (n - 1) * (n⁻¹ * curvature R2) + 1 := by field_simp
    have e2 : |t| * |n - 1| * |curvature R2 / n| + 1 = |t| * |n - 1| * |n⁻¹ * curvature R2| + 1 := by
      rw [div_eq_inv_mul]
    simp only [e1, e2]
    exact eD.mono hr.nonneg (by omega) le_rfl
  · rw [hL]
    exact (near_num u t).mono hr.nonneg (by omega) le_rfl

theorem thick_det {n t k1 k2 : K} (hn : n ≠ 0) (diam : Option K) : ((Sys.thick n k1 k2 t).stage diam none).dt = 1 := by
  rw [Sys.thick_eq _ _ _ hn]
  simp only [Sys.stage, Stage.dt]
  field_simp
  ring

theorem mkThickOf_accepts (hr : Rounding rnd u) (kind : Kind (Fl K rnd)) {n t : K} {R1 R2 diam : Option K} (hn : n ≠ 0) (hR1 : R1 ≠ some 0)
    (hR2 : R2 ≠ some 0) (hdiam : OpenDiam diam)
    (hroom : RStage.Room u ⟨(Sys.thick n (curvature R1) (curvature R2) t).stage diam none, thickMaj n (curvature R1) (curvature R2) t diam, 10⟩) :
    ∃ m, mkThickOf kind (num n : Fl K rnd) (optNum R1) (optNum R2) (num t) (optNum diam) = .ok m ∧ AirMat m := by
  obtain ⟨a, b, c, d, ha, hb, hc, hd, hm⟩ := thick_near (rnd := rnd) hr (t := t) (diam := diam) hn hR1 hR2
  unfold mkThickOf
  simp only [ha, hb, hc, hd, bind, Except.bind]
  refine ⟨_, (hm _ rfl rfl rfl rfl rfl).accepts hr (thick_det hn _) ⟨one_num hr, one_num hr⟩ (le_zeroR hr hdiam) (inf_openR hr) hroom, ?_⟩
  exact ⟨one_num hr, one_num hr⟩

/-- matrices with coefficients 1, and no height changed or no angle changed -/
theorem det_simple (hr : Rounding rnd u) {m : Mat (Fl K rnd)} (hA : m.A = 1) (hD : m.D = 1) (h : m.C = 0 ∨ (m.B = 0 ∧ ∃ c, m.C = num c)) :
    m.determinant = num 1 := by
  have h1 : (1 : Fl K rnd) * 1 = num 1 := by rw [one_num hr, num_mul, mul_one, hr.one]
  unfold Mat.determinant
  split_ifs with hc
  · rw [hA, hD, h1]
  · rcases h with h | ⟨hB, c, hC⟩
    · rw [h, zero_num hr, eq_num] at hc; simp at hc
    · rw [hA, hD, h1, hB, hC, zero_num hr, num_mul, zero_mul, hr.zero, num_sub, sub_zero, hr.one]

theorem simple_accepts (hr : Rounding rnd u) {m : Mat (Fl K rnd)} (hA : m.A = 1) (hD : m.D = 1) (h : m.C = 0 ∨ (m.B = 0 ∧ ∃ c, m.C = num c))
    (ha : AirMat m) (h1 : (m.apertureDiameter ≤. 0) = false) (h2 : (m.apertureNA ≤. 0) = false) :
    Mat.init m = .ok { m with isFlipped := false } := by
  refine init_accepts hr ha h1 h2 (det_simple hr hA hD h) ?_
  rw [sub_self, abs_zero, mul_zero]
  have := hr.small
  have : (1 : K) / 8 < 1 := by norm_num
  have : 0 ≤ 1 - u := by linarith
  positivity

theorem prefix_room {ps : List (Part K)} {acc : RStage K} (h : ∀ s ∈ Part.madeList acc ps, s.Room u) :
    ∀ l, l <+: ps.map Part.rmat → l ≠ [] → (l.foldl RStage.andThen acc).Room u := by
  induction ps generalizing acc with
  | nil => intro l hl hne; simp only [List.map_nil, List.prefix_nil] at hl; exact absurd hl hne
  | cons p ps ih =>
    intro l hl hne
    cases l with
    | nil => exact absurd rfl hne
    | cons x l =>
      rw [List.map_cons, List.cons_prefix_cons] at hl
      obtain ⟨rfl, hl⟩ := hl
      unfold Part.madeList at h
      rw [List.foldl_cons]
      by_cases hnil : l = []
      · subst hnil; exact h _ (List.mem_append_right _ (by simp))
      · exact ih (fun s hs => h s (List.mem_append_right _ (List.mem_cons_of_mem _ hs))) l hl hnil

theorem foldl_det {es : List (Elem (Fl K rnd))} {ss : List (RStage K)} (h : List.Forall₂ (AirElem u) es ss) {s0 : RStage K}
    (hd : s0.exact.dt = 1) : (ss.foldl RStage.andThen s0).exact.dt = 1 := by
  induction h generalizing s0 with
  | nil => exact hd
  | cons h1 _ ih =>
    rw [List.foldl_cons]
    refine ih ?_
    change (s0.exact.andThen _).dt = 1
    rw [Stage.andThen_dt, hd, h1.det, one_mul]

theorem wrap_accepts {m : Mat (Fl K rnd)} (h : Mat.init m = .ok { m with isFlipped := false }) (ha : AirMat m) :
    ∃ e : Elem (Fl K rnd), (Mat.init m).map .leaf = .ok e ∧ AirMat e.mat := by
  rw [h]; exact ⟨_, rfl, ha⟩

mutual
/-- A program in air is accepted when every matrix made has room. -/
theorem buildR_accepts (hr : Rounding rnd u) : ∀ {p : Part K}, p.InAir → (∀ s ∈ p.made, s.Room u) →
    ∃ e, p.buildR rnd = .ok e ∧ AirMat e.mat ∧ p.rmat.exact.dt = 1
  | .space d n diam, ha, hroom => by
    obtain ⟨rfl, hd⟩ := ha
    obtain ⟨e, h1, h2⟩ := wrap_accepts (simple_accepts hr (m := { (Mat.one : Mat (Fl K rnd)) with
      A := 1, B := num d, C := 0, D := 1, L := num d, frontIndex := num 1, backIndex := num 1,
      apertureDiameter := optNum diam, kind := .space }) rfl rfl (.inl rfl) ⟨rfl, rfl⟩ (le_zeroR hr hd) (inf_openR hr)) ⟨rfl, rfl⟩
    exact ⟨e, h1, h2, by simp [Part.rmat, Part.rstages, Stage.withOps, Sys.stage, Sys.space, Stage.dt]⟩
  | .lens f diam, ha, hroom => by
    obtain ⟨hf, hd⟩ := ha
    have h0 : pyDiv (-1 : Fl K rnd) (num f) = .ok (num (rnd (-1 / f))) := by
      rw [one_num hr, neg_num, pyDiv_num hr _ _ hf]
    obtain ⟨e, h1, h2⟩ := wrap_accepts (simple_accepts hr (m := { (Mat.one : Mat (Fl K rnd)) with
      A := 1, B := 0, C := num (rnd (-1 / f)), D := 1, L := 0, frontVertex := some 0, backVertex := some 0,
      apertureDiameter := optNum diam, kind := .lens (num f) 4 }) rfl rfl (.inr ⟨rfl, _, rfl⟩) ⟨one_num hr, one_num hr⟩ (le_zeroR hr hd)
      (inf_openR hr)) ⟨one_num hr, one_num hr⟩
    refine ⟨e, ?_, h2, by simp [Part.rmat, Part.rstages, Stage.withOps, Sys.stage, Sys.lens, Stage.dt]⟩
    unfold Part.buildR Part.buildWith mkLens
    simp only [h0, bind, Except.bind]
    exact h1
  | .mirror R diam, ha, hroom => by
    obtain ⟨hf, hd⟩ := ha
    have h0 : pyDiv (2 : Fl K rnd) (num R) = .ok (num (rnd (2 / R))) := by
      rw [two_num hr, pyDiv_num hr _ _ hf]
    obtain ⟨e, h1, h2⟩ := wrap_accepts (simple_accepts hr (m := { (Mat.one : Mat (Fl K rnd)) with
      A := 1, B := 0, C := num (rnd (2 / R)), D := 1, L := 0, frontVertex := some 0, backVertex := some 0,
      apertureDiameter := optNum diam, kind := .curvedMirror }) rfl rfl (.inr ⟨rfl, _, rfl⟩) ⟨one_num hr, one_num hr⟩ (le_zeroR hr hd)
      (inf_openR hr)) ⟨one_num hr, one_num hr⟩
    refine ⟨e, ?_, h2, by simp [Part.rmat, Part.rstages, Stage.withOps, Sys.stage, Sys.mirror, Stage.dt]⟩
    unfold Part.buildR Part.buildWith mkCurvedMirror
    simp only [h0, bind, Except.bind]
    exact h1
  | .interface .., ha, _ => ha.elim
  | .thickLens n R1 R2 t diam, ha, hroom => by
    obtain ⟨hn, hR1, hR2, hd⟩ := ha
    obtain ⟨m, h1, h2⟩ := mkThickOf_accepts hr (.thickLens (num n) (optNum R1) (optNum R2)) (t := t) hn hR1 hR2 hd
      (hroom _ (by simp only [Part.made, Part.rstages, List.mem_singleton]))
    refine ⟨.leaf m, ?_, h2, ?_⟩
    · unfold Part.buildR Part.buildWith mkThickLens; rw [h1]; rfl
    · exact thick_det hn _
  | .slab n t diam, ha, hroom => by
    obtain ⟨hn, hd⟩ := ha
    obtain ⟨m, h1, h2⟩ := mkThickOf_accepts hr (.slab (num n) inf inf) (t := t) (R1 := none) (R2 := none) hn (by simp) (by simp) hd
      (hroom _ (by simp only [Part.made, Part.rstages, List.mem_singleton, curvature]))
    refine ⟨.leaf m, ?_, h2, ?_⟩
    · unfold Part.buildR Part.buildWith mkSlab
      change (mkThickOf _ _ (optNum none) (optNum none) _ _).map _ = _
      rw [h1]; rfl
    · exact thick_det hn _
  | .aperture diam na label, ha, hroom => by
    obtain ⟨hd, hna⟩ := ha
    obtain ⟨e, h1, h2⟩ := wrap_accepts (simple_accepts hr (m := { (Mat.one : Mat (Fl K rnd)) with
      apertureDiameter := optNum diam, apertureNA := optNum na, label := label, kind := .aperture }) rfl rfl (.inl rfl)
      ⟨one_num hr, one_num hr⟩ (le_zeroR hr hd) (le_zeroR hr hna)) ⟨one_num hr, one_num hr⟩
    exact ⟨e, h1, h2, by simp [Part.rmat, Part.rstages, Stage.withOps, Sys.stage, Sys.one, Stage.dt]⟩
  | .matrix s fv bv diam, ha, hroom => by
    obtain ⟨h1, h2, h3, hd⟩ := ha
    have hm : NearMat u (genericMatWith num optNum s fv bv diam : Mat (Fl K rnd)) ((s.stage diam none).withOps 0) :=
      ⟨near_num u _, near_num u _, near_num u _, near_num u _, near_num u _⟩
    have ha : AirMat (genericMatWith num optNum s fv bv diam : Mat (Fl K rnd)) := by
      simp [AirMat, genericMatWith, h1, h2]
    obtain ⟨e, q1, q2⟩ := wrap_accepts (hm.accepts hr h3 ha (le_zeroR hr hd) (inf_openR hr)
      (hroom _ (by simp only [Part.made, Part.rstages, List.mem_singleton]))) ha
    exact ⟨e, q1, q2, h3⟩
  | .group label ps, ha, hroom => by
    unfold Part.InAir at ha
    unfold Part.made at hroom
    obtain ⟨es, h1, h2⟩ := buildListR_accepts hr ha RStage.one hroom
    obtain ⟨g, g1, g2⟩ := appendAll_accepts hr h2 (g := Group.empty label) (ss := []) .nil ⟨one_num hr, one_num hr⟩ (by
      intro l hl hne
      simp only [List.nil_append] at hl
      exact prefix_room hroom l hl hne)
    refine ⟨g.toElem, ?_, g2, ?_⟩
    · unfold Part.buildR Part.buildWith
      rw [h1]
      simp only [Group.new, g1]; rfl
    · unfold Part.rmat
      rw [rmatList_foldl]
      exact foldl_det h2 (by simp [RStage.one, Stage.dt])
theorem buildListR_accepts (hr : Rounding rnd u) : ∀ {ps : List (Part K)}, Part.InAirList ps → ∀ acc : RStage K,
    (∀ s ∈ Part.madeList acc ps, s.Room u) →
    ∃ es : List (Elem (Fl K rnd)), Part.buildListWith num optNum ps = .ok es ∧ List.Forall₂ (AirElem u) es (ps.map Part.rmat)
  | [], _, _, _ => ⟨[], by simp [Part.buildListWith], .nil⟩
  | p :: ps, ha, acc, hroom => by
    unfold Part.InAirList at ha
    unfold Part.madeList at hroom
    obtain ⟨e, h1, h2, h3⟩ := buildR_accepts hr ha.1 (fun s hs => hroom s (List.mem_append_left _ hs))
    obtain ⟨es, h4, h5⟩ := buildListR_accepts hr ha.2 (acc.andThen p.rmat)
      (fun s hs => hroom s (List.mem_append_right _ (List.mem_cons_of_mem _ hs)))
    refine ⟨e :: es, ?_, .cons ⟨buildR_mat hr h1, h2, h3⟩ h5⟩
    unfold Part.buildListWith
    unfold Part.buildR at h1
    rw [h1, h4]
end

end RT
