import Verif.Lemmas.Binary64Matrix
import Verif.Lemmas.RoundedAccept

/-! # Which systems are accepted in binary64 -/

set_option linter.unusedSectionVars false

namespace RT
open PyNum Ext

namespace B64

/-! ## What is built without limits on the exponents is built with them -/

theorem Sim.pyDiv_rev {k l : ℕ} {x x' : B64} {y y' q' : Double} (h : Sim k x y) (h' : Sim l x' y') (hq : RT.pyDiv y y' = .ok q')
    (hk : k + l ≤ 1000) : ∃ q, RT.pyDiv x x' = .ok q ∧ Sim (k + l) q q' := by
  unfold RT.pyDiv at hq ⊢
  have e : (x' ==. 0) = (y' ==. 0) := by
    change PyNum.eq x'.val (0 : B64).val = PyNum.eq y'.val (0 : Double).val
    rw [h'.val, sim_zero.val]
  rw [e]
  split_ifs at hq ⊢
  cases hq
  exact ⟨_, rfl, h.rawDiv h' hk⟩

theorem SimMat.init_rev {k : ℕ} {m : Mat B64} {m' p' : Mat Double} (h : SimMat k m m') (hk : 2 * k + 104 ≤ 1000) (hp : Mat.init m' = .ok p') :
    ∃ p, Mat.init m = .ok p ∧ SimMat k p p' := by
  have e1 : (m.apertureDiameter ≤. 0) = (m'.apertureDiameter ≤. 0) := by
    change PyNum.le m.apertureDiameter.val (0 : B64).val = PyNum.le m'.apertureDiameter.val (0 : Double).val
    rw [h.diam.val, sim_zero.val]
  have e2 : (m.apertureNA ≤. 0) = (m'.apertureNA ≤. 0) := by
    change PyNum.le m.apertureNA.val (0 : B64).val = PyNum.le m'.apertureNA.val (0 : Double).val
    rw [h.na.val, sim_zero.val]
  have ed : Sim (2 * k + 52) m.determinant m'.determinant := by
    unfold Mat.determinant
    have e : (m.C ==. 0) = (m'.C ==. 0) := by
      change PyNum.eq m.C.val (0 : B64).val = PyNum.eq m'.C.val (0 : Double).val
      rw [h.C.val, sim_zero.val]
    rw [e]
    split_ifs
    · exact (h.A.mul h.D (by omega)).mono (by omega)
    · exact ((h.A.mul h.D (by omega)).sub (h.B.mul h.C (by omega)) (by omega)).mono (by omega)
  unfold Mat.init at hp ⊢
  simp only [bind, Except.bind, throw, throwThe, MonadExceptOf.throw, pure, Except.pure] at hp ⊢
  rw [e1, e2]
  by_cases h1 : (m'.apertureDiameter ≤. 0) = true
  · simp [h1] at hp
  by_cases h2 : (m'.apertureNA ≤. 0) = true
  · simp [h1, h2] at hp
  simp only [h1, h2, if_false, Bool.false_eq_true] at hp ⊢
  cases hq : RT.pyDiv m'.frontIndex m'.backIndex with
  | error x => simp [hq] at hp
  | ok q' =>
    obtain ⟨q, hq', hs⟩ := h.nf.pyDiv_rev h.nb hq (by omega)
    rw [hq] at hp
    rw [hq']
    simp only at hp ⊢
    have e3 : areAbsolutelyNotEqual m.determinant q eps = areAbsolutelyNotEqual m'.determinant q' eps := by
      have hd := ed.sub (hs.mono (by omega : k + k ≤ 2 * k + 52)) (by omega)
      unfold areAbsolutelyNotEqual
      change PyNum.lt (eps : B64).val (m.determinant - q).val.abs = PyNum.lt (eps : Double).val (m'.determinant - q').val.abs
      rw [sim_eps.val, hd.val]
    rw [e3]
    split_ifs at hp ⊢
    cases hp
    exact ⟨_, rfl, ⟨h.A, h.B, h.C, h.D, h.L, h.nf, h.nb, h.diam, h.na, h.linear⟩⟩

theorem mkSpace_rev {d n : ℚ} {diam : Option ℚ} (hd : Good range d) (hn : Good range n) (hD : GoodO range diam) {m' : Mat Double}
    (h : mkSpace (Fl.num d) (Fl.num n) (Fl.optNum diam) = .ok m') :
    ∃ m, mkSpace (num d) (num n) (opt diam) = .ok m ∧ SimMat range m m' := by
  unfold mkSpace at h ⊢
  refine SimMat.init_rev ⟨?_, ?_, ?_, ?_, ?_, ?_, ?_, ?_, ?_, ?_⟩ (by decide) h
  · exact sim_one.mono (by decide)
  · exact sim_num hd
  · exact sim_zero.mono (by decide)
  · exact sim_one.mono (by decide)
  · exact sim_num hd
  · exact sim_num hn
  · exact sim_num hn
  · exact sim_opt hD
  · exact sim_inf
  · simp [Mat.Linear]

theorem mkLens_rev {f : ℚ} {diam : Option ℚ} (hf : Good range f) (hD : GoodO range diam) {m' : Mat Double}
    (h : mkLens (Fl.num f) (Fl.optNum diam) = .ok m') :
    ∃ m, mkLens (num f) (opt diam) = .ok m ∧ SimMat range m m' := by
  unfold mkLens at h ⊢
  obtain ⟨c, h1, h2⟩ := bind_ok h
  obtain ⟨c', h1', hc⟩ := sim_one.neg.pyDiv_rev (sim_num hf) h1 (by decide)
  rw [h1']
  refine SimMat.init_rev ⟨?_, ?_, ?_, ?_, ?_, ?_, ?_, ?_, ?_, ?_⟩ (by decide) h2
  · exact sim_one.mono (by decide)
  · exact sim_zero.mono (by decide)
  · exact hc.mono (by decide)
  · exact sim_one.mono (by decide)
  · exact sim_zero.mono (by decide)
  · exact sim_one.mono (by decide)
  · exact sim_one.mono (by decide)
  · exact sim_opt hD
  · exact sim_inf
  · simp [Mat.Linear]

theorem mkCurvedMirror_rev {R : ℚ} {diam : Option ℚ} (hR : Good range R) (hD : GoodO range diam) {m' : Mat Double}
    (h : mkCurvedMirror (Fl.num R) (Fl.optNum diam) = .ok m') :
    ∃ m, mkCurvedMirror (num R) (opt diam) = .ok m ∧ SimMat 49 m m' := by
  unfold mkCurvedMirror at h ⊢
  obtain ⟨c, h1, h2⟩ := bind_ok h
  obtain ⟨c', h1', hc⟩ := sim_two.pyDiv_rev (sim_num hR) h1 (by decide)
  rw [h1']
  refine SimMat.init_rev ⟨?_, ?_, ?_, ?_, ?_, ?_, ?_, ?_, ?_, ?_⟩ (by decide) h2
  · exact sim_one.mono (by decide)
  · exact sim_zero.mono (by decide)
  · exact hc.mono (by decide)
  · exact sim_one.mono (by decide)
  · exact sim_zero.mono (by decide)
  · exact sim_one.mono (by decide)
  · exact sim_one.mono (by decide)
  · exact (sim_opt hD).mono (by decide)
  · exact sim_inf
  · simp [Mat.Linear]

theorem mkDielectric_rev {n1 n2 : ℚ} {R diam : Option ℚ} (hn1 : Good range n1) (hn2 : Good range n2) (hR : GoodO range R) (hD : GoodO range diam)
    {m' : Mat Double} (h : mkDielectric (Fl.num n1) (Fl.num n2) (Fl.optNum R) (Fl.optNum diam) = .ok m') :
    ∃ m, mkDielectric (num n1) (num n2) (opt R) (opt diam) = .ok m ∧ SimMat 440 m m' := by
  unfold mkDielectric dielectricC at h ⊢
  obtain ⟨c, h1, h'⟩ := bind_ok h
  obtain ⟨d, h2, h3⟩ := bind_ok h'
  obtain ⟨c', h1', hc⟩ := ((sim_num hn2).sub (sim_num hn1) (by decide)).neg.pyDiv_rev ((sim_num hn2).mul (sim_opt hR) (by decide)) h1 (by decide)
  obtain ⟨d', h2', hd⟩ := (sim_num hn1).pyDiv_rev (sim_num hn2) h2 (by decide)
  rw [h1', h2']
  refine SimMat.init_rev ⟨?_, ?_, ?_, ?_, ?_, ?_, ?_, ?_, ?_, ?_⟩ (by decide) h3
  · exact sim_one.mono (by decide)
  · exact sim_zero.mono (by decide)
  · exact hc.mono (by decide)
  · exact hd.mono (by decide)
  · exact sim_zero.mono (by decide)
  · exact (sim_num hn1).mono (by decide)
  · exact (sim_num hn2).mono (by decide)
  · exact (sim_opt hD).mono (by decide)
  · exact sim_inf
  · simp [Mat.Linear]

theorem mkThickOf_rev {kind : Kind B64} {kind' : Kind Double} (hk : ∀ n a, kind ≠ .axicon n a) (hk' : ∀ n a, kind' ≠ .axicon n a)
    {n t : ℚ} {R1 R2 diam : Option ℚ} (hn : Good range n) (ht : Good range t) (hR1 : GoodO range R1) (hR2 : GoodO range R2)
    (hD : GoodO range diam) {m' : Mat Double}
    (h : mkThickOf kind' (Fl.num n) (Fl.optNum R1) (Fl.optNum R2) (Fl.num t) (Fl.optNum diam) = .ok m') :
    ∃ m, mkThickOf kind (num n) (opt R1) (opt R2) (num t) (opt diam) = .ok m ∧ SimMat 444 m m' := by
  unfold mkThickOf at h ⊢
  obtain ⟨a, ha, h'⟩ := bind_ok h
  obtain ⟨b, hb, h'⟩ := bind_ok h'
  obtain ⟨c, hc, h'⟩ := bind_ok h'
  obtain ⟨d, hd, h'⟩ := bind_ok h'
  unfold thickA at ha
  obtain ⟨qa, a1, ha⟩ := bind_ok ha
  unfold thickB at hb
  unfold thickC at hc
  obtain ⟨i1, c1, hc⟩ := bind_ok hc
  obtain ⟨i2, c2, hc⟩ := bind_ok hc
  obtain ⟨q, c3, hc⟩ := bind_ok hc
  unfold thickD at hd
  obtain ⟨qd, d1, hd⟩ := bind_ok hd
  cases ha; cases hc; cases hd
  have one := sim_one.mono (by decide : 0 ≤ range)
  have n1 := one.sub (sim_num hn) (by decide)
  have n2 := (sim_num hn).sub one (by decide)
  obtain ⟨qa', a1', sa⟩ := ((sim_num ht).mul n1 (by decide)).pyDiv_rev ((sim_num hn).mul (sim_opt hR1) (by decide)) a1 (by decide)
  obtain ⟨b', hb', sb⟩ := (sim_num ht).pyDiv_rev (sim_num hn) hb (by decide)
  obtain ⟨i1', c1', s1⟩ := sim_one.pyDiv_rev (sim_opt hR1) c1 (by decide)
  obtain ⟨i2', c2', s2⟩ := sim_one.pyDiv_rev (sim_opt hR2) c2 (by decide)
  obtain ⟨q', c3', sq⟩ := ((sim_num ht).mul n2 (by decide)).pyDiv_rev (((sim_num hn).mul (sim_opt hR1) (by decide)).mul (sim_opt hR2) (by decide)) c3 (by decide)
  obtain ⟨qd', d1', sd⟩ := ((sim_num ht).mul n2 (by decide)).pyDiv_rev ((sim_num hn).mul (sim_opt hR2) (by decide)) d1 (by decide)
  have sA := sa.add (sim_one.mono (by decide)) (by decide)
  have sD := sd.add (sim_one.mono (by decide)) (by decide)
  have sC := n2.neg.mul (((s1.sub s2 (by decide)).mono (by decide)).add sq (by decide)) (by decide)
  have ea : thickA (num n) (opt R1) (num t) = .ok (qa' + 1) := by unfold thickA; rw [a1']; rfl
  have ec : thickC (num n) (opt R1) (opt R2) (num t) = .ok (-(num n - 1) * (i1' - i2' + q')) := by
    unfold thickC; rw [c1', c2', c3']; rfl
  have ed : thickD (num n) (opt R2) (num t) = .ok (qd' + 1) := by unfold thickD; rw [d1']; rfl
  have eb : thickB (num n) (num t) = .ok b' := hb'
  rw [ea, eb, ec, ed]
  refine SimMat.init_rev ⟨?_, ?_, ?_, ?_, ?_, ?_, ?_, ?_, ?_, ?_⟩ (by decide) h'
  · exact sA.mono (by decide)
  · exact sb.mono (by decide)
  · exact sC.mono (by decide)
  · exact sD.mono (by decide)
  · exact (sim_num ht).mono (by decide)
  · exact sim_one.mono (by decide)
  · exact sim_one.mono (by decide)
  · exact (sim_opt hD).mono (by decide)
  · exact sim_inf
  · simp [Mat.Linear, hk, hk']

theorem mkAperture_rev {diam na : Option ℚ} {label : String} (hD : GoodO range diam) (hN : GoodO range na) {m' : Mat Double}
    (h : mkAperture (Fl.optNum diam) (Fl.optNum na) label = .ok m') :
    ∃ m, mkAperture (opt diam) (opt na) label = .ok m ∧ SimMat range m m' := by
  unfold mkAperture at h ⊢
  refine SimMat.init_rev ⟨?_, ?_, ?_, ?_, ?_, ?_, ?_, ?_, ?_, ?_⟩ (by decide) h
  · exact sim_one.mono (by decide)
  · exact sim_zero.mono (by decide)
  · exact sim_zero.mono (by decide)
  · exact sim_one.mono (by decide)
  · exact sim_zero.mono (by decide)
  · exact sim_one.mono (by decide)
  · exact sim_one.mono (by decide)
  · exact sim_opt hD
  · exact sim_opt hN
  · simp [Mat.Linear]

theorem mkMatrix_rev {s : Sys ℚ} {fv bv diam : Option ℚ} (ha : Good range s.a) (hb : Good range s.b) (hc : Good range s.c) (hd : Good range s.d)
    (hl : Good range s.len) (hf : Good range s.nf) (hbk : Good range s.nb) (hD : GoodO range diam) {m' : Mat Double}
    (h : Mat.init (genericMatWith Fl.num Fl.optNum s fv bv diam) = .ok m') :
    ∃ m, Mat.init (genericMatWith num opt s fv bv diam) = .ok m ∧ SimMat range m m' := by
  refine SimMat.init_rev ⟨?_, ?_, ?_, ?_, ?_, ?_, ?_, ?_, ?_, ?_⟩ (by decide) h
  · exact sim_num ha
  · exact sim_num hb
  · exact sim_num hc
  · exact sim_num hd
  · exact sim_num hl
  · exact sim_num hf
  · exact sim_num hbk
  · exact sim_opt hD
  · exact sim_inf
  · simp [Mat.Linear, genericMatWith, Mat.one]

/-! ## Groups in air -/

/-- in air on both sides -/
def AirMat64 (m : Mat B64) : Prop := m.frontIndex = num 1 ∧ m.backIndex = num 1

theorem SimMat.air {k : ℕ} {m : Mat B64} {m' : Mat Double} (h : SimMat k m m') (ha : AirMat m') : AirMat64 m := by
  have h1 := h.nf; rw [ha.1] at h1
  have h2 := h.nb; rw [ha.2] at h2
  exact ⟨h1.eq_opt (o := some 1), h2.eq_opt (o := some 1)⟩

theorem tiny_small : tiny ≤ 1 / 1000000 := by
  unfold tiny; rw [pow2_eq]
  calc (2 : ℚ) ^ (-1022 : Int) ≤ 2 ^ (-20 : Int) := zpow_le_zpow_right₀ (by norm_num) (by norm_num)
    _ ≤ _ := by norm_num

theorem huge_large : 1000000 ≤ huge := by
  unfold huge; rw [pow2_eq]
  calc (1000000 : ℚ) ≤ 2 ^ (20 : Int) := by norm_num
    _ ≤ _ := zpow_le_zpow_right₀ (by norm_num) (by norm_num)

theorem div_one64 : RT.pyDiv (num 1) (num 1) = .ok (num 1) := by decide +kernel

theorem sub_num64 (x y : ℚ) : num x - num y = ⟨double64 (x - y)⟩ := by rw [sub_eq_add_neg]; rfl

attribute [local irreducible] double64 double Good

/-- The checks of the constructor pass when the determinant is near 1. -/
theorem init_accepts64 {m : Mat B64} (ha : AirMat64 m) (h1 : (m.apertureDiameter ≤. 0) = false)
    (h2 : (m.apertureNA ≤. 0) = false) {x : ℚ} (hx : m.determinant = num x) (hd : (1 + unitRoundoff) * |x - 1| ≤ (1 - unitRoundoff) * (1 / 100000)) :
    Mat.init m = .ok { m with isFlipped := false } := by
  have hu : unitRoundoff ≤ 1 / 1000 := by norm_num [unitRoundoff]
  have hu0 := u_nonneg
  have e2 : areAbsolutelyNotEqual (num x) (num 1) eps = false := by
    unfold areAbsolutelyNotEqual
    have hb : |x - 1| ≤ huge := by
      have := huge_large
      have h0 := abs_nonneg (x - 1)
      nlinarith
    obtain ⟨r, hr, hr'⟩ := double64_near hb
    rw [sub_num64, hr, eps64]
    change PyNum.lt (Ext.fin (double (1 / 100000))) (Ext.fin |r|) = false
    change decide (double (1 / 100000) < |r|) = false
    rw [decide_eq_false_iff_not, not_lt]
    have p2 := double_rounding.le_abs (1 / 100000)
    have p3 : 0 < double (1 / 100000 : ℚ) := double_rounding.pos (by norm_num)
    rw [abs_of_pos p3, abs_of_pos (by norm_num : (0 : ℚ) < 1 / 100000)] at p2
    have p4 : |r| ≤ |r - (x - 1)| + |x - 1| := by simpa using abs_add_le (r - (x - 1)) (x - 1)
    have p5 := tiny_small
    have p6 := tiny_pos
    rcases le_total |x - 1| tiny with h | h
    · rw [max_eq_right h] at hr'
      nlinarith
    · rw [max_eq_left h] at hr'
      linarith
  unfold Mat.init
  simp only [h1, h2, ha.1, ha.2, hx, div_one64, e2, bind, Except.bind, Bool.false_eq_true, if_false, pure, Except.pure]

theorem Near64.neg {k : ℕ} {x : B64} {a A : ℚ} (h : Near64 k x a A) : Near64 k (-x) (-a) A := by
  obtain ⟨x', rfl, x'', e, h1, h2⟩ := h
  obtain rfl := Fl.num_inj e
  refine ⟨-x', rfl, -x', rfl, by rwa [abs_neg], ?_⟩
  rw [← abs_neg]
  convert h2 using 2; ring

theorem NearMat64.determinant {m : Mat B64} {s : RStage ℚ} (h : NearMat64 m s) (hd : s.exact.dt = 1) (hf : s.Fits tiny unitRoundoff (huge / 2)) :
    ∃ x, m.determinant = num x ∧ |x - 1| ≤ relErr unitRoundoff (2 * s.ops + 2) * (s.maj.a * s.maj.d + s.maj.b * s.maj.c + 2 * tiny) := by
  have hk := hf.ops
  have hdet := hf.det
  have h3 := tiny_pos
  have g1 := mul_nonneg h.A.nonneg h.D.nonneg
  have g2 := mul_nonneg h.B.nonneg h.C.nonneg
  have hAD := h.A.mul h.D (fits_of (mul_mono_u (by omega) hk) (by linarith) (by linarith))
  have hBC := h.B.mul h.C (fits_of (mul_mono_u (by omega) hk) (by linarith) (by linarith))
  unfold Mat.determinant
  by_cases hC : (m.C ==. 0) = true
  · rw [if_pos hC]
    have hB0 := h.B.nonneg
    have hC0 := h.C.nonneg
    obtain ⟨c, hc, c', ec, c1, c2⟩ := h.C
    obtain rfl := Fl.num_inj ec
    obtain ⟨b, -, b', eb, b1, -⟩ := h.B
    rw [hc, zero64] at hC
    change decide (c = 0) = true at hC
    rw [decide_eq_true_eq] at hC
    subst hC
    obtain ⟨x, hx, x', ex, x1, x2⟩ := hAD
    obtain rfl := Fl.num_inj ex
    refine ⟨x, hx, ?_⟩
    have e1 : x - 1 = (x - s.exact.a * s.exact.d) + s.exact.b * s.exact.c := by
      unfold Stage.dt at hd; linear_combination hd
    have e2 : |s.exact.b * s.exact.c| ≤ s.maj.b * (relErr unitRoundoff s.ops * s.maj.c) := by
      rw [abs_mul]
      have : |s.exact.c| ≤ relErr unitRoundoff s.ops * s.maj.c := by simpa using c2
      gcongr
    have e3 : relErr unitRoundoff s.ops ≤ relErr unitRoundoff (2 * s.ops + 2) := relErr_mono u_nonneg (by omega)
    have e4 : relErr unitRoundoff (s.ops + s.ops + 1) ≤ relErr unitRoundoff (2 * s.ops + 2) := relErr_mono u_nonneg (by omega)
    have e0 := relErr_nonneg u_nonneg (2 * s.ops + 2)
    have e5 : s.maj.b * (relErr unitRoundoff s.ops * s.maj.c) ≤ relErr unitRoundoff (2 * s.ops + 2) * (s.maj.b * s.maj.c) := by
      have := mul_le_mul_of_nonneg_right e3 (mul_nonneg hB0 hC0)
      linarith
    have e6 : relErr unitRoundoff (s.ops + s.ops + 1) * (s.maj.a * s.maj.d + tiny) ≤ relErr unitRoundoff (2 * s.ops + 2) * (s.maj.a * s.maj.d + tiny) :=
      mul_le_mul_of_nonneg_right e4 (by linarith)
    have e7 := abs_add_le (x - s.exact.a * s.exact.d) (s.exact.b * s.exact.c)
    have e8 := mul_nonneg e0 h3.le
    rw [e1]
    linarith
  · rw [if_neg hC]
    obtain ⟨x, hx, x', ex, x1, x2⟩ := hAD.add hBC.neg (by linarith) (fits_of (mul_mono_u (by omega) hk) (by linarith) (by linarith))
    obtain rfl := Fl.num_inj ex
    refine ⟨x, hx, ?_⟩
    have e1 : s.exact.a * s.exact.d + -(s.exact.b * s.exact.c) = 1 := by unfold Stage.dt at hd; linarith
    rw [e1] at x2
    have : s.ops + s.ops + 1 + 1 = 2 * s.ops + 2 := by ring
    rw [this] at x2
    have e9 : s.maj.a * s.maj.d + tiny + (s.maj.b * s.maj.c + tiny) = s.maj.a * s.maj.d + s.maj.b * s.maj.c + 2 * tiny := by ring
    rwa [e9] at x2

theorem NearMat64.accepts {m : Mat B64} {s : RStage ℚ} (h : NearMat64 m s) (hd : s.exact.dt = 1)
    (ha : AirMat64 m) (h1 : (m.apertureDiameter ≤. 0) = false) (h2 : (m.apertureNA ≤. 0) = false) (hf : s.Fits tiny unitRoundoff (huge / 2))
    (hroom : s.RoomW tiny unitRoundoff) : Mat.init m = .ok { m with isFlipped := false } := by
  obtain ⟨x, hx, hb⟩ := h.determinant hd hf
  refine init_accepts64 ha h1 h2 hx (le_trans ?_ hroom)
  have := u_nonneg
  gcongr

/-- what is needed of an element of a group in air -/
structure AirElem64 (e : Elem B64) (s : RStage ℚ) : Prop where
  near : NearMat64 e.mat s
  air : AirMat64 e.mat
  det : s.exact.dt = 1

theorem mulRaw_air64 {m r : Mat B64} (h1 : AirMat64 m) (h2 : AirMat64 r) : AirMat64 (m.mulRaw r) := by
  unfold AirMat64 Mat.mulRaw Mat.mulFrontIndex Mat.mulBackIndex
  dsimp only
  split_ifs <;> simp [h1.1, h1.2, h2.1, h2.2]

theorem inf_open64 : ((inf : B64) ≤. 0) = false := by decide +kernel

/-- a product fits and has room -/
def Ok64 (s : RStage ℚ) : Prop := s.Fits tiny unitRoundoff (huge / 2) ∧ s.RoomW tiny unitRoundoff

theorem transferMatrixList_accepts64 {es : List (Elem B64)} {ss : List (RStage ℚ)}
    (hs : List.Forall₂ AirElem64 es ss) {acc : Mat B64} {s0 : RStage ℚ} (ha : NearMat64 acc s0) (hair : AirMat64 acc)
    (hd : s0.exact.dt = 1) (hroom : ∀ l, l <+: ss → l ≠ [] → Ok64 (l.foldl (RStage.andThenW tiny) s0)) :
    ∃ t, transferMatrixList es inf acc = .ok t ∧ AirMat64 t := by
  induction hs generalizing acc s0 with
  | nil => exact ⟨acc, by simp [transferMatrixList], hair⟩
  | @cons e s es ss he _ ih =>
    obtain ⟨f1, f2⟩ : Ok64 (s0.andThenW tiny s) := hroom [s] (by simp) (by simp)
    have hn := he.near.mulRaw ha f1
    have hd' : (s0.andThenW tiny s).exact.dt = 1 := by
      change (s0.exact.andThen s.exact).dt = 1
      rw [Stage.andThen_dt, hd, he.det, one_mul]
    have hm : e.mat.mulMatrix acc = .ok (e.mat.mulRaw acc) :=
      hn.accepts hd' (mulRaw_air64 he.air hair) inf_open64 inf_open64 f1 f2
    obtain ⟨t, h1, h2⟩ := ih hn (mulRaw_air64 he.air hair) hd' (by
      intro l hl hne
      exact hroom (s :: l) (List.cons_prefix_cons.2 ⟨rfl, hl⟩) (by simp))
    refine ⟨t, ?_, h2⟩
    unfold transferMatrixList
    rw [if_pos (le_inf64 he.near.L), inf_sub64 he.near.L, hm]
    exact h1

/-- A list of elements in air makes a group when each product has room. -/
theorem appendAll_accepts64 {es : List (Elem B64)} {ts : List (RStage ℚ)} (hes : List.Forall₂ AirElem64 es ts)
    {g : Group B64} {ss : List (RStage ℚ)} (hg : List.Forall₂ AirElem64 g.elems ss) (hga : AirMat64 g.mat)
    (hroom : ∀ l, l <+: ss ++ ts → l ≠ [] → Ok64 (l.foldl (RStage.andThenW tiny) RStage.one)) :
    ∃ g', g.appendAll es = (g', .ok ()) ∧ AirMat64 g'.mat := by
  induction hes generalizing g ss with
  | nil => exact ⟨g, rfl, hga⟩
  | @cons e s es ts he _ ih =>
    have h1 : g.append e = g.push e := by
      unfold Group.append
      cases hl : g.elems.getLast? with
      | none => rfl
      | some last =>
        obtain ⟨s', hs'⟩ := forall₂_fst hg last (List.mem_of_getLast? hl)
        simp only [hs'.air.2, he.air.1]
        have : ((num 1) !=. num 1) = false := by decide +kernel
        rw [this]; rfl
    have h2 : List.Forall₂ AirElem64 (g.elems ++ [e]) (ss ++ [s]) := List.rel_append hg (.cons he .nil)
    obtain ⟨t, t1, t2⟩ := transferMatrixList_accepts64 h2 nearMat64_one ⟨one64, one64⟩
      (by simp [RStage.one, Stage.dt]) (by
        intro l hl hne
        refine hroom l (hl.trans ?_) hne
        rw [show ss ++ s :: ts = (ss ++ [s]) ++ ts by simp]
        exact List.prefix_append _ _)
    have h3 : g.append e = ({ g with elems := g.elems ++ [e], mat := g.mat.refresh t }, .ok ()) := by
      rw [h1]; unfold Group.push; simp only [t1]
    obtain ⟨g', q1, q2⟩ := ih (g := { g with elems := g.elems ++ [e], mat := g.mat.refresh t }) h2 t2 (by simpa using hroom)
    refine ⟨g', ?_, q2⟩
    unfold Group.appendAll
    rw [h3]; exact q1

theorem prefix_room64 {ps : List (Part ℚ)} {acc : RStage ℚ} (h : ∀ s ∈ Part.madeListW tiny acc ps, Ok64 s) :
    ∀ l, l <+: ps.map (Part.rmatW tiny) → l ≠ [] → Ok64 (l.foldl (RStage.andThenW tiny) acc) := by
  induction ps generalizing acc with
  | nil => intro l hl hne; simp only [List.map_nil, List.prefix_nil] at hl; exact absurd hl hne
  | cons p ps ih =>
    intro l hl hne
    cases l with
    | nil => exact absurd rfl hne
    | cons x l =>
      rw [List.map_cons, List.cons_prefix_cons] at hl
      obtain ⟨rfl, hl⟩ := hl
      unfold Part.madeListW at h
      rw [List.foldl_cons]
      by_cases hnil : l = []
      · subst hnil; exact h _ (List.mem_append_right _ (by simp))
      · exact ih (fun s hs => h s (List.mem_append_right _ (List.mem_cons_of_mem _ hs))) l hl hnil

theorem foldl_det64 {es : List (Elem B64)} {ss : List (RStage ℚ)} (h : List.Forall₂ AirElem64 es ss) {s0 : RStage ℚ}
    (hd : s0.exact.dt = 1) : (ss.foldl (RStage.andThenW tiny) s0).exact.dt = 1 := by
  induction h generalizing s0 with
  | nil => exact hd
  | cons h1 _ ih =>
    rw [List.foldl_cons]
    refine ih ?_
    change (s0.exact.andThen _).dt = 1
    rw [Stage.andThen_dt, hd, h1.det, one_mul]

theorem room_of {s : RStage ℚ} (h : s.RoomW tiny unitRoundoff) : s.Room unitRoundoff := by
  refine le_trans ?_ h
  have h0 := u_nonneg
  have h1 := relErr_nonneg h0 (2 * s.ops + 2)
  have h2 := tiny_pos
  refine mul_le_mul_of_nonneg_left (mul_le_mul_of_nonneg_left ?_ h1) (by linarith)
  linarith

/-- what is built for an element alone -/
theorem leaf_accepts {p : Part ℚ} {k : ℕ} {b : Except PyErr (Mat B64)} {b' : Except PyErr (Mat Double)} (ha : p.InAir) (hroom : ∀ s ∈ p.rstages, s.Room unitRoundoff)
    (hmade : p.made = p.rstages) (h1 : p.build64 = b.map .leaf) (h2 : p.buildR double = b'.map .leaf)
    (hrev : ∀ m', b' = .ok m' → ∃ m, b = .ok m ∧ SimMat k m m') :
    ∃ e, p.build64 = .ok e ∧ AirMat64 e.mat ∧ p.rmat.exact.dt = 1 := by
  obtain ⟨e, q1, q2, q3⟩ := buildR_accepts double_rounding ha (by rw [hmade]; exact hroom)
  rw [h2] at q1
  obtain ⟨m', hm', rfl⟩ := Except.map_ok q1
  obtain ⟨m, hm, hs⟩ := hrev m' hm'
  refine ⟨.leaf m, by rw [h1, hm]; rfl, hs.air q2, q3⟩

mutual
/-- A program in air is accepted when every matrix made has room. -/
theorem build64_accepts : ∀ {p : Part ℚ}, p.AllParams (Good range) (GoodO range) → p.InAir → (∀ s ∈ p.madeW tiny, Ok64 s) →
    ∃ e, p.build64 = .ok e ∧ AirMat64 e.mat ∧ (p.rmatW tiny).exact.dt = 1
  | .space d n diam, hg, ha, hroom => leaf_accepts (p := .space d n diam) ha (fun s hs => room_of (hroom s hs).2) rfl rfl rfl
      fun m' h => mkSpace_rev hg.1 hg.2.1 hg.2.2 h
  | .lens f diam, hg, ha, hroom => leaf_accepts (p := .lens f diam) ha (fun s hs => room_of (hroom s hs).2) rfl rfl rfl
      fun m' h => mkLens_rev hg.1 hg.2 h
  | .mirror R diam, hg, ha, hroom => leaf_accepts (p := .mirror R diam) ha (fun s hs => room_of (hroom s hs).2) rfl rfl rfl
      fun m' h => mkCurvedMirror_rev hg.1 hg.2 h
  | .interface .., _, ha, _ => ha.elim
  | .thickLens n R1 R2 t diam, hg, ha, hroom =>
    leaf_accepts (p := .thickLens n R1 R2 t diam) ha (fun s hs => room_of (hroom s hs).2) rfl rfl rfl
      fun m' h => mkThickOf_rev (by simp) (by simp) hg.1 hg.2.2.2.1 hg.2.1 hg.2.2.1 hg.2.2.2.2 h
  | .slab n t diam, hg, ha, hroom => leaf_accepts (p := .slab n t diam) ha (fun s hs => room_of (hroom s hs).2) rfl rfl rfl
      fun m' h => mkThickOf_rev (R1 := none) (R2 := none) (by simp) (by simp) hg.1 hg.2.1 trivial trivial hg.2.2 h
  | .aperture diam na label, hg, ha, hroom => leaf_accepts (p := .aperture diam na label) ha (fun s hs => room_of (hroom s hs).2) rfl rfl rfl
      fun m' h => mkAperture_rev hg.1 hg.2 h
  | .matrix s fv bv diam, hg, ha, hroom => leaf_accepts (p := .matrix s fv bv diam) ha (fun s hs => room_of (hroom s hs).2) rfl rfl rfl
      fun m' h => mkMatrix_rev hg.1 hg.2.1 hg.2.2.1 hg.2.2.2.1 hg.2.2.2.2.1 hg.2.2.2.2.2.1 hg.2.2.2.2.2.2.1 hg.2.2.2.2.2.2.2 h
  | .group label ps, hg, ha, hroom => by
    unfold Part.InAir at ha
    unfold Part.madeW at hroom
    obtain ⟨es, h1, h2⟩ := buildList64_accepts hg ha RStage.one hroom
    obtain ⟨g, g1, g2⟩ := appendAll_accepts64 h2 (g := Group.empty label) (ss := []) .nil ⟨one64, one64⟩ (by
      intro l hl hne
      simp only [List.nil_append] at hl
      exact prefix_room64 hroom l hl hne)
    refine ⟨g.toElem, ?_, g2, ?_⟩
    · unfold Part.build64 Part.buildWith
      rw [h1]
      simp only [Group.new, g1]; rfl
    · unfold Part.rmatW
      rw [rmatListW_foldl]
      exact foldl_det64 h2 (by simp [RStage.one, Stage.dt])
theorem buildList64_accepts : ∀ {ps : List (Part ℚ)}, Part.AllParamsList (Good range) (GoodO range) ps → Part.InAirList ps → ∀ acc : RStage ℚ,
    (∀ s ∈ Part.madeListW tiny acc ps, Ok64 s) →
    ∃ es : List (Elem B64), Part.buildListWith num opt ps = .ok es ∧ List.Forall₂ AirElem64 es (ps.map (Part.rmatW tiny))
  | [], _, _, _, _ => ⟨[], by simp [Part.buildListWith], .nil⟩
  | p :: ps, hg, ha, acc, hroom => by
    unfold Part.InAirList at ha
    unfold Part.madeListW at hroom
    have hp : ∀ s ∈ p.madeW tiny, Ok64 s := fun s hs => hroom s (List.mem_append_left _ hs)
    obtain ⟨e, h1, h2, h3⟩ := build64_accepts hg.1 ha.1 hp
    obtain ⟨es, h4, h5⟩ := buildList64_accepts hg.2 ha.2 (acc.andThenW tiny (p.rmatW tiny))
      (fun s hs => hroom s (List.mem_append_right _ (List.mem_cons_of_mem _ hs)))
    refine ⟨e :: es, ?_, .cons ⟨build64_mat hg.1 (fun s hs => (hp s hs).1) h1, h2, h3⟩ h5⟩
    unfold Part.buildListWith
    unfold Part.build64 at h1
    rw [h1, h4]
end

end B64
end RT
