import Verif.Lemmas.Binary64

/-! # What programs with moderate parameters build in binary64 -/

set_option linter.unusedSectionVars false

namespace RT
open PyNum Ext

namespace B64

/-- moderate, or not finite -/
def RepE (k : ℕ) : Ext ℚ → Prop
  | .fin v => Good k v
  | _ => True

/-- the same number, of moderate magnitude -/
structure Sim (k : ℕ) (x : B64) (y : Double) : Prop where
  val : x.val = y.val
  rep : RepE k y.val

theorem RepE.mono {k l : ℕ} {e : Ext ℚ} (h : RepE k e) (hkl : k ≤ l) : RepE l e := by
  cases e with
  | fin v => exact Good.mono h hkl
  | _ => trivial

theorem Sim.mono {k l : ℕ} {x : B64} {y : Double} (h : Sim k x y) (hkl : k ≤ l) : Sim l x y := ⟨h.val, h.rep.mono hkl⟩

theorem sim_of {k : ℕ} {e : Ext ℚ} (h : ∀ v, e = .fin v → Moderate k v) (hk : k ≤ 1000) :
    Sim k ⟨B64.round e⟩ (⟨Fl.rndE double e⟩ : Double) := by
  cases e with
  | fin v =>
    have := h v rfl
    exact ⟨by simp [B64.round, Fl.rndE, double64_eq this hk], this.good⟩
  | _ => exact ⟨rfl, trivial⟩

theorem infOf_ne {s v : ℚ} : infOf s ≠ .fin v := by unfold infOf; split_ifs <;> simp

theorem Sim.mul {k l : ℕ} {x x' : B64} {y y' : Double} (h : Sim k x y) (h' : Sim l x' y') (hk : k + l ≤ 1000) :
    Sim (k + l) (x * x') (y * y') := by
  obtain ⟨x⟩ := x; obtain ⟨x'⟩ := x'; obtain ⟨y⟩ := y; obtain ⟨y'⟩ := y'
  obtain ⟨h1, h2⟩ := h; obtain ⟨h3, h4⟩ := h'
  simp only at h1 h3; subst h1 h3
  refine sim_of (e := Ext.mul x x') ?_ hk
  intro v hv
  cases x with
  | fin a =>
    cases x' with
    | fin b => simp only [Ext.mul, Ext.fin.injEq] at hv; subst hv; exact h2.2.mul h4.2
    | _ => simp [Ext.mul, infOf_ne] at hv
  | _ => cases x' <;> simp [Ext.mul, infOf_ne] at hv

theorem Sim.rawDiv {k l : ℕ} {x x' : B64} {y y' : Double} (h : Sim k x y) (h' : Sim l x' y') (hk : k + l ≤ 1000) :
    Sim (k + l) (PyNum.rawDiv x x') (PyNum.rawDiv y y') := by
  obtain ⟨x⟩ := x; obtain ⟨x'⟩ := x'; obtain ⟨y⟩ := y; obtain ⟨y'⟩ := y'
  obtain ⟨h1, h2⟩ := h; obtain ⟨h3, h4⟩ := h'
  simp only at h1 h3; subst h1 h3
  refine sim_of (e := Ext.div x x') ?_ hk
  intro v hv
  cases x with
  | fin a =>
    cases x' with
    | fin b => simp only [Ext.div, Ext.fin.injEq] at hv; subst hv; exact h2.2.div h4.2
    | nan => simp [Ext.div] at hv
    | _ => simp only [Ext.div, Ext.fin.injEq] at hv; subst hv; exact .inl rfl
  | _ => cases x' <;> simp [Ext.div, infOf_ne] at hv

theorem Sim.neg {k : ℕ} {x : B64} {y : Double} (h : Sim k x y) : Sim k (-x) (-y) := by
  obtain ⟨x⟩ := x; obtain ⟨y⟩ := y
  obtain ⟨h1, h2⟩ := h
  simp only at h1; subst h1
  refine ⟨rfl, ?_⟩
  cases x with
  | fin a => exact Good.neg h2
  | _ => trivial

theorem Sim.add {k : ℕ} {x x' : B64} {y y' : Double} (h : Sim k x y) (h' : Sim k x' y') (hk : k + 52 ≤ 1000) :
    Sim (k + 52) (x + x') (y + y') := by
  obtain ⟨x⟩ := x; obtain ⟨x'⟩ := x'; obtain ⟨y⟩ := y; obtain ⟨y'⟩ := y'
  obtain ⟨h1, h2⟩ := h; obtain ⟨h3, h4⟩ := h'
  simp only at h1 h3; subst h1 h3
  refine sim_of (e := Ext.add x x') ?_ hk
  intro v hv
  cases x with
  | fin a =>
    cases x' with
    | fin b => simp only [Ext.add, Ext.fin.injEq] at hv; subst hv; exact Good.add h2 h4
    | _ => simp [Ext.add] at hv
  | _ => cases x' <;> simp [Ext.add] at hv

theorem Sim.sub {k : ℕ} {x x' : B64} {y y' : Double} (h : Sim k x y) (h' : Sim k x' y') (hk : k + 52 ≤ 1000) :
    Sim (k + 52) (x - x') (y - y') := h.add h'.neg hk

theorem sim_num {k : ℕ} {x : ℚ} (h : Good k x) : Sim k (num x) (Fl.num x) := ⟨rfl, h⟩

/-- for parameters that may be infinite -/
def GoodO (k : ℕ) : Option ℚ → Prop
  | none => True
  | some x => Good k x

theorem sim_opt {k : ℕ} {x : Option ℚ} (h : GoodO k x) : Sim k (opt x) (Fl.optNum x) := by
  cases x with
  | none => exact ⟨rfl, trivial⟩
  | some x => exact sim_num h

theorem sim_ofNat (n : ℕ) {k : ℕ} (h : Moderate k (n : ℚ)) (hk : k ≤ 1000) : Sim k (PyNum.ofRat (n : ℚ)) (PyNum.ofRat (n : ℚ)) := by
  refine sim_of (e := (.fin ((n : ℚ) : ℚ))) ?_ hk
  intro v hv
  cases hv
  simpa using h

theorem sim_zero : Sim 0 (0 : B64) (0 : Double) := sim_ofNat 0 (.inl (by simp)) (by omega)
theorem sim_one : Sim 0 (1 : B64) (1 : Double) := sim_ofNat 1 (.inr (by norm_num)) (by omega)
theorem sim_two : Sim 1 (2 : B64) (2 : Double) := sim_ofNat 2 (.inr (by norm_num)) (by omega)
theorem sim_eps : Sim 20 (eps : B64) (eps : Double) := by
  refine sim_of (e := (.fin ((1 / 100000 : ℚ) : ℚ))) ?_ (by omega)
  intro v hv
  cases hv
  refine .inr ?_
  norm_num [abs_of_pos]

theorem Sim.pyDiv {k l : ℕ} {x x' q : B64} {y y' : Double} (h : Sim k x y) (h' : Sim l x' y') (hq : RT.pyDiv x x' = .ok q)
    (hk : k + l ≤ 1000) : ∃ q', RT.pyDiv y y' = .ok q' ∧ Sim (k + l) q q' := by
  unfold RT.pyDiv at hq ⊢
  have e : (x' ==. 0) = (y' ==. 0) := by
    change PyNum.eq x'.val (0 : B64).val = PyNum.eq y'.val (0 : Double).val
    rw [h'.val, sim_zero.val]
  rw [e] at hq
  split_ifs at hq ⊢
  cases hq
  exact ⟨_, rfl, h.rawDiv h' hk⟩

/-- the same matrix -/
structure SimMat (k : ℕ) (m : Mat B64) (m' : Mat Double) : Prop where
  A : Sim k m.A m'.A
  B : Sim k m.B m'.B
  C : Sim k m.C m'.C
  D : Sim k m.D m'.D
  L : Sim k m.L m'.L
  nf : Sim k m.frontIndex m'.frontIndex
  nb : Sim k m.backIndex m'.backIndex
  diam : Sim k m.apertureDiameter m'.apertureDiameter
  na : Sim k m.apertureNA m'.apertureNA
  linear : m.Linear ↔ m'.Linear

theorem SimMat.init {k : ℕ} {m p : Mat B64} {m' : Mat Double} (h : SimMat k m m') (hk : 2 * k + 104 ≤ 1000) (hp : Mat.init m = .ok p) :
    ∃ p', Mat.init m' = .ok p' ∧ SimMat k p p' := by
  have e1 : (m.apertureDiameter ≤. 0) = (m'.apertureDiameter ≤. 0) := by
    change PyNum.le m.apertureDiameter.val (0 : B64).val = PyNum.le m'.apertureDiameter.val (0 : Double).val
    rw [h.diam.val, sim_zero.val]
  have e2 : (m.apertureNA ≤. 0) = (m'.apertureNA ≤. 0) := by
    change PyNum.le m.apertureNA.val (0 : B64).val = PyNum.le m'.apertureNA.val (0 : Double).val
    rw [h.na.val, sim_zero.val]
  have ed : Sim (2 * k + 52) m.determinant m'.determinant := by
    unfold Mat.determinant
    have e : (m.C ==. 0) = (m'.C ==. 0) := by
      change PyNum.eq m.C.val (0 : B64).val = PyNum.eq m'.C.val (0 : Double).val
      rw [h.C.val, sim_zero.val]
    rw [e]
    split_ifs
    · exact (h.A.mul h.D (by omega)).mono (by omega)
    · exact ((h.A.mul h.D (by omega)).sub (h.B.mul h.C (by omega)) (by omega)).mono (by omega)
  unfold Mat.init at hp ⊢
  simp only [bind, Except.bind, throw, throwThe, MonadExceptOf.throw, pure, Except.pure] at hp ⊢
  rw [e1, e2] at hp
  by_cases h1 : (m'.apertureDiameter ≤. 0) = true
  · simp [h1] at hp
  by_cases h2 : (m'.apertureNA ≤. 0) = true
  · simp [h1, h2] at hp
  simp only [h1, h2, if_false, Bool.false_eq_true] at hp ⊢
  cases hq : RT.pyDiv m.frontIndex m.backIndex with
  | error x => simp [hq] at hp
  | ok q =>
    obtain ⟨q', hq', hs⟩ := h.nf.pyDiv h.nb hq (by omega)
    rw [hq] at hp
    rw [hq']
    simp only at hp ⊢
    have e3 : areAbsolutelyNotEqual m.determinant q eps = areAbsolutelyNotEqual m'.determinant q' eps := by
      have hd := ed.sub (hs.mono (by omega : k + k ≤ 2 * k + 52)) (by omega)
      unfold areAbsolutelyNotEqual
      change PyNum.lt (eps : B64).val (m.determinant - q).val.abs = PyNum.lt (eps : Double).val (m'.determinant - q').val.abs
      rw [sim_eps.val, hd.val]
    rw [e3] at hp
    split_ifs at hp ⊢
    cases hp
    exact ⟨_, rfl, ⟨h.A, h.B, h.C, h.D, h.L, h.nf, h.nb, h.diam, h.na, h.linear⟩⟩

/-- magnitudes of the parameters: between 2⁻⁴⁸ and 2⁴⁸, or zero -/
abbrev range : ℕ := 48

theorem sim_inf {k : ℕ} : Sim k (inf : B64) (inf : Double) := ⟨rfl, trivial⟩

theorem simMat_one : SimMat 0 (Mat.one : Mat B64) (Mat.one : Mat Double) :=
  ⟨sim_one, sim_zero, sim_zero, sim_one, sim_zero, sim_one, sim_one, sim_inf, sim_inf, by simp [Mat.Linear, Mat.one]⟩

theorem mkSpace_S {d n : ℚ} {diam : Option ℚ} (hd : Good range d) (hn : Good range n) (hD : GoodO range diam) {m : Mat B64}
    (h : mkSpace (num d) (num n) (opt diam) = .ok m) :
    ∃ m', mkSpace (Fl.num d) (Fl.num n) (Fl.optNum diam) = .ok m' ∧ SimMat range m m' := by
  unfold mkSpace at h ⊢
  refine SimMat.init ⟨?_, ?_, ?_, ?_, ?_, ?_, ?_, ?_, ?_, ?_⟩ (by decide) h
  · exact sim_one.mono (by decide)
  · exact sim_num hd
  · exact sim_zero.mono (by decide)
  · exact sim_one.mono (by decide)
  · exact sim_num hd
  · exact sim_num hn
  · exact sim_num hn
  · exact sim_opt hD
  · exact sim_inf
  · simp [Mat.Linear]

theorem mkLens_S {f : ℚ} {diam : Option ℚ} (hf : Good range f) (hD : GoodO range diam) {m : Mat B64}
    (h : mkLens (num f) (opt diam) = .ok m) :
    ∃ m', mkLens (Fl.num f) (Fl.optNum diam) = .ok m' ∧ SimMat range m m' := by
  unfold mkLens at h ⊢
  obtain ⟨c, h1, h2⟩ := bind_ok h
  obtain ⟨c', h1', hc⟩ := sim_one.neg.pyDiv (sim_num hf) h1 (by decide)
  rw [h1']
  refine SimMat.init ⟨?_, ?_, ?_, ?_, ?_, ?_, ?_, ?_, ?_, ?_⟩ (by decide) h2
  · exact sim_one.mono (by decide)
  · exact sim_zero.mono (by decide)
  · exact hc.mono (by decide)
  · exact sim_one.mono (by decide)
  · exact sim_zero.mono (by decide)
  · exact sim_one.mono (by decide)
  · exact sim_one.mono (by decide)
  · exact sim_opt hD
  · exact sim_inf
  · simp [Mat.Linear]

theorem mkCurvedMirror_S {R : ℚ} {diam : Option ℚ} (hR : Good range R) (hD : GoodO range diam) {m : Mat B64}
    (h : mkCurvedMirror (num R) (opt diam) = .ok m) :
    ∃ m', mkCurvedMirror (Fl.num R) (Fl.optNum diam) = .ok m' ∧ SimMat 49 m m' := by
  unfold mkCurvedMirror at h ⊢
  obtain ⟨c, h1, h2⟩ := bind_ok h
  obtain ⟨c', h1', hc⟩ := sim_two.pyDiv (sim_num hR) h1 (by decide)
  rw [h1']
  refine SimMat.init ⟨?_, ?_, ?_, ?_, ?_, ?_, ?_, ?_, ?_, ?_⟩ (by decide) h2
  · exact sim_one.mono (by decide)
  · exact sim_zero.mono (by decide)
  · exact hc.mono (by decide)
  · exact sim_one.mono (by decide)
  · exact sim_zero.mono (by decide)
  · exact sim_one.mono (by decide)
  · exact sim_one.mono (by decide)
  · exact (sim_opt hD).mono (by decide)
  · exact sim_inf
  · simp [Mat.Linear]

theorem mkDielectric_S {n1 n2 : ℚ} {R diam : Option ℚ} (hn1 : Good range n1) (hn2 : Good range n2) (hR : GoodO range R) (hD : GoodO range diam)
    {m : Mat B64} (h : mkDielectric (num n1) (num n2) (opt R) (opt diam) = .ok m) :
    ∃ m', mkDielectric (Fl.num n1) (Fl.num n2) (Fl.optNum R) (Fl.optNum diam) = .ok m' ∧ SimMat 440 m m' := by
  unfold mkDielectric dielectricC at h ⊢
  obtain ⟨c, h1, h'⟩ := bind_ok h
  obtain ⟨d, h2, h3⟩ := bind_ok h'
  obtain ⟨c', h1', hc⟩ := ((sim_num hn2).sub (sim_num hn1) (by decide)).neg.pyDiv ((sim_num hn2).mul (sim_opt hR) (by decide)) h1 (by decide)
  obtain ⟨d', h2', hd⟩ := (sim_num hn1).pyDiv (sim_num hn2) h2 (by decide)
  rw [h1', h2']
  refine SimMat.init ⟨?_, ?_, ?_, ?_, ?_, ?_, ?_, ?_, ?_, ?_⟩ (by decide) h3
  · exact sim_one.mono (by decide)
  · exact sim_zero.mono (by decide)
  · exact hc.mono (by decide)
  · exact hd.mono (by decide)
  · exact sim_zero.mono (by decide)
  · exact (sim_num hn1).mono (by decide)
  · exact (sim_num hn2).mono (by decide)
  · exact (sim_opt hD).mono (by decide)
  · exact sim_inf
  · simp [Mat.Linear]

theorem mkThickOf_S {kind : Kind B64} {kind' : Kind Double} (hk : ∀ n a, kind ≠ .axicon n a) (hk' : ∀ n a, kind' ≠ .axicon n a)
    {n t : ℚ} {R1 R2 diam : Option ℚ} (hn : Good range n) (ht : Good range t) (hR1 : GoodO range R1) (hR2 : GoodO range R2)
    (hD : GoodO range diam) {m : Mat B64} (h : mkThickOf kind (num n) (opt R1) (opt R2) (num t) (opt diam) = .ok m) :
    ∃ m', mkThickOf kind' (Fl.num n) (Fl.optNum R1) (Fl.optNum R2) (Fl.num t) (Fl.optNum diam) = .ok m' ∧ SimMat 444 m m' := by
  unfold mkThickOf at h ⊢
  obtain ⟨a, ha, h'⟩ := bind_ok h
  obtain ⟨b, hb, h'⟩ := bind_ok h'
  obtain ⟨c, hc, h'⟩ := bind_ok h'
  obtain ⟨d, hd, h'⟩ := bind_ok h'
  unfold thickA at ha
  obtain ⟨qa, a1, ha⟩ := bind_ok ha
  unfold thickB at hb
  unfold thickC at hc
  obtain ⟨i1, c1, hc⟩ := bind_ok hc
  obtain ⟨i2, c2, hc⟩ := bind_ok hc
  obtain ⟨q, c3, hc⟩ := bind_ok hc
  unfold thickD at hd
  obtain ⟨qd, d1, hd⟩ := bind_ok hd
  cases ha; cases hc; cases hd
  have one := sim_one.mono (by decide : 0 ≤ range)
  have n1 := one.sub (sim_num hn) (by decide)
  have n2 := (sim_num hn).sub one (by decide)
  obtain ⟨qa', a1', sa⟩ := ((sim_num ht).mul n1 (by decide)).pyDiv ((sim_num hn).mul (sim_opt hR1) (by decide)) a1 (by decide)
  obtain ⟨b', hb', sb⟩ := (sim_num ht).pyDiv (sim_num hn) hb (by decide)
  obtain ⟨i1', c1', s1⟩ := sim_one.pyDiv (sim_opt hR1) c1 (by decide)
  obtain ⟨i2', c2', s2⟩ := sim_one.pyDiv (sim_opt hR2) c2 (by decide)
  obtain ⟨q', c3', sq⟩ := ((sim_num ht).mul n2 (by decide)).pyDiv (((sim_num hn).mul (sim_opt hR1) (by decide)).mul (sim_opt hR2) (by decide)) c3 (by decide)
  obtain ⟨qd', d1', sd⟩ := ((sim_num ht).mul n2 (by decide)).pyDiv ((sim_num hn).mul (sim_opt hR2) (by decide)) d1 (by decide)
  have sA := sa.add (sim_one.mono (by decide)) (by decide)
  have sD := sd.add (sim_one.mono (by decide)) (by decide)
  have sC := n2.neg.mul (((s1.sub s2 (by decide)).mono (by decide)).add sq (by decide)) (by decide)
  have ea : thickA (Fl.num n : Double) (Fl.optNum R1) (Fl.num t) = .ok (qa' + 1) := by unfold thickA; rw [a1']; rfl
  have ec : thickC (Fl.num n : Double) (Fl.optNum R1) (Fl.optNum R2) (Fl.num t) = .ok (-(Fl.num n - 1) * (i1' - i2' + q')) := by
    unfold thickC; rw [c1', c2', c3']; rfl
  have ed : thickD (Fl.num n : Double) (Fl.optNum R2) (Fl.num t) = .ok (qd' + 1) := by unfold thickD; rw [d1']; rfl
  have eb : thickB (Fl.num n : Double) (Fl.num t) = .ok b' := hb'
  rw [ea, eb, ec, ed]
  refine SimMat.init ⟨?_, ?_, ?_, ?_, ?_, ?_, ?_, ?_, ?_, ?_⟩ (by decide) h'
  · exact sA.mono (by decide)
  · exact sb.mono (by decide)
  · exact sC.mono (by decide)
  · exact sD.mono (by decide)
  · exact (sim_num ht).mono (by decide)
  · exact sim_one.mono (by decide)
  · exact sim_one.mono (by decide)
  · exact (sim_opt hD).mono (by decide)
  · exact sim_inf
  · simp [Mat.Linear, hk, hk']

theorem mkAperture_S {diam na : Option ℚ} {label : String} (hD : GoodO range diam) (hN : GoodO range na) {m : Mat B64}
    (h : mkAperture (opt diam) (opt na) label = .ok m) :
    ∃ m', mkAperture (Fl.optNum diam) (Fl.optNum na) label = .ok m' ∧ SimMat range m m' := by
  unfold mkAperture at h ⊢
  refine SimMat.init ⟨?_, ?_, ?_, ?_, ?_, ?_, ?_, ?_, ?_, ?_⟩ (by decide) h
  · exact sim_one.mono (by decide)
  · exact sim_zero.mono (by decide)
  · exact sim_zero.mono (by decide)
  · exact sim_one.mono (by decide)
  · exact sim_zero.mono (by decide)
  · exact sim_one.mono (by decide)
  · exact sim_one.mono (by decide)
  · exact sim_opt hD
  · exact sim_opt hN
  · simp [Mat.Linear]

theorem mkMatrix_S {s : Sys ℚ} {fv bv diam : Option ℚ} (ha : Good range s.a) (hb : Good range s.b) (hc : Good range s.c) (hd : Good range s.d)
    (hl : Good range s.len) (hf : Good range s.nf) (hbk : Good range s.nb) (hD : GoodO range diam) {m : Mat B64}
    (h : Mat.init (genericMatWith num opt s fv bv diam) = .ok m) :
    ∃ m', Mat.init (genericMatWith Fl.num Fl.optNum s fv bv diam) = .ok m' ∧ SimMat range m (m' : Mat Double) := by
  refine SimMat.init ⟨?_, ?_, ?_, ?_, ?_, ?_, ?_, ?_, ?_, ?_⟩ (by decide) h
  · exact sim_num ha
  · exact sim_num hb
  · exact sim_num hc
  · exact sim_num hd
  · exact sim_num hl
  · exact sim_num hf
  · exact sim_num hbk
  · exact sim_opt hD
  · exact sim_inf
  · simp [Mat.Linear, genericMatWith, Mat.one]

end B64
end RT
