import Verif.Model.FloatLens
import Verif.Props.FloatIndex
import Verif.Props.Catalogue
import Verif.Props.RoundedMedia
import Verif.Props.RoundedCardinal

/-! # Lenses whose data are rounded -/

set_option linter.unusedSectionVars false

namespace RT
open PyNum Ext

/-- majorants of the coefficients of a matrix, rational -/
structure Quad where
  a : ℚ
  b : ℚ
  c : ℚ
  d : ℚ

/-- `s` first, then `t` -/
def Quad.andThen (s t : Quad) : Quad := ⟨t.a * s.a + t.b * s.c, t.a * s.b + t.b * s.d, t.c * s.a + t.d * s.c, t.c * s.b + t.d * s.d⟩

/-- a system computed from data that are `η` away (relatively to the majorants) from those of the system `s` -/
structure Bounded2 (η : ℝ) (r : RStage ℝ) (s : Sys ℝ) (M : Quad) : Prop where
  maj_a : 0 ≤ r.maj.a ∧ r.maj.a ≤ (1 + η) * M.a
  maj_b : 0 ≤ r.maj.b ∧ r.maj.b ≤ (1 + η) * M.b
  maj_c : 0 ≤ r.maj.c ∧ r.maj.c ≤ (1 + η) * M.c
  maj_d : 0 ≤ r.maj.d ∧ r.maj.d ≤ (1 + η) * M.d
  size_a : |s.a| ≤ M.a
  size_b : |s.b| ≤ M.b
  size_c : |s.c| ≤ M.c
  size_d : |s.d| ≤ M.d
  a : |r.exact.a - s.a| ≤ η * M.a
  b : |r.exact.b - s.b| ≤ η * M.b
  c : |r.exact.c - s.c| ≤ η * M.c
  d : |r.exact.d - s.d| ≤ η * M.d

theorem fits_mul {η η' x x' y y' X Y : ℝ} (h0 : 0 ≤ η) (hx : |x| ≤ X) (hy : |y| ≤ Y) (ex : |x' - x| ≤ η * X) (ey : |y' - y| ≤ η' * Y) :
    |x' * y' - x * y| ≤ (η + η' + η * η') * (X * Y) := by
  have hX : 0 ≤ X := (abs_nonneg _).trans hx
  have hY : 0 ≤ Y := (abs_nonneg _).trans hy
  have e : x' * y' - x * y = (x' - x) * (y' - y) + (x' - x) * y + x * (y' - y) := by ring
  rw [e]
  have h1 := abs_add_le ((x' - x) * (y' - y) + (x' - x) * y) (x * (y' - y))
  have h2 := abs_add_le ((x' - x) * (y' - y)) ((x' - x) * y)
  rw [abs_mul] at h1
  rw [abs_mul, abs_mul] at h2
  have k1 : |x' - x| * |y' - y| ≤ η * X * (η' * Y) := mul_le_mul ex ey (abs_nonneg _) (by positivity)
  have k2 : |x' - x| * |y| ≤ η * X * Y := mul_le_mul ex hy (abs_nonneg _) (by positivity)
  have k3 : |x| * |y' - y| ≤ X * (η' * Y) := mul_le_mul hx ey (abs_nonneg _) hX
  nlinarith [h1, h2]

theorem fits_sum {η x' x y' y z' z w' w X Y Z W : ℝ} (h1 : |x' * y' - x * y| ≤ η * (X * Y)) (h2 : |z' * w' - z * w| ≤ η * (Z * W)) :
    |x' * y' + z' * w' - (x * y + z * w)| ≤ η * (X * Y + Z * W) := by
  have e : x' * y' + z' * w' - (x * y + z * w) = (x' * y' - x * y) + (z' * w' - z * w) := by ring
  rw [e]
  have := abs_add_le (x' * y' - x * y) (z' * w' - z * w)
  linarith

theorem fits_size {x y z w X Y Z W : ℝ} (hx : |x| ≤ X) (hy : |y| ≤ Y) (hz : |z| ≤ Z) (hw : |w| ≤ W) : |x * y + z * w| ≤ X * Y + Z * W := by
  have h := abs_add_le (x * y) (z * w)
  rw [abs_mul, abs_mul] at h
  have k1 : |x| * |y| ≤ X * Y := mul_le_mul hx hy (abs_nonneg _) ((abs_nonneg _).trans hx)
  have k2 : |z| * |w| ≤ Z * W := mul_le_mul hz hw (abs_nonneg _) ((abs_nonneg _).trans hz)
  linarith

theorem fits_maj {η η' x y z w X Y Z W : ℝ} (h0 : 0 ≤ η) (h0' : 0 ≤ η') (hx : 0 ≤ x ∧ x ≤ (1 + η') * X) (hy : 0 ≤ y ∧ y ≤ (1 + η) * Y)
    (hz : 0 ≤ z ∧ z ≤ (1 + η') * Z) (hw : 0 ≤ w ∧ w ≤ (1 + η) * W) :
    0 ≤ x * y + z * w ∧ x * y + z * w ≤ (1 + (η + η' + η * η')) * (X * Y + Z * W) := by
  have k1 : x * y ≤ (1 + η') * X * ((1 + η) * Y) := mul_le_mul hx.2 hy.2 hy.1 (hx.1.trans hx.2)
  have k2 : z * w ≤ (1 + η') * Z * ((1 + η) * W) := mul_le_mul hz.2 hw.2 hw.1 (hz.1.trans hz.2)
  refine ⟨add_nonneg (mul_nonneg hx.1 hy.1) (mul_nonneg hz.1 hw.1), ?_⟩
  nlinarith [k1, k2]

theorem Bounded2.andThen {η η' : ℝ} (h0 : 0 ≤ η) (h0' : 0 ≤ η') {r r' : RStage ℝ} {s s' : Sys ℝ} {M M' : Quad} (h : Bounded2 η r s M) (h' : Bounded2 η' r' s' M') :
    Bounded2 (η + η' + η * η') (r.andThen r') (s.andThen s') (M.andThen M') := by
  have key : η + η' + η * η' = η' + η + η' * η := by ring
  refine ⟨?_, ?_, ?_, ?_, ?_, ?_, ?_, ?_, ?_, ?_, ?_, ?_⟩ <;>
    simp only [RStage.andThen, Stage.andThen, Sys.andThen, Quad.andThen] <;> push_cast
  · exact fits_maj h0 h0' h'.maj_a h.maj_a h'.maj_b h.maj_c
  · exact fits_maj h0 h0' h'.maj_a h.maj_b h'.maj_b h.maj_d
  · exact fits_maj h0 h0' h'.maj_c h.maj_a h'.maj_d h.maj_c
  · exact fits_maj h0 h0' h'.maj_c h.maj_b h'.maj_d h.maj_d
  · exact fits_size h'.size_a h.size_a h'.size_b h.size_c
  · exact fits_size h'.size_a h.size_b h'.size_b h.size_d
  · exact fits_size h'.size_c h.size_a h'.size_d h.size_c
  · exact fits_size h'.size_c h.size_b h'.size_d h.size_d
  all_goals rw [key]
  · exact fits_sum (fits_mul h0' h'.size_a h.size_a h'.a h.a) (fits_mul h0' h'.size_b h.size_c h'.b h.c)
  · exact fits_sum (fits_mul h0' h'.size_a h.size_b h'.a h.b) (fits_mul h0' h'.size_b h.size_d h'.b h.d)
  · exact fits_sum (fits_mul h0' h'.size_c h.size_a h'.c h.a) (fits_mul h0' h'.size_d h.size_c h'.d h.c)
  · exact fits_sum (fits_mul h0' h'.size_c h.size_b h'.c h.b) (fits_mul h0' h'.size_d h.size_d h'.d h.d)

theorem Bounded2.nonneg {η : ℝ} {r : RStage ℝ} {s : Sys ℝ} {M : Quad} (h : Bounded2 η r s M) : (0 : ℝ) ≤ M.a ∧ (0 : ℝ) ≤ M.b ∧ (0 : ℝ) ≤ M.c ∧ (0 : ℝ) ≤ M.d :=
  ⟨(abs_nonneg _).trans h.size_a, (abs_nonneg _).trans h.size_b, (abs_nonneg _).trans h.size_c, (abs_nonneg _).trans h.size_d⟩

theorem Bounded2.mono {η η' : ℝ} (hη : η ≤ η') {r : RStage ℝ} {s : Sys ℝ} {M : Quad} (h : Bounded2 η r s M) : Bounded2 η' r s M := by
  obtain ⟨pa, pb, pc, pd⟩ := h.nonneg
  have k : ∀ {x : ℝ}, 0 ≤ x → η * x ≤ η' * x := fun hx => mul_le_mul_of_nonneg_right hη hx
  have k' : ∀ {x : ℝ}, 0 ≤ x → (1 + η) * x ≤ (1 + η') * x := fun hx => mul_le_mul_of_nonneg_right (by linarith) hx
  exact ⟨⟨h.maj_a.1, h.maj_a.2.trans (k' pa)⟩, ⟨h.maj_b.1, h.maj_b.2.trans (k' pb)⟩, ⟨h.maj_c.1, h.maj_c.2.trans (k' pc)⟩,
    ⟨h.maj_d.1, h.maj_d.2.trans (k' pd)⟩, h.size_a, h.size_b, h.size_c, h.size_d, h.a.trans (k pa), h.b.trans (k pb), h.c.trans (k pc), h.d.trans (k pd)⟩

/-- the coefficients of one element, which are their own majorants -/
theorem fits_abs {η : ℝ} {s' : Stage ℝ} {k : ℕ} {s : Sys ℝ} {M : Quad} (ha : |s.a| ≤ M.a) (hb : |s.b| ≤ M.b) (hc : |s.c| ≤ M.c) (hd : |s.d| ≤ M.d)
    (ea : |s'.a - s.a| ≤ η * M.a) (eb : |s'.b - s.b| ≤ η * M.b) (ec : |s'.c - s.c| ≤ η * M.c) (ed : |s'.d - s.d| ≤ η * M.d) :
    Bounded2 η (s'.withOps k) s M := by
  have key : ∀ {x x' X : ℝ}, |x| ≤ X → |x' - x| ≤ η * X → 0 ≤ |x'| ∧ |x'| ≤ (1 + η) * X := by
    intro x x' X h1 h2
    have := abs_add_le x (x' - x)
    rw [add_sub_cancel] at this
    exact ⟨abs_nonneg _, by linarith⟩
  exact ⟨key ha ea, key hb eb, key hc ec, key hd ed, ha, hb, hc, hd, ea, eb, ec, ed⟩

theorem fits_one : Bounded2 0 RStage.one (Sys.one 1) ⟨1, 0, 0, 1⟩ := by
  constructor <;> simp [RStage.one, Sys.one]

theorem fits_space {ε t t' : ℝ} {T : ℚ} (n n' : ℝ) (hε : 0 ≤ ε) (hT : t = T) (ht : 0 ≤ t) (he : |t' - t| ≤ ε * t) (diam : Option ℝ) :
    Bounded2 ε (Part.space t' n' diam).rmat (Sys.space t n) ⟨1, T, 0, 1⟩ := by
  have : (Part.space t' n' diam).rmat = ((Sys.space t' n').stage diam none).withOps 0 := rfl
  rw [this]
  subst hT
  apply fits_abs <;> simp only [Sys.space, Sys.stage, sub_self, abs_zero, abs_one, Rat.cast_one, Rat.cast_zero, mul_zero, mul_one, le_refl]
  · rw [abs_of_nonneg ht]
  all_goals first | exact hε | exact he

/-- an interface with indices and a curvature that are `ε` away -/
theorem fits_interface {ε n1 n2 y1 y2 κ κ' : ℝ} {D k : ℚ} (hε : 0 ≤ ε) (hε1 : ε ≤ 1 / 10) (hn1 : 0 < n1) (hn2 : 1 ≤ n2) (hy2 : 1 ≤ y2) (h1 : |y1 - n1| ≤ ε)
    (h2 : |y2 - n2| ≤ ε) (hD1 : (1 : ℚ) ≤ D) (hD : n1 ≤ D * n2) (hk : κ = k) (hκ : |κ' - κ| ≤ ε * |κ|) {R : Option ℝ} (hR : curvature R = κ') (diam : Option ℝ) :
    Bounded2 (4 * ε) (Part.interface y1 y2 R diam).rmat (Sys.interface n1 n2 κ) ⟨1, 0, D * |k|, D⟩ := by
  have e : (Part.interface y1 y2 R diam).rmat = ((Sys.interface y1 y2 (curvature R)).stage diam none).withOps 4 := rfl
  rw [e, hR]
  have hD1' : (1 : ℝ) ≤ D := by exact_mod_cast hD1
  have p2 : 0 < n2 := by linarith
  have q2 : 0 < y2 := by linarith
  have hρ : n1 / n2 ≤ D := by rw [div_le_iff₀ p2]; exact hD
  have hρ0 : 0 < n1 / n2 := by positivity
  have hρe : |y1 / y2 - n1 / n2| ≤ 2 * ε * D := by
    have : y1 / y2 - n1 / n2 = ((y1 - n1) - n1 / n2 * (y2 - n2)) / y2 := by field_simp; ring
    rw [this, abs_div, abs_of_pos q2, div_le_iff₀ q2]
    have k1 := abs_sub (y1 - n1) (n1 / n2 * (y2 - n2))
    rw [abs_mul, abs_of_pos hρ0] at k1
    have k2 : n1 / n2 * |y2 - n2| ≤ D * ε := mul_le_mul hρ h2 (abs_nonneg _) (by linarith)
    have k3 : ε ≤ ε * D := le_mul_of_one_le_right hε hD1'
    have k4 : 2 * ε * D ≤ 2 * ε * D * y2 := le_mul_of_one_le_right (by positivity) hy2
    linarith
  have hc1 : -((n2 - n1) * κ / n2) = (n1 / n2 - 1) * κ := by field_simp; ring
  have hc2 : -((y2 - y1) * κ' / y2) = (y1 / y2 - 1) * κ' := by field_simp; ring
  have hkκ : ((|k| : ℚ) : ℝ) = |κ| := by rw [hk, Rat.cast_abs]
  have hρ1 : |n1 / n2 - 1| ≤ D := by rw [abs_le]; constructor <;> linarith
  apply fits_abs <;> simp only [Sys.interface, Sys.stage, sub_self, abs_zero, abs_one, Rat.cast_one, Rat.cast_zero, mul_zero, mul_one, le_refl, hc1, hc2]
  · rw [abs_mul]
    push_cast
    rw [Rat.cast_abs] at hkκ
    rw [hkκ]
    exact mul_le_mul_of_nonneg_right hρ1 (abs_nonneg _)
  · rw [abs_of_pos hρ0]; exact hρ
  · positivity
  · push_cast
    rw [Rat.cast_abs] at hkκ
    rw [hkκ]
    have e1 : (y1 / y2 - 1) * κ' - (n1 / n2 - 1) * κ = (y1 / y2 - n1 / n2) * κ + (y1 / y2 - n1 / n2) * (κ' - κ) + (n1 / n2 - 1) * (κ' - κ) := by ring
    rw [e1]
    have k1 := abs_add_le ((y1 / y2 - n1 / n2) * κ + (y1 / y2 - n1 / n2) * (κ' - κ)) ((n1 / n2 - 1) * (κ' - κ))
    have k2 := abs_add_le ((y1 / y2 - n1 / n2) * κ) ((y1 / y2 - n1 / n2) * (κ' - κ))
    rw [abs_mul] at k1
    rw [abs_mul, abs_mul] at k2
    have l1 : |y1 / y2 - n1 / n2| * |κ| ≤ 2 * ε * D * |κ| := mul_le_mul_of_nonneg_right hρe (abs_nonneg _)
    have l2 : |y1 / y2 - n1 / n2| * |κ' - κ| ≤ 2 * ε * D * (ε * |κ|) := mul_le_mul hρe hκ (abs_nonneg _) (by positivity)
    have l3 : |n1 / n2 - 1| * |κ' - κ| ≤ D * (ε * |κ|) := mul_le_mul hρ1 hκ (abs_nonneg _) (by linarith)
    have l4 : 2 * ε * D * (ε * |κ|) ≤ 2 * ε * D * (1 / 10 * |κ|) := by gcongr
    have l5 : 0 ≤ ε * D * |κ| := by positivity
    nlinarith [l1, l2, l3, l4, l5]
  · linarith [mul_nonneg hε (by linarith : (0 : ℝ) ≤ D)]

/-! ## Acceptance in Python floats -/

theorem relErr_float {k : ℕ} (hk : k ≤ 46) : relErr (1 / 2 ^ 53 : ℝ) k ≤ 6 / 10 ^ 15 := by
  have hu : (0 : ℝ) ≤ 1 / 2 ^ 53 := by positivity
  refine (relErr_mono hu hk).trans ((C95_bound hu 46 (by norm_num)).trans ?_)
  norm_num

theorem room_air {η : ℝ} (hη : η ≤ 1 / 10) (h0 : 0 ≤ η) {r : RStage ℝ} {s : Sys ℝ} {M : Quad} (h : Bounded2 η r s M) (hk : r.ops ≤ 22)
    (hM : M.a * M.d + M.b * M.c ≤ 100) {m : ℝ} (hm : m = 1 ∨ 6 / 5 ≤ m) : r.RoomFor (1 / 2 ^ 53) 1 m := by
  have hM' : (M.a * M.d + M.b * M.c : ℝ) ≤ 100 := by exact_mod_cast hM
  have hu : (0 : ℝ) ≤ 1 / 2 ^ 53 := by positivity
  have e1 := relErr_float (k := 2 * r.ops + 2) (by omega)
  have e0 : 0 ≤ relErr (1 / 2 ^ 53 : ℝ) (2 * r.ops + 2) := relErr_nonneg hu _
  have k1 : r.maj.a * r.maj.d ≤ (1 + η) * M.a * ((1 + η) * M.d) := mul_le_mul h.maj_a.2 h.maj_d.2 h.maj_d.1 (h.maj_a.1.trans h.maj_a.2)
  have k2 : r.maj.b * r.maj.c ≤ (1 + η) * M.b * ((1 + η) * M.c) := mul_le_mul h.maj_b.2 h.maj_c.2 h.maj_c.1 (h.maj_b.1.trans h.maj_b.2)
  have k3 : r.maj.a * r.maj.d + r.maj.b * r.maj.c ≤ 121 := by
    have : (1 + η) * (1 + η) ≤ 121 / 100 := by nlinarith
    have p : (0 : ℝ) ≤ M.a * M.d + M.b * M.c := by
      obtain ⟨pa, pb, pc, pd⟩ := h.nonneg; positivity
    calc r.maj.a * r.maj.d + r.maj.b * r.maj.c ≤ (1 + η) * (1 + η) * (M.a * M.d + M.b * M.c) := by linarith
      _ ≤ 121 / 100 * 100 := mul_le_mul this hM' p (by norm_num)
      _ = 121 := by norm_num
  have k4 : relErr (1 / 2 ^ 53 : ℝ) (2 * r.ops + 2) * (r.maj.a * r.maj.d + r.maj.b * r.maj.c) ≤ 6 / 10 ^ 15 * 121 :=
    (mul_le_mul_of_nonneg_left k3 e0).trans (mul_le_mul_of_nonneg_right e1 (by norm_num))
  have hm1 : 1 ≤ m := by rcases hm with h | h <;> linarith
  have k5 : |1 / m| ≤ 1 := by
    rw [abs_of_pos (by positivity), div_le_one (by linarith)]; exact hm1
  constructor
  · have : (1 / 2 ^ 53 : ℝ) * |1 / m| ≤ 1 / 2 ^ 53 := mul_le_of_le_one_right hu k5
    refine (mul_le_mul_of_nonneg_left (add_le_add k4 this) (by positivity)).trans ?_
    norm_num
  · rcases hm with hm | hm
    · exact .inl hm.symm
    · right
      have : 1 / m ≤ 5 / 6 := by rw [div_le_div_iff₀ (by linarith) (by norm_num)]; linarith
      rw [abs_of_nonpos (by linarith)]
      norm_num at k4 ⊢
      norm_num at this
      linarith

theorem room_interface {y1 y2 : ℝ} (h1 : 1 ≤ y1) (h1' : y1 ≤ 3) (h2 : 1 ≤ y2) (h2' : y2 ≤ 3) (hd : 1 / 2000 ≤ |y1 - y2|) (R diam : Option ℝ) :
    (Part.interface y1 y2 R diam).rmat.RoomFor (1 / 2 ^ 53) y1 y2 := by
  have e : (Part.interface y1 y2 R diam).rmat = ((Sys.interface y1 y2 (curvature R)).stage diam none).withOps 4 := rfl
  have hu : (0 : ℝ) ≤ 1 / 2 ^ 53 := by positivity
  have q1 : |y1 / y2| ≤ 3 := by
    rw [abs_of_pos (by positivity), div_le_iff₀ (by linarith)]; linarith
  have q2 : relErr (1 / 2 ^ 53 : ℝ) (2 * 4 + 2) * |y1 / y2| ≤ 6 / 10 ^ 15 * 3 :=
    mul_le_mul (relErr_float (by norm_num)) q1 (abs_nonneg _) (by norm_num)
  have q3 : (1 / 2 ^ 53 : ℝ) * |y1 / y2| ≤ 1 / 2 ^ 53 * 3 := mul_le_mul_of_nonneg_left q1 hu
  rw [e]
  constructor
  · simp only [Stage.withOps, Stage.abs, Sys.stage, Sys.interface, abs_one, abs_zero, one_mul, zero_mul, add_zero]
    refine (mul_le_mul_of_nonneg_left (add_le_add q2 q3) (by positivity)).trans ?_
    norm_num
  · right
    simp only [Stage.withOps, Stage.abs, Sys.stage, Sys.interface, abs_one, abs_zero, one_mul, zero_mul, add_zero]
    refine q2.trans_lt ?_
    have : y1 / y2 - 1 = (y1 - y2) / y2 := by field_simp
    rw [this, abs_div, abs_of_pos (by linarith : 0 < y2), lt_div_iff₀ (by linarith)]
    nlinarith

/-- the parts of a lens made of one glass -/
def singletPart (label : String) (y t : ℝ) (R1 R2 : Option ℝ) (d : ℝ) : Part ℝ :=
  .group label [.interface 1 y R1 (some d), .space t y none, .interface y 1 R2 (some d)]

/-- of two glasses -/
def doubletPart (label : String) (y1 y2 t1 t2 : ℝ) (R1 R2 R3 : Option ℝ) (d : ℝ) : Part ℝ :=
  .group label [.interface 1 y1 R1 (some d), .space t1 y1 none, .interface y1 y2 R2 (some d), .space t2 y2 none, .interface y2 1 R3 (some d)]

/-- its majorants -/
def singletQuads (k1 k2 t : ℚ) : List Quad :=
  let q1 := Quad.andThen ⟨1, 0, 0, 1⟩ ⟨1, 0, 1 * |k1|, 1⟩
  let q2 := q1.andThen ⟨1, t, 0, 1⟩
  let q3 := q2.andThen ⟨1, 0, 13 / 5 * |k2|, 13 / 5⟩
  [q3, q2, q1]

def doubletQuads (k1 k2 k3 t1 t2 : ℚ) : List Quad :=
  let q1 := Quad.andThen ⟨1, 0, 0, 1⟩ ⟨1, 0, 1 * |k1|, 1⟩
  let q2 := q1.andThen ⟨1, t1, 0, 1⟩
  let q3 := q2.andThen ⟨1, 0, 2 * |k2|, 2⟩
  let q4 := q3.andThen ⟨1, t2, 0, 1⟩
  let q5 := q4.andThen ⟨1, 0, 13 / 5 * |k3|, 13 / 5⟩
  [q5, q4, q3, q2, q1]

/-- a radius and its float -/
def RadiusNear (ε : ℝ) (R : Option ℝ) (k : ℚ) : Prop := R ≠ some 0 ∧ |curvature R - k| ≤ ε * |(k : ℝ)|

/-- an index and its float -/
structure IndexNear (ε : ℝ) (y n : ℝ) : Prop where
  near : |y - n| ≤ ε
  low : 5 / 4 ≤ n
  high : n ≤ 5 / 2

theorem IndexNear.bounds {ε y n : ℝ} (h : IndexNear ε y n) (hε : ε ≤ 1 / 10000) : 6 / 5 ≤ y ∧ y ≤ 13 / 5 := by
  have := abs_le.1 h.near
  have := h.low
  have := h.high
  constructor <;> linarith

/-- A lens made of one glass is accepted, and its matrix is near that of the data. -/
theorem singlet_fits {y n t t' : ℝ} {T k1 k2 : ℚ} {R1 R2 : Option ℝ} {d : ℝ} (label : String) (hy : IndexNear (5 / 10 ^ 13) y n)
    (hT : t = T) (ht : 0 ≤ t) (ht' : |t' - t| ≤ 5 / 10 ^ 13 * t) (h1 : RadiusNear (5 / 10 ^ 13) R1 k1) (h2 : RadiusNear (5 / 10 ^ 13) R2 k2) (hd : 0 < d)
    (hq : ∀ q ∈ singletQuads k1 k2 T, q.a * q.d + q.b * q.c ≤ 100) :
    (singletPart label y t' R1 R2 d).Between (1 / 2 ^ 53) 1 1 ∧
      ∃ q, (singletQuads k1 k2 T).head? = some q ∧ Bounded2 (8 / 10 ^ 12) (singletPart label y t' R1 R2 d).rmat (Sys.thick n k1 k2 t) q ∧
        (singletPart label y t' R1 R2 d).rmat.ops ≤ 22 := by
  obtain ⟨y1, y2⟩ := hy.bounds (by norm_num)
  have hn1 := hy.low
  have hn2 := hy.high
  have hε : (0 : ℝ) ≤ 5 / 10 ^ 13 := by norm_num
  have f1 : Bounded2 (2 / 10 ^ 12) (Part.interface 1 y R1 (some d)).rmat (Sys.interface 1 n k1) ⟨1, 0, 1 * |k1|, 1⟩ :=
    (fits_interface hε (by norm_num) one_pos (by linarith) (by linarith) (by simpa using hε) hy.near le_rfl (by push_cast; linarith) rfl h1.2 rfl (some d)).mono
      (by norm_num)
  have f2 : Bounded2 (5 / 10 ^ 13) (Part.space t' y none).rmat (Sys.space t n) ⟨1, T, 0, 1⟩ := fits_space n y hε hT ht ht' none
  have f3 : Bounded2 (2 / 10 ^ 12) (Part.interface y 1 R2 (some d)).rmat (Sys.interface n 1 k2) ⟨1, 0, 13 / 5 * |k2|, 13 / 5⟩ :=
    (fits_interface hε (by norm_num) (by linarith) le_rfl le_rfl hy.near (by simpa using hε) (by norm_num) (by push_cast; linarith) rfl h2.2 rfl (some d)).mono
      (by norm_num)
  have g1 := fits_one.andThen le_rfl (by norm_num) f1
  have g2 := g1.andThen (by norm_num) (by norm_num) f2
  have g3 := g2.andThen (by norm_num) (by norm_num) f3
  have hq1 := hq _ (by simp [singletQuads] : (Quad.andThen ⟨1, 0, 0, 1⟩ ⟨1, 0, 1 * |k1|, 1⟩) ∈ _)
  have hq2 := hq _ (by simp [singletQuads] : ((Quad.andThen ⟨1, 0, 0, 1⟩ ⟨1, 0, 1 * |k1|, 1⟩).andThen ⟨1, T, 0, 1⟩) ∈ _)
  have hq3 := hq _ (by simp [singletQuads] :
    (((Quad.andThen ⟨1, 0, 0, 1⟩ ⟨1, 0, 1 * |k1|, 1⟩).andThen ⟨1, T, 0, 1⟩).andThen ⟨1, 0, 13 / 5 * |k2|, 13 / 5⟩) ∈ _)
  have open_d : OpenDiam (some d) := by intro D hD; cases hD; exact hd
  have open_n : OpenDiam (none : Option ℝ) := by intro D hD; cases hD
  refine ⟨?_, _, rfl, ?_, ?_⟩
  · unfold singletPart Part.Between
    refine ⟨one_ne_zero, ?_⟩
    unfold Part.BetweenList
    refine ⟨y, ?_, .inl (by unfold Part.Tells; trivial), room_air (by norm_num) (by norm_num) g1 (by simp [Part.rmat, Part.rstages, RStage.andThen, RStage.one, Stage.withOps]) hq1 (.inr y1), ?_⟩
    · unfold Part.Between
      refine ⟨rfl, rfl, one_ne_zero, by linarith, h1.1, open_d, room_interface le_rfl (by norm_num) (by linarith) (by linarith) ?_ R1 _⟩
      rw [abs_of_nonpos (by linarith)]; linarith
    unfold Part.BetweenList
    refine ⟨y, ?_, .inl (by unfold Part.Tells; rfl), room_air (by norm_num) (by norm_num) g2 (by simp [Part.rmat, Part.rstages, RStage.andThen, RStage.one, Stage.withOps]) hq2 (.inr y1), ?_⟩
    · unfold Part.Between
      exact ⟨rfl, by linarith, by linarith, open_n⟩
    unfold Part.BetweenList
    refine ⟨1, ?_, .inl (by unfold Part.Tells; trivial), room_air (by norm_num) (by norm_num) g3 (by simp [Part.rmat, Part.rstages, RStage.andThen, RStage.one, Stage.withOps]) hq3 (.inl rfl), ?_⟩
    · unfold Part.Between
      refine ⟨rfl, rfl, by linarith, one_ne_zero, h2.1, open_d, room_interface (by linarith) (by linarith) le_rfl (by norm_num) ?_ R2 _⟩
      rw [abs_of_nonneg (by linarith)]; linarith
    unfold Part.BetweenList
    rfl
  · have e : (Sys.thick n k1 k2 t : Sys ℝ) = (((Sys.one 1).andThen (Sys.interface 1 n k1)).andThen (Sys.space t n)).andThen (Sys.interface n 1 k2) := by
      simp [Sys.thick, Sys.andThen, Sys.one, Sys.interface, Sys.space]
    rw [e]
    exact g3.mono (by norm_num)
  · simp [singletPart, doubletPart, Part.rmat, Part.rmatList, Part.rstages, RStage.andThen, RStage.one, Stage.withOps]

/-- A lens made of two glasses is accepted, and its matrix is near that of the data. -/
theorem doublet_fits {y1 y2 n1 n2 t1 t2 t1' t2' : ℝ} {T1 T2 k1 k2 k3 : ℚ} {R1 R2 R3 : Option ℝ} {d : ℝ} (label : String)
    (hy1 : IndexNear (5 / 10 ^ 13) y1 n1) (hy2 : IndexNear (5 / 10 ^ 13) y2 n2) (hap : 1 / 1000 ≤ |n1 - n2|)
    (hT1 : t1 = T1) (ht1 : 0 ≤ t1) (ht1' : |t1' - t1| ≤ 5 / 10 ^ 13 * t1) (hT2 : t2 = T2) (ht2 : 0 ≤ t2) (ht2' : |t2' - t2| ≤ 5 / 10 ^ 13 * t2)
    (h1 : RadiusNear (5 / 10 ^ 13) R1 k1) (h2 : RadiusNear (5 / 10 ^ 13) R2 k2) (h3 : RadiusNear (5 / 10 ^ 13) R3 k3) (hd : 0 < d)
    (hq : ∀ q ∈ doubletQuads k1 k2 k3 T1 T2, q.a * q.d + q.b * q.c ≤ 100) :
    (doubletPart label y1 y2 t1' t2' R1 R2 R3 d).Between (1 / 2 ^ 53) 1 1 ∧
      ∃ q, (doubletQuads k1 k2 k3 T1 T2).head? = some q ∧
        Bounded2 (8 / 10 ^ 12) (doubletPart label y1 y2 t1' t2' R1 R2 R3 d).rmat (Sys.doublet n1 n2 k1 k2 k3 t1 t2) q ∧
        (doubletPart label y1 y2 t1' t2' R1 R2 R3 d).rmat.ops ≤ 22 := by
  obtain ⟨a1, b1⟩ := hy1.bounds (by norm_num)
  obtain ⟨a2, b2⟩ := hy2.bounds (by norm_num)
  have l1 := hy1.low
  have l2 := hy2.low
  have u1 := hy1.high
  have u2 := hy2.high
  have hε : (0 : ℝ) ≤ 5 / 10 ^ 13 := by norm_num
  have hap' : 1 / 2000 ≤ |y1 - y2| := by
    have e : n1 - n2 = (y1 - y2) - (y1 - n1) + (y2 - n2) := by ring
    have k := abs_add_le ((y1 - y2) - (y1 - n1)) (y2 - n2)
    have k' := abs_sub (y1 - y2) (y1 - n1)
    rw [← e] at k
    have := hy1.near
    have := hy2.near
    norm_num at *
    linarith
  have f1 : Bounded2 (2 / 10 ^ 12) (Part.interface 1 y1 R1 (some d)).rmat (Sys.interface 1 n1 k1) ⟨1, 0, 1 * |k1|, 1⟩ :=
    (fits_interface hε (by norm_num) one_pos (by linarith) (by linarith) (by simpa using hε) hy1.near le_rfl (by push_cast; linarith) rfl h1.2 rfl (some d)).mono
      (by norm_num)
  have f2 : Bounded2 (5 / 10 ^ 13) (Part.space t1' y1 none).rmat (Sys.space t1 n1) ⟨1, T1, 0, 1⟩ := fits_space n1 y1 hε hT1 ht1 ht1' none
  have f3 : Bounded2 (2 / 10 ^ 12) (Part.interface y1 y2 R2 (some d)).rmat (Sys.interface n1 n2 k2) ⟨1, 0, 2 * |k2|, 2⟩ :=
    (fits_interface hε (by norm_num) (by linarith) (by linarith) (by linarith) hy1.near hy2.near (by norm_num) (by push_cast; linarith) rfl h2.2 rfl
      (some d)).mono (by norm_num)
  have f4 : Bounded2 (5 / 10 ^ 13) (Part.space t2' y2 none).rmat (Sys.space t2 n2) ⟨1, T2, 0, 1⟩ := fits_space n2 y2 hε hT2 ht2 ht2' none
  have f5 : Bounded2 (2 / 10 ^ 12) (Part.interface y2 1 R3 (some d)).rmat (Sys.interface n2 1 k3) ⟨1, 0, 13 / 5 * |k3|, 13 / 5⟩ :=
    (fits_interface hε (by norm_num) (by linarith) le_rfl le_rfl hy2.near (by simpa using hε) (by norm_num) (by push_cast; linarith) rfl h3.2 rfl (some d)).mono
      (by norm_num)
  have g1 := fits_one.andThen le_rfl (by norm_num) f1
  have g2 := g1.andThen (by norm_num) (by norm_num) f2
  have g3 := g2.andThen (by norm_num) (by norm_num) f3
  have g4 := g3.andThen (by norm_num) (by norm_num) f4
  have g5 := g4.andThen (by norm_num) (by norm_num) f5
  have hq1 := hq _ (by simp [doubletQuads] : (Quad.andThen ⟨1, 0, 0, 1⟩ ⟨1, 0, 1 * |k1|, 1⟩) ∈ _)
  have hq2 := hq _ (by simp [doubletQuads] : ((Quad.andThen ⟨1, 0, 0, 1⟩ ⟨1, 0, 1 * |k1|, 1⟩).andThen ⟨1, T1, 0, 1⟩) ∈ _)
  have hq3 := hq _ (by simp [doubletQuads] :
    (((Quad.andThen ⟨1, 0, 0, 1⟩ ⟨1, 0, 1 * |k1|, 1⟩).andThen ⟨1, T1, 0, 1⟩).andThen ⟨1, 0, 2 * |k2|, 2⟩) ∈ _)
  have hq4 := hq _ (by simp [doubletQuads] :
    ((((Quad.andThen ⟨1, 0, 0, 1⟩ ⟨1, 0, 1 * |k1|, 1⟩).andThen ⟨1, T1, 0, 1⟩).andThen ⟨1, 0, 2 * |k2|, 2⟩).andThen ⟨1, T2, 0, 1⟩) ∈ _)
  have hq5 := hq _ (by simp [doubletQuads] :
    (((((Quad.andThen ⟨1, 0, 0, 1⟩ ⟨1, 0, 1 * |k1|, 1⟩).andThen ⟨1, T1, 0, 1⟩).andThen ⟨1, 0, 2 * |k2|, 2⟩).andThen ⟨1, T2, 0, 1⟩).andThen
      ⟨1, 0, 13 / 5 * |k3|, 13 / 5⟩) ∈ _)
  have open_d : OpenDiam (some d) := by intro D hD; cases hD; exact hd
  have open_n : OpenDiam (none : Option ℝ) := by intro D hD; cases hD
  refine ⟨?_, _, rfl, ?_, ?_⟩
  · unfold doubletPart Part.Between
    refine ⟨one_ne_zero, ?_⟩
    unfold Part.BetweenList
    refine ⟨y1, ?_, .inl (by unfold Part.Tells; trivial), room_air (by norm_num) (by norm_num) g1 (by simp [Part.rmat, Part.rstages, RStage.andThen, RStage.one, Stage.withOps]) hq1 (.inr a1), ?_⟩
    · unfold Part.Between
      refine ⟨rfl, rfl, one_ne_zero, by linarith, h1.1, open_d, room_interface le_rfl (by norm_num) (by linarith) (by linarith) ?_ R1 _⟩
      rw [abs_of_nonpos (by linarith)]; linarith
    unfold Part.BetweenList
    refine ⟨y1, ?_, .inl (by unfold Part.Tells; rfl), room_air (by norm_num) (by norm_num) g2 (by simp [Part.rmat, Part.rstages, RStage.andThen, RStage.one, Stage.withOps]) hq2 (.inr a1), ?_⟩
    · unfold Part.Between
      exact ⟨rfl, by linarith, by linarith, open_n⟩
    unfold Part.BetweenList
    refine ⟨y2, ?_, .inl (by unfold Part.Tells; trivial), room_air (by norm_num) (by norm_num) g3 (by simp [Part.rmat, Part.rstages, RStage.andThen, RStage.one, Stage.withOps]) hq3 (.inr a2), ?_⟩
    · unfold Part.Between
      exact ⟨rfl, rfl, by linarith, by linarith, h2.1, open_d, room_interface (by linarith) (by linarith) (by linarith) (by linarith) hap' R2 _⟩
    unfold Part.BetweenList
    refine ⟨y2, ?_, .inl (by unfold Part.Tells; rfl), room_air (by norm_num) (by norm_num) g4 (by simp [Part.rmat, Part.rstages, RStage.andThen, RStage.one, Stage.withOps]) hq4 (.inr a2), ?_⟩
    · unfold Part.Between
      exact ⟨rfl, by linarith, by linarith, open_n⟩
    unfold Part.BetweenList
    refine ⟨1, ?_, .inl (by unfold Part.Tells; trivial), room_air (by norm_num) (by norm_num) g5 (by simp [Part.rmat, Part.rstages, RStage.andThen, RStage.one, Stage.withOps]) hq5 (.inl rfl), ?_⟩
    · unfold Part.Between
      refine ⟨rfl, rfl, by linarith, one_ne_zero, h3.1, open_d, room_interface (by linarith) (by linarith) le_rfl (by norm_num) ?_ R3 _⟩
      rw [abs_of_nonneg (by linarith)]; linarith
    unfold Part.BetweenList
    rfl
  · have e : (Sys.doublet n1 n2 k1 k2 k3 t1 t2 : Sys ℝ) = (((((Sys.one 1).andThen (Sys.interface 1 n1 k1)).andThen (Sys.space t1 n1)).andThen
        (Sys.interface n1 n2 k2)).andThen (Sys.space t2 n2)).andThen (Sys.interface n2 1 k3) := by
      simp [Sys.doublet, Sys.andThen, Sys.one, Sys.interface, Sys.space]
    rw [e]
    exact g5.mono (by norm_num)
  · simp [singletPart, doubletPart, Part.rmat, Part.rmatList, Part.rstages, RStage.andThen, RStage.one, Stage.withOps]

end RT
