import Verif.Props.FloatLens
import Verif.Props.RoundedFan

/-! # C128: the chromatic aberration of the lenses of the catalogues in floats

`focalShifts` makes the lens again at each wavelength and subtracts the focal length of the data sheet. The shifts are small differences of
focal lengths: how much of them is rounding errors? -/

set_option linter.unusedSectionVars false

namespace RT
open PyNum Ext
attribute [local instance] doubleRPow

/-- Specification: what is returned for a wavelength `w` (in microns): nanometres, and the difference between the focal length at `w` and that of the
data sheet, up to rounding errors. -/
structure ShiftNear (l : CatLens) (w : ℝ) (nm shift : Fl ℝ doubleR) : Prop where
  nm : ∃ x, nm = Fl.num x ∧ |x - 1000 * w| ≤ 1 / 2 ^ 53 * |1000 * w|
  shift : ∃ s, shift = Fl.num s ∧ |s - (l.focal w - l.design)| ≤ 5 / 10 ^ 8 * |l.focal w| + 1 / 10 ^ 15 * |(l.design : ℝ)|

theorem shift_close {f F d : ℝ} {q : ℚ} (h1 : |f - F| ≤ 4 / 10 ^ 8 * |F|) (hd : d = inFloat q) :
    |doubleR (f - d) - (F - q)| ≤ 5 / 10 ^ 8 * |F| + 1 / 10 ^ 15 * |(q : ℝ)| := by
  subst hd
  have r1 := doubleR_rounding.rel (f - inFloat q)
  have r2 := inFloat_rel q
  have e1 : |f - inFloat q| ≤ 2 * |F| + 2 * |(q : ℝ)| := by
    have t1 := abs_sub f (inFloat q)
    have t2 := abs_sub_abs_le_abs_sub f F
    have t3 := abs_sub_abs_le_abs_sub (inFloat q) (q : ℝ)
    have t4 : (1 / 2 ^ 53 : ℝ) * |(q : ℝ)| ≤ 1 * |(q : ℝ)| := mul_le_mul_of_nonneg_right (by norm_num) (abs_nonneg _)
    have t5 : (4 / 10 ^ 8 : ℝ) * |F| ≤ 1 * |F| := mul_le_mul_of_nonneg_right (by norm_num) (abs_nonneg _)
    linarith
  have e2 : (1 / 2 ^ 53 : ℝ) * |f - inFloat q| ≤ 1 / 2 ^ 53 * (2 * |F| + 2 * |(q : ℝ)|) := mul_le_mul_of_nonneg_left e1 (by norm_num)
  have e3 : doubleR (f - inFloat q) - (F - q) = (doubleR (f - inFloat q) - (f - inFloat q)) + (f - F) - (inFloat q - q) := by ring
  rw [e3]
  have t1 := abs_sub ((doubleR (f - inFloat q) - (f - inFloat q)) + (f - F)) (inFloat q - q)
  have t2 := abs_add_le (doubleR (f - inFloat q) - (f - inFloat q)) (f - F)
  have p1 := abs_nonneg F
  have p2 := abs_nonneg (q : ℝ)
  have k1 : (1 / 2 ^ 53 : ℝ) * (2 * |F|) ≤ 1 / 10 ^ 8 * |F| := by
    have : (1 / 2 ^ 53 : ℝ) * 2 ≤ 1 / 10 ^ 8 := by norm_num
    nlinarith
  have k2 : (1 / 2 ^ 53 : ℝ) * (2 * |(q : ℝ)|) + 1 / 2 ^ 53 * |(q : ℝ)| ≤ 1 / 10 ^ 15 * |(q : ℝ)| := by
    have : (1 / 2 ^ 53 : ℝ) * 3 ≤ 1 / 10 ^ 15 := by norm_num
    nlinarith
  linarith

/-- **C128.** For every lens of the catalogues whose class takes a wavelength, and every array of wavelengths from 0.3 to 2.5 microns, `focalShifts` in
Python floats returns as many values as wavelengths: the wavelengths in nanometres, and the shifts of the exact lens up to 5·10⁻⁸ of its focal length. -/
theorem C128_shifts [PyTrig (Fl ℝ doubleR)] {l : CatLens} (hl : l ∈ catalogue) (ht : l.takesWavelength = true) (ws : List ℝ)
    (hw : ∀ w ∈ ws, 0.3 ≤ w ∧ w ≤ 2.5)
    (hint : l.name ∈ intFocals → ∀ w ∈ ws, |l.focal w - l.design| ≤ 99999 / 10 ^ 7 * |(l.design : ℝ)|) :
    ∃ nms shifts, focalShifts l.clsF (some (.array (ws.map (Fl.num : ℝ → Fl ℝ doubleR)))) = .ok (nms, shifts) ∧
      nms.length = ws.length ∧ shifts.length = ws.length ∧
      ∀ (i : ℕ) (w : ℝ), ws[i]? = some w → ∃ nm shift, nms[i]? = some nm ∧ shifts[i]? = some shift ∧ ShiftNear l w nm shift := by
  have loop : ∃ shifts, shiftsLoop (l.clsF : LensClass (Fl ℝ doubleR)) (lit l.design) (ws.map Fl.num) = .ok shifts ∧ shifts.length = ws.length ∧
      ∀ (i : ℕ) (w : ℝ), ws[i]? = some w → ∃ s, shifts[i]? = some (Fl.num s) ∧
        |s - (l.focal w - l.design)| ≤ 5 / 10 ^ 8 * |l.focal w| + 1 / 10 ^ 15 * |(l.design : ℝ)| := by
    induction ws with
    | nil => exact ⟨[], rfl, rfl, by simp⟩
    | cons w ws ih =>
      obtain ⟨rest, e1, e2, e3⟩ := ih (fun x hx => hw x (by simp [hx])) (fun hn x hx => hint hn x (by simp [hx]))
      obtain ⟨g, wn, c, len, f1, f2, k1, -, -, -, -, k2, -, k4⟩ := C127_created hl (w := some w) (fun _ => ht)
        (by intro x hx; cases hx; exact hw w (by simp)) (fun hn => hint hn w (by simp))
      have hm : (l.clsF : LensClass (Fl ℝ doubleR)).make (some (Fl.num w)) = .ok g.group := by
        change (l.makeF (some (Fl.num w))).map _ = _
        have : l.makeF (some (Fl.num w : Fl ℝ doubleR)) = .ok (g, wn) := k1
        rw [this]; rfl
      have htk : (l.clsF : LensClass (Fl ℝ doubleR)).takesWavelength = true := ht
      refine ⟨Fl.num (doubleR (f2 - inFloat l.design)) :: rest, ?_, by simp [e2], ?_⟩
      · rw [List.map_cons]
        unfold shiftsLoop
        simp only [htk, hm, k2, e1, bind, Except.bind, pure, Except.pure, Bool.not_true, Bool.false_eq_true, if_false]
        rw [Fl.lit_num, Fl.num_sub]
        rfl
      · intro i x hx
        cases i with
        | zero =>
          simp only [List.getElem?_cons_zero, Option.some.injEq] at hx
          subst hx
          exact ⟨_, by simp, shift_close k4 rfl⟩
        | succ i =>
          simp only [List.getElem?_cons_succ] at hx
          simpa using e3 i x hx
  obtain ⟨shifts, e1, e2, e3⟩ := loop
  refine ⟨(ws.map (Fl.num : ℝ → Fl ℝ doubleR)).map (· * lit 1000), shifts, ?_, by simp, e2, ?_⟩
  · unfold focalShifts
    have hd : (l.clsF : LensClass (Fl ℝ doubleR)).design = some (lit l.design) := rfl
    rw [hd]
    simp only [Waves.values, Waves.thousand, e1, bind, Except.bind, pure, Except.pure]
  · intro i w hi
    obtain ⟨s, k1, k2⟩ := e3 i w hi
    refine ⟨_, _, by rw [List.getElem?_map, List.getElem?_map, hi]; rfl, k1, ⟨⟨doubleR (w * 1000), ?_, ?_⟩, s, rfl, k2⟩⟩
    · change Fl.num w * lit 1000 = _
      have : doubleR (((1000 : ℚ) : ℝ)) = 1000 := by
        have h := doubleR_cast 1000
        rw [h]
        have : double 1000 = 1000 := by have := double_nat (n := 1000) (by norm_num); exact_mod_cast this
        rw [this]; norm_num
      rw [Fl.lit_num, this, Fl.num_mul]
    · have := doubleR_rounding.rel (w * 1000)
      rwa [mul_comm w] at this ⊢

/-- **C128**, in the visible and near infrared: no hypothesis on the lens but that its class take a wavelength. -/
theorem C128_visible [PyTrig (Fl ℝ doubleR)] {l : CatLens} (hl : l ∈ catalogue) (ht : l.takesWavelength = true) (ws : List ℝ)
    (hw : ∀ w ∈ ws, 0.38 ≤ w ∧ w ≤ 1.1) :
    ∃ nms shifts, focalShifts l.clsF (some (.array (ws.map (Fl.num : ℝ → Fl ℝ doubleR)))) = .ok (nms, shifts) ∧
      nms.length = ws.length ∧ shifts.length = ws.length ∧
      ∀ (i : ℕ) (w : ℝ), ws[i]? = some w → ∃ nm shift, nms[i]? = some nm ∧ shifts[i]? = some shift ∧ ShiftNear l w nm shift :=
  C128_shifts hl ht ws
    (fun w h => by
      obtain ⟨h1, h2⟩ := hw w h
      constructor <;> norm_num at h1 h2 ⊢ <;> linarith)
    (fun hn w h => int_close hl hn (hw w h).1 (hw w h).2)

theorem whole_float {N : ℕ} (hN : N < 2 ^ 53) : Whole doubleR N := by
  intro k hk
  have h := doubleR_cast (k : ℚ)
  rw [double_nat (by omega)] at h
  exact_mod_cast h

/-- the wavelengths of `focalShifts()`: `linspace(0.4, 0.8, 100)` -/
noncomputable def defaultWaves : List ℝ :=
  (List.range 100).map fun i => if i + 1 = 100 then inFloat (4 / 5) else fanPoint doubleR (inFloat (2 / 5)) (inFloat (4 / 5)) 100 i

theorem defaultWaves_near {i : ℕ} (hi : i < 100) : ∃ w, defaultWaves[i]? = some w ∧ |w - (4 / 10 + i * (4 / 990))| ≤ 1 / 10 ^ 13 := by
  have a1 := abs_le.1 (inFloat_rel (2 / 5))
  have a2 := abs_le.1 (inFloat_rel (4 / 5))
  have e : (((100 - 1 : ℕ) : ℝ)) = 99 := by norm_num
  push_cast at a1 a2
  norm_num at a1 a2
  have hi' : (i : ℝ) ≤ 99 := by exact_mod_cast (show i ≤ 99 by omega)
  have hi0 : (0 : ℝ) ≤ i := Nat.cast_nonneg i
  refine ⟨_, by rw [defaultWaves, List.getElem?_map, List.getElem?_range hi]; rfl, ?_⟩
  dsimp only
  split
  · rename_i h
    have : i = 99 := by omega
    subst this
    rw [abs_le]
    push_cast
    constructor <;> norm_num <;> linarith [a2.1, a2.2]
  · have h1 := C124_spaced (lo := inFloat (2 / 5)) (hi := inFloat (4 / 5)) (i := i) doubleR_rounding (N := 100) (by norm_num)
    have hrel := relErr_float (k := 4) (by norm_num)
    have hrel0 := relErr_nonneg (u := (1 / 2 ^ 53 : ℝ)) (by positivity) 4
    have hb : |inFloat (2 / 5)| + i / ((100 - 1 : ℕ) : ℝ) * |inFloat (4 / 5) - inFloat (2 / 5)| ≤ 1 := by
      rw [abs_of_nonneg (by linarith [a1.1]), abs_of_nonneg (by linarith [a1.2, a2.1]), e]
      have : (i : ℝ) / 99 ≤ 1 := by rw [div_le_one (by norm_num)]; exact hi'
      have := mul_le_mul_of_nonneg_right this (show 0 ≤ inFloat (4 / 5) - inFloat (2 / 5) by linarith [a1.2, a2.1])
      linarith [a2.2]
    have h2 : |fanPoint doubleR (inFloat (2 / 5)) (inFloat (4 / 5)) 100 i - spaced (inFloat (2 / 5)) (inFloat (4 / 5)) 100 i| ≤ 6 / 10 ^ 15 := by
      refine h1.trans ((mul_le_mul_of_nonneg_left hb hrel0).trans ?_)
      linarith
    have h3 : |spaced (inFloat (2 / 5)) (inFloat (4 / 5)) 100 i - (4 / 10 + i * (4 / 990))| ≤ 1 / 10 ^ 15 := by
      have es : spaced (inFloat (2 / 5)) (inFloat (4 / 5)) 100 i = inFloat (2 / 5) + i * ((inFloat (4 / 5) - inFloat (2 / 5)) / 99) := by
        unfold spaced
        norm_num
      have ed : inFloat (2 / 5) + i * ((inFloat (4 / 5) - inFloat (2 / 5)) / 99) - (4 / 10 + i * (4 / 990)) =
          (1 - i / 99) * (inFloat (2 / 5) - 2 / 5) + i / 99 * (inFloat (4 / 5) - 4 / 5) := by ring
      rw [es, ed]
      have p0 : (0 : ℝ) ≤ i / 99 := by positivity
      have p1 : (i : ℝ) / 99 ≤ 1 := by rw [div_le_one (by norm_num)]; exact hi'
      have b1 : |inFloat (2 / 5) - 2 / 5| ≤ 1 / 10 ^ 15 := by
        rw [abs_le]; constructor <;> norm_num <;> linarith [a1.1, a1.2]
      have b2 : |inFloat (4 / 5) - 4 / 5| ≤ 1 / 10 ^ 15 := by
        rw [abs_le]; constructor <;> norm_num <;> linarith [a2.1, a2.2]
      have t := abs_add_le ((1 - i / 99) * (inFloat (2 / 5) - 2 / 5)) (i / 99 * (inFloat (4 / 5) - 4 / 5))
      rw [abs_mul, abs_mul, abs_of_nonneg p0, abs_of_nonneg (show (0 : ℝ) ≤ 1 - i / 99 by linarith)] at t
      have c1 := mul_le_mul_of_nonneg_left b1 (show (0 : ℝ) ≤ 1 - i / 99 by linarith)
      have c2 := mul_le_mul_of_nonneg_left b2 p0
      linarith
    have t := abs_sub_le (fanPoint doubleR (inFloat (2 / 5)) (inFloat (4 / 5)) 100 i) (spaced (inFloat (2 / 5)) (inFloat (4 / 5)) 100 i)
      (4 / 10 + i * (4 / 990))
    refine t.trans ?_
    have := add_le_add h2 h3
    refine this.trans (by norm_num)

/-- **C128**, `focalShifts()` without argument: a hundred wavelengths evenly spaced from 400 to 800 nm up to 10⁻¹³ microns, and the shifts of the exact
lens at each of them. In particular `showChromaticAberration()` has what it plots, for every lens whose class takes a wavelength. -/
theorem C128_default [PyTrig (Fl ℝ doubleR)] {l : CatLens} (hl : l ∈ catalogue) (ht : l.takesWavelength = true) :
    ∃ nms shifts, focalShifts (l.clsF : LensClass (Fl ℝ doubleR)) none = .ok (nms, shifts) ∧ nms.length = 100 ∧ shifts.length = 100 ∧
      ∀ i : ℕ, i < 100 → ∃ (w : ℝ) (nm shift : Fl ℝ doubleR), |(w : ℝ) - (4 / 10 + (i : ℝ) * (4 / 990))| ≤ 1 / 10 ^ 13 ∧ nms[i]? = some nm ∧ shifts[i]? = some shift ∧ ShiftNear l w nm shift := by
  have hlen : defaultWaves.length = 100 := by simp [defaultWaves]
  have he : focalShifts (l.clsF : LensClass (Fl ℝ doubleR)) none = focalShifts l.clsF (some (.array (defaultWaves.map Fl.num))) := by
    have h1 : linspace (lit (2 / 5) : Fl ℝ doubleR) (lit (4 / 5)) 100 = .ok (defaultWaves.map Fl.num) := by
      have := linspace_rounded (rnd := doubleR) (lo := inFloat (2 / 5)) (hi := inFloat (4 / 5)) (N := 100) (by norm_num) (whole_float (by norm_num))
      rw [Fl.lit_num, Fl.lit_num]
      refine Eq.trans this ?_
      simp only [defaultWaves, List.map_map]
      rfl
    unfold focalShifts
    cases (l.clsF : LensClass (Fl ℝ doubleR)).design with
    | none => rfl
    | some f0 => simp only [h1, Except.map, bind, Except.bind, pure, Except.pure]
  rw [he]
  obtain ⟨nms, shifts, k1, k2, k3, k4⟩ := C128_visible hl ht defaultWaves (by
    intro w hw
    obtain ⟨i, hi⟩ := List.mem_iff_getElem?.1 hw
    have hlt : i < 100 := by rw [← hlen]; exact (List.getElem?_eq_some_iff.1 hi).1
    obtain ⟨w', e1, e2⟩ := defaultWaves_near hlt
    rw [hi] at e1
    cases e1
    have hi' : (i : ℝ) ≤ 99 := by exact_mod_cast (show i ≤ 99 by omega)
    have hi0 : (0 : ℝ) ≤ i := Nat.cast_nonneg i
    have := abs_le.1 e2
    norm_num at this
    constructor <;> norm_num <;> linarith [this.1, this.2])
  refine ⟨nms, shifts, k1, k2.trans hlen, k3.trans hlen, ?_⟩
  intro i hi
  obtain ⟨w, e1, e2⟩ := defaultWaves_near hi
  obtain ⟨nm, shift, e3, e4, e5⟩ := k4 i w e1
  exact ⟨w, nm, shift, e2, e3, e4, e5⟩

/-- **C128**, two wavelengths: when the exact focal lengths differ by more than the errors, the shifts are in the same order. -/
theorem C128_order {l : CatLens} {w1 w2 : ℝ} {n1 n2 s1 s2 : Fl ℝ doubleR} (h1 : ShiftNear l w1 n1 s1) (h2 : ShiftNear l w2 n2 s2)
    (h : l.focal w1 + 5 / 10 ^ 8 * (|l.focal w1| + |l.focal w2|) + 2 / 10 ^ 15 * |(l.design : ℝ)| < l.focal w2) : (s1 <. s2) = true := by
  obtain ⟨a, rfl, ha⟩ := h1.shift
  obtain ⟨b, rfl, hb⟩ := h2.shift
  rw [Fl.lt_num, decide_eq_true_eq]
  linarith [(abs_le.1 ha).2, (abs_le.1 hb).1]

/-- **C128**, a class that takes no wavelength has no shifts, in floats as in exact numbers. -/
theorem C128_refused {F : Type} [PyNum F] [PyPow F] [PyTrig F] {l : CatLens} (ht : l.takesWavelength = false) {ws : Waves F} (hne : ws.values ≠ []) :
    focalShifts l.clsF (some ws) = .error .typeError := by
  unfold focalShifts
  have htk : (l.clsF : LensClass F).takesWavelength = false := ht
  have hd : (l.clsF : LensClass F).design = some (lit l.design) := rfl
  cases hv : ws.values with
  | nil => exact absurd hv hne
  | cons x xs => simp [hd, hv, shiftsLoop, htk, bind, Except.bind, pure, Except.pure, throw, throwThe, MonadExceptOf.throw]

/-- The first lens of the catalogue takes a wavelength, and so do most; 0.4 and 0.7 microns are in the range. -/
example : (catalogue.head?.map CatLens.takesWavelength) = some true ∧ (catalogue.filter CatLens.takesWavelength).length = 338 ∧
    ∀ w ∈ [(0.4 : ℝ), 0.7], 0.38 ≤ w ∧ w ≤ 1.1 := by
  refine ⟨by decide +kernel, by decide +kernel, ?_⟩
  intro w hw
  simp only [List.mem_cons, List.not_mem_nil, or_false] at hw
  rcases hw with rfl | rfl <;> norm_num

end RT
