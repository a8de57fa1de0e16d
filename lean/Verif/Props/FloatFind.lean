import Verif.Model.FloatFind
import Verif.Props.FloatIndex
import Verif.Props.Chromatic

/-! # C129: the search of materials by index in floats -/

set_option linter.unusedSectionVars false

namespace RT
open PyNum Ext
attribute [local instance] doubleRPow

/-- the index of a material in floats, `Air` included -/
theorem index_float {g : Glass} (hg : g ∈ materials) {x : ℝ} (h1 : 0.28 ≤ x) (h2 : x ≤ 7) :
    ∃ y s : ℝ, g.nF (Fl.num x : Fl ℝ doubleR) = .ok (.real (Fl.num y)) ∧ g.square x = .ok s ∧ 0 ≤ s ∧ g.n x = .ok (.real (Real.sqrt s)) ∧
      |y - Real.sqrt s| ≤ 4 / 10 ^ 13 := by
  obtain ⟨s, hs, hs1⟩ := square_bound hg h1 h2
  have h0 : (0 : ℝ) ≤ s := by linarith
  have hn := n_of_square hs h0
  by_cases ha : g.name = "Air"
  · have hr := doubleR_rounding
    have b1 := abs_le.1 (hr.rel (1 / 100))
    have b2 := abs_le.1 (hr.rel 10)
    rw [abs_of_pos (by norm_num)] at b1 b2
    norm_num at b1 b2
    have e1 := C126_air (rnd := doubleR) hr hg ha (x := x) (by norm_num; norm_num at h1; linarith [b1.2]) (by linarith [b2.1])
    have hs' := hs
    rw [C56_accepted g (by linarith) (by linarith), air_formula g hg ha] at hs'
    have e2 : (.ok 1 : Except PyErr ℝ) = .ok s := hs'
    simp only [Except.ok.injEq] at e2
    subst e2
    refine ⟨1, 1, by rw [e1, Fl.one_num hr], hs, h0, hn, ?_⟩
    rw [Real.sqrt_one, sub_self, abs_zero]
    norm_num
  · obtain ⟨y, n, e1, e2, e3, -, -⟩ := C126_python hg ha h1 h2
    rw [hn] at e2
    simp only [Except.ok.injEq, PyIndex.real.injEq] at e2
    subst e2
    exact ⟨y, s, e1, hs, h0, hn, e3⟩

/-- the comparison, away from the tolerance by more than the errors -/
theorem close_float {n y k tol : ℝ} (hy : |y - k| ≤ 4 / 10 ^ 13) (hm : 5 / 10 ^ 13 + 2 / 10 ^ 16 * |n - k| < abs (|n - k| - tol)) :
    (PyNum.abs (Fl.num n - Fl.num y : Fl ℝ doubleR) <. Fl.num tol) = decide (|n - k| < tol) := by
  rw [Fl.num_sub, Fl.abs_num, Fl.lt_num]
  have r := doubleR_rounding.rel (n - y)
  have p := abs_nonneg (n - k)
  have d1 : abs (|n - y| - |n - k|) ≤ 4 / 10 ^ 13 := by
    refine (abs_abs_sub_abs_le (n - y) (n - k)).trans ?_
    rw [show n - y - (n - k) = -(y - k) by ring, abs_neg]
    exact hy
  have d2 := abs_abs_sub_abs_le (doubleR (n - y)) (n - y)
  have d1' := abs_le.1 d1
  have e : (1 / 2 ^ 53 : ℝ) * |n - y| ≤ 2 / 10 ^ 16 * |n - k| + 1 / 10 ^ 14 := by
    have : (1 / 2 ^ 53 : ℝ) * |n - y| ≤ 2 / 10 ^ 16 * |n - y| := mul_le_mul_of_nonneg_right (by norm_num) (abs_nonneg _)
    linarith [d1'.2]
  have d3 := abs_le.1 (d2.trans (r.trans e))
  congr 1
  apply propext
  constructor
  · intro h
    by_contra hc
    rw [abs_of_nonneg (show 0 ≤ |n - k| - tol by linarith)] at hm
    linarith [d1'.1, d3.1]
  · intro h
    rw [abs_of_nonpos (show |n - k| - tol ≤ 0 by linarith)] at hm
    linarith [d1'.2, d3.2]

/-- **C129.** From 0.28 to 7 microns, for every list of materials, index and tolerance: if no index of the list differs from the one asked by the tolerance
itself, up to 5·10⁻¹³ (and the rounding of the difference), the search in Python floats returns the materials of the exact search (C80), in the same order,
with their Abbe numbers and with their indices up to 4·10⁻¹³. -/
theorem C129_found {live : List String} (hl : ∀ name ∈ live, ∃ g ∈ materials, g.name = name) {x : ℝ} (h1 : 0.28 ≤ x) (h2 : x ≤ 7) (n tol : ℝ)
    (hm : ∀ g ∈ materials, g.name ∈ live → ∀ k, g.n x = .ok (.real k) → 5 / 10 ^ 13 + 2 / 10 ^ 16 * |n - k| < abs (|n - k| - tol)) :
    ∃ l found, findByIndex live n x tol = .ok l ∧ findByIndexF live (Fl.num n : Fl ℝ doubleR) (Fl.num x) (Fl.num tol) = .ok found ∧
      List.Forall₂ (fun e f => f.1 = e.1 ∧ f.2.2 = e.2.2 ∧ ∃ y, f.2.1 = Fl.num y ∧ |y - Real.sqrt e.2.1| ≤ 4 / 10 ^ 13) l found := by
  unfold findByIndex findByIndexF
  induction live with
  | nil => exact ⟨[], [], rfl, rfl, .nil⟩
  | cons name live ih =>
    obtain ⟨l, found, e1, e2, e3⟩ := ih (fun m hm => hl m (by simp [hm])) fun g hg hm' => hm g hg (by simp [hm'])
    obtain ⟨g0, hg0, rfl⟩ := hl name (by simp)
    obtain ⟨g', hg', h7, h8, -⟩ := classNamed_spec hg0
    obtain ⟨y, s, k1, k2, k3, k4, k5⟩ := index_float hg' h1 h2
    have hc := close_float (n := n) (tol := tol) k5 (hm g' hg' (by simp [h8]) _ k4)
    have hi : indexClose n s tol ↔ |n - Real.sqrt s| < tol := by simp [indexClose, k3]
    simp only [findLoop, findLoopF, h7, k1, k2, e1, e2, hc]
    by_cases hd : |n - Real.sqrt s| < tol
    · rw [if_pos (hi.2 hd), if_pos (by simpa using hd)]
      exact ⟨_, _, rfl, rfl, .cons ⟨rfl, rfl, y, rfl, k5⟩ e3⟩
    · rw [if_neg fun h => hd (hi.1 h), if_neg (by simpa using hd)]
      exact ⟨_, _, rfl, rfl, e3⟩

/-- **C129**, with a positive tolerance, however small, a material is found by its own index in floats, whatever the others are. -/
theorem C129_itself {live : List String} (hl : ∀ name ∈ live, ∃ g ∈ materials, g.name = name) {x : ℝ} (h1 : 0.28 ≤ x) (h2 : x ≤ 7) {tol : ℝ}
    (ht : 0 < tol) {name : String} (hn : name ∈ live) {g : Glass} (hg : classNamed name = .ok g) {y : Fl ℝ doubleR}
    (hy : g.nF (Fl.num x : Fl ℝ doubleR) = .ok (.real y)) :
    ∃ found, findByIndexF live y (Fl.num x : Fl ℝ doubleR) (Fl.num tol) = .ok found ∧ (name, y, g.abbe) ∈ found := by
  obtain ⟨y', s, k1, -⟩ := index_float (classNamed_mem hg).1 h1 h2
  rw [hy] at k1
  simp only [Except.ok.injEq, FloatIndex.real.injEq] at k1
  subst k1
  have hsame : (PyNum.abs (Fl.num y' - Fl.num y' : Fl ℝ doubleR) <. Fl.num tol) = true := by
    rw [Fl.num_sub, Fl.abs_num, Fl.lt_num, sub_self, doubleR_rounding.zero]
    simpa using ht
  unfold findByIndexF
  have key : ∀ live : List String, (∀ name ∈ live, ∃ g ∈ materials, g.name = name) →
      ∃ found, findLoopF (Fl.num y') (Fl.num x : Fl ℝ doubleR) (Fl.num tol) live = .ok found ∧ (name ∈ live → (name, Fl.num y', g.abbe) ∈ found) := by
    intro live hl
    induction live with
    | nil => exact ⟨[], rfl, by simp⟩
    | cons m live ih =>
      obtain ⟨found, e1, e2⟩ := ih (fun m hm => hl m (by simp [hm]))
      obtain ⟨g0, hg0, rfl⟩ := hl m (by simp)
      obtain ⟨g', hg', h7, h8, -⟩ := classNamed_spec hg0
      obtain ⟨z, s', k1, -⟩ := index_float hg' h1 h2
      simp only [findLoopF, h7, k1, e1]
      refine ⟨_, rfl, fun hmem => ?_⟩
      rcases List.mem_cons.1 hmem with he | he
      · subst he
        rw [h7] at hg
        simp only [Except.ok.injEq] at hg
        subst hg
        rw [hy] at k1
        simp only [Except.ok.injEq, FloatIndex.real.injEq] at k1
        rw [← k1, if_pos hsame]
        simp
      · split
        · exact List.mem_cons_of_mem _ (e2 he)
        · exact e2 he
  obtain ⟨found, e1, e2⟩ := key live hl
  exact ⟨found, e1, e2 hn⟩

/-- **C129**, with exact numbers it is the search of C80. -/
theorem C129_exact {live : List String} (hl : ∀ name ∈ live, ∃ g ∈ materials, g.name = name) {x : ℝ} (h1 : 0.28 ≤ x) (h2 : x ≤ 7) (n tol : ℝ) :
    @findByIndexF _ _ exactPow live (fin n : Ext ℝ) (fin x) (fin tol) =
      (findByIndex live n x tol).map (List.map fun e => (e.1, fin (Real.sqrt e.2.1), e.2.2)) := by
  let _ := exactPow
  unfold findByIndex findByIndexF
  induction live with
  | nil => rfl
  | cons name live ih =>
    have ih := ih fun m hm => hl m (by simp [hm])
    obtain ⟨g0, hg0, rfl⟩ := hl name (by simp)
    obtain ⟨g', hg', h7, -, -⟩ := classNamed_spec hg0
    obtain ⟨s, hs, hs1⟩ := square_bound hg' h1 h2
    have h0 : (0 : ℝ) ≤ s := by linarith
    have hn : g'.nF (fin x : Ext ℝ) = .ok (.real (fin (Real.sqrt s))) := by
      rw [C126_exact hg', n_of_square hs h0]; rfl
    have hc : (PyNum.abs (fin n - fin (Real.sqrt s) : Ext ℝ) <. fin tol) = decide (|n - Real.sqrt s| < tol) := rfl
    have hi : indexClose n s tol ↔ |n - Real.sqrt s| < tol := by simp [indexClose, h0]
    simp only [findLoop, findLoopF, h7, hs, hn]
    rw [ih]
    cases hf : findLoop n x tol live with
    | error e => rfl
    | ok l =>
      simp only [Except.map, hc]
      by_cases hd : |n - Real.sqrt s| < tol
      · rw [if_pos (hi.2 hd), if_pos (by simpa using hd)]
        rfl
      · rw [if_neg fun h => hd (hi.1 h), if_neg (by simpa using hd)]

/-- The hypothesis of `C129_found`: nothing has an index close to 0, and air has the index 1. -/
example {x : ℝ} (h1 : 0.28 ≤ x) (h2 : x ≤ 7) :
    (∀ g ∈ materials, ∀ k, g.n x = .ok (.real k) → 5 / 10 ^ 13 + 2 / 10 ^ 16 * |0 - k| < _root_.abs (|0 - k| - 1 / 20)) ∧
    ∀ g ∈ materials, g.name ∈ ["Air"] → ∀ k, g.n x = .ok (.real k) → 5 / 10 ^ 13 + 2 / 10 ^ 16 * |1.01 - k| < _root_.abs (|1.01 - k| - 1 / 20) := by
  constructor
  · intro g hg k hk
    obtain ⟨s, hs, hs1⟩ := square_bound hg h1 h2
    rw [n_of_square hs (by linarith)] at hk
    simp only [Except.ok.injEq, PyIndex.real.injEq] at hk
    have : 1 ≤ k := by rw [← hk]; exact Real.one_le_sqrt.2 hs1
    rw [zero_sub, abs_neg, abs_of_pos (show 0 < k by linarith), abs_of_pos (by linarith)]
    norm_num
    linarith
  · intro g hg hn k hk
    obtain ⟨s, hs, hs1⟩ := square_bound hg h1 h2
    have hs' := hs
    rw [C56_accepted g (by linarith) (by linarith), air_formula g hg (by simpa using hn)] at hs'
    have e2 : (.ok 1 : Except PyErr ℝ) = .ok s := hs'
    simp only [Except.ok.injEq] at e2
    subst e2
    rw [n_of_square hs (by linarith)] at hk
    simp only [Except.ok.injEq, PyIndex.real.injEq, Real.sqrt_one] at hk
    subst hk
    norm_num [abs_lt, abs_of_pos, abs_of_neg]

end RT
