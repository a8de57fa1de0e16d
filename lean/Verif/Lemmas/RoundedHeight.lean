import Verif.Lemmas.RoundedCut

/-! # Heights of rays along a system do not jump -/

set_option linter.unusedSectionVars false

namespace RT
open PyNum Ext Fl
variable {K : Type} [Field K] [LinearOrder K] [IsStrictOrderedRing K]

theorem andThen_out (s t : RStage K) (r : K × K) : (s.andThen t).exact.out r = t.exact.out (s.exact.out r) := by
  simp only [RStage.andThen, Stage.andThen, Stage.out, Prod.mk.injEq]
  exact ⟨by ring, by ring⟩

/-- `f` gives heights along a length `len`, from `y0` to `y1`, with slopes at most `S` -/
structure Heights (S len y0 y1 : K) (f : K → K) : Prop where
  nonneg : 0 ≤ len
  start : f 0 = y0
  stop : f len = y1
  lip : ∀ x y, 0 ≤ x → x ≤ y → y ≤ len → |f y - f x| ≤ S * (y - x)

theorem Heights.still {S y : K} : Heights S 0 y y (fun _ => y) :=
  ⟨le_rfl, rfl, rfl, fun x z h1 h2 h3 => by
    have : x = z := le_antisymm h2 (h3.trans h1)
    simp [this]⟩

theorem Heights.line {S len y0 θ : K} (h0 : 0 ≤ len) (hθ : |θ| ≤ S) : Heights S len y0 (y0 + len * θ) (fun x => y0 + x * θ) := by
  refine ⟨h0, by simp, rfl, fun x y _ h2 _ => ?_⟩
  have : y0 + y * θ - (y0 + x * θ) = θ * (y - x) := by ring
  rw [this, abs_mul, abs_of_nonneg (sub_nonneg.2 h2)]
  exact mul_le_mul_of_nonneg_right hθ (sub_nonneg.2 h2)

theorem Heights.join {S l1 l2 y0 y1 y2 : K} {f g : K → K} (h1 : Heights S l1 y0 y1 f) (h2 : Heights S l2 y1 y2 g) :
    Heights S (l1 + l2) y0 y2 (fun x => if x ≤ l1 then f x else g (x - l1)) := by
  have n1 := h1.nonneg
  have n2 := h2.nonneg
  have hj : ∀ x, l1 ≤ x → (if x ≤ l1 then f x else g (x - l1)) = g (x - l1) := by
    intro x hx
    split_ifs with hle
    · have : x = l1 := le_antisymm hle hx
      rw [this, sub_self, h1.stop, h2.start]
    · rfl
  refine ⟨by linarith, by simp only [n1, if_true]; exact h1.start, ?_, fun x y hx hxy hy => ?_⟩
  · rw [hj _ (by linarith), add_sub_cancel_left]; exact h2.stop
  · by_cases hyl : y ≤ l1
    · rw [if_pos hyl, if_pos (hxy.trans hyl)]
      exact h1.lip x y hx hxy hyl
    · rw [not_le] at hyl
      rw [hj y hyl.le]
      by_cases hxl : x ≤ l1
      · rw [if_pos hxl]
        have a := h1.lip x l1 hx hxl le_rfl
        have b := h2.lip 0 (y - l1) le_rfl (by linarith) (by linarith)
        rw [h1.stop] at a
        rw [h2.start, sub_zero] at b
        have c : |g (y - l1) - f x| ≤ |g (y - l1) - y1| + |y1 - f x| := abs_sub_le _ _ _
        linarith
      · rw [not_le] at hxl
        rw [hj x hxl.le]
        have b := h2.lip (x - l1) (y - l1) (by linarith) (by linarith) (by linarith)
        have : y - l1 - (x - l1) = y - x := by ring
        rw [this] at b
        exact b

theorem thickLens_heights {S n t : K} {R1 R2 diam : Option K} {r : K × K} (h0 : 0 ≤ t)
    (hS : |(((Sys.interface 1 n (curvature R1)).stage none none).out r).2| ≤ S) :
    ∃ f, Heights S t r.1 (((Sys.thick n (curvature R1) (curvature R2) t).stage diam none).out r).1 f ∧
      ∀ w, ((cutThick n R1 w diam).exact.out r).1 = f w := by
  refine ⟨fun x => r.1 + x * (((Sys.interface 1 n (curvature R1)).stage none none).out r).2, ?_, ?_⟩
  · have := Heights.line (y0 := r.1) h0 hS
    refine ⟨this.nonneg, this.start, this.stop.trans ?_, this.lip⟩
    simp only [Sys.thick, Sys.andThen, Sys.interface, Sys.space, Sys.stage, Stage.out]; ring
  · intro w
    simp only [cutThick, RStage.andThen, Stage.andThen, Stage.withOps, Sys.interface, Sys.space, Sys.stage, Stage.out]; ring

theorem still_heights {S : K} {s : Stage K} {r : K × K} (ha : s.a = 1) (hb : s.b = 0) (hl : s.len = 0) : ∃ f, Heights S s.len r.1 (s.out r).1 f := by
  refine ⟨fun _ => r.1, ?_⟩
  have : (s.out r).1 = r.1 := by simp [Stage.out, ha, hb]
  rw [this, hl]; exact Heights.still

mutual
/-- Along a system without jumps there is one height at each position, whatever the way of cutting. -/
theorem slope_heights {S : K} : ∀ {p : Part K} {r : K × K}, p.Slope S r →
    ∃ f, Heights S p.rmat.exact.len r.1 (p.rmat.exact.out r).1 f ∧
      ∀ v s, p.CutAt v s → 0 ≤ v ∧ v ≤ p.rmat.exact.len ∧ (s.exact.out r).1 = f v
  | .space d n diam, r, h => by
    unfold Part.Slope at h
    refine ⟨fun x => r.1 + x * r.2, ?_, ?_⟩
    · have := Heights.line (y0 := r.1) h.1 h.2
      refine ⟨this.nonneg, this.start, this.stop.trans ?_, this.lip⟩
      simp [Part.rmat, Part.rstages, Stage.withOps, Sys.space, Sys.stage, Stage.out]
    · rintro v s hc
      unfold Part.CutAt at hc
      obtain ⟨h1, h2, rfl⟩ := hc
      exact ⟨h1, h2, by simp [Stage.withOps, Sys.space, Sys.stage, Stage.out]⟩
  | .thickLens n R1 R2 t diam, r, h => by
    unfold Part.Slope at h
    obtain ⟨f, h1, h2⟩ := thickLens_heights (R2 := R2) (diam := diam) h.1 h.2
    have el : (Part.thickLens n R1 R2 t diam).rmat.exact.len = t := by
      simp [Part.rmat, Part.rstages, Sys.thick, Sys.andThen, Sys.interface, Sys.space, Sys.stage]
    refine ⟨f, by rw [el]; exact h1, ?_⟩
    rintro v s hc
    unfold Part.CutAt at hc
    obtain ⟨c1, c2, rfl⟩ := hc
    exact ⟨c1, by rw [el]; exact c2, h2 v⟩
  | .slab n t diam, r, h => by
    unfold Part.Slope at h
    have h' : |(((Sys.interface 1 n (curvature (none : Option K))).stage none none).out r).2| ≤ S := h.2
    obtain ⟨f, h1, h2⟩ := thickLens_heights (R1 := (none : Option K)) (R2 := (none : Option K)) (diam := diam) h.1 h'
    have el : (Part.slab n t diam).rmat.exact.len = t := by
      simp [Part.rmat, Part.rstages, Sys.thick, Sys.andThen, Sys.interface, Sys.space, Sys.stage]
    refine ⟨f, by rw [el]; exact h1, ?_⟩
    rintro v s hc
    unfold Part.CutAt at hc
    obtain ⟨c1, c2, rfl⟩ := hc
    exact ⟨c1, by rw [el]; exact c2, h2 v⟩
  | .lens f diam, r, _ => by
    obtain ⟨g, h⟩ := still_heights (S := S) (s := (Part.lens f diam).rmat.exact) (r := r) (by simp [Part.rmat, Part.rstages, Stage.withOps, Sys.lens, Sys.stage])
      (by simp [Part.rmat, Part.rstages, Stage.withOps, Sys.lens, Sys.stage]) (by simp [Part.rmat, Part.rstages, Stage.withOps, Sys.lens, Sys.stage])
    exact ⟨g, h, fun v s hc => by unfold Part.CutAt at hc; exact hc.elim⟩
  | .mirror R diam, r, _ => by
    obtain ⟨g, h⟩ := still_heights (S := S) (s := (Part.mirror R diam).rmat.exact) (r := r) (by simp [Part.rmat, Part.rstages, Stage.withOps, Sys.mirror, Sys.stage])
      (by simp [Part.rmat, Part.rstages, Stage.withOps, Sys.mirror, Sys.stage]) (by simp [Part.rmat, Part.rstages, Stage.withOps, Sys.mirror, Sys.stage])
    exact ⟨g, h, fun v s hc => by unfold Part.CutAt at hc; exact hc.elim⟩
  | .interface n1 n2 R diam, r, _ => by
    obtain ⟨g, h⟩ := still_heights (S := S) (s := (Part.interface n1 n2 R diam).rmat.exact) (r := r)
      (by simp [Part.rmat, Part.rstages, Stage.withOps, Sys.interface, Sys.stage])
      (by simp [Part.rmat, Part.rstages, Stage.withOps, Sys.interface, Sys.stage]) (by simp [Part.rmat, Part.rstages, Stage.withOps, Sys.interface, Sys.stage])
    exact ⟨g, h, fun v s hc => by unfold Part.CutAt at hc; exact hc.elim⟩
  | .aperture diam na label, r, _ => by
    obtain ⟨g, h⟩ := still_heights (S := S) (s := (Part.aperture diam na label).rmat.exact) (r := r)
      (by simp [Part.rmat, Part.rstages, Stage.withOps, Sys.one, Sys.stage])
      (by simp [Part.rmat, Part.rstages, Stage.withOps, Sys.one, Sys.stage]) (by simp [Part.rmat, Part.rstages, Stage.withOps, Sys.one, Sys.stage])
    exact ⟨g, h, fun v s hc => by unfold Part.CutAt at hc; exact hc.elim⟩
  | .matrix s fv bv diam, r, h => by
    unfold Part.Slope at h
    obtain ⟨g, h⟩ := still_heights (S := S) (s := (Part.matrix s fv bv diam).rmat.exact) (r := r)
      (by simpa [Part.rmat, Part.rstages, Stage.withOps, Sys.stage] using h.1)
      (by simpa [Part.rmat, Part.rstages, Stage.withOps, Sys.stage] using h.2.1) (by simpa [Part.rmat, Part.rstages, Stage.withOps, Sys.stage] using h.2.2)
    exact ⟨g, h, fun v s hc => by unfold Part.CutAt at hc; exact hc.elim⟩
  | .group l ps, r, h => by
    unfold Part.Slope at h
    have e1 : (RStage.one : RStage K).exact.out r = r := by simp [RStage.one, Stage.out]
    obtain ⟨f, h1, h2⟩ := slopeList_heights (S := S) (ps := ps) (acc := RStage.one) (r := r) (by rw [e1]; exact h)
    rw [(group_len l ps).1]
    refine ⟨f, ?_, ?_⟩
    · rw [e1] at h1; unfold Part.rmat; exact h1
    · intro v s hc; unfold Part.CutAt at hc; exact h2 v s hc
theorem slopeList_heights {S : K} : ∀ {ps : List (Part K)} {acc : RStage K} {r : K × K}, Part.SlopeList S ps (acc.exact.out r) →
    ∃ f, Heights S (lenList ps) (acc.exact.out r).1 ((Part.rmatList acc ps).exact.out r).1 f ∧
      ∀ v s, Part.CutList acc ps v s → 0 ≤ v ∧ v ≤ lenList ps ∧ (s.exact.out r).1 = f v
  | [], acc, r, _ => by
    refine ⟨fun _ => (acc.exact.out r).1, ?_, ?_⟩
    · simp only [lenList, Part.rmatList, List.map_nil, List.sum_nil]; exact Heights.still
    · rintro v s hc
      unfold Part.CutList at hc
      obtain ⟨rfl, rfl⟩ := hc
      simp [lenList]
  | p :: ps, acc, r, h => by
    unfold Part.SlopeList at h
    obtain ⟨f, f1, f2⟩ := slope_heights h.1
    obtain ⟨g, g1, g2⟩ := slopeList_heights (S := S) (ps := ps) (acc := acc.andThen p.rmat) (r := r) (by rw [andThen_out]; exact h.2)
    rw [andThen_out] at g1
    have el : lenList (p :: ps) = p.rmat.exact.len + lenList ps := by simp [lenList]
    have n1 := f1.nonneg
    have n2 := g1.nonneg
    refine ⟨_, by rw [el]; unfold Part.rmatList; exact f1.join g1, ?_⟩
    rintro v s hc
    unfold Part.CutList at hc
    rw [el]
    rcases hc with ⟨rfl, rfl⟩ | ⟨c, c1, rfl⟩ | ⟨w, rfl, c1⟩
    · exact ⟨le_rfl, by linarith, by simp only [n1, if_true]; exact f1.start.symm⟩
    · obtain ⟨b1, b2, b3⟩ := f2 v c c1
      refine ⟨b1, by linarith, ?_⟩
      rw [andThen_out, b3, if_pos b2]
    · obtain ⟨b1, b2, b3⟩ := g2 w s c1
      refine ⟨by linarith, by linarith, ?_⟩
      rw [b3]
      split_ifs with hle
      · have : w = 0 := by linarith
        rw [this, add_zero, f1.stop, g1.start]
      · rw [add_sub_cancel_left]
end

theorem Heights.near {S len y0 y1 : K} {f : K → K} (h : Heights S len y0 y1 f) {x y : K} (hx : 0 ≤ x) (hx' : x ≤ len) (hy : 0 ≤ y) (hy' : y ≤ len) :
    |f x - f y| ≤ S * |x - y| := by
  rcases le_total x y with hxy | hxy
  · rw [abs_sub_comm, abs_sub_comm x y, abs_of_nonneg (sub_nonneg.2 hxy)]; exact h.lip x y hx hxy hy'
  · rw [abs_of_nonneg (sub_nonneg.2 hxy)]; exact h.lip y x hy hxy hx'

end RT
