import Verif.Lemmas.FloatLens

/-! # The checks made on a lens, in floats -/

set_option linter.unusedSectionVars false

namespace RT
open PyNum Ext

section
variable {K : Type} [Field K] [LinearOrder K] [IsStrictOrderedRing K] {rnd : K → K} {u : K}

/-- any number divided by one that is not zero -/
theorem quotient_ok (hr : Rounding rnd u) (x : Fl K rnd) {y : K} (hy : y ≠ 0) : ∃ q, pyDiv x (Fl.num y) = .ok q := by
  unfold pyDiv
  rw [Fl.zero_num hr, Fl.eq_num, if_neg (by simpa using hy)]
  exact ⟨_, rfl⟩

/-- what a group keeps of an element -/
def Elem.skeleton {F : Type} [PyNum F] (e : Elem F) : F × Option F × Option F × F × Bool :=
  (e.mat.L, e.mat.frontVertex, e.mat.backVertex, e.largestDiameter, e.hasFiniteApertureDiameter)

theorem skeleton_forget {F : Type} [PyNum F] (e : Elem F) : e.forget.skeleton = e.skeleton := by
  unfold Elem.forget
  split_ifs
  · cases e <;> simp only [Elem.skeleton, Elem.setIndices, Elem.largestDiameter, Mat.largestDiameter, Elem.hasFiniteApertureDiameter,
      Mat.hasFiniteApertureDiameter, Elem.mat]
  · rfl

theorem new_skeleton {F : Type} [PyNum F] {es : List (Elem F)} {label : String} {g : Group F} (h : Group.new es label = .ok g) :
    g.elems.map Elem.skeleton = es.map Elem.skeleton := by
  have h1 := congrArg (List.map Elem.skeleton) (Group.new_elems h)
  rw [List.map_map, List.map_map] at h1
  have e : (Elem.skeleton ∘ Elem.forget : Elem F → _) = Elem.skeleton := by funext e; exact skeleton_forget e
  rwa [e] at h1

theorem product_vertices {es : List (Elem (Fl K rnd))} (hl : ∀ e ∈ es, ∃ l, e.mat.L = Fl.num l) {acc t : Mat (Fl K rnd)}
    (h : transferMatrixList es inf acc = .ok t) :
    (acc.frontVertex.isSome = true ∨ (∃ e ∈ es, e.mat.frontVertex.isSome = true) → t.frontVertex.isSome = true) ∧
      (acc.backVertex.isSome = true ∨ (∃ e ∈ es, e.mat.backVertex.isSome = true) → t.backVertex.isSome = true) := by
  induction es generalizing acc with
  | nil =>
    simp only [transferMatrixList, Except.ok.injEq] at h
    subst h
    simp
  | cons e es ih =>
    obtain ⟨l, hL⟩ := hl e (by simp)
    unfold transferMatrixList at h
    have e1 : (e.mat.L ≤. (inf : Fl K rnd)) = true := by rw [hL]; rfl
    have e2 : (inf : Fl K rnd) - e.mat.L = inf := by rw [hL]; rfl
    rw [if_pos e1, e2] at h
    cases hm : e.mat.mulMatrix acc with
    | error x => simp [hm] at h
    | ok p =>
      simp only [hm] at h
      obtain ⟨h1, h2⟩ := ih (fun e he => hl e (by simp [he])) h
      rw [mulMatrix_okF hm] at h1 h2
      refine ⟨fun hs => h1 ?_, fun hs => h2 ?_⟩
      · rcases hs with hs | ⟨e', he', hs⟩
        · left
          change (Mat.mulFrontVertex e.mat acc).isSome = true
          obtain ⟨v, hv⟩ := Option.isSome_iff_exists.1 hs
          simp [Mat.mulFrontVertex, hv]
        · rcases List.mem_cons.1 he' with rfl | he'
          · left
            change (Mat.mulFrontVertex e'.mat acc).isSome = true
            obtain ⟨v, hv⟩ := Option.isSome_iff_exists.1 hs
            unfold Mat.mulFrontVertex
            rw [hv]
            cases acc.frontVertex <;> rfl
          · exact Or.inr ⟨e', he', hs⟩
      · rcases hs with hs | ⟨e', he', hs⟩
        · left
          change (Mat.mulBackVertex e.mat acc).isSome = true
          unfold Mat.mulBackVertex
          cases e.mat.backVertex
          · exact hs
          · rfl
        · rcases List.mem_cons.1 he' with rfl | he'
          · left
            change (Mat.mulBackVertex e'.mat acc).isSome = true
            obtain ⟨v, hv⟩ := Option.isSome_iff_exists.1 hs
            unfold Mat.mulBackVertex
            rw [hv]
            rfl
          · exact Or.inr ⟨e', he', hs⟩

/-- a surface of a lens -/
def Face1 (d : K) (e : Elem (Fl K rnd)) : Prop := e.skeleton = (0, some 0, some 0, Fl.num d, true)

/-- the glass between two of them -/
def Gap1 (e : Elem (Fl K rnd)) : Prop := ∃ l, e.skeleton = (Fl.num l, none, none, inf, false)

theorem face_of {n1 n2 R : Fl K rnd} {d : K} {m : Mat (Fl K rnd)} (h : mkDielectric n1 n2 R (Fl.num d) = .ok m) : Face1 d (.leaf m) := by
  unfold mkDielectric at h
  cases h1 : dielectricC n1 n2 R with
  | error x => simp [h1, bind, Except.bind] at h
  | ok c =>
    cases h2 : pyDiv n1 n2 with
    | error x => simp [h1, h2, bind, Except.bind] at h
    | ok q =>
      simp only [h1, h2, bind, Except.bind] at h
      obtain ⟨rfl, -⟩ := init_okF h
      rfl

theorem gap_of {t : K} {n : Fl K rnd} {m : Mat (Fl K rnd)} (h : mkSpace (Fl.num t) n = .ok m) : Gap1 (.leaf m) := by
  unfold mkSpace at h
  obtain ⟨rfl, -⟩ := init_okF h
  exact ⟨t, rfl⟩

/-- the vertices and the diameter of a group made of surfaces and glasses -/
theorem lens_group (hr : Rounding rnd u) {d : K} (hd : 0 < d) {es : List (Elem (Fl K rnd))} {label : String} {g : Group (Fl K rnd)}
    (h : Group.new es label = .ok g) (hes : ∀ e ∈ es, Face1 d e ∨ Gap1 e) (hne : ∃ e ∈ es, Face1 d e) :
    g.mat.frontVertex.isSome = true ∧ g.mat.backVertex.isSome = true ∧ g.toElem.largestDiameter = Fl.num d := by
  have hsk := new_skeleton h
  have hg : ∀ e ∈ g.elems, Face1 d e ∨ Gap1 e := by
    intro e he
    have : e.skeleton ∈ es.map Elem.skeleton := by rw [← hsk]; exact List.mem_map_of_mem he
    obtain ⟨e', he', heq⟩ := List.mem_map.1 this
    rcases hes e' he' with h1 | ⟨l, h1⟩
    · left; unfold Face1; rw [← heq]; exact h1
    · right; exact ⟨l, by rw [← heq]; exact h1⟩
  have hf : ∃ e ∈ g.elems, Face1 d e := by
    obtain ⟨e', he', h1⟩ := hne
    have : e'.skeleton ∈ g.elems.map Elem.skeleton := by rw [hsk]; exact List.mem_map_of_mem he'
    obtain ⟨e, he, heq⟩ := List.mem_map.1 this
    exact ⟨e, he, by unfold Face1; rw [heq]; exact h1⟩
  obtain ⟨t, ht, hm⟩ := Group.new_fresh h
  obtain ⟨e0, he0, hf0⟩ := hf
  have hL : ∀ e ∈ g.elems, ∃ l, e.mat.L = Fl.num l := by
    intro e he
    rcases hg e he with h1 | ⟨l, h1⟩
    · exact ⟨0, by rw [← Fl.zero_num hr]; exact congrArg (·.1) h1⟩
    · exact ⟨l, congrArg (·.1) h1⟩
  obtain ⟨v1, v2⟩ := product_vertices hL ht
  have w1 := v1 (Or.inr ⟨e0, he0, by rw [show e0.mat.frontVertex = some 0 from congrArg (·.2.1) hf0]; rfl⟩)
  have w2 := v2 (Or.inr ⟨e0, he0, by rw [show e0.mat.backVertex = some 0 from congrArg (·.2.2.1) hf0]; rfl⟩)
  refine ⟨?_, ?_, ?_⟩
  · rw [hm]; exact w1
  · rw [hm]; exact w2
  · change Elem.largestDiameter (.group g.mat g.cache g.elems) = _
    unfold Elem.largestDiameter
    have hfin : ∀ l : List (Elem (Fl K rnd)), (∃ e ∈ l, Face1 d e) → hasFiniteApertureList l = true := by
      intro l
      induction l with
      | nil => rintro ⟨e, he, -⟩; simp at he
      | cons e l ih =>
        rintro ⟨e', he', h1⟩
        unfold hasFiniteApertureList
        rcases List.mem_cons.1 he' with rfl | he'
        · rw [show e'.hasFiniteApertureDiameter = true from congrArg (·.2.2.2.2) h1]; rfl
        · rw [ih ⟨e', he', h1⟩]; simp
    rw [if_pos (hfin _ ⟨e0, he0, hf0⟩)]
    have hmax : ∀ (l : List (Elem (Fl K rnd))) (x : K), (∀ e ∈ l, Face1 d e ∨ Gap1 e) → (x = d ∨ x = 0 ∧ ∃ e ∈ l, Face1 d e) →
        largestDiameterList l (Fl.num x) = Fl.num d := by
      intro l
      induction l with
      | nil =>
        intro x _ hx
        rcases hx with rfl | ⟨-, e, he, -⟩
        · rfl
        · simp at he
      | cons e l ih =>
        intro x hl hx
        unfold largestDiameterList
        dsimp only
        rcases hl e (by simp) with h1 | ⟨l', h1⟩
        · rw [show e.largestDiameter = Fl.num d from congrArg (·.2.2.2.1) h1]
          split_ifs with hc
          · exact ih d (fun e he => hl e (by simp [he])) (Or.inl rfl)
          · refine ih x (fun e he => hl e (by simp [he])) (Or.inl ?_)
            rcases hx with hx | ⟨rfl, -⟩
            · exact hx
            · exfalso; apply hc
              rw [Fl.lt_num]
              simp only [Bool.and_eq_true, decide_eq_true_eq]
              exact ⟨rfl, hd⟩
        · rw [show e.largestDiameter = inf from congrArg (·.2.2.2.1) h1]
          have : ((inf : Fl K rnd) !=. inf) = false := rfl
          rw [this, Bool.false_and]
          simp only [Bool.false_eq_true, if_false]
          refine ih x (fun e he => hl e (by simp [he])) ?_
          rcases hx with hx | ⟨hx, e', he', h2⟩
          · exact Or.inl hx
          · rcases List.mem_cons.1 he' with rfl | he'
            · have := (congrArg (·.2.2.2.2) h1).symm.trans (congrArg (·.2.2.2.2) h2)
              simp at this
            · exact Or.inr ⟨hx, e', he', h2⟩
    rw [Fl.zero_num hr]
    exact hmax _ 0 hg (Or.inr ⟨rfl, e0, he0, hf0⟩)
end

/-- the edge of a surface not smaller than the lens -/
theorem edge_ok [PyTrig (Fl ℝ doubleR)] {h : ℝ} (h0 : 0 ≤ h) {R : Option ℝ} (hR : ∀ r ∈ R, r ≠ 0 ∧ h ≤ 99 / 100 * |r|) {v : Option (Fl ℝ doubleR)}
    (hv : v.isSome = true) : ∃ c, edgeCorner (Fl.num h) (Fl.optNum R) v = .ok c := by
  obtain ⟨x, rfl⟩ := Option.isSome_iff_exists.1 hv
  have hr := doubleR_rounding
  obtain ⟨q, hq1, hq2, hq3⟩ : ∃ q : ℝ, pyDiv (Fl.num h : Fl ℝ doubleR) (PyNum.abs (Fl.optNum R)) = .ok (Fl.num q) ∧ -1 ≤ q ∧ q ≤ 1 := by
    cases R with
    | none =>
      refine ⟨doubleR 0, rfl, ?_, ?_⟩ <;> rw [hr.zero] <;> norm_num
    | some r =>
      obtain ⟨r0, r1⟩ := hR r rfl
      have rp : 0 < |r| := abs_pos.2 r0
      refine ⟨doubleR (h / |r|), ?_, ?_, ?_⟩
      · change pyDiv (Fl.num h) (PyNum.abs (Fl.num r)) = _
        rw [Fl.abs_num, Fl.pyDiv_num hr _ _ (ne_of_gt rp)]
      all_goals
        have b1 : h / |r| ≤ 99 / 100 := by rw [div_le_iff₀ rp]; linarith
        have b0 : 0 ≤ h / |r| := by positivity
        have := abs_le.1 (hr.rel (h / |r|))
        rw [abs_of_nonneg b0] at this
        have b2 : (1 / 2 ^ 53 : ℝ) * (h / |r|) ≤ 1 / 100 * (h / |r|) := mul_le_mul_of_nonneg_right (by norm_num) b0
        linarith [this.1, this.2]
  refine ⟨x + Fl.optNum R * (1 - PyTrig.cos (PyTrig.asin (Fl.num q))), ?_⟩
  unfold edgeCorner pyAsin
  simp only [hq1, bind, Except.bind]
  rw [Fl.one_num hr, Fl.neg_num, Fl.lt_num, Fl.lt_num, if_neg (by simp only [Bool.or_eq_true, decide_eq_true_eq, not_or, not_lt]; exact ⟨hq3, hq2⟩)]
  rfl

/-- The checks at the end of the constructors raise nothing. -/
theorem checks_ok [PyTrig (Fl ℝ doubleR)] {g : Group (Fl ℝ doubleR)} {a c d l : ℝ} (hm : Holds g.mat a c d l 1 1) (hp : g.mat.hasPower = true) (hl : l ≠ 0)
    (hf : g.mat.frontVertex.isSome = true) (hb : g.mat.backVertex.isSome = true) {D : ℝ} (hD : g.toElem.largestDiameter = Fl.num D) (hD0 : 0 ≤ D)
    {R R' : Option ℝ} (hR : ∀ r ∈ R, r ≠ 0 ∧ D / 2 ≤ 98 / 100 * |r|) (hR' : ∀ r ∈ R', r ≠ 0 ∧ D / 2 ≤ 98 / 100 * |r|)
    {onThickness : Except PyErr Unit} {pick : Fl ℝ doubleR × Fl ℝ doubleR → Fl ℝ doubleR} {tc : Fl ℝ doubleR} {fa fb te : ℝ} (hfa : fa ≠ 0) (hfb : fb ≠ 0)
    (hte : te ≠ 0) {intF : Bool}
    (hT : onThickness = .ok () ∨ ∀ q, pyDiv (PyNum.abs (tc - g.mat.L)) g.mat.L = .ok q → (lit (2 / 100) <. q) = false)
    (hI : intF = true → ∀ f q, g.mat.effectiveFocalLengths = .ok f → pyDiv (pick f - Fl.num fa) (Fl.num fa) = .ok q →
      (lit (1 / 100) <. PyNum.abs q) = false) :
    ∃ ws, lensChecks onThickness pick g tc (Fl.num fa) (Fl.num fb) (Fl.optNum R) (Fl.optNum R') (Fl.num te) intF false = .ok ws := by
  have hr := doubleR_rounding
  obtain ⟨q1, e1⟩ := quotient_ok hr (PyNum.abs (tc - g.mat.L)) hl
  obtain ⟨f1, f2, e2, -, -⟩ := focal_near hr hm hp one_ne_zero
  obtain ⟨q2, e3⟩ := quotient_ok hr (pick (f1, f2) - Fl.num fa) hfa
  obtain ⟨x1, x2, e4, -, -⟩ := planes_near hr hm hp one_ne_zero 0
  obtain ⟨v, hv⟩ := Option.isSome_iff_exists.1 hb
  have e5 : g.mat.backFocalLength = .ok (some (x2 + f2 - v)) := by
    unfold Mat.backFocalLength
    rw [← Fl.zero_num hr] at e4
    simp only [hv, hp, e2, e4, bind, Except.bind, pure, Except.pure, if_true]
  obtain ⟨q3, e6⟩ := quotient_ok hr (x2 + f2 - v - Fl.num fb) hfb
  have hh : half (Fl.num D : Fl ℝ doubleR) = Fl.num (doubleR (D / 2)) := by
    unfold half
    rw [Fl.two_num hr, Fl.rawDiv_num]
  have hw : ∀ r : ℝ, D / 2 ≤ 98 / 100 * |r| → doubleR (D / 2) ≤ 99 / 100 * |r| := by
    intro r hr1
    have b0 : 0 ≤ D / 2 := by positivity
    have := abs_le.1 (hr.rel (D / 2))
    rw [abs_of_nonneg b0] at this
    have b2 : (1 / 2 ^ 53 : ℝ) * (D / 2) ≤ 1 / 100 * (D / 2) := mul_le_mul_of_nonneg_right (by norm_num) b0
    nlinarith [this.2, abs_nonneg r]
  have hn : 0 ≤ doubleR (D / 2) := by
    have b0 : 0 ≤ D / 2 := by positivity
    have := abs_le.1 (hr.rel (D / 2))
    rw [abs_of_nonneg b0] at this
    have b2 : (1 / 2 ^ 53 : ℝ) * (D / 2) ≤ 1 * (D / 2) := mul_le_mul_of_nonneg_right (by norm_num) b0
    linarith [this.1]
  obtain ⟨c1, e7⟩ := edge_ok hn (fun r h => ⟨(hR r h).1, hw r (hR r h).2⟩) hf
  obtain ⟨c2, e8⟩ := edge_ok hn (fun r h => ⟨(hR' r h).1, hw r (hR' r h).2⟩) hb
  obtain ⟨q4, e9⟩ := quotient_ok hr (c2 - c1) hte
  rw [← hm.L] at e1
  have t1 : (lit (2 / 100) <. q1) = true → onThickness = .ok () := by
    intro hq
    rcases hT with h | h
    · exact h
    · rw [h q1 e1] at hq; cases hq
  have t2 : textOf (intF && (lit (1 / 100) <. PyNum.abs q2)) = .ok () := by
    cases hi : intF with
    | false => rfl
    | true => rw [hI hi _ q2 e2 e3]; rfl
  have t3 : textOf (false && (lit (1 / 100) <. PyNum.abs q3)) = .ok () := rfl
  unfold lensChecks
  dsimp only
  by_cases hq : (lit (2 / 100) <. q1) = true
  · simp only [e1, e2, e3, e5, e6, e7, e8, e9, t1 hq, t2, t3, hD, hh, hq, bind, Except.bind, pure, Except.pure, if_true]
    exact ⟨_, rfl⟩
  · simp only [e1, e2, e3, e5, e6, e7, e8, e9, t2, t3, hD, hh, hq, bind, Except.bind, pure, Except.pure, if_false]
    exact ⟨_, rfl⟩

end RT
