import Verif.Lemmas.RoundedStop
import Verif.Props.StopsThick
import Verif.Props.Rounded

/-! # C107: the aperture stop found with floats -/

set_option linter.unusedSectionVars false

namespace RT
open PyNum Ext Fl
variable {K : Type} [Field K] [LinearOrder K] [IsStrictOrderedRing K]
variable {rnd : K → K} {u : K}

theorem stage_finiteR {m : Mat (Fl K rnd)} {s : RStage K} (h : RStageOf u m s) :
    m.hasFiniteApertureDiameter = true ↔ s.exact.diam ≠ none := by
  unfold Mat.hasFiniteApertureDiameter
  rw [h.diam]
  cases s.exact.diam with
  | none => 
    change (!(PyNum.eq (.pinf : Ext K) .pinf)) = true ↔ _
    simp
  | some D => 
    change (!(PyNum.eq (.fin D : Ext K) .pinf)) = true ↔ _
    simp

/-- The exits with their majorants are the exits. -/
theorem rexits_exact (ss : List (RStage K)) (k : ℕ) (z Z : K) (r m : K × K) :
    (rexits ss k z Z r m).map (fun o => (o.z, o.y, o.diam)) = exits (ss.map RStage.exact) z r := by
  induction ss generalizing k z Z r m with
  | nil => rfl
  | cons s ss ih =>
    unfold rexits
    simp only [List.map_cons]
    unfold exits
    split_ifs
    · rfl
    · rfl
    · simp only [List.map_cons, ih]

theorem rexits_pos {ss : List (RStage K)} (hp : PosOpenings ss) {k : ℕ} {z Z : K} {r m : K × K} :
    ∀ o ∈ rexits ss k z Z r m, ∀ D, o.diam = some D → 0 < D := by
  induction ss generalizing k z Z r m with
  | nil => simp [rexits]
  | cons s ss ih =>
    intro o ho
    unfold rexits at ho
    split_ifs at ho with h1 h2
    · simp at ho
    · simp only [List.mem_cons, List.not_mem_nil, or_false] at ho
      subst ho; exact hp s (by simp)
    · rcases List.mem_cons.1 ho with rfl | ho
      · exact hp s (by simp)
      · exact ih (fun t ht => hp t (List.mem_cons_of_mem _ ht)) o ho

/-- the exits of the probe ray of `apertureStop`, `Ray(0, 0.1)`; one rounding for writing 0.1 -/
noncomputable def probeExits (ss : List (RStage K)) : List (RExit K) := rexits ss 1 0 0 (0, 1 / 10) (0, 1 / 10)

/-- what is called exact is what the exact theorems compare with -/
theorem C107_reference (p : Part K) :
    (probeExits p.rstages).map (fun o => (o.z, o.y, o.diam)) = exits p.stages 0 (0, 1 / 10) := by
  unfold probeExits; rw [rexits_exact, rstages_exact]

/-- **C107**, what `apertureStop()` answers in floats: an opening where the exact ratio of the height of the probe to the diameter is the largest up to rounding
errors, with its own diameter and its position up to rounding errors; no stop only when all the ratios are zero up to rounding errors. -/
theorem C107_stop (hr : Rounding rnd u) {label : String} {ps : List (Part K)} {g : Group (Fl K rnd)}
    (hb : (Part.group label ps).buildR rnd = .ok g.toElem) {ss : List (RStage K)} (hss : ss = (Part.group label ps).rstages)
    (hfin : ∃ s ∈ ss, s.exact.diam ≠ none) (hd : Decided u 1 ss (0, 1 / 10) (0, 1 / 10)) :
    (g.apertureStop.run (newTrace g) = .ok (some (num 0), ⟨.pinf⟩) ∧ ∀ o ∈ probeExits ss, o.ratio ≤ o.err u) ∨
    ∃ o ∈ probeExits ss, ∃ z' D, o.diam = some D ∧ g.apertureStop.run (newTrace g) = .ok (some (num z'), num D) ∧
      |z' - o.z| ≤ relErr u o.roundings * o.zMaj ∧ ∀ o' ∈ probeExits ss, o'.ratio - o'.err u ≤ o.ratio + o.err u := by
  obtain ⟨hs, hpos⟩ := buildR_stages hr hb
  rw [← hss] at hs hpos
  have hf : hasFiniteApertureList g.elems = true := by
    have : g.toElem.hasFiniteApertureDiameter = true := by
      rw [hasFinite_iff]
      exact (forall₂_exists (p := fun m : Mat (Fl K rnd) => m.hasFiniteApertureDiameter = true) hs fun a b hab => stage_finiteR hab).2 hfin
    exact this
  have hlit : (lit (1 / 10) : Fl K rnd) = num (rnd (1 / 10)) := by rw [lit_num]; norm_num
  have e : g.apertureStop.run (newTrace g) =
      (match Group.stopLoop (newTrace g (num 0) (num (rnd (1 / 10)))) (num 0) (num 0) ⟨.pinf⟩ with
        | .ok s => .ok (some s.1, s.2) | .error x => .error x) := by
    unfold Group.apertureStop
    rw [if_pos hf]
    simp only [Prog.run_bind, Prog.run_ask, Prog.run_lift, Prog.run_pure, hlit, zero_num hr, inf_val]
    cases Group.stopLoop (newTrace g (num 0) (num (rnd (1 / 10)))) (num 0) (num 0) ⟨.pinf⟩ <;> rfl
  have hn : NearRay u 1 (Ray.new (num 0 : Fl K rnd) (num (rnd (1 / 10)))) (0, 1 / 10) (0, 1 / 10) 0 0 := by
    refine ⟨⟨0, rfl, by simp, by simp⟩, ⟨_, rfl, ?_, ?_⟩, ⟨0, zero_num hr, by simp, by simp⟩⟩
    · simp only; rw [abs_of_pos (by norm_num : (0 : K) < 1 / 10)]
    · have := hr.rel (1 / 10)
      rw [abs_of_pos (by norm_num : (0 : K) < 1 / 10)] at this
      simpa [relErr] using this
  obtain ⟨t1, t2⟩ := runTrace_rexits hr hs hpos hn rfl hd
  have hq : ∀ s ∈ newTrace g (num 0) (num (rnd (1 / 10))), ∃ q : K, pyDiv s.y s.apertureDiameter = .ok (num q) ∧
      (q = 0 ∨ ∃ o ∈ probeExits ss, SeenNear u s o) := by
    intro s hs'
    rcases t1 s hs' with rfl | ⟨o, ho, hso⟩
    · exact ⟨0, pyDiv_num_inf hr 0, .inl rfl⟩
    · obtain ⟨q, q1, -⟩ := hso.quot hr (rexits_pos hpos o ho)
      exact ⟨q, q1, .inr ⟨o, ho, hso⟩⟩
  classical
  let q : Ray (Fl K rnd) → K := fun s => if h : s ∈ newTrace g (num 0) (num (rnd (1 / 10))) then (hq s h).choose else 0
  have hq1 : ∀ s ∈ newTrace g (num 0) (num (rnd (1 / 10))), pyDiv s.y s.apertureDiameter = .ok (num (q s)) ∧
      (q s = 0 ∨ ∃ o ∈ probeExits ss, SeenNear u s o) := by
    intro s h
    have := (hq s h).choose_spec
    simp only [q, dif_pos h]; exact this
  have near : ∀ s ∈ newTrace g (num 0) (num (rnd (1 / 10))), ∀ o ∈ probeExits ss, SeenNear u s o → |(|q s|) - o.ratio| ≤ o.err u := by
    intro s h o ho hso
    obtain ⟨q', e1, e2, -⟩ := hso.quot hr (rexits_pos hpos o ho)
    rw [(hq1 s h).1] at e1
    have : q s = q' := num_inj (Except.ok.inj e1)
    rw [this]; exact e2
  rcases stopLoop_max _ q (fun s h => (hq1 s h).1) 0 (num 0) ⟨.pinf⟩ with ⟨h1, h2⟩ | ⟨s, hs', h1, h2, h3⟩
  · left
    refine ⟨by rw [e, h1], fun o ho => ?_⟩
    obtain ⟨s, h, hso⟩ := t2 o ho
    have a := abs_le.1 (near s h o ho hso)
    have b := h2 s h
    linarith [a.1]
  · right
    rcases (hq1 s hs').2 with h0 | ⟨o, ho, hso⟩
    · rw [h0, abs_zero] at h2; exact absurd h2 (lt_irrefl _)
    obtain ⟨q', e1, -, e3⟩ := hso.quot hr (rexits_pos hpos o ho)
    rw [(hq1 s hs').1] at e1
    have e4 : q s = q' := num_inj (Except.ok.inj e1)
    cases hdm : o.diam with
    | none => rw [e4, e3 hdm, abs_zero] at h2; exact absurd h2 (lt_irrefl _)
    | some D =>
      obtain ⟨z', z1, -, z2⟩ := hso.z
      refine ⟨o, ho, z', D, hdm, ?_, z2, fun o' ho' => ?_⟩
      · rw [e, h1, z1, hso.diam, hdm]; rfl
      · obtain ⟨s', h', hso'⟩ := t2 o' ho'
        have a := abs_le.1 (near s' h' o' ho' hso')
        have b := abs_le.1 (near s hs' o ho hso)
        have c := h3 s' h'
        linarith [a.1, b.2]

/-- Floats find the same stop as exact numbers when no other opening is as limiting up to rounding errors: the same diameter, and the same position up
to rounding errors. -/
theorem C107_agree (hr : Rounding rnd u) {label : String} {ps : List (Part K)} {g : Group (Fl K rnd)} {g' : Group (Ext K)}
    (hb : (Part.group label ps).buildR rnd = .ok g.toElem) (hb' : (Part.group label ps).build = .ok g'.toElem) {ss : List (RStage K)}
    (hss : ss = (Part.group label ps).rstages) (hd : Decided u 1 ss (0, 1 / 10) (0, 1 / 10)) {o : RExit K} (ho : o ∈ probeExits ss) {D : K}
    (hD : o.diam = some D) (hpos : o.err u < o.ratio)
    (hsep : ∀ o' ∈ probeExits ss, o' = o ∨ o'.ratio + o'.err u < o.ratio - o.err u) :
    g'.apertureStop.run (newTrace g') = .ok (some (fin o.z), fin D) ∧
    ∃ z', g.apertureStop.run (newTrace g) = .ok (some (num z'), num D) ∧ |z' - o.z| ≤ relErr u o.roundings * o.zMaj := by
  have hst : ss.map RStage.exact = (Part.group label ps).stages := by rw [hss, rstages_exact]
  have hmem : ∀ o' ∈ probeExits ss, (o'.z, o'.y, o'.diam) ∈ exits (Part.group label ps).stages 0 (0, 1 / 10) := by
    intro o' h
    rw [← C107_reference, ← hss]; exact List.mem_map_of_mem (f := fun o : RExit K => (o.z, o.y, o.diam)) h
  obtain ⟨hs, hposn⟩ := buildR_stages hr hb
  rw [← hss] at hs hposn
  have hfin : ∃ s ∈ ss, s.exact.diam ≠ none := by
    have key : ∀ (ss : List (RStage K)) (k : ℕ) (z Z : K) (r m : K × K), o ∈ rexits ss k z Z r m → ∃ s ∈ ss, s.exact.diam ≠ none := by
      intro ss
      induction ss with
      | nil => simp [rexits]
      | cons s ss ih =>
        intro k z Z r m h
        unfold rexits at h
        split_ifs at h
        · simp at h
        · simp only [List.mem_cons, List.not_mem_nil, or_false] at h
          refine ⟨s, by simp, ?_⟩
          rw [h] at hD; simp only at hD; rw [hD]; simp
        · rcases List.mem_cons.1 h with h | h
          · refine ⟨s, by simp, ?_⟩
            rw [h] at hD; simp only at hD; rw [hD]; simp
          · obtain ⟨t, h1, h2⟩ := ih _ _ _ _ _ h
            exact ⟨t, List.mem_cons_of_mem _ h1, h2⟩
    exact key _ _ _ _ _ _ ho
  have hD0 := rexits_pos hposn o ho D hD
  have hrat : o.ratio = |o.y| / D := by simp [RExit.ratio, hD]
  have herr : ∀ o' ∈ probeExits ss, 0 ≤ o'.err u := by
    intro o' ho'
    obtain ⟨s, -, hso⟩ : ∃ s : Ray (Fl K rnd), True ∧ SeenNear u s o' := by
      have hn : NearRay u 1 (Ray.new (num 0 : Fl K rnd) (num (1 / 10))) (0, 1 / 10) (0, 1 / 10) 0 0 := by
        refine ⟨⟨0, rfl, by simp, by simp⟩, ⟨_, rfl, ?_, ?_⟩, ⟨0, zero_num hr, by simp, by simp⟩⟩
        · simp only; rw [abs_of_pos (by norm_num : (0 : K) < 1 / 10)]
        · simp only [sub_self, abs_zero]; exact mul_nonneg (relErr_nonneg hr.nonneg 1) (by norm_num)
      obtain ⟨-, t2⟩ := runTrace_rexits hr hs hposn hn rfl hd
      obtain ⟨s, -, h⟩ := t2 o' ho'
      exact ⟨s, trivial, h⟩
    obtain ⟨q, -, h, -⟩ := hso.quot hr (rexits_pos hposn o' ho')
    exact (abs_nonneg _).trans h
  have hbest : ∀ o' ∈ probeExits ss, o' = o ∨ o'.ratio < o.ratio := by
    intro o' h
    rcases hsep o' h with h1 | h1
    · exact .inl h1
    · have := herr o' h; have := herr o ho; right; linarith
  refine ⟨?_, ?_⟩
  · have hy : o.y ≠ 0 := by
      intro h0; rw [hrat, h0, abs_zero, zero_div] at hpos
      exact absurd hpos (not_lt.2 (herr o ho))
    have hfin' : ∃ s ∈ (Part.group label ps).stages, s.diam ≠ none := by
      obtain ⟨s, h1, h2⟩ := hfin
      exact ⟨s.exact, by rw [← hst]; exact List.mem_map_of_mem h1, h2⟩
    rcases C30_exits hb' rfl hfin' with ⟨-, h2⟩ | ⟨z, y, D', h1, h2, h3, h4⟩
    · exact absurd (h2 o.z o.y D (by rw [← hD]; exact hmem o ho)) hy
    · have h5 := h4 o.z o.y D (by rw [← hD]; exact hmem o ho)
      rw [← C107_reference, ← hss, List.mem_map] at h1
      obtain ⟨o', ho', he⟩ := h1
      simp only [Prod.mk.injEq] at he
      rcases hbest o' ho' with rfl | hlt
      · rw [h2]
        obtain ⟨e1, -, e3⟩ := he
        rw [hD] at e3; cases e3; rw [e1]
      · have : o'.ratio = |y| / D' := by rw [RExit.ratio, he.2.2, ← he.2.1]
        rw [this, hrat] at hlt
        exact absurd h5 (not_le.2 hlt)
  · rcases C107_stop hr hb hss hfin hd with ⟨-, h2⟩ | ⟨o', ho', z', D', h1, h2, h3, h4⟩
    · exact absurd (h2 o ho) (not_le.2 hpos)
    · rcases hsep o' ho' with rfl | hlt
      · rw [hD] at h1; cases h1
        exact ⟨z', h2, h3⟩
      · have := h4 o ho
        exact absurd this (not_le.2 hlt)

/-- two apertures on a path from the object, at a distance from one another -/
def twoStops (d1 D1 d2 D2 : ℚ) : Part ℚ :=
  .group "" [.space d1 1 none, .aperture (some D1) none "", .space d2 1 none, .aperture (some D2) none ""]

/-- the stop of a path once built -/
def stopOf {F : Type} [PyNum F] (e : Except PyErr (Elem F)) : Except PyErr (Option F × F) := do
  match ← e with
  | .group m c es => (Group.mk m c es).apertureStop.run (newTrace (Group.mk m c es))
  | .leaf _ => throw .typeError

theorem twoStops_exits : probeExits (twoStops 10 4 10 20).rstages = [⟨3, 10, 10, 1, 1, none⟩, ⟨5, 10, 10, 1, 1, some 4⟩,
    ⟨7, 20, 20, 2, 2, none⟩, ⟨9, 20, 20, 2, 2, some 20⟩] := by
  simp [probeExits, twoStops, Part.rstages, Part.rstagesList, rexits, Stage.StopsEntry, Stage.Stops, Stage.withOps, Stage.abs, Stage.out,
    Sys.stage, Sys.space, Sys.one]
  norm_num

theorem relErr_small {v : K} (h0 : 0 ≤ v) (h1 : v ≤ 1 / 1000) {k : ℕ} (hk : k ≤ 10) : 0 ≤ relErr v k ∧ relErr v k ≤ 1 / 50 := by
  refine ⟨relErr_nonneg h0 k, (relErr_mono h0 hk).trans ?_⟩
  have : (1 + v) ^ 10 ≤ (1 + 1 / 1000) ^ 10 := by gcongr
  have e : ((1 : K) + 1 / 1000) ^ 10 ≤ 1 + 1 / 50 := by norm_num
  unfold relErr; linarith

/-- the hypotheses hold for a path where the first aperture is the stop, for all roundings with a relative error less than 1/1000, and the program finds it -/
theorem C107_example {v : ℚ} (h0 : 0 ≤ v) (h1 : v ≤ 1 / 1000) : Decided v 1 (twoStops 10 4 10 20).rstages (0, 1 / 10) (0, 1 / 10) ∧
    (∃ o ∈ probeExits (twoStops 10 4 10 20).rstages, o.diam = some 4 ∧ o.z = 10 ∧ o.err v < o.ratio ∧
      ∀ o' ∈ probeExits (twoStops 10 4 10 20).rstages, o' = o ∨ o'.ratio + o'.err v < o.ratio - o.err v) ∧
    stopOf ((twoStops 10 4 10 20).buildR double) = .ok (some (num 10), num 4) := by
  have r3 := relErr_small h0 h1 (k := 3) (by norm_num)
  have r6 := relErr_small h0 h1 (k := 6) (by norm_num)
  have r7 := relErr_small h0 h1 (k := 7) (by norm_num)
  have r10 := relErr_small h0 h1 (k := 10) (by norm_num)
  refine ⟨?_, ⟨⟨5, 10, 10, 1, 1, some 4⟩, ?_⟩, by decide +kernel⟩
  · simp [twoStops, Part.rstages, Part.rstagesList, Decided, Stage.withOps, Stage.abs, Stage.out, Sys.stage, Sys.space, Sys.one]
    generalize relErr v 3 = x at r3
    generalize relErr v 7 = y at r7
    right
    constructor
    · linarith [r3.2]
    · right; linarith [r7.2]
  · rw [twoStops_exits]
    simp only [List.mem_cons, List.not_mem_nil, or_false, forall_eq_or_imp, forall_eq, RExit.ratio, RExit.err]
    generalize relErr v (5 + 1) = x at *
    generalize relErr v (9 + 1) = y at *
    refine ⟨.inr (.inl trivial), trivial, trivial, ?_, .inr ?_, .inl trivial, .inr ?_, .inr ?_⟩
    all_goals rw [abs_of_pos (by norm_num : (0 : ℚ) < 1)]
    all_goals try rw [abs_of_pos (by norm_num : (0 : ℚ) < 2)]
    all_goals norm_num
    all_goals linarith [r6.2, r10.2]

/-- Two apertures of 1 and 3 at 1 and 3 limit the beam equally, and exact numbers report the first one; Python floats report the second one. -/
theorem C107_violated : stopOf (twoStops 1 1 2 3).build = .ok (some (fin 1), fin 1) ∧
    stopOf ((twoStops 1 1 2 3).buildR double) = .ok (some (num 3), num 3) := by
  decide +kernel

end RT
