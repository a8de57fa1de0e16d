import Verif.Lemmas.Field

/-! # C30–C35: stops, pupils, special rays and fields of an `ImagingPath`

The methods are programs that ask for traces. The theorems are about their answers when each ray is traced anew
(`Prog.run (newTrace g)`); `C30_sessions` says that this is what a path without nested groups answers whatever was
traced before. -/

set_option linter.unusedSectionVars false

namespace RT
open PyNum Ext
variable {K : Type} [Field K] [LinearOrder K] [IsStrictOrderedRing K]

/-- A method of a path without nested groups (just built, `g0`, or after any number of other methods, `p1`) answers as if
each ray were traced anew, and the elements are unchanged. -/
theorem C30_sessions {α β : Type} {label : String} {ps : List (Part K)} {g0 : Group (Ext K)}
    (hb : (Part.group label ps).build = .ok g0.toElem) (hf : g0.toElem.Flat) (h : Heap (Ext K))
    (p1 : Prog (Ext K) α) (p2 : Prog (Ext K) β) :
    (p2.runH (p1.runH g0 h).2.1 (p1.runH g0 h).2.2).1 = p2.run (newTrace g0) ∧
    (p2.runH (p1.runH g0 h).2.1 (p1.runH g0 h).2.2).2.1.elems = g0.elems := by
  obtain ⟨-, h2, -⟩ := build_sound hb
  have hc := (runH_eq_run p1 hf (coherent_start h2 h)).2
  obtain ⟨h3, h4⟩ := runH_eq_run p2 hf hc
  exact ⟨h3, h4.elems⟩

/-! ## C30 -/

/-- **C30** for paths whose finite openings are thin (lenses, apertures, mirrors, interfaces: not spaces or thick lenses)
and without acceptance angles, in terms of the openings that the probe ray `Ray(0, 0.1)` meets before it is blocked:
`apertureStop()` is the position and the diameter of one of these openings, and any ray from the axial point of the object
gets through these openings if and only if it gets through that one. (Or no ray from the axial point is blocked by
these, and the diameter reported is infinite.) Missing: openings behind the one that blocks the probe ray
(`C30_violated`), and thick elements, whose exit is compared (`C30_thick_violated`). -/
theorem C30_apertureStop_partial {label : String} {ps : List (Part K)} {g : Group (Ext K)}
    (hb : (Part.group label ps).build = .ok g.toElem) {ss : List (Stage K)} (hss : ss = (Part.group label ps).stages)
    (hfin : ∃ s ∈ ss, s.diam ≠ none) (ht : ThinOpenings ss) (hna : NoNA ss) :
    (g.apertureStop.run (newTrace g) = .ok (some (fin 0), pinf) ∧ ∀ θ, ¬ Blocked (crossed ss (0, 1 / 10)) (0, θ)) ∨
    ∃ (i : Nat) (s : Stage K) (D : K), (crossed ss (0, 1 / 10))[i]? = some s ∧ s.diam = some D ∧
      g.apertureStop.run (newTrace g) = .ok (some (fin (zBefore ss i)), fin D) ∧
      ∀ θ, Blocked (crossed ss (0, 1 / 10)) (0, θ) ↔ D / 2 < |(rayBefore ss i (0, θ)).1| := by
  have hst : ItemStages g.toElem.items ss := by rw [hss]; exact build_stages hb
  have hf : hasFiniteApertureList g.elems = true := (hasFinite_stages hst).2 hfin
  have htr : newTrace g (fin 0) (fin (1 / 10)) = runTrace g.toElem.items (Ray.new (fin 0) (fin (1 / 10))) := by
    unfold newTrace traceV settle
    rw [thin_entryStops hst ht]; simp [Ray.new]
  obtain ⟨t1, t2⟩ := runTrace_trail hst ht (finRay_new (K := K) 0 (1 / 10)) rfl
  set c := crossed ss (0, 1 / 10) with hc
  have hpre : c <+: ss := crossed_prefix ss _
  -- an opening that the probe meets, in the trace
  have seen : ∀ (i : Nat) (s : Stage K), c[i]? = some s → ∃ x ∈ newTrace g (fin 0) (fin (1 / 10)),
      EntryAt x (0 + zBefore ss i + s.len) (s.out (rayBefore ss i (0, 1 / 10))).1 s.diam := by
    intro i s hi
    obtain ⟨x, hx, h1, h2, h3⟩ := t2 _ (trail_mem.2 ⟨i, s, hi, rfl⟩)
    refine ⟨x, by rw [htr]; exact hx, h1, h2, h3, ?_⟩
    intro d hd
    have hmem : s ∈ ss := hpre.subset (List.mem_of_getElem? hi)
    obtain ⟨j, hj⟩ := List.getElem?_of_mem hmem
    have := List.forall₂_iff_get.1 hst
    obtain ⟨hjl, hje⟩ := List.getElem?_eq_some_iff.1 hj
    have h4 := this.2 j (by rw [this.1]; exact hjl) hjl
    rw [List.get_eq_getElem, List.get_eq_getElem, hje] at h4
    exact h4.diam_pos d hd
  -- its height where it is thin
  have height : ∀ (i : Nat) (s : Stage K), c[i]? = some s → s.diam ≠ none →
      (s.out (rayBefore ss i (0, 1 / 10))).1 = (rayBefore ss i (0, 1 / 10)).1 ∧ s.len = 0 := by
    intro i s hi hd
    obtain ⟨h1, h2, h3⟩ := ht s (hpre.subset (List.mem_of_getElem? hi)) hd
    exact ⟨by simp [Stage.out, h1, h2], h3⟩
  have scale : ∀ i θ, (rayBefore ss i (0, θ)).1 = 10 * θ * (rayBefore ss i (0, 1 / 10)).1 := by
    intro i θ
    have := rayBefore_smul ss i (10 * θ) ((0 : K), 1 / 10)
    have e : ((10 * θ) * ((0 : K), (1 : K) / 10).1, (10 * θ) * ((0 : K), (1 : K) / 10).2) = (0, θ) := by
      ext <;> simp; ring
    rw [e] at this
    rw [this]
  have blocked_c : ∀ θ, Blocked c (0, θ) ↔ ∃ (i : Nat) (s : Stage K) (D : K), c[i]? = some s ∧ s.diam = some D ∧
      D / 2 < |(rayBefore ss i (0, θ)).1| := by
    intro θ
    rw [blocked_iff]
    constructor
    · rintro ⟨i, s, hi, h | ⟨N, hN, -⟩⟩
      · obtain ⟨D, h1, h2⟩ := h
        refine ⟨i, s, D, hi, h1, ?_⟩
        rw [← rayBefore_prefix hpre (List.getElem?_eq_some_iff.1 hi).1.le]; exact h2
      · rw [hna s (hpre.subset (List.mem_of_getElem? hi))] at hN; simp at hN
    · rintro ⟨i, s, D, hi, h1, h2⟩
      refine ⟨i, s, hi, .inl ⟨D, h1, ?_⟩⟩
      rw [rayBefore_prefix hpre (List.getElem?_eq_some_iff.1 hi).1.le]; exact h2
  rcases apertureStop_run hst hf with ⟨h1, h2⟩ | ⟨x, hx, z, y, D, h1, h2, h3, h4⟩
  · left
    refine ⟨h1, fun θ => ?_⟩
    rw [blocked_c]
    rintro ⟨i, s, D, hi, hd, hlt⟩
    obtain ⟨x, hx, he⟩ := seen i s hi
    have hr := h2 x hx _ _ _ he
    have hD : 0 < D := he.pos D hd
    rw [hd, (height i s hi (by simp [hd])).1] at hr
    simp only [ratioOf] at hr
    have h0 : |(rayBefore ss i (0, 1 / 10)).1| = 0 := by
      have := abs_nonneg (rayBefore ss i (0, (1 : K) / 10)).1
      have h5 : |(rayBefore ss i (0, (1 : K) / 10)).1| ≤ 0 := by
        rw [div_le_iff₀ hD] at hr; linarith
      exact le_antisymm h5 this
    rw [scale, abs_mul, h0, mul_zero] at hlt
    linarith
  · right
    -- the entry comes from an opening
    obtain ⟨i, s, hi, hz, hy, hd⟩ : ∃ (i : Nat) (s : Stage K), c[i]? = some s ∧ z = zBefore ss i + s.len ∧
        y = (s.out (rayBefore ss i (0, 1 / 10))).1 ∧ s.diam = some D := by
      rcases t1 x (by rw [← htr]; exact hx) with h5 | ⟨o, ho, hs1, hs2, hs3⟩
      · have := h1.diam
        rw [h5] at this
        simp [Ray.new, optInf] at this
      · obtain ⟨i, s, hi, rfl⟩ := trail_mem.1 ho
        rw [h1.z] at hs1; rw [h1.y] at hs2; rw [h1.diam] at hs3
        simp only [Ext.fin.injEq] at hs1 hs2
        refine ⟨i, s, hi, by rw [hs1]; simp, hs2, ?_⟩
        cases hsd : s.diam with
        | none => rw [hsd] at hs3; simp [optInf] at hs3
        | some D' =>
          rw [hsd] at hs3
          simp only [optInf, Ext.fin.injEq] at hs3
          rw [hs3]
    obtain ⟨e1, e2⟩ := height i s hi (by simp [hd])
    refine ⟨i, s, D, hi, hd, ?_, fun θ => ?_⟩
    · rw [h2, hz, e2, add_zero]
    · rw [blocked_c]
      constructor
      · rintro ⟨j, t, E, hj, htE, hlt⟩
        obtain ⟨x', hx', he'⟩ := seen j t hj
        have hr := h4 x' hx' _ _ _ he'
        rw [htE, (height j t hj (by simp [htE])).1, hy, e1] at hr
        simp only [ratioOf] at hr
        have hD : 0 < D := h1.pos D rfl
        have hE : 0 < E := he'.pos E htE
        rw [div_le_div_iff₀ hE hD] at hr
        rw [scale, abs_mul] at hlt ⊢
        by_contra hcon
        rw [not_lt] at hcon
        have hk := abs_nonneg (10 * θ)
        have hh := abs_nonneg (rayBefore ss i (0, (1 : K) / 10)).1
        -- |k| h_j > E/2 and |k| h_i ≤ D/2, h_j D ≤ h_i E
        have h6 : |10 * θ| * |(rayBefore ss j (0, 1 / 10)).1| * D ≤ |10 * θ| * |(rayBefore ss i (0, 1 / 10)).1| * E := by
          rw [mul_assoc, mul_assoc]; exact mul_le_mul_of_nonneg_left hr hk
        have h7 : E / 2 * D < |10 * θ| * |(rayBefore ss j (0, 1 / 10)).1| * D := mul_lt_mul_of_pos_right hlt hD
        have h8 : |10 * θ| * |(rayBefore ss i (0, 1 / 10)).1| * E ≤ D / 2 * E := mul_le_mul_of_nonneg_right hcon hE.le
        linarith
      · intro hlt
        exact ⟨i, s, D, hi, hd, hlt⟩

/-- **C30** in full when the probe ray gets through the path. -/
theorem C30_apertureStop_open_partial {label : String} {ps : List (Part K)} {g : Group (Ext K)}
    (hb : (Part.group label ps).build = .ok g.toElem) {ss : List (Stage K)} (hss : ss = (Part.group label ps).stages)
    (hfin : ∃ s ∈ ss, s.diam ≠ none) (ht : ThinOpenings ss) (hna : NoNA ss) (hopen : ¬ Blocked ss (0, 1 / 10)) :
    (g.apertureStop.run (newTrace g) = .ok (some (fin 0), pinf) ∧ ∀ θ, ¬ Blocked ss (0, θ)) ∨
    ∃ (i : Nat) (s : Stage K) (D : K), ss[i]? = some s ∧ s.diam = some D ∧
      g.apertureStop.run (newTrace g) = .ok (some (fin (zBefore ss i)), fin D) ∧
      ∀ θ, Blocked ss (0, θ) ↔ D / 2 < |(rayBefore ss i (0, θ)).1| := by
  have := C30_apertureStop_partial hb hss hfin ht hna
  rwa [crossed_of_not_blocked hopen] at this

/-- **C30** without finite diameter: there is no stop. -/
theorem C30_no_stop {label : String} {ps : List (Part K)} {g : Group (Ext K)}
    (hb : (Part.group label ps).build = .ok g.toElem) (hfin : ∀ s ∈ (Part.group label ps).stages, s.diam = none)
    (tr : Ext K → Ext K → List (Ray (Ext K))) : g.apertureStop.run tr = .ok (none, pinf) := by
  have hf : ¬ hasFiniteApertureList g.elems = true := by
    have := (hasFinite_stages (build_stages hb)).not.2 (by push Not; exact hfin)
    exact this
  unfold Group.apertureStop
  rw [if_neg hf]; rfl

/-- run a computation on a path just built -/
def withPath {α : Type} (ps : List (Part ℚ)) (f : Group (Ext ℚ) → α) : Except PyErr α :=
  match (Part.group "" ps).build with
  | .ok (.group m c es) => .ok (f ⟨m, c, es⟩)
  | .ok (.leaf _) => .error .typeError
  | .error x => .error x

/-- **C30** is violated when the probe ray is blocked: behind a lens of diameter 10 there is a lens of diameter 1 which
limits the light, but the lens of diameter 10 is reported, although the ray `(0, 0.02)` gets through it
and is blocked. -/
theorem C30_violated :
    withPath [.space 100 1 none, .lens 100 (some 10), .space 100 1 none, .lens 100 (some 1)]
      (fun g => g.apertureStop.run (newTrace g)) = .ok (.ok (some (fin 100), fin 10)) ∧
    withPath [.space 100 1 none, .lens 100 (some 10), .space 100 1 none, .lens 100 (some 1)]
      (fun g => (newTrace g (fin 0) (fin (1/50))).map fun r => (r.z, r.y, r.isBlocked)) =
    .ok [(fin 0, fin 0, false), (fin 0, fin 0, false), (fin 100, fin 2, false), (fin 100, fin 2, false),
       (fin 100, fin 2, false), (fin 200, fin 2, false), (fin 200, fin 2, true)] := by decide +kernel

/-- **C30** is violated by thick elements: a space of diameter 10 (a tube) is reported, because its exit is compared, although
only its entrance stops rays: the ray `(0, 0.06)` is higher than the tube at its exit and is not blocked. -/
theorem C30_thick_violated :
    withPath [.lens 100 (some 10), .space 100 1 (some 11)]
      (fun g => g.apertureStop.run (newTrace g)) = .ok (.ok (some (fin 100), fin 11)) ∧
    withPath [.lens 100 (some 10), .space 100 1 (some 11)]
      (fun g => (newTrace g (fin 0) (fin (6/100))).map fun r => (r.z, r.y, r.isBlocked)) =
    .ok [(fin 0, fin 0, false), (fin 0, fin 0, false), (fin 0, fin 0, false), (fin 100, fin 6, false)] := by
  decide +kernel

/-- The hypotheses of the theorems of C30 are met by a 4f system with two lenses and an iris between. -/
example : ThinOpenings (Part.group "" [.space (100 : ℚ) 1 none, .lens 100 (some 50), .space 100 1 none,
      .aperture (some 10) none "", .space 100 1 none, .lens 100 (some 50)]).stages ∧
    NoNA (Part.group "" [.space (100 : ℚ) 1 none, .lens 100 (some 50), .space 100 1 none,
      .aperture (some 10) none "", .space 100 1 none, .lens 100 (some 50)]).stages ∧
    withPath [.space (100 : ℚ) 1 none, .lens 100 (some 50), .space 100 1 none,
      .aperture (some 10) none "", .space 100 1 none, .lens 100 (some 50)]
      (fun g => g.apertureStop.run (newTrace g)) = .ok (.ok (some (fin 200), fin 10)) := by
  refine ⟨?_, ?_, by decide +kernel⟩
  · simp [ThinOpenings, Part.stages, Part.stagesList, Sys.stage, Sys.space, Sys.lens, Sys.one]
  · simp [NoNA, Part.stages, Part.stagesList, Sys.stage]

/-! ## C31 -/

/-- **C31** for systems described by a `Part` whose stop, at `z`, has the finite diameter `D`: when `z` is not strictly
inside a black box, `A y + B θ` being the height at the stop of the ray that starts at `(y, θ)`: with `|B| < 1e-5` (the stop
is an image of the object within the tolerance of the code) both methods return `None`; otherwise `chiefRay(y)` starts at
`y` and crosses the axis at the stop, `marginalRays(y)` start at `y`, reach both edges of the stop, and the first one has the
larger angle. Inside a black box both raise `TypeError`. Missing: "`None` only when conjugate" holds within the tolerance
only (`C31_tolerance_violated`), and stops of infinite diameter. -/
theorem C31_rays_partial {label : String} {ps : List (Part K)} (hv : (Part.group label ps).Valid)
    (hn : (Part.group label ps).NonNeg) {g : Group (Ext K)} (hb : (Part.group label ps).build = .ok g.toElem)
    (hc : g.toElem.Clean) {z D : K} (hs : g.apertureStop.run (newTrace g) = .ok (some (fin z), fin D)) :
    (Visible (Part.group label ps).prims z → ∃ A B : K,
      (∀ y θ, ∃ θ', rayAt (Part.group label ps).prims z (y, θ) = some (A * y + B * θ, θ')) ∧
      (|B| < 1 / 100000 → ∀ y : K, (g.chiefRay (fin y)).run (newTrace g) = .ok none ∧
        (g.marginalRays (fin y)).run (newTrace g) = .ok none) ∧
      (1 / 100000 ≤ |B| → ∀ y : K,
        (∃ θ, (g.chiefRay (fin y)).run (newTrace g) = .ok (some (Ray.new (fin y) (fin θ))) ∧ A * y + B * θ = 0) ∧
        ∃ θ1 θ2, (g.marginalRays (fin y)).run (newTrace g) =
            .ok (some (Ray.new (fin y) (fin θ1), Ray.new (fin y) (fin θ2))) ∧ θ2 < θ1 ∧
          (A * y + B * θ1 = D / 2 ∧ A * y + B * θ2 = -(D / 2) ∨
           A * y + B * θ1 = -(D / 2) ∧ A * y + B * θ2 = D / 2))) ∧
    (¬ Visible (Part.group label ps).prims z → ∀ y : K, (g.chiefRay (fin y)).run (newTrace g) = .error .typeError ∧
      (g.marginalRays (fin y)).run (newTrace g) = .error .typeError) := by
  obtain ⟨hz, hD⟩ := apertureStop_pos hn hb hs
  obtain ⟨c1, c2⟩ := C18_cut hv hn hb hc hz
  have e0 : ∀ x, g.toElem.transferMatrix x = g.transferMatrix x := fun x => rfl
  constructor
  · intro hvis
    obtain ⟨t, s, h1, h2, h3, h4, h5⟩ := c1 hvis
    rw [e0] at h1
    have hts := toStop_eq hs h1
    refine ⟨s.a, s.b, fun y θ => ⟨_, h5 y θ⟩, ?_, ?_⟩
    · intro hB y
      rw [if_pos ((isImaging_den h2).2 hB)] at hts
      exact ⟨chiefRay_none hts _, marginalRays_none hts _⟩
    · intro hB y
      rw [if_neg (by rw [isImaging_den h2]; exact not_lt.2 hB)] at hts
      have hB0 : s.b ≠ 0 := by
        intro h0; rw [h0] at hB; norm_num at hB
      refine ⟨⟨_, chiefRay_eq hts h2 hB0 y, by field_simp; ring⟩, ?_⟩
      rw [marginalRays_eq hts h2 hB0 y]
      split_ifs with hlt
      · exact ⟨_, _, rfl, hlt, .inr ⟨by field_simp; ring, by field_simp; ring⟩⟩
      · refine ⟨_, _, rfl, lt_of_le_of_ne (not_lt.1 hlt) ?_, .inl ⟨by field_simp; ring, by field_simp; ring⟩⟩
        intro heq
        rw [div_left_inj' hB0] at heq
        linarith
  · intro hvis y
    have h1 := c2 hvis
    rw [e0] at h1
    have hts := toStop_error hs h1
    constructor
    · unfold Group.chiefRay; simp only [Prog.run_bind, hts]
    · unfold Group.marginalRays; simp only [Prog.run_bind, hts]

/-- **C31** without finite diameter: there is no stop and both methods return `None`. -/
theorem C31_no_stop {label : String} {ps : List (Part K)} {g : Group (Ext K)}
    (hb : (Part.group label ps).build = .ok g.toElem) (hfin : ∀ s ∈ (Part.group label ps).stages, s.diam = none)
    (y : Ext K) :
    (g.chiefRay y).run (newTrace g) = .ok none ∧ (g.marginalRays y).run (newTrace g) = .ok none := by
  have hts : g.toStop.run (newTrace g) = .ok none := by
    unfold Group.toStop
    simp only [Prog.run_bind, C30_no_stop hb hfin, Prog.run_pure]
  exact ⟨chiefRay_none hts _, marginalRays_none hts _⟩

/-- **C31** is violated by small systems: with an iris 5e-6 behind the object, which is not conjugate to it, there is no chief
ray. -/
theorem C31_tolerance_violated :
    withPath [.space (5 / 1000000) 1 none, .aperture (some 1) none ""] (fun g =>
      (g.chiefRay (fin 1)).run (newTrace g)) = .ok (.ok none) := by decide +kernel

/-- The hypotheses of `C31_rays_partial` are met by a 4f system with an iris: stop at 200, chief ray from the height 5. -/
example : withPath [.space (100 : ℚ) 1 none, .lens 100 (some 50), .space 100 1 none,
      .aperture (some 10) none "", .space 100 1 none, .lens 100 (some 50)]
      (fun g => ((g.chiefRay (fin 5)).run (newTrace g)).map (Option.map Ray.theta)) = .ok (.ok (some (fin 0))) := by
  decide +kernel

/-! ## C32 -/

/-- **C32** for systems described by a `Part` whose stop, at `z`, has the finite diameter `D` and is not inside a black box,
when the matrix up to the stop has front index 1: `A y + B θ` being the height at the stop of the ray that starts at
`(y, θ)`, with `A ≠ 0`: `entrancePupil()` is `(P, E)` such that a ray reaches the height `A h` of the stop iff it is aimed at
the height `h` of the plane `P`, and it is inside the stop iff it is aimed inside the diameter `E` at `P`. With `A = 0` the
pupil is at infinity. Missing: other front indices, where the code raises `ValueError` (`C32_frontIndex_violated`). -/
theorem C32_entrancePupil_partial {label : String} {ps : List (Part K)} (hv : (Part.group label ps).Valid)
    (hn : (Part.group label ps).NonNeg) {g : Group (Ext K)} (hb : (Part.group label ps).build = .ok g.toElem)
    (hc : g.toElem.Clean) {z D : K} (hs : g.apertureStop.run (newTrace g) = .ok (some (fin z), fin D))
    (hvis : Visible (Part.group label ps).prims z)
    (hair : ∀ t, g.transferMatrix (fin z) = .ok t → t.frontIndex = fin 1) :
    ∃ A B : K, (∀ y θ, ∃ θ', rayAt (Part.group label ps).prims z (y, θ) = some (A * y + B * θ, θ')) ∧
      (A ≠ 0 → ∃ P E : K, g.entrancePupil.run (newTrace g) = .ok (some (fin P, fin E)) ∧ 0 < E ∧
        (∀ y θ h, A * y + B * θ = A * h ↔ y + P * θ = h) ∧
        (∀ y θ, |A * y + B * θ| ≤ D / 2 ↔ |y + P * θ| ≤ E / 2)) ∧
      (A = 0 → g.entrancePupil.run (newTrace g) = .ok (some (ninf, pinf))) := by
  obtain ⟨hz, hD⟩ := apertureStop_pos hn hb hs
  obtain ⟨c1, -⟩ := C18_cut hv hn hb hc hz
  obtain ⟨t, s, h1, h2, h3, h4, h5⟩ := c1 hvis
  have e0 : g.toElem.transferMatrix (fin z) = g.transferMatrix (fin z) := rfl
  rw [e0] at h1
  have hnf : s.nf = 1 := by
    have := hair t h1
    rw [h2.nf] at this
    simpa using this
  have hf : hasFiniteApertureList g.elems = true := by
    by_contra hf
    unfold Group.apertureStop at hs
    rw [if_neg hf] at hs
    simp at hs
  refine ⟨s.a, s.b, fun y θ => ⟨_, h5 y θ⟩, ?_, ?_⟩
  · intro ha
    obtain ⟨c, q1, q2, q3, -⟩ := backwardConjugate_eq h2 h3.accepted hnf ha
    have himg : c.isImaging = true := by
      unfold Mat.isImaging; rw [q3]; simp [isAlmostZero, eps_eq]
    have ha' : |s.a| ≠ 0 := abs_ne_zero.2 ha
    have hpos : 0 < |s.a| := abs_pos.2 ha
    refine ⟨s.b / s.a, D / |s.a|, ?_, div_pos hD hpos, ?_, ?_⟩
    · unfold Group.entrancePupil
      rw [if_pos hf]
      simp only [Prog.run_bind, hs, Prog.run_lift, h1, q1]
      unfold Mat.magnification
      rw [if_pos himg, q2]
      simp only [zero_eq, eq_fin, ha, decide_false, Bool.not_false, if_true, Prog.run_bind, Prog.run_lift, abs_fin,
        pyDiv_fin _ _ ha', Prog.run_pure, neg_fin]
      rw [neg_div, neg_neg]
    · intro y θ h
      constructor
      · intro he
        apply mul_left_cancel₀ ha
        rw [← he]; field_simp
      · intro he
        rw [← he]; field_simp
    · intro y θ
      have : s.a * y + s.b * θ = s.a * (y + s.b / s.a * θ) := by field_simp
      rw [this, abs_mul, div_div, mul_comm |s.a| 2, ← div_div, le_div_iff₀ hpos, mul_comm]
  · intro ha
    obtain ⟨c, q1, q2, q3, -⟩ := C21_at_infinity h2 h3 ha
    have himg : c.isImaging = true := by
      unfold Mat.isImaging; rw [q3]; simp [isAlmostZero, eps_eq]
    unfold Group.entrancePupil
    rw [if_pos hf]
    simp only [Prog.run_bind, hs, Prog.run_lift, h1, q1]
    unfold Mat.magnification
    rw [if_pos himg, q2]
    simp

/-- **C32** without finite diameter: no pupil. -/
theorem C32_no_stop {label : String} {ps : List (Part K)} {g : Group (Ext K)}
    (hb : (Part.group label ps).build = .ok g.toElem) (hfin : ∀ s ∈ (Part.group label ps).stages, s.diam = none) :
    g.entrancePupil.run (newTrace g) = .ok none := by
  have hf : ¬ hasFiniteApertureList g.elems = true := by
    have := (hasFinite_stages (build_stages hb)).not.2 (by push Not; exact hfin)
    exact this
  unfold Group.entrancePupil
  rw [if_neg hf]; rfl

/-- **C32** is violated behind another medium: with an object in water the pupil exists but the method raises. -/
theorem C32_frontIndex_violated :
    withPath [.space 100 (4/3) none, .interface (4/3) 1 none (some 10)] (fun g =>
      g.entrancePupil.run (newTrace g)) = .ok (.error .valueError) := by decide +kernel

/-- A path that meets the hypotheses of `C32_entrancePupil_partial`: an iris behind a lens, whose image is
a pupil of diameter 10 at 100 behind the lens (virtual). -/
example : withPath [.space (100 : ℚ) 1 none, .lens 100 (some 50), .space 50 1 none, .aperture (some 5) none ""]
      (fun g => g.entrancePupil.run (newTrace g)) = .ok (.ok (some (fin 200, fin 10))) ∧
    withPath [.space (100 : ℚ) 1 none, .lens 100 (some 50), .space 50 1 none, .aperture (some 5) none ""]
      (fun g => g.apertureStop.run (newTrace g)) = .ok (.ok (some (fin 150), fin 5)) := by
  constructor <;> decide +kernel

/-! ## C33 and C34 -/

/-- `chiefRay(y)` is the ray `(y, θ)`. -/
def IsChief (g : Group (Ext K)) (y θ : K) : Prop :=
  (g.chiefRay (fin y)).run (newTrace g) = .ok (some (Ray.new (fin y) (fin θ)))

/-- The facts about a path whose chief rays exist. -/
structure HasChiefs (label : String) (ps : List (Part K)) (g : Group (Ext K)) : Prop where
  valid : (Part.group label ps).Valid
  nonNeg : (Part.group label ps).NonNeg
  build : (Part.group label ps).build = .ok g.toElem
  clean : g.toElem.Clean
  /-- the stop has a finite diameter and is not at the object -/
  stop : ∃ z D : K, g.apertureStop.run (newTrace g) = .ok (some (fin z), fin D) ∧ z ≠ 0
  chief : ∀ y : K, ∃ θ, IsChief g y θ

theorem HasChiefs.slope {label : String} {ps : List (Part K)} {g : Group (Ext K)} (h : HasChiefs label ps g) :
    ∃ κ : K, ∀ y θ : K, IsChief g y θ ↔ θ = κ * y := by
  obtain ⟨z, D, hs, -⟩ := h.stop
  obtain ⟨c1, c2⟩ := C31_rays_partial h.valid h.nonNeg h.build h.clean hs
  by_cases hvis : Visible (Part.group label ps).prims z
  · obtain ⟨A, B, -, h1, h2⟩ := c1 hvis
    have hB : 1 / 100000 ≤ |B| := by
      by_contra hB
      obtain ⟨θ, hθ⟩ := h.chief 0
      have := (h1 (not_le.1 hB) 0).1
      unfold IsChief at hθ
      rw [hθ] at this
      simp at this
    have hB0 : B ≠ 0 := by
      intro h0; rw [h0] at hB; norm_num at hB
    refine ⟨-A / B, fun y θ => ?_⟩
    obtain ⟨⟨θ', e1, e2⟩, -⟩ := h2 hB y
    have e3 : θ' = -A / B * y := by field_simp; linear_combination e2
    unfold IsChief
    rw [e1, ← e3]
    constructor
    · intro he
      simp only [Except.ok.injEq, Option.some.injEq] at he
      have := congrArg Ray.theta he
      simpa [Ray.new] using this.symm
    · rintro rfl; rfl
  · obtain ⟨θ, hθ⟩ := h.chief 0
    have := (c2 hvis 0).1
    unfold IsChief at hθ
    rw [hθ] at this
    simp at this

/-- The chief rays are blocked beyond some height, or never. -/
theorem HasChiefs.edge {label : String} {ps : List (Part K)} {g : Group (Ext K)} (h : HasChiefs label ps g) :
    (∀ y θ, IsChief g y θ → ¬ Blocked (Part.group label ps).stages (y, θ)) ∨
    ∃ Y, 0 ≤ Y ∧ ∀ y θ, IsChief g y θ → (Blocked (Part.group label ps).stages (y, θ) ↔ Y < |y|) := by
  obtain ⟨κ, hκ⟩ := h.slope
  have := scaled_blocked (build_stages h.build) 1 κ
  rcases this with h1 | ⟨Y, hY, h1⟩
  · left
    intro y θ hy
    rw [hκ] at hy
    subst hy
    have := h1 y
    beta_reduce at this
    rwa [mul_one, mul_comm] at this
  · right
    refine ⟨Y, hY, fun y θ hy => ?_⟩
    rw [hκ] at hy
    subst hy
    have := h1 y
    beta_reduce at this
    rwa [mul_one, mul_comm] at this

open Classical in
/-- What the search sees of the path. -/
theorem HasChiefs.facts {label : String} {ps : List (Part K)} {g : Group (Ext K)} (h : HasChiefs label ps g) :
    ∃ (κ z : K) (D : Ext K), (∀ y, IsChief g y (κ * y)) ∧ (∀ y θ, IsChief g y θ → θ = κ * y) ∧ z ≠ 0 ∧
      g.apertureStop.run (newTrace g) = .ok (some (fin z), D) ∧ hasFiniteApertureList g.elems = true ∧
      leaves g.toElem.items ≠ [] ∧
      ∀ y : K, (lastV g.toElem.items (Ray.new (fin y) (fin (κ * y)))).isBlocked =
        decide (Blocked (Part.group label ps).stages (y, κ * y)) := by
  obtain ⟨κ, hκ⟩ := h.slope
  obtain ⟨z, D, hs, hz⟩ := h.stop
  have hf : hasFiniteApertureList g.elems = true := by
    by_contra hf
    unfold Group.apertureStop at hs
    rw [if_neg hf] at hs
    simp at hs
  refine ⟨κ, z, fin D, fun y => (hκ _ _).2 rfl, fun y θ => (hκ y θ).1, hz, hs, hf, ?_, fun y => ?_⟩
  · intro hl
    have h1 : hasFiniteApertureList g.elems = true ↔ _ := hasFinite_stages (e := g.toElem) (build_stages h.build)
    obtain ⟨s, hs, -⟩ := h1.1 hf
    have := build_stages h.build
    unfold ItemStages at this
    rw [hl] at this
    cases hx : (Part.group label ps).stages with
    | nil => rw [hx] at hs; simp at hs
    | cons _ _ => rw [hx] at this; cases this
  · rw [Bool.eq_iff_iff, traceV_blocked_iff (build_stages h.build) (finRay_new y (κ * y)) rfl]
    simp

/-- The matrix up to the field stop may not exist (black box), no other exception is possible. -/
theorem HasChiefs.fieldStop_cut {label : String} {ps : List (Part K)} {g : Group (Ext K)} (h : HasChiefs label ps g)
    {y θ : K} {z d : Ext K} {x : PyErr} (hfb : Group.firstBlocked (newTrace g (fin y) (fin θ)) = (some z, d))
    (hx : g.transferMatrix z = .error x) : x = .typeError := by
  obtain ⟨s, hs, rfl⟩ := firstBlocked_mem hfb
  obtain ⟨z, hz, hz0⟩ := newTrace_z h.nonNeg h.build y θ s hs
  rw [hz] at hx
  obtain ⟨c1, c2⟩ := C18_cut h.valid h.nonNeg h.build h.clean hz0
  by_cases hvis : Visible (Part.group label ps).prims z
  · obtain ⟨t, -, e, -⟩ := c1 hvis
    change g.transferMatrix _ = _ at e
    rw [hx] at e; simp at e
  · have e := c2 hvis
    change g.transferMatrix _ = _ at e
    rw [hx] at e; simpa using e

open Classical in
/-- **C33** for paths whose chief rays exist: when the field is not smaller than 37.5 times the precision, `fieldStop()` and
`halfFieldOfView()` (so `fieldOfView()`) return: with enough turns of the loop, the search is never cut short. Missing: smaller
fields, where they do not return (`C33_diverges_violated`). -/
theorem C33_terminates_partial [Archimedean K] {label : String} {ps : List (Part K)} {g : Group (Ext K)}
    (h : HasChiefs label ps g) {p H : K} (hp : 0 < p)
    (hbig : ∀ y θ, IsChief g y θ → |y| ≤ 75 / 2 * p → ¬ Blocked (Part.group label ps).stages (y, θ)) :
    ∃ N, ∀ fuel, N ≤ fuel →
      (g.fieldStop (fin p) (fin H) fuel).run (newTrace g) ≠ .error .nonTermination ∧
      (g.halfFieldOfView (fin p) (fin H) fuel).run (newTrace g) ≠ .error .nonTermination ∧
      (g.fieldOfView (fin p) (fin H) fuel).run (newTrace g) ≠ .error .nonTermination := by
  obtain ⟨κ, z, D, h1, h2, hz, hs, hf, hne, hblk⟩ := h.facts
  have key : ∀ sw, ∃ o, o ≠ .timeout ∧
      Ends (fun y => decide (Blocked (Part.group label ps).stages (y, κ * y))) p H sw 0 (100 * p) false 0 o := by
    intro sw
    rcases h.edge with he | ⟨Y, hY, he⟩
    · exact ⟨_, by simp, search_open (fun y => by simpa using he y _ (h1 y)) hp 0⟩
    · have hYp : 75 / 2 * p ≤ Y := by
        by_contra hlt
        have := hbig (75 / 2 * p) _ (h1 _) (by rw [abs_of_nonneg]; positivity)
        rw [he _ _ (h1 _), abs_of_nonneg (by positivity)] at this
        exact this (not_le.1 hlt)
      obtain ⟨o, q1, q2⟩ := search_ends (H := H) (sw := sw)
        (blk := fun y => decide (Blocked (Part.group label ps).stages (y, κ * y))) (fun y => by simpa using he y _ (h1 y)) hp hYp 0
      exact ⟨o, by rintro rfl; exact q2, q1⟩
  obtain ⟨o1, n1, N1, e1⟩ := key true
  obtain ⟨o2, n2, N2, e2⟩ := key false
  refine ⟨max N1 N2, fun fuel hfuel => ?_⟩
  have s1 := fieldStop_eq h1 hne hblk hs hz hf p H fuel
  rw [e1 fuel (le_trans (le_max_left _ _) hfuel)] at s1
  have s2 := halfFieldOfView_eq h1 hne hblk hs hz hf p H fuel
  rw [e2 fuel (le_trans (le_max_right _ _) hfuel), s1] at s2
  have a1 : (g.fieldStop (fin p) (fin H) fuel).run (newTrace g) ≠ .error .nonTermination := by
    rw [s1]; cases o1 <;> simp at n1 ⊢
  have a2 : (g.halfFieldOfView (fin p) (fin H) fuel).run (newTrace g) ≠ .error .nonTermination := by
    rw [s2]
    cases o1 with
    | timeout => simp at n1
    | beyond => simp
    | found y =>
      dsimp only
      cases hfb : Group.firstBlocked (newTrace g (fin y) (fin (κ * y))) with | mk fz fd
      cases fz with
      | none => simp
      | some zz =>
        dsimp only
        cases ht : g.transferMatrix zz with
        | error x => rw [h.fieldStop_cut hfb ht]; simp
        | ok t => cases o2 <;> simp at n2 ⊢
  refine ⟨a1, a2, ?_⟩
  unfold Group.fieldOfView
  rw [Prog.run_bind]
  cases hx : (g.halfFieldOfView (fin p) (fin H) fuel).run (newTrace g) with
  | error x => intro hy; simp only [Except.error.injEq] at hy; exact a2 (by rw [hx, hy])
  | ok v => simp [Prog.run_pure]

open Classical in
/-- **C33** is violated by every path whose chief rays are blocked from a height below 37.5 times the precision (and not on
the axis): however many turns the loops are given, `fieldStop()`, `halfFieldOfView()` and `fieldOfView()` do not return. -/
theorem C33_diverges_violated {label : String} {ps : List (Part K)} {g : Group (Ext K)}
    (h : HasChiefs label ps g) {p H : K} (hp : 0 < p) (hH : 150 * p ≤ H)
    (hsmall : ∃ y θ, IsChief g y θ ∧ |y| < 75 / 2 * p ∧ Blocked (Part.group label ps).stages (y, θ)) (fuel : Nat) :
    (g.fieldStop (fin p) (fin H) fuel).run (newTrace g) = .error .nonTermination ∧
    (g.halfFieldOfView (fin p) (fin H) fuel).run (newTrace g) = .error .nonTermination ∧
    (g.fieldOfView (fin p) (fin H) fuel).run (newTrace g) = .error .nonTermination := by
  obtain ⟨κ, z, D, h1, h2, hz, hs, hf, hne, hblk⟩ := h.facts
  obtain ⟨y, θ, q1, q2, q3⟩ := hsmall
  rcases h.edge with he | ⟨Y, hY, he⟩
  · exact absurd q3 (he y θ q1)
  · have hYp : Y < 75 / 2 * p := lt_trans ((he y θ q1).1 q3) q2
    have s1 := fieldStop_eq h1 hne hblk hs hz hf p H fuel
    rw [search_diverges (fun y => by simpa using he y _ (h1 y)) hp hY hYp hH] at s1
    have s2 := halfFieldOfView_eq h1 hne hblk hs hz hf p H fuel
    rw [s1] at s2
    refine ⟨s1, s2, ?_⟩
    unfold Group.fieldOfView
    rw [Prog.run_bind, s2]

open Classical in
/-- **C34** for paths with thin openings whose chief rays exist and are blocked beyond the height `Y`, not smaller than 37.5
times the precision `p`: `fieldStop()` is the position and diameter of the element that is the first to block a chief ray
starting less than `2 p` above `Y`, or there is none and `Y` is more than about 2/3 of the largest height. -/
theorem C34_fieldStop_partial [Archimedean K] {label : String} {ps : List (Part K)} {g : Group (Ext K)}
    (h : HasChiefs label ps g) (ht : ThinOpenings (Part.group label ps).stages) {p H Y : K} (hp : 0 < p)
    (hY : ∀ y θ, IsChief g y θ → (Blocked (Part.group label ps).stages (y, θ) ↔ Y < |y|)) (hYp : 75 / 2 * p ≤ Y) :
    ∃ N, ∀ fuel, N ≤ fuel →
      (2 / 3 * H - 100 * p < Y ∧ (g.fieldStop (fin p) (fin H) fuel).run (newTrace g) = .ok (none, pinf)) ∨
      ∃ y θ i s, IsChief g y θ ∧ Y < y ∧ y ≤ Y + 2 * p ∧ StopsFirst (Part.group label ps).stages (y, θ) i s ∧
        (g.fieldStop (fin p) (fin H) fuel).run (newTrace g) =
          .ok (some (fin (zBefore (Part.group label ps).stages i + s.len)), optInf s.diam) := by
  obtain ⟨κ, z, D, h1, h2, hz, hs, hf, hne, hblk⟩ := h.facts
  obtain ⟨o, ⟨N, q1⟩, q2⟩ := search_ends (H := H) (sw := true)
    (blk := fun y => decide (Blocked (Part.group label ps).stages (y, κ * y))) (fun y => by simpa using hY y _ (h1 y)) hp hYp 0
  refine ⟨N, fun fuel hfuel => ?_⟩
  have s1 := fieldStop_eq h1 hne hblk hs hz hf p H fuel
  rw [q1 fuel hfuel] at s1
  cases o with
  | timeout => exact q2.elim
  | beyond => exact .inl ⟨q2, s1⟩
  | found y =>
    simp only [Right, if_true] at q2
    have hbl := (hY y _ (h1 y)).2 (q2.1.trans_le (le_abs_self y))
    right
    have hset : settle g.toElem.items (Ray.new (fin y) (fin (κ * y))) = Ray.new (fin y) (fin (κ * y)) := by
      unfold settle; rw [thin_entryStops (build_stages h.build) ht]; simp
    obtain ⟨i, s, f1, f2⟩ := firstBlocked_trace (build_stages h.build) ht (finRay_new y (κ * y)) rfl hbl
    refine ⟨y, _, i, s, h1 y, q2.1, q2.2, f1, ?_⟩
    rw [s1]
    dsimp only
    unfold newTrace traceV
    rw [hset, f2, zero_add]

open Classical in
/-- **C34** for paths whose chief rays exist and are blocked beyond the height `Y`, not smaller than 37.5
times the precision `p`: the half field of view, when finite, is a height `h` whose chief ray is not blocked, and less than `2 p`
below the first blocked ones; when infinite, `Y` is more than about 2/3 of the largest height; the only exception is
`TypeError` (field stop at a black box). -/
theorem C34_halfFieldOfView_partial [Archimedean K] {label : String} {ps : List (Part K)} {g : Group (Ext K)}
    (h : HasChiefs label ps g) {p H Y : K} (hp : 0 < p)
    (hY : ∀ y θ, IsChief g y θ → (Blocked (Part.group label ps).stages (y, θ) ↔ Y < |y|)) (hYp : 75 / 2 * p ≤ Y) :
    ∃ N, ∀ fuel, N ≤ fuel →
      (∃ h : K, (g.halfFieldOfView (fin p) (fin H) fuel).run (newTrace g) = .ok (fin h) ∧
        (∀ θ, IsChief g h θ → ¬ Blocked (Part.group label ps).stages (h, θ)) ∧
        (∀ y θ, IsChief g y θ → h + 2 * p ≤ y → Blocked (Part.group label ps).stages (y, θ))) ∨
      ((g.halfFieldOfView (fin p) (fin H) fuel).run (newTrace g) = .ok pinf ∧ 2 / 3 * H - 100 * p < Y) ∨
      (g.halfFieldOfView (fin p) (fin H) fuel).run (newTrace g) = .error .typeError := by
  obtain ⟨κ, z, D, h1, h2, hz, hs, hf, hne, hblk⟩ := h.facts
  have hb : ∀ y, (fun y => decide (Blocked (Part.group label ps).stages (y, κ * y))) y = true ↔ Y < |y| :=
    fun y => by simpa using hY y _ (h1 y)
  obtain ⟨o, ⟨N, q1⟩, q2⟩ := search_ends (H := H) (sw := true) hb hp hYp 0
  obtain ⟨o', ⟨N', q1'⟩, q2'⟩ := search_ends (H := H) (sw := false) hb hp hYp 0
  refine ⟨max N N', fun fuel hfuel => ?_⟩
  have s1 := fieldStop_eq h1 hne hblk hs hz hf p H fuel
  rw [q1 fuel (le_trans (le_max_left _ _) hfuel)] at s1
  have s2 := halfFieldOfView_eq h1 hne hblk hs hz hf p H fuel
  rw [s1, q1' fuel (le_trans (le_max_right _ _) hfuel)] at s2
  cases o with
  | timeout => exact q2.elim
  | beyond => exact .inr (.inl ⟨s2, q2⟩)
  | found y =>
    simp only [Right, if_true] at q2
    dsimp only at s2
    cases hfb : Group.firstBlocked (newTrace g (fin y) (fin (κ * y))) with | mk fz fd
    rw [hfb] at s2
    cases fz with
    | none =>
      exfalso
      have hbl := (hY y _ (h1 y)).2 (q2.1.trans_le (le_abs_self y))
      exact firstBlocked_none (build_stages h.build) hbl hfb
    | some zz =>
      dsimp only at s2
      cases ht : g.transferMatrix zz with
      | error x => rw [ht, h.fieldStop_cut hfb ht] at s2; exact .inr (.inr s2)
      | ok t =>
        rw [ht] at s2
        cases o' with
        | timeout => exact q2'.elim
        | beyond => exact .inr (.inl ⟨s2, q2'⟩)
        | found v =>
          simp only [Right, Bool.false_eq_true, if_false] at q2'
          refine .inl ⟨v, s2, fun θ hθ => ?_, fun y θ hθ hy => ?_⟩
          · rw [hY v θ hθ]; exact not_lt.2 q2'.1
          · rw [hY y θ hθ]; exact (q2'.2.trans_le hy).trans_le (le_abs_self y)

/-- **C34** for paths whose chief rays are never blocked: no field stop, infinite field of view. -/
theorem C34_open [Archimedean K] {label : String} {ps : List (Part K)} {g : Group (Ext K)}
    (h : HasChiefs label ps g) {p H : K} (hp : 0 < p)
    (hY : ∀ y θ, IsChief g y θ → ¬ Blocked (Part.group label ps).stages (y, θ)) :
    ∃ N, ∀ fuel, N ≤ fuel →
      (g.fieldStop (fin p) (fin H) fuel).run (newTrace g) = .ok (none, pinf) ∧
      (g.halfFieldOfView (fin p) (fin H) fuel).run (newTrace g) = .ok pinf := by
  classical
  obtain ⟨κ, z, D, h1, h2, hz, hs, hf, hne, hblk⟩ := h.facts
  obtain ⟨N, hN⟩ := search_open (H := H) (sw := true)
    (blk := fun y => decide (Blocked (Part.group label ps).stages (y, κ * y))) (fun y => by simpa using hY y _ (h1 y)) hp 0
  refine ⟨N, fun fuel hfuel => ?_⟩
  have s1 := fieldStop_eq h1 hne hblk hs hz hf p H fuel
  rw [hN fuel hfuel] at s1
  have s2 := halfFieldOfView_eq h1 hne hblk hs hz hf p H fuel
  rw [s1] at s2
  exact ⟨s1, s2⟩

/-- A path meeting the hypotheses of the theorems above: two irises, the first one is the stop. -/
def twoIrises (d1 d2 : ℚ) : List (Part ℚ) :=
  [.space 10 1 none, .aperture (some d1) none "", .space 10 1 none, .aperture (some d2) none ""]

theorem twoIrises_chiefs {d1 d2 : ℚ} {g : Group (Ext ℚ)} (hb : (Part.group "" (twoIrises d1 d2)).build = .ok g.toElem)
    (hc : g.toElem.Clean) (hs : g.apertureStop.run (newTrace g) = .ok (some (fin 10), fin d1)) :
    HasChiefs "" (twoIrises d1 d2) g ∧ (∀ y θ, IsChief g y θ → θ = -y / 10) := by
  have hv : (Part.group "" (twoIrises d1 d2)).Valid := by
    simp [twoIrises, Part.Valid, Part.ValidList]
  have hn : (Part.group "" (twoIrises d1 d2)).NonNeg := by
    simp [twoIrises, Part.NonNeg, Part.NonNegList]
  obtain ⟨c1, -⟩ := C31_rays_partial hv hn hb hc hs
  have hvis : Visible (Part.group "" (twoIrises d1 d2)).prims 10 := by
    simp [twoIrises, Part.prims, Part.primsList, Visible]
  obtain ⟨A, B, h1, -, h2⟩ := c1 hvis
  have hr : ∀ y θ, rayAt (Part.group "" (twoIrises d1 d2)).prims 10 (y, θ) = some (y + 10 * θ, θ) := by
    intro y θ
    simp [twoIrises, Part.prims, Part.primsList, rayAt, Sys.one, Sys.outY, Sys.outθ, Prim.out]
  have hA : A = 1 := by obtain ⟨θ', h⟩ := h1 1 0; rw [hr] at h; simp at h; linarith [h.1]
  have hB : B = 10 := by obtain ⟨θ', h⟩ := h1 0 1; rw [hr] at h; simp at h; linarith [h.1]
  subst hA; subst hB
  have h3 := h2 (by norm_num)
  refine ⟨⟨hv, hn, hb, hc, ⟨10, d1, hs, by norm_num⟩, fun y => ?_⟩, fun y θ hy => ?_⟩
  · obtain ⟨⟨θ, h4, -⟩, -⟩ := h3 y
    exact ⟨θ, h4⟩
  · obtain ⟨⟨θ', h4, h5⟩, -⟩ := h3 y
    unfold IsChief at hy
    rw [h4] at hy
    simp only [Except.ok.injEq, Option.some.injEq] at hy
    have := congrArg Ray.theta hy
    simp [Ray.new] at this
    rw [← this]; linarith

theorem twoIrises_blocked {d1 d2 y : ℚ} (h1 : 0 < d1) :
    Blocked (Part.group "" (twoIrises d1 d2)).stages (y, -y / 10) ↔ d2 / 2 < |y| := by
  simp only [twoIrises, Part.stages, Part.stagesList, List.cons_append, List.nil_append, Blocked, Stage.Stops, Stage.out,
    Sys.stage, Sys.space, Sys.one, reduceCtorEq, false_and, exists_const, or_false, false_or, Option.some.injEq,
    exists_eq_left']
  have e1 : (1 : ℚ) * y + 10 * (-y / 10) = 0 := by ring
  have e2 : (0 : ℚ) * y + 1 * (-y / 10) = -y / 10 := by ring
  rw [e1, e2]
  have e3 : (1 : ℚ) * (1 * 0 + 0 * (-y / 10)) + 10 * (0 * 0 + 1 * (-y / 10)) = -y := by ring
  rw [e3, abs_neg, abs_zero]
  constructor
  · rintro (h | h)
    · linarith
    · exact h
  · exact .inr

/-- The hypotheses of `C33_diverges_violated` are met: lengths in metres, a stop of 1 µm before an iris of 10 µm, the
precision and largest height of a new `ImagingPath`. -/
theorem C33_example_violated : ∃ g : Group (Ext ℚ),
    (Part.group "" (twoIrises (1 / 1000000) (1 / 100000))).build = .ok g.toElem ∧
    ∀ fuel, (g.fieldStop (fin (1 / 1000000)) (fin 10000) fuel).run (newTrace g) = .error .nonTermination ∧
      (g.fieldOfView (fin (1 / 1000000)) (fin 10000) fuel).run (newTrace g) = .error .nonTermination := by
  have h1 : withPath (twoIrises (1 / 1000000) (1 / 100000)) (fun g => g.apertureStop.run (newTrace g)) =
      .ok (.ok (some (fin 10), fin (1 / 1000000))) := by decide +kernel
  have h2 : withPath (twoIrises (1 / 1000000) (1 / 100000)) (fun g => g.toElem.cleanB) = .ok true := by decide +kernel
  unfold withPath at h1 h2
  split at h1
  · next m c es he =>
    rw [he] at h2
    simp only [Except.ok.injEq] at h1 h2
    refine ⟨⟨m, c, es⟩, he, fun fuel => ?_⟩
    obtain ⟨hch, hk⟩ := twoIrises_chiefs he (Elem.cleanB_iff _ h2) h1
    obtain ⟨θ, hθ⟩ := hch.chief (2 / 100000)
    obtain ⟨a, -, b⟩ := C33_diverges_violated hch (p := 1 / 1000000) (H := 10000) (by norm_num) (by norm_num)
      ⟨_, θ, hθ, by norm_num [abs_of_pos], by
        rw [hk _ _ hθ, twoIrises_blocked (by norm_num)]; norm_num [abs_of_pos]⟩ fuel
    exact ⟨a, b⟩
  · simp at h1
  · simp at h1

/-- The hypotheses of the theorems on terminating searches are met: in millimetres, a stop of 1 before an iris of
10, so `Y = 5`. -/
example : ∃ g : Group (Ext ℚ), HasChiefs "" (twoIrises 1 10) g ∧ ThinOpenings (Part.group "" (twoIrises 1 10)).stages ∧
    ∀ y θ, IsChief g y θ → (Blocked (Part.group "" (twoIrises 1 10)).stages (y, θ) ↔ 5 < |y|) := by
  have h1 : withPath (twoIrises 1 10) (fun g => g.apertureStop.run (newTrace g)) =
      .ok (.ok (some (fin 10), fin 1)) := by decide +kernel
  have h2 : withPath (twoIrises 1 10) (fun g => g.toElem.cleanB) = .ok true := by decide +kernel
  unfold withPath at h1 h2
  split at h1
  · next m c es he =>
    rw [he] at h2
    simp only [Except.ok.injEq] at h1 h2
    obtain ⟨hch, hk⟩ := twoIrises_chiefs he (Elem.cleanB_iff _ h2) h1
    refine ⟨_, hch, ?_, fun y θ hθ => ?_⟩
    · simp [ThinOpenings, twoIrises, Part.stages, Part.stagesList, Sys.stage, Sys.space, Sys.one]
    · rw [hk _ _ hθ, twoIrises_blocked (by norm_num)]; norm_num
  · simp at h1
  · simp at h1

end RT
