import Verif.Lemmas.Efficiency

/-! # C71: the collection efficiency reported for a source -/

set_option linter.unusedSectionVars false

namespace RT
open PyNum Ext
variable {K : Type} [Field K] [LinearOrder K] [IsStrictOrderedRing K]

/-- a ray as numbers of Python -/
def finPair (r : K × K) : Ext K × Ext K := (fin r.1, fin r.2)

/-- the ray of height 0 and angle `θa`, and the ray `(v, φ)`, with the coefficients `c` -/
def combine (θa v φ : K) (c : K × K) : K × K := (c.2 * v, c.1 * θa + c.2 * φ)

/-- Rays sorted by what happens to them: `beyond` those that are not meant to get through, `stopped` those that are stopped. -/
noncomputable def sortSpec (beyond stopped : K × K → Prop) (coef : K × K → K × K) (pos : K × K → K)
    (rays : List (K × K)) : Sorted (Ext K) :=
  open Classical in
  { expected := (rays.filter fun r => beyond r).map fun r => finPair (coef r)
    notBlocked := (rays.filter fun r => ¬ beyond r ∧ ¬ stopped r).map fun r => finPair (coef r)
    vignetted := (rays.filter fun r => ¬ beyond r ∧ stopped r).map fun r => finPair (coef r)
    positions := (rays.filter fun r => ¬ beyond r ∧ stopped r).map fun r => fin (pos r) }

/-- one list after the other -/
def Sorted.append {F : Type} (s t : Sorted F) : Sorted F :=
  ⟨s.expected ++ t.expected, s.notBlocked ++ t.notBlocked, s.vignetted ++ t.vignetted, s.positions ++ t.positions⟩

/-- where a ray that is stopped is found at the end -/
noncomputable def lastPosition (g : Group (Ext K)) (r : K × K) : Ext K :=
  (lastV g.toElem.items (Ray.new (fin r.1) (fin r.2))).z

theorem sortRays_run {g : Group (Ext K)} {beyond stopped : K × K → Prop} {coef : K × K → K × K} {pos : K × K → K}
    {iap : K} {principal axial : Ray (Ext K)} (hne : leaves g.toElem.items ≠ []) (hi : iap ≠ 0) (irp iar : K × K → K)
    (h1 : ∀ r : K × K, (g.toElem.opticalInvariantH 0 1 0 [Ray.new (fin r.1) (fin r.2), principal]).1 = .ok (fin (irp r)))
    (h2 : ∀ r : K × K, (g.toElem.opticalInvariantH 0 1 0 [axial, Ray.new (fin r.1) (fin r.2)]).1 = .ok (fin (iar r)))
    (h3 : ∀ r, beyond r ↔ iap < |irp r| ∨ iap < |iar r|)
    (h4 : ∀ r : K × K, (lastV g.toElem.items (Ray.new (fin r.1) (fin r.2))).isBlocked = true ↔ stopped r)
    (h5 : ∀ r : K × K, lastPosition g r = fin (pos r))
    (h6 : ∀ r, coef r = (irp r / iap, iar r / iap)) (rays : List (K × K)) (s : Sorted (Ext K)) :
    (g.sortRays (fin iap) principal axial (rays.map finPair) s).run (newTrace g) =
      .ok (s.append (sortSpec beyond stopped coef pos rays)) := by
  classical
  induction rays generalizing s with
  | nil => simp [Group.sortRays, sortSpec, Sorted.append, Prog.run_pure]
  | cons r rays ih =>
    obtain ⟨y, θ⟩ := r
    have e1 := h1 (y, θ)
    have e2 := h2 (y, θ)
    have e4 := h4 (y, θ)
    have e5 := h5 (y, θ)
    simp only at e1 e2 e4
    simp only [List.map_cons, finPair]
    unfold Group.sortRays
    simp only [Prog.run_bind, Prog.run_lift, e1, e2, Prog.run_ask]
    unfold lastPosition at e5
    simp only at e5
    unfold lastV at e4 e5
    cases hx : (traceV g.toElem.items (Ray.new (fin y) (fin θ))).getLast? with
    | none =>
      exfalso
      rw [List.getLast?_eq_none_iff] at hx
      unfold traceV at hx
      generalize settle g.toElem.items (Ray.new (fin y) (fin θ)) = r at hx
      cases hi : g.toElem.items with
      | nil => rw [hi] at hne; exact hne rfl
      | cons i is => rw [hi] at hx; cases i <;> simp [runTrace] at hx
    | some out =>
      rw [hx, Option.getD_some] at e4 e5
      have ht : (newTrace g (fin y) (fin θ)).getLast? = some out := hx
      rw [ht]
      simp only [Prog.run_bind, Prog.run_lift, pyDiv_fin _ _ hi]
      have ih' := ih (Group.sortRay (fin (irp (y, θ))) (fin (iar (y, θ))) (fin iap) (fin (irp (y, θ) / iap))
        (fin (iar (y, θ) / iap)) out s)
      refine Eq.trans ih' ?_
      congr 1
      have hb := h3 (y, θ)
      have hc := h6 (y, θ)
      unfold Group.sortRay
      by_cases hbe : beyond (y, θ)
      · have : ((fin iap <. PyNum.abs (fin (irp (y, θ)))) || (fin iap <. PyNum.abs (fin (iar (y, θ))))) = true := by
          simpa using hb.1 hbe
        rw [this, if_pos rfl]
        simp [Sorted.append, sortSpec, List.filter_cons, hbe, finPair, hc]
      · have : ((fin iap <. PyNum.abs (fin (irp (y, θ)))) || (fin iap <. PyNum.abs (fin (iar (y, θ))))) = false := by
          simpa using hb.not.1 hbe
        rw [this, if_neg (by simp)]
        by_cases hst : stopped (y, θ)
        · rw [if_pos (e4.2 hst)]
          simp [Sorted.append, sortSpec, List.filter_cons, hbe, hst, finPair, hc, e5]
        · rw [if_neg (e4.not.2 hst)]
          simp [Sorted.append, sortSpec, List.filter_cons, hbe, hst, finPair, hc]

/-- In a trace, what follows a blocked ray is that ray. -/
theorem runTrace_last_blocked (is : List (Item (Ext K))) (r : Ray (Ext K)) {x : Ray (Ext K)}
    (h : (r :: runTrace is r).getLast? = some x) (hx : x.isBlocked = true) :
    Group.firstBlocked (r :: runTrace is r) = (some x.z, x.apertureDiameter) := by
  induction is generalizing r with
  | nil =>
    simp only [runTrace, List.getLast?_singleton, Option.some.injEq] at h
    subst h
    simp [Group.firstBlocked, hx]
  | cons i is ih =>
    by_cases hb : r.isBlocked = true
    · have : x = r := by
        have hm := List.mem_of_getLast? h
        rcases List.mem_cons.1 hm with h1 | h1
        · exact h1
        · exact runTrace_blocked _ hb _ h1
      subst this
      simp [Group.firstBlocked, hb]
    · rw [Bool.not_eq_true] at hb
      cases i with
      | dup =>
        have h' : (r :: runTrace is r).getLast? = some x := by
          simpa only [runTrace, List.getLast?_cons_cons] using h
        rw [Group.firstBlocked, hb]
        simp only [Bool.false_eq_true, if_false, runTrace]
        exact ih r h'
      | leaf m =>
        simp only [runTrace, hb, Bool.false_eq_true, if_false] at h ⊢
        have hs : ∀ s ∈ r :: (if 0 <. m.L then [r] else []), s = r := by
          intro s hs
          rcases List.mem_cons.1 hs with h1 | h1
          · exact h1
          · split_ifs at h1
            · simpa using h1
            · simp at h1
        rw [← List.cons_append] at h ⊢
        rw [firstBlocked_all hb _ hs]
        refine ih _ ?_
        rwa [List.getLast?_append_of_ne_nil _ (by simp)] at h

/-- Where a ray that is stopped is found at the end: behind the first element that stops it. -/
theorem lastPosition_thin {label : String} {ps : List (Part K)} {g : Group (Ext K)}
    (hb : (Part.group label ps).build = .ok g.toElem) (ht : ThinOpenings (Part.group label ps).stages) {r : K × K}
    (hbl : Blocked (Part.group label ps).stages r) :
    ∃ i s, StopsFirst (Part.group label ps).stages r i s ∧
      lastPosition g r = fin (zBefore (Part.group label ps).stages i + s.len) := by
  obtain ⟨y, θ⟩ := r
  have hset : settle g.toElem.items (Ray.new (fin y) (fin θ)) = Ray.new (fin y) (fin θ) := by
    unfold settle; rw [thin_entryStops (build_stages hb) ht]; simp
  obtain ⟨i, s, f1, f2⟩ := firstBlocked_trace (build_stages hb) ht (finRay_new y θ) rfl hbl
  refine ⟨i, s, f1, ?_⟩
  have hl := (traceV_blocked_iff (build_stages hb) (finRay_new y θ) rfl).2 hbl
  have key := runTrace_last_blocked g.toElem.items (Ray.new (fin y) (fin θ)) (x := lastV g.toElem.items (Ray.new (fin y) (fin θ))) (by
    unfold lastV traceV
    rw [hset, List.getLast?_cons]) hl
  rw [Group.firstBlocked, if_neg (by simp [Ray.new]), f2] at key
  simp only [Prod.mk.injEq, Option.some.injEq, zero_add] at key
  exact key.1.symm

/-- **C71** for paths whose chief rays exist (`HasChiefs`), with the stop at `z` of diameter `D`, the half field of view `v > 0`
and a positive index in front. `A y + B θ` being the height at the stop of the ray `(y, θ)`, and `φ` the angle of the chief ray of the
edge of the field: `reportEfficiency` counts, for all sources, as blocked the rays that start beyond the field or
reach the plane of the stop outside of it, and as transmitted or vignetted the others, which do or do not get through the
whole path. The coefficients plotted are those of the ray as a combination of the axial and principal rays. -/
theorem C71_report {label : String} {ps : List (Part K)} {g : Group (Ext K)} (h : HasChiefs label ps g)
    (hvis : Visible (Part.group label ps).prims 0) {n : K} (hn : g.mat.frontIndex = fin n) (hn0 : 0 < n)
    {p H : Ext K} {fuel : Nat} {v : K} (hv : (g.halfFieldOfView p H fuel).run (newTrace g) = .ok (fin v)) (hv0 : 0 < v)
    {z D : K} (hs : g.apertureStop.run (newTrace g) = .ok (some (fin z), fin D)) :
    ∃ (A B φ θa iap : K) (coef : K × K → K × K) (pos : K × K → K),
      (∀ y θ, ∃ θ', rayAt (Part.group label ps).prims z (y, θ) = some (A * y + B * θ, θ')) ∧
      IsChief g v φ ∧ 0 < θa ∧ g.axialRay.run (newTrace g) = .ok (some (Ray.new (fin 0) (fin θa))) ∧ 0 < iap ∧
      (g.lagrangeInvariant p H fuel).run (newTrace g) = .ok (fin iap) ∧
      (∀ r, combine θa v φ (coef r) = r) ∧
      (∀ r, lastPosition g r = fin (pos r)) ∧
      ∀ (obj : Option K) (α : Ext K) (source : Ext K → Ext K → List (Ext K × Ext K)) (rays : List (K × K)),
        source (fin ((obj.map (· / 2)).getD v)) α = rays.map finPair →
        (g.reportEfficiency p H fuel (obj.map fin) α source).run (newTrace g) =
          ((sortSpec (fun r => v < |r.1| ∨ D / 2 < |A * r.1 + B * r.2|) (Blocked (Part.group label ps).stages) coef pos
            rays).report rays.length (fin iap) (fin ((obj.map (· / 2)).getD v) * α)).map some := by
  obtain ⟨hz, hD⟩ := apertureStop_pos h.nonNeg h.build hs
  obtain ⟨φ, hφ⟩ := h.chief v
  obtain ⟨c1, c2⟩ := C31_rays_partial h.valid h.nonNeg h.build h.clean hs
  have hvz : Visible (Part.group label ps).prims z := by
    by_contra hvz
    have := (c2 hvz v).1
    unfold IsChief at hφ
    rw [hφ] at this; simp at this
  obtain ⟨A, B, a1, a2, a3⟩ := c1 hvz
  have hB : 1 / 100000 ≤ |B| := by
    by_contra hB
    have := (a2 (not_le.1 hB) v).1
    unfold IsChief at hφ
    rw [hφ] at this; simp at this
  have hBpos : 0 < |B| := lt_of_lt_of_le (by norm_num) hB
  have hB0 : B ≠ 0 := abs_pos.1 hBpos
  have hAB : A * v + B * φ = 0 := by
    obtain ⟨⟨θ, e1, e2⟩, -⟩ := a3 hB v
    unfold IsChief at hφ
    rw [hφ] at e1
    simp only [Except.ok.injEq, Option.some.injEq] at e1
    have := congrArg Ray.theta e1
    simp only [Ray.new, Ext.fin.injEq] at this
    rw [this]; exact e2
  obtain ⟨B', b1, b2, b3⟩ := C35_axialRay h.valid h.nonNeg h.build h.clean hs hvz
  have hBB : B' = B := by
    obtain ⟨θ', q1⟩ := b1 1
    obtain ⟨θ'', q2⟩ := a1 0 1
    rw [q1] at q2
    simp only [mul_one, mul_zero, zero_add, Option.some.injEq, Prod.mk.injEq] at q2
    exact q2.1
  subst hBB
  obtain ⟨b4, b5, b6⟩ := b3 hB
  set θa := D / (2 * |B'|) with hθa
  obtain ⟨n', n1, n2⟩ := opticalInvariant_factor h.valid h.nonNeg h.build h.clean le_rfl hvis
  have hn' : 0 < n' := by
    rcases n1 with n1 | n1
    · rw [n1]; exact one_pos
    · change g.mat.frontIndex = _ at n1
      rw [hn] at n1
      simp only [Ext.fin.injEq] at n1
      rw [← n1]; exact hn0
  have inv : ∀ y1 θ1 y2 θ2 : K,
      (g.toElem.opticalInvariantH 0 1 0 [Ray.new (fin y1) (fin θ1), Ray.new (fin y2) (fin θ2)]).1 =
        .ok (fin (n' * (θ1 * y2 - y1 * θ2))) := by
    intro y1 θ1 y2 θ2
    have e := congrArg (fun z => (g.toElem.opticalInvariantH 0 1 z
      [Ray.new (fin y1) (fin θ1), Ray.new (fin y2) (fin θ2)]).1) (zero_eq (K := K))
    refine e.trans ?_
    exact n2 [Ray.new (fin y1) (fin θ1), Ray.new (fin y2) (fin θ2)] 0 1 y1 θ1 0 y2 θ2 0 (by simp) (finRay_new _ _)
      (finRay_new _ _) rfl rfl
  have hpr : (g.principalRay p H fuel).run (newTrace g) = .ok (some (Ray.new (fin v) (fin φ))) := by
    rw [(C35_principalRay g p H fuel).1 v hv]; exact hφ
  have hlag : (g.lagrangeInvariant p H fuel).run (newTrace g) = .ok (fin (n' * (θa * v))) := by
    unfold Group.lagrangeInvariant
    rw [Prog.run_bind, b4]
    simp only [Prog.run_bind]
    rw [hpr]
    simp only [Prog.run_lift, inv]
    simp
  have hI : 0 < n' * (θa * v) := by positivity
  have hpos : ∀ r : K × K, ∃ q : K, lastPosition g r = fin q := by
    intro r
    unfold lastPosition lastV
    cases hx : (traceV g.toElem.items (Ray.new (fin r.1) (fin r.2))).getLast? with
    | none => exact ⟨0, by simp [Ray.new]⟩
    | some out =>
      obtain ⟨q, hq, -⟩ := newTrace_z h.nonNeg h.build r.1 r.2 out (List.mem_of_getLast? hx)
      exact ⟨q, hq⟩
  choose pos hpos using hpos
  obtain ⟨-, -, -, -, -, -, -, -, hne, -⟩ := h.facts
  refine ⟨A, B', φ, θa, n' * (θa * v), fun r => ((r.2 * v - r.1 * φ) / (θa * v), r.1 / v), pos, a1, hφ, b5, b4, hI, hlag, ?_,
    hpos, ?_⟩
  · intro r
    have := b5.ne'
    unfold combine
    ext
    · simp; field_simp
    · simp; field_simp; ring
  · intro obj α source rays hsrc
    have hmh : Group.sourceHeight (obj.map fin) (Ray.new (fin v) (fin φ)) = fin ((obj.map (· / 2)).getD v) := by
      cases obj <;> simp [Group.sourceHeight, Ray.new, half]
    unfold Group.reportEfficiency
    simp only [Prog.run_bind, hpr, b4, hlag, hmh, hsrc, abs_fin, abs_of_pos hI]
    have key := sortRays_run (g := g) (principal := Ray.new (fin v) (fin φ)) (axial := Ray.new (fin 0) (fin θa))
      (beyond := fun r => v < |r.1| ∨ D / 2 < |A * r.1 + B' * r.2|) (stopped := Blocked (Part.group label ps).stages)
      (coef := fun r => ((r.2 * v - r.1 * φ) / (θa * v), r.1 / v)) (pos := pos) hne hI.ne'
      (fun r => n' * (r.2 * v - r.1 * φ)) (fun r => n' * (θa * r.1 - 0 * r.2)) (fun r => inv _ _ _ _) (fun r => inv _ _ _ _)
      ?_ (fun r => traceV_blocked_iff (build_stages h.build) (finRay_new r.1 r.2) rfl) hpos ?_ rays {}
    · rw [key]
      simp only [List.length_map]
      have : ∀ t : Sorted (Ext K), Sorted.append {} t = t := fun t => by simp [Sorted.append]
      rw [this, Prog.run_lift]
      generalize Sorted.report (F := Ext K) _ _ _ _ = x
      cases x <;> rfl
    · intro r
      have e1 : |n' * (r.2 * v - r.1 * φ)| = n' * v * |r.2 - r.1 * φ / v| := by
        rw [show n' * (r.2 * v - r.1 * φ) = n' * v * (r.2 - r.1 * φ / v) by field_simp, abs_mul, abs_of_pos (by positivity)]
      have e2 : |n' * (θa * r.1 - 0 * r.2)| = n' * θa * |r.1| := by
        rw [zero_mul, sub_zero, ← mul_assoc, abs_mul, abs_of_pos (by positivity)]
      have e3 : A * r.1 + B' * r.2 = B' * (r.2 - r.1 * φ / v) := by
        rw [mul_sub, ← mul_div_assoc, show B' * (r.1 * φ) = r.1 * (-A * v) by linear_combination r.1 * hAB]
        field_simp
        ring
      rw [e1, e2, e3, abs_mul, show n' * (θa * v) = n' * v * θa by ring, mul_lt_mul_iff_right₀ (by positivity),
        show n' * v * θa = n' * θa * v by ring, mul_lt_mul_iff_right₀ (by positivity), or_comm, hθa, div_lt_iff₀ (mul_pos two_pos hBpos),
        div_lt_iff₀ (by norm_num)]
      constructor
      · rintro (h1 | h1)
        · left; linarith
        · right; exact h1
      · rintro (h1 | h1)
        · left; linarith
        · right; exact h1
    · intro r
      have := b5.ne'
      ext
      · simp; field_simp
      · simp; field_simp

theorem lenF_eq {α : Type} (l : List α) : (lenF l : Ext K) = fin (l.length : K) := by
  unfold lenF; rw [lit_eq]; simp

/-- the percentages, when there are rays, and light -/
theorem report_ok {s : Sorted (Ext K)} {total : Nat} {iap iS : K} (ht : total ≠ 0) (hS : iS ≠ 0) (hl : s.notBlocked ≠ []) :
    s.report total (fin iap) (fin iS) = .ok
      { sorted := s, collection := fin (100 * s.notBlocked.length / total), invariants := fin (iap / iS * 100),
        relative := fin (100 * s.notBlocked.length / ((s.vignetted.length + s.notBlocked.length : Nat) : K)),
        loss := if 2 ≤ s.vignetted.length then
          some (fin (100 * s.vignetted.length / ((s.vignetted.length + s.notBlocked.length : Nat) : K))) else none } := by
  have h1 : (total : K) ≠ 0 := Nat.cast_ne_zero.2 ht
  have h2 : ((s.vignetted.length + s.notBlocked.length : Nat) : K) ≠ 0 := by
    rw [Nat.cast_ne_zero]
    have := List.length_pos_iff.2 hl
    omega
  have h3 : s.notBlocked.isEmpty = false := by simpa using hl
  unfold Sorted.report
  simp only [lenF_eq, lit_eq, ofNat_eq, fin_mul_fin, Rat.cast_natCast, pyDiv_fin _ _ h1, pyDiv_fin _ _ hS, pyDiv_fin _ _ h2, bind,
    Except.bind, h3, Bool.false_eq_true, if_false]

/-- no light -/
theorem report_dark {s : Sorted (Ext K)} {total : Nat} {iap iS : K} (ht : total ≠ 0) (hS : iS ≠ 0) (hl : s.notBlocked = []) :
    s.report total (fin iap) (fin iS) =
      .error (if s.vignetted = [] then .zeroDivisionError else .valueError) := by
  have h1 : (total : K) ≠ 0 := Nat.cast_ne_zero.2 ht
  unfold Sorted.report
  simp only [lenF_eq, lit_eq, ofNat_eq, fin_mul_fin, Rat.cast_natCast, pyDiv_fin _ _ h1, pyDiv_fin _ _ hS, bind, Except.bind, hl]
  by_cases h : s.vignetted = []
  · simp [h, pyDiv]
  · have h2 : ((s.vignetted.length + ([] : List (Ext K × Ext K)).length : Nat) : K) ≠ 0 := by
      rw [Nat.cast_ne_zero]
      have := List.length_pos_iff.2 h
      omega
    rw [pyDiv_fin _ _ h2, pyDiv_fin _ _ h2, if_neg h]
    rfl

/-- A ray that reaches the plane of the stop outside of it is stopped, when the openings are thin, nothing thin moves the rays and there
are no acceptance angles. -/
theorem beyond_blocked {label : String} {ps : List (Part K)} {g : Group (Ext K)} (hnn : (Part.group label ps).NonNeg)
    (hb : (Part.group label ps).build = .ok g.toElem) (ht : ThinOpenings (Part.group label ps).stages)
    (hna : NoNA (Part.group label ps).stages) (hflat : ∀ s ∈ (Part.group label ps).stages, s.Flat)
    {z D : K} (hs : g.apertureStop.run (newTrace g) = .ok (some (fin z), fin D)) {r : K × K} {h θ' : K}
    (hr : rayAt (Part.group label ps).prims z r = some (h, θ')) (hD : D / 2 < |h|) :
    Blocked (Part.group label ps).stages r := by
  have hfin : ∃ s ∈ (Part.group label ps).stages, s.diam ≠ none := by
    by_contra hf
    push Not at hf
    rw [C30_no_stop hb hf] at hs
    simp at hs
  rcases C30_apertureStop_partial hb rfl hfin ht hna with ⟨h1, -⟩ | ⟨i, s, D', h1, h2, h3, -⟩
  · rw [hs] at h1; simp at h1
  · rw [hs] at h3
    simp only [Except.ok.injEq, Prod.mk.injEq, Option.some.injEq, Ext.fin.injEq] at h3
    obtain ⟨rfl, rfl⟩ := h3
    have hi : (Part.group label ps).stages[i]? = some s := by
      obtain ⟨t, ht'⟩ := crossed_prefix (Part.group label ps).stages (0, 1 / 10)
      rw [← ht', List.getElem?_append_left (List.getElem?_eq_some_iff.1 h1).1]
      exact h1
    have := (Part.pieces hnn).height hflat i r _ hr
    rw [blocked_iff]
    exact ⟨i, s, hi, .inl ⟨D, h2, by rw [← this]; exact hD⟩⟩

open Classical in
/-- **C71**: with a source inside the field (the default source is as high as the field), the openings being thin, what is thin
keeping the height of rays, and without acceptance angles: the collection efficiency is the percentage of the source rays that get
through the path, the relative efficiency is the percentage among the rays that reach the plane of the stop inside
of it, and, with at least two of these stopped elsewhere, the loss is the rest. -/
theorem C71_efficiency {label : String} {ps : List (Part K)} {g : Group (Ext K)} (h : HasChiefs label ps g)
    (ht : ThinOpenings (Part.group label ps).stages) (hna : NoNA (Part.group label ps).stages)
    (hflat : ∀ s ∈ (Part.group label ps).stages, s.Flat)
    (hvis : Visible (Part.group label ps).prims 0) {n : K} (hn : g.mat.frontIndex = fin n) (hn0 : 0 < n)
    {p H : Ext K} {fuel : Nat} {v : K} (hv : (g.halfFieldOfView p H fuel).run (newTrace g) = .ok (fin v)) (hv0 : 0 < v)
    {z D : K} (hs : g.apertureStop.run (newTrace g) = .ok (some (fin z), fin D))
    {α : K} (hα : α ≠ 0) (source : Ext K → Ext K → List (Ext K × Ext K)) {rays : List (K × K)}
    (hsrc : source (fin v) (fin α) = rays.map finPair) (hin : ∀ r ∈ rays, |r.1| ≤ v)
    (hlight : ∃ r ∈ rays, ¬ Blocked (Part.group label ps).stages r) :
    ∃ rep : Report (Ext K), (g.reportEfficiency p H fuel none (fin α) source).run (newTrace g) = .ok (some rep) ∧
      rep.collection =
        fin (100 * (rays.filter fun r => ¬ Blocked (Part.group label ps).stages r).length / rays.length : K) ∧
      ∃ inStop : K × K → Prop, (∀ r, ∃ y θ, rayAt (Part.group label ps).prims z r = some (y, θ) ∧ (inStop r ↔ |y| ≤ D / 2)) ∧
        rep.relative = fin (100 * (rays.filter fun r => ¬ Blocked (Part.group label ps).stages r).length /
          (rays.filter fun r => inStop r).length : K) ∧
        (∀ x, rep.loss = some x → x = fin (100 * (rays.filter fun r => inStop r ∧
          Blocked (Part.group label ps).stages r).length / (rays.filter fun r => inStop r).length : K)) ∧
        (rep.loss = none ↔ (rays.filter fun r => inStop r ∧ Blocked (Part.group label ps).stages r).length < 2) := by
  obtain ⟨A, B, φ, θa, iap, coef, pos, c1, -, -, -, -, -, -, -, c3⟩ := C71_report h hvis hn hn0 hv hv0 hs
  have key := c3 none (fin α) source rays (by simpa using hsrc)
  simp only [Option.map_none, Option.getD_none, fin_mul_fin] at key
  -- the rays sorted
  have hbe : ∀ r, D / 2 < |A * r.1 + B * r.2| → Blocked (Part.group label ps).stages r := by
    intro r hr
    obtain ⟨θ', hθ'⟩ := c1 r.1 r.2
    exact beyond_blocked h.nonNeg h.build ht hna hflat hs hθ' hr
  set blk := Blocked (Part.group label ps).stages with hblk
  obtain ⟨ins, hins⟩ : ∃ ins : K × K → Prop, ∀ r, ins r ↔ |A * r.1 + B * r.2| ≤ D / 2 := ⟨_, fun _ => Iff.rfl⟩
  set srt := sortSpec (fun r => v < |r.1| ∨ D / 2 < |A * r.1 + B * r.2|) blk coef pos rays with hsrt
  have f1 : srt.notBlocked.length = (rays.filter fun r => ¬ blk r).length := by
    rw [hsrt]
    unfold sortSpec
    rw [List.length_map]
    congr 1
    apply List.filter_congr
    intro r hr
    rw [decide_eq_decide]
    constructor
    · exact fun hh => hh.2
    · intro hh
      refine ⟨?_, hh⟩
      rintro (h1 | h1)
      · exact absurd (hin r hr) (not_le.2 h1)
      · exact hh (hbe r h1)
  have f2 : srt.vignetted.length = (rays.filter fun r => ins r ∧ blk r).length := by
    rw [hsrt]
    unfold sortSpec
    rw [List.length_map]
    congr 1
    apply List.filter_congr
    intro r hr
    rw [decide_eq_decide]
    rw [hins]
    push Not
    exact ⟨fun hh => ⟨hh.1.2, hh.2⟩, fun hh => ⟨⟨hin r hr, hh.1⟩, hh.2⟩⟩
  have f3 : ∀ l : List (K × K), (l.filter fun r => ins r ∧ blk r).length +
      (l.filter fun r => ¬ blk r).length = (l.filter fun r => ins r).length := by
    intro l
    induction l with
    | nil => rfl
    | cons r l ih =>
      by_cases h1 : ins r
      · by_cases h2 : blk r
        · simp only [List.filter_cons, h1, h2, and_self, decide_true, if_true, not_true_eq_false, decide_false,
            Bool.false_eq_true, if_false, List.length_cons, ← ih]
          omega
        · simp only [List.filter_cons, h1, h2, and_false, decide_true, if_true, not_false_eq_true, decide_false,
            Bool.false_eq_true, if_false, List.length_cons, ← ih]
          omega
      · have h2 : blk r := hbe r (not_le.1 (by rwa [hins] at h1))
        simp only [List.filter_cons, h1, h2, false_and, decide_false, not_true_eq_false,
            Bool.false_eq_true, if_false, ← ih]
  have hne : (rays.filter fun r => ¬ blk r) ≠ [] := by
    obtain ⟨r, h1, h2⟩ := hlight
    exact List.ne_nil_of_mem (List.mem_filter.2 ⟨h1, by simpa using h2⟩)
  have hlen : rays.length ≠ 0 := by
    obtain ⟨r, h1, -⟩ := hlight
    exact (List.length_pos_of_mem h1).ne'
  rw [report_ok hlen (mul_ne_zero hv0.ne' hα) (by
    intro h0
    rw [h0] at f1
    exact hne (List.length_eq_zero_iff.1 f1.symm))] at key
  refine ⟨_, key, ?_, ins, ?_, ?_, ?_, ?_⟩
  · simp only [f1]
  · intro r
    obtain ⟨θ', hθ'⟩ := c1 r.1 r.2
    exact ⟨_, _, hθ', hins r⟩
  · simp only [f1, f2, f3]
  · intro x hx
    simp only [f1, f2, f3] at hx
    split_ifs at hx
    simpa using hx.symm
  · simp only [f1, f2, f3]
    split_ifs with h2
    · simp only [reduceCtorEq, false_iff]; omega
    · simp only [true_iff]; omega

/-- **C71**: without field stop there is no report. -/
theorem C71_no_field {g : Group (Ext K)} {p H : Ext K} {fuel : Nat}
    (hv : (g.halfFieldOfView p H fuel).run (newTrace g) = .ok pinf) (obj : Option (Ext K)) (α : Ext K)
    (source : Ext K → Ext K → List (Ext K × Ext K)) :
    (g.reportEfficiency p H fuel obj α source).run (newTrace g) = .ok none := by
  unfold Group.reportEfficiency
  rw [Prog.run_bind, (C35_principalRay g p H fuel).2 hv]
  rfl

/-- **C71** is violated when no ray of the source gets through: instead of reporting 0 %, every such report fails. -/
theorem C71_violated_dark {label : String} {ps : List (Part K)} {g : Group (Ext K)} (h : HasChiefs label ps g)
    (hvis : Visible (Part.group label ps).prims 0) {n : K} (hn : g.mat.frontIndex = fin n) (hn0 : 0 < n)
    {p H : Ext K} {fuel : Nat} {v : K} (hv : (g.halfFieldOfView p H fuel).run (newTrace g) = .ok (fin v)) (hv0 : 0 < v)
    {z D : K} (hs : g.apertureStop.run (newTrace g) = .ok (some (fin z), fin D))
    (obj : Option K) (hobj : obj ≠ some 0) {α : K} (hα : α ≠ 0) (source : Ext K → Ext K → List (Ext K × Ext K))
    {rays : List (K × K)} (hsrc : source (fin ((obj.map (· / 2)).getD v)) (fin α) = rays.map finPair) (hne : rays ≠ [])
    (hdark : ∀ r ∈ rays, Blocked (Part.group label ps).stages r) :
    (g.reportEfficiency p H fuel (obj.map fin) (fin α) source).run (newTrace g) = .error .zeroDivisionError ∨
    (g.reportEfficiency p H fuel (obj.map fin) (fin α) source).run (newTrace g) = .error .valueError := by
  obtain ⟨A, B, φ, θa, iap, coef, pos, -, -, -, -, -, -, -, -, c3⟩ := C71_report h hvis hn hn0 hv hv0 hs
  have key := c3 obj (fin α) source rays hsrc
  have hS : (obj.map (· / 2)).getD v * α ≠ 0 := by
    refine mul_ne_zero ?_ hα
    cases obj with
    | none => exact hv0.ne'
    | some d => simpa using hobj
  rw [fin_mul_fin, report_dark (by simpa using hne) hS (by
    unfold sortSpec
    rw [List.map_eq_nil_iff, List.filter_eq_nil_iff]
    intro r hr
    simpa using fun _ _ => hdark r hr)] at key
  split_ifs at key
  · exact .inl key
  · exact .inr key

/-- an object at 20 in front of a lens, and an iris 10 behind the lens, which limits the field -/
def irisBehind : List (Part ℚ) := [.space 20 1 none, .lens 10 (some 10), .space 10 1 none, .aperture (some 6) none ""]

/-- **C71** is violated by a source higher than the field: the ray `(7, -1/4)` gets through the path but it is counted as blocked,
so the efficiency reported is 50 % although both rays get through. -/
theorem C71_violated_field :
    withPath irisBehind (fun g => ((g.reportEfficiency (fin (1 / 20)) (fin 10000) 60 (some (fin 20)) (fin 1)
      (fun _ _ => [(fin 0, fin 0), (fin 7, fin (-1 / 4))])).run (newTrace g)).map
        (Option.map fun r => (r.collection, r.sorted.expected.length, r.loss))) = .ok (.ok (some (fin 50, 1, none))) ∧
    withPath irisBehind (fun g => [((0 : ℚ), (0 : ℚ)), (7, -1 / 4)].map fun r =>
      ((newTrace g (fin r.1) (fin r.2)).getLast?.map Ray.isBlocked)) = .ok [some false, some false] := by
  constructor <;> decide +kernel

set_option synthInstance.maxSize 1024 in
/-- **C71** is violated by a single vignetted ray: "No losses to vignetting" is printed, although one of the two rays
which reach the stop inside of it is lost and the relative efficiency printed is 50 %. -/
theorem C71_violated_single :
    withPath irisBehind (fun g => ((g.reportEfficiency (fin (1 / 20)) (fin 10000) 60 none (fin 1)
      (fun _ _ => [(fin 0, fin 0), (fin 5, fin (-9 / 20))])).run (newTrace g)).map
        (Option.map fun r => (r.collection, r.relative, r.loss, r.sorted.positions))) =
      .ok (.ok (some (fin 50, fin 50, none, [fin 30]))) := by
  decide +kernel

/-- an opening with a length, which is the stop, between the object and a lens; the iris behind the lens limits the field -/
def tubeStop : List (Part ℚ) :=
  [.space 20 1 none, .space 5 1 (some 6), .lens 10 (some 20), .space 10 1 none, .aperture (some 6) none ""]

/-- **C71** is violated by openings with a length: the ray of angle 7/50 enters the tube, leaves it outside of its diameter without being
blocked (C09) and gets through the path, but it is counted as blocked by the stop, so the efficiency reported for a source inside the
field is 50 % although both rays get through. -/
theorem C71_violated_thick :
    withPath tubeStop (fun g => ((g.reportEfficiency (fin (1 / 20)) (fin 10000) 60 none (fin 1)
      (fun _ _ => [(fin 0, fin 0), (fin 0, fin (7 / 50))])).run (newTrace g)).map
        (Option.map fun r => (r.collection, r.sorted.expected.length))) = .ok (.ok (some (fin 50, 1))) ∧
    withPath tubeStop (fun g => [((0 : ℚ), (0 : ℚ)), (0, 7 / 50)].map fun r =>
      ((newTrace g (fin r.1) (fin r.2)).getLast?.map Ray.isBlocked)) = .ok [some false, some false] := by
  constructor <;> decide +kernel

/-- The path `irisBehind` meets the hypotheses of the theorems of C71: the stop is the lens, the half field is about 6. -/
example : ThinOpenings (Part.group "" irisBehind).stages ∧ NoNA (Part.group "" irisBehind).stages ∧
    (∀ s ∈ (Part.group "" irisBehind).stages, s.Flat) ∧ Visible (Part.group "" irisBehind).prims 0 ∧
    withPath irisBehind (fun g => g.apertureStop.run (newTrace g)) = .ok (.ok (some (fin 20), fin 10)) ∧
    withPath irisBehind (fun g => ((g.halfFieldOfView (fin (1 / 20)) (fin 10000) 60).run (newTrace g), g.mat.frontIndex)) =
      .ok (.ok (fin (97515 / 16384)), fin 1) := by
  refine ⟨?_, ?_, ?_, ?_, by decide +kernel, by decide +kernel⟩
  · simp [irisBehind, ThinOpenings, Part.stages, Part.stagesList, Sys.stage, Sys.space, Sys.lens, Sys.one]
  · simp [irisBehind, NoNA, Part.stages, Part.stagesList, Sys.stage]
  · simp [irisBehind, Stage.Flat, Part.stages, Part.stagesList, Sys.stage, Sys.space, Sys.lens, Sys.one]
  · simp [irisBehind, Part.prims, Part.primsList, Visible]

end RT
