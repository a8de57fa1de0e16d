import Verif.Lemmas.RoundedBuild
import Verif.Lemmas.Double
import Verif.Lemmas.Through
import Verif.Lemmas.Sound
import Verif.Lemmas.Images

/-! # C95: what rounding changes along a trace -/

set_option linter.unusedSectionVars false

namespace RT
open PyNum Ext Fl
variable {K : Type} [Field K] [LinearOrder K] [IsStrictOrderedRing K]
variable {rnd : K → K} {u : K}

mutual
theorem buildWith_noCache {F : Type} [PyNum F] (num : K → F) (opt : Option K → F) :
    ∀ {p : Part K} {e : Elem F}, p.buildWith num opt = .ok e → e.NoCache
  | .space d n diam, e, hb => by
    unfold Part.buildWith at hb; obtain ⟨m, -, rfl⟩ := Except.map_ok hb; trivial
  | .lens f diam, e, hb => by
    unfold Part.buildWith at hb; obtain ⟨m, -, rfl⟩ := Except.map_ok hb; trivial
  | .mirror R diam, e, hb => by
    unfold Part.buildWith at hb; obtain ⟨m, -, rfl⟩ := Except.map_ok hb; trivial
  | .interface n1 n2 R diam, e, hb => by
    unfold Part.buildWith at hb; obtain ⟨m, -, rfl⟩ := Except.map_ok hb; trivial
  | .thickLens n R1 R2 t diam, e, hb => by
    unfold Part.buildWith at hb; obtain ⟨m, -, rfl⟩ := Except.map_ok hb; trivial
  | .slab n t diam, e, hb => by
    unfold Part.buildWith at hb; obtain ⟨m, -, rfl⟩ := Except.map_ok hb; trivial
  | .aperture diam na label, e, hb => by
    unfold Part.buildWith at hb; obtain ⟨m, -, rfl⟩ := Except.map_ok hb; trivial
  | .matrix s fv bv diam, e, hb => by
    unfold Part.buildWith at hb; obtain ⟨m, -, rfl⟩ := Except.map_ok hb; trivial
  | .group label ps, e, hb => by
    unfold Part.buildWith at hb
    split at hb
    · simp at hb
    · next es hes =>
      obtain ⟨g, hnew, rfl⟩ := Except.map_ok hb
      exact new_noCache hnew (buildListWith_noCache num opt hes)
theorem buildListWith_noCache {F : Type} [PyNum F] (num : K → F) (opt : Option K → F) :
    ∀ {ps : List (Part K)} {es : List (Elem F)}, Part.buildListWith num opt ps = .ok es → NoCacheList es
  | [], es, hb => by simp only [Part.buildListWith, Except.ok.injEq] at hb; subst hb; trivial
  | p :: ps, es, hb => by
    unfold Part.buildListWith at hb
    split at hb
    · simp at hb
    · next e he =>
      split at hb
      · simp at hb
      · next es' hes =>
        simp only [Except.ok.injEq] at hb; subst hb
        exact ⟨buildWith_noCache num opt he, buildListWith_noCache num opt hes⟩
end

mutual
theorem buildWith_fin : ∀ (p : Part K), p.buildWith (fin : K → Ext K) optInf = p.build
  | .space .. | .lens .. | .mirror .. | .interface .. | .thickLens .. | .slab .. | .aperture .. => by
    unfold Part.buildWith Part.build; rfl
  | .matrix .. => by unfold Part.buildWith Part.build; rfl
  | .group label ps => by unfold Part.buildWith Part.build; rw [buildListWith_fin ps]; cases Part.buildList ps <;> rfl
theorem buildListWith_fin : ∀ (ps : List (Part K)), Part.buildListWith (fin : K → Ext K) optInf ps = Part.buildList ps
  | [] => by unfold Part.buildListWith Part.buildList; rfl
  | p :: ps => by unfold Part.buildListWith Part.buildList; rw [buildWith_fin p, buildListWith_fin ps]; cases p.build <;> cases Part.buildList ps <;> rfl
end

mutual
theorem rstages_exact : ∀ (p : Part K), p.rstages.map RStage.exact = p.stages
  | .space .. | .lens .. | .mirror .. | .interface .. | .thickLens .. | .slab .. | .aperture .. | .matrix .. => by
    unfold Part.rstages Part.stages; rfl
  | .group label ps => by unfold Part.rstages Part.stages; exact rstagesList_exact ps
theorem rstagesList_exact : ∀ (ps : List (Part K)), (Part.rstagesList ps).map RStage.exact = Part.stagesList ps
  | [] => by unfold Part.rstagesList Part.stagesList; rfl
  | p :: ps => by
    unfold Part.rstagesList Part.stagesList; rw [List.map_append, rstages_exact p, rstagesList_exact ps]
end

/-- What is called exact is the exact ray: rounding changes the numbers of a program, not its text, and the stages compared with are those of
the exact theorems. -/
theorem C95_reference (p : Part K) :
    p.buildWith (fin : K → Ext K) optInf = p.build ∧ (∀ r, exactOut p.rstages r = outStages p.stages r) ∧
    exactLen p.rstages = stagesLen p.stages := by
  refine ⟨buildWith_fin p, fun r => ?_, ?_⟩
  · rw [← rstages_exact]; simp [exactOut, outStages, List.foldl_map]
  · rw [← rstages_exact]; simp [exactLen, stagesLen, List.map_map, Function.comp_def]

/-- The ray in the heap has this height, angle and position. -/
structure IsRay (r : Ray (Fl K rnd)) (y θ z : K) : Prop where
  y : r.y = num y
  theta : r.theta = num θ
  z : r.z = num z

theorem IsRay.near {r : Ray (Fl K rnd)} {y θ z : K} (h : IsRay r y θ z) (u : K) : NearRay u 0 r (y, θ) (absRay (y, θ)) z |z| :=
  ⟨by rw [h.y]; exact near_num u y, by rw [h.theta]; exact near_num u θ, by rw [h.z]; exact near_num u z⟩

/-- **C95**. A ray whose exact path leaves room for the errors in every opening comes out of the system computed with rounding, and the height,
angle and position returned differ from the exact ones by at most `(1+u)^k - 1` times the height, angle and position obtained when nothing
cancels, where `k` counts the roundings. -/
theorem C95_through (hr : Rounding rnd u) {p : Part K} {e : Elem (Fl K rnd)} (hb : p.buildR rnd = .ok e) {a : Nat} {h : Heap (Fl K rnd)}
    (ha : a < h.length) {y θ z : K} (hray : IsRay (h.get a) y θ z) (hopen : (h.get a).isBlocked = false)
    (hc : Clears u 0 p.rstages (y, θ) (absRay (y, θ))) :
    ((e.traceH a h).2.1.get (e.traceThroughH a h).1).isBlocked = false ∧
    ∃ y' θ' z', IsRay ((e.traceH a h).2.1.get (e.traceThroughH a h).1) y' θ' z' ∧
      |y' - (exactOut p.rstages (y, θ)).1| ≤ relErr u (roundings p.rstages) * (majOut p.rstages (absRay (y, θ))).1 ∧
      |θ' - (exactOut p.rstages (y, θ)).2| ≤ relErr u (roundings p.rstages) * (majOut p.rstages (absRay (y, θ))).2 ∧
      |z' - (z + exactLen p.rstages)| ≤ relErr u (roundings p.rstages) * (|z| + majLen p.rstages) := by
  obtain ⟨hs, -⟩ := buildR_stages hr hb
  rw [through_eq hs.linear (buildWith_noCache _ _ hb) ha]
  have hn := (hray.near u).settle e.items
  have hset : (settle e.items (h.get a)).isBlocked = false := by
    simp only [settle, hopen, Bool.false_or]
    exact entryStops_clears hr hs (hray.near u) hc
  obtain ⟨q1, q2, q3, q4⟩ := runTrace_clears hr hs hn hset hc
  obtain ⟨y', a1, -, a2⟩ := q2
  obtain ⟨θ', b1, -, b2⟩ := q3
  obtain ⟨z', c1, -, c2⟩ := q4
  rw [Nat.zero_add] at a2 b2 c2
  exact ⟨q1, y', θ', z', ⟨a1, b1, c1⟩, a2, b2, c2⟩

/-- A ray whose exact path passes outside some opening by more than the errors is blocked. -/
theorem C95_blocked (hr : Rounding rnd u) {p : Part K} {e : Elem (Fl K rnd)} (hb : p.buildR rnd = .ok e) {a : Nat} {h : Heap (Fl K rnd)}
    (ha : a < h.length) {y θ z : K} (hray : IsRay (h.get a) y θ z)
    (hc : Hits u 0 p.rstages (y, θ) (absRay (y, θ))) :
    ((e.traceH a h).2.1.get (e.traceThroughH a h).1).isBlocked = true := by
  obtain ⟨hs, hpos⟩ := buildR_stages hr hb
  rw [through_eq hs.linear (buildWith_noCache _ _ hb) ha]
  exact runTrace_hits hr hs hpos ((hray.near u).settle e.items) hc

theorem Clears.not_blocked {u : K} (hu : 0 ≤ u) {k : ℕ} {rs : List (RStage K)} {r m : K × K} (hm : 0 ≤ m.1 ∧ 0 ≤ m.2)
    (hmaj : ∀ s ∈ rs, 0 ≤ s.maj.a ∧ 0 ≤ s.maj.b ∧ 0 ≤ s.maj.c ∧ 0 ≤ s.maj.d) (hpos : PosOpenings rs) (h : Clears u k rs r m) :
    ¬ Blocked (rs.map RStage.exact) r := by
  induction rs generalizing k r m with
  | nil => simp [Blocked]
  | cons s rs ih =>
    obtain ⟨h1, h2, h3⟩ := h
    have he := relErr_nonneg hu k
    simp only [List.map_cons, Blocked, not_or]
    refine ⟨?_, ih ?_ (fun s' hs' => hmaj s' (List.mem_cons_of_mem _ hs')) (fun s' hs' => hpos s' (List.mem_cons_of_mem _ hs')) h3⟩
    · rintro (⟨D, hD, hlt⟩ | ⟨N, hN, hlt⟩)
      · have := h1 D hD
        have h0 := half_pos (hpos s (by simp) D hD)
        have := mul_nonneg he hm.1
        have := mul_nonneg hu h0.le
        nlinarith
      · have := h2 N hN
        have := mul_nonneg he hm.2
        linarith
    · obtain ⟨a, b, c, d⟩ := hmaj s (by simp)
      obtain ⟨m1, m2⟩ := hm
      exact ⟨by unfold Stage.out; positivity, by unfold Stage.out; positivity⟩

theorem ItemRStages.maj_nonneg {is : List (Item (Fl K rnd))} {ss : List (RStage K)} (h : ItemRStages u is ss) :
    ∀ s ∈ ss, 0 ≤ s.maj.a ∧ 0 ≤ s.maj.b ∧ 0 ≤ s.maj.c ∧ 0 ≤ s.maj.d := by
  unfold ItemRStages at h
  generalize leaves is = l at h
  induction h with
  | nil => simp
  | cons h1 _ ih =>
    intro s hs
    rcases List.mem_cons.1 hs with rfl | hs
    · exact ⟨h1.A.nonneg, h1.B.nonneg, h1.C.nonneg, h1.D.nonneg⟩
    · exact ih s hs

/-- The same program run exactly and with rounding, on the same ray: when the ray leaves room for the errors both let it through, and the
results differ by the errors. -/
theorem C95_agree (hr : Rounding rnd u) {p : Part K} {e : Elem (Fl K rnd)} {e' : Elem (Ext K)} (hb : p.buildR rnd = .ok e)
    (hb' : p.build = .ok e') {a a' : Nat} {h : Heap (Fl K rnd)} {h' : Heap (Ext K)} (ha : a < h.length) (ha' : a' < h'.length) {y θ z : K}
    (hray : IsRay (h.get a) y θ z) (hopen : (h.get a).isBlocked = false) (hray' : FinRay (h'.get a') y θ z)
    (hopen' : (h'.get a').isBlocked = false) (hc : Clears u 0 p.rstages (y, θ) (absRay (y, θ))) :
    ((e.traceH a h).2.1.get (e.traceThroughH a h).1).isBlocked = false ∧
    ((e'.traceH a' h').2.1.get (e'.traceThroughH a' h').1).isBlocked = false ∧
    ∃ y1 θ1 z1 y2 θ2 z2, IsRay ((e.traceH a h).2.1.get (e.traceThroughH a h).1) y1 θ1 z1 ∧
      FinRay ((e'.traceH a' h').2.1.get (e'.traceThroughH a' h').1) y2 θ2 z2 ∧
      |y1 - y2| ≤ relErr u (roundings p.rstages) * (majOut p.rstages (absRay (y, θ))).1 ∧
      |θ1 - θ2| ≤ relErr u (roundings p.rstages) * (majOut p.rstages (absRay (y, θ))).2 ∧
      |z1 - z2| ≤ relErr u (roundings p.rstages) * (|z| + majLen p.rstages) := by
  obtain ⟨hs, hpos⟩ := buildR_stages hr hb
  obtain ⟨q1, y1, θ1, z1, q2, q3, q4, q5⟩ := C95_through hr hb ha hray hopen hc
  obtain ⟨-, h2, -⟩ := build_sound hb'
  obtain ⟨s1, s2⟩ := through_stages (build_stages hb') h2 ha' hray' hopen'
  have hnb : ¬ Blocked p.stages (y, θ) := by
    rw [← rstages_exact]
    exact Clears.not_blocked hr.nonneg ⟨abs_nonneg _, abs_nonneg _⟩ hs.maj_nonneg hpos hc
  obtain ⟨-, r2, r3⟩ := C95_reference p
  refine ⟨q1, ?_, y1, θ1, z1, _, _, _, q2, s2 hnb, ?_, ?_, ?_⟩
  · rw [Bool.eq_false_iff]; exact fun hx => hnb (s1.1 hx)
  · rw [← r2]; exact q3
  · rw [← r2]; exact q4
  · rw [← r3]; exact q5

theorem runTrace_zR (hm : Monotone rnd) (hi : ∀ x, rnd (rnd x) = rnd x) {is : List (Item (Fl K rnd))} {ss : List (RStage K)}
    (hs : ItemRStages u is ss) (hn : ∀ s ∈ ss, 0 ≤ s.exact.len) {r : Ray (Fl K rnd)} {z : K} (hz : r.z = num z) (hrep : rnd z = z) :
    ∃ zs : List K, (runTrace is r).map Ray.z = zs.map num ∧ (z :: zs).Pairwise (· ≤ ·) := by
  induction is generalizing ss r z with
  | nil => exact ⟨[], rfl, by simp⟩
  | cons i is ih =>
    cases i with
    | dup =>
      obtain ⟨zs, h1, h2⟩ := ih hs hn hz hrep
      refine ⟨z :: zs, by simp only [runTrace, List.map_cons, h1, hz], List.pairwise_cons.2 ⟨?_, h2⟩⟩
      intro w hw
      rcases List.mem_cons.1 hw with rfl | hw
      · exact le_rfl
      · exact (List.pairwise_cons.1 h2).1 w hw
    | leaf m =>
      cases hs with
      | @cons _ s _ ss h1 h2 =>
        have hlen := hn s (by simp)
        obtain ⟨z', hz', hrep', hle⟩ : ∃ z', (if r.isBlocked then r else settle is (m.mulRayBase r)).z = num z' ∧ rnd z' = z' ∧ z ≤ z' := by
          by_cases hb : r.isBlocked = true
          · exact ⟨z, by rw [if_pos hb]; exact hz, hrep, le_rfl⟩
          · refine ⟨rnd (s.exact.len + z), ?_, hi _, ?_⟩
            · rw [if_neg hb]; show (m.mulRayBase r).z = _
              rw [Bool.not_eq_true] at hb
              simp only [Mat.mulRayBase, hb, Bool.false_eq_true, if_false]
              rw [h1.L, hz, num_add]
            · conv_lhs => rw [← hrep]
              exact hm (by linarith)
        obtain ⟨zs, e1, e2⟩ := ih h2 (fun s' hs' => hn s' (List.mem_cons_of_mem _ hs')) hz' hrep'
        have hall : ∀ w ∈ z' :: zs, z ≤ w := by
          intro w hw
          rcases List.mem_cons.1 hw with rfl | hw
          · exact hle
          · exact hle.trans ((List.pairwise_cons.1 e2).1 w hw)
        have hself : ∀ w ∈ z :: z' :: zs, z ≤ w := by
          intro w hw
          rcases List.mem_cons.1 hw with rfl | hw
          · exact le_rfl
          · exact hall w hw
        simp only [runTrace]
        by_cases hL : (0 <. m.L) = true
        · refine ⟨z :: z' :: zs, ?_, List.pairwise_cons.2 ⟨hself, List.pairwise_cons.2 ⟨hall, e2⟩⟩⟩
          rw [if_pos hL]
          simp [e1, hz', hz]
        · refine ⟨z' :: zs, ?_, List.pairwise_cons.2 ⟨hall, e2⟩⟩
          rw [if_neg hL]
          simp [e1, hz']

/-- Positions along a trace never go backwards in Python floats either. -/
theorem C95_positions {p : Part ℚ} (hn : p.NonNeg) {e : Elem Double} (hb : p.buildR double = .ok e) {a : Nat} {h : Heap Double}
    (ha : a < h.length) {y θ z : ℚ} (hray : IsRay (h.get a) y θ z) (hrep : double z = z) :
    ∃ zs : List ℚ, ((e.traceH a h).2.1.deref (e.traceH a h).1).map Ray.z = zs.map num ∧ (z :: zs).Pairwise (· ≤ ·) := by
  obtain ⟨hs, -⟩ := buildR_stages double_rounding hb
  obtain ⟨q1, q2⟩ := e.traceH_eq (buildWith_noCache _ _ hb) a h
  have hsp := (runH_spec e.items hs.linear ha).1
  rw [← q1, ← q2] at hsp
  rw [hsp]
  refine runTrace_zR double_mono double_idem hs ?_ hray.z hrep
  intro s hs'
  have h1 : s.exact ∈ p.stages := by rw [← rstages_exact]; exact List.mem_map_of_mem hs'
  exact stages_nonneg hn _ h1

/-- The bound is nearly the number of roundings times the error of one. -/
theorem C95_bound {u : K} (hu : 0 ≤ u) (k : ℕ) (hk : (k : K) * u < 1) : relErr u k ≤ k * u / (1 - k * u) := by
  have key : ∀ k : ℕ, (k : K) * u < 1 → (1 + u) ^ k * (1 - k * u) ≤ 1 := by
    intro k
    induction k with
    | zero => intro _; simp
    | succ k ih =>
      intro hk
      push_cast at hk ⊢
      have h1 : (k : K) * u < 1 := by nlinarith
      have h2 := ih h1
      have h3 : (0 : K) ≤ (1 + u) ^ k := by positivity
      have h4 : (1 + u) * (1 - (k + 1) * u) ≤ 1 - k * u := by nlinarith [mul_nonneg hu hu, mul_nonneg (mul_nonneg hu hu) (Nat.cast_nonneg (α := K) k)]
      calc (1 + u) ^ (k + 1) * (1 - (k + 1) * u) = (1 + u) ^ k * ((1 + u) * (1 - (k + 1) * u)) := by ring
        _ ≤ (1 + u) ^ k * (1 - k * u) := by gcongr
        _ ≤ 1 := h2
  have h1 : 0 < 1 - (k : K) * u := by linarith
  rw [le_div_iff₀ h1]
  have := key k hk
  unfold relErr
  nlinarith

/-- Python floats are such a rounding, with `u = 2⁻⁵³`. -/
theorem C95_double : Rounding double (1 / 2 ^ 53) := by
  have := double_rounding
  have e : unitRoundoff = 1 / 2 ^ 53 := by norm_num [unitRoundoff]
  rwa [e] at this

/-! ## An example: a 2f-2f relay, in Python floats -/

/-- a lens of focal length 50 and diameter 25 at 100 of the object -/
def relay : Part ℚ := .group "" [.space 100 1 none, .lens 50 (some 25) , .space 100 1 none]

theorem relay_built : ∃ e, relay.buildR double = .ok e := by
  have : (match relay.buildR double with | .ok _ => true | .error _ => false) = true := by decide +kernel
  split at this
  · next e he => exact ⟨e, he⟩
  · cases this

/-- The hypotheses of the theorems hold for this lens: the ray at height 1 with angle 1/16 goes through, with errors below 10⁻¹²; the one with
angle 1/8 is stopped by the lens. -/
theorem C95_example : Clears (1 / 2 ^ 53) 0 relay.rstages (1, 1 / 16) (absRay (1, 1 / 16)) ∧
    Hits (1 / 2 ^ 53) 0 relay.rstages (1, 1 / 8) (absRay (1, 1 / 8)) ∧
    relErr (1 / 2 ^ 53) (roundings relay.rstages) * (majOut relay.rstages (absRay (1, 1 / 16))).1 ≤ (1 : ℚ) / 10 ^ 12 := by
  refine ⟨?_, ?_, ?_⟩
  · simp only [relay, Part.rstages, Part.rstagesList, List.cons_append, List.nil_append, Clears, Stage.withOps, Sys.stage, Sys.space, Sys.lens, Stage.out,
      Stage.abs, absRay, relErr]
    norm_num
    refine ⟨?_, ?_, ?_, ?_, ?_⟩ <;> intro D hD <;> cases hD
  · simp only [relay, Part.rstages, Part.rstagesList, List.cons_append, List.nil_append, Hits, Stage.withOps, Sys.stage, Sys.space, Sys.lens, Stage.out,
      Stage.abs, absRay, relErr]
    norm_num
  · simp only [relay, Part.rstages, Part.rstagesList, List.cons_append, List.nil_append, roundings, majOut, Stage.withOps, Sys.stage, Sys.space, Sys.lens,
      Stage.out, Stage.abs, absRay, relErr, List.map_cons, List.map_nil, List.sum_cons, List.sum_nil, List.foldl_cons, List.foldl_nil]
    norm_num

end RT
