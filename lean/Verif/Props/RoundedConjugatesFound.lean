import Verif.Props.RoundedConjugates
import Verif.Lemmas.RoundedBend

/-! # C130: the list of intermediate images is returned -/

set_option linter.unusedSectionVars false

namespace RT
open PyNum Ext Fl
variable {K : Type} [Field K] [LinearOrder K] [IsStrictOrderedRing K]
variable {rnd : K → K} {u : K}

/-- The error on the determinant of the matrix to the image, computed from these coefficients, is below the tolerance of 10⁻⁵. -/
def RStage.RoomImage (u : K) (s : RStage K) : Prop :=
  (1 + u) * (relErr u (2 * s.ops + 7) * (s.maj.a * s.maj.d + 3 * (s.maj.b * s.maj.c))) ≤ (1 - u) * (1 / 100000)

/-- the determinant of the product with the space up to the image -/
theorem image_determinant (hr : Rounding rnd u) {m sp : Mat (Fl K rnd)} {z : Fl K rnd} {a b k d : K} (hm : Coefs m a b k d) (hd : d ≠ 0)
    (hz : pyDiv (-m.B) m.D = .ok z) (hA : sp.A = 1) (hB : sp.B = z) (hC : sp.C = 0) (hD : sp.D = 1) :
    ∃ x, (sp.mulRaw m).determinant = num x ∧ |x - (a * d - b * k)| ≤ relErr u 7 * (|a * d| + 3 * |b * k|) := by
  obtain ⟨q, e1, nz⟩ := (near_num (rnd := rnd) u b).neg.div hr (relD_num (rnd := rnd) (u := u) hd)
  rw [hm.B, hm.D, e1] at hz; cases hz
  have nA : Fl.Near u 3 (sp.mulRaw m).A (a + -b / d * k) (|a| + |b| / |d| * |k|) := by
    have e : (sp.mulRaw m).A = 1 * num a + z * num k := by simp only [Mat.mulRaw, hA, hB, hm.A, hm.C]
    rw [e]
    have := (((near_one (rnd := rnd) hr).mul hr (near_num (rnd := rnd) u a)).mono hr.nonneg (by omega : 0 + 0 + 1 ≤ 2) le_rfl).add hr
      ((nz.mul hr (near_num (rnd := rnd) u k)).mono hr.nonneg (by omega : 1 + 0 + 0 + 1 ≤ 2) le_rfl)
    simpa using this
  have nB : Fl.Near u 3 (sp.mulRaw m).B 0 (2 * |b|) := by
    have e : (sp.mulRaw m).B = 1 * num b + z * num d := by simp only [Mat.mulRaw, hA, hB, hm.B, hm.D]
    rw [e]
    have := (((near_one (rnd := rnd) hr).mul hr (near_num (rnd := rnd) u b)).mono hr.nonneg (by omega : 0 + 0 + 1 ≤ 2) le_rfl).add hr
      ((nz.mul hr (near_num (rnd := rnd) u d)).mono hr.nonneg (by omega : 1 + 0 + 0 + 1 ≤ 2) le_rfl)
    have e2 : (1 : K) * b + -b / d * d = 0 := by field_simp; ring
    have e3 : (1 : K) * |b| + |b| / |d| * |d| = 2 * |b| := by
      have := abs_pos.2 hd
      field_simp; ring
    rw [← e2, ← e3]; simpa using this
  have nC : Fl.Near u 2 (sp.mulRaw m).C k |k| := by
    have e : (sp.mulRaw m).C = 0 * num a + 1 * num k := by simp only [Mat.mulRaw, hC, hD, hm.A, hm.C]
    rw [e]
    have := ((near_zero (rnd := rnd) hr).mul hr (near_num (rnd := rnd) u a)).add hr
      ((near_one (rnd := rnd) hr).mul hr (near_num (rnd := rnd) u k))
    simpa using this
  have nD : Fl.Near u 2 (sp.mulRaw m).D d |d| := by
    have e : (sp.mulRaw m).D = 0 * num b + 1 * num d := by simp only [Mat.mulRaw, hC, hD, hm.B, hm.D]
    rw [e]
    have := ((near_zero (rnd := rnd) hr).mul hr (near_num (rnd := rnd) u b)).add hr
      ((near_one (rnd := rnd) hr).mul hr (near_num (rnd := rnd) u d))
    simpa using this
  have hdp : 0 < |d| := abs_pos.2 hd
  have v1 : (a + -b / d * k) * d = a * d - b * k := by field_simp; ring
  have v2 : (|a| + |b| / |d| * |k|) * |d| = |a * d| + |b * k| := by rw [abs_mul, abs_mul]; field_simp
  have v3 : 2 * |b| * |k| = 2 * |b * k| := by rw [abs_mul]; ring
  have nAD := nA.mul hr nD
  have nBC := nB.mul hr nC
  rw [v1, v2] at nAD
  rw [v3, zero_mul] at nBC
  have nS := nAD.sub hr nBC
  unfold Mat.determinant
  split_ifs
  · obtain ⟨x, hx, -, h⟩ := nAD.mono hr.nonneg (by omega : 3 + 2 + 1 ≤ 7) (by linarith [abs_nonneg (b * k)] : _ ≤ |a * d| + 3 * |b * k|)
    exact ⟨x, hx, h⟩
  · obtain ⟨x, hx, -, h⟩ := nS.mono hr.nonneg (by omega : 3 + 2 + 1 + 1 ≤ 7) (by linarith : _ ≤ |a * d| + 3 * |b * k|)
    exact ⟨x, hx, by simpa using h⟩

/-- the image behind a matrix in air is found when there is room -/
theorem forward_accepts (hr : Rounding rnd u) {m : Mat (Fl K rnd)} {s : RStage K} (hn : NearMat u m s) (ha : AirMat m) (hd : s.exact.dt = 1)
    (hroom : s.RoomImage u) : ∃ z c, m.forwardConjugate = .ok (z, c) := by
  obtain ⟨a, ea, -⟩ := id hn.A
  obtain ⟨b, eb, -⟩ := id hn.B
  obtain ⟨k, ek, -⟩ := id hn.C
  obtain ⟨d, ed, -⟩ := id hn.D
  unfold Mat.forwardConjugate
  rw [ed, zero_num hr, eq_num]
  by_cases h0 : d = 0
  · simp [h0, pure, Except.pure]
  simp only [h0, decide_false, Bool.false_eq_true, if_false]
  have hz : pyDiv (-m.B) m.D = .ok (num (rnd (-b / d))) := by rw [eb, ed, neg_num, pyDiv_num hr _ _ h0]
  rw [← ed, hz]
  obtain ⟨sp, hsp, sA, sB, sC, sD, sair⟩ : ∃ sp : Mat (Fl K rnd), mkSpace (num (rnd (-b / d)) : Fl K rnd) m.backIndex = .ok sp ∧
      sp.A = 1 ∧ sp.B = num (rnd (-b / d)) ∧ sp.C = 0 ∧ sp.D = 1 ∧ AirMat sp := by
    rw [ha.2]
    exact ⟨_, simple_accepts hr (m := { (Mat.one : Mat (Fl K rnd)) with
      A := 1, B := num (rnd (-b / d)), C := 0, D := 1, L := num (rnd (-b / d)), frontIndex := num 1, backIndex := num 1,
      apertureDiameter := inf, kind := .space }) rfl rfl (.inl rfl) ⟨rfl, rfl⟩ (inf_openR hr) (inf_openR hr), rfl, rfl, rfl, rfl, rfl, rfl⟩
  obtain ⟨x, hx, hb⟩ := image_determinant hr ⟨ea, eb, ek, ed⟩ h0 hz sA sB sC sD
  obtain ⟨p1, p2⟩ := near_prod hr.nonneg hn.A hn.D ea ed
  obtain ⟨q1, q2⟩ := near_prod hr.nonneg hn.B hn.C eb ek
  have h7 := relErr_nonneg hr.nonneg 7
  have h2 := relErr_nonneg hr.nonneg (2 * s.ops)
  have hBC : 0 ≤ s.maj.b * s.maj.c := mul_nonneg hn.B.nonneg hn.C.nonneg
  have e7 : relErr u (2 * s.ops + 7) = relErr u (2 * s.ops) + relErr u 7 * (1 + relErr u (2 * s.ops)) := by
    unfold relErr
    rw [pow_add]; ring
  have key : |x - 1| ≤ relErr u (2 * s.ops + 7) * (s.maj.a * s.maj.d + 3 * (s.maj.b * s.maj.c)) := by
    have e4 : x - 1 = (x - (a * d - b * k)) + (a * d - s.exact.a * s.exact.d) - (b * k - s.exact.b * s.exact.c) := by
      rw [← hd]; unfold Stage.dt; ring
    have t1 := abs_sub ((x - (a * d - b * k)) + (a * d - s.exact.a * s.exact.d)) (b * k - s.exact.b * s.exact.c)
    have t2 := abs_add_le (x - (a * d - b * k)) (a * d - s.exact.a * s.exact.d)
    have t3 : relErr u 7 * (|a * d| + 3 * |b * k|) ≤
        relErr u 7 * ((1 + relErr u (2 * s.ops)) * (s.maj.a * s.maj.d) + 3 * ((1 + relErr u (2 * s.ops)) * (s.maj.b * s.maj.c))) :=
      mul_le_mul_of_nonneg_left (by linarith) h7
    have t4 : 0 ≤ relErr u (2 * s.ops) * (s.maj.b * s.maj.c) := mul_nonneg h2 hBC
    rw [e4, e7]
    nlinarith
  have hu := hr.nonneg
  have hi := init_accepts hr (mulRaw_air sair ha) (inf_openR hr) (inf_openR hr) hx
    (le_trans (mul_le_mul_of_nonneg_left key (by linarith)) hroom)
  change ∃ z c, (mkSpace (num (rnd (-b / d)) : Fl K rnd) m.backIndex >>= fun space => space.mulMatrix m >>= fun conjugate =>
    pure ((num (rnd (-b / d)) : Fl K rnd), some conjugate)) = .ok (z, c)
  rw [hsp]
  change ∃ z c, (Mat.init (sp.mulRaw m) >>= fun conjugate => pure ((num (rnd (-b / d)) : Fl K rnd), some conjugate)) = .ok (z, c)
  rw [hi]
  exact ⟨_, _, rfl⟩

theorem RStage.RoomImage.room (hu : 0 ≤ u) {s : RStage K} (h : s.RoomImage u) (hA : 0 ≤ s.maj.a * s.maj.d) (hB : 0 ≤ s.maj.b * s.maj.c) : s.Room u := by
  refine le_trans (mul_le_mul_of_nonneg_left ?_ (by linarith)) h
  exact mul_le_mul (relErr_mono hu (by omega)) (by linarith) (by linarith) (relErr_nonneg hu _)

/-- the loop returns -/
theorem conjugatesLoop_accepts (hr : Rounding rnd u) {ms : List (Mat (Fl K rnd))} {ss : List (RStage K)} (hst : List.Forall₂ (NearMat u) ms ss)
    (hair : ∀ m ∈ ms, AirMat m) (hdt : ∀ s ∈ ss, s.exact.dt = 1)
    {acc : Mat (Fl K rnd)} {s0 : RStage K} (ha : NearMat u acc s0) (haa : AirMat acc) (hd : s0.exact.dt = 1)
    (hroom : ∀ l, l <+: ss → l ≠ [] → (l.foldl RStage.andThen s0).RoomImage u) (old : List (Fl K rnd × Fl K rnd)) :
    ∃ res, conjugatesLoop ms acc old = .ok res := by
  induction hst generalizing acc s0 old with
  | nil => exact ⟨old, rfl⟩
  | @cons m st ms ss h1 h2 ih =>
    have hn : NearMat u (m.mulRaw acc) (s0.andThen st) := h1.mulRaw hr ha
    have hd' : (s0.andThen st).exact.dt = 1 := by
      change (s0.exact.andThen st.exact).dt = 1
      rw [Stage.andThen_dt, hd, hdt st (by simp), one_mul]
    have hri : (s0.andThen st).RoomImage u := hroom [st] (by simp) (by simp)
    have haa' := mulRaw_air (hair m (by simp)) haa
    have hm : m.mulMatrix acc = .ok (m.mulRaw acc) := by
      refine hn.accepts hr hd' haa' (inf_openR hr) (inf_openR hr) (hri.room hr.nonneg ?_ ?_)
      · exact mul_nonneg hn.A.nonneg hn.D.nonneg
      · exact mul_nonneg hn.B.nonneg hn.C.nonneg
    obtain ⟨z, c, hf⟩ := forward_accepts hr hn haa' hd' hri
    have ih' := fun old => ih (fun m hm => hair m (by simp [hm])) (fun s hs => hdt s (by simp [hs])) hn haa' hd'
      (fun l hl hne => hroom (st :: l) (List.cons_prefix_cons.2 ⟨rfl, hl⟩) (by simp)) old
    unfold conjugatesLoop
    simp only [bind, Except.bind, hm, hf]
    cases c with
    | none => exact ih' _
    | some c => dsimp only; split_ifs <;> exact ih' _

mutual
/-- the elements of a system in air keep the determinant 1 -/
theorem inAir_dt : ∀ {p : Part K}, p.InAir → ∀ s ∈ p.rstages, s.exact.dt = 1
  | .space d n diam, h => by simp [Part.rstages, Stage.withOps, Sys.stage, Sys.space, Stage.dt]
  | .lens f diam, h => by simp [Part.rstages, Stage.withOps, Sys.stage, Sys.lens, Stage.dt]
  | .mirror R diam, h => by simp [Part.rstages, Stage.withOps, Sys.stage, Sys.mirror, Stage.dt]
  | .interface .., h => h.elim
  | .thickLens n R1 R2 t diam, h => by
    intro s hs
    simp only [Part.rstages, List.mem_singleton] at hs; subst hs
    exact thick_det h.1 _
  | .slab n t diam, h => by
    intro s hs
    simp only [Part.rstages, List.mem_singleton] at hs; subst hs
    exact thick_det h.1 _
  | .aperture diam na label, h => by simp [Part.rstages, Stage.withOps, Sys.stage, Sys.one, Stage.dt]
  | .matrix s fv bv diam, h => by
    intro t ht
    simp only [Part.rstages, List.mem_singleton] at ht; subst ht
    exact h.2.2.1
  | .group _ ps, h => by
    unfold Part.InAir at h
    unfold Part.rstages
    exact inAirList_dt h
theorem inAirList_dt : ∀ {ps : List (Part K)}, Part.InAirList ps → ∀ s ∈ Part.rstagesList ps, s.exact.dt = 1
  | [], _ => by simp [Part.rstagesList]
  | p :: ps, h => by
    unfold Part.InAirList at h
    intro s hs
    simp only [Part.rstagesList, List.mem_append] at hs
    exact hs.elim (inAir_dt h.1 s) (inAirList_dt h.2 s)
end

/-- **C130.** In air, the list of intermediate images is always returned, whatever `D` is behind each element, when the products of the first elements leave room for the
rounding errors on the determinant. -/
theorem C130_returns (hr : Rounding rnd u) {label : String} {ps : List (Part K)} (hair : (Part.group label ps).InAir) {g : Group (Fl K rnd)}
    (hb : (Part.group label ps).buildR rnd = .ok g.toElem)
    (hroom : ∀ i, 0 < i → i ≤ (Part.group label ps).stages.length → ((Part.group label ps).upTo i).RoomImage u) :
    ∃ res, g.intermediateConjugates = .ok res := by
  have hst := (buildR_stages hr hb).1
  have hl : leaves g.toElem.items = leaves (itemsList g.elems) := by simp [Group.toElem, Elem.items, leaves]
  have hairy := (buildR_airy hr hair hb).2
  unfold ItemRStages at hst
  rw [hl] at hst hairy
  have hst' : List.Forall₂ (NearMat u) (leaves (itemsList g.elems)) (Part.group label ps).rstages := hst.imp fun _ _ h => h.nearMat hr.nonneg
  have hlen : (Part.group label ps).stages.length = (Part.group label ps).rstages.length := by rw [← rstages_exact, List.length_map]
  unfold Group.intermediateConjugates
  rw [transferMatricesList_leaves]
  refine conjugatesLoop_accepts hr hst' hairy (inAir_dt hair) (nearMat_one hr) ⟨one_num hr, one_num hr⟩ (by simp [RStage.one, Stage.dt]) ?_ []
  intro l hl' hne
  have := hroom l.length (List.length_pos_iff.2 hne) (by rw [hlen]; exact hl'.length_le)
  unfold Part.upTo at this
  rwa [← List.prefix_iff_eq_take.1 hl'] at this

/-- **C118.** In air, `forwardConjugate()` raises no error in floats, whatever `D` is, when the matrix of the system leaves room for the rounding errors on the
determinant; so what `C118_forward` and `C98_conjugate` say of its result holds. -/
theorem C118_returns (hr : Rounding rnd u) {p : Part K} (hair : p.InAir) (hmade : ∀ s ∈ p.made, s.Room u) (hroom : p.rmat.RoomImage u) :
    ∃ e z c, p.buildR rnd = .ok e ∧ e.mat.forwardConjugate = .ok (z, c) := by
  obtain ⟨e, hb, ha, hd⟩ := buildR_accepts hr hair hmade
  obtain ⟨z, c, h⟩ := forward_accepts hr (buildR_mat hr hb) ha hd hroom
  exact ⟨e, z, c, hb, h⟩

instance (u : ℚ) (s : RStage ℚ) : Decidable (s.RoomImage u) := by unfold RStage.RoomImage; infer_instance

/-- A relay of two lenses of focal length 49, where `D` behind the first lens is zero in exact numbers and not in floats: there is room behind each element. -/
theorem C130_returns_example :
    (Part.group "" [.space 49 1 none, .lens 49 none, .space 98 1 none, .lens 49 none, .space 49 1 none] : Part ℚ).InAir ∧
    ∀ i, 0 < i → i ≤ (Part.group "" [.space 49 1 none, .lens 49 none, .space 98 1 none, .lens 49 none, .space 49 1 none] : Part ℚ).stages.length →
      ((Part.group "" [.space 49 1 none, .lens 49 none, .space 98 1 none, .lens 49 none, .space 49 1 none] : Part ℚ).upTo i).RoomImage unitRoundoff := by
  refine ⟨by simp [Part.InAir, Part.InAirList, OpenDiam], ?_⟩
  have h : ∀ i : Fin 6, ((Part.group "" [.space 49 1 none, .lens 49 none, .space 98 1 none, .lens 49 none, .space 49 1 none] : Part ℚ).upTo i).RoomImage
      unitRoundoff := by decide +kernel
  intro i _ hi
  exact h ⟨i, by simpa [Part.stages, Part.stagesList] using Nat.lt_succ_of_le hi⟩

instance (u : ℚ) (s : RStage ℚ) : Decidable (s.Room u) := by unfold RStage.Room; infer_instance

/-- A lens at twice its focal length meets the conditions. -/
theorem C118_returns_example : (Part.group "" [.space 98 1 none, .lens 49 none] : Part ℚ).InAir ∧
    (∀ s ∈ (Part.group "" [.space 98 1 none, .lens 49 none] : Part ℚ).made, s.Room unitRoundoff) ∧
    (Part.group "" [.space 98 1 none, .lens 49 none] : Part ℚ).rmat.RoomImage unitRoundoff := by
  refine ⟨by simp [Part.InAir, Part.InAirList, OpenDiam], by decide +kernel, by decide +kernel⟩

end RT
