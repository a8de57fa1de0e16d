import Verif.Lemmas.Figure

/-! # C70 drawing beams -/

set_option linter.unusedSectionVars false

namespace RT
open PyNum Ext

/-! ## C70 -/

/-- A beam with attributes which are numbers. -/
def Beam.Finite (b : Beam (Ext ℝ)) : Prop := ∃ q wl z n c, b = beamOf q wl z n c

/-- A beam further along the medium it is in: the complex radius and the position grow by the distance. -/
def Ahead (b : Beam (Ext ℝ)) (x : ℝ) (b' : Beam (Ext ℝ)) : Prop :=
  ∃ q wl z n, b.still = beamOf q wl z n false ∧ b' = beamOf (q + x) wl (z + x) n false

/-- What the trace `t` and the drawing `u` have for one element entered by `b`: a free space of length `d` is drawn by `N` points
separated by `d / N`, anything else by the beams of its trace. -/
def Leg (N : Nat) (e : Elem (Ext ℝ)) (b : Beam (Ext ℝ)) (t u : List (Beam (Ext ℝ))) : Prop :=
  if e.isSpace then ∃ d : ℝ, e.mat.L = fin d ∧ (∃ b', t = [b'] ∧ Ahead b d b') ∧ u.length = N ∧
    ∀ (k : Nat) b', u[k]? = some b' → Ahead b ((k + 1) * (d / N)) b'
  else u = t

/-- for successive elements -/
def Legs (N : Nat) : List (Elem (Ext ℝ)) → Beam (Ext ℝ) → List (Beam (Ext ℝ)) → List (Beam (Ext ℝ)) → Prop
  | [], _, t, u => t = [] ∧ u = []
  | e :: es, b, t, u => ∃ t1 t2 u1 u2, t = t1 ++ t2 ∧ u = u1 ++ u2 ∧ Leg N e b t1 u1 ∧
      Legs N es (t1.getLast?.getD b) t2 u2

theorem beamOf_still (q : ℂ) (wl z n : ℝ) (c : Bool) : (beamOf q wl z n c).still = beamOf q wl z n false := rfl

theorem Beam.Finite.step {m : Mat (Ext ℝ)} (hg : m.Good) {b b' : Beam (Ext ℝ)} (h : b.Finite) (e : m.mulBeam b = .ok b') :
    b'.Finite := by
  obtain ⟨q, wl, z, n, c, rfl⟩ := h
  unfold Mat.mulBeam at e
  split at e
  · cases e
  · obtain ⟨-, -, -, c', rfl⟩ := mulBeamBase_ok hg.den e
    exact ⟨_, _, _, _, _, rfl⟩

theorem Sys.space_bend (d n : ℝ) (q : ℂ) : (Sys.space d n).bend q = q + d := by
  simp [Sys.bend, Sys.space]

/-- one step in a free space -/
theorem space_step {d nf : ℝ} {q : ℂ} {wl z : ℝ} {c : Bool} (diam : Ext ℝ) (hw : 0 < q.im → nf ≠ 0 ∧ 0 ≤ wl / nf) :
    ∃ c', (spaceMat (fin d) (fin nf) diam).mulBeam (beamOf q wl z nf c) = .ok (beamOf (q + d) wl (z + d) nf c') := by
  have hk : (spaceMat (fin d) (fin nf) diam).mulBeam (beamOf q wl z nf c) =
      (spaceMat (fin d) (fin nf) diam).mulBeamBase (beamOf q wl z nf c) := by
    unfold Mat.mulBeam
    rfl
  rw [hk]
  have hden := spaceMat_den d nf diam
  unfold Mat.mulBeamBase
  rw [if_neg (by simp [beamOf, hden.nf, Sys.space])]
  simp only [beamOf, hden.A, hden.B, hden.C, hden.D, hden.L, hden.nb, Cx.ofReal_fin, Cx.mul_of, Cx.add_of]
  rw [Cx.div_of _ (by simp [Sys.space])]
  have hq : (((Sys.space d nf).a : ℂ) * q + ((Sys.space d nf).b : ℂ)) / (((Sys.space d nf).c : ℂ) * q + ((Sys.space d nf).d : ℂ)) = q + d := by
    simp [Sys.space]
  rw [hq]
  simp only [bind, Except.bind, fin_add_fin]
  obtain ⟨w, h⟩ := (w_ok_iff (q + d) wl (Sys.space d nf).nb (fin ((Sys.space d nf).len + z)) false).2
    (by simpa [Sys.space] using hw)
  rw [h]
  refine ⟨if (half (spaceMat (fin d) (fin nf) diam).apertureDiameter <. PyNum.abs w) = true then true else c, ?_⟩
  simp only [pure, Except.pure, Except.ok.injEq, Beam.mk.injEq, true_and]
  refine ⟨?_, rfl, trivial⟩
  simp [Sys.space, add_comm]

/-- many steps in a free space -/
theorem space_steps {d nf : ℝ} {wl : ℝ} (diam : Ext ℝ) (k : Nat) : ∀ {q : ℂ} {z : ℝ} {c : Bool},
    (0 < q.im → nf ≠ 0 ∧ 0 ≤ wl / nf) →
    ∃ t, traceBeamList (List.replicate k (.leaf (spaceMat (fin d) (fin nf) diam))) (beamOf q wl z nf c) = .ok t ∧
      t.length = k ∧ ∀ (j : Nat) b', (t.map Beam.still)[j]? = some b' → b' = beamOf (q + ((j + 1) * d : ℝ)) wl (z + (j + 1) * d) nf false := by
  induction k with
  | zero => intro q z c _; exact ⟨[], rfl, rfl, by simp⟩
  | succ k ih =>
    intro q z c hw
    obtain ⟨c', h⟩ := space_step (d := d) (z := z) (c := c) diam hw
    obtain ⟨t, h1, h2, h3⟩ := ih (q := q + d) (z := z + d) (c := c') (by simpa using hw)
    refine ⟨beamOf (q + d) wl (z + d) nf c' :: t, ?_, by simp [h2], ?_⟩
    · rw [List.replicate_succ, traceBeamList, Elem.traceBeam, h]
      dsimp only
      simp only [List.getLast?_singleton, Option.getD_some, h1]
      rfl
    · intro j b' hj
      cases j with
      | zero =>
        simp only [List.map_cons, List.getElem?_cons_zero, Option.some.injEq] at hj
        rw [← hj, beamOf_still]
        simp
      | succ j =>
        simp only [List.map_cons, List.getElem?_cons_succ] at hj
        rw [h3 j b' hj]
        congr 1
        · push_cast; ring
        · push_cast; ring

theorem Beam.Finite.last {t : List (Beam (Ext ℝ))} {b : Beam (Ext ℝ)} (hb : b.Finite) (h : ∀ x ∈ t, x.Finite) :
    (t.getLast?.getD b).Finite := by
  cases hl : t.getLast? with
  | none => exact hb
  | some y => exact h y (List.mem_of_getLast? hl)

theorem still_last (t : List (Beam (Ext ℝ))) (d : Beam (Ext ℝ)) :
    (t.getLast?.getD d).still = (t.map Beam.still).getLast?.getD d.still := by
  rw [List.getLast?_map]
  cases t.getLast? <;> rfl

theorem still_still (b : Beam (Ext ℝ)) : b.still.still = b.still := rfl

theorem Leg.congr {N : Nat} {e : Elem (Ext ℝ)} {b b' : Beam (Ext ℝ)} {t u} (h : b.still = b'.still) (hl : Leg N e b t u) : Leg N e b' t u := by
  unfold Leg Ahead at *
  rw [h] at hl
  exact hl

theorem Legs.congr {N : Nat} {es : List (Elem (Ext ℝ))} {b b' : Beam (Ext ℝ)} {t u} (h : b.still = b'.still) (hl : Legs N es b t u) :
    Legs N es b' t u := by
  cases es with
  | nil => exact hl
  | cons e es =>
    obtain ⟨t1, t2, u1, u2, h1, h2, h3, h4⟩ := hl
    refine ⟨t1, t2, u1, u2, h1, h2, h3.congr h, ?_⟩
    cases hl : t1.getLast? with
    | none => rw [hl] at h4; exact Legs.congr h h4
    | some y => rw [hl] at h4; exact h4

/-- the trace of the elements drawn -/
theorem legs_of_trace {N : Nat} (hN : N ≠ 0) {es : List (Elem (Ext ℝ))} (hg : GoodList es) :
    ∀ {b b' : Beam (Ext ℝ)}, b.Finite → b.still = b'.still → ∀ {t}, traceBeamList es b = .ok t →
    ∃ u, traceBeamList (es.flatMap (splitElem N)) b' = .ok u ∧ Legs N es b (t.map Beam.still) (u.map Beam.still) := by
  induction es with
  | nil =>
    intro b b' hb hbb t ht
    simp only [traceBeamList, Except.ok.injEq] at ht
    subst ht
    exact ⟨[], rfl, rfl, rfl⟩
  | cons e es ih =>
    intro b b' hb hbb t ht
    unfold GoodList at hg
    rw [traceBeamList] at ht
    cases hm : e.traceBeam b with
    | error x => rw [hm] at ht; cases ht
    | ok t1 =>
      rw [hm] at ht
      dsimp only at ht
      have hfin : ∀ x ∈ t1, x.Finite :=
        traceBeam_all e (fun m hm b b' h1 h2 => Beam.Finite.step (hg.1.flat.1 m hm) h1 h2) b hb t1 hm
      cases hm2 : traceBeamList es (t1.getLast?.getD b) with
      | error x => rw [hm2] at ht; cases ht
      | ok t2 =>
        rw [hm2] at ht
        simp only [Except.ok.injEq] at ht
        subst ht
        have key : ∃ u1, traceBeamList (splitElem N e) b' = .ok u1 ∧ Leg N e b (t1.map Beam.still) (u1.map Beam.still) ∧
            (t1.getLast?.getD b).still = (u1.getLast?.getD b').still := by
          by_cases hs : e.isSpace = true
          · cases e with
            | group m c fs =>
              have h := hg.1
              unfold Elem.Good at h
              unfold Elem.isSpace Elem.mat at hs
              rcases h.2.kind with hk | hk <;> simp [hk] at hs
            | leaf m =>
              have h := hg.1
              unfold Elem.Good at h
              have hk : m.kind = .space := by
                unfold Elem.isSpace Elem.mat at hs
                revert hs
                cases m.kind <;> simp
              obtain ⟨q, wl, z, n, c, rfl⟩ := hb
              rw [Elem.traceBeam] at hm
              cases hm3 : m.mulBeam (beamOf q wl z n c) with
              | error x => rw [hm3] at hm; cases hm
              | ok b1 =>
                rw [hm3] at hm
                simp only [Except.ok.injEq] at hm
                subst hm
                have hsp := h.space hk
                unfold Mat.mulBeam at hm3
                rw [hk] at hm3
                obtain ⟨hn, -, hw, c', hb1⟩ := mulBeamBase_ok h.den hm3
                have e1 : m.sys.bend q = q + m.sys.len := by rw [hsp, Sys.space_bend]; rfl
                have e2 : m.sys.nb = m.sys.nf := by rw [hsp]; rfl
                rw [e1, e2] at hb1 hw
                obtain ⟨w, hw⟩ := hw
                have hw := (w_ok_iff _ _ _ _ _).1 ⟨w, hw⟩
                simp only [Complex.add_im, Complex.ofReal_im, add_zero] at hw
                have hb' : ∃ c2, b' = beamOf q wl z m.sys.nf c2 := by
                  rw [beamOf_still, hn] at hbb
                  obtain ⟨q', wl', z', n', c2⟩ := b'
                  simp only [Beam.still, beamOf, Beam.mk.injEq, and_true] at hbb
                  obtain ⟨rfl, rfl, rfl, rfl⟩ := hbb
                  exact ⟨c2, rfl⟩
                obtain ⟨c2, rfl⟩ := hb'
                obtain ⟨u1, h1, h2, h3⟩ := space_steps (d := m.sys.len / N) (pinf : Ext ℝ) N (q := q) (z := z) (c := c2) hw
                refine ⟨u1, ?_, ?_, ?_⟩
                · rw [splitElem, if_pos hs]
                  exact h1
                · unfold Leg
                  rw [if_pos hs]
                  refine ⟨m.sys.len, h.den.L, ⟨b1.still, rfl, ?_⟩, by simpa using h2, ?_⟩
                  · rw [hb1, beamOf_still, hn]
                    exact ⟨_, _, _, _, rfl, by rw [add_comm z]⟩
                  · intro k b2 hk2
                    rw [hn, h3 k b2 hk2]
                    exact ⟨_, _, _, _, rfl, rfl⟩
                · obtain ⟨k, rfl⟩ := Nat.exists_eq_succ_of_ne_zero hN
                  rw [still_last u1]
                  have hlen : (u1.map Beam.still).length = k + 1 := by simp [h2]
                  have hlast : (u1.map Beam.still).getLast? = some (u1.map Beam.still)[k] := by
                    rw [List.getLast?_eq_getElem?, List.getElem?_eq_getElem (by omega)]
                    simp only [hlen, Nat.add_sub_cancel]
                  rw [hlast, Option.getD_some, h3 k _ (List.getElem?_eq_getElem _), hb1]
                  simp only [List.getLast?_singleton, Option.getD_some, beamOf_still]
                  have hk0 : ((k : ℝ) + 1) ≠ 0 := by positivity
                  have e3 : ((k : ℝ) + 1) * (m.sys.len / ((k + 1 : ℕ) : ℝ)) = m.sys.len := by
                    push_cast
                    field_simp
                  simp only [Nat.succ_eq_add_one]
                  rw [e3, add_comm z]
          · obtain ⟨u1, h1, h2⟩ := traceBeam_still e hbb hm
            refine ⟨u1, ?_, ?_, ?_⟩
            · rw [splitElem, if_neg hs, traceBeamList, h1]
              simp [traceBeamList]
            · unfold Leg
              rw [if_neg hs, h2]
            · rw [still_last, still_last, h2, hbb]
        obtain ⟨u1, h1, h2, h3⟩ := key
        obtain ⟨u2, h4, h5⟩ := ih hg.2 (Beam.Finite.last hb hfin) h3 hm2
        refine ⟨u1 ++ u2, ?_, t1.map Beam.still, t2.map Beam.still, u1.map Beam.still, u2.map Beam.still, by simp, by simp, h2, ?_⟩
        · rw [List.flatMap_cons, traceBeamList_append, h1]
          dsimp only
          rw [h4]
        · exact h5.congr (by rw [still_last, still_last, List.map_map]; rfl)

/-- the abscissas and ordinates of the line of a trace -/
theorem rearrangeBeams_eq {t : List (Beam (Ext ℝ))} {x y : List (Ext ℝ)} (h : rearrangeBeams t = .ok (x, y)) :
    x = t.map (·.z) ∧ t.map (·.w) = y.map .ok := by
  induction t generalizing x y with
  | nil =>
    simp only [rearrangeBeams, Except.ok.injEq, Prod.mk.injEq] at h
    obtain ⟨rfl, rfl⟩ := h
    simp
  | cons b bs ih =>
    rw [rearrangeBeams] at h
    cases hw : b.w with
    | error e => rw [hw] at h; cases h
    | ok w =>
      rw [hw] at h
      dsimp only at h
      cases hr : rearrangeBeams bs with
      | error e => rw [hr] at h; cases h
      | ok p =>
        rw [hr] at h
        simp only [Except.ok.injEq, Prod.mk.injEq] at h
        obtain ⟨rfl, rfl⟩ := h
        obtain ⟨h1, h2⟩ := ih hr
        simp [h1, h2, hw]

theorem group_chain {label : String} {ps : List (Part ℝ)} (hv : Part.ValidList ps) {m : Mat (Ext ℝ)} {c} {es : List (Elem (Ext ℝ))}
    (hb : (Part.group label ps).build = .ok (.group m c es)) (hc : (Elem.group m c es).Clean) :
    GoodList es ∧ es.IsChain Adjacent := by
  obtain ⟨hgood, -⟩ := build_good (p := .group label ps) hv hb hc
  unfold Elem.Good at hgood
  refine ⟨hgood.1, ?_⟩
  unfold Part.build at hb
  split at hb
  · simp at hb
  · next es' _ =>
    obtain ⟨g, hg, he⟩ := Except.map_ok hb
    simp only [Group.toElem, Elem.group.injEq] at he
    obtain ⟨rfl, rfl, rfl⟩ := he
    have := appendAll_adjacent (g := (Group.empty label : Group (Ext ℝ))) es' (by simp [Group.empty])
    rw [Group.new_eq hg] at this
    exact this

/-- the size of a beam does not depend on the mark of clipping -/
theorem w_still (b : Beam (Ext ℝ)) : b.still.w = b.w := rfl

/-- every element computes the size of the beam it gives -/
theorem mulBeam_w {F : Type} [PyNum F] [PyMath F] {m : Mat F} {b b' : Beam F} (h : m.mulBeam b = .ok b') : ∃ w, b'.w = .ok w := by
  unfold Mat.mulBeam at h
  split at h
  · cases h
  · unfold Mat.mulBeamBase at h
    split at h
    · cases h
    · obtain ⟨q', hq, h⟩ := bind_ok h
      obtain ⟨w, hw, h⟩ := bind_ok h
      simp only [pure, Except.pure, Except.ok.injEq] at h
      subst h
      exact ⟨w, hw⟩

theorem rearrangeBeams_ok {t : List (Beam (Ext ℝ))} (h : ∀ b ∈ t, ∃ w, b.w = .ok w) : ∃ p, rearrangeBeams t = .ok p := by
  induction t with
  | nil => exact ⟨_, rfl⟩
  | cons b bs ih =>
    obtain ⟨w, hw⟩ := h b (by simp)
    obtain ⟨p, hp⟩ := ih fun x hx => h x (by simp [hx])
    rw [rearrangeBeams, hw, hp]
    exact ⟨_, rfl⟩

/-- **C70**: for every path made by a program, drawing a beam which can be traced never fails; the two lines are the positions and
sizes, above and below the axis, of the beam given followed by the beams of the trace (`Legs`), where each free space of length `d` is
filled with beams at `d/N`, `2d/N`, ... `d` in it, the sizes being those of the beam at these places. The code has `N = 100`. -/
theorem C70_lines {label : String} {ps : List (Part ℝ)} (hv : Part.ValidList ps) {m : Mat (Ext ℝ)} {c} {es : List (Elem (Ext ℝ))}
    (hb : (Part.group label ps).build = .ok (.group m c es)) (hc : (Elem.group m c es).Clean) {N : Nat} (hN : N ≠ 0)
    {b : Beam (Ext ℝ)} (hf : b.Finite) (hw : ∃ w, b.w = .ok w) {t : List (Beam (Ext ℝ))}
    (ht : (Elem.group m c es).traceBeam b = .ok t) :
    ∃ x y u, (⟨m, c, es⟩ : Group (Ext ℝ)).beamTraceLines N b = .ok ((x, y), (x, y.map fun v => -v)) ∧
      Legs N es b (t.tail.map Beam.still) u ∧ t.head? = some b ∧ x = (b :: u).map (·.z) ∧ (b :: u).map (·.w) = y.map .ok := by
  obtain ⟨hgl, hch⟩ := group_chain hv hb hc
  obtain ⟨g', h1, h2⟩ := highResolution_exact hN (g := ⟨m, c, es⟩) hgl hch
  rw [Elem.traceBeam] at ht
  cases hm : traceBeamList es b with
  | error x => rw [hm] at ht; cases ht
  | ok t1 =>
    rw [hm] at ht
    simp only [Except.ok.injEq] at ht
    subst ht
    obtain ⟨u, h3, h4⟩ := legs_of_trace hN hgl hf rfl hm
    have h5 : ∀ x ∈ u, ∃ w, x.w = .ok w :=
      traceBeamList_all (P := fun b => ∃ w, b.w = .ok w) _ (fun _ _ _ _ _ h => mulBeam_w h) b hw u h3
    obtain ⟨⟨x, y⟩, h6⟩ := rearrangeBeams_ok (t := b :: u) (by
      intro z hz
      rcases List.mem_cons.1 hz with rfl | hz
      · exact hw
      · exact h5 z hz)
    obtain ⟨h7, h8⟩ := rearrangeBeams_eq h6
    refine ⟨x, y, u.map Beam.still, ?_, h4, rfl, ?_, ?_⟩
    · unfold Group.beamTraceLines
      rw [h1]
      dsimp only [Group.toElem]
      rw [h2, Elem.traceBeam, h3]
      dsimp only
      rw [h6]
    · rw [h7]
      simp only [List.map_cons, List.map_map]
      rfl
    · rw [← h8]
      simp only [List.map_cons, List.map_map]
      rfl

theorem Ahead.unique {b b1 b2 : Beam (Ext ℝ)} {x : ℝ} (h1 : Ahead b x b1) (h2 : Ahead b x b2) : b1 = b2 := by
  obtain ⟨q, wl, z, n, e1, rfl⟩ := h1
  obtain ⟨q', wl', z', n', e2, rfl⟩ := h2
  rw [e1] at e2
  simp only [beamOf, Beam.mk.injEq, Cx.of_inj, fin.injEq, and_true] at e2
  obtain ⟨rfl, rfl, rfl, rfl⟩ := e2
  rfl

theorem Leg.sublist {N : Nat} (hN : N ≠ 0) {e : Elem (Ext ℝ)} {b : Beam (Ext ℝ)} {t u} (h : Leg N e b t u) : t.Sublist u := by
  unfold Leg at h
  split_ifs at h with hs
  · obtain ⟨d, -, ⟨b', rfl, h1⟩, h2, h3⟩ := h
    obtain ⟨k, rfl⟩ := Nat.exists_eq_succ_of_ne_zero hN
    have hk : k < u.length := by omega
    have h4 := h3 k _ (List.getElem?_eq_getElem hk)
    have hk0 : ((k : ℝ) + 1) ≠ 0 := by positivity
    have e3 : ((k : ℝ) + 1) * (d / ((k + 1 : ℕ) : ℝ)) = d := by
      push_cast
      field_simp
    simp only [Nat.succ_eq_add_one] at h4
    rw [e3] at h4
    rw [h1.unique h4]
    exact List.singleton_sublist.2 (List.getElem_mem hk)
  · subst h
    exact List.Sublist.refl _

/-- **C70**: every beam of the trace is among the beams drawn, in the same order. -/
theorem C70_trace_drawn {N : Nat} (hN : N ≠ 0) {es : List (Elem (Ext ℝ))} {b : Beam (Ext ℝ)} {t u} (h : Legs N es b t u) : t.Sublist u := by
  induction es generalizing b t u with
  | nil => obtain ⟨rfl, rfl⟩ := h; simp
  | cons e es ih =>
    obtain ⟨t1, t2, u1, u2, rfl, rfl, h1, h2⟩ := h
    exact (h1.sublist hN).append (ih h2)

/-- **C70**: the size drawn at a distance `x` in a free space is that of a Gaussian beam whose complex radius has grown by `x`. -/
theorem C70_size {b b' : Beam (Ext ℝ)} {q : ℂ} {wl z n : ℝ} {c : Bool} {x : ℝ} (hb : b = beamOf q wl z n c) (hq : 0 < q.im)
    (hl : 0 < wl) (hn : 0 < n) (h : Ahead b x b') : b'.z = fin (z + x) ∧ b'.w = .ok (fin (beamSize wl n (q + x))) := by
  subst hb
  have := h.unique ⟨q, wl, z, n, rfl, rfl⟩
  subst this
  exact ⟨rfl, w_of (by simpa using hq) hl hn _ _⟩

/-- the waist reported by a confined beam -/
theorem wo_of {q : ℂ} {wl n z : ℝ} {c : Bool} (hq : 0 < q.im) :
    (beamOf q wl z n c).wo = if 0 ≤ q.im * wl / Real.pi then .ok (some (fin (Real.sqrt (q.im * wl / Real.pi))))
      else .error .valueError := by
  unfold Beam.wo
  simp only [beamOf, Beam.zo, Cx.of, zero_eq, lt_fin, hq, decide_true, if_true, fin_mul_fin, pi_eq]
  rw [pyDiv_fin _ _ Real.pi_pos.ne']
  simp only [bind, Except.bind, pySqrt, zero_eq, lt_fin, decide_eq_true_eq, sqrt_fin]
  by_cases h : 0 ≤ q.im * wl / Real.pi
  · rw [if_pos h, if_neg (not_lt.2 h)]
    rfl
  · rw [if_neg h, if_pos (not_le.1 h)]

/-- the size, in vacuum, at the waist -/
theorem beamSize_waist {q : ℂ} {wl : ℝ} (hq : 0 < q.im) :
    beamSize wl 1 (q - q.re) = Real.sqrt (q.im * wl / Real.pi) := by
  unfold beamSize
  rw [im_neg_inv]
  have h1 : (q - (q.re : ℂ)).im = q.im := by simp
  have h2 : Complex.normSq (q - (q.re : ℂ)) = q.im * q.im := by simp [Complex.normSq_apply]
  rw [h1, h2]
  congr 1
  have := Real.pi_pos
  field_simp

/-- **C70**: along a trace of confined beams, the arrows drawn are exactly a pair, above and below the axis, for each beam whose
waist is in the path: it is at the position where the complex radius of the beam is imaginary, and points at the size the beam would
have there in vacuum. Missing: in other media this is not the size of the beam there (`C41_violated`). -/
theorem C70_waists_partial (len arrow : ℝ) {t : List (Beam (Ext ℝ))} (ht : ∀ b ∈ t, Confined b) :
    ∃ l, waistArrows (fin len) (fin arrow) t = .ok l ∧ ∀ p tail tip, (p, tail, tip) ∈ l ↔
      ∃ q wl z n c, beamOf q wl z n c ∈ t ∧ p = fin (z - q.re) ∧ 0 ≤ z - q.re ∧ z - q.re ≤ len ∧
        ((tip = fin (beamSize wl 1 (q - q.re)) ∧ tail = fin (beamSize wl 1 (q - q.re) + arrow)) ∨
         (tip = fin (-beamSize wl 1 (q - q.re)) ∧ tail = fin (-(beamSize wl 1 (q - q.re) + arrow)))) := by
  induction t with
  | nil => exact ⟨[], rfl, by simp⟩
  | cons b bs ih =>
    obtain ⟨l, h1, h2⟩ := ih fun x hx => ht x (by simp [hx])
    obtain ⟨q, wl, z, n, c, rfl, hq, hl, hn⟩ := ht b (by simp)
    have hp := Real.pi_pos
    have hpos : 0 ≤ q.im * wl / Real.pi := by positivity
    have inj : ∀ q' wl' z' n' c', beamOf q' wl' z' n' c' = beamOf q wl z n c → q' = q ∧ wl' = wl ∧ z' = z := by
      intro q' wl' z' n' c' h
      simp only [beamOf, Beam.mk.injEq, Cx.of_inj, fin.injEq] at h
      exact ⟨h.1, h.2.1, h.2.2.1⟩
    have hz : (beamOf q wl z n c).z + (beamOf q wl z n c).waistPosition = fin (z - q.re) := by
      simp only [beamOf, Beam.waistPosition, Cx.of, neg_fin, fin_add_fin, ← sub_eq_add_neg]
    rw [waistArrows, wo_of hq, if_pos hpos]
    dsimp only
    rw [hz]
    simp only [zero_eq, le_fin, Bool.and_eq_true, decide_eq_true_eq, h1, neg_fin, fin_add_fin]
    split_ifs with hin
    · refine ⟨_, rfl, ?_⟩
      intro p tail tip
      simp only [List.mem_cons, Prod.mk.injEq, h2]
      rw [← beamSize_waist hq]
      constructor
      · rintro (⟨rfl, rfl, rfl⟩ | ⟨rfl, rfl, rfl⟩ | ⟨q', wl', z', n', c', h⟩)
        · exact ⟨q, wl, z, n, c, .inl rfl, rfl, hin.1, hin.2, .inl ⟨rfl, rfl⟩⟩
        · exact ⟨q, wl, z, n, c, .inl rfl, rfl, hin.1, hin.2, .inr ⟨rfl, by congr 1; ring⟩⟩
        · exact ⟨q', wl', z', n', c', .inr h.1, h.2⟩
      · rintro ⟨q', wl', z', n', c', hm | hm, e1, e2, e3, e4⟩
        · obtain ⟨rfl, rfl, rfl⟩ := inj _ _ _ _ _ hm
          rcases e4 with ⟨rfl, rfl⟩ | ⟨rfl, rfl⟩
          · exact .inl ⟨e1, rfl, rfl⟩
          · exact .inr (.inl ⟨e1, by congr 1; ring, rfl⟩)
        · exact .inr (.inr ⟨q', wl', z', n', c', hm, e1, e2, e3, e4⟩)
    · refine ⟨l, rfl, ?_⟩
      intro p tail tip
      rw [h2]
      constructor
      · rintro ⟨q', wl', z', n', c', hm, h⟩
        exact ⟨q', wl', z', n', c', List.mem_cons_of_mem _ hm, h⟩
      · rintro ⟨q', wl', z', n', c', hm, e1, e2, e3, e4⟩
        rcases List.mem_cons.1 hm with hm | hm
        · obtain ⟨rfl, rfl, rfl⟩ := inj _ _ _ _ _ hm
          exact absurd ⟨e2, e3⟩ hin
        · exact ⟨q', wl', z', n', c', hm, e1, e2, e3, e4⟩

/-- a path and a beam which meet the hypotheses -/
example : ∃ m c es, (Part.group "" [.space (10 : ℝ) 1 none, .lens 20 (some 5), .space 3 1 none]).build = .ok (.group m c es) ∧
    (Elem.group m c es).Clean ∧ Part.ValidList [.space (10 : ℝ) 1 none, .lens 20 (some 5), .space 3 1 none] ∧
    (beamOf Complex.I 1 0 1 false).Finite ∧ ∃ w, (beamOf Complex.I 1 0 1 false).w = .ok w := by
  obtain ⟨e, h1, h2, h3⟩ := simple_group (K := ℝ) (ps := [.space (10 : ℝ) 1 none, .lens 20 (some 5), .space 3 1 none]) (by
    intro p hp
    simp only [List.mem_cons, List.not_mem_nil, or_false] at hp
    rcases hp with rfl | rfl | rfl
    · exact .space _ _ diamOk_pinf
    · exact .lens _ (by norm_num) (by simp [DiamOk, optInf])
    · exact .space _ _ diamOk_pinf) ""
  have h1' := h1
  unfold Part.build at h1
  split at h1
  · cases h1
  · obtain ⟨g, hg, rfl⟩ := Except.map_ok h1
    exact ⟨g.mat, _, g.elems, h1', h2, h3, ⟨_, _, _, _, _, rfl⟩, _, w_of (by simp) (by norm_num) (by norm_num) _ _⟩

end RT
