import Verif.Lemmas.RoundedAccept
import Verif.Spec.RoundedMedia

/-! # Systems with interfaces and media are accepted in rounded arithmetic -/

set_option linter.unusedSectionVars false

namespace RT
open PyNum Ext Fl
variable {K : Type} [Field K] [LinearOrder K] [IsStrictOrderedRing K]
variable {rnd : K → K} {u : K}

/-- The checks of the constructor pass when the determinant is near the ratio of the indices. -/
theorem init_accepts_ratio (hr : Rounding rnd u) {m : Mat (Fl K rnd)} {a b : K} (ha : m.frontIndex = num a) (hb : m.backIndex = num b)
    (hb0 : b ≠ 0) (h1 : (m.apertureDiameter ≤. 0) = false) (h2 : (m.apertureNA ≤. 0) = false) {x : K} (hx : m.determinant = num x)
    (hd : (1 + u) * |x - rnd (a / b)| ≤ (1 - u) * (1 / 100000)) : Mat.init m = .ok { m with isFlipped := false } := by
  unfold Mat.init
  have e1 : pyDiv (num a : Fl K rnd) (num b) = .ok (num (rnd (a / b))) := pyDiv_num hr _ _ hb0
  have e2 : areAbsolutelyNotEqual (num x : Fl K rnd) (num (rnd (a / b))) eps = false := by
    unfold areAbsolutelyNotEqual
    rw [num_sub, abs_num, eps_num, lt_num, decide_eq_false_iff_not, not_lt]
    have p1 := hr.abs_le (x - rnd (a / b))
    have p2 := hr.le_abs (1 / 100000)
    have p3 : 0 < rnd (1 / 100000 : K) := hr.pos (by norm_num)
    rw [abs_of_pos p3, abs_of_pos (by norm_num : (0 : K) < 1 / 100000)] at p2
    linarith
  simp only [h1, h2, ha, hb, hx, e1, e2, bind, Except.bind, Bool.false_eq_true, if_false, pure, Except.pure]

theorem NearMat.accepts_ratio (hr : Rounding rnd u) {m : Mat (Fl K rnd)} {s : RStage K} (h : NearMat u m s) {a b : K}
    (hd : s.exact.dt = a / b) (ha : m.frontIndex = num a) (hb : m.backIndex = num b) (hb0 : b ≠ 0)
    (h1 : (m.apertureDiameter ≤. 0) = false) (h2 : (m.apertureNA ≤. 0) = false) (hroom : s.RoomFor u a b) :
    Mat.init m = .ok { m with isFlipped := false } := by
  obtain ⟨x, hx, hb'⟩ := h.determinant hr
  rw [hd] at hb'
  refine init_accepts_ratio hr ha hb hb0 h1 h2 hx (le_trans ?_ hroom.tol)
  have h0 := hr.nonneg
  have h3 := hr.rel (a / b)
  have h4 := abs_sub_le x (a / b) (rnd (a / b))
  rw [abs_sub_comm (a / b) (rnd (a / b))] at h4
  refine mul_le_mul_of_nonneg_left ?_ (by linarith)
  linarith

theorem near_is_num {k : ℕ} {x : Fl K rnd} {a A : K} (h : Near u k x a A) : ∃ x', x = num x' := let ⟨x', h', _⟩ := h; ⟨x', h'⟩

/-- what it means for computed coefficients to be those of the identity -/
theorem identity_coeffs (hr : Rounding rnd u) {m : Mat (Fl K rnd)} {s : RStage K} (h : NearMat u m s) (hi : m.isIdentity = true) :
    m.A = num 1 ∧ m.B = num 0 ∧ m.C = num 0 ∧ m.D = num 1 := by
  obtain ⟨a, ha⟩ := near_is_num h.A
  obtain ⟨b, hb⟩ := near_is_num h.B
  obtain ⟨c, hc⟩ := near_is_num h.C
  obtain ⟨d, hd⟩ := near_is_num h.D
  unfold Mat.isIdentity at hi
  rw [ha, hb, hc, hd, zero_num hr, one_num hr, eq_num, eq_num, eq_num, eq_num] at hi
  simp only [Bool.and_eq_true, decide_eq_true_eq] at hi
  obtain ⟨⟨⟨rfl, rfl⟩, rfl⟩, rfl⟩ := hi
  exact ⟨ha, hb, hc, hd⟩

theorem identity_of_coeffs (hr : Rounding rnd u) {m : Mat (Fl K rnd)} (h : m.A = num 1 ∧ m.B = num 0 ∧ m.C = num 0 ∧ m.D = num 1) :
    m.isIdentity = true := by
  unfold Mat.isIdentity
  rw [h.1, h.2.1, h.2.2.1, h.2.2.2, zero_num hr, one_num hr, eq_num, eq_num]
  simp

theorem identity_det (hr : Rounding rnd u) {m : Mat (Fl K rnd)} (h : m.A = num 1 ∧ m.B = num 0 ∧ m.C = num 0 ∧ m.D = num 1) :
    m.determinant = num 1 :=
  det_simple hr (by rw [h.1, one_num hr]) (by rw [h.2.2.2, one_num hr]) (.inl (by rw [h.2.2.1, zero_num hr]))

/-- A matrix computed as the identity goes from an index to the same one. -/
theorem identity_index (hr : Rounding rnd u) {m : Mat (Fl K rnd)} {s : RStage K} (h : NearMat u m s) (hi : m.isIdentity = true) {n n' : K}
    (hd : s.exact.dt = n / n') (hroom : s.RoomFor u n n') : n = n' := by
  rcases hroom.apart with h' | h'
  · exact h'
  · obtain ⟨x, hx, hb⟩ := h.determinant hr
    rw [identity_det hr (identity_coeffs hr h hi)] at hx
    have : (1 : K) = x := by simpa [num] using hx
    subst this
    rw [hd, abs_sub_comm] at hb
    exact absurd hb (not_le.2 h')

theorem notIdentity_of (hr : Rounding rnd u) {m : Mat (Fl K rnd)} {s : RStage K} (h : NearMat u m s) (hs : s.NotIdentity u) :
    m.isIdentity = false := by
  rw [Bool.eq_false_iff]
  intro hi
  obtain ⟨ha, hb, hc, hd⟩ := identity_coeffs hr h hi
  have key : ∀ {x : Fl K rnd} {y z A : K}, Near u s.ops x z A → x = num y → |z - y| ≤ relErr u s.ops * A := by
    rintro x y z A ⟨x', rfl, -, h2⟩ hx
    have : x' = y := by simpa [num] using hx
    subst this
    rwa [abs_sub_comm]
  have kb := key h.B hb
  have kc := key h.C hc
  rw [sub_zero] at kb kc
  rcases hs with hs | hs | hs | hs
  · exact absurd (key h.A ha) (not_le.2 hs)
  · exact absurd kb (not_le.2 hs)
  · exact absurd kc (not_le.2 hs)
  · exact absurd (key h.D hd) (not_le.2 hs)

/-- The indices that a matrix reports: the right ones, unless it was computed as the identity. -/
def Reports (m : Mat (Fl K rnd)) (n n' : K) : Prop :=
  ∃ a b, m.frontIndex = num a ∧ m.backIndex = num b ∧ (m.isIdentity = true → n = n' ∧ a = b ∧ (a = 1 ∨ a = n)) ∧
    (m.isIdentity = false → a = n ∧ b = n')

theorem reports_one (hr : Rounding rnd u) (n : K) : Reports (Mat.one : Mat (Fl K rnd)) n n := by
  refine ⟨1, 1, one_num hr, one_num hr, fun _ => ⟨rfl, rfl, .inl rfl⟩, fun h => ?_⟩
  rw [identity_of_coeffs hr ⟨one_num hr, zero_num hr, zero_num hr, one_num hr⟩] at h
  cases h

/-- what is needed of an element from a medium of index `n` to one of index `n'` -/
structure MediumElem (u : K) (e : Elem (Fl K rnd)) (s : RStage K) (n n' : K) : Prop where
  near : NearMat u e.mat s
  front : e.mat.frontIndex = num n
  back : e.mat.backIndex = num n'
  det : s.exact.dt = n / n'
  same : e.mat.isIdentity = true → n = n'
  nonzero : n ≠ 0 ∧ n' ≠ 0

theorem ratio_mul {n0 n n' : K} (hn : n ≠ 0) : n0 / n * (n / n') = n0 / n' := by
  rw [div_mul_div_comm, mul_comm n n', mul_div_mul_right _ _ hn]

theorem mulRaw_reports (hr : Rounding rnd u) {e : Elem (Fl K rnd)} {s : RStage K} {n n' : K} (he : MediumElem u e s n n')
    {acc : Mat (Fl K rnd)} {s0 : RStage K} {n0 : K} (ha : NearMat u acc s0) (hi : Reports acc n0 n) (hn0 : n0 ≠ 0)
    (hd : s0.exact.dt = n0 / n) (hroom : (s0.andThen s).RoomFor u n0 n') :
    Reports (e.mat.mulRaw acc) n0 n' ∧ e.mat.mulMatrix acc = .ok (e.mat.mulRaw acc) ∧ (s0.andThen s).exact.dt = n0 / n' := by
  have hn := he.near.mulRaw hr ha
  have hdet : (s0.andThen s).exact.dt = n0 / n' := by
    change (s0.exact.andThen s.exact).dt = _
    rw [Stage.andThen_dt, hd, he.det, ratio_mul he.nonzero.1]
  obtain ⟨a, b, h1, h2, h3, h4⟩ := hi
  -- either nothing was done by both, or the indices are the right ones
  have key : (∃ a, (e.mat.mulRaw acc).frontIndex = num a ∧ (e.mat.mulRaw acc).backIndex = num a ∧ (a = 1 ∨ a = n0) ∧ n0 = n' ∧
      ((e.mat.mulRaw acc).A = num 1 ∧ (e.mat.mulRaw acc).B = num 0 ∧ (e.mat.mulRaw acc).C = num 0 ∧ (e.mat.mulRaw acc).D = num 1)) ∨
      ((e.mat.mulRaw acc).frontIndex = num n0 ∧ (e.mat.mulRaw acc).backIndex = num n') := by
    by_cases i1 : e.mat.isIdentity = true
    · have hs := he.same i1
      by_cases i2 : acc.isIdentity = true
      · obtain ⟨q1, q2, q3⟩ := h3 i2
        refine .inl ⟨a, ?_, ?_, q3, q1.trans hs, ?_⟩
        · simp [Mat.mulRaw, Mat.mulFrontIndex, i1, h1]
        · simp [Mat.mulRaw, Mat.mulBackIndex, i1, h2, q2]
        · obtain ⟨a1, a2, a3, a4⟩ := identity_coeffs hr he.near i1
          obtain ⟨b1, b2, b3, b4⟩ := identity_coeffs hr ha i2
          simp only [Mat.mulRaw, a1, a2, a3, a4, b1, b2, b3, b4, num_mul, num_add, mul_one, mul_zero, hr.one, hr.zero, add_zero,
            zero_add, and_self]
      · have i2' : acc.isIdentity = false := by simpa using i2
        obtain ⟨rfl, rfl⟩ := h4 i2'
        refine .inr ⟨?_, ?_⟩
        · simp [Mat.mulRaw, Mat.mulFrontIndex, i1, h1]
        · simp [Mat.mulRaw, Mat.mulBackIndex, i1, h2, hs]
    · have i1' : e.mat.isIdentity = false := by simpa using i1
      by_cases i2 : acc.isIdentity = true
      · obtain ⟨q1, q2, q3⟩ := h3 i2
        refine .inr ⟨?_, ?_⟩
        · simp [Mat.mulRaw, Mat.mulFrontIndex, i1', i2, he.front, q1]
        · simp [Mat.mulRaw, Mat.mulBackIndex, i1', i2, he.back]
      · have i2' : acc.isIdentity = false := by simpa using i2
        obtain ⟨rfl, rfl⟩ := h4 i2'
        refine .inr ⟨?_, ?_⟩
        · simp [Mat.mulRaw, Mat.mulFrontIndex, i1', i2', h1]
        · simp [Mat.mulRaw, Mat.mulBackIndex, i1', i2', he.back]
  refine ⟨?_, ?_, hdet⟩
  · rcases key with ⟨c, k1, k2, k3, k4, k5⟩ | ⟨k1, k2⟩
    · refine ⟨c, c, k1, k2, fun _ => ⟨k4, rfl, k3⟩, fun h => ?_⟩
      rw [identity_of_coeffs hr k5] at h; cases h
    · refine ⟨n0, n', k1, k2, fun h => ?_, fun _ => ⟨rfl, rfl⟩⟩
      have := identity_index hr hn h hdet hroom
      exact ⟨this, this, .inr rfl⟩
  · rcases key with ⟨c, k1, k2, k3, k4, k5⟩ | ⟨k1, k2⟩
    · have hc : c ≠ 0 := by
        rcases k3 with rfl | rfl
        · exact one_ne_zero
        · exact hn0
      refine init_accepts_ratio hr k1 k2 hc (inf_openR hr) (inf_openR hr) (identity_det hr k5) ?_
      rw [div_self hc, hr.one, sub_self, abs_zero, mul_zero]
      have := hr.small
      have : (1 : K) / 8 < 1 := by norm_num
      have : 0 ≤ 1 - u := by linarith
      positivity
    · exact hn.accepts_ratio hr hdet k1 k2 he.nonzero.2 (inf_openR hr) (inf_openR hr) hroom

/-- Elements that follow each other, from a medium of index `n`. -/
inductive Linked (u : K) : K → List (Elem (Fl K rnd)) → List (RStage K × K) → Prop
  | nil (n : K) : Linked u n [] []
  | cons {n m : K} {e : Elem (Fl K rnd)} {s : RStage K} {es : List (Elem (Fl K rnd))} {ts : List (RStage K × K)} :
    MediumElem u e s n m → Linked u m es ts → Linked u n (e :: es) ((s, m) :: ts)

/-- the product and the index after one more -/
def linkStep (x : RStage K × K) (y : RStage K × K) : RStage K × K := (x.1.andThen y.1, y.2)

theorem linked_end {n : K} {es : List (Elem (Fl K rnd))} {ts : List (RStage K × K)} (h : Linked u n es ts) (s : RStage K) :
    ∀ e, es.getLast? = some e → e.mat.backIndex = num (ts.foldl linkStep (s, n)).2 := by
  induction h generalizing s with
  | nil => simp
  | @cons n m e t es ts he hes ih =>
    intro x hx
    rw [List.foldl_cons]
    cases es with
    | nil =>
      cases hes
      simp only [List.getLast?_singleton, Option.some.injEq] at hx
      subst hx; exact he.back
    | cons e' es' =>
      rw [List.getLast?_cons_cons] at hx
      exact ih _ x hx

theorem linked_append {n : K} {es : List (Elem (Fl K rnd))} {ts : List (RStage K × K)} (h : Linked u n es ts) (s : RStage K)
    {e : Elem (Fl K rnd)} {t : RStage K} {m : K} (he : MediumElem u e t (ts.foldl linkStep (s, n)).2 m) :
    Linked u n (es ++ [e]) (ts ++ [(t, m)]) := by
  induction h generalizing s with
  | nil => exact .cons he (.nil _)
  | cons h1 _ ih => exact .cons h1 (ih _ (by rw [List.foldl_cons] at he; exact he))

theorem transferMatrixList_media (hr : Rounding rnd u) {n : K} {es : List (Elem (Fl K rnd))} {ts : List (RStage K × K)}
    (hs : Linked u n es ts) {acc : Mat (Fl K rnd)} {s0 : RStage K} {n0 : K} (ha : NearMat u acc s0) (hi : Reports acc n0 n) (hn0 : n0 ≠ 0)
    (hd : s0.exact.dt = n0 / n)
    (hroom : ∀ l, l <+: ts → l ≠ [] → (l.foldl linkStep (s0, n)).1.RoomFor u n0 (l.foldl linkStep (s0, n)).2) :
    ∃ t, transferMatrixList es inf acc = .ok t ∧ Reports t n0 (ts.foldl linkStep (s0, n)).2 ∧
      (ts.foldl linkStep (s0, n)).1.exact.dt = n0 / (ts.foldl linkStep (s0, n)).2 := by
  induction hs generalizing acc s0 with
  | nil => exact ⟨acc, by simp [transferMatrixList], hi, hd⟩
  | @cons n m e s es ts he _ ih =>
    obtain ⟨r1, r2, r3⟩ := mulRaw_reports hr he ha hi hn0 hd (by simpa [linkStep] using hroom [(s, m)] (by simp) (by simp))
    obtain ⟨t, h1, h2, h3⟩ := ih (he.near.mulRaw hr ha) r1 r3 (by
      intro l hl hne
      have := hroom ((s, m) :: l) (List.cons_prefix_cons.2 ⟨rfl, hl⟩) (by simp)
      rwa [List.foldl_cons] at this)
    refine ⟨t, ?_, h2, h3⟩
    unfold transferMatrixList
    rw [if_pos (le_infR he.near.L), inf_subR he.near.L, r2]
    exact h1

/-- An element before it is appended: a space may still have another index. -/
def Ready (u : K) (first : Bool) (e : Elem (Fl K rnd)) (s : RStage K) (n n' : K) : Prop :=
  MediumElem u e s n n' ∨ (first = false ∧ e.isSpace = true ∧ n' = n ∧ (∃ k, e.mat.frontIndex = num k ∧ e.mat.backIndex = num k) ∧ MediumElem u (e.setIndices (num n)) s n n')

inductive ReadyList (u : K) : Bool → K → List (Elem (Fl K rnd)) → List (RStage K × K) → Prop
  | nil (first : Bool) (n : K) : ReadyList u first n [] []
  | cons {first : Bool} {n m : K} {e : Elem (Fl K rnd)} {s : RStage K} {es : List (Elem (Fl K rnd))} {ts : List (RStage K × K)} :
    Ready u first e s n m → ReadyList u false m es ts → ReadyList u first n (e :: es) ((s, m) :: ts)

theorem appendAll_media (hr : Rounding rnd u) {n0 : K} (hn0 : n0 ≠ 0) {es : List (Elem (Fl K rnd))} {ts : List (RStage K × K)} {first : Bool}
    {n : K} (hes : ReadyList u first n es ts) {g : Group (Fl K rnd)} {ss : List (RStage K × K)} (hg : Linked u n0 g.elems ss)
    (hfirst : first = false → g.elems ≠ []) (hn : n = (ss.foldl linkStep (RStage.one, n0)).2)
    (hga : Reports g.mat n0 n) (hgd : (ss.foldl linkStep (RStage.one, n0)).1.exact.dt = n0 / n)
    (hroom : ∀ l, l <+: ss ++ ts → l ≠ [] → (l.foldl linkStep (RStage.one, n0)).1.RoomFor u n0 (l.foldl linkStep (RStage.one, n0)).2) :
    ∃ g', g.appendAll es = (g', .ok ()) ∧ Reports g'.mat n0 ((ss ++ ts).foldl linkStep (RStage.one, n0)).2 ∧
      ((ss ++ ts).foldl linkStep (RStage.one, n0)).1.exact.dt = n0 / ((ss ++ ts).foldl linkStep (RStage.one, n0)).2 := by
  induction hes generalizing g ss with
  | nil =>
    rw [List.append_nil, ← hn]
    exact ⟨g, rfl, hga, hgd⟩
  | @cons first n m e s es ts he _ ih =>
    -- the element as appended
    obtain ⟨e', h1, he'⟩ : ∃ e', g.append e = g.push e' ∧ MediumElem u e' s n m := by
      unfold Group.append
      cases hl : g.elems.getLast? with
      | none =>
        rcases he with he | ⟨hf, -⟩
        · exact ⟨e, rfl, he⟩
        · exact absurd (List.getLast?_eq_none_iff.1 hl) (hfirst hf)
      | some last =>
        have hb := linked_end hg RStage.one last hl
        rw [← hn] at hb
        rcases he with he | ⟨hf, h2, h3, h4, h5⟩
        · refine ⟨e, ?_, he⟩
          simp only [hb, he.front]
          have : ((num n : Fl K rnd) !=. num n) = false := by
            show (!((num n : Fl K rnd) ==. num n)) = false
            rw [eq_num]; simp
          rw [this]; rfl
        · by_cases hne : (last.mat.backIndex !=. e.mat.frontIndex) = true
          · refine ⟨e.setIndices (num n), ?_, h5⟩
            dsimp only; rw [if_pos hne, if_pos h2, hb]
          · -- the index was already the right one
            have hne' : (last.mat.backIndex !=. e.mat.frontIndex) = false := by simpa using hne
            obtain ⟨k, k1, k2⟩ := h4
            have hk : n = k := by
              rw [hb, k1] at hne'
              change (!((num n : Fl K rnd) ==. num k)) = false at hne'
              rw [eq_num] at hne'
              simpa using hne'
            subst hk
            refine ⟨e, by dsimp only; rw [if_neg hne], ⟨?_, k1, ?_, h5.det, ?_, h5.nonzero⟩⟩
            · have := h5.near
              cases e <;> exact ⟨this.A, this.B, this.C, this.D, this.L⟩
            · rw [k2, h3]
            · intro _; exact h3.symm
    have h2 : Linked u n0 (g.elems ++ [e']) (ss ++ [(s, m)]) := linked_append hg RStage.one (by rw [← hn]; exact he')
    have hpre : ∀ l, l <+: ss ++ [(s, m)] → l ≠ [] →
        (l.foldl linkStep (RStage.one, n0)).1.RoomFor u n0 (l.foldl linkStep (RStage.one, n0)).2 := by
      intro l hl hne
      refine hroom l (hl.trans ?_) hne
      rw [show ss ++ (s, m) :: ts = (ss ++ [(s, m)]) ++ ts by simp]
      exact List.prefix_append _ _
    obtain ⟨t, t1, t2, t3⟩ := transferMatrixList_media hr h2 (nearMat_one hr) (reports_one hr n0) hn0
      (by simp [RStage.one, Stage.dt, div_self hn0]) hpre
    have hm : ((ss ++ [(s, m)]).foldl linkStep (RStage.one, n0)).2 = m := by simp [linkStep]
    have h3 : g.append e = ({ g with elems := g.elems ++ [e'], mat := g.mat.refresh t }, .ok ()) := by
      rw [h1]; unfold Group.push; simp only [t1]
    obtain ⟨g', q1, q2, q3⟩ := ih (g := { g with elems := g.elems ++ [e'], mat := g.mat.refresh t }) h2 (by simp) hm.symm
      (by rw [← hm]; exact t2) (by rw [hm] at t3; exact t3) (by simpa using hroom)
    rw [List.append_assoc, List.singleton_append] at q2 q3
    refine ⟨g', ?_, q2, q3⟩
    unfold Group.appendAll
    rw [h3]; exact q1

/-! ## Elements -/

theorem wrap_init {m : Mat (Fl K rnd)} (h : Mat.init m = .ok { m with isFlipped := false }) :
    (Mat.init m).map Elem.leaf = .ok (.leaf { m with isFlipped := false }) := by
  rw [h]; rfl

theorem wrap_leaf {m : Mat (Fl K rnd)} (h : Mat.init m = .ok { m with isFlipped := false }) {x : Except PyErr (Elem (Fl K rnd))}
    (hx : x = (Mat.init m).map Elem.leaf) : x = .ok (.leaf { m with isFlipped := false }) := by
  rw [hx, wrap_init h]

theorem dielectric_near (hr : Rounding rnd u) {n1 n2 : K} {R diam : Option K} (hn : n2 ≠ 0) (hR : R ≠ some 0) :
    ∃ c, dielectricC (num n1 : Fl K rnd) (num n2) (optNum R) = .ok c ∧ pyDiv (num n1 : Fl K rnd) (num n2) = .ok (num (rnd (n1 / n2))) ∧
      ∀ m : Mat (Fl K rnd), m.A = 1 → m.B = 0 → m.C = c → m.D = num (rnd (n1 / n2)) → m.L = 0 →
        NearMat u m (((Sys.interface n1 n2 (curvature R)).stage diam none).withOps 4) := by
  have e5 : Near u 1 (-(num n2 - num n1) : Fl K rnd) (-(n2 - n1)) |n2 - n1| := by
    rw [num_sub, neg_num]
    have := (near_num (rnd := rnd) u (n2 - n1)).round hr
    have := this.neg
    rwa [neg_num] at this
  obtain ⟨c, e6, e7⟩ := e5.divBy hr ((divBy_num (rnd := rnd) (u := u) hn).mul hr hR)
  obtain ⟨q', e3, e4⟩ := (near_num (rnd := rnd) u n1).divBy hr (divBy_num hn)
  have e8 := pyDiv_num hr (rnd := rnd) n1 n2 hn
  rw [e8] at e3; cases e3
  refine ⟨c, e6, e8, fun m hA hB hC hD hL => ⟨?_, ?_, ?_, ?_, ?_⟩⟩
  · rw [hA]
    simpa [Stage.withOps, Stage.abs, Sys.stage, Sys.interface] using (near_one hr).mono hr.nonneg (by omega : 0 ≤ 4) le_rfl
  · rw [hB]
    simpa [Stage.withOps, Stage.abs, Sys.stage, Sys.interface] using (near_zero hr).mono hr.nonneg (by omega : 0 ≤ 4) le_rfl
  · have e8 : -((n2 - n1) * curvature R / n2) = -(n2 - n1) * (n2⁻¹ * curvature R) := by field_simp
    have e9 : |-((n2 - n1) * curvature R / n2)| = |n2 - n1| * |n2⁻¹ * curvature R| := by rw [e8, abs_mul, abs_neg]
    simp only [Stage.withOps, Stage.abs, Sys.stage, Sys.interface]
    rw [hC, e9, e8]
    exact e7
  · simp only [Stage.withOps, Stage.abs, Sys.stage, Sys.interface]
    rw [hD, abs_div, div_eq_mul_inv n1 n2, div_eq_mul_inv |n1|, ← abs_inv, ← div_eq_mul_inv]
    rw [div_eq_mul_inv] at e4 ⊢
    exact e4.mono hr.nonneg (by omega) le_rfl
  · rw [hL]
    simpa [Stage.withOps, Stage.abs, Sys.stage, Sys.interface] using (near_zero hr).mono hr.nonneg (by omega : 0 ≤ 4) le_rfl

/-- what is proved of each part -/
def Accepted (u : K) (rnd : K → K) (p : Part K) (n n' : K) : Prop :=
  ∃ e, p.buildR rnd = .ok e ∧ (p.Tells u n → MediumElem u e p.rmat n n') ∧
    (p.IsSpace → e.isSpace = true ∧ n' = n ∧ (∃ k, e.mat.frontIndex = num k ∧ e.mat.backIndex = num k) ∧
      MediumElem u (e.setIndices (num n)) p.rmat n n')

/-- from the acceptance in air -/
theorem accepted_air (hr : Rounding rnd u) {p : Part K} (hp : p.InAir) (hroom : ∀ s ∈ p.made, s.Room u) (hs : ¬p.IsSpace) :
    Accepted u rnd p 1 1 := by
  obtain ⟨e, h1, h2, h3⟩ := buildR_accepts hr hp hroom
  refine ⟨e, h1, fun _ => ⟨buildR_mat hr h1, h2.1, h2.2, by rw [h3, div_one], fun _ => rfl, one_ne_zero, one_ne_zero⟩, fun h => absurd h hs⟩

theorem accepted_of (hr : Rounding rnd u) {p : Part K} {m : Mat (Fl K rnd)} (h1 : p.buildR rnd = .ok (.leaf m)) {n n' : K}
    (hf : m.frontIndex = num n) (hb : m.backIndex = num n') (hd : p.rmat.exact.dt = n / n') (hs : m.isIdentity = true → n = n')
    (hn : n ≠ 0 ∧ n' ≠ 0) (hp : ¬p.IsSpace) : Accepted u rnd p n n' :=
  ⟨_, h1, fun _ => ⟨buildR_mat hr h1, hf, hb, hd, hs, hn⟩, fun h => absurd h hp⟩

mutual
theorem buildR_media (hr : Rounding rnd u) : ∀ {p : Part K} {n n' : K}, p.Between u n n' → Accepted u rnd p n n'
  | .space d m diam, n, n', h => by
    unfold Part.Between at h
    obtain ⟨rfl, hn, hm, hd⟩ := h
    have h0 : 0 ≤ 1 - u := by
      have := hr.small
      have : (1 : K) / 8 < 1 := by norm_num
      linarith
    have hi := init_accepts_ratio hr (m := { (Mat.one : Mat (Fl K rnd)) with
      A := 1, B := num d, C := 0, D := 1, L := num d, frontIndex := num m, backIndex := num m,
      apertureDiameter := optNum diam, kind := .space }) rfl rfl hm (le_zeroR hr hd) (inf_openR hr) (det_simple hr rfl rfl (.inl rfl)) (by
        rw [div_self hm, hr.one, sub_self, abs_zero, mul_zero]; positivity)
    have hb := wrap_leaf hi (x := (Part.space d m diam).buildR rnd) rfl
    have hnear := buildR_mat hr hb
    have hdet : (Part.space d m diam).rmat.exact.dt = n' / n' := by
      rw [div_self hn]
      simp [Part.rmat, Part.rstages, Stage.withOps, Sys.stage, Sys.space, Stage.dt]
    refine ⟨_, hb, fun ht => ?_, fun _ => ⟨rfl, rfl, ⟨m, rfl, rfl⟩, ?_⟩⟩
    · unfold Part.Tells at ht
      subst ht
      exact ⟨hnear, rfl, rfl, hdet, fun _ => rfl, hn, hn⟩
    · exact ⟨⟨hnear.A, hnear.B, hnear.C, hnear.D, hnear.L⟩, rfl, rfl, hdet, fun _ => rfl, hn, hn⟩
  | .lens f diam, n, n', h => by
    unfold Part.Between at h
    obtain ⟨hf, rfl, rfl, hd⟩ := h
    have h0 : pyDiv (-1 : Fl K rnd) (num f) = .ok (num (rnd (-1 / f))) := by
      rw [one_num hr, neg_num, pyDiv_num hr _ _ hf]
    have hi := simple_accepts hr (m := { (Mat.one : Mat (Fl K rnd)) with
      A := 1, B := 0, C := num (rnd (-1 / f)), D := 1, L := 0, frontVertex := some 0, backVertex := some 0,
      apertureDiameter := optNum diam, kind := .lens (num f) 4 }) rfl rfl (.inr ⟨rfl, _, rfl⟩) ⟨one_num hr, one_num hr⟩ (le_zeroR hr hd)
      (inf_openR hr)
    have hb := wrap_leaf hi (x := (Part.lens f diam).buildR rnd) (by
      unfold Part.buildR Part.buildWith mkLens
      simp only [h0, bind, Except.bind])
    exact accepted_of hr hb (one_num hr) (one_num hr) (by simp [Part.rmat, Part.rstages, Stage.withOps, Sys.stage, Sys.lens, Stage.dt])
      (fun _ => rfl) ⟨one_ne_zero, one_ne_zero⟩ id
  | .mirror R diam, n, n', h => by
    unfold Part.Between at h
    obtain ⟨hf, rfl, rfl, hd⟩ := h
    have h0 : pyDiv (2 : Fl K rnd) (num R) = .ok (num (rnd (2 / R))) := by
      rw [two_num hr, pyDiv_num hr _ _ hf]
    have hi := simple_accepts hr (m := { (Mat.one : Mat (Fl K rnd)) with
      A := 1, B := 0, C := num (rnd (2 / R)), D := 1, L := 0, frontVertex := some 0, backVertex := some 0,
      apertureDiameter := optNum diam, kind := .curvedMirror }) rfl rfl (.inr ⟨rfl, _, rfl⟩) ⟨one_num hr, one_num hr⟩ (le_zeroR hr hd)
      (inf_openR hr)
    have hb := wrap_leaf hi (x := (Part.mirror R diam).buildR rnd) (by
      unfold Part.buildR Part.buildWith mkCurvedMirror
      simp only [h0, bind, Except.bind])
    exact accepted_of hr hb (one_num hr) (one_num hr) (by simp [Part.rmat, Part.rstages, Stage.withOps, Sys.stage, Sys.mirror, Stage.dt])
      (fun _ => rfl) ⟨one_ne_zero, one_ne_zero⟩ id
  | .interface n1 n2 R diam, n, n', h => by
    unfold Part.Between at h
    obtain ⟨rfl, rfl, h1, h2, hR, hd, hroom⟩ := h
    obtain ⟨c, c1, c2, c3⟩ := dielectric_near (rnd := rnd) hr (n1 := n) (diam := diam) h2 hR
    have hdet : (Part.interface n n' R diam).rmat.exact.dt = n / n' := by
      simp [Part.rmat, Part.rstages, Stage.withOps, Sys.stage, Sys.interface, Stage.dt]
    have hm := c3 { (Mat.one : Mat (Fl K rnd)) with
      A := 1, B := 0, C := c, D := num (rnd (n / n')), L := 0, frontVertex := some 0, backVertex := some 0,
      frontIndex := num n, backIndex := num n', apertureDiameter := optNum diam, kind := .dielectric (num n) (num n') (optNum R) }
      rfl rfl rfl rfl rfl
    have hi := hm.accepts_ratio hr hdet rfl rfl h2 (le_zeroR hr hd) (inf_openR hr) hroom
    have hb := wrap_leaf hi (x := (Part.interface n n' R diam).buildR rnd) (by
      unfold Part.buildR Part.buildWith mkDielectric
      simp only [c1, c2, bind, Except.bind])
    exact accepted_of hr hb rfl rfl hdet (fun h => identity_index hr (buildR_mat hr hb) h hdet hroom) ⟨h1, h2⟩ id
  | .thickLens m R1 R2 t diam, n, n', h => by
    unfold Part.Between at h
    obtain ⟨hm, hR1, hR2, rfl, rfl, hd, hroom⟩ := h
    exact accepted_air hr (by unfold Part.InAir; exact ⟨hm, hR1, hR2, hd⟩)
      (by intro s hs; simp only [Part.made, Part.rstages, List.mem_singleton] at hs; rw [hs]; exact hroom) id
  | .slab m t diam, n, n', h => by
    unfold Part.Between at h
    obtain ⟨hm, rfl, rfl, hd, hroom⟩ := h
    exact accepted_air hr (by unfold Part.InAir; exact ⟨hm, hd⟩)
      (by intro s hs; simp only [Part.made, Part.rstages, List.mem_singleton] at hs; rw [hs]; exact hroom) id
  | .aperture diam na label, n, n', h => by
    unfold Part.Between at h
    obtain ⟨rfl, rfl, hd, hna⟩ := h
    have hi := simple_accepts hr (m := { (Mat.one : Mat (Fl K rnd)) with
      apertureDiameter := optNum diam, apertureNA := optNum na, label := label, kind := .aperture }) rfl rfl (.inl rfl)
      ⟨one_num hr, one_num hr⟩ (le_zeroR hr hd) (le_zeroR hr hna)
    have hb := wrap_leaf hi (x := (Part.aperture diam na label).buildR rnd) rfl
    exact accepted_of hr hb (one_num hr) (one_num hr) (by simp [Part.rmat, Part.rstages, Stage.withOps, Sys.stage, Sys.one, Stage.dt])
      (fun _ => rfl) ⟨one_ne_zero, one_ne_zero⟩ id
  | .matrix s fv bv diam, n, n', h => by
    unfold Part.Between at h
    obtain ⟨rfl, rfl, h1, h2, hdet, hd, hroom⟩ := h
    have hm : NearMat u (genericMatWith num optNum s fv bv diam : Mat (Fl K rnd)) ((s.stage diam none).withOps 0) :=
      ⟨near_num u _, near_num u _, near_num u _, near_num u _, near_num u _⟩
    have hdet' : (Part.matrix s fv bv diam).rmat.exact.dt = s.nf / s.nb := hdet
    have hi := hm.accepts_ratio hr hdet' rfl rfl h2 (le_zeroR hr hd) (inf_openR hr) hroom
    have hb := wrap_leaf hi (x := (Part.matrix s fv bv diam).buildR rnd) rfl
    exact accepted_of hr hb rfl rfl hdet' (fun h => identity_index hr (buildR_mat hr hb) h hdet' hroom) ⟨h1, h2⟩ id
  | .group label ps, n, n', h => by
    unfold Part.Between at h
    obtain ⟨hn, h⟩ := h
    obtain ⟨es, ts, h1, h2, h3, h4, h5⟩ := buildListR_media hr h
    have hone : Reports (Group.empty label : Group (Fl K rnd)).mat n n := reports_one hr n
    obtain ⟨g, g1, g2, g3⟩ := appendAll_media hr hn h2 (g := Group.empty label) (ss := []) (.nil n) (by simp) rfl hone
      (by simp [RStage.one, Stage.dt, div_self hn]) (by simpa using h5)
    simp only [List.nil_append] at g2 g3
    rw [h4] at g2 g3
    have hb : (Part.group label ps).buildR rnd = .ok g.toElem := by
      unfold Part.buildR Part.buildWith
      rw [h1]
      simp only [Group.new, g1]; rfl
    have hnear : NearMat u g.mat (Part.group label ps).rmat := buildR_mat hr hb
    refine ⟨_, hb, fun ht => ?_, fun h => absurd h id⟩
    have hdet : (Part.group label ps).rmat.exact.dt = n / n' := by
      unfold Part.rmat
      exact g3
    obtain ⟨a, b, r1, r2, r3, r4⟩ := g2
    have hab : a = n ∧ b = n' := by
      by_cases hi : g.mat.isIdentity = true
      · obtain ⟨q1, q2, q3⟩ := r3 hi
        unfold Part.Tells at ht
        rcases ht with rfl | ht
        · have : a = 1 := by rcases q3 with h | h <;> exact h
          exact ⟨this, by rw [← q2, this, q1]⟩
        · rw [notIdentity_of hr hnear ht] at hi; cases hi
      · exact r4 (by simpa using hi)
    obtain ⟨rfl, rfl⟩ := hab
    exact ⟨hnear, r1, r2, hdet, fun hi => (r3 hi).1, hn, h3 hn⟩
theorem buildListR_media (hr : Rounding rnd u) : ∀ {ps : List (Part K)} {first : Bool} {acc : RStage K} {n0 n n' : K},
    Part.BetweenList u first acc n0 n ps n' → ∃ es ts, Part.buildListWith num optNum ps = .ok es ∧ ReadyList (rnd := rnd) u first n es ts ∧
      (n ≠ 0 → n' ≠ 0) ∧ ts.foldl linkStep (acc, n) = (Part.rmatList acc ps, n') ∧
      ∀ l, l <+: ts → l ≠ [] → (l.foldl linkStep (acc, n)).1.RoomFor u n0 (l.foldl linkStep (acc, n)).2
  | [], first, acc, n0, n, n', h => by
    unfold Part.BetweenList at h
    refine ⟨[], [], by simp [Part.buildListWith], .nil _ _, fun h' => h ▸ h', by simp [Part.rmatList, h], fun l hl hne => ?_⟩
    exact absurd (List.prefix_nil.1 hl) hne
  | p :: ps, first, acc, n0, n, n', h => by
    unfold Part.BetweenList at h
    obtain ⟨m, h1, h2, h3, h4⟩ := h
    obtain ⟨e, e1, e2, e3⟩ := buildR_media hr h1
    obtain ⟨es, ts, q1, q2, q5, q3, q4⟩ := buildListR_media hr h4
    have hm : m ≠ 0 := by
      rcases h2 with h2 | ⟨h2, h2'⟩
      · exact (e2 h2).nonzero.2
      · exact (e3 h2').2.2.2.nonzero.2
    refine ⟨e :: es, (p.rmat, m) :: ts, ?_, .cons ?_ q2, fun _ => q5 hm, ?_, ?_⟩
    · unfold Part.buildListWith
      unfold Part.buildR at e1
      rw [e1, q1]
    · rcases h2 with h2 | ⟨h2, h2'⟩
      · exact .inl (e2 h2)
      · obtain ⟨r1, r2, r3, r4⟩ := e3 h2'
        exact .inr ⟨h2, r1, r2, r3, r4⟩
    · rw [List.foldl_cons]
      unfold Part.rmatList
      exact q3
    · intro l hl hne
      cases l with
      | nil => exact absurd rfl hne
      | cons x l =>
        rw [List.cons_prefix_cons] at hl
        obtain ⟨rfl, hl⟩ := hl
        rw [List.foldl_cons]
        by_cases hnil : l = []
        · subst hnil; exact h3
        · exact q4 l hl hnil
end

end RT
