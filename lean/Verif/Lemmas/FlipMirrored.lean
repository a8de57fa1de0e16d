import Verif.Props.FlipFloat
import Verif.Spec.Mirrored
import Verif.Lemmas.RoundedBend
import Verif.Lemmas.RoundedStop

/-! # A flipped system is the mirrored program, number by number -/

set_option linter.unusedSectionVars false

namespace RT
open PyNum Ext Fl
variable {K : Type} [Field K] [LinearOrder K] [IsStrictOrderedRing K] {rnd : K → K} {u : K}

/-! ## Infinite radii -/

/-- plus or minus infinity -/
def Huge (x : Fl K rnd) : Prop := x = ⟨.pinf⟩ ∨ x = ⟨.ninf⟩

/-- a number that is not zero, or an infinity -/
def Sure (x : Fl K rnd) : Prop := (∃ r, r ≠ 0 ∧ x = num r) ∨ Huge x

/-- equal, or both infinite -/
def Alike (x y : Fl K rnd) : Prop := x = y ∨ Huge x ∧ Huge y

theorem Huge.mul {x y : Fl K rnd} (hx : Huge x) (hy : Sure y) : Huge (x * y) := by
  rcases hy with ⟨r, hr, rfl⟩ | hy
  · rcases hx with rfl | rfl
    · have : (⟨.pinf⟩ : Fl K rnd) * num r = ⟨rndE rnd (infOf r)⟩ := rfl
      rw [this]
      rcases infOf_cases (rnd := rnd) hr with h | h <;> rw [h]
      · exact .inl rfl
      · exact .inr rfl
    · have : (⟨.ninf⟩ : Fl K rnd) * num r = ⟨rndE rnd (infOf (-r))⟩ := rfl
      rw [this]
      rcases infOf_cases (rnd := rnd) (neg_ne_zero.2 hr) with h | h <;> rw [h]
      · exact .inl rfl
      · exact .inr rfl
  · rcases hx with rfl | rfl <;> rcases hy with rfl | rfl
    · exact .inl rfl
    · exact .inr rfl
    · exact .inr rfl
    · exact .inl rfl

theorem Huge.mul' {x y : Fl K rnd} (hx : Sure x) (hy : Huge y) : Huge (x * y) := by
  rcases hx with ⟨r, hr, rfl⟩ | hx
  · rcases hy with rfl | rfl
    · have : num r * (⟨.pinf⟩ : Fl K rnd) = ⟨rndE rnd (infOf r)⟩ := rfl
      rw [this]
      rcases infOf_cases (rnd := rnd) hr with h | h <;> rw [h]
      · exact .inl rfl
      · exact .inr rfl
    · have : num r * (⟨.ninf⟩ : Fl K rnd) = ⟨rndE rnd (infOf (-r))⟩ := rfl
      rw [this]
      rcases infOf_cases (rnd := rnd) (neg_ne_zero.2 hr) with h | h <;> rw [h]
      · exact .inl rfl
      · exact .inr rfl
  · exact hx.mul (.inr hy)

theorem Sure.mul (hr : Rounding rnd u) {x y : Fl K rnd} (hx : Sure x) (hy : Sure y) : Sure (x * y) := by
  rcases hx with ⟨a, ha, rfl⟩ | hx
  · rcases hy with ⟨b, hb, rfl⟩ | hy
    · refine .inl ⟨rnd (a * b), ?_, rfl⟩
      intro h
      exact mul_ne_zero ha hb (hr.eq_zero_iff.1 h)
    · exact .inr (Huge.mul' (.inl ⟨a, ha, rfl⟩) hy)
  · exact .inr (hx.mul hy)

theorem Alike.mul {x y x' y' : Fl K rnd} (h : Alike x y) (h' : Alike x' y') (sx : Sure x) (sx' : Sure x') (sy : Sure y) (sy' : Sure y') :
    Alike (x * x') (y * y') := by
  rcases h with rfl | ⟨h1, h2⟩
  · rcases h' with rfl | ⟨h3, h4⟩
    · exact .inl rfl
    · exact .inr ⟨Huge.mul' sx h3, Huge.mul' sx h4⟩
  · exact .inr ⟨h1.mul sx', h2.mul sy'⟩

theorem pyDiv_huge (hr : Rounding rnd u) {x : K} {y : Fl K rnd} (h : Huge y) : pyDiv (num x) y = .ok (num 0) := by
  rcases h with rfl | rfl
  · exact pyDiv_num_inf hr x
  · unfold pyDiv
    rw [zero_num hr]
    have e : ((⟨.ninf⟩ : Fl K rnd) ==. num 0) = false := rfl
    rw [e]
    have e2 : PyNum.rawDiv (num x : Fl K rnd) ⟨.ninf⟩ = num (rnd 0) := rfl
    simp [e2, hr.zero]

theorem Alike.div (hr : Rounding rnd u) {x : K} {y y' : Fl K rnd} (h : Alike y y') : pyDiv (num x) y = pyDiv (num x) y' := by
  rcases h with rfl | ⟨h1, h2⟩
  · rfl
  · rw [pyDiv_huge hr h1, pyDiv_huge hr h2]

theorem opt_sure {R : Option K} (h : R ≠ some 0) : Sure (optNum R : Fl K rnd) := by
  cases R with
  | none => exact .inr (.inl rfl)
  | some r => exact .inl ⟨r, by simpa using h, rfl⟩

theorem opt_neg (R : Option K) : Alike (-(optNum R : Fl K rnd)) (optNum (R.map (-·))) := by
  cases R with
  | none => exact .inr ⟨.inr rfl, .inl rfl⟩
  | some r => exact .inl rfl

theorem neg_sure {x : Fl K rnd} (h : Sure x) : Sure (-x) := by
  rcases h with ⟨r, hr, rfl⟩ | rfl | rfl
  · exact .inl ⟨-r, neg_ne_zero.2 hr, rfl⟩
  · exact .inr (.inr rfl)
  · exact .inr (.inl rfl)

section thick
variable {n t : K} {R1 R1' R2 R2' : Fl K rnd}

theorem thickA_alike (hr : Rounding rnd u) (hn : n ≠ 0) (h1 : Alike R1 R1') (s1 : Sure R1) (s1' : Sure R1') :
    thickA (num n) R1 (num t) = thickA (num n) R1' (num t) := by
  have sn : Sure (num n : Fl K rnd) := .inl ⟨n, hn, rfl⟩
  have e : pyDiv (num t * (1 - num n)) (num n * R1) = pyDiv (num t * (1 - num n)) (num n * R1') := by
    rw [one_num hr, num_sub, num_mul]
    exact (Alike.mul (.inl rfl) h1 sn s1 sn s1').div hr
  unfold thickA
  rw [e]

theorem thickD_alike (hr : Rounding rnd u) (hn : n ≠ 0) (h1 : Alike R2 R2') (s1 : Sure R2) (s1' : Sure R2') :
    thickD (num n) R2 (num t) = thickD (num n) R2' (num t) := by
  have sn : Sure (num n : Fl K rnd) := .inl ⟨n, hn, rfl⟩
  have e : pyDiv (num t * (num n - 1)) (num n * R2) = pyDiv (num t * (num n - 1)) (num n * R2') := by
    rw [one_num hr, num_sub, num_mul]
    exact (Alike.mul (.inl rfl) h1 sn s1 sn s1').div hr
  unfold thickD
  rw [e]

theorem thickC_alike (hr : Rounding rnd u) (hn : n ≠ 0) (h1 : Alike R1 R1') (s1 : Sure R1) (s1' : Sure R1') (h2 : Alike R2 R2') (s2 : Sure R2)
    (s2' : Sure R2') : thickC (num n) R1 R2 (num t) = thickC (num n) R1' R2' (num t) := by
  have sn : Sure (num n : Fl K rnd) := .inl ⟨n, hn, rfl⟩
  have a := Alike.mul (.inl rfl) h1 sn s1 sn s1'
  have b := sn.mul hr s1
  have c := sn.mul hr s1'
  have e : pyDiv (num t * (num n - 1)) (num n * R1 * R2) = pyDiv (num t * (num n - 1)) (num n * R1' * R2') := by
    rw [one_num hr, num_sub, num_mul]
    exact (a.mul h2 b s2 c s2').div hr
  have e1 : pyDiv 1 R1 = pyDiv 1 R1' := by rw [one_num hr]; exact h1.div hr
  have e2 : pyDiv 1 R2 = pyDiv 1 R2' := by rw [one_num hr]; exact h2.div hr
  unfold thickC
  rw [e, e1, e2]

end thick

/-! ## What light sees of an element -/

section look
variable {F : Type} [PyNum F]

/-- a matrix without its vertices, its class and its flag -/
def Mat.strip (m : Mat F) : Mat F := { m with frontVertex := none, backVertex := none, isFlipped := false, kind := .matrix }

mutual
/-- the same for all the matrices of an element or group -/
def Elem.strip : Elem F → Elem F
  | .leaf m => .leaf m.strip
  | .group m _ es => .group m.strip none (stripList es)
/-- of each -/
def stripList : List (Elem F) → List (Elem F)
  | [] => []
  | e :: es => e.strip :: stripList es
end

theorem stripList_map (es : List (Elem F)) : stripList es = es.map Elem.strip := by
  induction es with
  | nil => rfl
  | cons e es ih => simp [stripList, ih]

theorem strip_mat (e : Elem F) : e.strip.mat = e.mat.strip := by cases e <;> rfl

/-- matrices light sees as the same -/
theorem strip_eq {m m' : Mat F} : m'.strip = m.strip ↔ m'.A = m.A ∧ m'.B = m.B ∧ m'.C = m.C ∧ m'.D = m.D ∧ m'.L = m.L ∧ m'.frontIndex = m.frontIndex ∧
    m'.backIndex = m.backIndex ∧ m'.apertureDiameter = m.apertureDiameter ∧ m'.apertureNA = m.apertureNA ∧ m'.label = m.label := by
  cases m; cases m'
  simp [Mat.strip]

theorem init_strip {m m' p : Mat F} (h : m'.strip = m.strip) (hp : Mat.init m = .ok p) : Mat.init m' = .ok { m' with isFlipped := false } := by
  obtain ⟨h1, h2, h3, h4, -, h6, h7, h8, h9, -⟩ := strip_eq.1 h
  unfold Mat.init Mat.determinant at hp ⊢
  rw [h1, h2, h3, h4, h6, h7, h8, h9]
  simp only [bind, Except.bind, throw, throwThe, MonadExceptOf.throw, pure, Except.pure] at hp ⊢
  repeat' split at hp
  all_goals simp_all

theorem mulMatrix_strip {m m' r r' p : Mat F} (h : m'.strip = m.strip) (hr : r'.strip = r.strip) (hp : m.mulMatrix r = .ok p) :
    ∃ p', m'.mulMatrix r' = .ok p' ∧ p'.strip = p.strip := by
  have e : (m'.mulRaw r').strip = (m.mulRaw r).strip := by
    obtain ⟨h1, h2, h3, h4, h5, h6, h7, h8, h9, h10⟩ := strip_eq.1 h
    obtain ⟨k1, k2, k3, k4, k5, k6, k7, k8, k9, k10⟩ := strip_eq.1 hr
    rw [strip_eq]
    simp [Mat.mulRaw, Mat.mulFrontIndex, Mat.mulBackIndex, Mat.isIdentity, h1, h2, h3, h4, h5, h6, h7, k1, k2, k3, k4, k5, k6, k7]
  unfold Mat.mulMatrix at hp ⊢
  refine ⟨_, init_strip e hp, ?_⟩
  rw [(init_okF hp).1]
  exact e

end look

theorem transferMatrixList_strip : ∀ {es es' : List (Elem (Fl K rnd))} {acc acc' t : Mat (Fl K rnd)}, es'.map Elem.strip = es.map Elem.strip →
    acc'.strip = acc.strip → (∀ e ∈ es, ∃ l, e.mat.L = num l) → transferMatrixList es inf acc = .ok t →
    ∃ t', transferMatrixList es' inf acc' = .ok t' ∧ t'.strip = t.strip
  | [], [], acc, acc', t, _, ha, _, h => by
    simp only [transferMatrixList, Except.ok.injEq] at h ⊢
    exact ⟨_, rfl, h ▸ ha⟩
  | [], _ :: _, _, _, _, h, _, _, _ => by simp at h
  | _ :: _, [], _, _, _, h, _, _, _ => by simp at h
  | e :: es, e' :: es', acc, acc', t, hs, ha, hL, h => by
    simp only [List.map_cons, List.cons.injEq] at hs
    obtain ⟨l, hl⟩ := hL e (by simp)
    have hm : e'.mat.strip = e.mat.strip := by rw [← strip_mat, ← strip_mat, hs.1]
    have hl' : e'.mat.L = num l := (strip_eq.1 hm).2.2.2.2.1.trans hl
    unfold transferMatrixList at h ⊢
    have e0 : ((num l : Fl K rnd) ≤. inf) = true := rfl
    have e1 : (inf : Fl K rnd) - num l = inf := rfl
    rw [hl, e0, e1] at h
    rw [hl', e0, e1]
    simp only [if_true] at h ⊢
    split at h
    · simp at h
    · next p hp =>
      obtain ⟨p', hp', hpp⟩ := mulMatrix_strip hm ha hp
      rw [hp']
      exact transferMatrixList_strip hs.2 hpp (fun x hx => hL x (by simp [hx])) h

/-- in air, of finite length -/
def Calm (e : Elem (Fl K rnd)) : Prop := AirMat e.mat ∧ ∃ l, e.mat.L = num l

theorem Calm.of_strip {e e' : Elem (Fl K rnd)} (h : e'.strip = e.strip) (hc : Calm e) : Calm e' := by
  have hm : e'.mat.strip = e.mat.strip := by rw [← strip_mat, ← strip_mat, h]
  obtain ⟨-, -, -, -, h5, h6, h7, -⟩ := strip_eq.1 hm
  obtain ⟨⟨a, b⟩, l, hl⟩ := hc
  exact ⟨⟨h6.trans a, h7.trans b⟩, l, h5.trans hl⟩

theorem append_calm {g : Group (Fl K rnd)} {e : Elem (Fl K rnd)} (hg : ∀ x ∈ g.elems, Calm x) (he : Calm e) : g.append e = g.push e := by
  unfold Group.append
  cases hl : g.elems.getLast? with
  | none => rfl
  | some last =>
    have hs' := hg last (List.mem_of_getLast? hl)
    simp only [hs'.1.2, he.1.1]
    have : ((num 1 : Fl K rnd) !=. num 1) = false := by
      show (!((num 1 : Fl K rnd) ==. num 1)) = false
      rw [eq_num]; simp
    rw [this]; rfl

/-- what a group keeps whatever it contains -/
def Mat.rim (m : Mat (Fl K rnd)) : Fl K rnd × Fl K rnd × String := (m.apertureDiameter, m.apertureNA, m.label)

theorem calm_strips {es es' : List (Elem (Fl K rnd))} (h : es'.map Elem.strip = es.map Elem.strip) (hc : ∀ e ∈ es, Calm e) : ∀ e ∈ es', Calm e := by
  intro e he
  have : e.strip ∈ es.map Elem.strip := by rw [← h]; exact List.mem_map_of_mem he
  obtain ⟨x, hx, hxe⟩ := List.mem_map.1 this
  exact (hc x hx).of_strip hxe.symm

theorem append_strip {g1 g2 g2' : Group (Fl K rnd)} {e1 e2 : Elem (Fl K rnd)} (hg : g1.elems.map Elem.strip = g2.elems.map Elem.strip)
    (he : e1.strip = e2.strip) (hrim : g1.mat.rim = g2.mat.rim) (hc : ∀ x ∈ g2.elems, Calm x) (hce : Calm e2) (h : g2.append e2 = (g2', .ok ())) :
    ∃ g1', g1.append e1 = (g1', .ok ()) ∧ g1'.elems.map Elem.strip = g2'.elems.map Elem.strip ∧ g1'.mat.strip = g2'.mat.strip ∧
      g2'.elems = g2.elems ++ [e2] := by
  rw [append_calm hc hce] at h
  rw [append_calm (calm_strips hg hc) (hce.of_strip he)]
  obtain ⟨t, ht, rfl⟩ := push_ok_eqF h
  have hs : (g1.elems ++ [e1]).map Elem.strip = (g2.elems ++ [e2]).map Elem.strip := by simp [hg, he]
  obtain ⟨t', ht', htt⟩ := transferMatrixList_strip hs rfl (fun x hx => by
    rcases List.mem_append.1 hx with hx | hx
    · exact (hc x hx).2
    · rw [List.mem_singleton.1 hx]; exact hce.2) ht
  refine ⟨⟨g1.mat.refresh t', g1.cache, g1.elems ++ [e1]⟩, ?_, hs, ?_, rfl⟩
  · unfold Group.push
    simp only [ht']
  · obtain ⟨h1, h2, h3, h4, h5, h6, h7, -⟩ := strip_eq.1 htt
    simp only [Mat.rim, Prod.mk.injEq] at hrim
    rw [strip_eq]
    exact ⟨h1, h2, h3, h4, h5, h6, h7, hrim.1, hrim.2.1, hrim.2.2⟩

theorem appendAll_strip : ∀ {fs es : List (Elem (Fl K rnd))} {g1 g2 g2' : Group (Fl K rnd)}, g1.elems.map Elem.strip = g2.elems.map Elem.strip →
    fs.map Elem.strip = es.map Elem.strip → g1.mat.rim = g2.mat.rim → (es = [] → g1.mat.strip = g2.mat.strip) → (∀ x ∈ g2.elems, Calm x) →
    (∀ x ∈ es, Calm x) → g2.appendAll es = (g2', .ok ()) →
    ∃ g1', g1.appendAll fs = (g1', .ok ()) ∧ g1'.elems.map Elem.strip = g2'.elems.map Elem.strip ∧ g1'.mat.strip = g2'.mat.strip
  | [], [], g1, g2, g2', hg, _, _, hm, _, _, h => by
    simp only [Group.appendAll, Prod.mk.injEq, and_true] at h
    subst h
    exact ⟨g1, rfl, hg, hm rfl⟩
  | _ :: _, [], _, _, _, _, h, _, _, _, _, _ => by simp at h
  | [], _ :: _, _, _, _, _, h, _, _, _, _, _ => by simp at h
  | f :: fs, e :: es, g1, g2, g2', hg, hf, hrim, hm, hc, hce, h => by
    simp only [List.map_cons, List.cons.injEq] at hf
    obtain ⟨g3, h1, h2⟩ := Group.appendAll_cons_ok h
    obtain ⟨g4, h3, h4, h5, h6⟩ := append_strip hg hf.1 hrim hc (hce e (by simp)) h1
    have hrim' : g4.mat.rim = g3.mat.rim := by
      obtain ⟨-, -, -, -, -, -, -, h8, h9, h10⟩ := strip_eq.1 h5
      simp [Mat.rim, h8, h9, h10]
    obtain ⟨g1', h7, h8, h9⟩ := appendAll_strip (es := es) h4 hf.2 hrim' (fun _ => h5) (by
      rw [h6]
      intro x hx
      rcases List.mem_append.1 hx with hx | hx
      · exact hc x hx
      · rw [List.mem_singleton.1 hx]; exact hce e (by simp)) (fun x hx => hce x (by simp [hx])) h2
    refine ⟨g1', ?_, h8, h9⟩
    unfold Group.appendAll
    rw [h3]
    exact h7

/-! ## Programs -/

mutual
theorem mirrored_inAir : ∀ {p : Part K}, p.InAir → p.mirrored.InAir
  | .space .., h => h
  | .lens .., h => h
  | .mirror R diam, h => by
    unfold Part.InAir at h
    unfold Part.mirrored Part.InAir
    exact ⟨neg_ne_zero.2 h.1, h.2⟩
  | .interface .., h => h.elim
  | .thickLens n R1 R2 t diam, h => by
    unfold Part.InAir at h
    unfold Part.mirrored Part.InAir
    refine ⟨h.1, ?_, ?_, h.2.2.2⟩
    · cases R2 with
      | none => simp
      | some r => have := h.2.2.1; simpa using this
    · cases R1 with
      | none => simp
      | some r => have := h.2.1; simpa using this
  | .slab .., h => h
  | .aperture .., h => h
  | .matrix s fv bv diam, h => by
    unfold Part.InAir at h
    unfold Part.mirrored Part.InAir
    exact ⟨h.2.1, h.1, h.2.2.1, h.2.2.2⟩
  | .group label ps, h => by
    unfold Part.InAir at h
    unfold Part.mirrored Part.InAir
    exact mirroredList_inAir h
theorem mirroredList_inAir : ∀ {ps : List (Part K)}, Part.InAirList ps → Part.InAirList (Part.mirroredList ps)
  | [], _ => trivial
  | p :: ps, h => by
    unfold Part.InAirList at h
    unfold Part.mirroredList
    have h1 := mirroredList_inAir h.2
    have h2 := mirrored_inAir h.1
    generalize Part.mirroredList ps = qs at h1
    induction qs with
    | nil => exact ⟨h2, trivial⟩
    | cons q qs ih =>
      unfold Part.InAirList at h1
      exact ⟨h1.1, ih h1.2⟩
end

theorem buildListWith_append {F : Type} [PyNum F] (num : K → F) (opt : Option K → F) : ∀ {ps qs : List (Part K)} {es : List (Elem F)},
    Part.buildListWith num opt (ps ++ qs) = .ok es →
    ∃ xs ys, es = xs ++ ys ∧ Part.buildListWith num opt ps = .ok xs ∧ Part.buildListWith num opt qs = .ok ys
  | [], qs, es, h => ⟨[], es, rfl, by simp [Part.buildListWith], h⟩
  | p :: ps, qs, es, h => by
    simp only [List.cons_append] at h
    unfold Part.buildListWith at h
    split at h
    · simp at h
    · next e he =>
      split at h
      · simp at h
      · next es' hes =>
        simp only [Except.ok.injEq] at h
        subst h
        obtain ⟨xs, ys, rfl, h1, h2⟩ := buildListWith_append num opt hes
        refine ⟨e :: xs, ys, rfl, ?_, h2⟩
        unfold Part.buildListWith
        rw [he, h1]

theorem buildListWith_cons {F : Type} [PyNum F] (num : K → F) (opt : Option K → F) {p : Part K} {ps : List (Part K)} {es : List (Elem F)}
    (h : Part.buildListWith num opt (p :: ps) = .ok es) :
    ∃ e xs, es = e :: xs ∧ p.buildWith num opt = .ok e ∧ Part.buildListWith num opt ps = .ok xs := by
  unfold Part.buildListWith at h
  split at h
  · simp at h
  · next e he =>
    split at h
    · simp at h
    · next es' hes =>
      simp only [Except.ok.injEq] at h
      exact ⟨e, es', h.symm, he, hes⟩

theorem mkThickOf_all {F : Type} [PyNum F] {k : Kind F} {n R1 R2 t d : F} {m : Mat F} (h : mkThickOf k n R1 R2 t d = .ok m) :
    ∃ a b c e, thickA n R1 t = .ok a ∧ thickB n t = .ok b ∧ thickC n R1 R2 t = .ok c ∧ thickD n R2 t = .ok e ∧
      m = { (Mat.one : Mat F) with
        A := a, B := b, C := c, D := e, L := t, frontVertex := some 0, backVertex := some t, apertureDiameter := d, kind := k, isFlipped := false } := by
  unfold mkThickOf at h
  obtain ⟨a, ha, h⟩ := bind_ok h
  obtain ⟨b, hb, h⟩ := bind_ok h
  obtain ⟨c, hc, h⟩ := bind_ok h
  obtain ⟨e, he, h⟩ := bind_ok h
  obtain ⟨rfl, -⟩ := init_okF h
  exact ⟨a, b, c, e, ha, hb, hc, he, rfl⟩

theorem flip_plainF {F : Type} [PyNum F] {m : Mat F} (h : m.kind = .space ∨ m.kind = .matrix ∨ m.kind = .aperture ∨ (∃ f x, m.kind = .lens f x)) :
    (Elem.leaf m).flip = (.leaf m.flipBase, .ok ()) := by
  have : m.flip = (m.flipBase, .ok ()) := by
    unfold Mat.flip
    rcases h with h | h | h | ⟨f, x, h⟩ <;> rw [h]
  unfold Elem.flip
  rw [this]

mutual
/-- in air, the flipped system is the one of the mirrored program as far as light is concerned -/
theorem mirrored_flip (hr : Rounding rnd u) (hodd : ∀ x, rnd (-x) = -rnd x) : ∀ {p : Part K} {e e2 : Elem (Fl K rnd)}, p.InAir →
    p.buildR rnd = .ok e → p.mirrored.buildR rnd = .ok e2 → ∃ f, e.flip = (f, .ok ()) ∧ f.strip = e2.strip
  | .space d n diam, e, e2, ha, hb, hb2 => by
    unfold Part.mirrored at hb2
    rw [hb] at hb2; cases hb2
    unfold Part.buildR Part.buildWith at hb
    obtain ⟨m, h1, rfl⟩ := Except.map_ok hb
    unfold mkSpace at h1
    obtain ⟨rfl, -⟩ := init_okF h1
    exact ⟨_, flip_plainF (.inl rfl), rfl⟩
  | .lens f diam, e, e2, ha, hb, hb2 => by
    unfold Part.mirrored at hb2
    rw [hb] at hb2; cases hb2
    unfold Part.buildR Part.buildWith mkLens at hb
    obtain ⟨m, h1, rfl⟩ := Except.map_ok hb
    obtain ⟨c, -, h1⟩ := bind_ok h1
    obtain ⟨rfl, -⟩ := init_okF h1
    exact ⟨_, flip_plainF (.inr (.inr (.inr ⟨_, _, rfl⟩))), rfl⟩
  | .mirror R diam, e, e2, ha, hb, hb2 => by
    unfold Part.mirrored at hb2
    unfold Part.buildR Part.buildWith mkCurvedMirror at hb hb2
    obtain ⟨m, h1, rfl⟩ := Except.map_ok hb
    obtain ⟨m2, h2, rfl⟩ := Except.map_ok hb2
    obtain ⟨c, hc, h1⟩ := bind_ok h1
    obtain ⟨c2, hc2, h2⟩ := bind_ok h2
    obtain ⟨rfl, -⟩ := init_okF h1
    obtain ⟨rfl, -⟩ := init_okF h2
    rw [two_num hr, pyDiv_num hr _ _ ha.1] at hc
    rw [two_num hr, pyDiv_num hr _ _ (neg_ne_zero.2 ha.1)] at hc2
    cases hc; cases hc2
    refine ⟨_, rfl, ?_⟩
    unfold Elem.strip
    congr 1
    rw [strip_eq]
    refine ⟨rfl, rfl, ?_, rfl, rfl, rfl, rfl, rfl, rfl, rfl⟩
    show -(num _) = num _
    rw [neg_num, ← hodd, div_neg]
  | .interface .., e, e2, ha, hb, hb2 => ha.elim
  | .thickLens n R1 R2 t diam, e, e2, ha, hb, hb2 => by
    unfold Part.mirrored at hb2
    unfold Part.buildR Part.buildWith mkThickLens at hb hb2
    obtain ⟨m, h1, rfl⟩ := Except.map_ok hb
    obtain ⟨m2, h2, rfl⟩ := Except.map_ok hb2
    obtain ⟨a, b, c, d, -, -, -, -, hm⟩ := mkThickOf_all h1
    obtain ⟨a2, b2, c2, d2, ha2, hb2, hc2, hd2, hm2⟩ := mkThickOf_all h2
    unfold Part.InAir at ha
    have s1 := opt_sure (rnd := rnd) ha.2.1
    have s2 := opt_sure (rnd := rnd) ha.2.2.1
    have s1' : Sure (optNum (R1.map (-·)) : Fl K rnd) := opt_sure (by cases R1 with | none => simp | some r => have := ha.2.1; simpa using this)
    have s2' : Sure (optNum (R2.map (-·)) : Fl K rnd) := opt_sure (by cases R2 with | none => simp | some r => have := ha.2.2.1; simpa using this)
    rw [← thickA_alike hr ha.1 (opt_neg R2) (neg_sure s2) s2'] at ha2
    rw [← thickD_alike hr ha.1 (opt_neg R1) (neg_sure s1) s1'] at hd2
    rw [← thickC_alike hr ha.1 (opt_neg R2) (neg_sure s2) s2' (opt_neg R1) (neg_sure s1) s1'] at hc2
    have hk : m.kind = .thickLens (num n) (optNum R1) (optNum R2) := by rw [hm]
    have hL : m.flipBase.L = num t := by rw [hm]; rfl
    have key := flipThick_of (k := .thickLens (num n) (-(optNum R2)) (-(optNum R1))) (m := m.flipBase) (by rw [hL]; exact ha2) (by rw [hL]; exact hb2)
      (by rw [hL]; exact hc2) (by rw [hL]; exact hd2)
    have fl : m.flip = Mat.flip.flipThick (.thickLens (num n) (-(optNum R2)) (-(optNum R1))) m.flipBase (num n) (-(optNum R2)) (-(optNum R1)) := by
      unfold Mat.flip; rw [hk]
    rw [key] at fl
    refine ⟨.leaf m.flip.1, by unfold Elem.flip; rw [fl], ?_⟩
    rw [fl, hm, hm2]
    rfl
  | .slab n t diam, e, e2, ha, hb, hb2 => by
    unfold Part.mirrored at hb2
    rw [hb] at hb2; cases hb2
    unfold Part.buildR Part.buildWith mkSlab at hb
    obtain ⟨m, h1, rfl⟩ := Except.map_ok hb
    obtain ⟨a2, b2, c2, d2, ha2, hb2, hc2, hd2, hm⟩ := mkThickOf_all h1
    have hk : m.kind = .slab (num n) (optNum none) (optNum none) := by rw [hm]; rfl
    have hL : m.flipBase.L = num t := by rw [hm]; rfl
    unfold Part.InAir at ha
    have s1 := opt_sure (rnd := rnd) (R := (none : Option K)) (by simp)
    have o : Alike (-(optNum none : Fl K rnd)) (optNum none) := opt_neg (rnd := rnd) (none : Option K)
    have e0 : (inf : Fl K rnd) = optNum none := rfl
    rw [e0] at ha2 hc2 hd2
    rw [← thickA_alike hr ha.1 o (neg_sure s1) s1] at ha2
    rw [← thickD_alike hr ha.1 o (neg_sure s1) s1] at hd2
    rw [← thickC_alike hr ha.1 o (neg_sure s1) s1 o (neg_sure s1) s1] at hc2
    have key := flipThick_of (k := .slab (num n) (-(optNum none)) (-(optNum none))) (m := m.flipBase) (by rw [hL]; exact ha2) (by rw [hL]; exact hb2)
      (by rw [hL]; exact hc2) (by rw [hL]; exact hd2)
    have fl : m.flip = Mat.flip.flipThick (.slab (num n) (-(optNum none)) (-(optNum none))) m.flipBase (num n) (-(optNum none)) (-(optNum none)) := by
      unfold Mat.flip; rw [hk]
    rw [key] at fl
    refine ⟨.leaf m.flip.1, by unfold Elem.flip; rw [fl], ?_⟩
    rw [fl, hm]
    rfl
  | .aperture diam na label, e, e2, ha, hb, hb2 => by
    unfold Part.mirrored at hb2
    rw [hb] at hb2; cases hb2
    unfold Part.buildR Part.buildWith mkAperture at hb
    obtain ⟨m, h1, rfl⟩ := Except.map_ok hb
    obtain ⟨rfl, -⟩ := init_okF h1
    exact ⟨_, flip_plainF (.inr (.inr (.inl rfl))), rfl⟩
  | .matrix s fv bv diam, e, e2, ha, hb, hb2 => by
    unfold Part.mirrored at hb2
    unfold Part.buildR Part.buildWith at hb hb2
    obtain ⟨m, h1, rfl⟩ := Except.map_ok hb
    obtain ⟨m2, h2, rfl⟩ := Except.map_ok hb2
    obtain ⟨rfl, -⟩ := init_okF h1
    obtain ⟨rfl, -⟩ := init_okF h2
    exact ⟨_, flip_plainF (.inr (.inl rfl)), rfl⟩
  | .group label ps, e, e2, ha, hb, hb2 => by
    unfold Part.mirrored at hb2
    have hk := buildWith_kept num optNum hb
    unfold Part.buildR Part.buildWith at hb hb2
    split at hb
    · simp at hb
    · next es hes =>
      split at hb2
      · simp at hb2
      · next es2 hes2 =>
        obtain ⟨g, hnew, rfl⟩ := Except.map_ok hb
        obtain ⟨g2, hnew2, rfl⟩ := Except.map_ok hb2
        unfold Part.InAir at ha
        obtain ⟨fs, h1, h2⟩ := mirroredList_flip hr hodd ha hes hes2
        have hc := buildListR_airy hr ha hes
        have hc2 := buildListR_airy hr (mirroredList_inAir ha) hes2
        obtain ⟨q1, -⟩ := appendAll_air hr (fun e he => ⟨(hc e he).1.1, (hc e he).2⟩) (g := Group.empty label) (by simp [Group.empty])
          ⟨one_num hr, one_num hr⟩ (Group.new_eq hnew)
        have q1' : g.elems = es := by rw [q1]; simp [Group.empty]
        have hrim : g.mat.rim = (Group.empty label : Group (Fl K rnd)).mat.rim := by
          have key : ∀ (l : List (Elem (Fl K rnd))) (h h' : Group (Fl K rnd)), h.appendAll l = (h', .ok ()) → h'.mat.rim = h.mat.rim := by
            intro l
            induction l with
            | nil =>
              intro h h' hh
              simp only [Group.appendAll, Prod.mk.injEq, and_true] at hh
              rw [hh]
            | cons x xs ih =>
              intro h h' hh
              obtain ⟨g3, k1, k2⟩ := Group.appendAll_cons_ok hh
              obtain ⟨e', t, -, rfl, -⟩ := append_okF k1
              rw [ih _ _ k2]
              rfl
          exact key _ _ _ (Group.new_eq hnew)
        have hk' : g.mat.kind = .group := by
          unfold Group.toElem Elem.Kept at hk
          exact hk.2.2.2
        obtain ⟨g1, h3, h4, h5⟩ := appendAll_strip (fs := fs) (g1 := { mat := { g.mat with isFlipped := !g.mat.isFlipped }, cache := g.cache, elems := [] })
          (g2 := Group.empty label) (by simp [Group.empty]) h2 hrim (by
            intro he2
            subst he2
            have : fs = [] := by simpa using h2
            subst this
            have hes0 : es = [] := by simpa using h1
            subst hes0
            have := Group.new_eq hnew
            simp only [Group.appendAll, Prod.mk.injEq, and_true] at this
            rw [← this]
            rfl) (by simp [Group.empty]) (fun x hx => ⟨(hc2 x hx).1.1, (hc2 x hx).2⟩) (Group.new_eq hnew2)
        refine ⟨.group g1.mat g1.cache g1.elems, ?_, ?_⟩
        · unfold Group.toElem
          rw [flip_groupF hk']
          refine ⟨g1, ?_, rfl⟩
          rw [q1', h1, appendFlipped_appendAll rfl]
          exact h3
        · unfold Group.toElem Elem.strip
          rw [stripList_map, stripList_map, h4, h5]
theorem mirroredList_flip (hr : Rounding rnd u) (hodd : ∀ x, rnd (-x) = -rnd x) : ∀ {ps : List (Part K)} {es es2 : List (Elem (Fl K rnd))},
    Part.InAirList ps → Part.buildListWith num optNum ps = .ok es → Part.buildListWith num optNum (Part.mirroredList ps) = .ok es2 →
    ∃ fs : List (Elem (Fl K rnd)), es.reverse.map Elem.flip = fs.map (fun f => (f, .ok ())) ∧ fs.map Elem.strip = es2.map Elem.strip
  | [], es, es2, _, hb, hb2 => by
    simp only [Part.buildListWith, Except.ok.injEq] at hb
    simp only [Part.mirroredList, Part.buildListWith, Except.ok.injEq] at hb2
    subst hb hb2
    exact ⟨[], rfl, rfl⟩
  | p :: ps, es, es2, ha, hb, hb2 => by
    unfold Part.InAirList at ha
    obtain ⟨e, es', rfl, he, hes⟩ := buildListWith_cons _ _ hb
    unfold Part.mirroredList at hb2
    obtain ⟨xs, ys, rfl, hx, hy⟩ := buildListWith_append _ _ hb2
    obtain ⟨e2, zs, rfl, he2, hz⟩ := buildListWith_cons _ _ hy
    simp only [Part.buildListWith, Except.ok.injEq] at hz
    subst hz
    obtain ⟨f, h1, h2⟩ := mirrored_flip hr hodd ha.1 he he2
    obtain ⟨fs, h3, h4⟩ := mirroredList_flip hr hodd ha.2 hes hx
    exact ⟨fs ++ [f], by simp [h3, h1], by simp [h4, h2]⟩
end

end RT
