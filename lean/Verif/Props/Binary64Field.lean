import Verif.Lemmas.Binary64Search
import Verif.Lemmas.Binary64Accept
import Verif.Props.Imaging

/-! # C33 in Python floats: small fields

In exact numbers the search for a field below 37.5 times the precision never ends (`C33_diverges_violated`). Python floats are bounded, so that the height
overflows after about 1800 turns. What happens then is found here: either the search still never ends, or it reports that there is no field stop and that the field
is infinite. -/

set_option linter.unusedSectionVars false

namespace RT
open PyNum Ext B64

/-- The chief ray from the height `y` exists, and is blocked at the end of its trace or not. -/
def ChiefEnds (g : Group B64) (y : B64) (blocked : Bool) : Prop :=
  ∃ r out, (g.chiefRay y).run (newTrace g) = .ok (some r) ∧ (newTrace g r.y r.theta).getLast? = some out ∧ out.isBlocked = blocked

/-- There is an aperture stop, not at the object. -/
def StopAway (g : Group B64) : Prop := ∃ z D, g.apertureStop.run (newTrace g) = .ok (some z, D) ∧ (z ==. 0) = false

theorem chief64_all {g : Group B64} {r : Ray B64} (h : (g.chiefRay 0).run (newTrace g) = .ok (some r)) :
    ∃ ang : B64 → B64, ∀ y, (g.chiefRay y).run (newTrace g) = .ok (some (Ray.new y (ang y))) := by
  unfold Group.chiefRay at h ⊢
  simp only [Prog.run_bind] at h ⊢
  cases ht : g.toStop.run (newTrace g) with
  | error e => rw [ht] at h; simp at h
  | ok o =>
    rw [ht] at h
    cases o with
    | none => simp [Prog.run_pure] at h
    | some md =>
      obtain ⟨m, d⟩ := md
      refine ⟨fun y => rawDiv (-m.A * y) m.B, fun y => ?_⟩
      dsimp only at h ⊢
      rw [Prog.run_bind, Prog.run_lift] at h ⊢
      unfold RT.pyDiv at h ⊢
      split_ifs at h ⊢
      rfl

theorem lastV_ends {g : Group B64} {ang : B64 → B64} (hch : ∀ y, (g.chiefRay y).run (newTrace g) = .ok (some (Ray.new y (ang y))))
    (y : B64) (b : Bool) : ChiefEnds g y b ↔ (lastV g.toElem.items (Ray.new y (ang y))).isBlocked = b := by
  unfold lastV
  constructor
  · rintro ⟨r, out, h1, h2, h3⟩
    rw [hch] at h1
    obtain rfl : Ray.new y (ang y) = r := by simpa using h1
    change (traceV g.toElem.items (Ray.new y (ang y))).getLast? = some out at h2
    rw [h2]; exact h3
  · intro h
    refine ⟨_, _, hch y, ?_, h⟩
    change (traceV g.toElem.items (Ray.new y (ang y))).getLast? = _
    cases hx : (traceV g.toElem.items (Ray.new y (ang y))).getLast? with
    | some o => rfl
    | none =>
      exfalso
      rw [List.getLast?_eq_none_iff] at hx
      change runTrace (.dup :: itemsList g.elems) _ = [] at hx
      simp [runTrace] at hx

/-- **C33** is violated in Python floats too by every path whose chief rays are blocked at all heights from 37 times the precision to twice the maximal height (and
not on the axis). Either `fieldStop()`, `halfFieldOfView()` and `fieldOfView()` do not return, whatever the number of turns; or they return that there is no field stop
and that the field is infinite. The latter is the case when the chief ray from minus infinity, whose height becomes `nan`, is not blocked. -/
theorem C33_python_violated {g : Group B64} (hs : StopAway g) {p H : ℚ} (hp : tiny ≤ p) (hp' : p ≤ huge / 1000) (hH : 151 * p ≤ H)
    (h0 : ChiefEnds g 0 false) (hblk : ∀ y, Flt y → 37 * p ≤ |y| → |y| < 2 * H → ChiefEnds g (num y) true) :
    (ChiefEnds g ninf64 true ∧ ∀ fuel, (g.fieldStop (num p) (num H) fuel).run (newTrace g) = .error .nonTermination ∧
      (g.halfFieldOfView (num p) (num H) fuel).run (newTrace g) = .error .nonTermination ∧
      (g.fieldOfView (num p) (num H) fuel).run (newTrace g) = .error .nonTermination) ∨
    ((ChiefEnds g ninf64 false ∨ ∃ a, Flt a ∧ 2 * H ≤ a ∧ ChiefEnds g (num (-a)) false) ∧
      ∃ N, ∀ fuel, N ≤ fuel → (g.fieldStop (num p) (num H) fuel).run (newTrace g) = .ok (none, inf) ∧
        (g.halfFieldOfView (num p) (num H) fuel).run (newTrace g) = .ok inf ∧
        (g.fieldOfView (num p) (num H) fuel).run (newTrace g) = .ok inf) := by
  obtain ⟨r0, out0, c0, c1, c2⟩ := id h0
  obtain ⟨ang, hch⟩ := chief64_all c0
  obtain ⟨z, D, s1, s2⟩ := hs
  have hf : hasFiniteApertureList g.elems = true := by
    by_contra hn
    unfold Group.apertureStop at s1
    rw [if_neg hn] at s1
    simp [Prog.run_pure] at s1
  have e1 : (hasFiniteApertureList g.elems && (z !=. (0 : B64))) = true := by rw [hf, s2]; rfl
  have hfs : ∀ fuel, (g.fieldStop (num p) (num H) fuel).run (newTrace g) =
      match (g.fieldStopLoop (num p) (num H) fuel 0 (num p * 100) false []).run (newTrace g) with
      | .error e => .error e
      | .ok none => .ok (none, inf)
      | .ok (some t) => .ok (Group.firstBlocked t) := by
    intro fuel
    unfold Group.fieldStop
    rw [Prog.run_bind, s1]
    dsimp only
    refine (congrArg (Prog.run _) (if_pos e1)).trans ?_
    rw [Prog.run_bind]
    rcases (g.fieldStopLoop (num p) (num H) fuel 0 (num p * 100) false []).run (newTrace g) with e | (_ | t) <;> rfl
  have hl := loop_small hch (blk := fun y => (lastV g.toElem.items (Ray.new y (ang y))).isBlocked) (fun y => rfl) hp hp' hH
    ((lastV_ends hch _ _).1 (by rw [← zero64]; exact h0)) (fun y a b c => (lastV_ends hch _ _).1 (hblk y a b c)) []
  rcases hl with ⟨q1, q2⟩ | ⟨q1, N, q2⟩
  · left
    refine ⟨(lastV_ends hch _ _).2 q1, fun fuel => ?_⟩
    have f1 := hfs fuel
    beta_reduce at q2
    rw [q2] at f1
    have f2 : (g.halfFieldOfView (num p) (num H) fuel).run (newTrace g) = .error .nonTermination := by
      unfold Group.halfFieldOfView
      rw [Prog.run_bind, f1]
    refine ⟨f1, f2, ?_⟩
    unfold Group.fieldOfView
    rw [Prog.run_bind, f2]
  · right
    constructor
    · rcases q1 with q1 | ⟨a, ha, h1, h2⟩
      · exact .inl ((lastV_ends hch _ _).2 q1)
      · refine .inr ⟨a, ha, ?_, (lastV_ends hch _ _).2 h2⟩
        by_contra hlt
        have hpos : 0 < a := by have := tiny_pos; linarith
        have := (lastV_ends hch _ _).1 (hblk (-a) ha.neg (by rw [abs_neg, _root_.abs_of_pos hpos]; exact h1)
          (by rw [abs_neg, _root_.abs_of_pos hpos]; exact not_le.1 hlt))
        beta_reduce at h2
        rw [this] at h2
        exact absurd h2 (by simp)
    · refine ⟨N, fun fuel hf => ?_⟩
      have f1 := hfs fuel
      beta_reduce at q2
      rw [q2 fuel hf] at f1
      have f2 : (g.halfFieldOfView (num p) (num H) fuel).run (newTrace g) = .ok inf := by
        unfold Group.halfFieldOfView
        rw [Prog.run_bind, f1]
        rfl
      refine ⟨f1, f2, ?_⟩
      unfold Group.fieldOfView
      rw [Prog.run_bind, f2]
      dsimp only
      rw [Prog.run_pure, show (2 * inf : B64) = inf by decide +kernel]

theorem first_blocks {g : Group B64} {r : Ray B64} (h : (g.chiefRay 0).run (newTrace g) = .ok (some r)) {m : Mat B64} {es : List (Elem B64)}
    (hg : g.elems = .leaf m :: es) {y : B64} (hy : (half m.apertureDiameter <. PyNum.abs y) = true) : ChiefEnds g y true := by
  obtain ⟨ang, hch⟩ := chief64_all h
  rw [lastV_ends hch]
  unfold lastV traceV
  have hi : g.toElem.items = .dup :: .leaf m :: itemsList es := by
    change Item.dup :: itemsList g.elems = _
    rw [hg]; rfl
  rw [hi]
  generalize hr : settle (.dup :: .leaf m :: itemsList es) (Ray.new y (ang y)) = s
  have hsy : s.y = y := by rw [← hr]; rfl
  have hb : (if s.isBlocked then s else settle (itemsList es) (m.mulRayBase s)).isBlocked = true := by
    split_ifs with hs
    · exact hs
    · unfold settle Mat.mulRayBase
      have : m.stops s = true := by unfold Mat.stops; rw [hsy, hy]; rfl
      rw [if_neg hs]
      simp [this]
  have hl := last_of_blocked (itemsList es) hb
  simp only [runTrace]
  set t := (if s.isBlocked then s else settle (itemsList es) (m.mulRayBase s)) with ht
  rw [← List.cons_append, List.getLast?_append, List.getLast?_cons]
  simpa using hl

/-- **C33** is violated in Python floats by every path that begins with an element with a diameter of at most 73 times the precision (an opening of the field at the
object): the searches never return. -/
theorem C33_python_first_violated {g : Group B64} (hs : StopAway g) {p H : ℚ} (hp : tiny ≤ p) (hp' : p ≤ huge / 1000) (hH : 151 * p ≤ H)
    (h0 : ChiefEnds g 0 false) {m : Mat B64} {es : List (Elem B64)} (hg : g.elems = .leaf m :: es) {D : ℚ} (hD : m.apertureDiameter = num D)
    (hDp : 0 ≤ D ∧ D ≤ 73 * p) (fuel : Nat) :
    (g.fieldStop (num p) (num H) fuel).run (newTrace g) = .error .nonTermination ∧
    (g.halfFieldOfView (num p) (num H) fuel).run (newTrace g) = .error .nonTermination ∧
    (g.fieldOfView (num p) (num H) fuel).run (newTrace g) = .error .nonTermination := by
  obtain ⟨r0, out0, c0, -⟩ := id h0
  have htp := tiny_pos
  have k1 : half m.apertureDiameter = num (round64 (D / 2)) ∧ round64 (D / 2) < 37 * p := by
    have a2 := round64_coarse (x := 366 / 10 * p) (by linarith)
    have a3 := flt_of_bound (x := D / 2) (b := round64 (366 / 10 * p)) (by linarith) (by linarith) (flt_of_normal (by linarith) (by linarith))
    rw [hD, half_num64, double64_small le_rfl a3.1.2]
    exact ⟨rfl, by linarith [a3.2.1]⟩
  have all : ∀ y : ℚ, 37 * p ≤ |y| → ChiefEnds g (num y) true := by
    intro y hy
    refine first_blocks c0 hg ?_
    rw [k1.1, abs_num64, lt_num64]
    exact decide_eq_true (by linarith [k1.2])
  have hn : ChiefEnds g ninf64 true := by
    refine first_blocks c0 hg ?_
    rw [k1.1]; rfl
  have excl : ∀ y, ChiefEnds g y true → ¬ ChiefEnds g y false := by
    obtain ⟨ang, hch⟩ := chief64_all c0
    intro y h1 h2
    rw [lastV_ends hch] at h1 h2
    rw [h1] at h2
    exact absurd h2 (by simp)
  rcases C33_python_violated hs hp hp' hH h0 (fun y _ h _ => all y h) with ⟨-, q⟩ | ⟨q | ⟨a, -, h1, h2⟩, -⟩
  · exact q fuel
  · exact absurd q (excl _ hn)
  · refine absurd h2 (excl _ (all _ ?_))
    rw [abs_neg, _root_.abs_of_pos (by linarith)]
    linarith

/-- the path built by a program in Python floats, and something computed on it -/
def with64 {α : Type} (q : Part ℚ) (f : Group B64 → α) : Except PyErr α :=
  match q.build64 with
  | .ok (.group m c es) => .ok (f ⟨m, c, es⟩)
  | .ok (.leaf _) => .error .typeError
  | .error x => .error x

theorem with64_ok {α : Type} {q : Part ℚ} {f : Group B64 → α} {v : α} (h : with64 q f = .ok v) :
    ∃ g : Group B64, q.build64 = .ok g.toElem ∧ f g = v := by
  unfold with64 at h
  split at h
  · next m c es he => exact ⟨⟨m, c, es⟩, he, by simpa using h⟩
  · simp at h
  · simp at h

/-- the chief ray from the height `y` ends blocked or not, as a computation -/
def chiefEndsB (g : Group B64) (y : B64) : Option Bool :=
  match (g.chiefRay y).run (newTrace g) with
  | .ok (some r) => (newTrace g r.y r.theta).getLast?.map (·.isBlocked)
  | _ => none

theorem chiefEndsB_iff {g : Group B64} {y : B64} {b : Bool} (h : chiefEndsB g y = some b) : ChiefEnds g y b := by
  unfold chiefEndsB at h
  split at h
  · next r hr =>
    rw [Option.map_eq_some_iff] at h
    obtain ⟨o, h1, h2⟩ := h
    exact ⟨r, o, hr, h1, h2⟩
  · simp at h

/-- the precision of a new `ImagingPath` -/
def p64 : ℚ := round64 (1 / 1000000)

theorem p64_facts : (lit (1 / 1000000) : B64) = num p64 ∧ tiny ≤ p64 ∧ p64 ≤ huge / 1000 ∧ 999 / 1000000000 ≤ p64 ∧ p64 ≤ 1001 / 1000000000 := by
  have h1 := tiny_small
  have h2 := round64_coarse h1
  have h3 := huge_large
  have h4 : Flt (round64 (1 / 1000000)) := flt_of_normal h1 (by linarith)
  refine ⟨?_, ?_, ?_, ?_, ?_⟩
  · change (⟨double64 (1 / 1000000)⟩ : B64) = _
    rw [double64_small le_rfl h4.2]; rfl
  · have h5 : tiny ≤ 1 / 4000000 := by
      unfold tiny; rw [pow2_eq]
      calc (2 : ℚ) ^ (-1022 : Int) ≤ 2 ^ (-22 : Int) := zpow_le_zpow_right₀ (by norm_num) (by norm_num)
        _ ≤ _ := by norm_num
    unfold p64; linarith
  · unfold p64; linarith
  · unfold p64; linarith
  · unfold p64; linarith

/-- an opening of 7.6·10⁻⁶ at the object, and a stop of 10⁻⁶ at the distance 8 -/
def pinholes : Part ℚ := .group "" [.aperture (some (1 / 131072)) none "", .space 8 1 none, .aperture (some (1 / 1048576)) none "", .space 8 1 none]

/-- The hypotheses of `C33_python_first_violated` are met with the settings of a new `ImagingPath`. -/
theorem C33_python_never_violated : ∃ g : Group B64, pinholes.build64 = .ok g.toElem ∧ ∀ fuel,
    (g.fieldStop (lit (1 / 1000000)) 10000 fuel).run (newTrace g) = .error .nonTermination ∧
    (g.fieldOfView (lit (1 / 1000000)) 10000 fuel).run (newTrace g) = .error .nonTermination := by
  have h1 : with64 pinholes (fun g => (g.apertureStop.run (newTrace g), chiefEndsB g 0, g.elems.head?.map fun e => match e with | .leaf m => some m.apertureDiameter | _ => none)) =
      .ok (.ok (some (num 8), num (1 / 1048576)), some false, some (some (num (1 / 131072)))) := by decide +kernel
  obtain ⟨g, hb, h2⟩ := with64_ok h1
  simp only [Prod.mk.injEq] at h2
  obtain ⟨a1, a2, a3⟩ := h2
  obtain ⟨b1, b2, b3, b4, b5⟩ := p64_facts
  refine ⟨g, hb, fun fuel => ?_⟩
  rw [b1, show (10000 : B64) = num 10000 by decide +kernel]
  cases hg : g.elems with
  | nil => rw [hg] at a3; simp at a3
  | cons e es =>
    rw [hg] at a3
    cases e with
    | group => simp at a3
    | leaf m =>
      have hm : m.apertureDiameter = num (1 / 131072) := by simpa using a3
      obtain ⟨q1, -, q3⟩ := C33_python_first_violated ⟨_, _, a1, by decide +kernel⟩ b2 b3 (H := 10000) (by linarith) (chiefEndsB_iff a2) hg hm
        ⟨by norm_num, by norm_num; linarith⟩ fuel
      exact ⟨q1, q3⟩

/-- a lens with an opening of 7.6·10⁻⁶ against it, and a stop of 10⁻⁶ in its focal plane -/
def telecentric : Part ℚ := .group "" [.lens 8 none, .aperture (some (1 / 131072)) none "", .space 8 1 none, .aperture (some (1 / 1048576)) none "", .space 8 1 none]

theorem contact_blocks {g : Group B64} {m0 : Mat B64} {d0 : B64} (ht : g.toStop.run (newTrace g) = .ok (some (m0, d0))) (hA : m0.A = num 0) (hB : m0.B = num 8)
    {m m' : Mat B64} {es : List (Elem B64)} (hg : g.elems = .leaf m :: .leaf m' :: es) (hmA : m.A = num 1) (hmB : m.B = num 0) {y : ℚ} (hyF : Flt y)
    (hy : (half m'.apertureDiameter <. num |y|) = true) : ChiefEnds g (num y) true := by
  have hc : (g.chiefRay (num y)).run (newTrace g) = .ok (some (Ray.new (num y) (num 0))) := by
    unfold Group.chiefRay
    rw [Prog.run_bind, ht]
    dsimp only
    rw [Prog.run_bind, Prog.run_lift, hA, hB]
    have : RT.pyDiv (-num 0 * num y) (num 8) = .ok (num 0) := by
      rw [neg_num64, mul_num64, neg_zero, zero_mul]
      decide +kernel
    rw [this]; rfl
  have hch : ∃ ang : B64 → B64, (∀ y, (g.chiefRay y).run (newTrace g) = .ok (some (Ray.new y (ang y)))) ∧ ang (num y) = num 0 := by
    have h0 : (g.chiefRay 0).run (newTrace g) = .ok (some (Ray.new 0 (num 0))) := by
      unfold Group.chiefRay
      rw [Prog.run_bind, ht]
      dsimp only
      rw [Prog.run_bind, Prog.run_lift, hA, hB, show RT.pyDiv (-num 0 * (0 : B64)) (num 8) = .ok (num 0) by decide +kernel]
      rfl
    obtain ⟨ang, hang⟩ := chief64_all h0
    refine ⟨ang, hang, ?_⟩
    rw [hang] at hc
    simp only [Except.ok.injEq, Option.some.injEq] at hc
    exact congrArg Ray.theta hc
  obtain ⟨ang, hch, hθ⟩ := hch
  rw [lastV_ends hch, hθ]
  unfold lastV traceV
  have hi : g.toElem.items = .dup :: .leaf m :: .leaf m' :: itemsList es := by
    change Item.dup :: itemsList g.elems = _
    rw [hg]; rfl
  rw [hi]
  generalize hr : settle (.dup :: .leaf m :: .leaf m' :: itemsList es) (Ray.new (num y) (num 0)) = s
  have hsy : s.y = num y := by rw [← hr]; rfl
  have hsθ : s.theta = num 0 := by rw [← hr]; rfl
  generalize ht1 : (if s.isBlocked then s else settle (.leaf m' :: itemsList es) (m.mulRayBase s)) = t1
  generalize ht2 : (if t1.isBlocked then t1 else settle (itemsList es) (m'.mulRayBase t1)) = t2
  have hy1 : t1.y = num y := by
    rw [← ht1]
    split_ifs with hs
    · exact hsy
    · unfold settle Mat.mulRayBase
      rw [if_neg hs]
      dsimp only
      rw [hmA, hmB, hsy, hsθ, mul_num64, mul_num64, one_mul, zero_mul, hyF.double, show double64 0 = .fin 0 by decide +kernel]
      change num y + num 0 = _
      rw [add_num64, add_zero, hyF.double]; rfl
  have hb : t2.isBlocked = true := by
    rw [← ht2]
    split_ifs with hs
    · exact hs
    · unfold settle Mat.mulRayBase
      have : m'.stops t1 = true := by unfold Mat.stops; rw [hy1, abs_num64, hy]; rfl
      rw [if_neg hs]
      simp [this]
  have hl := last_of_blocked (itemsList es) hb
  simp only [runTrace, ht1, ht2]
  rw [show ∀ (a b c : List (Ray B64)) , s :: (a ++ t1 :: (b ++ t2 :: c)) = (s :: (a ++ t1 :: b)) ++ (t2 :: c) by intros; simp]
  rw [List.getLast?_append, List.getLast?_cons]
  simpa using hl

/-- **C33** is violated in Python floats by a system whose field is 7.6·10⁻⁶ wide, with the settings of a new `ImagingPath`: given enough
turns, `fieldStop()` returns that there is no field stop and `fieldOfView()` that the field is infinite. -/
theorem C33_python_infinite_violated : ∃ g : Group B64, telecentric.build64 = .ok g.toElem ∧
    (∀ y, Flt y → 1 / 262144 < |y| → ChiefEnds g (num y) true) ∧ ∃ N, ∀ fuel, N ≤ fuel →
    (g.fieldStop (lit (1 / 1000000)) 10000 fuel).run (newTrace g) = .ok (none, inf) ∧
    (g.fieldOfView (lit (1 / 1000000)) 10000 fuel).run (newTrace g) = .ok inf := by
  have h1 : with64 telecentric (fun g => (g.apertureStop.run (newTrace g), chiefEndsB g 0, chiefEndsB g ninf64)) =
      .ok (.ok (some (num 8), num (1 / 1048576)), some false, some false) := by decide +kernel
  have h2 : with64 telecentric (fun g => match g.toStop.run (newTrace g) with | .ok (some (m, _)) => some (m.A, m.B) | _ => none) =
      .ok (some (num 0, num 8)) := by decide +kernel
  have h3 : with64 telecentric (fun g => match g.elems with | .leaf m :: .leaf m' :: _ => some (m.A, m.B, half m'.apertureDiameter) | _ => none) =
      .ok (some (num 1, num 0, num (1 / 262144))) := by decide +kernel
  obtain ⟨g, hb, h1⟩ := with64_ok h1
  obtain ⟨g2, hb2, h2⟩ := with64_ok h2
  obtain ⟨g3, hb3, h3⟩ := with64_ok h3
  have e2 : g2 = g := by
    rw [hb] at hb2; cases g; cases g2; simpa [Group.toElem, eq_comm] using hb2
  have e3 : g3 = g := by
    rw [hb] at hb3; cases g; cases g3; simpa [Group.toElem, eq_comm] using hb3
  subst e2 e3
  simp only [Prod.mk.injEq] at h1
  obtain ⟨a1, a2, a3⟩ := h1
  split at h2
  · next m d ht =>
    split at h3
    · next m1 m2 es hg =>
      simp only [Option.some.injEq, Prod.mk.injEq] at h2 h3
      obtain ⟨b1, b2, b3, b4, b5⟩ := p64_facts
      have all : ∀ y, Flt y → 1 / 262144 < |y| → ChiefEnds _ (num y) true := fun y hy h => by
        refine contact_blocks ht h2.1 h2.2 hg h3.1 h3.2.1 hy ?_
        rw [h3.2.2, lt_num64]; exact decide_eq_true h
      refine ⟨_, hb, all, ?_⟩
      rw [b1, show (10000 : B64) = num 10000 by decide +kernel]
      rcases C33_python_violated ⟨_, _, a1, by decide +kernel⟩ b2 b3 (H := 10000) (by linarith) (chiefEndsB_iff a2)
          (fun y hy h _ => all y hy (lt_of_lt_of_le (by norm_num; linarith) h)) with ⟨q, -⟩ | ⟨-, N, q⟩
      · exfalso
        obtain ⟨r, o, c1, c2, c3⟩ := q
        obtain ⟨r', o', d1, d2, d3⟩ := chiefEndsB_iff a3
        rw [c1] at d1
        obtain rfl : r = r' := by simpa using d1
        rw [c2] at d2
        obtain rfl : o = o' := by simpa using d2
        rw [c3] at d3
        exact absurd d3 (by simp)
      · exact ⟨N, fun fuel hf => ⟨(q fuel hf).1, (q fuel hf).2.2⟩⟩
    · simp at h3
  · simp at h2

end RT
