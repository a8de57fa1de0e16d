import Verif.Props.Binary64
import Verif.Lemmas.RoundedTrace

/-! # C137: the two sides of the axis are the same, to the last bit -/

set_option linter.unusedSectionVars false

namespace RT
open PyNum
variable {F : Type} [PyNum F]

/-- the mirror image of a ray in the axis -/
def Ray.acrossAxis (r : Ray F) : Ray F := { r with y := -r.y, theta := -r.theta }

/-- numbers whose operations do not depend on signs -/
structure SignFree (F : Type) [PyNum F] : Prop where
  mul_neg : ∀ a b : F, a * -b = -(a * b)
  neg_add : ∀ a b : F, -a + -b = -(a + b)
  abs_neg : ∀ a : F, PyNum.abs (-a) = PyNum.abs a
  neg_neg : ∀ a : F, - -a = a
  pos_neg : ∀ a : F, ((0 : F) <. -a) = (a <. 0)
  neg_pos : ∀ a : F, (-a <. (0 : F)) = (0 <. a)
  apart : ∀ a : F, ((0 : F) <. a) = true → (a <. (0 : F)) = false

section
variable {K : Type} [Field K] [LinearOrder K] [IsStrictOrderedRing K]

theorem Ext.infOf_neg_neg (x : K) : Ext.neg (Ext.infOf x) = Ext.infOf (-x) := by
  unfold Ext.infOf
  rcases lt_trichotomy x 0 with h | h | h
  · simp [h, h.not_gt, Ext.neg]
  · simp [h, Ext.neg]
  · simp [h, h.not_gt, Ext.neg]

theorem Ext.mul_neg_neg (a b : Ext K) : Ext.mul a (Ext.neg b) = Ext.neg (Ext.mul a b) := by
  cases a <;> cases b <;> first
    | rfl
    | (simp only [Ext.mul, Ext.infOf_neg_neg]; simp [Ext.neg, Ext.mul]; done)
    | (simp [Ext.neg, Ext.mul]; done)
    | (rw [show ∀ x : K, Ext.mul (.fin x) .pinf = Ext.infOf x from fun _ => rfl, Ext.infOf_neg_neg]; rfl)
    | (show Ext.infOf _ = Ext.neg (Ext.infOf _); rw [Ext.infOf_neg_neg, _root_.neg_neg])

theorem Ext.neg_add_neg (a b : Ext K) : Ext.add (Ext.neg a) (Ext.neg b) = Ext.neg (Ext.add a b) := by
  cases a <;> cases b <;> simp [Ext.add, Ext.neg, add_comm]

theorem Ext.abs_neg' (a : Ext K) : Ext.abs (Ext.neg a) = Ext.abs a := by cases a <;> simp [Ext.abs, Ext.neg]

theorem Ext.neg_twice (a : Ext K) : Ext.neg (Ext.neg a) = a := by cases a <;> simp [Ext.neg]

theorem Ext.lt_neg_neg (a : Ext K) : Ext.lt (.fin 0) (Ext.neg a) = Ext.lt a (.fin 0) ∧ Ext.lt (Ext.neg a) (.fin 0) = Ext.lt (.fin 0) a := by
  cases a <;> simp [Ext.lt, Ext.neg]

theorem Ext.lt_apart (a : Ext K) : Ext.lt (.fin 0) a = true → Ext.lt a (.fin 0) = false := by
  cases a <;> simp [Ext.lt]
  exact le_of_lt

/-- Exact numbers do not depend on signs. -/
theorem signFree_ext : SignFree (Ext K) where
  mul_neg := Ext.mul_neg_neg
  neg_add := Ext.neg_add_neg
  abs_neg := Ext.abs_neg'
  neg_neg := Ext.neg_twice
  pos_neg a := by
    have e : (0 : Ext K) = .fin 0 := by change Ext.fin _ = _; simp
    rw [e]; exact (Ext.lt_neg_neg a).1
  neg_pos a := by
    have e : (0 : Ext K) = .fin 0 := by change Ext.fin _ = _; simp
    rw [e]; exact (Ext.lt_neg_neg a).2
  apart a := by
    have e : (0 : Ext K) = .fin 0 := by change Ext.fin _ = _; simp
    rw [e]; exact Ext.lt_apart a

theorem rndE_neg {rnd : K → K} (h : ∀ x, rnd (-x) = -rnd x) (a : Ext K) : Fl.rndE rnd (Ext.neg a) = Ext.neg (Fl.rndE rnd a) := by
  cases a <;> simp [Fl.rndE, Ext.neg, h]

/-- Nor do rounded ones, if the rounding does not. -/
theorem signFree_fl {rnd : K → K} {u : K} (hr : Rounding rnd u) (h : ∀ x, rnd (-x) = -rnd x) : SignFree (Fl K rnd) where
  mul_neg a b := congrArg Fl.mk (by
    change Fl.rndE rnd (Ext.mul a.val (Ext.neg b.val)) = Ext.neg (Fl.rndE rnd (Ext.mul a.val b.val))
    rw [← rndE_neg h, ← Ext.mul_neg_neg])
  neg_add a b := congrArg Fl.mk (by
    change Fl.rndE rnd (Ext.add (Ext.neg a.val) (Ext.neg b.val)) = Ext.neg (Fl.rndE rnd (Ext.add a.val b.val))
    rw [← rndE_neg h, ← Ext.neg_add_neg])
  abs_neg a := congrArg Fl.mk (Ext.abs_neg' a.val)
  neg_neg a := congrArg Fl.mk (Ext.neg_twice a.val)
  pos_neg a := by rw [Fl.zero_num hr]; exact (Ext.lt_neg_neg a.val).1
  neg_pos a := by rw [Fl.zero_num hr]; exact (Ext.lt_neg_neg a.val).2
  apart a := by rw [Fl.zero_num hr]; exact Ext.lt_apart a.val

end

theorem double64_neg (x : ℚ) : double64 (-x) = Ext.neg (double64 x) := by
  have hl : lastBit (-x) = lastBit x := by unfold lastBit; rw [binade_neg]
  have hr : (if -x = 0 then (0 : ℚ) else (roundEven (-x / pow2 (lastBit (-x))) : ℚ) * pow2 (lastBit (-x))) =
      -(if x = 0 then (0 : ℚ) else (roundEven (x / pow2 (lastBit x)) : ℚ) * pow2 (lastBit x)) := by
    by_cases h : x = 0
    · simp [h]
    · rw [if_neg h, if_neg (neg_ne_zero.2 h), hl, neg_div, roundEven_neg]
      push_cast; ring
  have h0 : (0 : ℚ) < pow2 1024 := pow2_pos _
  unfold double64
  dsimp only
  rw [hr]
  generalize (if x = 0 then (0 : ℚ) else (roundEven (x / pow2 (lastBit x)) : ℚ) * pow2 (lastBit x)) = r
  by_cases h1 : pow2 1024 ≤ r
  · rw [if_pos h1, if_neg (by linarith), if_pos (by linarith)]; rfl
  · rw [if_neg h1]
    by_cases h2 : r ≤ -pow2 1024
    · rw [if_pos h2, if_pos (by linarith)]; rfl
    · rw [if_neg h2, if_neg (by linarith), if_neg (by linarith)]; rfl

theorem zero_b64 : (0 : B64) = ⟨.fin 0⟩ := by decide +kernel

theorem roundB64_neg (a : Ext ℚ) : B64.round (Ext.neg a) = Ext.neg (B64.round a) := by
  cases a <;> first | rfl | exact double64_neg _

/-- Nor do Python floats, with overflow and underflow (the sign of zero is not modelled). -/
theorem signFree_b64 : SignFree B64 where
  mul_neg a b := congrArg B64.mk (by
    change B64.round (Ext.mul a.val (Ext.neg b.val)) = Ext.neg (B64.round (Ext.mul a.val b.val))
    rw [← roundB64_neg, ← Ext.mul_neg_neg])
  neg_add a b := congrArg B64.mk (by
    change B64.round (Ext.add (Ext.neg a.val) (Ext.neg b.val)) = Ext.neg (B64.round (Ext.add a.val b.val))
    rw [← roundB64_neg, ← Ext.neg_add_neg])
  abs_neg a := congrArg B64.mk (Ext.abs_neg' a.val)
  neg_neg a := congrArg B64.mk (Ext.neg_twice a.val)
  pos_neg a := by rw [zero_b64]; exact (Ext.lt_neg_neg a.val).1
  neg_pos a := by rw [zero_b64]; exact (Ext.lt_neg_neg a.val).2
  apart a := by rw [zero_b64]; exact Ext.lt_apart a.val

theorem acrossAxis_stops (o : SignFree F) (m : Mat F) (r : Ray F) : m.stops r.acrossAxis = m.stops r := by
  simp [Mat.stops, Ray.acrossAxis, o.abs_neg]

theorem acrossAxis_entry (o : SignFree F) (is : List (Item F)) (r : Ray F) : entryStops is r.acrossAxis = entryStops is r := by
  induction is with
  | nil => rfl
  | cons i is ih =>
    cases i with
    | dup => simpa [entryStops] using ih
    | leaf m => simp [entryStops, Mat.stopsEntry, Ray.acrossAxis, o.abs_neg]

theorem acrossAxis_settle (o : SignFree F) (is : List (Item F)) (r : Ray F) : settle is r.acrossAxis = (settle is r).acrossAxis := by
  unfold settle
  rw [acrossAxis_entry o]
  rfl

theorem acrossAxis_mulRayBase (o : SignFree F) (m : Mat F) (r : Ray F) : m.mulRayBase r.acrossAxis = (m.mulRayBase r).acrossAxis := by
  unfold Mat.mulRayBase
  rw [acrossAxis_stops o]
  by_cases hb : r.isBlocked = true
  · simp [Ray.acrossAxis, hb]
  · simp [Ray.acrossAxis, hb, o.mul_neg, o.neg_add]

theorem acrossAxis_runTrace (o : SignFree F) : ∀ (is : List (Item F)) (r : Ray F), runTrace is r.acrossAxis = (runTrace is r).map Ray.acrossAxis
  | [], r => rfl
  | .dup :: is, r => by simp only [runTrace, List.map_cons, acrossAxis_runTrace o is r]
  | .leaf m :: is, r => by
    have e : (if r.acrossAxis.isBlocked then r.acrossAxis else settle is (m.mulRayBase r.acrossAxis)) =
        (if r.isBlocked then r else settle is (m.mulRayBase r)).acrossAxis := by
      rw [acrossAxis_mulRayBase o, acrossAxis_settle o]
      show (if r.isBlocked then _ else _) = _
      split <;> rfl
    simp only [runTrace, e, acrossAxis_runTrace o is, List.map_append, List.map_cons]
    congr 1
    split <;> rfl

/-- **C137**: for numbers that do not depend on signs, the trace of the mirror image of a ray in the axis is, ray by ray, the mirror image of its trace,
stopped at the same places. -/
theorem C137_trace (o : SignFree F) {e : Elem F} (hl : LinearItems e.items) (hn : e.NoCache) {a b : Nat} {h k : Heap F} (ha : a < h.length)
    (hb : b < k.length) (hm : k.get b = (h.get a).acrossAxis) :
    (e.traceH b k).2.1.deref (e.traceH b k).1 = ((e.traceH a h).2.1.deref (e.traceH a h).1).map Ray.acrossAxis := by
  obtain ⟨q1, q2⟩ := e.traceH_eq hn a h
  obtain ⟨q3, q4⟩ := e.traceH_eq hn b k
  rw [q1, q2, q3, q4, (runH_spec e.items hl ha).1, (runH_spec e.items hl hb).1, hm, acrossAxis_settle o, acrossAxis_runTrace o]

/-- **C137 for axicons**, which turn every ray towards the axis: the mirror image of a ray is turned to the mirror image. -/
theorem C137_axicon (o : SignFree F) (m : Mat F) (r : Ray F) : m.mulRay r.acrossAxis = (m.mulRay r).acrossAxis := by
  unfold Mat.mulRay
  split
  · next n alpha _ =>
    rw [acrossAxis_mulRayBase o]
    have h1 : axiconTurn n alpha (-r.y) (-(m.mulRayBase r).theta) = -axiconTurn n alpha r.y (m.mulRayBase r).theta := by
      unfold axiconTurn
      rw [o.pos_neg, o.neg_pos]
      by_cases p : ((0 : F) <. r.y) = true
      · simp [p, o.apart _ p, ← o.neg_add, o.neg_neg]
      · by_cases q : (r.y <. (0 : F)) = true
        · simp [p, q, ← o.neg_add]
        · simp [p, q]
    simp only [Ray.acrossAxis]
    rw [← h1]
  · exact acrossAxis_mulRayBase o m r

/-- **C137 for programs in exact numbers.** -/
theorem C137_exact {K : Type} [Field K] [LinearOrder K] [IsStrictOrderedRing K] {p : Part K} {e : Elem (Ext K)} (hp : p.build = .ok e) {a b : Nat}
    {h k : Heap (Ext K)} (ha : a < h.length) (hb : b < k.length) (hm : k.get b = (h.get a).acrossAxis) :
    (e.traceH b k).2.1.deref (e.traceH b k).1 = ((e.traceH a h).2.1.deref (e.traceH a h).1).map Ray.acrossAxis :=
  C137_trace signFree_ext (build_sound hp).1.items.1.linear (build_sound hp).2.1 ha hb hm

/-- **C137 for programs in floats**, for every rounding that does not depend on signs. -/
theorem C137_rounded {K : Type} [Field K] [LinearOrder K] [IsStrictOrderedRing K] {rnd : K → K} {u : K} (hr : Rounding rnd u)
    (hs : ∀ x, rnd (-x) = -rnd x) {p : Part K} {e : Elem (Fl K rnd)} (hp : p.buildR rnd = .ok e) {a b : Nat} {h k : Heap (Fl K rnd)}
    (ha : a < h.length) (hb : b < k.length) (hm : k.get b = (h.get a).acrossAxis) :
    (e.traceH b k).2.1.deref (e.traceH b k).1 = ((e.traceH a h).2.1.deref (e.traceH a h).1).map Ray.acrossAxis :=
  C137_trace (signFree_fl hr hs) (buildR_stages hr hp).1.linear (buildWith_noCache _ _ hp) ha hb hm

/-- **C137 for programs run by Python**, whatever overflows or underflows: all rays, infinite and `nan` ones too. -/
theorem C137_python {p : Part ℚ} (ho : p.Ordinary) {e : Elem B64} (hp : p.build64 = .ok e) {a b : Nat} {h k : Heap B64}
    (ha : a < h.length) (hb : b < k.length) (hm : k.get b = (h.get a).acrossAxis) :
    (e.traceH b k).2.1.deref (e.traceH b k).1 = ((e.traceH a h).2.1.deref (e.traceH a h).1).map Ray.acrossAxis :=
  C137_trace signFree_b64 (B64.build64_stages ho hp).linear (buildWith_noCache _ _ hp) ha hb hm

/-- Python floats do not depend on signs, and the hypotheses hold for a lens of diameter 25 and a ray that it stops, at height 13.5: its mirror image is
stopped at -13.5. -/
theorem C137_example : (∀ x, double (-x) = -double x) ∧ relay.Ordinary ∧
    (match relay.build64 with
      | .ok e =>
        let h : Heap B64 := [Ray.new (B64.num 1) (B64.num (1/8)) (B64.num 0), Ray.new (B64.num (-1)) (B64.num (-1/8)) (B64.num 0)]
        decide (h.get 1 = (h.get 0).acrossAxis) &&
          decide (((e.traceH 0 h).2.1.deref (e.traceH 0 h).1).map (fun r => (r.y, r.isBlocked)) =
            [(B64.num 1, false), (B64.num 1, false), (B64.num (27/2), false), (B64.num (27/2), true), (B64.num (27/2), true),
              (B64.num (27/2), true)]) &&
          decide (((e.traceH 1 h).2.1.deref (e.traceH 1 h).1).map (fun r => (r.y, r.isBlocked)) =
            [(B64.num (-1), false), (B64.num (-1), false), (B64.num (-27/2), false), (B64.num (-27/2), true), (B64.num (-27/2), true),
              (B64.num (-27/2), true)])
      | .error _ => false) = true :=
  ⟨double_neg, relay_ordinary, by decide +kernel⟩

end RT
