import Verif.Model.Trace
import Verif.Lemmas.RayDen

/-! # Facts about tracing: the heap version, and its meaning on values -/

set_option linter.unusedSectionVars false

namespace RT
open PyNum

section generic
variable {F : Type} [PyNum F]

/-! ## Reading the heap -/

theorem Heap.get_append_lt (h l : Heap F) {a : Nat} (ha : a < h.length) : Heap.get (h ++ l) a = h.get a := by
  simp [Heap.get, List.getElem?_append_left ha]

theorem Heap.get_append_eq (h : Heap F) (r : Ray F) : Heap.get (h ++ [r]) h.length = r := by
  simp [Heap.get]

theorem Heap.get_set_eq (h : Heap F) (r : Ray F) {a : Nat} (ha : a < h.length) : Heap.get (h.set a r) a = r := by
  simp [Heap.get, ha]

theorem Heap.get_set_ne (h : Heap F) (r : Ray F) {a c : Nat} (hc : c ≠ a) : Heap.get (h.set a r) c = h.get c := by
  simp [Heap.get, List.getElem?_set_ne hc.symm]

theorem Heap.get_block_eq (h : Heap F) {a : Nat} (ha : a < h.length) :
    (h.block a).get a = { h.get a with isBlocked := true } := h.get_set_eq _ ha

theorem Heap.get_block_ne (h : Heap F) {a c : Nat} (hc : c ≠ a) : (h.block a).get c = h.get c := h.get_set_ne _ hc

@[simp] theorem Heap.block_length (h : Heap F) (a : Nat) : (h.block a).length = h.length := by simp [Heap.block]

/-! ## A tree as a list of steps -/

/-- One step of a trace: a group repeats the ray it receives; an element multiplies. -/
inductive Item (F : Type) where
  | dup
  | leaf (m : Mat F)

mutual
/-- the steps of an element -/
def Elem.items : Elem F → List (Item F)
  | .leaf m => [.leaf m]
  | .group _ _ es => .dup :: itemsList es
/-- the steps of successive elements -/
def itemsList : List (Elem F) → List (Item F)
  | [] => []
  | e :: es => e.items ++ itemsList es
end

mutual
/-- no trace is cached -/
def Elem.NoCache : Elem F → Prop
  | .leaf _ => True
  | .group _ c es => c = none ∧ NoCacheList es
/-- no trace is cached -/
def NoCacheList : List (Elem F) → Prop
  | [] => True
  | e :: es => e.NoCache ∧ NoCacheList es
end

theorem NoCacheList_iff {es : List (Elem F)} : NoCacheList es ↔ ∀ e ∈ es, e.NoCache := by
  induction es with
  | nil => simp [NoCacheList]
  | cons e es ih => simp [NoCacheList, ih]

/-- steps, run on objects -/
def runH : List (Item F) → Nat → Heap F → List Nat × Heap F
  | [], _, h => ([], h)
  | .dup :: is, a, h => (a :: (runH is a h).1, (runH is a h).2)
  | .leaf m :: is, a, h =>
    ((m.traceH a h).1 ++ (runH is ((m.traceH a h).1.getLast?.getD a) (m.traceH a h).2).1,
     (runH is ((m.traceH a h).1.getLast?.getD a) (m.traceH a h).2).2)

theorem getLast?_append_getD (l l' : List Nat) (a : Nat) :
    (l ++ l').getLast?.getD a = l'.getLast?.getD (l.getLast?.getD a) := by
  cases l' with
  | nil => simp
  | cons x l' =>
    rw [List.getLast?_append]
    simp

theorem getLast?_cons_getD (x : Nat) (l : List Nat) (a : Nat) :
    (x :: l).getLast?.getD a = l.getLast?.getD x := by
  rw [← List.singleton_append, getLast?_append_getD]; rfl

theorem runH_append (is js : List (Item F)) (a : Nat) (h : Heap F) :
    runH (is ++ js) a h =
      ((runH is a h).1 ++ (runH js ((runH is a h).1.getLast?.getD a) (runH is a h).2).1,
       (runH js ((runH is a h).1.getLast?.getD a) (runH is a h).2).2) := by
  induction is generalizing a h with
  | nil => simp [runH]
  | cons i is ih =>
    cases i with
    | dup =>
      simp only [List.cons_append, runH]
      rw [ih, getLast?_cons_getD]
    | leaf m =>
      simp only [List.cons_append, runH]
      rw [ih, getLast?_append_getD, List.append_assoc]

mutual
/-- Without cached traces, tracing runs the steps. -/
theorem Elem.traceH_eq : ∀ (e : Elem F), e.NoCache → ∀ (a : Nat) (h : Heap F),
    (e.traceH a h).1 = (runH e.items a h).1 ∧ (e.traceH a h).2.1 = (runH e.items a h).2
  | .leaf m, _, a, h => by simp [Elem.traceH, Elem.items, runH]
  | .group m c es, hc, a, h => by
    unfold Elem.NoCache at hc
    obtain ⟨rfl, hc⟩ := hc
    have := traceListH_eq es hc a h
    simp [Elem.traceH, cacheHit, Elem.items, runH, this]
theorem traceListH_eq : ∀ (es : List (Elem F)), NoCacheList es → ∀ (a : Nat) (h : Heap F),
    (traceListH es a h).1 = (runH (itemsList es) a h).1 ∧ (traceListH es a h).2.1 = (runH (itemsList es) a h).2
  | [], _, a, h => by simp [traceListH, itemsList, runH]
  | e :: es, hc, a, h => by
    unfold NoCacheList at hc
    obtain ⟨h1, h2⟩ := Elem.traceH_eq e hc.1 a h
    have h3 := traceListH_eq es hc.2 ((e.traceH a h).1.getLast?.getD a) (e.traceH a h).2.1
    unfold traceListH itemsList
    rw [runH_append, ← h1, ← h2]
    exact ⟨by rw [← h3.1], by rw [← h3.2]⟩
end

mutual
/-- Tracing changes nothing but the cached traces. -/
theorem Elem.traceH_items : ∀ (e : Elem F) (a : Nat) (h : Heap F), (e.traceH a h).2.2.items = e.items
  | .leaf m, a, h => by simp [Elem.traceH]
  | .group m c es, a, h => by
    unfold Elem.traceH
    split
    · rfl
    · simp [Elem.items, traceListH_items es a h]
theorem traceListH_items : ∀ (es : List (Elem F)) (a : Nat) (h : Heap F),
    itemsList (traceListH es a h).2.2 = itemsList es
  | [], a, h => by simp [traceListH]
  | e :: es, a, h => by
    unfold traceListH itemsList
    rw [← Elem.traceH_items e a h, ← traceListH_items es ((e.traceH a h).1.getLast?.getD a) (e.traceH a h).2.1]
end

/-! ## One element -/

/-- the heap once the entrance of the element is checked -/
def Mat.entered (m : Mat F) (a : Nat) (h : Heap F) : Heap F := if 0 <. m.L then m.markEntry a h else h

/-- does the entrance of an element with a length stop a ray? (`matrix.py:658-661`) -/
def Mat.stopsEntry (m : Mat F) (r : Ray F) : Bool := (0 <. m.L) && (half m.apertureDiameter <. PyNum.abs r.y)

theorem Mat.entered_length (m : Mat F) (a : Nat) (h : Heap F) : (m.entered a h).length = h.length := by
  unfold Mat.entered Mat.markEntry; split_ifs <;> simp

theorem Mat.entered_get_ne (m : Mat F) {a c : Nat} (h : Heap F) (hc : c ≠ a) : (m.entered a h).get c = h.get c := by
  unfold Mat.entered Mat.markEntry; split_ifs <;> simp [Heap.get_block_ne _ hc]

theorem Mat.entered_get (m : Mat F) {a : Nat} (h : Heap F) (ha : a < h.length) :
    (m.entered a h).get a = { h.get a with isBlocked := (h.get a).isBlocked || m.stopsEntry (h.get a) } := by
  unfold Mat.entered Mat.markEntry Mat.stopsEntry
  split_ifs with h1 h2
  · rw [Heap.get_block_eq _ ha]; simp [h1, h2]
  · simp [h1, h2]
  · simp [h1]

theorem Mat.traceH_fst (m : Mat F) (a : Nat) (h : Heap F) :
    (m.traceH a h).1 = if 0 <. m.L then [a, (m.mulRayH a (m.entered a h)).1] else [(m.mulRayH a (m.entered a h)).1] := by
  unfold Mat.traceH Mat.entered; split_ifs <;> rfl

theorem Mat.traceH_snd (m : Mat F) (a : Nat) (h : Heap F) :
    (m.traceH a h).2 = (m.mulRayH a (m.entered a h)).2 := by
  unfold Mat.traceH Mat.entered; split_ifs <;> rfl

theorem Mat.traceH_last (m : Mat F) (a : Nat) (h : Heap F) :
    (m.traceH a h).1.getLast?.getD a = (m.mulRayH a (m.entered a h)).1 := by
  rw [m.traceH_fst]; split_ifs <;> rfl

/-- A ray that is not blocked gives a new object, for every kind of element. -/
theorem Mat.mulRayH_open (m : Mat F) {a : Nat} (h : Heap F) (ha : a < h.length) (hb : (h.get a).isBlocked = false) :
    m.mulRayH a h = (h.length, h ++ [m.mulRay (h.get a)]) := by
  have h0 : m.mulRayBaseH a h = (h.length, h ++ [m.mulRayBase (h.get a)]) := by simp [Mat.mulRayBaseH, hb]
  unfold Mat.mulRayH Mat.mulRay
  cases m.kind <;> simp only [h0]
  rw [Heap.get_append_lt _ _ ha, Heap.get_append_eq]
  simp

/-- A blocked ray is the same object, still blocked, at the same place. -/
theorem Mat.mulRayH_blocked (m : Mat F) {a : Nat} (h : Heap F) (ha : a < h.length) (hb : (h.get a).isBlocked = true) :
    (m.mulRayH a h).1 = a ∧ (m.mulRayH a h).2.length = h.length ∧
    (∀ c, c ≠ a → (m.mulRayH a h).2.get c = h.get c) ∧
    (∃ θ, (m.mulRayH a h).2.get a = { h.get a with theta := θ }) ∧ (m.Linear → (m.mulRayH a h).2 = h) := by
  have h0 : m.mulRayBaseH a h = (a, h) := by simp [Mat.mulRayBaseH, hb]
  by_cases hl : m.Linear
  · have h1 : m.mulRayH a h = (a, h) := by
      unfold Mat.mulRayH
      cases hk : m.kind <;> simp only [h0]
      exact absurd hk (hl _ _)
    rw [h1]
    exact ⟨rfl, rfl, fun _ _ => rfl, ⟨_, rfl⟩, fun _ => rfl⟩
  · unfold Mat.Linear at hl
    push Not at hl
    obtain ⟨n, alpha, hk⟩ := hl
    unfold Mat.mulRayH
    simp only [hk, h0]
    exact ⟨trivial, by simp, fun c hc => Heap.get_set_ne _ _ hc, ⟨_, Heap.get_set_eq _ _ ha⟩, fun hl => absurd hk (hl _ _)⟩

/-! ## Objects in a trace -/

/-- What running the steps does to objects, axicons included. -/
theorem runH_frame (is : List (Item F)) {a : Nat} {h : Heap F} (ha : a < h.length) :
    h.length ≤ (runH is a h).2.length ∧
    (∀ c, c < h.length → c ≠ a → (runH is a h).2.get c = h.get c) ∧
    (∀ c ∈ (runH is a h).1, c = a ∨ (h.length ≤ c ∧ c < (runH is a h).2.length)) ∧
    ((h.get a).isBlocked = true → ((runH is a h).2.get a).isBlocked = true ∧ ∀ c ∈ (runH is a h).1, c = a) ∧
    (a :: (runH is a h).1).Pairwise (fun x y => ((runH is a h).2.get x).isBlocked = true → x = y) ∧
    (∃ b θ, (runH is a h).2.get a = { h.get a with isBlocked := b, theta := θ }) := by
  induction is generalizing a h with
  | nil =>
    simp only [runH]
    exact ⟨le_refl _, fun _ _ _ => trivial, by simp, fun h => ⟨h, by simp⟩, by simp, _, _, rfl⟩
  | cons i is ih =>
    cases i with
    | dup =>
      obtain ⟨h1, h2, h3, h4, h5, h6⟩ := ih ha
      simp only [runH]
      refine ⟨h1, h2, ?_, ?_, ?_, h6⟩
      · intro c hc
        rcases List.mem_cons.1 hc with rfl | hc
        · exact .inl rfl
        · exact h3 c hc
      · intro hb
        refine ⟨(h4 hb).1, fun c hc => ?_⟩
        rcases List.mem_cons.1 hc with rfl | hc
        · rfl
        · exact (h4 hb).2 c hc
      · refine List.pairwise_cons.2 ⟨?_, h5⟩
        intro c hc hb
        rcases List.mem_cons.1 hc with rfl | hc
        · rfl
        · exact (List.pairwise_cons.1 h5).1 c hc hb
    | leaf m =>
      simp only [runH]
      rw [m.traceH_last, m.traceH_fst, m.traceH_snd]
      have ha' : a < (m.entered a h).length := by rw [m.entered_length]; exact ha
      have hg := m.entered_get h ha
      by_cases hb : ((m.entered a h).get a).isBlocked = true
      · obtain ⟨e1, e2, e3, ⟨θ, e4⟩, -⟩ := m.mulRayH_blocked _ ha' hb
        rw [e1]
        have ha2 : a < (m.mulRayH a (m.entered a h)).2.length := by rw [e2]; exact ha'
        obtain ⟨h1, h2, h3, h4, h5, ⟨b', θ', h6⟩⟩ := ih ha2
        have hb2 : ((m.mulRayH a (m.entered a h)).2.get a).isBlocked = true := by rw [e4]; exact hb
        obtain ⟨f1, f2⟩ := h4 hb2
        have hall : ∀ c ∈ (if 0 <. m.L then [a, a] else [a]) ++ (runH is a (m.mulRayH a (m.entered a h)).2).1, c = a := by
          intro c hc
          rcases List.mem_append.1 hc with hc | hc
          · split_ifs at hc <;> simpa using hc
          · exact f2 c hc
        refine ⟨?_, ?_, fun c hc => .inl (hall c hc), fun _ => ⟨f1, hall⟩, ?_, ?_⟩
        · rw [e2, m.entered_length] at h1; exact h1
        · intro c hc hca
          rw [h2 c (by rw [e2, m.entered_length]; exact hc) hca, e3 c hca, m.entered_get_ne h hca]
        · refine List.pairwise_cons.2 ⟨fun c hc _ => (hall c hc).symm, ?_⟩
          refine List.pairwise_iff_forall_sublist.2 fun {x y} hxy _ => ?_
          have hx := hall x (hxy.subset (by simp))
          have hy := hall y (hxy.subset (by simp))
          rw [hx, hy]
        · exact ⟨b', θ', by rw [h6, e4, hg]⟩
      · rw [Bool.not_eq_true] at hb
        have e0 := m.mulRayH_open _ ha' hb
        rw [e0]
        dsimp only
        set h2 := m.entered a h ++ [m.mulRay ((m.entered a h).get a)] with hh2
        have hlen : h2.length = h.length + 1 := by simp [hh2, m.entered_length]
        have hb2 : (m.entered a h).length < h2.length := by simp [hh2]
        obtain ⟨h1, h2', h3, h4, h5, h6⟩ := ih hb2
        have hel := m.entered_length a h
        have hget : ∀ c, c < h.length → h2.get c = (m.entered a h).get c := fun c hc =>
          Heap.get_append_lt _ _ (by rw [hel]; exact hc)
        have hfin : ∀ c, c < h.length → (runH is (m.entered a h).length h2).2.get c = (m.entered a h).get c := by
          intro c hc
          rw [h2' c (by omega) (by rw [hel]; omega), hget c hc]
        have hfa : ((runH is (m.entered a h).length h2).2.get a).isBlocked = false := by rw [hfin a ha]; exact hb
        have hmem : ∀ c ∈ (runH is (m.entered a h).length h2).1,
            h.length ≤ c ∧ c < (runH is (m.entered a h).length h2).2.length := by
          intro c hc
          rcases h3 c hc with h' | h'
          · exact ⟨by omega, by omega⟩
          · exact ⟨by omega, h'.2⟩
        refine ⟨by omega, ?_, ?_, ?_, ?_, ?_⟩
        · intro c hc hca
          rw [hfin c hc, m.entered_get_ne h hca]
        · intro c hc
          rcases List.mem_append.1 hc with hc | hc
          · split_ifs at hc
            · simp only [List.mem_cons, List.not_mem_nil, or_false] at hc
              rcases hc with rfl | rfl
              · exact .inl rfl
              · right; exact ⟨by omega, by omega⟩
            · simp only [List.mem_singleton] at hc
              subst hc; right; exact ⟨by omega, by omega⟩
          · exact .inr (hmem c hc)
        · intro hba
          rw [hg] at hb
          simp [hba] at hb
        · have key : ((m.entered a h).length :: (runH is (m.entered a h).length h2).1).Pairwise
              (fun x y => ((runH is (m.entered a h).length h2).2.get x).isBlocked = true → x = y) := h5
          split_ifs
          · simp only [List.cons_append, List.nil_append]
            refine List.pairwise_cons.2 ⟨fun c _ hc => by rw [hfa] at hc; simp at hc, ?_⟩
            exact List.pairwise_cons.2 ⟨fun c _ hc => by rw [hfa] at hc; simp at hc, key⟩
          · simp only [List.cons_append, List.nil_append]
            exact List.pairwise_cons.2 ⟨fun c _ hc => by rw [hfa] at hc; simp at hc, key⟩
        · exact ⟨_, _, by rw [hfin a ha, hg]⟩

/-! ## Values of a trace, without axicon -/

/-- all the elements are linear -/
def LinearItems (is : List (Item F)) : Prop := ∀ m, Item.leaf m ∈ is → m.Linear

/-- does the next element of the list stop the ray at its entrance? -/
def entryStops : List (Item F) → Ray F → Bool
  | [], _ => false
  | .dup :: is, r => entryStops is r
  | .leaf m :: _, r => m.stopsEntry r

/-- the ray as it is finally seen in the trace -/
def settle (is : List (Item F)) (r : Ray F) : Ray F := { r with isBlocked := r.isBlocked || entryStops is r }

/-- The values of the trace of a settled ray. -/
def runTrace : List (Item F) → Ray F → List (Ray F)
  | [], _ => []
  | .dup :: is, r => r :: runTrace is r
  | .leaf m :: is, r =>
    (if 0 <. m.L then [r] else []) ++
      (if r.isBlocked then r else settle is (m.mulRayBase r)) ::
        runTrace is (if r.isBlocked then r else settle is (m.mulRayBase r))

theorem entryStops_congr (is : List (Item F)) {r s : Ray F} (h : r.y = s.y) : entryStops is r = entryStops is s := by
  induction is with
  | nil => rfl
  | cons i is ih =>
    cases i with
    | dup => simpa [entryStops] using ih
    | leaf m => simp [entryStops, Mat.stopsEntry, h]

theorem settle_settle (is : List (Item F)) (r : Ray F) : settle is (settle is r) = settle is r := by
  unfold settle
  rw [entryStops_congr is (r := { r with isBlocked := r.isBlocked || entryStops is r }) (s := r) rfl]
  simp

theorem settle_blocked (is : List (Item F)) {r : Ray F} (h : r.isBlocked = true) : settle is r = r := by
  cases r; simp_all [settle]

theorem runH_spec (is : List (Item F)) (hl : LinearItems is) {a : Nat} {h : Heap F} (ha : a < h.length) :
    (runH is a h).2.deref (runH is a h).1 = runTrace is (settle is (h.get a)) ∧
    (runH is a h).2.get a = settle is (h.get a) := by
  induction is generalizing a h with
  | nil => simp [runH, Heap.deref, runTrace, settle, entryStops]
  | cons i is ih =>
    have hl' : LinearItems is := fun m hm => hl m (List.mem_cons_of_mem _ hm)
    cases i with
    | dup =>
      obtain ⟨h1, h2⟩ := ih hl' ha
      have hs : settle (.dup :: is) (h.get a) = settle is (h.get a) := rfl
      simp only [runH, runTrace, hs]
      refine ⟨?_, h2⟩
      rw [← h1, ← h2]; rfl
    | leaf m =>
      have hm : m.Linear := hl m (by simp)
      simp only [runH]
      rw [m.traceH_last, m.traceH_fst, m.traceH_snd]
      have ha' : a < (m.entered a h).length := by rw [m.entered_length]; exact ha
      have hg : (m.entered a h).get a = settle (.leaf m :: is) (h.get a) := m.entered_get h ha
      have hderef : ∀ (h' : Heap F) (x y : List Nat), h'.deref (x ++ y) = h'.deref x ++ h'.deref y :=
        fun h' x y => by simp [Heap.deref]
      by_cases hb : ((m.entered a h).get a).isBlocked = true
      · obtain ⟨e1, -, -, -, e5⟩ := m.mulRayH_blocked _ ha' hb
        rw [e1, e5 hm]
        obtain ⟨h1, h2⟩ := ih hl' ha'
        rw [settle_blocked is hb] at h1 h2
        rw [hderef, h1, ← hg]
        refine ⟨?_, h2⟩
        simp only [runTrace, hb, if_true]
        split_ifs <;> simp [Heap.deref, h2]
      · rw [Bool.not_eq_true] at hb
        rw [m.mulRayH_open _ ha' hb]
        have hb2 : (m.entered a h).length < (m.entered a h ++ [m.mulRay ((m.entered a h).get a)]).length := by simp
        obtain ⟨h1, h2⟩ := ih hl' hb2
        obtain ⟨-, f2, -⟩ := runH_frame is hb2
        rw [Heap.get_append_eq] at h1 h2
        have hga := (f2 a (by simp; omega) (by omega)).trans (Heap.get_append_lt _ _ ha')
        rw [hderef, h1, hga, ← hg]
        refine ⟨?_, rfl⟩
        simp only [runTrace, hb]
        rw [hm.mulRay]
        rw [hm.mulRay] at h2 hga
        split_ifs <;> simp_all [Heap.deref]

end generic
end RT
