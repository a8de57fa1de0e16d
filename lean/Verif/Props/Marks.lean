import Verif.Props.Images
import Verif.Props.Cardinal

/-! # C75 the vertical range of a figure, C76 the marks on its axis -/

set_option linter.unusedSectionVars false

namespace RT
open PyNum Ext
variable {K : Type} [Field K] [LinearOrder K] [IsStrictOrderedRing K]

/-! ## C75 -/

theorem largestGraphic_eq (hs : List K) (r : K) :
    ∃ m, largestGraphic (hs.map fin) (fin r : Ext K) = fin m ∧ r ≤ m ∧ (∀ h ∈ hs, 2 * h ≤ m) ∧ (m = r ∨ ∃ h ∈ hs, m = 2 * h) := by
  induction hs generalizing r with
  | nil => exact ⟨r, rfl, le_rfl, by simp, .inl rfl⟩
  | cons h hs ih =>
    simp only [List.map_cons, largestGraphic, ofNat_eq, fin_mul_fin, lt_fin]
    by_cases hr : r < h * 2
    · obtain ⟨m, h1, h2, h3, h4⟩ := ih (h * 2)
      refine ⟨m, by simpa [hr] using h1, hr.le.trans h2, ?_, ?_⟩
      · intro x hx
        rcases List.mem_cons.1 hx with rfl | hx
        · linarith
        · exact h3 x hx
      · right
        rcases h4 with h4 | ⟨x, hx, h4⟩
        · exact ⟨h, by simp, by rw [h4]; ring⟩
        · exact ⟨x, by simp [hx], h4⟩
    · obtain ⟨m, h1, h2, h3, h4⟩ := ih r
      refine ⟨m, by simpa [hr] using h1, h2, ?_, ?_⟩
      · intro x hx
        rcases List.mem_cons.1 hx with rfl | hx
        · linarith
        · exact h3 x hx
      · rcases h4 with h4 | ⟨x, hx, h4⟩
        · exact .inl h4
        · exact .inr ⟨x, by simp [hx], h4⟩

theorem imagesRange_eq (H L : K) (planes : List (K × K)) (r : K) :
    ∃ m, imagesRange (fin H) (fin L) (planes.map finPlane) (fin r : Ext K) = fin m ∧ r ≤ m ∧
      (∀ q ∈ planes, 0 ≤ q.1 → q.1 ≤ L → H * |q.2| ≤ m) ∧
      (m = r ∨ ∃ q ∈ planes, 0 ≤ q.1 ∧ q.1 ≤ L ∧ m = H * |q.2|) := by
  induction planes generalizing r with
  | nil => exact ⟨r, rfl, le_rfl, by simp, .inl rfl⟩
  | cons p ps ih =>
    obtain ⟨P, M⟩ := p
    simp only [List.map_cons, finPlane, imagesRange, zero_eq, le_fin, fin_mul_fin, lt_fin, abs_fin]
    by_cases hin : 0 ≤ P ∧ P ≤ L
    · have hc : (decide (0 ≤ P) && decide (P ≤ L)) = true := by simp [hin]
      rw [hc, if_pos rfl]
      by_cases hr : r < H * |M|
      · obtain ⟨m, h1, h2, h3, h4⟩ := ih (H * |M|)
        refine ⟨m, by simpa [hr] using h1, hr.le.trans h2, ?_, ?_⟩
        · intro x hx
          rcases List.mem_cons.1 hx with rfl | hx
          · exact fun _ _ => h2
          · exact h3 x hx
        · right
          rcases h4 with h4 | ⟨x, hx, h4⟩
          · exact ⟨(P, M), by simp, hin.1, hin.2, h4⟩
          · exact ⟨x, by simp [hx], h4⟩
      · obtain ⟨m, h1, h2, h3, h4⟩ := ih r
        refine ⟨m, by simpa [hr] using h1, h2, ?_, ?_⟩
        · intro x hx
          rcases List.mem_cons.1 hx with rfl | hx
          · exact fun _ _ => (not_lt.1 hr).trans h2
          · exact h3 x hx
        · rcases h4 with h4 | ⟨x, hx, h4⟩
          · exact .inl h4
          · exact .inr ⟨x, by simp [hx], h4⟩
    · have hc : (decide (0 ≤ P) && decide (P ≤ L)) = false := by
        rw [Bool.eq_false_iff]; intro h; exact hin (by simpa using h)
      rw [hc, if_neg (by simp)]
      obtain ⟨m, h1, h2, h3, h4⟩ := ih r
      refine ⟨m, h1, h2, ?_, ?_⟩
      · intro x hx
        rcases List.mem_cons.1 hx with rfl | hx
        · exact fun a b => absurd ⟨a, b⟩ hin
        · exact h3 x hx
      · rcases h4 with h4 | ⟨x, hx, h4⟩
        · exact .inl h4
        · exact .inr ⟨x, by simp [hx], h4⟩

/-- **C75**, for every system described by a `Part`, graphics of any finite half heights and an object of any height `H ≥ 0`: the
range is the smallest one in which the graphics, the object and its images inside of the path fit, where the images are
those listed by `intermediateConjugates()` (C36). -/
theorem C75_range {label : String} {ps : List (Part K)} (hv : (Part.group label ps).Valid) {g : Group (Ext K)}
    (hb : (Part.group label ps).build = .ok g.toElem) (hc : g.toElem.Clean) (hs : List K) {H : K} (hH : 0 ≤ H) :
    ∃ (planes : List (K × K)) (R : K), g.intermediateConjugates = .ok (planes.map fun q => (fin q.1, fin q.2)) ∧
      g.imagingDisplayRange (hs.map fin) (fin H) = .ok (fin R) ∧
      (∀ h ∈ hs, 2 * h ≤ R) ∧ H ≤ R ∧
      (∀ q ∈ planes, 0 ≤ q.1 → q.1 ≤ totalLength (Part.group label ps).stages → |q.2 * H| ≤ R) ∧
      ∀ R', (∀ h ∈ hs, 2 * h ≤ R') → H ≤ R' →
        (∀ q ∈ planes, 0 ≤ q.1 → q.1 ≤ totalLength (Part.group label ps).stages → |q.2 * H| ≤ R') → R ≤ R' := by
  obtain ⟨planes, h1, -⟩ := C36_intermediateConjugates hv hb hc
  obtain ⟨hg, -⟩ := build_good hv hb hc
  have hL : g.mat.L = fin (totalLength (Part.group label ps).stages) := by
    rw [← hg.total (build_stages hb)]; exact hg.den.L
  obtain ⟨m, m1, m2, m3, m4⟩ := largestGraphic_eq hs 0
  set L := totalLength (Part.group label ps).stages
  obtain ⟨R, r1, r2, r3, r4⟩ := imagesRange_eq H L planes (max m H)
  have habs : ∀ q : K × K, |q.2 * H| = H * |q.2| := fun q => by rw [abs_mul, abs_of_nonneg hH, mul_comm]
  refine ⟨planes, R, h1, ?_, ?_, ?_, ?_, ?_⟩
  · unfold Group.imagingDisplayRange
    rw [h1, zero_eq, m1, hL]
    have e : ((fin m : Ext K) ==. inf) = false := by rfl
    simp only [e, Bool.false_or, le_fin]
    rw [← r1]
    congr 2
    by_cases h : m ≤ H
    · simp [h]
    · simp [h, max_eq_left (not_le.1 h).le]
  · intro h hh; exact (m3 h hh).trans ((le_max_left _ _).trans r2)
  · exact (le_max_right _ _).trans r2
  · intro q hq a b; rw [habs]; exact r3 q hq a b
  · intro R' h1 h2 h3
    rcases r4 with r4 | ⟨q, hq, a, b, r4⟩
    · rw [r4]
      refine max_le ?_ h2
      rcases m4 with m4 | ⟨h, hh, m4⟩
      · rw [m4]; exact hH.trans h2
      · rw [m4]; exact h1 h hh
    · rw [r4, ← habs]; exact h3 q hq a b

theorem pinf_not_lt (x : Ext K) : ((pinf : Ext K) <. x) = false := by
  cases x <;> rfl

theorem largestGraphic_pinf (hs : List (Ext K)) : largestGraphic hs (pinf : Ext K) = pinf := by
  induction hs with
  | nil => rfl
  | cons h hs ih => simp only [largestGraphic, pinf_not_lt]; exact ih

/-- **C75**: when a graphic is infinitely high, the range is the one that the object and its images fill, whatever the other graphics. -/
theorem C75_infinite (g : Group (Ext K)) (hs : List (Option K)) (hi : none ∈ hs) {H : K} (hH : 0 ≤ H) :
    g.imagingDisplayRange (hs.map optInf) (fin H) = g.imagingDisplayRange [] (fin H) := by
  have key : ∀ (hs : List (Option K)) (r : K), none ∈ hs → largestGraphic (hs.map optInf) (fin r : Ext K) = pinf := by
    intro hs
    induction hs with
    | nil => simp
    | cons h hs ih =>
      intro r hr
      cases h with
      | none =>
        have e : (pinf : Ext K) * 2 = pinf := by
          rw [ofNat_eq, pinf_mul_fin]; simp [infOf]
        have e2 : ((fin r : Ext K) <. pinf) = true := rfl
        simp only [List.map_cons, largestGraphic, optInf, e, e2]
        exact largestGraphic_pinf _
      | some x =>
        simp only [List.map_cons, largestGraphic, optInf, ofNat_eq, fin_mul_fin]
        have hr' : none ∈ hs := by simpa using hr
        split
        · exact ih _ hr'
        · exact ih _ hr'
  unfold Group.imagingDisplayRange
  rw [zero_eq, key hs 0 hi]
  simp [largestGraphic, hH]

/-- A path with an infinitely high graphic. -/
example :
    withPath [.space 15 1 none, .lens 10 none, .space (40 : ℚ) 1 none]
      (fun g => g.imagingDisplayRange [fin 100, pinf] (fin 2)) = .ok (.ok (fin 4)) := by decide +kernel

/-- An object of height 2 imaged to 4 inside of the path, between elements of half heights 1 and 1/2. -/
example :
    withPath [.space 15 1 none, .lens 10 none, .space (40 : ℚ) 1 none]
      (fun g => g.imagingDisplayRange [fin 1, fin (1/2)] (fin 2)) = .ok (.ok (fin 4)) ∧
    withPath [.space 15 1 none, .lens 10 none, .space (20 : ℚ) 1 none]
      (fun g => g.imagingDisplayRange [fin 1, fin (1/2)] (fin 2)) = .ok (.ok (fin 2)) := by
  refine ⟨?_, ?_⟩ <;> decide +kernel

/-- **C75** for laser paths: the range contains the graphics of the elements and no more, when one of them has a height; otherwise it
is three times the size of the input beam, or 100 without beam. -/
theorem C75_laser (hs : List ℝ) (b : Option (Beam (Ext ℝ))) (h0 : ∀ h ∈ hs, 0 ≤ h) :
    ((∃ h ∈ hs, h ≠ 0) → ∃ R, laserDisplayRange (hs.map fin) b = .ok (fin R) ∧ (∀ h ∈ hs, 2 * h ≤ R) ∧ ∃ h ∈ hs, R = 2 * h) ∧
    ((∀ h ∈ hs, h = 0) → laserDisplayRange (hs.map fin) none = .ok (fin 100) ∧
      ∀ beam w, beam.w = .ok (fin w) → laserDisplayRange (hs.map fin) (some beam) = .ok (fin (3 * w))) := by
  obtain ⟨m, m1, m2, m3, m4⟩ := largestGraphic_eq hs 0
  have e : ((fin m : Ext ℝ) ==. inf) = false := by rfl
  constructor
  · rintro ⟨h, hh, hne⟩
    have hm : m ≠ 0 := by
      have := m3 h hh
      have := lt_of_le_of_ne (h0 h hh) (Ne.symm hne)
      intro; linarith
    refine ⟨m, ?_, m3, ?_⟩
    · unfold laserDisplayRange
      rw [zero_eq, m1]
      simp [e, hm]
    · rcases m4 with m4 | m4
      · exact absurd m4 hm
      · exact m4
  · intro hz
    have hm : m = 0 := by
      rcases m4 with m4 | ⟨h, hh, m4⟩
      · exact m4
      · rw [m4, hz h hh, mul_zero]
    constructor
    · unfold laserDisplayRange
      rw [zero_eq, m1]
      simp [hm, ofNat_eq]
    · intro beam w hw
      unfold laserDisplayRange
      rw [zero_eq, m1]
      simp [hm, ofNat_eq, hw, Except.map, mul_comm]

/-! ## C76: merging labels -/

/-- texts separated by commas -/
def joinComma : List String → String
  | [] => ""
  | [t] => t
  | t :: ts => t ++ ", " ++ joinComma ts

theorem joinComma_snoc {ts : List String} (h : ts ≠ []) (t : String) : joinComma (ts ++ [t]) = joinComma ts ++ ", " ++ t := by
  induction ts with
  | nil => exact absurd rfl h
  | cons a ts ih =>
    cases ts with
    | nil => rfl
    | cons b ts =>
      have := ih (by simp)
      simp only [List.cons_append, joinComma] at this ⊢
      rw [this]
      simp [String.append_assoc]

section merge
variable {F : Type} [PyNum F]

theorem dictSet_keys {α β : Type} [DecidableEq α] (d : List (α × β)) (k : α) (v : β) :
    (dictSet d k v).map Prod.fst = if k ∈ d.map Prod.fst then d.map Prod.fst else d.map Prod.fst ++ [k] := by
  have hiff : (d.any fun e => e.1 == k) = true ↔ k ∈ d.map Prod.fst := by
    simp only [List.any_eq_true, List.mem_map, beq_iff_eq]
  unfold dictSet
  by_cases h : (d.any fun e => e.1 == k) = true
  · rw [if_pos h, if_pos (hiff.1 h), List.map_map]
    refine List.map_congr_left fun e _ => ?_
    simp only [Function.comp]
    split_ifs with he
    · exact (by simpa using he : e.1 = k).symm
    · rfl
  · rw [if_neg h, if_neg (fun hh => h (hiff.2 hh))]
    simp

theorem dictGet_mem {α β : Type} [DecidableEq α] {d : List (α × β)} (hn : (d.map Prod.fst).Nodup) (k : α) (v : β) :
    (k, v) ∈ d ↔ dictGet d k = some v := by
  induction d with
  | nil => simp [dictGet]
  | cons e d ih =>
    simp only [List.map_cons, List.nodup_cons] at hn
    obtain ⟨a, b⟩ := e
    unfold dictGet at ih ⊢
    simp only [List.find?_cons, List.mem_cons, Prod.mk.injEq]
    by_cases h : a = k
    · subst h
      simp only [beq_self_eq_true, Option.map_some, Option.some.injEq, true_and]
      constructor
      · rintro (h | h)
        · exact h.symm
        · exact absurd (List.mem_map_of_mem (f := Prod.fst) h) hn.1
      · intro h; exact .inl h.symm
    · have : (a == k) = false := by simpa using h
      rw [this]
      simp only [← ih hn.2]
      constructor
      · rintro (⟨h1, -⟩ | h1)
        · exact absurd h1.symm h
        · exact h1
      · exact .inr

/-- the texts of the points with a given formatted position -/
def textsAt (fmt : F → String) (pts : List (F × String)) (k : String) : List String :=
  (pts.filter fun p => fmt p.1 == k).map Prod.snd

theorem merge_spec (fmt : F → String) (pts : List (F × String)) :
    ((pts.foldl (addLabel fmt) []).map Prod.fst).Nodup ∧
    ∀ k, dictGet (pts.foldl (addLabel fmt) []) k =
      if textsAt fmt pts k = [] then none else some (joinComma (textsAt fmt pts k)) := by
  induction pts using List.reverseRecOn with
  | nil => exact ⟨by simp, by simp [dictGet, textsAt]⟩
  | append_singleton pts p ih =>
    obtain ⟨ih1, ih2⟩ := ih
    rw [List.foldl_append, List.foldl_cons, List.foldl_nil]
    set d := pts.foldl (addLabel fmt) [] with hd
    have nodup : ∀ v, ((dictSet d (fmt p.1) v).map Prod.fst).Nodup := by
      intro v
      rw [dictSet_keys]
      split_ifs with h
      · exact ih1
      · rw [List.nodup_append]
        refine ⟨ih1, by simp, ?_⟩
        intro a ha b hb
        simp only [List.mem_singleton] at hb
        subst hb
        exact fun hab => h (hab ▸ ha)
    have hadd : ∃ v, addLabel fmt d p = dictSet d (fmt p.1) v ∧ v = joinComma (textsAt fmt (pts ++ [p]) (fmt p.1)) := by
      unfold addLabel
      have ht : textsAt fmt (pts ++ [p]) (fmt p.1) = textsAt fmt pts (fmt p.1) ++ [p.2] := by
        simp [textsAt, List.filter_append]
      rw [ih2, ht]
      by_cases h : textsAt fmt pts (fmt p.1) = []
      · rw [if_pos h, h]
        exact ⟨_, rfl, rfl⟩
      · rw [if_neg h]
        exact ⟨_, rfl, (joinComma_snoc h _).symm⟩
    obtain ⟨v, h1, h2⟩ := hadd
    rw [h1]
    refine ⟨nodup v, fun k => ?_⟩
    by_cases hk : k = fmt p.1
    · subst hk
      rw [dictGet_set, h2, if_neg]
      simp [textsAt, List.filter_append]
    · rw [dictGet_set_ne _ _ hk, ih2]
      have : textsAt fmt (pts ++ [p]) k = textsAt fmt pts k := by
        have : (fmt p.1 == k) = false := by simpa using fun h => hk h.symm
        simp [textsAt, List.filter_append, this]
      rw [this]

/-- the text of a label of the element of rank `i` -/
def markText (several : Bool) (label : String) (i : Nat) : String := if several then numbered label i else label

/-- the points of all the elements in order, with their texts; `i` elements with points precede -/
def allPoints (several : Bool) : Nat → List (List (F × String)) → List (F × String)
  | _, [] => []
  | i, pts :: rest =>
    (pts.map fun p => (p.1, markText several p.2 (if pts.isEmpty then i else i + 1))) ++
      allPoints several (if pts.isEmpty then i else i + 1) rest

/-- one more than the number of elements before the `j`-th one that have points of interest -/
def rankOf (ptss : List (List (F × String))) (j : Nat) : Nat := ((ptss.take j).filter fun l => !l.isEmpty).length + 1

theorem mem_allPoints {several : Bool} {i : Nat} {ptss : List (List (F × String))} {x : F × String} :
    x ∈ allPoints several i ptss ↔
      ∃ j pts p, ptss[j]? = some pts ∧ p ∈ pts ∧ x = (p.1, markText several p.2 (i + rankOf ptss j)) := by
  induction ptss generalizing i with
  | nil => simp [allPoints]
  | cons l ptss ih =>
    simp only [allPoints, List.mem_append, List.mem_map, ih]
    constructor
    · rintro (⟨p, hp, rfl⟩ | ⟨j, pts, p, h1, h2, rfl⟩)
      · refine ⟨0, l, p, rfl, hp, ?_⟩
        have : l.isEmpty = false := by cases l; · simp at hp
                                       · rfl
        simp [this, rankOf]
      · refine ⟨j + 1, pts, p, by simpa using h1, h2, ?_⟩
        cases l with
        | nil => simp [rankOf]
        | cons a l => simp [rankOf]; congr 1; omega
    · rintro ⟨j, pts, p, h1, h2, rfl⟩
      cases j with
      | zero =>
        simp only [List.getElem?_cons_zero, Option.some.injEq] at h1
        subst h1
        left
        refine ⟨p, h2, ?_⟩
        have : l.isEmpty = false := by cases l; · simp at h2
                                       · rfl
        simp [this, rankOf]
      | succ j =>
        right
        refine ⟨j, pts, p, by simpa using h1, h2, ?_⟩
        cases l with
        | nil => simp [rankOf]
        | cons a l => simp [rankOf]; congr 1; omega

end merge

theorem pointsLoop_eq (fmt : Ext K → String) (poi : Elem (Ext K) → Ext K → Except PyErr (List (Ext K × String))) (several : Bool)
    {es : List (Elem (Ext K))} (hok : OkList es) {ptss : List (List (Ext K × String))} (z : K)
    (hlen : ptss.length = es.length)
    (h : ∀ j e pts, es[j]? = some e → ptss[j]? = some pts → poi e (fin (z + lengthOf (es.take j))) = .ok pts)
    (i : Nat) (pts0 : List (Ext K × String)) :
    pointsLoop fmt poi several es (fin z) i (pts0.foldl (addLabel fmt) []) =
      .ok ((pts0 ++ allPoints several i ptss).foldl (addLabel fmt) []) := by
  induction es generalizing z ptss i pts0 with
  | nil =>
    have : ptss = [] := List.length_eq_zero_iff.1 hlen
    subst this
    simp [pointsLoop, allPoints]
  | cons e es ih =>
    cases ptss with
    | nil => simp at hlen
    | cons pts ptss =>
      have h0 := h 0 e pts rfl rfl
      simp only [List.take_zero, lengthOf, sysList, List.map_nil, List.sum_nil, add_zero] at h0
      rw [pointsLoop, h0]
      simp only
      have hfold : ∀ (n : Nat) (d : List (String × String)), pts.foldl (fun d p => addLabel fmt d (p.1, if several = true then numbered p.2 n else p.2)) d =
          (pts.map fun p => (p.1, markText several p.2 n)).foldl (addLabel fmt) d := by
        intro n d
        rw [List.foldl_map]
        rfl
      rw [hfold, ← List.foldl_append, (hok e (by simp)).den.L, fin_add_fin]
      rw [ih (fun e he => hok e (by simp [he])) (ptss := ptss) (z + e.mat.sys.len) (by simpa using hlen)
        (by
          intro j e' pts' h1 h2
          have := h (j + 1) e' pts' (by simpa using h1) (by simpa using h2)
          rw [List.take_succ_cons, lengthOf_cons, ← add_assoc] at this
          exact this)]
      simp only [allPoints, List.append_assoc]

/-- **C76**, the marks of a path: for any points of interest of its elements (`ptss`, one list per element, at the position of the
element), every point has its text at its formatted position, there is no other text, and each formatted position is marked once. -/
theorem C76_marks (fmt : Ext K → String) (val : String → Ext K) (poi : Elem (Ext K) → Ext K → Except PyErr (List (Ext K × String)))
    {g : Group (Ext K)} (hok : OkList g.elems) {ptss : List (List (Ext K × String))} (hlen : ptss.length = g.elems.length)
    (h : ∀ j e pts, g.elems[j]? = some e → ptss[j]? = some pts → poi e (fin (lengthOf (g.elems.take j))) = .ok pts)
    (hval : ∀ a b, val (fmt a) = val (fmt b) → fmt a = fmt b) :
    ∃ (marks : List (Ext K × String)) (several : Bool), g.marks fmt val poi = .ok marks ∧
      (several = true ↔ 2 ≤ (g.elems.filter fun e => !e.isSpace).length) ∧
      (∀ (j : Nat) pts p, ptss[j]? = some pts → p ∈ pts →
        ∃ texts, (val (fmt p.1), joinComma texts) ∈ marks ∧ markText several p.2 (rankOf ptss j) ∈ texts) ∧
      (∀ x text, (x, text) ∈ marks → ∃ texts, texts ≠ [] ∧ text = joinComma texts ∧
        ∀ t ∈ texts, ∃ (j : Nat) (pts : _) (p : _), ptss[j]? = some pts ∧ p ∈ pts ∧ x = val (fmt p.1) ∧
          t = markText several p.2 (rankOf ptss j)) ∧
      (marks.map Prod.fst).Nodup := by
  set several : Bool := decide (1 < (g.elems.filter fun e => !e.isSpace).length) with hsev
  have key := pointsLoop_eq fmt poi several hok (ptss := ptss) 0 hlen (by simpa using h) 0 []
  simp only [List.foldl_nil, List.nil_append] at key
  obtain ⟨m1, m2⟩ := merge_spec fmt (allPoints several 0 ptss)
  set d := (allPoints several 0 ptss).foldl (addLabel fmt) [] with hd
  have mem : ∀ k l, (k, l) ∈ d ↔ textsAt fmt (allPoints several 0 ptss) k ≠ [] ∧
      l = joinComma (textsAt fmt (allPoints several 0 ptss) k) := by
    intro k l
    rw [dictGet_mem m1, m2]
    split_ifs with h
    · simp [h]
    · simp only [Option.some.injEq, ne_eq, h, not_false_eq_true, true_and]
      exact eq_comm
  have hkeys : ∀ k l, (k, l) ∈ d → ∃ a, k = fmt a := by
    intro k l hkl
    obtain ⟨h1, -⟩ := (mem k l).1 hkl
    obtain ⟨t, ht⟩ := List.exists_mem_of_ne_nil _ h1
    obtain ⟨p, hp, -⟩ := List.mem_map.1 ht
    have := (List.mem_filter.1 hp).2
    exact ⟨p.1, (by simpa using this : fmt p.1 = k).symm⟩
  refine ⟨d.map fun e => (val e.1, e.2), several, ?_, ?_, ?_, ?_, ?_⟩
  · unfold Group.marks
    rw [zero_eq]
    simp only [← hsev, key]
  · rw [hsev]; simp only [decide_eq_true_eq]; omega
  · intro j pts p h1 h2
    refine ⟨textsAt fmt (allPoints several 0 ptss) (fmt p.1), ?_, ?_⟩
    · rw [List.mem_map]
      refine ⟨(fmt p.1, joinComma (textsAt fmt (allPoints several 0 ptss) (fmt p.1))), (mem _ _).2 ⟨?_, rfl⟩, rfl⟩
      refine List.ne_nil_of_mem (a := markText several p.2 (rankOf ptss j)) ?_
      refine List.mem_map.2 ⟨(p.1, markText several p.2 (rankOf ptss j)), List.mem_filter.2 ⟨?_, by simp⟩, rfl⟩
      exact mem_allPoints.2 ⟨j, pts, p, h1, h2, by simp⟩
    · refine List.mem_map.2 ⟨(p.1, markText several p.2 (rankOf ptss j)), List.mem_filter.2 ⟨?_, by simp⟩, rfl⟩
      exact mem_allPoints.2 ⟨j, pts, p, h1, h2, by simp⟩
  · intro x text hx
    obtain ⟨⟨k, l⟩, hkl, he⟩ := List.mem_map.1 hx
    simp only [Prod.mk.injEq] at he
    obtain ⟨rfl, rfl⟩ := he
    obtain ⟨h1, h2⟩ := (mem k l).1 hkl
    refine ⟨_, h1, h2, fun t ht => ?_⟩
    obtain ⟨q, hq, rfl⟩ := List.mem_map.1 ht
    obtain ⟨hq1, hq2⟩ := List.mem_filter.1 hq
    obtain ⟨j, pts, p, a, b, rfl⟩ := mem_allPoints.1 hq1
    refine ⟨j, pts, p, a, b, ?_, by simp⟩
    have : fmt p.1 = k := by simpa using hq2
    rw [this]
  · rw [List.map_map]
    have : (d.map ((Prod.fst : Ext K × String → Ext K) ∘ fun e : String × String => (val e.1, e.2))) =
        (d.map Prod.fst).map val := by rw [List.map_map]; rfl
    rw [this]
    refine List.Nodup.map_on ?_ m1
    intro a ha b hb hab
    obtain ⟨⟨a', la⟩, ha', rfl⟩ := List.mem_map.1 ha
    obtain ⟨⟨b', lb⟩, hb', rfl⟩ := List.mem_map.1 hb
    obtain ⟨u, rfl⟩ := hkeys _ _ ha'
    obtain ⟨v, rfl⟩ := hkeys _ _ hb'
    exact hval u v hab

/-! ## C76: the foci -/

/-- the kinds of elements whose foci are marked -/
def Mat.Focusing {F : Type} (m : Mat F) : Prop :=
  match m.kind with
  | .lens _ _ => True
  | .curvedMirror => True
  | .thickLens _ _ _ => True
  | .slab _ _ _ => True
  | _ => False

/-- `F1`, `F2` are the front and back foci of a system placed at `z`. -/
def AreFoci (s : Sys K) (z F1 F2 : K) : Prop :=
  (∀ y, y ≠ 0 → ∀ x, (Sys.space (x - (z + s.len)) s.nb).outY (s.outY y 0) (s.outθ y 0) = 0 ↔ x = F2) ∧
  (∀ θ, s.outθ ((Sys.space (z - F1) s.nf).outY 0 θ) ((Sys.space (z - F1) s.nf).outθ 0 θ) = 0)

theorem points_eq {e : Elem (Ext K)} (hg : e.Good) (z : K) :
    (∃ m F1 F2, e = .leaf m ∧ m.Focusing ∧ 1 / 100000 < |m.sys.c| ∧ AreFoci m.sys z F1 F2 ∧
      e.pointsOfInterest (fin z) = .ok [(fin F1, "$F_f$"), (fin F2, "$F_b$")]) ∨
    ((∀ m, e = .leaf m → m.Focusing → |m.sys.c| ≤ 1 / 100000) ∧ e.pointsOfInterest (fin z) = .ok []) := by
  cases e with
  | group m c es => right; exact ⟨by simp, rfl⟩
  | leaf m =>
    unfold Elem.Good at hg
    have hb := hg.lawful.2.1
    have hfoci : m.Focusing → (Elem.leaf m).pointsOfInterest (fin z) = fociPoints m (fin z) := by
      intro h
      unfold Mat.Focusing at h
      simp only [Elem.pointsOfInterest, Mat.pointsOfInterest]
      split at h <;> first | rfl | exact absurd h id | simp_all
    by_cases hf : m.Focusing
    · by_cases hc : 1 / 100000 < |m.sys.c|
      · left
        obtain ⟨z1, z2, h1, h2, h3⟩ := C23_foci_partial hg.den hb hc z
        refine ⟨m, z1, z2, rfl, hf, hc, ⟨h2, h3⟩, ?_⟩
        rw [hfoci hf]
        unfold fociPoints
        rw [h1]; rfl
      · right
        refine ⟨?_, ?_⟩
        · intro m' h _; simp only [Elem.leaf.injEq] at h; subst h; exact not_lt.1 hc
        · rw [hfoci hf]
          unfold fociPoints Mat.focusPositions
          rw [hasPower_den hg.den, decide_eq_false hc]
          rfl
    · right
      refine ⟨?_, ?_⟩
      · intro m' h h'; simp only [Elem.leaf.injEq] at h; subst h; exact absurd h' hf
      · simp only [Elem.pointsOfInterest, Mat.pointsOfInterest]
        unfold Mat.Focusing at hf
        split <;> simp_all

/-- **C76**, for every path described by parts, formatting positions with an error of at most 1/2000 (`"{0:3.3f}"`): the marks can be
computed; each lens, curved mirror, thick lens or slab of the path with a power above the tolerance has both its foci marked, with texts
that say which is which and, if the path has several elements that are not spaces, the rank of the element; every mark is at a focus
of such an element. What is missing: the elements inside of groups, see `C76_violated_group`. -/
theorem C76_foci_partial {label : String} {ps : List (Part K)} (hv : (Part.group label ps).Valid) {g : Group (Ext K)}
    (hb : (Part.group label ps).build = .ok g.toElem) (hc : g.toElem.Clean) {fmt : Ext K → String} {val : String → Ext K}
    (hfmt : ∀ x : K, ∃ y, val (fmt (fin x)) = fin y ∧ |y - x| ≤ 1 / 2000)
    (hval : ∀ a b, val (fmt a) = val (fmt b) → fmt a = fmt b) :
    ∃ (marks : List (Ext K × String)) (several : Bool) (rank : Nat → Nat), g.marks fmt val Elem.pointsOfInterest = .ok marks ∧
      (several = true ↔ 2 ≤ (g.elems.filter fun e => !e.isSpace).length) ∧
      (∀ (j : Nat) m, g.elems[j]? = some (.leaf m) → m.Focusing → 1 / 100000 < |m.sys.c| →
        ∃ F1 F2 x1 x2 texts1 texts2, AreFoci m.sys (lengthOf (g.elems.take j)) F1 F2 ∧
          |x1 - F1| ≤ 1 / 2000 ∧ |x2 - F2| ≤ 1 / 2000 ∧
          (fin x1, joinComma texts1) ∈ marks ∧ markText several "$F_f$" (rank j) ∈ texts1 ∧
          (fin x2, joinComma texts2) ∈ marks ∧ markText several "$F_b$" (rank j) ∈ texts2) ∧
      (∀ x text, (x, text) ∈ marks → ∃ (j : Nat) (m : _) (F1 F2 y : K), g.elems[j]? = some (.leaf m) ∧ m.Focusing ∧
        AreFoci m.sys (lengthOf (g.elems.take j)) F1 F2 ∧ x = fin y ∧ (|y - F1| ≤ 1 / 2000 ∨ |y - F2| ≤ 1 / 2000)) ∧
      (∀ i j m m', g.elems[i]? = some (.leaf m) → m.Focusing → 1 / 100000 < |m.sys.c| →
        g.elems[j]? = some (.leaf m') → m'.Focusing → 1 / 100000 < |m'.sys.c| → i < j → rank i < rank j) := by
  obtain ⟨hgood, -⟩ := build_good hv hb hc
  unfold Group.toElem Elem.Good at hgood
  have hgl := GoodList_iff.1 hgood.1
  have hok : OkList g.elems := fun e he => ⟨(hgl e he).den, (hgl e he).lawful⟩
  -- the points of each element
  obtain ⟨ptss, hlen, hpts⟩ : ∃ ptss : List (List (Ext K × String)), ptss.length = g.elems.length ∧
      ∀ (j : Nat) (e : Elem (Ext K)) pts, g.elems[j]? = some e → ptss[j]? = some pts →
        e.pointsOfInterest (fin (lengthOf (g.elems.take j))) = .ok pts := by
    refine ⟨g.elems.mapIdx fun j e => match e.pointsOfInterest (fin (lengthOf (g.elems.take j))) with
      | .ok pts => pts
      | .error _ => [], by simp, ?_⟩
    intro j e pts h1 h2
    rw [List.getElem?_mapIdx, h1] at h2
    simp only [Option.map_some, Option.some.injEq] at h2
    rcases points_eq (hgl e (List.mem_of_getElem? h1)) (lengthOf (g.elems.take j)) with ⟨m, F1, F2, -, -, -, -, h⟩ | ⟨-, h⟩ <;>
    · rw [h] at h2 ⊢
      rw [← h2]
  have hget : ∀ (j : Nat) e, g.elems[j]? = some e → ∃ pts, ptss[j]? = some pts := by
    intro j e h
    have : j < ptss.length := by rw [hlen]; exact (List.getElem?_eq_some_iff.1 h).1
    exact ⟨ptss[j], List.getElem?_eq_getElem this⟩
  have focal : ∀ (j : Nat) m, g.elems[j]? = some (.leaf m) → m.Focusing → 1 / 100000 < |m.sys.c| →
      ∃ F1 F2, AreFoci m.sys (lengthOf (g.elems.take j)) F1 F2 ∧ ptss[j]? = some [(fin F1, "$F_f$"), (fin F2, "$F_b$")] := by
    intro j m hj hf hc
    obtain ⟨pts, hp⟩ := hget j _ hj
    have h1 := hpts j _ _ hj hp
    rcases points_eq (hgl _ (List.mem_of_getElem? hj)) (lengthOf (g.elems.take j)) with ⟨m', F1, F2, e1, -, -, h2, h3⟩ | ⟨h2, -⟩
    · simp only [Elem.leaf.injEq] at e1
      subst e1
      rw [h1] at h3
      simp only [Except.ok.injEq] at h3
      exact ⟨F1, F2, h2, by rw [hp, h3]⟩
    · exact absurd hc (not_lt.2 (h2 m rfl hf))
  obtain ⟨marks, several, h1, h2, h3, h4, -⟩ := C76_marks fmt val Elem.pointsOfInterest hok hlen hpts hval
  refine ⟨marks, several, rankOf ptss, h1, h2, ?_, ?_, ?_⟩
  · intro j m hj hf hc
    obtain ⟨F1, F2, a1, a2⟩ := focal j m hj hf hc
    obtain ⟨x1, e1, e1'⟩ := hfmt F1
    obtain ⟨x2, e2, e2'⟩ := hfmt F2
    obtain ⟨t1, b1, b2⟩ := h3 j _ (fin F1, "$F_f$") a2 (by simp)
    obtain ⟨t2, c1, c2⟩ := h3 j _ (fin F2, "$F_b$") a2 (by simp)
    simp only [e1] at b1
    simp only [e2] at c1
    exact ⟨F1, F2, x1, x2, t1, t2, a1, e1', e2', b1, b2, c1, c2⟩
  · intro x text hx
    obtain ⟨texts, t1, -, t3⟩ := h4 x text hx
    obtain ⟨t, ht⟩ := List.exists_mem_of_ne_nil _ t1
    obtain ⟨j, pts, p, q1, q2, q3, -⟩ := t3 t ht
    have hj : j < g.elems.length := by rw [← hlen]; exact (List.getElem?_eq_some_iff.1 q1).1
    have hje : g.elems[j]? = some g.elems[j] := List.getElem?_eq_getElem hj
    have hp := hpts j _ _ hje q1
    rcases points_eq (hgl _ (List.mem_of_getElem? hje)) (lengthOf (g.elems.take j)) with ⟨m, F1, F2, e1, e2, -, e3, e4⟩ | ⟨-, e4⟩
    · rw [hp] at e4
      simp only [Except.ok.injEq] at e4
      subst e4
      simp only [List.mem_cons, List.not_mem_nil, or_false] at q2
      rcases q2 with rfl | rfl
      · obtain ⟨y, y1, y2⟩ := hfmt F1
        exact ⟨j, m, F1, F2, y, by rw [hje, e1], e2, e3, by rw [q3, y1], .inl y2⟩
      · obtain ⟨y, y1, y2⟩ := hfmt F2
        exact ⟨j, m, F1, F2, y, by rw [hje, e1], e2, e3, by rw [q3, y1], .inr y2⟩
    · rw [hp] at e4
      simp only [Except.ok.injEq] at e4
      subst e4
      simp at q2
  · intro i j m m' hi hf hc hj hf' hc' hij
    obtain ⟨F1, F2, -, a2⟩ := focal i m hi hf hc
    unfold rankOf
    rw [show j = (i + 1) + (j - (i + 1)) by omega, List.take_add, List.filter_append, List.length_append, List.take_add_one, a2]
    simp

/-- **C76** is violated by the elements inside of groups: a path made of spaces and groups has no mark at all, whatever lenses the groups
contain. -/
theorem C76_violated_group {fmt : Ext K → String} {val : String → Ext K} {g : Group (Ext K)}
    (h : ∀ e ∈ g.elems, e.isSpace = true ∨ ∃ m c es, e = .group m c es) :
    g.marks fmt val Elem.pointsOfInterest = .ok [] := by
  have key : ∀ (several : Bool) (es : List (Elem (Ext K))), (∀ e ∈ es, e.isSpace = true ∨ ∃ m c es, e = .group m c es) → ∀ z i,
      pointsLoop fmt Elem.pointsOfInterest several es z i [] = .ok [] := by
    intro several es
    induction es with
    | nil => intro _ z i; rfl
    | cons e es ih =>
      intro h z i
      have hp : e.pointsOfInterest z = .ok [] := by
        rcases h e (by simp) with he | ⟨m, c, fs, rfl⟩
        · cases e with
          | group m c fs => rfl
          | leaf m =>
            simp only [Elem.isSpace, Elem.mat] at he
            simp only [Elem.pointsOfInterest, Mat.pointsOfInterest]
            split <;> simp_all
        · rfl
      rw [pointsLoop, hp]
      exact ih (fun e he => h e (by simp [he])) _ _
  unfold Group.marks
  simp only [key _ _ h]
  rfl

/-- **C76** is violated by a `CompoundLens` without power (`s.c` below the tolerance): the marks of every path that contains one cannot be
computed, `TypeError`, once those of the elements before it have been. -/
theorem C76_violated_afocal {fmt : Ext K → String} {val : String → Ext K} {m : Mat (Ext K)} {c} {pre post : List (Elem (Ext K))}
    {e : Elem (Ext K)} {poi : Elem (Ext K) → Ext K → Except PyErr (List (Ext K × String))} (hok : OkList (pre ++ [e]))
    (hpre : ∀ f ∈ pre, ∀ z : K, ∃ pts, poi f (fin z) = .ok pts) (he : ∀ z, poi e z = compoundPoints e.mat z)
    (hc : |e.mat.sys.c| ≤ 1 / 100000) :
    (⟨m, c, pre ++ e :: post⟩ : Group (Ext K)).marks fmt val poi = .error .typeError := by
  have herr : ∀ z : K, poi e (fin z) = .error .typeError := by
    intro z
    rw [he]
    unfold compoundPoints Mat.focusPositions
    rw [hasPower_den (hok e (by simp)).den, decide_eq_false (not_lt.2 hc)]
    rfl
  have key : ∀ (several : Bool) (pre : List (Elem (Ext K))), OkList (pre ++ [e]) →
      (∀ f ∈ pre, ∀ z : K, ∃ pts, poi f (fin z) = .ok pts) → ∀ (z : K) i d,
      pointsLoop fmt poi several (pre ++ e :: post) (fin z) i d = .error .typeError := by
    intro several pre
    induction pre with
    | nil =>
      intro _ _ z i d
      rw [List.nil_append, pointsLoop, herr]
    | cons f pre ih =>
      intro hok hpre z i d
      obtain ⟨pts, hp⟩ := hpre f (by simp) z
      rw [List.cons_append, pointsLoop, hp]
      simp only [(hok f (by simp)).den.L, fin_add_fin]
      exact ih (fun x hx => hok x (by
        rcases List.mem_append.1 hx with hx | hx
        · simp [hx]
        · simp only [List.mem_singleton] at hx; simp [hx])) (fun f hf => hpre f (by simp [hf])) _ _ _
  unfold Group.marks
  rw [zero_eq]
  simp only [key _ pre hok hpre]

/-- a formatting of positions with an error of at most 1/2000: the nearest thousandth, written in units of 1/1000 -/
def thousandths (x : Ext ℚ) : String :=
  match x with
  | fin q => toString (⌊q * 1000 + 1 / 2⌋)
  | _ => "inf"

/-- Two lenses that share a focus; a lens in a group. -/
example :
    withPath [.space 10 1 none, .lens 5 none, .space 15 1 none, .lens (10 : ℚ) none]
      (fun g => (g.marks thousandths (fun _ => fin 0) Elem.pointsOfInterest).map fun l => l.map Prod.snd) =
      .ok (.ok ["${F_f}_1$", "${F_b}_1$, ${F_f}_2$", "${F_b}_2$"]) ∧
    withPath [.space 10 1 none, .group "" [.lens 5 none], .space (15 : ℚ) 1 none]
      (fun g => (g.marks thousandths (fun _ => fin 0) Elem.pointsOfInterest).map fun l => l.map Prod.snd) = .ok (.ok []) := by
  refine ⟨?_, ?_⟩ <;> decide +kernel

/-! ## The figure of an element or of a group by itself -/

/-- every point has its text at its formatted position, there is no other text, and each formatted position is marked once -/
def Marked (fmt : Ext K → String) (val : String → Ext K) (points marks : List (Ext K × String)) : Prop :=
  (∀ p ∈ points, ∃ texts, (val (fmt p.1), joinComma texts) ∈ marks ∧ p.2 ∈ texts) ∧
  (∀ x text, (x, text) ∈ marks → ∃ texts, texts ≠ [] ∧ text = joinComma texts ∧ ∀ t ∈ texts, ∃ p ∈ points, x = val (fmt p.1) ∧ t = p.2) ∧
  (marks.map Prod.fst).Nodup

theorem marked_merge (fmt : Ext K → String) (val : String → Ext K) (hval : ∀ a b, val (fmt a) = val (fmt b) → fmt a = fmt b)
    (points : List (Ext K × String)) : Marked fmt val points ((points.foldl (addLabel fmt) []).map fun e => (val e.1, e.2)) := by
  obtain ⟨m1, m2⟩ := merge_spec fmt points
  set d := points.foldl (addLabel fmt) [] with hd
  have mem : ∀ k l, (k, l) ∈ d ↔ textsAt fmt points k ≠ [] ∧ l = joinComma (textsAt fmt points k) := by
    intro k l
    rw [dictGet_mem m1, m2]
    split_ifs with h
    · simp [h]
    · simp only [Option.some.injEq, ne_eq, h, not_false_eq_true, true_and]
      exact eq_comm
  have hkeys : ∀ k l, (k, l) ∈ d → ∃ a, k = fmt a := by
    intro k l hkl
    obtain ⟨h1, -⟩ := (mem k l).1 hkl
    obtain ⟨t, ht⟩ := List.exists_mem_of_ne_nil _ h1
    obtain ⟨p, hp, -⟩ := List.mem_map.1 ht
    have := (List.mem_filter.1 hp).2
    exact ⟨p.1, (by simpa using this : fmt p.1 = k).symm⟩
  refine ⟨fun p hp => ?_, fun x text hx => ?_, ?_⟩
  · have ht : p.2 ∈ textsAt fmt points (fmt p.1) := List.mem_map.2 ⟨p, List.mem_filter.2 ⟨hp, by simp⟩, rfl⟩
    refine ⟨textsAt fmt points (fmt p.1), ?_, ht⟩
    rw [List.mem_map]
    exact ⟨(fmt p.1, joinComma (textsAt fmt points (fmt p.1))), (mem _ _).2 ⟨List.ne_nil_of_mem ht, rfl⟩, rfl⟩
  · obtain ⟨⟨k, l⟩, hkl, he⟩ := List.mem_map.1 hx
    simp only [Prod.mk.injEq] at he
    obtain ⟨rfl, rfl⟩ := he
    obtain ⟨h1, h2⟩ := (mem k l).1 hkl
    refine ⟨_, h1, h2, fun t ht => ?_⟩
    obtain ⟨q, hq, rfl⟩ := List.mem_map.1 ht
    obtain ⟨hq1, hq2⟩ := List.mem_filter.1 hq
    refine ⟨q, hq1, ?_, rfl⟩
    rw [show fmt q.1 = k by simpa using hq2]
  · rw [List.map_map]
    have : (d.map ((Prod.fst : Ext K × String → Ext K) ∘ fun e : String × String => (val e.1, e.2))) =
        (d.map Prod.fst).map val := by rw [List.map_map]; rfl
    rw [this]
    refine List.Nodup.map_on ?_ m1
    intro a ha b hb hab
    obtain ⟨⟨a', la⟩, ha', rfl⟩ := List.mem_map.1 ha
    obtain ⟨⟨b', lb⟩, hb', rfl⟩ := List.mem_map.1 hb
    obtain ⟨x, hx⟩ := hkeys _ _ ha'
    obtain ⟨y, hy⟩ := hkeys _ _ hb'
    dsimp only at hx hy hab ⊢
    rw [hx, hy] at hab ⊢
    exact hval _ _ hab

/-- **C76**, the figure of one element by itself, at `x`: the marks are those of its points of interest. -/
theorem C76_element (fmt : Ext K → String) (val : String → Ext K) (hval : ∀ a b, val (fmt a) = val (fmt b) → fmt a = fmt b)
    (poi : Elem (Ext K) → Ext K → Except PyErr (List (Ext K × String))) {e : Elem (Ext K)} {x : Ext K} {pts : List (Ext K × String)}
    (h : poi e x = .ok pts) : ∃ marks, e.graphicMarks fmt val poi x = .ok marks ∧ Marked fmt val pts marks := by
  refine ⟨_, ?_, marked_merge fmt val hval pts⟩
  unfold Elem.graphicMarks
  rw [h]

/-- **C76**, the figure of a group by itself, at `x`: the marks are those of the points of the group at `x` and those of its elements, at the position of
each element in the group. -/
theorem C76_group (fmt : Ext K → String) (val : String → Ext K) (hval : ∀ a b, val (fmt a) = val (fmt b) → fmt a = fmt b)
    (poi : Elem (Ext K) → Ext K → Except PyErr (List (Ext K × String))) (own : Ext K → Except PyErr (List (Ext K × String)))
    {g : Group (Ext K)} (hok : OkList g.elems) {x : Ext K} {pts : List (Ext K × String)} (hown : own x = .ok pts)
    {ptss : List (List (Ext K × String))} (hlen : ptss.length = g.elems.length)
    (h : ∀ j e pts, g.elems[j]? = some e → ptss[j]? = some pts → poi e (fin (lengthOf (g.elems.take j))) = .ok pts) :
    ∃ marks, g.graphicMarks fmt val poi own x = .ok marks ∧ Marked fmt val (pts ++ ptss.flatten) marks := by
  have flat : ∀ (i : Nat) (l : List (List (Ext K × String))), allPoints false i l = l.flatten := by
    intro i l
    induction l generalizing i with
    | nil => rfl
    | cons a l ih => simp [allPoints, markText, ih]
  have key := pointsLoop_eq fmt poi false hok (ptss := ptss) 0 hlen (by simpa using h) 0 pts
  rw [flat] at key
  refine ⟨_, ?_, marked_merge fmt val hval _⟩
  unfold Group.graphicMarks
  rw [hown, zero_eq]
  simp only [key]

/-- **C76** is violated by the figure of a plain group that is not at 0: the marks of its elements do not move with it, whatever the group, while the
graphics of the elements do (C77). For a lens of focal length 5 in a group drawn at 100 they stay at -5 and 5. -/
theorem C76_violated_moved :
    (∀ (F : Type) (_ : PyNum F) (fmt : F → String) (val : String → F) (poi : Elem F → F → Except PyErr (List (F × String))) (g : Group F) (x : F),
      g.graphicMarks fmt val poi (fun _ => .ok []) x = g.graphicMarks fmt val poi (fun _ => .ok []) 0) ∧
    withPath [.lens (5 : ℚ) none] (fun g => (g.graphicMarks thousandths (fun s => if s = thousandths (fin (-5)) then fin (-5) else if s = thousandths (fin 5) then fin 5 else nan)
      Elem.pointsOfInterest (fun _ => .ok []) (fin 100))) = .ok (.ok [(fin (-5), "$F_f$"), (fin 5, "$F_b$")]) := by
  refine ⟨fun _ _ _ _ _ _ _ => rfl, ?_⟩
  decide +kernel

end RT
