import Verif.Model.Canvas
import Verif.Props.Marks

/-! # C81: the rays given are drawn; C82: the check boxes -/

set_option linter.unusedSectionVars false

namespace RT
open PyNum
variable {F : Type} [PyNum F] {α : Type}

/-! ## Dictionaries -/

theorem dictGet_none {β : Type} {d : List (String × β)} {k : String} : dictGet d k = none ↔ k ∉ d.map Prod.fst := by
  unfold dictGet
  rw [Option.map_eq_none_iff, List.find?_eq_none]
  simp only [List.mem_map, beq_iff_eq, not_exists, not_and]

/-- a new key -/
theorem all_set_new (d : Groups α) {k : String} (hk : k ∉ d.map Prod.fst) (v : List (Drawable α)) : Groups.all (dictSet d k v) = Groups.all d ++ v := by
  have h : ¬ d.any (fun e => e.1 == k) = true := by
    intro h
    obtain ⟨e, he, h1⟩ := List.any_eq_true.1 h
    exact hk (List.mem_map.2 ⟨e, he, by simpa using h1⟩)
  simp [dictSet, h, Groups.all]

/-- more items for a key -/
theorem all_set_extend {d : Groups α} (hn : (d.map Prod.fst).Nodup) {k : String} {l : List (Drawable α)} (hk : dictGet d k = some l)
    (v : List (Drawable α)) : (Groups.all (dictSet d k (l ++ v))).Perm (Groups.all d ++ v) := by
  have h : d.any (fun e => e.1 == k) = true := by
    by_contra h
    have : dictGet d k = none := dictGet_none.2 fun hk' => by
      obtain ⟨e, he, h1⟩ := List.mem_map.1 hk'
      exact h (List.any_eq_true.2 ⟨e, he, by simp [h1]⟩)
    simp [this] at hk
  unfold dictSet
  rw [if_pos h]
  clear h
  induction d with
  | nil => simp [dictGet] at hk
  | cons e d ih =>
    have hnd := List.nodup_cons.1 (by simpa using hn : (e.1 :: d.map Prod.fst).Nodup)
    by_cases he : e.1 = k
    · have hl : e.2 = l := by simpa [dictGet, he] using hk
      have hd : (d.map fun e => if (e.1 == k) = true then (k, l ++ v) else e) = d := by
        refine (List.map_congr_left fun e' he' => ?_).trans (List.map_id _)
        have : e'.1 ≠ k := fun h => hnd.1 (List.mem_map.2 ⟨e', he', by rw [h, he]⟩)
        simp [this]
      simp only [List.map_cons, he, beq_self_eq_true, if_true, hd, Groups.all, List.flatMap_cons, hl]
      rw [List.append_assoc, List.append_assoc]
      exact List.Perm.append_left _ List.perm_append_comm
    · have hk' : dictGet d k = some l := by simpa [dictGet, he] using hk
      have := ih hnd.2 hk'
      simp only [List.map_cons, beq_iff_eq, he, if_false, Groups.all, List.flatMap_cons, List.append_assoc] at this ⊢
      exact this.append_left _

/-! ## C81 -/

section lines
variable (fmtObject fmtLamp : F → String)

/-- Specification: the title of the group of its own that objects and lamps which are not at 0 have. -/
def titleOf (r : Traced F α) : Option String :=
  if r.cls = "ObjectRays" then if (r.z ==. 0) = true then none else some (fmtObject r.z)
  else if r.cls = "LampRays" then if (r.z ==. 0) = true then none else some (fmtLamp r.z)
  else none

/-- one set of rays -/
theorem addLines_spec {d : Groups α} (hn : (d.map Prod.fst).Nodup) (ho : kObjectImageKey ∈ d.map Prod.fst) (hl : kLampKey ∈ d.map Prod.fst)
    (hv : ∀ i ∈ Groups.all d, i.visible = true ∧ i.patch = none) {r : Traced F α} (ht : ∀ t, titleOf fmtObject fmtLamp r = some t → t ∉ d.map Prod.fst) :
    ∃ d', addLines fmtObject fmtLamp d r = .ok d' ∧ (d'.map Prod.fst).Nodup ∧ (∀ k ∈ d.map Prod.fst, k ∈ d'.map Prod.fst) ∧
      (∀ k ∈ d'.map Prod.fst, k ∈ d.map Prod.fst ∨ some k = titleOf fmtObject fmtLamp r ∨ k = r.cls) ∧
      (∀ i ∈ Groups.all d', i.visible = true ∧ i.patch = none) ∧
      (Groups.all d').Perm (Groups.all d ++ r.lines.map Drawable.new) := by
  have hext : ∀ k l, dictGet d k = some l → (dictSet d k (l ++ r.lines.map Drawable.new)).map Prod.fst = d.map Prod.fst := by
    intro k l h
    rw [dictSet_keys, if_pos]
    by_contra hk
    rw [dictGet_none.2 hk] at h
    cases h
  have hnew : ∀ {l : List (Drawable α)}, l.Perm (Groups.all d ++ r.lines.map Drawable.new) → ∀ i ∈ l, i.visible = true ∧ i.patch = none := by
    intro l hp i hi
    rcases List.mem_append.1 (hp.mem_iff.1 hi) with h | h
    · exact hv i h
    · obtain ⟨a, -, rfl⟩ := List.mem_map.1 h
      exact ⟨rfl, rfl⟩
  have extends' : ∀ k l, dictGet d k = some l → ∃ d', dictSet d k (l ++ r.lines.map Drawable.new) = d' ∧ (d'.map Prod.fst).Nodup ∧
      (∀ k ∈ d.map Prod.fst, k ∈ d'.map Prod.fst) ∧
      (∀ k ∈ d'.map Prod.fst, k ∈ d.map Prod.fst ∨ some k = titleOf fmtObject fmtLamp r ∨ k = r.cls) ∧
      (∀ i ∈ Groups.all d', i.visible = true ∧ i.patch = none) ∧
      (Groups.all d').Perm (Groups.all d ++ r.lines.map Drawable.new) := by
    intro k l h
    have hp := all_set_extend hn h (r.lines.map Drawable.new)
    refine ⟨_, rfl, by rw [hext k l h]; exact hn, by rw [hext k l h]; exact fun _ h => h, by rw [hext k l h]; exact fun _ h => .inl h,
      hnew hp, hp⟩
  have sets : ∀ k, k ∉ d.map Prod.fst → (some k = titleOf fmtObject fmtLamp r ∨ k = r.cls) →
      ∃ d', dictSet d k (r.lines.map Drawable.new) = d' ∧ (d'.map Prod.fst).Nodup ∧
      (∀ k ∈ d.map Prod.fst, k ∈ d'.map Prod.fst) ∧
      (∀ k ∈ d'.map Prod.fst, k ∈ d.map Prod.fst ∨ some k = titleOf fmtObject fmtLamp r ∨ k = r.cls) ∧
      (∀ i ∈ Groups.all d', i.visible = true ∧ i.patch = none) ∧
      (Groups.all d').Perm (Groups.all d ++ r.lines.map Drawable.new) := by
    intro k hk hkey
    have hkeys : (dictSet d k (r.lines.map Drawable.new)).map Prod.fst = d.map Prod.fst ++ [k] := by rw [dictSet_keys, if_neg hk]
    have hp : (Groups.all (dictSet d k (r.lines.map Drawable.new))).Perm (Groups.all d ++ r.lines.map Drawable.new) := by rw [all_set_new d hk]
    refine ⟨_, rfl, ?_, ?_, ?_, hnew hp, hp⟩
    · rw [hkeys]
      exact List.nodup_append.2 ⟨hn, by simp, fun a ha b hb => by rw [List.mem_singleton.1 hb]; rintro rfl; exact hk ha⟩
    · rw [hkeys]; exact fun _ h => List.mem_append_left _ h
    · rw [hkeys]
      intro k' h
      rcases List.mem_append.1 h with h | h
      · exact .inl h
      · rw [List.mem_singleton.1 h]; exact .inr hkey
  have get : ∀ k, k ∈ d.map Prod.fst → ∃ l, dictGet d k = some l := by
    intro k hk
    cases h : dictGet d k with
    | none => exact absurd hk (dictGet_none.1 h)
    | some l => exact ⟨l, rfl⟩
  unfold addLines
  by_cases h1 : r.cls = "ObjectRays"
  · by_cases hz : (r.z ==. 0) = true
    · obtain ⟨l, hg⟩ := get _ ho
      obtain ⟨d', rfl, h⟩ := extends' _ l hg
      exact ⟨_, by simp [h1, hz, Groups.extend, hg], h⟩
    · have htt : titleOf fmtObject fmtLamp r = some (fmtObject r.z) := by simp [titleOf, h1, hz]
      obtain ⟨d', rfl, h⟩ := sets (fmtObject r.z) (ht _ htt) (.inl htt.symm)
      exact ⟨_, by simp [h1, hz], h⟩
  · by_cases h2 : r.cls = "LampRays"
    · by_cases hz : (r.z ==. 0) = true
      · obtain ⟨l, hg⟩ := get _ hl
        obtain ⟨d', rfl, h⟩ := extends' _ l hg
        exact ⟨_, by simp [h2, hz, Groups.extend, hg], h⟩
      · have htt : titleOf fmtObject fmtLamp r = some (fmtLamp r.z) := by simp [titleOf, h2, hz]
        obtain ⟨d', rfl, h⟩ := sets (fmtLamp r.z) (ht _ htt) (.inl htt.symm)
        exact ⟨_, by simp [h2, hz], h⟩
    · cases hg : dictGet d r.cls with
      | none =>
        obtain ⟨d', rfl, h⟩ := sets r.cls (dictGet_none.1 hg) (.inr rfl)
        exact ⟨_, by simp [h1, h2, hg], h⟩
      | some l =>
        obtain ⟨d', rfl, h⟩ := extends' _ l hg
        exact ⟨_, by simp [h1, h2, hg], h⟩

/-- **C81**, for every list of rays (objects, lamps, or other rays, of which there may be several of the same class or at 0) such that those with a title
of their own have different titles: all the lines of all the rays are in the figure, each exactly once, and visible. -/
theorem C81_all {rs : List (Traced F α)} (hnd : (rs.filterMap (titleOf fmtObject fmtLamp)).Nodup)
    (hold : ∀ t ∈ rs.filterMap (titleOf fmtObject fmtLamp), t ∉ [kPrincipalKey, kObjectImageKey, kLampKey] ∧ ∀ r ∈ rs, r.cls ≠ t) :
    ∃ d, setLines fmtObject fmtLamp rs (Canvas.new : Canvas α).lines = .ok d ∧
      ((Groups.all d).map Drawable.content).Perm (rs.flatMap Traced.lines) ∧ ∀ i ∈ Groups.all d, i.visible = true ∧ i.patch = none := by
  have key : ∀ (rs : List (Traced F α)) (d : Groups α), (d.map Prod.fst).Nodup → kObjectImageKey ∈ d.map Prod.fst → kLampKey ∈ d.map Prod.fst →
      (∀ i ∈ Groups.all d, i.visible = true ∧ i.patch = none) → (rs.filterMap (titleOf fmtObject fmtLamp)).Nodup →
      (∀ t ∈ rs.filterMap (titleOf fmtObject fmtLamp), t ∉ d.map Prod.fst ∧ ∀ r ∈ rs, r.cls ≠ t) →
      ∃ d', setLines fmtObject fmtLamp rs d = .ok d' ∧ ((Groups.all d').map Drawable.content).Perm ((Groups.all d).map Drawable.content ++ rs.flatMap Traced.lines) ∧
        ∀ i ∈ Groups.all d', i.visible = true ∧ i.patch = none := by
    intro rs
    induction rs with
    | nil => intro d _ _ _ hv _ _; exact ⟨d, rfl, by simp, hv⟩
    | cons r rs ih =>
      intro d hn ho hl hv hnd hold
      have ht : ∀ t, titleOf fmtObject fmtLamp r = some t → t ∉ d.map Prod.fst := fun t h =>
        (hold t (List.mem_filterMap.2 ⟨r, by simp, h⟩)).1
      obtain ⟨d1, h1, h2, h3, h4, h5, h6⟩ := addLines_spec fmtObject fmtLamp hn ho hl hv ht
      have hnd' : (rs.filterMap (titleOf fmtObject fmtLamp)).Nodup := by
        rw [List.filterMap_cons] at hnd
        split at hnd
        · exact hnd
        · exact (List.nodup_cons.1 hnd).2
      obtain ⟨d', h7, h8, h9⟩ := ih d1 h2 (h3 _ ho) (h3 _ hl) h5 hnd' (by
        intro t hmem
        have hmem' : t ∈ (r :: rs).filterMap (titleOf fmtObject fmtLamp) := by
          obtain ⟨r', hr', h⟩ := List.mem_filterMap.1 hmem
          exact List.mem_filterMap.2 ⟨r', by simp [hr'], h⟩
        refine ⟨fun hk => ?_, fun r' hr' => (hold t hmem').2 r' (by simp [hr'])⟩
        rcases h4 t hk with h | h | h
        · exact (hold t hmem').1 h
        · rw [List.filterMap_cons, ← h] at hnd
          exact (List.nodup_cons.1 hnd).1 hmem
        · exact (hold t hmem').2 r (by simp) h.symm)
      refine ⟨d', ?_, ?_, h9⟩
      · simp only [setLines, List.foldlM_cons, h1, bind, Except.bind]
        exact h7
      · refine h8.trans ?_
        have := (h6.map Drawable.content).append_right (rs.flatMap Traced.lines)
        refine this.trans ?_
        have e : (Drawable.content ∘ fun a : α => Drawable.new a) = id := rfl
        simp [List.map_append, Function.comp_def, Drawable.new]
  obtain ⟨d, h1, h2, h3⟩ := key rs (Canvas.new : Canvas α).lines (by simp [Canvas.new, kPrincipalKey, kObjectImageKey, kLampKey])
    (by simp [Canvas.new]) (by simp [Canvas.new]) (by simp [Canvas.new, Groups.all]) hnd (by simpa [Canvas.new] using hold)
  exact ⟨d, h1, by simpa [Canvas.new, Groups.all] using h2, h3⟩

/-- **C81 violated** by two objects (or two lamps) that are not at 0 and whose titles are the same, e.g. positions that differ by less than the
decimals shown: the rays of the first are not drawn. -/
theorem C81_violated_same {r1 r2 : Traced F α} {t : String} (h1 : titleOf fmtObject fmtLamp r1 = some t)
    (h2 : titleOf fmtObject fmtLamp r2 = some t) (ht : t ∉ [kPrincipalKey, kObjectImageKey, kLampKey]) :
    ∃ d, setLines fmtObject fmtLamp [r1, r2] (Canvas.new : Canvas α).lines = .ok d ∧ (Groups.all d).map Drawable.content = r2.lines := by
  have step : ∀ (d : Groups α) (r : Traced F α), titleOf fmtObject fmtLamp r = some t →
      addLines fmtObject fmtLamp d r = .ok (dictSet d t (r.lines.map Drawable.new)) := by
    intro d r h
    unfold titleOf at h
    unfold addLines
    split at h
    · rename_i hc
      split at h
      · cases h
      · rename_i hz
        simp only [Option.some.injEq] at h
        subst h
        simp [hc, hz]
    · rename_i hc
      split at h
      · rename_i hc'
        split at h
        · cases h
        · rename_i hz
          simp only [Option.some.injEq] at h
          subst h
          simp [hc', hz]
      · cases h
  simp only [List.mem_cons, List.not_mem_nil, or_false, not_or] at ht
  obtain ⟨ht1, ht2, ht3⟩ := ht
  refine ⟨dictSet (dictSet Canvas.new.lines t (r1.lines.map Drawable.new)) t (r2.lines.map Drawable.new), by
    simp only [setLines, List.foldlM_cons, List.foldlM_nil, step _ r1 h1, step _ r2 h2, bind, Except.bind, pure, Except.pure], ?_⟩
  have e1 : kPrincipalKey ≠ t := Ne.symm ht1
  have e2 : kObjectImageKey ≠ t := Ne.symm ht2
  have e3 : kLampKey ≠ t := Ne.symm ht3
  simp [Canvas.new, dictSet, e1, e2, e3, Groups.all, Function.comp_def, Drawable.new]

end lines

/-! ## C82 -/

/-- Specification: groups on the screen, where the group `k` is seen if `vis k`. -/
def Groups.paint (vis : String → Bool) (d : Groups α) : Groups α :=
  d.map fun e => (e.1, e.2.map fun i => { i with visible := vis e.1, patch := some (vis e.1) })

/-- Specification: the figure on the screen. -/
def Canvas.paint (vis : String → Bool) (c : Canvas α) : Canvas α := ⟨Groups.paint vis c.graphics, Groups.paint vis c.lines⟩

/-- Specification: there is something in the group. -/
def Canvas.HasGroup (c : Canvas α) (k : String) : Prop := ∃ e ∈ c.graphics ++ c.lines, e.1 = k ∧ e.2 ≠ []

/-- What is seen of the painted figure: exactly the groups that are visible. -/
theorem paint_seen (vis : String → Bool) (c : Canvas α) : ∀ e ∈ (c.paint vis).graphics ++ (c.paint vis).lines, ∀ i ∈ e.2, i.seen = vis e.1 := by
  intro e he i hi
  simp only [Canvas.paint, Groups.paint, ← List.map_append] at he
  obtain ⟨e', -, rfl⟩ := List.mem_map.1 he
  obtain ⟨i', -, rfl⟩ := List.mem_map.1 hi
  simp only [Drawable.seen]
  cases vis e'.1 <;> rfl

theorem paint_set (vis : String → Bool) (c : Canvas α) (k : String) (b : Bool) :
    (c.paint vis).setGroupVisibility k b = c.paint (Function.update vis k b) := by
  have h : ∀ d : Groups α, Groups.setVisible (Groups.paint vis d) k b = Groups.paint (Function.update vis k b) d := by
    intro d
    rw [Groups.setVisible, Groups.paint, List.map_map]
    refine List.map_congr_left fun e _ => ?_
    by_cases he : e.1 = k
    · subst he
      simp [Drawable.setVisible, Function.comp_def]
    · simp [he]
  simp only [Canvas.setGroupVisibility, Canvas.paint, h]

theorem visibilityLoop_get (vis : String → Bool) (d : Groups α) (hd : ∀ e ∈ d, ∀ i ∈ e.2, i.visible = vis e.1) (v : List (String × Bool))
    (hv : ∀ k b, dictGet v k = some b → b = vis k) (k : String) :
    dictGet (visibilityLoop d v) k = if (∃ e ∈ d, e.1 = k ∧ e.2 ≠ []) ∨ dictGet v k ≠ none then some (vis k) else none := by
  classical
  induction d generalizing v with
  | nil =>
    cases h : dictGet v k with
    | none => simp [visibilityLoop, h]
    | some b => simp [visibilityLoop, h, hv k b h]
  | cons e d ih =>
    have hd' : ∀ e ∈ d, ∀ i ∈ e.2, i.visible = vis e.1 := fun e he => hd e (by simp [he])
    have hstep : visibilityLoop (e :: d) v = visibilityLoop d (match e.2 with
      | [] => v
      | i :: _ => dictSet v e.1 i.visible) := rfl
    rw [hstep]
    cases he : e.2 with
    | nil =>
      rw [ih hd' v hv]
      congr 1
      simp [he]
    | cons i is =>
      have hi : i.visible = vis e.1 := hd e (by simp) i (by simp [he])
      rw [ih hd' (dictSet v e.1 i.visible) (by
        intro k' b hb
        by_cases hk : k' = e.1
        · subst hk; rw [dictGet_set] at hb; rw [← hi]; simpa using hb.symm
        · rw [dictGet_set_ne _ _ hk] at hb; exact hv k' b hb)]
      by_cases hk : k = e.1
      · subst hk
        rw [if_pos (.inr (by rw [dictGet_set]; simp)), if_pos (.inl ⟨e, by simp, rfl, by simp [he]⟩)]
      · rw [dictGet_set_ne _ _ hk]
        have hk' : e.1 ≠ k := fun h => hk h.symm
        congr 1
        simp [hk']

theorem visibility_get (vis : String → Bool) (c : Canvas α) [Decidable (c.HasGroup k)] :
    dictGet (c.paint vis).visibility k = if c.HasGroup k then some (vis k) else none := by
  classical
  have hp : ∀ d : Groups α, ∀ e ∈ Groups.paint vis d,
      ∀ i ∈ e.2, i.visible = vis e.1 := by
    intro d e he i hi
    obtain ⟨e', -, rfl⟩ := List.mem_map.1 he
    obtain ⟨i', -, rfl⟩ := List.mem_map.1 hi
    rfl
  have hex : ∀ d : Groups α, (∃ e ∈ Groups.paint vis d,
      e.1 = k ∧ e.2 ≠ []) ↔ ∃ e ∈ d, e.1 = k ∧ e.2 ≠ [] := by
    intro d
    constructor
    · rintro ⟨e, he, h1, h2⟩
      obtain ⟨e', h3, rfl⟩ := List.mem_map.1 he
      exact ⟨e', h3, h1, by simpa using h2⟩
    · rintro ⟨e, he, h1, h2⟩
      exact ⟨_, List.mem_map.2 ⟨e, he, rfl⟩, h1, by simpa using h2⟩
  have h1 := visibilityLoop_get vis _ (hp c.graphics) [] (by simp [dictGet])
  unfold Canvas.visibility
  simp only [Canvas.paint]
  rw [visibilityLoop_get vis _ (hp c.lines) _ (by
    intro k b hb
    rw [h1] at hb
    split at hb
    · simpa using hb.symm
    · cases hb)]
  rw [h1]
  congr 1
  simp only [hex, eq_iff_iff, Canvas.HasGroup, List.mem_append]
  by_cases hA : ∃ e ∈ c.graphics, e.1 = k ∧ e.2 ≠ []
  · simp only [hA, true_or, if_true, ne_eq, reduceCtorEq, not_false_eq_true, or_true, true_iff]
    obtain ⟨e, he, h⟩ := hA
    exact ⟨e, .inl he, h⟩
  · simp only [hA, false_or, dictGet, List.find?_nil, Option.map_none, ne_eq, not_true_eq_false, if_false, or_false]
    constructor
    · rintro ⟨e, he, h⟩; exact ⟨e, .inr he, h⟩
    · rintro ⟨e, he | he, h⟩
      · exact absurd ⟨e, he, h⟩ hA
      · exact ⟨e, he, h⟩

/-- **C82**, when the figure appears: all of its groups are seen, but the principal and axial rays unless the field of view is asked for, and
the object at 0 if it is not to be shown or if the field of view is. -/
theorem C82_display (c : Canvas α) (hc : ∀ e ∈ c.graphics ++ c.lines, ∀ i ∈ e.2, i.visible = true ∧ i.patch = none) (showFOV showObjectImage : Bool) :
    (c.hide showFOV showObjectImage).draw =
      c.paint fun k => if k = kPrincipalKey then showFOV else if k = kObjectImageKey then showObjectImage && !showFOV else true := by
  have hne : kPrincipalKey ≠ kObjectImageKey := by decide
  have h : ∀ (d : Groups α), (∀ e ∈ d, ∀ i ∈ e.2, i.visible = true ∧ i.patch = none) →
      (let d1 := if showFOV then d else d.setVisible kPrincipalKey false
       (if showObjectImage && !showFOV then d1 else d1.setVisible kObjectImageKey false).map fun e => (e.1, e.2.map Drawable.draw)) =
      d.map fun e => (e.1, e.2.map fun i => { i with
        visible := if e.1 = kPrincipalKey then showFOV else if e.1 = kObjectImageKey then showObjectImage && !showFOV else true,
        patch := some (if e.1 = kPrincipalKey then showFOV else if e.1 = kObjectImageKey then showObjectImage && !showFOV else true) }) := by
    intro d hd
    have hi : ∀ e ∈ d, ∀ i ∈ e.2, i = ⟨i.content, true, none, i.label⟩ := by
      intro e he i hi
      obtain ⟨h1, h2⟩ := hd e he i hi
      cases i; simp_all
    cases showFOV <;> cases showObjectImage <;>
      simp only [Bool.false_eq_true, if_false, if_true, Bool.not_false, Bool.not_true, Bool.and_true, Bool.and_false, Groups.setVisible, List.map_map] <;>
      refine List.map_congr_left fun e he => ?_ <;>
      by_cases h1 : e.1 = kPrincipalKey <;> by_cases h2 : e.1 = kObjectImageKey <;>
      first
        | exact absurd (h1.symm.trans h2) hne
        | (simp only [Function.comp_apply, h1, h2, beq_iff_eq, hne, hne.symm, if_true, if_false, beq_self_eq_true, List.map_map]
           refine Prod.ext rfl (List.map_congr_left fun i hi' => ?_)
           rw [hi e he i hi']
           rfl)
  have hg := h c.graphics fun e he => hc e (List.mem_append_left _ he)
  have hl := h c.lines fun e he => hc e (List.mem_append_right _ he)
  simp only at hg hl
  unfold Canvas.hide Canvas.draw Canvas.paint
  cases showFOV <;> cases showObjectImage <;> simp [Canvas.setGroupVisibility] at hg hl ⊢ <;> exact ⟨hg, hl⟩

/-- **C82**: there is a check box for each group of the figure that is not empty, but the elements, and for nothing else; its state is the visibility of
the group. -/
theorem C82_boxes (vis : String → Bool) (c : Canvas α) (k : String) (b : Bool) :
    dictGet (c.paint vis).checkBoxes k = some b ↔ c.HasGroup k ∧ k ≠ kElementsKey ∧ b = vis k := by
  classical
  have hf : dictGet (c.paint vis).checkBoxes k = if k = kElementsKey then none else dictGet (c.paint vis).visibility k := by
    unfold Canvas.checkBoxes dictGet
    rw [List.find?_filter]
    by_cases hk : k = kElementsKey
    · rw [if_pos hk, Option.map_eq_none_iff, List.find?_eq_none]
      intro e _
      by_cases he : e.1 = k <;> simp [he, hk]
    · rw [if_neg hk]
      congr 2
      funext e
      by_cases he : e.1 = k <;> simp [he, hk]
  rw [hf, visibility_get]
  by_cases hk : k = kElementsKey <;> by_cases hg : c.HasGroup k <;> simp [hk, hg, eq_comm]

/-- **C82**, for every sequence of clicks on check boxes: each group whose box was clicked an odd number of times is seen if it was not and
conversely, the others are as before, nothing else of the figure changes. -/
theorem C82_clicks (c : Canvas α) (ls : List String) (hls : ∀ l ∈ ls, c.HasGroup l ∧ '\n' ∉ l.toList) (vis : String → Bool) :
    ls.foldlM Canvas.click (c.paint vis) = .ok (c.paint fun k => if ls.count k % 2 = 1 then !vis k else vis k) := by
  classical
  induction ls generalizing vis with
  | nil => simp [pure, Except.pure]
  | cons l ls ih =>
    obtain ⟨h1, h2⟩ := hls l (by simp)
    have h3 : oneLine l = l := by
      unfold oneLine
      have : (l.toList.map fun c => if c = '\n' then ' ' else c) = l.toList := by
        refine (List.map_congr_left fun x hx => ?_).trans (List.map_id _)
        have : x ≠ '\n' := fun h => h2 (h ▸ hx)
        simp [this]
      rw [this, String.ofList_toList]
    have h4 : (c.paint vis).click l = .ok (c.paint (Function.update vis l (!vis l))) := by
      unfold Canvas.click
      rw [h3, visibility_get, if_pos h1]
      simp only [paint_set]
    rw [List.foldlM_cons, h4]
    simp only [bind, Except.bind]
    rw [ih fun m hm => hls m (by simp [hm])]
    congr 2
    funext k
    by_cases hk : k = l
    · subst hk
      rw [List.count_cons_self, Function.update_self]
      rcases Nat.mod_two_eq_zero_or_one (ls.count k) with h | h
      · rw [if_neg (by omega), if_pos (by omega)]
      · rw [if_pos h, if_neg (by omega), Bool.not_not]
    · rw [List.count_cons_of_ne (Ne.symm hk), Function.update_of_ne hk]

/-- **C82 violated** by the labels of graphics, which stay on the screen when the graphic is hidden, whatever the clicks. -/
theorem C82_violated_labels (vis : String → Bool) (c : Canvas α) {e} (he : e ∈ c.graphics) {i} (hi : i ∈ e.2) {t : String} (ht : i.label = some t)
    (hv : vis e.1 = false) : ∃ e' ∈ (c.paint vis).graphics, e'.1 = e.1 ∧ ∃ i' ∈ e'.2, i'.content = i.content ∧ i'.seen = false ∧ i'.text = some t := by
  refine ⟨_, List.mem_map.2 ⟨e, he, rfl⟩, rfl, _, List.mem_map.2 ⟨i, hi, rfl⟩, rfl, ?_, ?_⟩
  · simp [Drawable.seen, hv]
  · simp [Drawable.text, ht]

/-- **C82 violated** by objects that are not at 0: they are seen although objects are not to be shown, e.g. because there is a lamp. -/
theorem C82_violated_elsewhere (c : Canvas α) (hc : ∀ e ∈ c.graphics ++ c.lines, ∀ i ∈ e.2, i.visible = true ∧ i.patch = none) (showFOV : Bool)
    {k : String} (hk : k ∉ [kPrincipalKey, kObjectImageKey]) : ∀ e ∈ ((c.hide showFOV false).draw).graphics ++ ((c.hide showFOV false).draw).lines,
      e.1 = k → ∀ i ∈ e.2, i.seen = true := by
  rw [C82_display c hc]
  simp only [List.mem_cons, List.not_mem_nil, or_false, not_or] at hk
  intro e he hek i hi
  rw [paint_seen _ c e he i hi, hek, if_neg hk.1, if_neg hk.2]

/-- An object at 0, one at 20, two fans of rays: all their lines are drawn. -/
example : (setLines (fun _ : Ext ℚ => "Object/Image (z=20.0)") (fun _ => "Lamp (z=20.00)")
    [⟨"ObjectRays", Ext.fin 0, [1, 2]⟩, ⟨"ObjectRays", Ext.fin 20, [3]⟩, ⟨"UniformRays", Ext.fin 0, [4]⟩, ⟨"UniformRays", Ext.fin 0, [5]⟩]
    (Canvas.new : Canvas ℕ).lines).map (fun d => d.map fun e => (e.1, e.2.map Drawable.content)) =
    .ok [("Principal/axial rays", []), ("Object/Image", [1, 2]), ("Lamp", []), ("Object/Image (z=20.0)", [3]), ("UniformRays", [4, 5])] := by
  decide +kernel

/-- The hypotheses of `C81_all` for them. -/
example : ([⟨"ObjectRays", Ext.fin 0, [1, 2]⟩, ⟨"ObjectRays", Ext.fin 20, [3]⟩, ⟨"UniformRays", Ext.fin 0, [4]⟩] : List (Traced (Ext ℚ) ℕ)).filterMap
    (titleOf (fun _ => "Object/Image (z=20.0)") (fun _ => "Lamp (z=20.00)")) = ["Object/Image (z=20.0)"] := by decide +kernel

/-- A click on the box of the object at 20 of a figure with two objects, the field of view not being shown. -/
example : (((⟨[("Object/Image", [Drawable.new 7 (some "tree")])], [("Object/Image", [Drawable.new 1]), ("Object/Image (z=20.0)", [Drawable.new 3])]⟩ :
      Canvas ℕ).hide false true).draw.click "Object/Image").map (fun c =>
        ((Groups.all c.graphics).map fun i => (i.seen, i.text), (Groups.all c.lines).map Drawable.seen)) =
    .ok ([(false, some "tree")], [false, true]) := by decide +kernel

end RT
