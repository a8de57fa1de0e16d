import Verif.Model.CatalogueData
import Verif.Spec.Catalogue

/-! # The names of the catalogue (C92) -/

set_option linter.unusedSectionVars false

namespace RT

/-- A number for each name: the kernel compares numbers faster than strings. -/
def nameCode (s : String) : Nat := s.toList.foldl (fun n c => n * 1114112 + c.toNat) 0

/-- No number is twice in the list. -/
def noTwice : List Nat → Bool
  | [] => true
  | a :: l => l.all (fun b => !(Nat.beq a b)) && noTwice l

theorem nodup_of_noTwice : ∀ {l : List Nat}, noTwice l = true → l.Nodup
  | [], _ => List.nodup_nil
  | a :: l, h => by
    simp only [noTwice, Bool.and_eq_true, List.all_eq_true, Bool.not_eq_true'] at h
    refine List.nodup_cons.2 ⟨fun hm => ?_, nodup_of_noTwice h.2⟩
    have := h.1 a hm
    simp at this

set_option maxRecDepth 100000 in
theorem names_once : noTwice (((catalogue.map CatLens.name).filter fun n => !twiceNamed.contains n).map nameCode) = true := by
  decide +kernel

/-- **C92.** Every name of the catalogue but the fourteen of `C92_violated_twice` is the name of one class only, so the lens used under it is that
class: what is said of the lenses of the catalogue is said of the lenses that can be used. -/
theorem C92_once {l : CatLens} (hl : l ∈ catalogue) (hn : l.name ∉ twiceNamed) :
    catalogue.filter (fun m => m.name == l.name) = [l] ∧ lensNamed l.name = some l := by
  have h := List.Nodup.of_map _ (nodup_of_noTwice names_once)
  rw [List.filter_map] at h
  have h1 : (catalogue.filter ((fun n => !twiceNamed.contains n) ∘ CatLens.name)).filter (fun m => m.name == l.name) =
      catalogue.filter (fun m => m.name == l.name) := by
    rw [List.filter_filter]
    refine List.filter_congr fun m _ => ?_
    by_cases hm : m.name = l.name
    · simp [hm, hn]
    · simp [hm]
  have hmem : l ∈ catalogue.filter (fun m => m.name == l.name) := List.mem_filter.2 ⟨hl, by simp⟩
  have hle : (catalogue.filter (fun m => m.name == l.name)).length ≤ 1 := by
    have := List.nodup_iff_count_le_one.1 h l.name
    rw [List.count_eq_countP, List.countP_map, List.countP_eq_length_filter] at this
    rw [← h1]
    exact this
  have hone : (catalogue.filter (fun m => m.name == l.name)).length = 1 :=
    le_antisymm hle (List.length_pos_of_mem hmem)
  obtain ⟨m, hm⟩ := List.length_eq_one_iff.1 hone
  rw [hm, List.mem_singleton] at hmem
  subst hmem
  exact ⟨hm, by unfold lensNamed; rw [← List.head?_filter, List.filter_reverse, hm]; rfl⟩

example : lensNamed "AC254_100_A" ≠ none ∧ "AC254_100_A" ∉ twiceNamed := by decide +kernel

end RT
