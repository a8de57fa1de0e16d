import Verif.Props.Rays

/-! # C48: histograms of collections without rays -/

set_option linter.unusedSectionVars false

namespace RT
open PyNum
namespace Rays
variable {F : Type} [PyNum F]

/-- no rays, and nothing remembered from rays that were there before -/
structure Empty (s : Rays F) : Prop where
  rays : s.rays = []
  ys : s.yCache = none ∨ s.yCache = some []
  thetas : s.thetaCache = none ∨ s.thetaCache = some []

theorem Empty.yValues {s : Rays F} (h : s.Empty) : s.yValues.1 = [] ∧ s.yValues.2.Empty := by
  unfold Rays.yValues
  rcases h.ys with e | e <;> simp only [e]
  · exact ⟨by simp [h.rays], ⟨h.rays, by simp [h.rays], h.thetas⟩⟩
  · exact ⟨trivial, h⟩

theorem Empty.thetaValues {s : Rays F} (h : s.Empty) : s.thetaValues.1 = [] ∧ s.thetaValues.2.Empty := by
  unfold Rays.thetaValues
  rcases h.thetas with e | e <;> simp only [e]
  · exact ⟨by simp [h.rays], ⟨h.rays, h.ys, by simp [h.rays]⟩⟩
  · exact ⟨trivial, h⟩

/-- **C48**: the histograms of a collection without rays raise `ValueError` unless both bounds are given, and the collection is as empty as before. -/
theorem C48_empty {s : Rays F} (h : s.Empty) (bins : Option Int) (lo hi : Option F) (hb : lo = none ∨ hi = none) :
    ((s.rayCountHistogram bins lo hi).1 = .error .valueError ∧ (s.rayCountHistogram bins lo hi).2.Empty) ∧
    ((s.rayAnglesHistogram bins lo hi).1 = .error .valueError ∧ (s.rayAnglesHistogram bins lo hi).2.Empty) := by
  constructor
  · unfold rayCountHistogram
    rcases lo with _ | lo
    · simp only [resolve, h.yValues.1, pyMin]
      exact ⟨trivial, h.yValues.2⟩
    · obtain rfl : hi = none := by simpa using hb
      simp only [resolve, h.yValues.1, pyMax]
      exact ⟨trivial, h.yValues.2⟩
  · unfold rayAnglesHistogram
    rcases lo with _ | lo
    · simp only [resolve, h.thetaValues.1, pyMin]
      exact ⟨trivial, h.thetaValues.2⟩
    · obtain rfl : hi = none := by simpa using hb
      simp only [resolve, h.thetaValues.1, pyMax]
      exact ⟨trivial, h.thetaValues.2⟩

end Rays

/-- `Rays([])` is such a collection, and so is one made from a generator, whatever its rays. -/
theorem C48_empty_example : (∃ s : Rays (Ext ℚ), Rays.new (some ⟨[], true⟩) = .ok s ∧ s.Empty) ∧
    ∃ s : Rays (Ext ℚ), Rays.new (some ⟨[some (Ray.new 1 0)], false⟩) = .ok s ∧ s.Empty :=
  ⟨⟨Rays.ofList [], rfl, rfl, .inl rfl, .inl rfl⟩, ⟨Rays.ofList [], rfl, rfl, .inl rfl, .inl rfl⟩⟩
end RT
