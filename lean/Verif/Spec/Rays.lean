import Mathlib.Algebra.Order.Field.Basic
import Mathlib.Tactic.Linarith
import Mathlib.Tactic.Ring

/-! # Specification of lists of rays: grids and histograms -/

namespace RT
variable {K : Type} [Field K]

/-- Number `i` of `n` evenly spaced values from `lo` to `hi` (the first one is `lo`, also when it is alone). -/
def spaced (lo hi : K) (n i : ℕ) : K := if n = 1 then lo else lo + i * ((hi - lo) / (n - 1))

variable [LinearOrder K]

theorem spaced_first (lo hi : K) (n : ℕ) : spaced lo hi n 0 = lo := by simp [spaced]

theorem spaced_last [IsStrictOrderedRing K] (lo hi : K) {n : ℕ} (hn : 2 ≤ n) : spaced lo hi n (n - 1) = hi := by
  have h1 : (n : K) - 1 ≠ 0 := by
    have : (2 : K) ≤ n := by exact_mod_cast hn
    have h2 : (0 : K) < n - 1 := by linarith
    exact h2.ne'
  rw [spaced, if_neg (by omega), Nat.cast_sub (by omega), Nat.cast_one, mul_div_cancel₀ _ h1]
  ring

/-- the step is the same everywhere -/
theorem spaced_step (lo hi : K) {n : ℕ} (hn : n ≠ 1) (i : ℕ) :
    spaced lo hi n (i + 1) - spaced lo hi n i = (hi - lo) / (n - 1) := by
  simp only [spaced, if_neg hn]
  push_cast
  ring

theorem spaced_bounds [IsStrictOrderedRing K] {lo hi : K} (h : lo ≤ hi) {n i : ℕ} (hi' : i < n) :
    lo ≤ spaced lo hi n i ∧ spaced lo hi n i ≤ hi := by
  unfold spaced
  split_ifs with h1
  · exact ⟨le_refl _, h⟩
  · have h2 : (2 : K) ≤ n := by
      have : 2 ≤ n := by omega
      exact_mod_cast this
    have h3 : (0 : K) < n - 1 := by linarith
    have h4 : (0 : K) ≤ hi - lo := by linarith
    have h5 : (i : K) ≤ n - 1 := by
      have : (i : K) + 1 ≤ n := by exact_mod_cast hi'
      linarith
    have h6 : (i : K) * ((hi - lo) / (n - 1)) ≤ hi - lo := by
      rw [mul_div_assoc', div_le_iff₀ h3, mul_comm]
      exact mul_le_mul_of_nonneg_left h5 h4
    have h7 : (0 : K) ≤ (i : K) * ((hi - lo) / (n - 1)) := mul_nonneg (Nat.cast_nonneg _) (div_nonneg h4 h3.le)
    constructor <;> linarith

end RT
