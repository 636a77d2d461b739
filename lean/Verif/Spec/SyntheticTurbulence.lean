import Mathlib.Analysis.Calculus.Deriv.Basic
import Mathlib.Algebra.BigOperators.Fin

/-!
# Specification for the synthetic turbulence (C120–C122)
-/

namespace NATriuM.Spec

/-- The sequence of Park and Miller: `z ↦ 16807 z` modulo the prime `2^31 - 1` -/
def parkMiller (seed : ℤ) : ℕ → ℤ
  | 0 => seed
  | n + 1 => 16807 * parkMiller seed n % (2 ^ 31 - 1)

/-- A velocity field has partial derivatives along the axes in `x`, and their sum is zero. -/
def DivergenceFree (u : (Fin 3 → ℝ) → Fin 3 → ℝ) (x : Fin 3 → ℝ) : Prop :=
  ∃ d : Fin 3 → ℝ, (∀ a, HasDerivAt (fun t => u (Function.update x a t) a) (d a) (x a)) ∧ ∑ a, d a = 0

/-- The discrete divergence with forward differences of width `h` -/
def forwardDivergence {K : Type*} [Field K] (h : K) (u : (Fin 3 → K) → Fin 3 → K) (x : Fin 3 → K) : K :=
  ∑ a, (u (Function.update x a (x a + h)) a - u x a) / h

end NATriuM.Spec
