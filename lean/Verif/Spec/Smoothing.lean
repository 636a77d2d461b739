import Verif.Model.Smoothing

/-!
# Specification: what a filter and a limiter do
-/

namespace NATriuM
namespace Smoothing

/-- The polynomial degrees of mode `i` in each coordinate: modes are numbered lexicographically, the last coordinate runs fastest. -/
def modeDegrees (p : ℕ) : ℕ → ℕ → List ℕ
  | 1, i => [i]
  | 2, i => [i / (p + 1), i % (p + 1)]
  | 3, i => [i / (p + 1) / (p + 1), i / (p + 1) % (p + 1), i % (p + 1)]
  | _, _ => []

/-- The product of one-dimensional polynomials of the given degrees, one for each coordinate -/
def tensor (leg : ℕ → ℝ → ℝ) : List ℕ → (ℕ → ℝ) → ℝ
  | [], _ => 1
  | k :: ks, x => leg k (x 0) * tensor leg ks fun j => x (j + 1)

/-- The largest degree, and the sum of the degrees -/
def maxOf (l : List ℕ) : ℕ := l.foldr max 0

/-- The function on the unit cell with values `u` for the shape functions `shape` -/
def field {n : ℕ} {X : Type*} (shape : Fin n → X → ℝ) (u : Fin n → ℝ) (x : X) : ℝ := ∑ i, u i * shape i x

/-- Both families of functions are given, and every shape function is a combination of modes. -/
def SpannedBy {n : ℕ} {X : Type*} (shape mode : Fin n → X → ℝ) : Prop := ∃ A : Fin n → Fin n → ℝ, ∀ i x, shape i x = ∑ k, A k i * mode k x

/-- A mean over the cell that vanishes for all modes but the constant one -/
def MeanOf {n : ℕ} {X : Type*} (M : (X → ℝ) →ₗ[ℝ] ℝ) (mode : Fin n → X → ℝ) : Prop := ∀ k : Fin n, (k : ℕ) ≠ 0 → M (mode k) = 0

/-- A value lies between the smallest and the largest of the source values it is computed from (entries with nonzero coefficients). -/
def InRange {C : Type*} (row : List (C × ℝ)) (source : C → ℝ) (v : ℝ) : Prop :=
  (∃ e ∈ row, e.2 ≠ 0 ∧ source e.1 ≤ v) ∧ (∃ e ∈ row, e.2 ≠ 0 ∧ v ≤ source e.1)

/-- The matrix-vector product -/
def vmult {R C : Type*} (matrix : R → List (C × ℝ)) (source : C → ℝ) (r : R) : ℝ := ((matrix r).map fun e => e.2 * source e.1).sum

end Smoothing
end NATriuM
