import Verif.Spec.PathTracking
import Mathlib.LinearAlgebra.Lagrange
import Mathlib.Algebra.MvPolynomial.Eval

/-!
# Specification: functions that a mesh represents, and their values at degrees of freedom
-/

namespace NATriuM
namespace Paths

variable {K : Type*} [Field K] [LinearOrder K] {m : ℕ} {C : Type*}

/-- Interpolation from the support points of a cell gives the function `g` everywhere in the cell. -/
def Mesh.Represents (mesh : Mesh K m C) (g : (Fin (m + 2) → K) → K) : Prop :=
  ∀ cell h, InCell h →
    ∑ k ∈ Finset.range (mesh.dofs cell).length, mesh.shape k h * g (mesh.supportPoint cell k) = g ((mesh.mapping cell).toReal h)

/-- The vector `f` holds the values of the function `g` at the support points. -/
def Mesh.Samples (mesh : Mesh K m C) (g : (Fin (m + 2) → K) → K) (f : ℕ → K) : Prop :=
  ∀ cell k j, (mesh.dofs cell)[k]? = some j → f j = g (mesh.supportPoint cell k)

/-- The function `g` has the periods of the mesh. -/
def Mesh.HasPeriods (mesh : Mesh K m C) (g : (Fin (m + 2) → K) → K) : Prop :=
  ∀ v, mesh.Shift v → ∀ x, g (fun a => x a + v a) = g x

/-- The end of the path is not moved and no weight is left out: none of its unit coordinates and of the shape functions there is small but not zero, no
coordinate close to one but not one, and the mapping leads back to it. -/
def Mesh.Exact (mesh : Mesh K m C) (p : Tracker K (m + 2) C) : Prop :=
  ∀ y, (mesh.mapping p.currentCell).toUnit p.departurePoint = some y →
    (∀ a, y a = 0 ∨ y a = 1 ∨ (1 / 10 ^ 10 ≤ |y a| ∧ 1 / 10 ^ 10 ≤ |y a - 1|)) ∧
    (∀ k, k < (mesh.dofs p.currentCell).length → mesh.shape k y = 0 ∨ 1 / 10 ^ 10 ≤ |mesh.shape k y|) ∧
    (mesh.mapping p.currentCell).toReal y = p.departurePoint

/-- A box-shaped cell with tensor products of Lagrange polynomials for the points `v 0, ..., v p` of the unit interval.  `number` numbers the
shape functions, `corner` and `size` are those of the cells. -/
structure Mesh.Tensor (mesh : Mesh K m C) (p : ℕ) (v : Fin (p + 1) → K) (number : (Fin (m + 2) → Fin (p + 1)) → ℕ)
    (corner size : C → Fin (m + 2) → K) : Prop where
  points : Function.Injective v
  numbers (cell : C) : Set.BijOn number Set.univ (Finset.range (mesh.dofs cell).length)
  support (cell : C) (k : Fin (m + 2) → Fin (p + 1)) (a : Fin (m + 2)) :
    mesh.supportPoint cell (number k) a = corner cell a + size cell a * v (k a)
  real (cell : C) (h : Fin (m + 2) → K) (a : Fin (m + 2)) : (mesh.mapping cell).toReal h a = corner cell a + size cell a * h a
  shape (k : Fin (m + 2) → Fin (p + 1)) (h : Fin (m + 2) → K) :
    mesh.shape (number k) h = ∏ a, (Lagrange.basis Finset.univ v (k a)).eval (h a)

end Paths
end NATriuM
