import Verif.Spec.Sedg
import Mathlib.LinearAlgebra.Lagrange
import Mathlib.Algebra.MvPolynomial.PDeriv

/-!
# Specification: tensor product elements on boxes, and piecewise polynomials
-/

namespace NATriuM
namespace Sedg

variable {K : Type*} [Field K] [LinearOrder K] {d n nQ nf nq : ℕ} {C : Type*}

/-- Box-shaped cells with tensor products of the Lagrange polynomials for the points `v 0, ..., v p` of the unit interval; degree of freedom `i`
has the numbers `number i` in the coordinate directions, and `corner` and `size` are those of the cells.  The gradients are those of the tensor
products, in real coordinates. -/
structure Mesh.Tensor (m : Mesh K d n nQ nf nq C) (p : ℕ) (v : Fin (p + 1) → K) (number : Fin n ≃ (Fin d → Fin (p + 1)))
    (corner size : C → Fin d → K) : Prop where
  points : Function.Injective v
  size_ne (c : C) (k : Fin d) : size c k ≠ 0
  grad (c : C) (j i : Fin n) (k : Fin d) : m.grad c j (m.toQ i) k =
    ∏ a, if a = k then (Polynomial.derivative (Lagrange.basis Finset.univ v (number j a))).eval (v (number i a)) / size c a
      else (Lagrange.basis Finset.univ v (number j a)).eval (v (number i a))

/-- The support point of degree of freedom `i` -/
def supportPoint {p : ℕ} (v : Fin (p + 1) → K) (number : Fin n ≃ (Fin d → Fin (p + 1))) (corner size : C → Fin d → K) (c : C) (i : Fin n) (a : Fin d) : K :=
  corner c a + size c a * v (number i a)

/-- Values agree on the two sides of each face. -/
def Mesh.Continuous (m : Mesh K d n nQ nf nq C) (u : C × Fin n → K) : Prop :=
  ∀ c f c' f', m.neighbor c f = some (c', f') → ∀ q, u (c', m.faceDof f' q) = u (c, m.faceDof f q)

end Sedg
end NATriuM
