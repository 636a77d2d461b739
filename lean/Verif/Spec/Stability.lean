import Verif.Spec.SedgSolver

/-!
# Specification: the energy of the distributions
-/

namespace NATriuM
namespace SedgSolver

variable {t : StencilType} {n nQ nf nq : ℕ} {C : Type*} [DecidableEq C] [Fintype C]

/-- The integral over the domain of the weighted sum of the squares of the distributions -/
noncomputable def energy (s : Setup t n nQ nf nq C) (w : Fin t.Q → ℝ) (f : Block t n C) : ℝ := ∑ i, w i * integral s.mesh fun y => f i y ^ 2

/-- Weights that are not negative and the same for opposite directions, for example all one, or one over the weights of the lattice -/
structure EnergyWeights (s : Setup t n nQ nf nq C) (w : Fin t.Q → ℝ) : Prop where
  nonneg : ∀ i, 0 ≤ w i
  opposite : ∀ i, w ((t.stencil s.c).opp i) = w i

/-- Quadrature weights are positive in the cells and not negative on the faces. -/
structure PositiveWeights (s : Setup t n nQ nf nq C) : Prop where
  cell : ∀ c i, 0 < Sedg.mass s.mesh c i
  face : ∀ c f q, 0 ≤ s.mesh.faceJxw c f q

end SedgSolver
end NATriuM
