import Verif.Spec.ImplicitConvergence

/-!
# Specification: explicit streaming
-/

namespace NATriuM
namespace SedgSolver

variable {t : StencilType} {n nQ nf nq : ℕ} {C : Type*} [DecidableEq C] [Fintype C]

/-- `L` bounds the rate at which streaming changes values, as the ratio of the lattice velocity and the size of the smallest cell does, up to a constant. -/
def RateBound (s : Setup t n nQ nf nq C) (w : Fin t.Q → ℝ) (L : ℝ) : Prop := ∀ f, size s w (systemMatrix s f) ≤ L * size s w f

/-- What a step of relative size `z = L h` may add: the fifth power of `z`, and a part from the rounding of the coefficients in the source -/
noncomputable def excess (z : ℝ) : ℝ := z ^ 4 / 70 + (1 + z) ^ 3 / 10 ^ 25

end SedgSolver
end NATriuM
