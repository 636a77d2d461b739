import Verif.Spec.Stability

/-!
# Specification: how errors grow
-/

namespace NATriuM
namespace SedgSolver

variable {t : StencilType} {n nQ nf nq : ℕ} {C : Type*} [DecidableEq C] [Fintype C]

/-- The norm that belongs to the energy: the root of the integral of the weighted sum of the squares of the distributions -/
noncomputable def size (s : Setup t n nQ nf nq C) (w : Fin t.Q → ℝ) (f : Block t n C) : ℝ := Real.sqrt (energy s w f)

/-- The linear solver returns vectors whose residual is at most `ε`, as iterative solvers do. The bound may depend on the right side: the code asks for
`1e-6` times its norm (timeintegration/ThetaMethod.cpp:106-107). -/
def SolvesWithin (s : Setup t n nQ nf nq C) (w : Fin t.Q → ℝ) (ε : Block t n C → ℝ) : Prop :=
  ∀ θ solve, s.integrator = .theta θ solve → ∀ M x rhs y, solve M x rhs = some y → size s w (M y - rhs) ≤ ε rhs

/-- `g` fulfils the equation of the theta method up to `ρ` in each step: `ρ` may be a truncation error of an exact solution, or zero. -/
def Defect (s : Setup t n nQ nf nq C) (θ : ℝ) (dt : ℕ → ℝ) (g ρ : ℕ → Block t n C) : Prop :=
  ∀ k, g (k + 1) - g k = dt k • (systemMatrix s (θ • g (k + 1) + (1 - θ) • g k) + systemVector s) + ρ k

end SedgSolver
end NATriuM
