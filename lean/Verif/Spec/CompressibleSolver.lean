import Verif.Model.CompressibleSolver
import Verif.Spec.SedgSolver

/-!
# Specification: what a whole compressible run conserves
-/

namespace NATriuM
namespace CompressibleSolver

variable {t : StencilType} {n nQ nf nq : ℕ} {C : Type*} [DecidableEq C] [Fintype C]

/-- The mass of the fluid -/
noncomputable def totalMass (s : Setup t n nQ nf nq C) (x : C × Fin n → GNode t.D t.Q) : ℝ :=
  SedgSolver.integral s.core.mesh fun y => Spec.mass (x y).f

/-- The momentum of the fluid -/
noncomputable def totalMomentum (s : Setup t n nQ nf nq C) (x : C × Fin n → GNode t.D t.Q) (a : Fin t.D) : ℝ :=
  SedgSolver.integral s.core.mesh fun y => Spec.momentum (t.stencil s.core.c).dir (x y).f a

/-- The energy of the fluid (kinetic and internal, with factor `2 / cs²`) -/
noncomputable def totalEnergy (s : Setup t n nQ nf nq C) (x : C × Fin n → GNode t.D t.Q) : ℝ :=
  SedgSolver.integral s.core.mesh fun y => Spec.totalEnergy (t.stencil s.core.c).dir (t.stencil s.core.c).cs2 (x y).f (x y).g

omit [Fintype C] in
/-- The state with which a run that starts in iteration `start` with data `x` enters its first collision: runs that start in iteration 0 or 1 are
initialised, others (restarts) are not. -/
def Begins (s : Setup t n nQ nf nq C) (start : ℕ) (x x0 : C × Fin n → GNode t.D t.Q) : Prop :=
  if start ≤ 1 then initializeDistributions s x = .ok x0 else x0 = x

/-- Density, velocity and temperature are the same everywhere, in the fields and in both distributions, which are in equilibrium. -/
def Uniform (s : Setup t n nQ nf nq C) (rho : ℝ) (v : Fin t.D → ℝ) (T : ℝ) (x : C × Fin n → GNode t.D t.Q) : Prop :=
  ∀ y, (x y).f = (Init.compressibleNode (t.stencil s.core.c) s.gas.gamma rho v T).1 ∧
    (x y).g = (Init.compressibleNode (t.stencil s.core.c) s.gas.gamma rho v T).2 ∧ (x y).rho = rho ∧ (x y).u = v ∧ (x y).T = T

end CompressibleSolver
end NATriuM
