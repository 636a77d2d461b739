import Verif.Model.SedgSolver
import Verif.Spec.Collision
import Verif.Spec.Sedg

/-!
# Specification: what a whole run conserves
-/

namespace NATriuM
namespace SedgSolver

variable {t : StencilType} {n nQ nf nq : ℕ} {C : Type*} [DecidableEq C] [Fintype C]

/-- The integral of a field over the domain, with the quadrature of the finite element -/
noncomputable def integral (m : Sedg.Mesh ℝ t.D n nQ nf nq C) (g : C × Fin n → ℝ) : ℝ := ∑ c, ∑ k, Sedg.mass m c k * g (c, k)

/-- The mass of the fluid -/
noncomputable def totalMass (s : Setup t n nQ nf nq C) (x : C × Fin n → Node ℝ t.D t.Q) : ℝ := integral s.mesh fun y => Spec.mass (x y).f

/-- The momentum of the fluid -/
noncomputable def totalMomentum (s : Setup t n nQ nf nq C) (x : C × Fin n → Node ℝ t.D t.Q) (a : Fin t.D) : ℝ :=
  integral s.mesh fun y => Spec.momentum (t.stencil s.c).dir (x y).f a

/-- The volume of the domain -/
noncomputable def volume (s : Setup t n nQ nf nq C) : ℝ := integral s.mesh fun _ => 1

omit [Fintype C] [DecidableEq C] in
/-- The mesh and the finite element are sound: nodal shape functions, quadratures for which the divergence theorem holds, matching neighbours, and
every cell is in the list once. -/
structure Sound (s : Setup t n nQ nf nq C) : Prop where
  nodal : s.mesh.Nodal
  gradients : s.mesh.GradientsCancel
  divergence : s.mesh.Divergence
  matching : s.mesh.Matching
  mass : ∀ c i, Sedg.mass s.mesh c i ≠ 0
  nodup : s.cells.Nodup
  complete : ∀ c, c ∈ s.cells
  scaling : s.c ≠ 0

/-- All walls move along themselves (or not at all). -/
def WallsTangential (s : Setup t n nQ nf nq C) : Prop :=
  ∀ c f q, s.mesh.neighbor c f = none → ∑ a, s.mesh.normal c f q a * s.wallVelocity c f q a = 0

/-- All walls are at rest. -/
def WallsAtRest (s : Setup t n nQ nf nq C) : Prop := ∀ c f q, s.mesh.neighbor c f = none → s.wallVelocity c f q = 0

/-- There are no walls. -/
def NoWalls (s : Setup t n nQ nf nq C) : Prop := ∀ c f, (s.mesh.neighbor c f).isSome

/-- The filter keeps the integral over each cell; see `filter_keeps` for when it does. -/
def FilterKeepsMean (s : Setup t n nQ nf nq C) : Prop :=
  ∀ c u, ∑ k, Sedg.mass s.mesh c k * Smoothing.filterCell s.toModes s.fromModes s.factor u k = ∑ k, Sedg.mass s.mesh c k * u k

/-- The linear solver of the theta method, if that is the integrator, returns solutions only. -/
def SolvesExactly (s : Setup t n nQ nf nq C) : Prop :=
  ∀ θ solve, s.integrator = .theta θ solve → ∀ M x rhs y, solve M x rhs = some y → M y = rhs

/-- The linear solver of the theta method, if that is the integrator, stops at once if it starts with a solution. -/
def StopsAtSolution (s : Setup t n nQ nf nq C) : Prop :=
  ∀ θ solve, s.integrator = .theta θ solve → ∀ M x rhs, M x = rhs → solve M x rhs = some x

end SedgSolver
end NATriuM
