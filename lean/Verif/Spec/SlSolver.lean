import Verif.Model.SlSolver
import Verif.Spec.Collision
import Verif.Spec.PathTracking

/-!
# Specification: whole runs of the semi-Lagrangian solver
-/

namespace NATriuM
namespace SlSolver

variable {t : StencilType} {K : Type*} [Field K] [LinearOrder K] {m n N : ℕ} {C : Type*}

/-- The matrix has been assembled for the mesh; every degree of freedom is owned and belongs to a cell; the shape functions are a partition of unity;
the directions and the time step for the paths are those of the stencil and of the collision; walls are of the kinds the solver follows paths at. -/
structure Sound (s : Setup t K m n N C) : Prop where
  assembled : Paths.fillSparseObject s.mesh s.paths none = .ok s.assembly
  everywhere (y : Fin N) : s.mesh.owned y = true ∧ ∃ cell ∈ s.mesh.cells, y.val ∈ s.mesh.dofs cell
  inside (cell : C) (j : ℕ) : j ∈ s.mesh.dofs cell → j < N
  unity : s.mesh.PartitionOfUnity
  embedding : StrictMono s.toReal
  dimension : t.D = m + 2
  number : s.paths.Q = t.Q
  directions (i : Fin t.Q) (a : Fin t.D) : s.toReal (s.paths.e i (Fin.cast dimension a)) = (t.stencil s.c).dir i a
  step : s.toReal s.paths.dt = s.dt
  opposite (i : Fin t.Q) : 0 < i.val → s.paths.opp i = (t.stencil s.c).opp i ∧ 0 < s.paths.opp i
  kinds (cell : C) (face id : ℕ) : s.mesh.face cell face ≠ .boundary id .other
  scaling : s.c ≠ 0

/-- At no departure point there is a shape function with a value between 0 and 1e-10, so that no weight is left out (C54). -/
def NoSmallWeights (s : Setup t K m n N C) : Prop :=
  ∀ i alpha path p x, 0 < alpha → alpha < s.paths.Q → s.mesh.NewPath s.paths i alpha path → Paths.Follows s.mesh s.paths path (.found p) →
    Paths.unitDeparture s.mesh p = .ok x → ∀ k < (s.mesh.dofs p.currentCell).length, s.mesh.shape k x = 0 ∨ 1 / 10 ^ 10 ≤ |s.mesh.shape k x|

/-- All walls are at rest: what their boundary conditions do at the hits changes nothing. -/
def WallsAtRest (s : Setup t K m n N C) : Prop := ∀ hit ∈ s.assembly.hits, ∀ time old new, s.applyHit time hit old new = new

/-- `node` is the point of the domain at which a degree of freedom is: degrees of freedom on two sides of a periodic boundary are at the same point.
Streaming moves the populations between these points: what arrives in a degree of freedom is what has been in one at another point, in the same or
another direction. -/
def Moves {P : Type*} (s : Setup t K m n N C) (node : Fin N → P) (σ : Equiv.Perm (Fin t.Q × P)) : Prop :=
  ∀ i y, ∃ z, node z = (σ (i, node y)).2 ∧ ∀ g : ℕ → ℕ → K, Paths.stream s.assembly.entries g i.val y.val = g (σ (i, node y)).1.val z.val

/-- Degrees of freedom at the same point have the same populations. -/
def Consistent {P : Type*} (node : Fin N → P) (x : Fin N → Node ℝ t.D t.Q) : Prop := ∀ y z, node y = node z → (x y).f = (x z).f

/-- The sum of a field over the degrees of freedom with given weights: the integral, for weights of a quadrature -/
def integral (ω : Fin N → ℝ) (g : Fin N → ℝ) : ℝ := ∑ y, ω y * g y

/-- The mass of the fluid -/
noncomputable def totalMass (ω : Fin N → ℝ) (x : Fin N → Node ℝ t.D t.Q) : ℝ := integral ω fun y => Spec.mass (x y).f

/-- The momentum of the fluid -/
noncomputable def totalMomentum (s : Setup t K m n N C) (ω : Fin N → ℝ) (x : Fin N → Node ℝ t.D t.Q) (a : Fin t.D) : ℝ :=
  integral ω fun y => Spec.momentum (t.stencil s.c).dir (x y).f a

/-- The volume of a point of the domain -/
def share {P : Type*} [DecidableEq P] (node : Fin N → P) (ω : Fin N → ℝ) (p : P) : ℝ := ∑ y with node y = p, ω y

/-- The filter keeps the integral, and degrees of freedom at the same point the same. -/
def FilterKeeps {P : Type*} (s : Setup t K m n N C) (node : Fin N → P) (ω : Fin N → ℝ) : Prop :=
  ∀ u, (∀ y z, node y = node z → u y = u z) →
    integral ω (Smoothing.applyFilter s.toModes s.fromModes s.factor s.dof s.mesh.cells u) = integral ω u ∧
    ∀ y z, node y = node z → Smoothing.applyFilter s.toModes s.fromModes s.factor s.dof s.mesh.cells u y =
      Smoothing.applyFilter s.toModes s.fromModes s.factor s.dof s.mesh.cells u z

end SlSolver
end NATriuM
