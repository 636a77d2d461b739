import Verif.Model.CollisionSelection
import Verif.Model.PathTracking
import Verif.Model.Smoothing
import Verif.Model.SolverLoop
import Verif.Model.Walls

/-!
# The whole semi-Lagrangian solver

Puts the models of the streaming matrix (`Verif.Model.PathTracking`), the walls (`Verif.Model.Walls`), the filter (`Verif.Model.Smoothing`), the
collision step (`Verif.Model.CollisionSelection`) and the time loop (`Verif.Model.SolverLoop`) together, as `CFDSolver` does for
`Advection scheme = Semi-Lagrangian`.  `P` is short for `src/library/natrium`.

The data of the run are the distributions and the fields in all degrees of freedom, which are numbered from 0.  Left out: the multistep data of the
schemes `BGK_MULTI_AM4` and `BGK_MULTI_BDF2`, the class-based collision models, the distribution of the mesh over processes.
-/

namespace NATriuM
namespace SlSolver

/-- What the constructor of the solver has put together, `P/solver/CFDSolver.cpp:76-655`: the stencil with scaling `c`; the mesh, directions and time
step for the paths, in a field `K` (the real numbers, or a field in them in which all coordinates lie); what has been assembled; what the boundary
condition at a hit does to the new distributions, given the time and the old ones (`P/boundaries/SemiLagrangianBoundaryHandler.cpp:96-104`); the degrees
of freedom of the cells; viscosity, time step, the configuration of the collision, the filter and the data processors. -/
structure Setup (t : StencilType) (K : Type*) [Field K] (m n N : ℕ) (C : Type*) where
  c : ℝ
  toReal : K →+* ℝ
  mesh : Paths.Mesh K m C
  paths : Paths.Setup K (m + 2)
  assembly : Paths.Assembly K (m + 2) C
  applyHit : ℝ → Paths.Tracker K (m + 2) C × ℕ → Walls.Store ℝ t.Q (Fin N) → Walls.Store ℝ t.Q (Fin N) → Walls.Store ℝ t.Q (Fin N)
  dof : C → Fin n → Fin N
  viscosity : ℝ
  dt : ℝ
  collision : CollisionConfig t.D
  toModes : Matrix (Fin n) (Fin n) ℝ
  fromModes : Matrix (Fin n) (Fin n) ℝ
  factor : Fin n → ℝ
  processors : List (ℕ → ℝ → (Fin N → Node ℝ t.D t.Q) → Fin N → Node ℝ t.D t.Q)

section

variable {t : StencilType} {K : Type*} [Field K] {m n N : ℕ} {C : Type*} (s : Setup t K m n N C)

/-- The distributions of all degrees of freedom: `m_f` -/
def populations (x : Fin N → Node ℝ t.D t.Q) : Walls.Store ℝ t.Q (Fin N) := fun i y => (x y).f i

/-- The degrees of freedom with new distributions -/
def setPopulations (x : Fin N → Node ℝ t.D t.Q) (f : Walls.Store ℝ t.Q (Fin N)) : Fin N → Node ℝ t.D t.Q := fun y => { x y with f := fun i => f i y }

/-- An entry of the matrix as a real number -/
def realEntry (e : Paths.Entry K) : Paths.Entry ℝ := ⟨e.blockRow, e.blockColumn, e.row, e.column, s.toReal e.value⟩

/-- The distributions by numbers of directions and degrees of freedom; there are no others than those with numbers below `t.Q` and `N`. -/
def byNumber (f : Walls.Store ℝ t.Q (Fin N)) : ℕ → ℕ → ℝ := fun b i => if hb : b < t.Q then if hi : i < N then f ⟨b, hb⟩ ⟨i, hi⟩ else 0 else 0

/-- `systemMatrix.vmult(m_f.getFStream(), f_tmp.getFStream())`, `P/solver/CFDSolver.cpp:671-672` -/
noncomputable def multiply (f : Walls.Store ℝ t.Q (Fin N)) : Walls.Store ℝ t.Q (Fin N) :=
  fun i y => Paths.stream (s.assembly.entries.map (realEntry s)) (byNumber f) i y

/-- `applyBoundaryConditions(f_tmp, m_f, m_time)`, `P/solver/CFDSolver.cpp:673`, `P/advection/SemiLagrangian.h:163-165` and
`P/boundaries/SemiLagrangianBoundaryHandler.cpp:25-109`: all hits, here in the order in which they were added -/
def applyBoundaryConditions (time : ℝ) (old new : Walls.Store ℝ t.Q (Fin N)) : Walls.Store ℝ t.Q (Fin N) :=
  s.assembly.hits.foldl (fun f hit => s.applyHit time hit old f) new

/-- Streaming, `P/solver/CFDSolver.cpp:669-721`; the limiter does nothing (`Verif.Model.Smoothing`). -/
noncomputable def advect (time : ℝ) (x : Fin N → Node ℝ t.D t.Q) : Fin N → Node ℝ t.D t.Q :=
  setPopulations x (applyBoundaryConditions s time (populations x) (multiply s (populations x)))

/-- The filter applied to all distributions, `P/solver/CFDSolver.cpp:864-871` -/
noncomputable def applyFilter (x : Fin N → Node ℝ t.D t.Q) : Fin N → Node ℝ t.D t.Q :=
  setPopulations x fun i => Smoothing.applyFilter s.toModes s.fromModes s.factor s.dof s.mesh.cells (populations x i)

/-- The collision, `P/solver/CFDSolver.cpp:806-843` -/
noncomputable def collide (x : Fin N → Node ℝ t.D t.Q) : Except CollError (Fin N → Node ℝ t.D t.Q) :=
  isothermalCollide t s.c s.viscosity s.dt s.collision false (List.finRange N) x

/-- The solver as the time loop sees it, `P/solver/CFDSolver.cpp:658-893` -/
noncomputable def parts : Solver.Parts (Fin N → Node ℝ t.D t.Q) CollError (Fin N) t.D where
  scheme := .semiLagrangian
  advect _ time x := .ok (advect s time x)
  integrate _ dt x := .ok (x, dt)
  applyFilter := applyFilter s
  collide := collide s
  processors := s.processors
  rho x y := (x y).rho
  u x a y := (x y).u a

end

section

variable {t : StencilType} {K : Type*} [Field K] {m n N : ℕ} {C : Type*}

/-- What a wall with bounce-back of the non-equilibrium does at a hit of a path with destination `(index, direction)`,
`P/boundaries/VelocityNeqBounceBack.cpp:136-195` and `P/boundaries/SemiLagrangianBoundaryHandler.cpp:96-104`; `points` and `eps` are the hit point as
`FEBoundaryValues` sees it and the time of the hit before the end of the step. -/
noncomputable def wallHit (c : ℝ) (velocity : ℝ → (Fin t.D → ℝ) → Fin t.D → ℝ) (points : Paths.Tracker K (m + 2) C × ℕ → Walls.HitPoint ℝ t.D)
    (eps : Paths.Tracker K (m + 2) C × ℕ → ℝ) (time : ℝ) (hit : Paths.Tracker K (m + 2) C × ℕ) (_old new : Walls.Store ℝ t.Q (Fin N)) :
    Walls.Store ℝ t.Q (Fin N) :=
  if hb : hit.1.direction < t.Q then if hi : hit.1.index < N then
    Walls.velocityWall (t.stencil c) velocity (points hit) ⟨hit.1.direction, hb⟩ ⟨hit.1.index, hi⟩ (eps hit) time new
  else new else new

end

end SlSolver
end NATriuM
