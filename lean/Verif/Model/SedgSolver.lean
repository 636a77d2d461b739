import Verif.Model.CollisionSelection
import Verif.Model.Sedg
import Verif.Model.SolverLoop
import Verif.Model.Stabilizer
import Verif.Model.Smoothing
import Verif.Model.TimeIntegration
import Verif.Model.Walls

/-!
# The whole discontinuous Galerkin solver

Puts the models of the advection operator (`Verif.Model.Sedg`), the walls (`Verif.Model.Walls`), the time integrators
(`Verif.Model.TimeIntegration`), the filter (`Verif.Model.Smoothing`), the collision step (`Verif.Model.CollisionSelection`) and the time loop
(`Verif.Model.SolverLoop`) together, as `CFDSolver` does for `Advection scheme = SEDG`.  `P` is short for `src/library/natrium`.

The data of the run are the distributions and the fields in all degrees of freedom; a degree of freedom is a cell and an index in the cell.
Left out: the multistep data of the schemes `BGK_MULTI_AM4` and `BGK_MULTI_BDF2`, the class-based collision models, external time integrators
(deal.II), the distribution of the mesh over processes (the cells are those of all processes).
-/

namespace NATriuM
namespace SedgSolver

/-- The time integrators of the library that are used here; `P/timeintegration/RungeKutta5LowStorage.h`, `P/timeintegration/ThetaMethod.h`.  The
theta method comes with the linear solver it calls. -/
inductive Integrator (E : Type*) [AddCommGroup E] [Module ℝ E]
  | rungeKutta5
  | theta (θ : ℝ) (solve : (E →ₗ[ℝ] E) → E → E → Option E)

/-- The values of all distributions in all degrees of freedom, by direction: `m_f` -/
abbrev Block (t : StencilType) (n : ℕ) (C : Type*) := Fin t.Q → C × Fin n → ℝ

/-- What the constructor of the solver has put together, `P/solver/CFDSolver.cpp:76-655`: the stencil with scaling `c`, the mesh with the finite
element, the cells, the flux, the velocity of the walls in the quadrature points of the faces that have no neighbour, the viscosity, the time
step from the CFL number (`:821-829`), the configuration of the collision, the integrator, the filter and the data processors. -/
structure Setup (t : StencilType) (n nQ nf nq : ℕ) (C : Type*) where
  c : ℝ
  mesh : Sedg.Mesh ℝ t.D n nQ nf nq C
  cells : List C
  central : Bool
  wallVelocity : C → Fin nf → Fin nq → Fin t.D → ℝ
  viscosity : ℝ
  dt : ℝ
  collision : CollisionConfig t.D
  integrator : Integrator (Block t n C)
  toModes : Matrix (Fin n) (Fin n) ℝ
  fromModes : Matrix (Fin n) (Fin n) ℝ
  factor : Fin n → ℝ
  processors : List (ℕ → ℝ → (C × Fin n → Node ℝ t.D t.Q) → C × Fin n → Node ℝ t.D t.Q)

/-- What can go wrong in a part -/
inductive Failure
  | collision (e : CollError)
  | integration (e : TimeIntegration.StepError)
  deriving DecidableEq, Repr

section

variable {t : StencilType} {n nQ nf nq : ℕ} {C : Type*} [DecidableEq C] (s : Setup t n nQ nf nq C)

/-- The sum of one kind of wall entries, times the inverse mass, over the quadrature points on walls that belong to the degree of freedom `x`: the
loops in `P/advection/SEDGMinLee.cpp:147-176` (cells) and `:369-401` (faces) and in `P/boundaries/VelocityNeqBounceBack.cpp:74-132`.  Simplified:
entries of one face with the same degree of freedom are added; the code overwrites them, but the quadrature points of a face belong to different
degrees of freedom. -/
noncomputable def wallSum (entry : Walls.FaceEntries ℝ → ℝ) (i : Fin t.Q) (x : C × Fin n) : ℝ :=
  if x.1 ∈ s.cells then
    ∑ f, if (s.mesh.neighbor x.1 f).isNone then
      ∑ q, if s.mesh.faceDof f q = x.2 then
        entry (Walls.faceEntries (t.stencil s.c) s.central (s.mesh.faceJxw x.1 f q) (s.mesh.normal x.1 f q) (s.wallVelocity x.1 f q) i)
          * Sedg.inverseMass s.mesh x.1 x.2
      else 0
    else 0
  else 0

/-- The product of the system matrix with the distributions, `P/advection/SEDGMinLee.cpp:91-182`: the block of each direction, and the coupling to
the opposite direction at walls.  There are no blocks for direction 0 (`alpha` starts at 1); the model has a zero row instead. -/
noncomputable def matrixTimes (f : Block t n C) : Block t n C := fun i x =>
  if i.val = 0 then 0
  else Sedg.rate (Sedg.reassemble s.mesh s.central ((t.stencil s.c).dir i) s.cells) (f i) x
    + (wallSum s Walls.FaceEntries.own i x * f i x + wallSum s Walls.FaceEntries.opposite i x * f ((t.stencil s.c).opp i) x)

/-- The product is linear. -/
theorem rate_linear (entries : List (Sedg.Entry ℝ n C)) (a : ℝ) (u v : C × Fin n → ℝ) (x : C × Fin n) :
    Sedg.rate entries (u + a • v) x = Sedg.rate entries u x + a * Sedg.rate entries v x := by
  unfold Sedg.rate
  induction entries.filter fun y => y.row = x with
  | nil => simp
  | cons y l ih =>
    rw [List.map_cons, List.sum_cons, ih, List.map_cons, List.sum_cons, List.map_cons, List.sum_cons, Pi.add_apply, Pi.smul_apply, smul_eq_mul]
    ring

/-- `getSystemMatrix`, as a linear map, `P/advection/SEDGMinLee.cpp:91-182` -/
noncomputable def systemMatrix : Block t n C →ₗ[ℝ] Block t n C where
  toFun := matrixTimes s
  map_add' f g := by
    funext i x
    have h := rate_linear (Sedg.reassemble s.mesh s.central ((t.stencil s.c).dir i) s.cells) 1 (f i) (g i) x
    rw [one_smul, one_mul] at h
    simp only [matrixTimes, Pi.add_apply]
    split
    · simp
    · rw [h]; ring
  map_smul' a f := by
    funext i x
    have h := rate_linear (Sedg.reassemble s.mesh s.central ((t.stencil s.c).dir i) s.cells) a 0 (f i) x
    have h0 : Sedg.rate (Sedg.reassemble s.mesh s.central ((t.stencil s.c).dir i) s.cells) 0 x = 0 := by
      simp [Sedg.rate]
    rw [zero_add, h0, zero_add] at h
    simp only [matrixTimes, Pi.smul_apply, smul_eq_mul, RingHom.id_apply]
    split
    · simp
    · rw [h]; ring

/-- `getSystemVector`, `P/advection/SEDGMinLee.h:260-262`: what the walls have added to it in `reassemble`, `P/advection/SEDGMinLee.cpp:388-392`; again
with a zero block for direction 0 -/
noncomputable def systemVector : Block t n C := fun i x => if i.val = 0 then 0 else wallSum s Walls.FaceEntries.vector i x

/-- The distributions of all degrees of freedom, by direction -/
def populations (x : C × Fin n → Node ℝ t.D t.Q) : Block t n C := fun i y => (x y).f i

/-- The degrees of freedom with new distributions -/
def setPopulations (x : C × Fin n → Node ℝ t.D t.Q) (f : Block t n C) : C × Fin n → Node ℝ t.D t.Q := fun y => { x y with f := fun i => f i y }

/-- The call of the integrator, `P/solver/CFDSolver.cpp:723-725`: the step size handed over is the stored one, the time is 0 -/
noncomputable def step (dt : ℝ) (f : Block t n C) : Except TimeIntegration.StepError (TimeIntegration.StepResult (Block t n C)) :=
  match s.integrator with
  | .rungeKutta5 => TimeIntegration.rkStep (systemMatrix s) (systemVector s) dt f 0 dt
  | .theta θ solve => TimeIntegration.thetaStep solve (systemMatrix s) (systemVector s) θ dt f 0 dt

/-- `P/solver/CFDSolver.cpp:723-747`: the time returned by the integrator is taken for the new step size. -/
noncomputable def integrate (dt : ℝ) (x : C × Fin n → Node ℝ t.D t.Q) : Except Failure ((C × Fin n → Node ℝ t.D t.Q) × ℝ) :=
  match step s dt (populations x) with
  | .error e => .error (.integration e)
  | .ok r => .ok (setPopulations x r.f, r.t)

/-- The filter applied to all distributions, `P/solver/CFDSolver.cpp:864-871` -/
noncomputable def applyFilter (x : C × Fin n → Node ℝ t.D t.Q) : C × Fin n → Node ℝ t.D t.Q :=
  setPopulations x fun i => Smoothing.applyFilter s.toModes s.fromModes s.factor (fun c k => (c, k)) s.cells (populations x i)

/-- The degrees of freedom in the order of the cells -/
def owned : List (C × Fin n) := s.cells.flatMap fun c => (List.finRange n).map fun k => (c, k)

/-- The collision, `P/solver/CFDSolver.cpp:806-843`, with the time step from the configured CFL number -/
noncomputable def collide (x : C × Fin n → Node ℝ t.D t.Q) : Except Failure (C × Fin n → Node ℝ t.D t.Q) :=
  match isothermalCollide t s.c s.viscosity s.dt s.collision false (owned s) x with
  | .error e => .error (.collision e)
  | .ok x => .ok x

/-- The stabiliser as a data processor, `P/solver/CFDSolver.cpp:607-619` and `P/dataprocessors/PseudoEntropicStabilizer.cpp:116-289` -/
noncomputable def stabiliser (s : Setup t n nQ nf nq C) (withE : Bool) (_i : ℕ) (_time : ℝ) (x : C × Fin n → Node ℝ t.D t.Q) :
    C × Fin n → Node ℝ t.D t.Q :=
  setPopulations x fun i y => Stabilizer.apply t withE (owned s) (fun y => (x y).f) y i

/-- The solver as the time loop sees it, `P/solver/CFDSolver.cpp:658-893` -/
noncomputable def parts : Solver.Parts (C × Fin n → Node ℝ t.D t.Q) Failure (C × Fin n) t.D where
  scheme := .sedg
  advect _ _ x := .ok x
  integrate _ dt x := integrate s dt x
  applyFilter := applyFilter s
  collide := collide s
  processors := s.processors
  rho x y := (x y).rho
  u x a y := (x y).u a

end

end SedgSolver
end NATriuM
