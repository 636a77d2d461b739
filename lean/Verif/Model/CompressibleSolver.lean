import Verif.Model.CollisionCompressible
import Verif.Model.Initialisation
import Verif.Model.SedgSolver

/-!
# The whole compressible solver

`CompressibleCFDSolver` (`P/solver/CompressibleCFDSolver.h`, `P` is `src/library/natrium`) with `Advection scheme = SEDG`: two distributions, `f` and
`g`, which are streamed one after the other with the same system matrix and system vector.  As in `Verif.Model.SedgSolver`, a degree of freedom is a
cell and an index in the cell; the same things are left out.
-/

namespace NATriuM
namespace CompressibleSolver

/-- What the constructor has put together, `P/solver/CompressibleCFDSolver.h:60-102`: the parts of `CFDSolver`, from which the class is derived (of
these the data processors act on the isothermal state and are not used), the gas, the initialisation (scheme and number of iterations) and the data
processors. -/
structure Setup (t : StencilType) (n nQ nf nq : ℕ) (C : Type*) where
  core : SedgSolver.Setup t n nQ nf nq C
  gas : CompressibleConfig
  scheme : Init.Scheme
  iterations : ℕ
  processors : List (ℕ → ℝ → (C × Fin n → GNode t.D t.Q) → C × Fin n → GNode t.D t.Q)

/-- What can go wrong in a part; `scheme` is the exception of `P/solver/CompressibleCFDSolver.h:989-993`. -/
inductive Failure
  | collision (e : CollError)
  | integration (e : TimeIntegration.StepError)
  | scheme
  deriving DecidableEq, Repr

section

variable {t : StencilType} {n nQ nf nq : ℕ} {C : Type*} [DecidableEq C] (s : Setup t n nQ nf nq C)

/-- The distributions `m_f` of all degrees of freedom, by direction -/
def flow (x : C × Fin n → GNode t.D t.Q) : SedgSolver.Block t n C := fun i y => (x y).f i

/-- The distributions `m_g` -/
def energy (x : C × Fin n → GNode t.D t.Q) : SedgSolver.Block t n C := fun i y => (x y).g i

/-- The degrees of freedom with new distributions `m_f` -/
def setFlow (x : C × Fin n → GNode t.D t.Q) (f : SedgSolver.Block t n C) : C × Fin n → GNode t.D t.Q := fun y => { x y with f := fun i => f i y }

/-- The degrees of freedom with new distributions `m_g` -/
def setEnergy (x : C × Fin n → GNode t.D t.Q) (g : SedgSolver.Block t n C) : C × Fin n → GNode t.D t.Q := fun y => { x y with g := fun i => g i y }

/-- `stream`, `P/solver/CompressibleCFDSolver.h:246-271`: the time returned by the integrator is taken for the new step size. -/
noncomputable def integrate (dt : ℝ) (x : C × Fin n → GNode t.D t.Q) : Except Failure ((C × Fin n → GNode t.D t.Q) × ℝ) :=
  match SedgSolver.step s.core dt (flow x) with
  | .error e => .error (.integration e)
  | .ok r => .ok (setFlow x r.f, r.t)

/-- `gStream`, `P/solver/CompressibleCFDSolver.h:308-313`: the same matrix and the same vector as for `f`; the returned time is not used. -/
noncomputable def gStream (dt : ℝ) (x : C × Fin n → GNode t.D t.Q) : Except Failure (C × Fin n → GNode t.D t.Q) :=
  match SedgSolver.step s.core dt (energy x) with
  | .error e => .error (.integration e)
  | .ok r => .ok (setEnergy x r.f)

/-- The filter on all blocks of one of the distributions -/
noncomputable def filterBlock (f : SedgSolver.Block t n C) : SedgSolver.Block t n C := fun i =>
  Smoothing.applyFilter s.core.toModes s.core.fromModes s.core.factor (fun c k => (c, k)) s.core.cells (f i)

/-- `compressibleFilter`, `P/solver/CompressibleCFDSolver.h:323-328` -/
noncomputable def applyFilter (x : C × Fin n → GNode t.D t.Q) : C × Fin n → GNode t.D t.Q :=
  setEnergy (setFlow x (filterBlock s (flow x))) (filterBlock s (energy x))

/-- The collision, `P/solver/CompressibleCFDSolver.h:739-788`, with the time step from the configured CFL number (lines 759-762); `ini` is true in the
iterative initialisation (lines 950-958). -/
noncomputable def collide (ini : Bool) (x : C × Fin n → GNode t.D t.Q) : Except Failure (C × Fin n → GNode t.D t.Q) :=
  match compressibleCollide t s.core.c s.core.viscosity s.core.dt s.core.collision s.gas ini (SedgSolver.owned s.core) x with
  | .error e => .error (.collision e)
  | .ok x => .ok x

/-- The first loop of `initializeDistributions`, `P/solver/CompressibleCFDSolver.h:880-901` -/
noncomputable def toEquilibrium (x : C × Fin n → GNode t.D t.Q) : C × Fin n → GNode t.D t.Q := fun y =>
  if y ∈ SedgSolver.owned s.core then
    let fg := Init.compressibleNode (t.stencil s.core.c) s.gas.gamma (x y).rho (x y).u (x y).T
    { x y with f := fg.1, g := fg.2 }
  else x y

/-- One pass of the iterative initialisation, `P/solver/CompressibleCFDSolver.h:926-971`: `f` is streamed, `g` is not; the collision works on copies of
the fields, which are thrown away (lines 965-970). The step size is that of the configuration, as both integrators return the one they are given. -/
noncomputable def sweep (x : C × Fin n → GNode t.D t.Q) : Except Failure (C × Fin n → GNode t.D t.Q) :=
  match integrate s s.core.dt x with
  | .error e => .error e
  | .ok r =>
    match collide s true r.1 with
    | .error e => .error e
    | .ok x' => .ok fun y => { x y with f := (x' y).f, g := (x' y).g }

/-- `initializeDistributions`, `P/solver/CompressibleCFDSolver.h:850-1004` -/
noncomputable def initializeDistributions (x : C × Fin n → GNode t.D t.Q) : Except Failure (C × Fin n → GNode t.D t.Q) :=
  match s.scheme with
  | .equilibrium => .ok (toEquilibrium s x)
  | .compressibleIterative =>
    match Solver.compressibleIterate (sweep s) s.iterations 0 (toEquilibrium s x) with
    | .error e => .error e
    | .ok r => .ok r.1
  | _ => .error .scheme

/-- The solver as the time loop sees it, `P/solver/CompressibleCFDSolver.h:181-396, 739-1051`.  The turbulence statistics write tables only. -/
noncomputable def parts : Solver.CompressibleParts (C × Fin n → GNode t.D t.Q) Failure (C × Fin n) t.D where
  scheme := .sedg
  advect _ _ x := .ok x
  integrate _ dt x := integrate s dt x
  applyFilter := applyFilter s
  collide := collide s false
  processors := s.processors
  rho x y := (x y).rho
  u x a y := (x y).u a
  gStream _ dt x := gStream s dt x
  statistics := id
  initializeDistributions := initializeDistributions s

end

end CompressibleSolver
end NATriuM
