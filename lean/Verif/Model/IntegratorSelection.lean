import Mathlib.Data.Matrix.Mul
import Verif.Model.Config
import Verif.Model.TimeIntegration

/-!
# Choice of the time integrator and of the linear solver

Models of the part of `P/solver/CFDSolver.cpp` (`P` = `src/library/natrium`) that builds the time integrator, of `make_integrator` in
`P/benchmarks/AdvectionBenchmark.cpp` and of `P/timeintegration/DealIIWrapper.cpp`. The enums are numbers as in `Model/Config`. The Runge-Kutta
schemes and the linear solvers of deal.II are not modelled.
-/

namespace NATriuM

namespace IntegratorSelection

open Config

/-- What a smart pointer to a `TimeIntegrator` may point to. The numbers are those of the enums `DealIntegratorName` and `DealSolverName`. -/
inductive Integrator (K : Type*)
  | rungeKutta5 (dt : K)
  | theta (dt theta : K)
  | exponential (dt : K)
  /-- `ExplicitRungeKutta` -/
  | explicitRK (dt : K) (scheme solver : ℕ)
  /-- `ImplicitRungeKutta` -/
  | implicitRK (dt : K) (scheme solver : ℕ)
  /-- `EmbeddedExplicitRungeKutta` with the smallest and the largest step; `none`: the defaults of deal.II -/
  | embeddedRK (dt : K) (scheme solver : ℕ) (limits : Option (K × K))
  deriving DecidableEq

variable {K : Type*}

/-- The constructor with three arguments, `P/timeintegration/DealIIWrapper.cpp:639-660`; `none` is a failed assertion. -/
def wrapper (dt : K) (scheme solver : ℕ) : Option (Integrator K) :=
  if scheme < 12 ∧ NONE ≠ scheme then
    if scheme < 3 then some (.explicitRK dt scheme solver)
    else if scheme < 7 then some (.implicitRK dt scheme solver)
    else some (.embeddedRK dt scheme solver none)
  else none

/-- The constructor with nine arguments, `P/timeintegration/DealIIWrapper.cpp:662-680`; the factors and tolerances are left out. -/
def wrapperEmbedded (dt : K) (scheme solver : ℕ) (minDelta maxDelta : K) : Option (Integrator K) :=
  if scheme < 12 ∧ NONE ≠ scheme then some (.embeddedRK dt scheme solver (some (minDelta, maxDelta))) else none

/-- The part of the configuration that is read -/
structure Choice (K : Type*) where
  timeIntegrator : ℕ
  dealIntegrator : ℕ
  linearSolver : ℕ
  theta : K

/-- `P/solver/CFDSolver.cpp:402-445`: the outer `none` is a failed assertion, the inner one a null pointer. `minDelta` and `maxDelta` are the
time steps for the smallest and the largest CFL number of the configuration. -/
def build (c : Choice K) (dt minDelta maxDelta : K) : Option (Option (Integrator K)) :=
  if RUNGE_KUTTA_5STAGE = c.timeIntegrator then some (some (.rungeKutta5 dt))
  else if THETA_METHOD = c.timeIntegrator then some (some (.theta dt c.theta))
  else if EXPONENTIAL = c.timeIntegrator then some (some (.exponential dt))
  else if OTHER = c.timeIntegrator then
    if c.dealIntegrator < 7 then (wrapper dt c.dealIntegrator c.linearSolver).map some
    else if c.dealIntegrator < 12 then (wrapperEmbedded dt c.dealIntegrator c.linearSolver minDelta maxDelta).map some
    else some none
  else some none

/-- `make_integrator`, `P/benchmarks/AdvectionBenchmark.cpp:38-87`, with the linear solver of a default configuration; `none` is a failed
assertion. -/
def makeIntegrator [Field K] (timeIntegrator dealIntegrator : ℕ) (dt : K) : Option (Integrator K) :=
  if timeIntegrator = RUNGE_KUTTA_5STAGE then some (.rungeKutta5 dt)
  else if timeIntegrator = THETA_METHOD then some (.theta dt (1 / 2))
  else if timeIntegrator = EXPONENTIAL then some (.exponential dt)
  else if timeIntegrator = OTHER then
    if dealIntegrator < 7 then wrapper dt dealIntegrator BICGSTAB
    else if dealIntegrator < 12 then wrapperEmbedded dt dealIntegrator BICGSTAB (dt / 10) (10 * dt)
    else none
  else none

/-- `DealIIWrapper::step`, `P/timeintegration/DealIIWrapper.cpp:610-637`: the body is a comment, so the state stays and there is no return
value (`none`). -/
def wrapperStep {E : Type*} (f : E) : E × Option K := (f, none)

/-! ## The linear system of the implicit schemes -/

variable [Field K] {n : ℕ}

/-- `m_tmpMatrix.add(i, i, 1.0)` -/
def addOne (M : Matrix (Fin n) (Fin n) K) (i : Fin n) : Matrix (Fin n) (Fin n) K :=
  Matrix.of fun r c => if r = i ∧ c = i then M r c + 1 else M r c

/-- `P/timeintegration/DealIIWrapper.cpp:290-296` (and `:371-377`, `:449-471`, `:544-560`, block by block): `m_tmpMatrix` before the solve -/
def idMinusTau (A : Matrix (Fin n) (Fin n) K) (tau : K) : Matrix (Fin n) (Fin n) K :=
  (List.finRange n).foldl addOne (Matrix.of fun r c => A r c * (-tau))

/-- `P/timeintegration/DealIIWrapper.cpp:301-353` (and `:382-421`, `:476-522`, `:565-606`), also `:58-110` for `evaluateJInverse`: the
dispatch on `m_solver`. `solve s M x f` is the solver of deal.II with start vector `x`; `none` is the exception `NoConvergence`. -/
def dispatch {V M : Type*} (solve : ℕ → M → V → V → Option V) (solver : ℕ) (A : M) (f : V) : Option V :=
  match solver with
  | 0 => solve BICGSTAB A f f
  | 1 => solve CG A f f
  | 2 => solve FGMRES A f f
  | 3 => solve GMRES A f f
  | 4 => solve MINRES A f f
  | 5 => solve QMRS A f f
  | 7 => solve RICHARDSON A f f
  | _ => some f

/-- `evaluateIdMinusTauJInverse`, `P/timeintegration/DealIIWrapper.cpp:283-354` -/
def evaluateIdMinusTauJInverse (solve : ℕ → Matrix (Fin n) (Fin n) K → (Fin n → K) → (Fin n → K) → Option (Fin n → K)) (solver : ℕ)
    (A : Matrix (Fin n) (Fin n) K) (tau : K) (f : Fin n → K) : Option (Fin n → K) :=
  dispatch solve solver (idMinusTau A tau) f

/-- `evaluateF`, `P/timeintegration/DealIIWrapper.cpp:34-46` -/
def evaluateF (A : Matrix (Fin n) (Fin n) K) (b f : Fin n → K) : Fin n → K :=
  fun i => b i + A.mulVec f i

end IntegratorSelection

end NATriuM
