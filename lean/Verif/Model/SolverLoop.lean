import Mathlib.Analysis.Normed.Group.Constructions
import Mathlib.Analysis.Normed.Field.Basic
import Mathlib.Analysis.Real.Sqrt

/-!
# The time loop of the solvers

Models `CFDSolver::run`, `stream`, `filter`, `collide`, `stopConditionMet`, `output` (`P/solver/CFDSolver.cpp`),
`SolverStats::calculateResiduals` (`P/solver/SolverStats.h`) and the loop of `CompressibleCFDSolver`
(`P/solver/CompressibleCFDSolver.h`), where `P` is `src/library/natrium`.

What is computed inside one streaming, filtering or collision call is a parameter (`Parts`): the collision sweep is modelled in
`Model/Collision.lean`, the integrators in `Model/TimeIntegration.lean`.  The loop itself (order of the calls, iteration counter,
clock, stop conditions, residual history, what is written when) is modelled as it is.  Doubles are idealised to real numbers.  Log
messages, timers and the turbulence statistics are left out.
-/

namespace NATriuM
namespace Solver

/-- The configuration parameters read by the loop.  The intervals are declared with `Patterns::Integer(1)`
(`P/solver/SolverConfiguration.cpp:190-191`, `:258-265`), so zero is refused when the parameter is set. -/
structure RunConfig where
  numberOfTimeSteps : ℕ
  simulationEndTime : ℝ
  convergenceThreshold : ℝ
  switchOutputOff : Bool
  solutionInterval : ℕ
  tableInterval : ℕ
  checkpointInterval : ℕ
  isFiltering : Bool
  filterInterval : ℕ
  solutionInterval_pos : 0 < solutionInterval
  tableInterval_pos : 0 < tableInterval
  checkpointInterval_pos : 0 < checkpointInterval
  filterInterval_pos : 0 < filterInterval

/-- The two branches of `stream`. -/
inductive AdvectionScheme
  | sedg
  | semiLagrangian
  deriving DecidableEq, Repr

/-- The solver data that change from step to step: `x` stands for the distributions, the macroscopic fields, the multistep data
and whatever the data processors keep; `time` is `m_time` and `dt` the `m_timeStepSize` of the time integrator. -/
structure Snapshot (σ : Type*) where
  x : σ
  time : ℝ
  dt : ℝ

/-- The parts of the solver called by the loop.  The first argument of `advect` and `integrate` is `m_i - m_iterationStart`, on
which the streaming of the multistep data depends; the second argument of `advect` is the time handed to the boundary conditions,
that of `integrate` the step size. -/
structure Parts (σ ε ι : Type*) (D : ℕ) where
  scheme : AdvectionScheme
  advect : ℕ → ℝ → σ → Except ε σ
  integrate : ℕ → ℝ → σ → Except ε (σ × ℝ)
  applyFilter : σ → σ
  collide : σ → Except ε σ
  processors : List (ℕ → ℝ → σ → σ)
  rho : σ → ι → ℝ
  u : σ → Fin D → ι → ℝ

/-- Abnormal ends of a run. -/
inductive RunError (ε : Type*)
  /-- an exception of one of the parts (`natrium_errorexit` or propagated) -/
  | part (e : ε)
  /-- `assert(timeStepSize > 0.0)` in `TimeIntegrator::setTimeStepSize`, `P/timeintegration/TimeIntegrator.h:39-45` -/
  | timeStepNotPositive
  deriving DecidableEq, Repr

variable {σ ε ι : Type*} {D : ℕ}

/-- `CFDSolver::stream`, `P/solver/CFDSolver.cpp:658-754`; `k` is `m_i - m_iterationStart`.  The clock is advanced in line 721
(semi-Lagrangian) and in line 747 (others), the step size in line 746. -/
noncomputable def stream (p : Parts σ ε ι D) (k : ℕ) (s : Snapshot σ) : Except (RunError ε) (Snapshot σ) :=
  match p.scheme with
  | .semiLagrangian =>
    match p.advect k s.time s.x with
    | .error e => .error (.part e)
    | .ok x => .ok { x := x, time := s.time + s.dt, dt := s.dt }
  | .sedg =>
    match p.integrate k s.dt s.x with
    | .error e => .error (.part e)
    | .ok (x, newDt) =>
      if 0 < newDt then .ok { x := x, time := s.time + newDt, dt := newDt } else .error .timeStepNotPositive

/-- `CFDSolver::filter`, `P/solver/CFDSolver.cpp:858-874`. -/
def filter (cfg : RunConfig) (p : Parts σ ε ι D) (i : ℕ) (s : Snapshot σ) : Snapshot σ :=
  if cfg.isFiltering && i % cfg.filterInterval == 0 then { s with x := p.applyFilter s.x } else s

/-- `CFDSolver::collide`, `P/solver/CFDSolver.cpp:806-843`. -/
def collide (p : Parts σ ε ι D) (s : Snapshot σ) : Except (RunError ε) (Snapshot σ) :=
  match p.collide s.x with
  | .error e => .error (.part e)
  | .ok x => .ok { s with x := x }

/-- The loop over the data processors, `P/solver/CFDSolver.cpp:889-891`.  Simplified: a processor may change the data but not the
clock. -/
def applyProcessors (p : Parts σ ε ι D) (i : ℕ) (s : Snapshot σ) : Snapshot σ :=
  { s with x := p.processors.foldl (fun x proc => proc i s.time x) s.x }

/-- The part of the loop body after `m_i++`, `P/solver/CFDSolver.cpp:886-891`; `i` is the incremented `m_i`. -/
noncomputable def advance (cfg : RunConfig) (p : Parts σ ε ι D) (start i : ℕ) (s : Snapshot σ) :
    Except (RunError ε) (Snapshot σ) :=
  match stream p (i - start) s with
  | .error e => .error e
  | .ok s =>
    match collide p (filter cfg p i s) with
    | .error e => .error e
    | .ok s => .ok (applyProcessors p i s)

/-- Something written to the output directory, with the solver data at that moment. -/
inductive Event (σ : Type*)
  /-- `grid.vtk` -/
  | grid (i : ℕ)
  /-- the vtu and pvtu files of an iteration -/
  | solution (i : ℕ) (s : Snapshot σ)
  /-- a line of the results table -/
  | tableLine (i : ℕ) (s : Snapshot σ)
  /-- a checkpoint (status and data file) -/
  | checkpoint (i : ℕ) (s : Snapshot σ)
  /-- a line of the table of errors, written by benchmark solvers only -/
  | errorLine (i : ℕ) (s : Snapshot σ)

/-- `CFDSolver::output`, `P/solver/CFDSolver.cpp:948-1101`.  Both callers pass `iteration = m_i`. -/
def output (cfg : RunConfig) (start i : ℕ) (isFinal : Bool) (s : Snapshot σ) : List (Event σ) :=
  if cfg.switchOutputOff then []
  else
    (if i - start = 0 then [.grid i] else []) ++
    (if (i % cfg.solutionInterval = 0 ∧ cfg.solutionInterval ≤ 10 ^ 8) ∨ isFinal = true then [.solution i s] else []) ++
    (if i % cfg.tableInterval = 0 then [.tableLine i s] else []) ++
    (if (i % cfg.checkpointInterval = 0 ∨ isFinal = true) ∧ cfg.checkpointInterval ≤ 10 ^ 8 ∧ start ≠ i then [.checkpoint i s] else [])

/-- The residuals and the fields kept for the next comparison: `m_residuumVelocity`, `m_residuumDensity`, `m_tmpVelocity`,
`m_tmpDensity`. -/
structure Residuals (ι : Type*) (D : ℕ) where
  velocity : ℝ
  density : ℝ
  tmpVelocity : Fin D → ι → ℝ
  tmpDensity : ι → ℝ

/-- The initial values, `P/solver/CFDSolver.cpp:399-400`; the vectors are zero after `reinit` (lines 370-377). -/
def Residuals.init : Residuals ι D := { velocity := 1, density := 1, tmpVelocity := 0, tmpDensity := 0 }

/-- `SolverStats::calculateResiduals`, `P/solver/SolverStats.h:126-166`.  `linfty_norm` is the maximum norm `‖·‖` of a vector; the
sum over the components is written out for two and three dimensions in the code (lines 148-151). -/
noncomputable def calculateResiduals [Fintype ι] (start i : ℕ) (rho : ι → ℝ) (u : Fin D → ι → ℝ) (r : Residuals ι D) :
    Residuals ι D :=
  if ¬(i - start < 100) then
    { velocity := √‖fun n => ∑ a, (r.tmpVelocity a n - u a n) * (r.tmpVelocity a n - u a n)‖
      density := ‖fun n => r.tmpDensity n - rho n‖
      tmpVelocity := u
      tmpDensity := rho }
  else { r with tmpVelocity := u, tmpDensity := rho }

/-- `CFDSolver::stopConditionMet`, `P/solver/CFDSolver.cpp:904-946`: the answer and the updated residuals. -/
noncomputable def stopConditionMet [Fintype ι] (cfg : RunConfig) (p : Parts σ ε ι D) (start i : ℕ) (s : Snapshot σ)
    (r : Residuals ι D) : Bool × Residuals ι D :=
  if cfg.numberOfTimeSteps ≤ i then (true, r)
  else if cfg.simulationEndTime ≤ s.time then (true, r)
  else if i % 100 = 0 then
    let r := calculateResiduals start i (p.rho s.x) (p.u s.x) r
    (decide (r.velocity < cfg.convergenceThreshold), r)
  else (false, r)

/-- The state of a run between two passes of the loop. -/
structure RunState (σ ι : Type*) (D : ℕ) where
  i : ℕ
  snap : Snapshot σ
  res : Residuals ι D
  log : List (Event σ)

/-- A stop condition that is not met leaves at least one iteration to the limit. -/
theorem lt_of_not_stop [Fintype ι] {cfg : RunConfig} {p : Parts σ ε ι D} {start i : ℕ} {s : Snapshot σ} {r : Residuals ι D}
    (h : ¬(stopConditionMet cfg p start i s r).1 = true) : i < cfg.numberOfTimeSteps := by
  by_contra hn
  exact h (by simp [stopConditionMet, not_lt.mp hn])

/-- The `while (true)` loop, `P/solver/CFDSolver.cpp:880-892`, with the body given by the output function `out` and the data update
`upd`; the compressible solver runs the same loop with its own functions (`P/solver/CompressibleCFDSolver.h:1014-1040`). -/
noncomputable def loop [Fintype ι] {E : Type*} (cfg : RunConfig) (p : Parts σ ε ι D) (start : ℕ)
    (out : ℕ → Bool → Snapshot σ → List (Event σ)) (upd : ℕ → Snapshot σ → Except E (Snapshot σ)) (st : RunState σ ι D) :
    Except E (RunState σ ι D) :=
  if _h : (stopConditionMet cfg p start st.i st.snap st.res).1 = true then
    .ok { st with res := (stopConditionMet cfg p start st.i st.snap st.res).2 }
  else
    match upd (st.i + 1) st.snap with
    | .error e => .error e
    | .ok s =>
      loop cfg p start out upd
        { i := st.i + 1
          snap := s
          res := (stopConditionMet cfg p start st.i st.snap st.res).2
          log := st.log ++ out st.i false st.snap }
  termination_by cfg.numberOfTimeSteps - st.i
  decreasing_by
    have := lt_of_not_stop _h
    show cfg.numberOfTimeSteps - (st.i + 1) < cfg.numberOfTimeSteps - st.i
    omega

/-- `CFDSolver::run`, `P/solver/CFDSolver.cpp:876-893`, on a solver just constructed with `m_iterationStart = start`. -/
noncomputable def run [Fintype ι] (cfg : RunConfig) (p : Parts σ ε ι D) (start : ℕ) (s : Snapshot σ) :
    Except (RunError ε) (RunState σ ι D) :=
  match collide p s with
  | .error e => .error e
  | .ok s =>
    match loop cfg p start (output cfg start) (advance cfg p start) { i := start, snap := s, res := Residuals.init, log := [] } with
    | .error e => .error e
    | .ok st => .ok { st with log := st.log ++ output cfg start st.i true st.snap }

/-- `CompressibleCFDSolver::compressibleOutput`, `P/solver/CompressibleCFDSolver.h:416-576`: no grid file, and the checkpoint block
(lines 554-573) is outside of the test of the output switch (lines 426-551).  The checkpoint consists of two files pairs, for `f` and
`g`, written together. -/
def compressibleOutput (cfg : RunConfig) (start i : ℕ) (isFinal : Bool) (s : Snapshot σ) : List (Event σ) :=
  (if cfg.switchOutputOff then []
   else
    (if (i % cfg.solutionInterval = 0 ∧ cfg.solutionInterval ≤ 10 ^ 8) ∨ isFinal = true then [.solution i s] else []) ++
    (if i % cfg.tableInterval = 0 then [.tableLine i s] else [])) ++
  (if (i % cfg.checkpointInterval = 0 ∨ isFinal = true) ∧ cfg.checkpointInterval ≤ 10 ^ 8 ∧ start ≠ i then [.checkpoint i s] else [])

/-- The additional parts of the compressible solver: `gStream` (`P/solver/CompressibleCFDSolver.h:279-314`), the turbulence statistics
(line 1026) and `initializeDistributions` (lines 850-1004). -/
structure CompressibleParts (σ ε ι : Type*) (D : ℕ) extends Parts σ ε ι D where
  gStream : ℝ → ℝ → σ → Except ε σ
  statistics : σ → σ
  initializeDistributions : σ → Except ε σ

/-- The loop body of `CompressibleCFDSolver::run` after `m_i++`, `P/solver/CompressibleCFDSolver.h:1022-1039`. The time and the step size
seen by `gStream` are those already changed by `stream` (lines 243, 268-269). -/
noncomputable def compressibleAdvance (cfg : RunConfig) (p : CompressibleParts σ ε ι D) (start i : ℕ) (s : Snapshot σ) :
    Except (RunError ε) (Snapshot σ) :=
  match stream p.toParts (i - start) s with
  | .error e => .error e
  | .ok s =>
    match p.gStream s.time s.dt s.x with
    | .error e => .error (.part e)
    | .ok x =>
      let s := filter cfg p.toParts i { s with x := x }
      match collide p.toParts { s with x := p.statistics s.x } with
      | .error e => .error e
      | .ok s => .ok (applyProcessors p.toParts i s)

/-- `CompressibleCFDSolver::run`, `P/solver/CompressibleCFDSolver.h:1006-1042`. -/
noncomputable def compressibleRun [Fintype ι] (cfg : RunConfig) (p : CompressibleParts σ ε ι D) (start : ℕ) (s : Snapshot σ) :
    Except (RunError ε) (RunState σ ι D) :=
  match (if start ≤ 1 then p.initializeDistributions s.x else .ok s.x) with
  | .error e => .error (.part e)
  | .ok x =>
    match collide p.toParts { s with x := x } with
    | .error e => .error e
    | .ok s =>
      match loop cfg p.toParts start (compressibleOutput cfg start) (compressibleAdvance cfg p start)
          { i := start, snap := s, res := Residuals.init, log := [] } with
      | .error e => .error e
      | .ok st => .ok { st with log := st.log ++ compressibleOutput cfg start st.i true st.snap }

/-- The `while` loop of the iterative initialisation, `P/solver/CFDSolver.cpp:1281-1322`.  `sweep` is one pass (lines 1293-1320): it
returns the new data and the squared norm of the density change; `limit` and `tol` are the configured number of iterations and
residual. The result is the data and the final `loopCount`. -/
noncomputable def iterate (sweep : σ → Except ε (σ × ℝ)) (limit : ℕ) (tol : ℝ) (loopCount : ℕ) (residual : ℝ) (x : σ) :
    Except ε (σ × ℕ) :=
  if tol < residual then
    if limit < loopCount then .ok (x, loopCount)
    else
      match sweep x with
      | .error e => .error e
      | .ok (x', r) => iterate sweep limit tol (loopCount + 1) r x'
  else .ok (x, loopCount)
  termination_by limit + 1 - loopCount

/-- The `ITERATIVE` case of `CFDSolver::initializeDistributions`, `P/solver/CFDSolver.cpp:1277-1322`: `loopCount` starts at 0 and the
residual at 1000000000. -/
noncomputable def iterativeInitialization (sweep : σ → Except ε (σ × ℝ)) (limit : ℕ) (tol : ℝ) (x : σ) : Except ε (σ × ℕ) :=
  iterate sweep limit tol 0 1000000000 x

/-- The `COMPRESSIBLE_ITERATIVE` case, `P/solver/CompressibleCFDSolver.h:920-972`: only the count is tested (lines 924-925). -/
def compressibleIterate (sweep : σ → Except ε σ) (limit : ℕ) (loopCount : ℕ) (x : σ) : Except ε (σ × ℕ) :=
  if loopCount < limit then
    match sweep x with
    | .error e => .error e
    | .ok x' => compressibleIterate sweep limit (loopCount + 1) x'
  else .ok (x, loopCount)
  termination_by limit - loopCount

end Solver
end NATriuM
