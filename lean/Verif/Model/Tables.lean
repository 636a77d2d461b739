import Verif.Model.SolverLoop
import Verif.Model.Statistics
import Verif.Model.Utilities

/-!
# Model of the tables written during a run

`P/solver/TurbulenceStats.cpp`, `P/solver/ErrorStats.cpp`, `P/solver/CompressibleErrorStats.cpp`, `P/solver/SolverStats.h`,
`P/solver/BenchmarkCFDSolver.*`; `P` stands for `src/library/natrium` in `/repo`.  As in `Statistics`, a distributed vector is a function on the
degrees of freedom, and `processes` lists the degrees of freedom or the cells that the processes own.
-/

namespace NATriuM
namespace Tables

/-! ## Statistics in planes, and averages over time -/

section

variable {N : Type*}

/-- `updatePlaneIndices` of a process, `P/solver/TurbulenceStats.cpp:16-37`; `coordinate` is the wall-normal coordinate of the support points -/
noncomputable def planeIndices (coordinate : N → ℝ) (wallNormalCoordinate tolerance : ℝ) (owned : List N) : List N :=
  haveI := Classical.dec
  owned.filter fun i => |coordinate i - wallNormalCoordinate| < tolerance

/-- `n_mpi`, `P/solver/TurbulenceStats.cpp:41, 66`; `planes` are the `m_planeIndices` of the processes -/
def planeSize (planes : List (List N)) : ℕ := (planes.map List.length).sum

/-- `u_average` of a component, `P/solver/TurbulenceStats.cpp:53-70`; `none` if the sum, which is zero then, is divided by zero -/
noncomputable def planeAverage (planes : List (List N)) (u : N → ℝ) : Option ℝ :=
  if planeSize planes = 0 then none else some ((planes.map fun indices => (indices.map u).sum).sum / planeSize planes)

/-- `u_rms` of a component, `P/solver/TurbulenceStats.cpp:72-87` -/
noncomputable def planeRms (planes : List (List N)) (u : N → ℝ) : Option ℝ :=
  match planeAverage planes u with
  | none => none
  | some average => some √((planes.map fun indices => (indices.map fun i => (u i - average) ^ 2).sum).sum / planeSize planes)

/-- `m_uAverage` and `m_statSize` -/
structure Reynolds (d : ℕ) (N : Type*) where
  average : Fin d → N → ℝ
  statSize : ℕ

/-- The constructor, `P/solver/TurbulenceStats.cpp:101, 135-141`; `reinit` sets the vectors to zero. -/
def Reynolds.init {d : ℕ} : Reynolds d N := { average := 0, statSize := 0 }

/-- `addToReynoldsStatistics`, `P/solver/TurbulenceStats.cpp:221-237` -/
noncomputable def Reynolds.add {d : ℕ} (r : Reynolds d N) (u : Fin d → N → ℝ) : Reynolds d N :=
  { average := fun a i => (r.average a i * r.statSize + u a i) * (1 / (r.statSize + 1))
    statSize := r.statSize + 1 }

end

/-! ## Errors -/

section

open Stats

variable {d n nq : ℕ} {C N : Type*}

/-- What deal.II's `integrate_difference` with `L2_norm` puts into `local_errors` for an owned cell, called in
`P/solver/ErrorStats.cpp:128-133, 146-151, 157-162, 169-174`; `exact` is the reference solution in the quadrature points. -/
noncomputable def cellError (fe : FE ℝ d n nq C N) (u : N → ℝ) (exact : C → Fin nq → ℝ) (c : C) : ℝ :=
  √(∑ q, (functionValue fe u c q - exact c q) ^ 2 * fe.jxw c q)

/-- `local_errors.l2_norm()` of a process, `P/solver/ErrorStats.cpp:134, 152, 163, 175` -/
noncomputable def localError (fe : FE ℝ d n nq C N) (u : N → ℝ) (exact : C → Fin nq → ℝ) (owned : List C) : ℝ :=
  √((owned.map fun c => cellError fe u exact c ^ 2).sum)

/-- `m_l2DensityError`, `P/solver/ErrorStats.cpp:123-137` -/
noncomputable def l2DensityError (fe : FE ℝ d n nq C N) (processes : List (List C)) (rho : N → ℝ) (exact : C → Fin nq → ℝ) : ℝ :=
  √((processes.map fun owned => localError fe rho exact owned * localError fe rho exact owned).sum)

/-- `m_l2VelocityError`, `P/solver/ErrorStats.cpp:139-184` -/
noncomputable def l2VelocityError (fe : FE ℝ d n nq C N) (processes : List (List C)) (u : Fin d → N → ℝ)
    (exact : Fin d → C → Fin nq → ℝ) : ℝ :=
  √((processes.map fun owned => ∑ a, localError fe (u a) (exact a) owned * localError fe (u a) (exact a) owned).sum)

/-- `m_maxDensityError`, `P/solver/ErrorStats.cpp:80-81` -/
noncomputable def maxDensityError [Fintype N] (analytic numeric : N → ℝ) : ℝ := ‖fun i => analytic i - numeric i‖

/-- `ana_u.at(0)` after `P/solver/ErrorStats.cpp:91-121` -/
noncomputable def velocityErrorNorm (analytic numeric : Fin d → N → ℝ) (i : N) : ℝ :=
  √(∑ a, (analytic a i - numeric a i) * (analytic a i - numeric a i))

/-- `m_maxVelocityError`, `P/solver/ErrorStats.cpp:183` -/
noncomputable def maxVelocityError [Fintype N] (analytic numeric : Fin d → N → ℝ) : ℝ := ‖velocityErrorNorm analytic numeric‖

/-- `m_analyticDensity` and `m_analyticVelocity` of the benchmark solver -/
structure Buffers (d : ℕ) (N : Type*) where
  density : N → ℝ
  velocity : Fin d → N → ℝ

/-- What `update` leaves in the buffers, `P/solver/ErrorStats.cpp:80, 91-121, 186-187`: errors, for the first component of the velocity the
norm of the error, for the others its squares -/
noncomputable def errorBuffers (analytic numeric : Buffers d N) : Buffers d N :=
  { density := fun i => analytic.density i - numeric.density i
    velocity := fun a i =>
      if (a : ℕ) = 0 then velocityErrorNorm analytic.velocity numeric.velocity i
      else (analytic.velocity a i - numeric.velocity a i) * (analytic.velocity a i - numeric.velocity a i) }

/-- `getAllAnalyticDensities` and `getAllAnalyticVelocities`, `P/solver/BenchmarkCFDSolver.cpp:57-113`: every process writes the reference
solution to the degrees of freedom of its cells. -/
def writeAnalytic [DecidableEq N] (dof : C → Fin n → N) (reference : Buffers d N) (processes : List (List C)) (b : Buffers d N) : Buffers d N :=
  processes.flatten.foldl (fun b c => (List.finRange n).foldl (fun b i =>
    { density := Function.update b.density (dof c i) (reference.density (dof c i))
      velocity := fun a => Function.update (b.velocity a) (dof c i) (reference.velocity a (dof c i)) }) b) b

/-- `addAnalyticSolutionToOutput`, `P/solver/BenchmarkCFDSolver.h:53-74`: the new buffers, which are what is written -/
def addAnalyticSolutionToOutput [DecidableEq N] (dof : C → Fin n → N) (reference : Buffers d N) (processes : List (List C)) (b : Buffers d N) :
    Buffers d N :=
  writeAnalytic dof reference processes b

/-- Calls that change the buffers -/
inductive BufferCall (d : ℕ) (N : Type*) where
  /-- `ErrorStats::update`, with the reference and the numerical solution of the moment -/
  | update (reference numeric : Buffers d N)
  /-- `addAnalyticSolutionToOutput` -/
  | output (reference : Buffers d N)

/-- The effect of a call on the buffers -/
noncomputable def BufferCall.apply [DecidableEq N] (dof : C → Fin n → N) (processes : List (List C)) (b : Buffers d N) :
    BufferCall d N → Buffers d N
  | .update reference numeric => errorBuffers (writeAnalytic dof reference processes numeric) numeric
  | .output reference => addAnalyticSolutionToOutput dof reference processes b

end

/-! ## Lines of the tables -/

section

variable {β : Type*}

/-- The data of a statistics object, and the iteration they belong to, `m_iterationNumber`; `none` are the data left by the constructor -/
structure Cached (β : Type*) where
  iteration : ℕ
  data : Option β

/-- `P/solver/ErrorStats.cpp:23-29`, `P/solver/CompressibleErrorStats.cpp:28-34` -/
def Cached.errorStats : Cached β := ⟨100000000037, none⟩

/-- `P/solver/SolverStats.h:60-71` -/
def Cached.solverStats : Cached β := ⟨1000000000037, none⟩

/-- `m_iterationNumber = -1000` for an unsigned number of 64 bits, `P/solver/TurbulenceStats.cpp:133` -/
def Cached.turbulenceStats : Cached β := ⟨2 ^ 64 - 1000, none⟩

/-- `update`, `P/solver/SolverStats.h:102-124`, `P/solver/ErrorStats.cpp:48-54, 70-71`; `current` are the data of the solver in
iteration `i` -/
def Cached.update (c : Cached β) (i : ℕ) (current : β) : Cached β := if c.iteration = i then c else ⟨i, some current⟩

/-- `update` of the turbulence statistics, which does not look at the iteration, `P/solver/TurbulenceStats.cpp:206-219` -/
def Cached.forceUpdate (_ : Cached β) (i : ℕ) (current : β) : Cached β := ⟨i, some current⟩

/-- `printNewLine`, `P/solver/SolverStats.h:168-181`, `P/solver/ErrorStats.cpp:205-216`, `P/solver/TurbulenceStats.cpp:183-204`: the object
afterwards and the line -/
def Cached.printNewLine (c : Cached β) (i : ℕ) (current : β) : Cached β × (ℕ × Option β) :=
  let c' := if c.iteration = i then c else c.update i current
  (c', (c'.iteration, c'.data))

/-- Calls to a statistics object, with iteration and data of the solver at that moment -/
inductive StatsCall (β : Type*) where
  | update (i : ℕ) (current : β)
  | forceUpdate (i : ℕ) (current : β)
  | print (i : ℕ) (current : β)

/-- The lines printed by a sequence of calls -/
def Cached.lines : Cached β → List (StatsCall β) → List (ℕ × Option β)
  | _, [] => []
  | c, .update i current :: l => (c.update i current).lines l
  | c, .forceUpdate i current :: l => (c.forceUpdate i current).lines l
  | c, .print i current :: l => (c.printNewLine i current).2 :: (c.printNewLine i current).1.lines l

/-- A line of the file -/
inductive FileLine where
  | header
  | row (i : ℕ)
  deriving DecidableEq

/-- The file after the constructor, `P/solver/SolverStats.h:73-88`, `P/solver/ErrorStats.cpp:31-39`, `P/solver/TurbulenceStats.cpp:105-119`,
`P/dataprocessors/GlobalTurbulenceStats.cpp:61-76`: appended to when the run continues an earlier one, otherwise emptied -/
def openTable (iterationStart : ℕ) (old : List FileLine) : List FileLine := if 0 < iterationStart then old else [.header]

/-- The file after a run from iteration `start` to iteration `final` with the given table interval: lines are written in the iterations
counted by `P/solver/CFDSolver.cpp:1073`, which `Solver.C29_table_partial` determines. -/
def runTable (interval start final : ℕ) (old : List FileLine) : List FileLine :=
  openTable start old ++ ((List.range' start (final + 1 - start)).filter fun i => i % interval = 0).map .row

/-- The file after several runs -/
def runTables (interval : ℕ) (runs : List (ℕ × ℕ)) (old : List FileLine) : List FileLine :=
  runs.foldl (fun file r => runTable interval r.1 r.2 file) old

end

/-! ## The benchmark solver -/

section

open Solver

variable {σ ε ι : Type*} {D : ℕ}

/-- `BenchmarkCFDSolver::output`, `P/solver/BenchmarkCFDSolver.cpp:45-55`: the second argument is not passed on. -/
def benchmarkOutput (cfg : RunConfig) (start i : ℕ) (_isFinal : Bool) (s : Snapshot σ) : List (Event σ) :=
  output cfg start i false s ++ if cfg.switchOutputOff then [] else if i % cfg.tableInterval = 0 then [.errorLine i s] else []

/-- `CFDSolver::run` of a benchmark solver, `P/solver/CFDSolver.cpp:876-893`; `output` is virtual. -/
noncomputable def benchmarkRun [Fintype ι] (cfg : RunConfig) (p : Parts σ ε ι D) (start : ℕ) (s : Snapshot σ) :
    Except (RunError ε) (RunState σ ι D) :=
  match collide p s with
  | .error e => .error e
  | .ok s =>
    match loop cfg p start (benchmarkOutput cfg start) (advance cfg p start) { i := start, snap := s, res := Residuals.init, log := [] } with
    | .error e => .error e
    | .ok st => .ok { st with log := st.log ++ benchmarkOutput cfg start st.i true st.snap }

end

end Tables
end NATriuM
