import Verif.Model.StencilType
import Mathlib.Algebra.Order.Round
import Mathlib.Data.Int.Log
import Mathlib.Algebra.Order.Archimedean.Real.Basic
import Mathlib.Data.Real.Basic

/-!
# Checkpoints and restart

Models `P/solver/Checkpoint.{h,cpp}`, `CFDSolverUtilities::make_stencil`, and what the constructors of the solvers do on a restart
(`P/solver/CFDSolver.cpp`, `P/solver/CompressibleCFDSolver.h`); `P` is `src/library/natrium`.

The checkpoint directory is a list of entries in the (unspecified) order of the directory iterator.  Distributions and mesh in the
data file are an opaque value.  The `.data.info` file is part of the data file.  Only process 0 reads and writes the status; MPI is
not modelled.
-/

namespace NATriuM
namespace Checkpoint

/-- `CheckpointStatus`, `P/solver/Checkpoint.h:28-33`. -/
structure Status where
  time : ℝ
  iterationNumber : ℕ
  stencilScaling : ℝ
  feOrder : ℕ

/-- A file in the checkpoint directory; `β` is the content of a data file. -/
inductive Entry (β : Type*)
  /-- `checkpoint_<n>.stat` or `checkpointG_<n>.stat` -/
  | stat (isG : Bool) (n : ℕ) (text : Status)
  /-- `checkpoint_<n>.data` or `checkpointG_<n>.data` -/
  | data (isG : Bool) (n : ℕ) (content : β)
  /-- any other file with the extension `.stat`; `parsed` is what `std::stoi` makes of its name after the replacements, if it does not
  throw -/
  | otherStat (parsed : Option ℕ)
  /-- any other file -/
  | other

/-- Abnormal outcomes. -/
inductive Error
  /-- `std::stoi` throws `std::invalid_argument` -/
  | invalidArgument
  /-- `std::stoi` throws `std::out_of_range` -/
  | outOfRange
  /-- a required file does not exist -/
  | missing
  /-- `natrium_errorexit` because of the order of the finite element -/
  | feOrder
  /-- `CheckpointException`: coarser grid -/
  | coarser
  /-- `CFDSolverUtilitiesException` of `make_stencil` -/
  | stencil
  deriving DecidableEq, Repr

variable {β : Type*}

/-- The value of `size_t i = std::stoi(this_filename)` for an entry with extension `.stat`, or `none` for the entries skipped,
`P/solver/Checkpoint.cpp:37-51`.  The prefix `checkpoint_` does not occur in `checkpointG_<n>` and vice versa, so the name of a
file of the other kind keeps its prefix and `stoi` throws; a number above `INT_MAX` does not fit in an `int`. -/
def entryNumber (isG : Bool) : Entry β → Except Error (Option ℕ)
  | .stat isG' n _ => if isG' = isG then (if n < 2 ^ 31 then .ok (some n) else .error .outOfRange) else .error .invalidArgument
  | .otherStat (some n) => .ok (some n)
  | .otherStat none => .error .invalidArgument
  | .data _ _ _ => .ok none
  | .other => .ok none

/-- The loop over the directory, `P/solver/Checkpoint.cpp:35-55`. -/
def scan (isG : Bool) : List (Entry β) → ℕ → Except Error ℕ
  | [], it => .ok it
  | e :: rest, it =>
    match entryNumber isG e with
    | .error err => .error err
    | .ok none => scan isG rest it
    | .ok (some i) => scan isG rest (if it < i then i else it)

/-- The constructor, `P/solver/Checkpoint.cpp:27-71`: the number in the names of the files that this object reads or writes. -/
def fileNumber (iteration : ℕ) (dir : List (Entry β)) (isG : Bool) : Except Error ℕ :=
  if iteration = 1 then scan isG dir iteration else .ok iteration

/-- The status file with a number. -/
def readStat (isG : Bool) (n : ℕ) : List (Entry β) → Option Status
  | [] => none
  | .stat isG' n' t :: rest => if isG' = isG ∧ n' = n then some t else readStat isG n rest
  | _ :: rest => readStat isG n rest

/-- The data file with a number. -/
def readData (isG : Bool) (n : ℕ) : List (Entry β) → Option β
  | [] => none
  | .data isG' n' t :: rest => if isG' = isG ∧ n' = n then some t else readData isG n rest
  | _ :: rest => readData isG n rest

/-- `exists`, `P/solver/Checkpoint.h:84-92`. -/
def filesExist (isG : Bool) (n : ℕ) (dir : List (Entry β)) : Bool := (readStat isG n dir).isSome && (readData isG n dir).isSome

/-- Opening an output stream on a status file truncates or creates it. -/
def putStat (isG : Bool) (n : ℕ) (t : Status) : List (Entry β) → List (Entry β)
  | [] => [.stat isG n t]
  | .stat isG' n' t' :: rest => if isG' = isG ∧ n' = n then .stat isG n t :: rest else .stat isG' n' t' :: putStat isG n t rest
  | e :: rest => e :: putStat isG n t rest

/-- The same for a data file (`mesh.save`). -/
def putData (isG : Bool) (n : ℕ) (b : β) : List (Entry β) → List (Entry β)
  | [] => [.data isG n b]
  | .data isG' n' b' :: rest => if isG' = isG ∧ n' = n then .data isG n b :: rest else .data isG' n' b' :: putData isG n b rest
  | e :: rest => e :: putData isG n b rest

/-- What `operator<<` of a stream with default settings prints for a double (6 significant decimal digits, `%g`), read back.
Simplification: an exact tie is rounded up; the last digit of a tie depends on the C library. -/
noncomputable def sixDigits (x : ℝ) : ℝ := if x = 0 then 0 else round (x / 10 ^ (Int.log 10 |x| - 5)) * 10 ^ (Int.log 10 |x| - 5)

/-- The text written to the status file, `P/solver/Checkpoint.cpp:80-89`: integers are printed exactly, doubles with the default
precision. -/
noncomputable def statusText (s : Status) : Status :=
  { iterationNumber := s.iterationNumber, time := sixDigits s.time, stencilScaling := sixDigits s.stencilScaling, feOrder := s.feOrder }

/-- `write` on an object with file number `n`, `P/solver/Checkpoint.cpp:73-109`: first the status, then mesh and solution.  The two stages
are separate because a run can be killed in between. -/
noncomputable def writeStatus (isG : Bool) (n : ℕ) (s : Status) (dir : List (Entry β)) : List (Entry β) :=
  putStat isG n (statusText s) dir

/-- Both stages of `write`. -/
noncomputable def write (isG : Bool) (n : ℕ) (s : Status) (b : β) (dir : List (Entry β)) : List (Entry β) :=
  putData isG n b (writeStatus isG n s dir)

/-- Writing a checkpoint in iteration `i` as the solver does it, `P/solver/CFDSolver.cpp:1090-1098`. -/
noncomputable def save (isG : Bool) (i : ℕ) (s : Status) (b : β) (dir : List (Entry β)) : Except Error (List (Entry β)) :=
  match fileNumber i dir isG with
  | .error e => .error e
  | .ok n => .ok (write isG n s b dir)

/-- Finding the checkpoint to restart from, `P/solver/CFDSolver.cpp:183-197`, `P/solver/CompressibleCFDSolver.h:112-126`: the status
and the content of the data file. -/
def find (isG : Bool) (restartAt : ℕ) (dir : List (Entry β)) : Except Error (Status × β) :=
  match fileNumber restartAt dir isG with
  | .error e => .error e
  | .ok n =>
    match readStat isG n dir, readData isG n dir with
    | some t, some b => .ok (t, b)
    | _, _ => .error .missing

/-- `CFDSolverUtilities::make_stencil`, `P/utilities/CFDSolverUtilities.cpp:299-334`: the class and the scaling of the object.  The third
parameter is a `size_t`: the caller's double is truncated (scalings are positive). -/
noncomputable def makeStencil (d q : ℕ) (scaling : ℝ) : Option (StencilType × ℕ) :=
  if d = 2 then
    if q = 9 then some (.D2Q9, ⌊scaling⌋₊)
    else if q = 25 then some (.D2Q25H, ⌊scaling⌋₊)
    else none
  else if d = 3 then
    if q = 15 then some (.D3Q15, ⌊scaling⌋₊)
    else if q = 19 then some (.D3Q19, ⌊scaling⌋₊)
    else if q = 27 then some (.D3Q27, ⌊scaling⌋₊)
    else if q = 45 then some (.D3Q45, ⌊scaling⌋₊)
    else if q = 13 then some (.D3Q13, ⌊scaling⌋₊)
    else if q = 21 then some (.D3Q21, ⌊scaling⌋₊)
    else none
  else none

/-- The content of a data file: the number of mesh levels and the distributions. -/
structure Data (φ : Type*) where
  levels : ℕ
  f : φ

/-- The environment of a `load`: the stencil class and the order of the running solver, the number of levels of the refined mesh, and one
global refinement step of the mesh with interpolation of the distributions (`P/solver/Checkpoint.cpp:253-290`). -/
structure LoadEnv (φ : Type*) where
  stencil : StencilType
  order : ℕ
  levelsNew : ℕ
  refine : φ → φ

/-- `load`, `P/solver/Checkpoint.cpp:114-329`.  `static` is the static member `m_numberOfRefinements` (line 112), `f` the distributions
passed by reference.  Returned: the new distributions, the status, the new value of the static member.  The conversion
of the difference of two unsigned numbers to `int` in line 193 gives their integer difference. -/
noncomputable def load {φ : Type*} (env : LoadEnv φ) (isG : Bool) (static : ℤ) (status : Status) (file : Data φ) (f : φ) :
    Except Error (φ × Status × ℤ) :=
  if status.feOrder ≠ env.order then .error .feOrder
  else
    let n : ℤ := if isG then static else (env.levelsNew : ℤ) - file.levels
    if n < 0 then .error .coarser
    else
      let f' := if n = 0 then file.f else if isG then f else env.refine^[n.toNat] file.f
      match makeStencil env.stencil.D env.stencil.Q status.stencilScaling with
      | none => .error .stencil
      | some _ => .ok (f', status, n)

/-- Restart of the incompressible solver, `P/solver/CFDSolver.cpp:180-197` and `:227-231`. -/
noncomputable def restart {φ : Type*} (env : LoadEnv φ) (static : ℤ) (restartAt : ℕ) (dir : List (Entry (Data φ))) (f : φ) :
    Except Error (φ × Status × ℤ) :=
  match find false restartAt dir with
  | .error e => .error e
  | .ok (t, b) => load env false static t b f

section Macroscopic

variable {ι : Type*} {D Q : ℕ}

/-- `CFDSolver::calculateDensitiesAndVelocities`, `P/solver/CFDSolver.cpp:1483-1524`.  `velocity` is the member `m_velocity` before the
call: line 1517 divides *it*, not the sums accumulated in line 1504, by the density.  Stated for nodes with nonzero density. -/
noncomputable def calculateDensitiesAndVelocities (f : Fin Q → ι → ℝ) (velocity : Fin D → ι → ℝ) : (ι → ℝ) × (Fin D → ι → ℝ) :=
  (fun n => ∑ i, f i n, fun j n => velocity j n * (1 / ∑ i, f i n))

/-- The macroscopic fields after the constructor of a restarted solver: `m_velocity` is zero after its construction
(`P/solver/CFDSolver.cpp:369-377`), then line 397. -/
noncomputable def restartFields (f : Fin Q → ι → ℝ) : (ι → ℝ) × (Fin D → ι → ℝ) := calculateDensitiesAndVelocities f 0

/-- `CompressibleCFDSolver::applyCheckpointToG`, `P/solver/CompressibleCFDSolver.h:134-168`: the distributions `g` at one node are made
from `f`; the checkpoint of `g` is looked for but its content is not read (lines 170-171).  `e` are the unscaled directions, `cs2` the
unscaled squared speed of sound, `gamma` the configured heat capacity ratio.  Note that `vel` is the momentum, it is not divided by the
density. -/
noncomputable def restoreG (e : Fin Q → Fin D → ℝ) (cs2 gamma : ℝ) (f : Fin Q → ℝ) : Fin Q → ℝ :=
  let density : ℝ := ∑ i, f i
  let vel : Fin D → ℝ := fun a => ∑ i, e i a * f i
  let gammaOld : ℝ := ((D : ℝ) + 2) / D
  let cvOld : ℝ := 1 / (gammaOld - 1)
  let cvNew : ℝ := 1 / (gamma - 1)
  let temperature : ℝ := (∑ i, (∑ a, (e i a - vel a) * (e i a - vel a)) * f i / cs2) * (1 / 2) / (density * cvOld)
  fun i => f i * temperature * (2 * cvNew - D)

/-- The temperature at a node after a restart, `P/solver/CompressibleCFDSolver.h:80-93`.  `e` and `cs2` are the scaled quantities.  The
velocity is read from `m_velocity` with the index of the direction in place of that of the node; it is zero everywhere at this moment
(`restartFields`, which line 71 leaves unchanged). -/
noncomputable def restartTemperature (e : Fin Q → Fin D → ℝ) (cs2 gamma : ℝ) (f g : Fin Q → ℝ) : ℝ :=
  let velocity : Fin D → ℝ := fun _ => 0
  let sum : ℝ := ∑ i, ((∑ a, (e i a - velocity a) * (e i a - velocity a)) * f i / cs2 + g i)
  sum * (1 / 2) / ((∑ i, f i) * (1 / (gamma - 1)))

end Macroscopic

end Checkpoint
end NATriuM
