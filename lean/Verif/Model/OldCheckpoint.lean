import Verif.Model.Checkpoint

/-!
# Conversion of checkpoints of the deprecated format

Models `Checkpoint::loadFromDeprecatedCheckpointVersion` (`P/solver/Checkpoint.cpp:331-478`) and `CFDSolver::convertDeprecatedCheckpoint`
(`P/solver/CFDSolver.cpp:1526-1541`); `P` is `src/library/natrium`.  One process; the values of all processes are the values of process 0.

A text file is the list of its words.  Simplifications: a word is read as a number in whole or not at all, and a word that is no number
of the wanted kind counts as 0 (as `operator>>` does since C++11; for an overflow it would be the largest number).
-/

namespace NATriuM
namespace Checkpoint

/-- A word of a text file: its text, and what `operator>>` makes of it for a `size_t` and for a `double`. -/
structure Word where
  text : String
  asNat : Option ℕ
  asReal : Option ℝ

/-- An input stream: the words not yet read, and whether the stream is still good. -/
structure Stream where
  rest : List Word
  good : Bool

/-- Opening a file for reading, `P/solver/Checkpoint.cpp:346`, `:443`: the stream of a file that does not exist is not good. -/
def openFile : Option (List Word) → Stream
  | some ws => ⟨ws, true⟩
  | none => ⟨[], false⟩

/-- `infile >> tmp` for a `size_t`, `P/solver/Checkpoint.cpp:359`, `:366`, `:373`, `:380`, `:387`, `:416`, `:444`: at the end of the file
and on a stream that is not good the variable keeps its value; a word that is no number sets it to 0 and stops the stream. -/
def readNat (s : Stream) (old : ℕ) : ℕ × Stream :=
  if s.good then
    match s.rest with
    | [] => (old, ⟨[], false⟩)
    | w :: r =>
      match w.asNat with
      | some n => (n, ⟨r, true⟩)
      | none => (0, ⟨w :: r, false⟩)
  else (old, s)

/-- `infile >> dtmp` for a `double`, `P/solver/Checkpoint.cpp:395`, `:402`, `:409`, `:445`. -/
def readReal (s : Stream) (old : ℝ) : ℝ × Stream :=
  if s.good then
    match s.rest with
    | [] => (old, ⟨[], false⟩)
    | w :: r =>
      match w.asReal with
      | some x => (x, ⟨r, true⟩)
      | none => (0, ⟨w :: r, false⟩)
  else (old, s)

/-- `infile >> stmp` for a `string` just declared, `P/solver/Checkpoint.cpp:423-424`. -/
def readText (s : Stream) : String :=
  if s.good then
    match s.rest with
    | [] => ""
    | w :: _ => w.text
  else ""

/-- The running solver, as far as the function asks for it, `P/solver/Checkpoint.cpp:337-338`, `:367`, `:374`, `:453-454`: cells, degree of
the element, degrees of freedom, stencil with the two components of its direction 1, scaling, order.  Simplified: the degree of
`getFe()` is the order of the finite element (`P/advection/AdvectionOperator.h:260-262`), one field. -/
structure OldEnv where
  cells : ℕ
  degree : ℕ
  dofs : ℕ
  stencil : StencilType
  first : ℝ
  second : ℝ
  scaling : ℝ

/-- What can go wrong. -/
inductive OldError
  /-- `CheckpointException` with one of the messages -/
  | noCheckpoint
  | cells
  | degree
  | dofs
  | dimension
  | velocities
  | magic
  | firstScaling
  | secondScaling
  | flux
  | operator
  /-- `natrium_errorexit`: a file of distributions cannot be read -/
  | distributions
  /-- the new checkpoint cannot be written -/
  | save (e : Error)
  deriving DecidableEq, Repr

/-- `std::fabs(dtmp - expected) / dtmp > 1e-2`, `P/solver/Checkpoint.cpp:403`, `:410`.  For a stored zero the quotient is infinite, or not
a number – and then the comparison is false – if zero was expected.  Simplified: a stored zero has the sign plus. -/
noncomputable def scalingDiffers (stored expected : ℝ) : Bool :=
  open Classical in if stored = 0 then decide (expected ≠ 0) else decide (1 / 100 < |stored - expected| / stored)

/-- The comparison of the status file with the solver, `P/solver/Checkpoint.cpp:346-434`.  `tmp` and `dtmp` are the values of the
uninitialised variables of lines 358 and 394. -/
noncomputable def checkOld (env : OldEnv) (file : Option (List Word)) (tmp : ℕ) (dtmp : ℝ) : Except OldError Unit :=
  open Classical in
  match file with
  | none => .error .noCheckpoint
  | some ws =>
    let a := readNat (openFile (some ws)) tmp
    if a.1 ≠ env.cells then .error .cells else
    let b := readNat a.2 a.1
    if b.1 ≠ env.degree then .error .degree else
    let c := readNat b.2 b.1
    if c.1 ≠ env.dofs then .error .dofs else
    let d := readNat c.2 c.1
    if d.1 ≠ env.stencil.D then .error .dimension else
    let e := readNat d.2 d.1
    if e.1 ≠ env.stencil.Q then .error .velocities else
    let m := readReal e.2 dtmp
    if 1 / 10 < |m.1 - 0| then .error .magic else
    let x := readReal m.2 m.1
    if scalingDiffers x.1 env.first then .error .firstScaling else
    let y := readReal x.2 x.1
    if scalingDiffers y.1 env.second then .error .secondScaling else
    let g := readNat y.2 e.1
    if g.1 ≠ 0 then .error .flux else
    if readText g.2 ≠ "SEDGMinLee" then .error .operator else .ok ()

/-- The files of the old format: status, iteration number and time, distributions (`none`: `block_read` throws). -/
structure OldFiles (Q : ℕ) (V : Type*) where
  status : Option (List Word)
  dat : Option (List Word)
  f : Fin Q → Option V

/-- The status of the old checkpoint, `P/solver/Checkpoint.cpp:436-454`. -/
def oldStatus (env : OldEnv) (dat : Option (List Word)) : Status :=
  let n := readNat (openFile dat) 0
  let t := readReal n.2 0
  { time := t.1, iterationNumber := n.1, stencilScaling := env.scaling, feOrder := env.degree }

/-- `loadFromDeprecatedCheckpointVersion`, `P/solver/Checkpoint.cpp:331-478`. -/
noncomputable def loadOld {V : Type*} (env : OldEnv) (files : OldFiles env.stencil.Q V) (tmp : ℕ) (dtmp : ℝ) :
    Except OldError (Status × (Fin env.stencil.Q → V)) :=
  open Classical in
  match checkOld env files.status tmp dtmp with
  | .error e => .error e
  | .ok _ =>
    if h : ∀ i, (files.f i).isSome then .ok (oldStatus env files.dat, fun i => (files.f i).get (h i)) else .error .distributions

/-- `convertDeprecatedCheckpoint`, `P/solver/CFDSolver.cpp:1526-1541`; `levels` are those of the mesh of the solver, `dir` is the directory
`checkpoint` in the output directory, without the files of the old format. -/
noncomputable def convertOld {V : Type*} (env : OldEnv) (files : OldFiles env.stencil.Q V) (tmp : ℕ) (dtmp : ℝ) (levels : ℕ)
    (dir : List (Entry (Data (Fin env.stencil.Q → V)))) : Except OldError (List (Entry (Data (Fin env.stencil.Q → V)))) :=
  match loadOld env files tmp dtmp with
  | .error e => .error e
  | .ok (st, f) =>
    match save false st.iterationNumber st ⟨levels, f⟩ dir with
    | .error e => .error (.save e)
    | .ok dir' => .ok dir'

end Checkpoint
end NATriuM
