import Verif.Model.PathTracking
import Verif.Model.SedgSolver

/-!
# Assembling the advection operators again

`P` is short for `src/library/natrium`.  The operators are objects with a matrix (and a vector) that the calls of their public functions change; the mesh
does not change here.
-/

namespace NATriuM
namespace Reassembly

/-- The calls that concern the matrix: `setupDoFs`, `setDeltaT` and `reassemble`, `P/advection/AdvectionOperator.h:118-136` -/
inductive Call (K : Type*)
  | setupDoFs
  | setDeltaT (dt : K)
  | reassemble

/-! ## Semi-Lagrangian operator -/

/-- The matrix: not initialised, initialised with an empty pattern, initialised with the pattern of a time step -/
inductive Pattern
  | none
  | empty
  | full
  deriving DecidableEq

/-- The members `m_deltaT`, `m_systemMatrix` (all entries added since it was initialised) and the hits of `m_boundaryHandler` -/
structure Lagrangian (K : Type*) (d : ℕ) (C : Type*) where
  dt : K
  pattern : Pattern
  entries : List (Paths.Entry K)
  hits : List (Paths.Tracker K d C × ℕ)

/-- What stops the program -/
inductive Failure
  /-- an error on a path -/
  | path (e : Paths.PathError)
  /-- `assert(m_systemMatrix.n() != 0)` -/
  | matrixEmpty
  /-- `assert(m_boundaryHandler.n_hits() == 0)` -/
  | hitsLeft
  /-- Trilinos: an entry outside of the pattern -/
  | notInPattern
  deriving DecidableEq

section

variable {K : Type*} [Field K] [LinearOrder K] {m : ℕ} {C : Type*}

/-- A new operator, `P/advection/SemiLagrangian.cpp:38-48` -/
def Lagrangian.new (dt : K) : Lagrangian K (m + 2) C := ⟨dt, .none, [], []⟩

/-- `fillSparseObject` with its assertion on the hits, `P/advection/SemiLagrangian.cpp:144-522` -/
def fill (mesh : Paths.Mesh K m C) (s : Paths.Setup K (m + 2)) (row : Option ℕ) (st : Lagrangian K (m + 2) C) :
    Except Failure (Paths.Assembly K (m + 2) C) :=
  if st.hits ≠ [] then .error .hitsLeft
  else match Paths.fillSparseObject mesh { s with dt := st.dt } row with
    | .error e => .error (.path e)
    | .ok as => .ok as

/-- The loop over the rows of blocks in `updateSparsityPattern`, `P/advection/SemiLagrangian.cpp:119-136`; what the pattern contains is the subject of
C75 -/
def fillPattern (mesh : Paths.Mesh K m C) (s : Paths.Setup K (m + 2)) (st : Lagrangian K (m + 2) C) : List ℕ → Except Failure Unit
  | [] => .ok ()
  | row :: rows => match fill mesh s (some row) st with
    | .error e => .error e
    | .ok _ => fillPattern mesh s st rows

/-- `setDeltaT`, `P/advection/SemiLagrangian.h:175-179`, with `updateSparsityPattern`, `P/advection/SemiLagrangian.cpp:92-142`: the matrix is initialised with
zeros (`:116`, `:133`), the hits are left as they are. -/
def setDeltaT (mesh : Paths.Mesh K m C) (s : Paths.Setup K (m + 2)) (st : Lagrangian K (m + 2) C) (dt : K) : Except Failure (Lagrangian K (m + 2) C) :=
  let st := { st with dt := dt }
  if dt ≠ 0 then
    match fillPattern mesh s st (List.range (s.Q - 1)) with
    | .error e => .error e
    | .ok () => .ok { st with pattern := .full, entries := [] }
  else .ok { st with pattern := .empty, entries := [] }

/-- `reassemble`, `P/advection/SemiLagrangian.cpp:75-90`: nothing is set to zero. -/
def reassemble (mesh : Paths.Mesh K m C) (s : Paths.Setup K (m + 2)) (st : Lagrangian K (m + 2) C) : Except Failure (Lagrangian K (m + 2) C) :=
  if st.pattern = .none then .error .matrixEmpty
  else match fill mesh s none st with
    | .error e => .error e
    | .ok as =>
      if st.pattern = .empty ∧ as.entries ≠ [] then .error .notInPattern
      else .ok { st with entries := st.entries ++ as.entries, hits := st.hits ++ as.hits }

/-- A call.  `setupDoFs` distributes the degrees of freedom, which changes nothing if the mesh is the same, `P/advection/SemiLagrangian.cpp:61-73`. -/
def call (mesh : Paths.Mesh K m C) (s : Paths.Setup K (m + 2)) (st : Lagrangian K (m + 2) C) : Call K → Except Failure (Lagrangian K (m + 2) C)
  | .setupDoFs => .ok st
  | .setDeltaT dt => setDeltaT mesh s st dt
  | .reassemble => reassemble mesh s st

/-- Several calls in turn -/
def calls (mesh : Paths.Mesh K m C) (s : Paths.Setup K (m + 2)) : Lagrangian K (m + 2) C → List (Call K) → Except Failure (Lagrangian K (m + 2) C)
  | st, [] => .ok st
  | st, c :: cs => match call mesh s st c with
    | .error e => .error e
    | .ok st => calls mesh s st cs

end

/-! ## Discontinuous Galerkin operator -/

section

variable {t : StencilType} {n nQ nf nq : ℕ} {C : Type*} [DecidableEq C]

/-- The members `m_systemMatrix` and `m_systemVector`; `none` before `setupDoFs` -/
structure Galerkin (t : StencilType) (n : ℕ) (C : Type*) where
  operator : Option ((SedgSolver.Block t n C →ₗ[ℝ] SedgSolver.Block t n C) × SedgSolver.Block t n C)

/-- A new operator, `P/advection/SEDGMinLee.cpp:40-57` -/
def Galerkin.new : Galerkin t n C := ⟨none⟩

/-- A call: `setupDoFs` initialises matrix and vector with zeros, `P/advection/SEDGMinLee.cpp:69-89` and `:278-315`; `setDeltaT` is that of the base class,
`P/advection/AdvectionOperator.h:118-120`; `reassemble` adds to both, `P/advection/SEDGMinLee.cpp:91-184`.  `none`: the assertion on the size of the matrix
(`:97-98`) fails. -/
noncomputable def Galerkin.call (s : SedgSolver.Setup t n nQ nf nq C) (st : Galerkin t n C) : Call ℝ → Option (Galerkin t n C)
  | .setupDoFs => some ⟨some (0, 0)⟩
  | .setDeltaT _ => some st
  | .reassemble => match st.operator with
    | none => none
    | some (A, b) => some ⟨some (A + SedgSolver.systemMatrix s, b + SedgSolver.systemVector s)⟩

/-- Several calls in turn -/
noncomputable def Galerkin.calls (s : SedgSolver.Setup t n nQ nf nq C) : Galerkin t n C → List (Call ℝ) → Option (Galerkin t n C)
  | st, [] => some st
  | st, c :: cs => match st.call s c with
    | none => none
    | some st => Galerkin.calls s st cs

end

/-- The calls in the constructor of the solver, `P/solver/CFDSolver.cpp:232-256`, and those of `CFDSolver::reassemble`, `P/solver/CFDSolver.cpp:845-856`,
after that -/
def solverCalls {K : Type*} (dt : K) (again : ℕ) : List (Call K) := [.setupDoFs, .setDeltaT dt, .reassemble] ++ List.replicate again .reassemble

end Reassembly
end NATriuM
