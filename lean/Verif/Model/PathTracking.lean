import Verif.Model.FaceCrossing
import Mathlib.Data.List.Basic

/-!
# Model of the semi-Lagrangian streaming step: following paths, and the matrix

`P` is short for `src/library/natrium`.  One process; the cells of `cells` are its locally owned cells.
-/

namespace NATriuM
namespace Paths

/-- What the boundary at a face does, `P/advection/SemiLagrangian.cpp:335-414`: a periodic boundary, with `coordinatesAcrossPeriodicBoundary` and
the opposite cell; a boundary with `is_velocity_neq_bb`; one with `is_do_nothing_bb`; any other -/
inductive BoundaryKind (K : Type*) (d : ℕ) (C : Type*)
  | periodic (across : (Fin d → K) → Fin d → K) (opposite : C)
  | bounceBack
  | doNothing
  | other

/-- A face of a cell: on boundary number `id`, an interior face with the neighbour and whether it is owned by this process or a ghost cell, or
an interior face with a refined neighbour -/
inductive FaceKind (K : Type*) (d : ℕ) (C : Type*)
  | boundary (id : ℕ) (kind : BoundaryKind K d C)
  | interior (neighbor : C) (available : Bool)
  | refined

/-- How following paths can fail: the search for the face fails; the current cell, which is active, is asked for a child
(`P/advection/SemiLagrangian.cpp:421-424`); `natrium_errorexit` (`:428-442`) -/
inductive PathError
  | face (e : Fail)
  | childOfActiveCell
  | exit
  deriving DecidableEq

/-- The mesh and the discretisation: for each cell the mapping, the planes of the faces, the faces, `get_dof_indices` and the real support
points; the locally owned cells in the order of iteration, the locally owned degrees of freedom, and the shape functions on the unit cell -/
structure Mesh (K : Type*) (m : ℕ) (C : Type*) where
  mapping : C → CellMapping K (m + 2)
  planes : C → List (FacePlane K (m + 2))
  face : C → ℕ → FaceKind K (m + 2) C
  cells : List C
  dofs : C → List ℕ
  owned : ℕ → Bool
  supportPoint : C → ℕ → Fin (m + 2) → K
  shape : ℕ → (Fin (m + 2) → K) → K

/-- Number of directions, directions, opposite directions, time step, and the square root used for distances -/
structure Setup (K : Type*) (d : ℕ) where
  Q : ℕ
  e : ℕ → Fin d → K
  opp : ℕ → ℕ
  dt : K
  sqrt : K → K

/-- `LagrangianPathTracker`, `P/advection/SemiLagrangianTools.h:47-65` -/
structure Tracker (K : Type*) (d : ℕ) (C : Type*) where
  /-- `destination.index` -/
  index : ℕ
  /-- `destination.direction` -/
  direction : ℕ
  currentDirection : ℕ
  lifeTimeCounter : ℕ
  departurePoint : Fin d → K
  currentPoint : Fin d → K
  currentCell : C
  hitDoNothing : Bool

section

variable {K : Type*} [Field K] [LinearOrder K] {m : ℕ} {C : Type*}

/-- `faceCrossedFirst` with its fallback, `P/advection/SemiLagrangian.cpp:277-305`: the face and the boundary point.  The fallback needs the
mapping for the child index, `:752-754`. -/
def Mesh.findFace (mesh : Mesh K m C) (cell : C) (current departure : Fin (m + 2) → K) : Except Fail (Option (ℕ × (Fin (m + 2) → K))) :=
  match faceCrossedFirst (mesh.mapping cell) current departure with
  | .ok none => .ok none
  | .ok (some c) => .ok (some (c.face, c.boundary))
  | .error .faceCrossedFirstFailed => match faceCrossedFirstWithoutMapping (mesh.planes cell) current departure with
    | none => .ok none
    | some (face, _, p) => match (mesh.mapping cell).toUnit p with
      | none => .error .uncaught
      | some _ => .ok (some (face, p))
  | .error e => .error e

/-- What one pass does with the path in front: it goes on, it has been found, it ends at a boundary, or its life time is over.  In the first
and third case there may be a call of `addHit`, with the boundary. -/
inductive PassResult (K : Type*) (d : ℕ) (C : Type*)
  | goOn (path : Tracker K d C) (hit : Option ℕ)
  | found (path : Tracker K d C)
  | dropped (path : Tracker K d C) (boundary : ℕ)
  | expired (path : Tracker K d C)

/-- Distance of two points, and the length of a vector, `P/advection/SemiLagrangian.cpp:364-374` -/
def norm {d : ℕ} (s : Setup K d) (v : Fin d → K) : K := s.sqrt (∑ a, v a * v a)

/-- The velocity bounce-back boundary, `P/advection/SemiLagrangian.cpp:358-380` -/
def bounce {d : ℕ} (s : Setup K d) (path : Tracker K d C) (p : Fin d → K) : Tracker K d C :=
  let direction := s.opp path.currentDirection
  let distance := norm s (path.departurePoint - p)
  { path with
    currentDirection := direction
    currentPoint := p
    departurePoint := fun a => p a - s.e direction a * distance / norm s (s.e direction) }

/-- The do-nothing boundary, `P/advection/SemiLagrangian.cpp:389-398`; `minus_dtealpha` is `:171-175`. -/
def turnBack {d : ℕ} (s : Setup K d) (path : Tracker K d C) : Tracker K d C :=
  let minusDtEalpha : Fin d → K := fun a => s.e path.currentDirection a * (- s.dt)
  let start := path.departurePoint - minusDtEalpha
  { path with
    currentPoint := start
    departurePoint := start - minusDtEalpha
    currentDirection := s.opp path.currentDirection
    hitDoNothing := true }

/-- The path, found in the current cell, `P/advection/SemiLagrangian.cpp:306-329` -/
def arrive {d : ℕ} (s : Setup K d) (path : Tracker K d C) : Tracker K d C :=
  if path.hitDoNothing then { path with currentDirection := s.opp path.currentDirection } else path

/-- The search for the face and what follows, `P/advection/SemiLagrangian.cpp:273-443` -/
def crossFace (mesh : Mesh K m C) (s : Setup K (m + 2)) (path : Tracker K (m + 2) C) : Except PathError (PassResult K (m + 2) C) :=
  match mesh.findFace path.currentCell path.currentPoint path.departurePoint with
  | .error e => .error (.face e)
  | .ok none => .ok (.found (arrive s path))
  | .ok (some (face, p)) => match mesh.face path.currentCell face with
    | .boundary _ (.periodic across opposite) =>
      .ok (.goOn { path with
        currentPoint := across p
        departurePoint := across path.departurePoint
        currentCell := opposite } none)
    | .boundary id .bounceBack => .ok (.goOn (bounce s path p) (some id))
    | .boundary _ .doNothing => .ok (.goOn (turnBack s path) none)
    | .boundary id .other => .ok (.dropped { path with currentPoint := p } id)
    | .refined => .error .childOfActiveCell
    | .interior neighbor true => .ok (.goOn { path with currentPoint := p, currentCell := neighbor } none)
    | .interior _ false => .error .exit

/-- `el.lifeTimeCounter++`, `P/advection/SemiLagrangian.cpp:250` -/
def older {d : ℕ} (path : Tracker K d C) : Tracker K d C := { path with lifeTimeCounter := path.lifeTimeCounter + 1 }

/-- One pass of the loop for the path in front of the queue, `P/advection/SemiLagrangian.cpp:249-443` -/
def pass (mesh : Mesh K m C) (s : Setup K (m + 2)) (path : Tracker K (m + 2) C) : Except PathError (PassResult K (m + 2) C) :=
  if (older path).lifeTimeCounter > 50 then .ok (.expired (older path)) else crossFace mesh s (older path)

/-- What the loop works on: the queue, the paths found (`found_in_cell`, here one list for all cells), the paths whose life time is over, the
paths ended at boundaries, and the calls of `addHit` -/
structure State (K : Type*) (d : ℕ) (C : Type*) where
  queue : List (Tracker K d C)
  found : List (Tracker K d C)
  expired : List (Tracker K d C)
  dropped : List (Tracker K d C)
  hits : List (Tracker K d C × ℕ)

/-- One pass for a queue that begins with `path`, `P/advection/SemiLagrangian.cpp:246-445`.  The path is changed in place: it is in front until it
is popped. -/
def passFront (mesh : Mesh K m C) (s : Setup K (m + 2)) (path : Tracker K (m + 2) C) (rest : List (Tracker K (m + 2) C))
    (st : State K (m + 2) C) : Except PathError (State K (m + 2) C) :=
  match pass mesh s path with
  | .error e => .error e
  | .ok (.goOn path none) => .ok { st with queue := path :: rest }
  | .ok (.goOn path (some id)) => .ok { st with queue := path :: rest, hits := st.hits ++ [(path, id)] }
  | .ok (.found path) => .ok { st with queue := rest, found := st.found ++ [path] }
  | .ok (.dropped path id) => .ok { st with queue := rest, dropped := st.dropped ++ [path], hits := st.hits ++ [(path, id)] }
  | .ok (.expired path) => .ok { st with queue := rest, expired := st.expired ++ [path] }

/-- At most `n` passes of the loop `P/advection/SemiLagrangian.cpp:246-445` -/
def passes (mesh : Mesh K m C) (s : Setup K (m + 2)) : ℕ → State K (m + 2) C → Except PathError (State K (m + 2) C)
  | 0, st => .ok st
  | n + 1, st => match st.queue with
    | [] => .ok st
    | path :: rest => match passFront mesh s path rest st with
      | .error e => .error e
      | .ok st => passes mesh s n st

/-- The loop `P/advection/SemiLagrangian.cpp:246-445` for a new queue.  There are enough passes for it to end, see `C53_ends_partial`. -/
def followAll (mesh : Mesh K m C) (s : Setup K (m + 2)) (queue : List (Tracker K (m + 2) C)) : Except PathError (State K (m + 2) C) :=
  passes mesh s (51 * queue.length) ⟨queue, [], [], [], []⟩

/-- The directions of the paths from one support point: all from 1, or for the sparsity pattern only one,
`P/advection/SemiLagrangian.cpp:231-234`; `row` is `row_index`. -/
def directions {d : ℕ} (s : Setup K d) (row : Option ℕ) : List ℕ :=
  (List.range' 1 (s.Q - 1)).filter fun alpha => match row with
    | none => true
    | some r => alpha - 1 = r

/-- A new path, `P/advection/SemiLagrangian.cpp:236-240` -/
def newPath {d : ℕ} (s : Setup K d) (cell : C) (x : Fin d → K) (index alpha : ℕ) : Tracker K d C where
  index := index
  direction := alpha
  currentDirection := alpha
  lifeTimeCounter := 0
  departurePoint := fun a => x a + s.e alpha a * (- s.dt)
  currentPoint := x
  currentCell := cell
  hitDoNothing := false

/-- The loop over the support points of a cell, `P/advection/SemiLagrangian.cpp:213-242`: `tracked_indices` and the queue -/
def newPaths (mesh : Mesh K m C) (s : Setup K (m + 2)) (row : Option ℕ) (cell : C) (tracked : List ℕ) :
    List ℕ × List (Tracker K (m + 2) C) :=
  (mesh.dofs cell).zipIdx.foldl (fun acc dof =>
    if dof.1 ∈ acc.1 then acc
    else if mesh.owned dof.1 then
      (acc.1 ++ [dof.1], acc.2 ++ (directions s row).map (newPath s cell (mesh.supportPoint cell dof.2) dof.1))
    else acc) (tracked, [])

/-- An entry added to the matrix: block, row, column, value -/
structure Entry (K : Type*) where
  blockRow : ℕ
  blockColumn : ℕ
  row : ℕ
  column : ℕ
  value : K

/-- The unit point of a departure point, `P/advection/SemiLagrangianTools.cpp:38-52` -/
def unitDeparture (mesh : Mesh K m C) (path : Tracker K (m + 2) C) : Except PathError (Fin (m + 2) → K) :=
  match (mesh.mapping path.currentCell).toUnit path.departurePoint with
  | none => .error (.face .uncaught)
  | some h => if ∀ a, 0 ≤ snap (h a) ∧ snap (h a) ≤ 1 then .ok fun a => snap (h a) else .error (.face .assertion)

/-- The entries of a path that has been found, `P/advection/SemiLagrangian.cpp:480-503` with `P/advection/SemiLagrangianTools.cpp:59-63` -/
def foundEntries (mesh : Mesh K m C) (path : Tracker K (m + 2) C) : Except PathError (List (Entry K)) :=
  match unitDeparture mesh path with
  | .error e => .error e
  | .ok h => .ok ((mesh.dofs path.currentCell).zipIdx.filterMap fun dof =>
      if |mesh.shape dof.2 h| < roundOff then none
      else some ⟨path.direction - 1, path.currentDirection - 1, path.index, dof.1, mesh.shape dof.2 h⟩)

/-- The entry of a path whose life time is over, `P/advection/SemiLagrangian.cpp:262-268` -/
def expiredEntry {d : ℕ} (path : Tracker K d C) : Entry K := ⟨path.direction - 1, path.direction - 1, path.index, path.index, 1⟩

/-- The entries of all paths in a list -/
def allFoundEntries (mesh : Mesh K m C) : List (Tracker K (m + 2) C) → Except PathError (List (Entry K))
  | [] => .ok []
  | path :: l => match foundEntries mesh path with
    | .error e => .error e
    | .ok es => match allFoundEntries mesh l with
      | .error e => .error e
      | .ok es' => .ok (es ++ es')

/-- What is assembled: the entries, in an order that does not matter for their sum, and the boundary hits -/
structure Assembly (K : Type*) (d : ℕ) (C : Type*) where
  tracked : List ℕ
  entries : List (Entry K)
  hits : List (Tracker K d C × ℕ)

/-- One cell, `P/advection/SemiLagrangian.cpp:202-505` -/
def fillCell (mesh : Mesh K m C) (s : Setup K (m + 2)) (row : Option ℕ) (as : Assembly K (m + 2) C) (cell : C) :
    Except PathError (Assembly K (m + 2) C) :=
  let new := newPaths mesh s row cell as.tracked
  match followAll mesh s new.2 with
  | .error e => .error e
  | .ok st => match allFoundEntries mesh st.found with
    | .error e => .error e
    | .ok es => .ok ⟨new.1, as.entries ++ st.expired.map expiredEntry ++ es, as.hits ++ st.hits⟩

/-- The loop over the cells -/
def fillCells (mesh : Mesh K m C) (s : Setup K (m + 2)) (row : Option ℕ) : List C → Assembly K (m + 2) C →
    Except PathError (Assembly K (m + 2) C)
  | [], as => .ok as
  | cell :: cells, as => match fillCell mesh s row as cell with
    | .error e => .error e
    | .ok as => fillCells mesh s row cells as

/-- `SemiLagrangian::fillSparseObject`, `P/advection/SemiLagrangian.cpp:144-522`: with `row = none` the matrix is filled, with `row = some r` the
sparsity pattern (only the positions of the entries and no hits are kept then) -/
def fillSparseObject (mesh : Mesh K m C) (s : Setup K (m + 2)) (row : Option ℕ) : Except PathError (Assembly K (m + 2) C) :=
  fillCells mesh s row mesh.cells ⟨[], [], []⟩

/-- `m_systemMatrix.vmult`: the matrix is the sum of all entries added. -/
def vmult (entries : List (Entry K)) (f : ℕ → ℕ → K) (blockRow row : ℕ) : K :=
  ((entries.filter fun e => e.blockRow = blockRow ∧ e.row = row).map fun e => e.value * f e.blockColumn e.column).sum

/-- `SemiLagrangian::stream`, `P/advection/SemiLagrangian.h:150-155`, before the boundary conditions are applied: `f alpha i` is the distribution
function of direction `alpha` at degree of freedom `i`; `getFStream` are the directions from 1. -/
def stream (entries : List (Entry K)) (f : ℕ → ℕ → K) : ℕ → ℕ → K
  | 0, i => f 0 i
  | alpha + 1, i => vmult entries (fun b => f (b + 1)) alpha i

end

end Paths
end NATriuM
