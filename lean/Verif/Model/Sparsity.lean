import Verif.Model.BoundaryLines
import Verif.Model.Sedg
import Verif.Model.StencilType

/-!
# Sparsity patterns of the discontinuous Galerkin operator, boundary indicators, degrees of freedom at boundaries

Model of `make_sparser_flux_sparsity_pattern`, `extract_dofs_with_support_on_boundary` and `set_boundary_ids_at_hyperplane` in
`P/utilities/DealiiExtensions.cpp` and of `updateSparsityPattern` in `P/advection/SEDGMinLee.cpp` (`P` = `src/library/natrium`).
Cells are named by natural numbers, faces of a cell by their number.
-/

namespace NATriuM

namespace Sparsity

open BoundaryLines (allPairs)

/-- Why the function does not return normally: a face number out of range (`P/utilities/DealiiExtensions.cpp:125-126`, `:254-256`), a failed assertion (`:293`,
`:308`), `at` out of range (`:327`), a cell that is not in the map of the periodic boundary (`P/boundaries/PeriodicBoundary.cpp:154-162`) -/
inductive Err
  | noSuchFace
  | assertion
  | outOfRange
  | notPeriodic
  deriving DecidableEq, Repr

/-- What is behind a face, as deal.II tells: nothing (`at_boundary`, with the boundary indicator), an active cell of the same level and its face, a
coarser cell (`neighbor_is_coarser`), or the cells behind the parts of the face if the neighbour `has_children` (each with the face that is a
part of this one); the cases distinguished in `P/utilities/DealiiExtensions.cpp:119`, `:173` and `:234` -/
inductive Side
  | boundary (id : ℕ)
  | inner (cell face : ℕ)
  | coarser (cell : ℕ)
  | refined (subs : List (ℕ × ℕ))
  deriving DecidableEq, Repr

/-- A mesh with its degrees of freedom: active cells in their order, `subdomain_id`, number of faces of a cell, `get_dof_indices`,
`has_support_on_face` and the shape values in the quadrature points of a face; used in `P/utilities/DealiiExtensions.cpp:96-112`, `:159` and `:286` -/
structure Mesh (K : Type*) (n nq : ℕ) where
  cells : List ℕ
  subdomain : ℕ → ℕ
  nFaces : ℕ
  side : ℕ → ℕ → Side
  dof : ℕ → Fin n → ℕ
  support : ℕ → Fin n → Bool
  value : ℕ → Fin n → Fin nq → K

/-- A periodic boundary: its two indicators and `getOppositeCellAtPeriodicBoundary` (`P/boundaries/PeriodicBoundary.cpp:150-177`; `none`: it
throws) -/
structure PeriodicBoundary where
  id1 : ℕ
  id2 : ℕ
  opposite : ℕ → Option (ℕ × ℕ)

section

variable {K : Type*} [Field K] [LinearOrder K] {n nq : ℕ}

/-- `cell->face(f)->boundary_id()`, `P/utilities/DealiiExtensions.cpp:126`; inner faces have an indicator that no boundary has. -/
def boundaryId (m : Mesh K n nq) (c f : ℕ) : Option ℕ :=
  match m.side c f with
  | .boundary id => some id
  | _ => none

/-- `isFaceInBoundary`, `P/boundaries/PeriodicBoundary.cpp:90-109`: the second argument is the number of a face. -/
def isFaceInBoundary (m : Mesh K n nq) (p : PeriodicBoundary) (c f : ℕ) : Except Err Bool :=
  if f < m.nFaces then
    .ok (if boundaryId m c f = some p.id1 then true else if boundaryId m c f = some p.id2 then true else false)
  else .error .noSuchFace

/-- The loop over the periodic boundaries, `P/utilities/DealiiExtensions.cpp:121-142`: the indicator of the face is handed over in place of its number
(`:125-126`). The result is the cell across the boundary and its face (`none`: the number is still 1000). -/
def findPeriodic (m : Mesh K n nq) (c id : ℕ) : List PeriodicBoundary → Except Err (Option (ℕ × ℕ))
  | [] => .ok none
  | p :: ps =>
    match isFaceInBoundary m p c id with
    | .error e => .error e
    | .ok true =>
      match p.opposite c with
      | none => .error .notPeriodic
      | some x => .ok (some x)
    | .ok false => findPeriodic m c id ps

/-- `get_dof_indices`, `P/utilities/DealiiExtensions.cpp:103` and `:242` -/
def cellDofs (m : Mesh K n nq) (c : ℕ) : List ℕ := (List.finRange n).map (m.dof c)

/-- The degrees of freedom with support on a face, `P/utilities/DealiiExtensions.cpp:158-163`, `:203-209` and `:263-269` -/
def supportDofs (m : Mesh K n nq) (c f : ℕ) : List ℕ := ((List.finRange n).filter fun i => m.support f i).map (m.dof c)

/-- The points of the face where a shape function is above `1e-10`, `P/utilities/DealiiExtensions.cpp:284-291` and `:299-306` -/
def points (m : Mesh K n nq) (f : ℕ) (i : Fin n) : List (Fin nq) := (List.finRange nq).filter fun q => 1 / 10 ^ 10 < m.value f i q

/-- The degrees of freedom at a face, in the order of their numbers in the cell, and the assertion that each belongs to one point at most,
`P/utilities/DealiiExtensions.cpp:282-294` and `:297-309` -/
def pointDofs (m : Mesh K n nq) (c f : ℕ) : Except Err (List ℕ) :=
  if ∀ i, (points m f i).length ≤ 1 then
    .ok ((List.finRange n).flatMap fun i => (points m f i).map fun _ => m.dof c i)
  else .error .assertion

/-- `add_entries_local_to_global` for two lists of indices: all pairs, `P/utilities/DealiiExtensions.cpp:275-277` -/
def pairs (l l' : List ℕ) : List (ℕ × ℕ) := l.flatMap fun i => l'.map fun j => (i, j)

/-- A face between two active cells, `P/utilities/DealiiExtensions.cpp:239-363`. The assertions on the numbers of degrees of freedom (`:270-272`,
`:311-320`), which are not compiled in release mode, are left out. -/
def across (m : Mesh K n nq) (pairwise : Bool) (c f c' f' : ℕ) : Except Err (List (ℕ × ℕ)) :=
  let foreign := m.subdomain c' ≠ m.subdomain c
  if pairwise then
    match pointDofs m c f, pointDofs m c' f' with
    | .ok this, .ok other =>
      if other.length < this.length then .error .outOfRange
      else .ok (this.zip other ++ if foreign then this.zip other ++ allPairs (cellDofs m c') else [])
    | .error e, _ => .error e
    | _, .error e => .error e
  else
    let this := supportDofs m c f
    let other := supportDofs m c' f'
    .ok (pairs this other ++ if foreign then pairs other this ++ allPairs (cellDofs m c') else [])

/-- A face with smaller cells behind it, `P/utilities/DealiiExtensions.cpp:173-229`. With pairwise coupling the degrees of freedom of this face have not
been collected (`:156-164`). The assertions `:196-198` and `:210-212` are left out. -/
def hanging (m : Mesh K n nq) (pairwise : Bool) (c f : ℕ) (subs : List (ℕ × ℕ)) : List (ℕ × ℕ) :=
  let this := if pairwise then [] else supportDofs m c f
  subs.flatMap fun s =>
    let other := supportDofs m s.1 s.2
    pairs this other ++ pairs other this ++ if m.subdomain s.1 ≠ m.subdomain c then allPairs (cellDofs m s.1) else []

/-- The body of the loop over the faces, `P/utilities/DealiiExtensions.cpp:114-364`, in two and three dimensions. For a coarser cell of another process the search for the common face
(`:246-257`) runs past the last face. -/
def faceEntries (m : Mesh K n nq) (periodic : List PeriodicBoundary) (pairwise : Bool) (c f : ℕ) : Except Err (List (ℕ × ℕ)) :=
  match m.side c f with
  | .boundary id =>
    match findPeriodic m c id periodic with
    | .error e => .error e
    | .ok none => .ok []
    | .ok (some (c', f')) => across m pairwise c f c' f'
  | .inner c' f' => across m pairwise c f c' f'
  | .coarser c' => if m.subdomain c' = m.subdomain c then .ok [] else .error .noSuchFace
  | .refined subs => .ok (hanging m pairwise c f subs)

/-- A loop whose body adds entries or throws, `P/utilities/DealiiExtensions.cpp:96` and `:111-113` -/
def collect {A : Type*} (body : A → Except Err (List (ℕ × ℕ))) : List A → Except Err (List (ℕ × ℕ))
  | [] => .ok []
  | a :: as =>
    match body a, collect body as with
    | .ok x, .ok y => .ok (x ++ y)
    | .error e, _ => .error e
    | _, .error e => .error e

/-- The body of the loop over the cells, `P/utilities/DealiiExtensions.cpp:97-366`; both conditions on the cell say that it belongs to this process. -/
def cellEntries (m : Mesh K n nq) (periodic : List PeriodicBoundary) (pairwise : Bool) (rank c : ℕ) : Except Err (List (ℕ × ℕ)) :=
  if m.subdomain c = rank then
    match collect (faceEntries m periodic pairwise c) (List.range m.nFaces) with
    | .error e => .error e
    | .ok x => .ok (allPairs (cellDofs m c) ++ x)
  else .ok []

/-- `make_sparser_flux_sparsity_pattern`, `P/utilities/DealiiExtensions.cpp:49-367`; `pairwise` is `fe_face != NULL`. -/
def makePattern (m : Mesh K n nq) (periodic : List PeriodicBoundary) (pairwise : Bool) (rank : ℕ) : Except Err (List (ℕ × ℕ)) :=
  collect (cellEntries m periodic pairwise rank) m.cells

/-- The cell and face behind a face as the assembly takes them, `P/advection/SEDGMinLee.cpp:369-408`: at a periodic boundary, the boundary registered for the
indicator of the face tells (`:373-381`); `none` at other boundaries. Coarser and refined neighbours are not modelled (`none`). -/
def assemblyNeighbor (m : Mesh K n nq) (periodic : List PeriodicBoundary) (c f : ℕ) : Option (ℕ × ℕ) :=
  match m.side c f with
  | .boundary id =>
    match periodic.find? fun p => id = p.id1 ∨ id = p.id2 with
    | some p => p.opposite c
    | none => none
  | .inner c' f' => some (c', f')
  | _ => none

/-! ## The patterns of all blocks -/

/-- A boundary that is not periodic: its indicator, `isDGSupported`, whether `getDistributionCoupling` is `COUPLE_ALL_DISTRIBUTIONS`, and `getPointCoupling`;
`P/advection/SEDGMinLee.cpp:248-258` -/
structure OtherBoundary where
  id : ℕ
  dgSupported : Bool
  coupleAll : Bool
  points : BoundaryLines.PointCoupling

/-- `VelocityNeqBounceBack`, `P/boundaries/VelocityNeqBounceBack.h:66-68` and `:110-117` -/
def velocityWall (id : ℕ) : OtherBoundary := ⟨id, true, false, .COUPLE_ONLY_SINGLE_POINTS⟩

/-- A cell as `CoupleDoFsAtBoundary` sees it, `P/boundaries/BoundaryTools.cpp:162-231` -/
def dofCell (m : Mesh K n nq) (rank c : ℕ) : BoundaryLines.DofCell where
  owned := m.subdomain c = rank
  dofs := cellDofs m c
  faces := (List.range m.nFaces).map fun f =>
    ⟨(boundaryId m c f).isSome, (boundaryId m c f).getD 0, (List.finRange n).map (m.support f)⟩

/-- The loop over the boundaries that are not periodic, `P/advection/SEDGMinLee.cpp:244-262`: `cSparseOpposite` and `cSparseNotOpposite` -/
def boundaryPatterns (cells : List BoundaryLines.DofCell) :
    List OtherBoundary → List (ℕ × ℕ) × List (ℕ × ℕ) → Option (List (ℕ × ℕ) × List (ℕ × ℕ))
  | [], s => some s
  | b :: bs, s =>
    if b.dgSupported then
      boundaryPatterns cells bs (BoundaryLines.coupleDofs b.id b.points cells s.1,
        if b.coupleAll then BoundaryLines.coupleDofs b.id b.points cells s.2 else s.2)
    else none

/-- The positions, each a block row, a block column, a row and a column, to which `VelocityNeqBounceBack::assembleBoundary` adds,
`P/boundaries/VelocityNeqBounceBack.cpp:118-132` -/
def wallPositions (m : Mesh K n nq) (opp : ℕ → ℕ) (alpha c f : ℕ) : List (ℕ × ℕ × ℕ × ℕ) :=
  ((List.finRange n).filter fun i => m.support f i).flatMap fun i =>
    [(alpha - 1, alpha - 1, m.dof c i, m.dof c i), (alpha - 1, opp alpha - 1, m.dof c i, m.dof c i)]

end

/-! ## The blocks -/

/-- Which of the three patterns a block gets, `P/advection/SEDGMinLee.cpp:211-219` -/
inductive Pattern
  | diag
  | opposite
  | notOpposite
  deriving DecidableEq, Repr

/-- `some_nonopposite`, `P/advection/SEDGMinLee.cpp:280` -/
def someNonopposite (opp : ℕ → ℕ) : ℕ := opp 1

/-- `first_opposite`, `P/advection/SEDGMinLee.cpp:279` -/
def firstOpposite (opp : ℕ → ℕ) : ℕ := opp 1 - 1

/-- The three blocks that are initialised first, in this order, `P/advection/SEDGMinLee.cpp:284-286`; `none`: not initialised yet -/
def firstBlocks (opp : ℕ → ℕ) (I J : ℕ) : Option Pattern :=
  if I = 0 ∧ J = firstOpposite opp then some .opposite
  else if I = 0 ∧ J = someNonopposite opp then some .notOpposite
  else if I = 0 ∧ J = 0 then some .diag
  else none

/-- `P/advection/SEDGMinLee.cpp:278-314`: the pattern of block `(I, J)`. `none`: the block `(0, some_nonopposite)` does not exist; the assertion
`:281` does not notice. -/
def blockPattern (q : ℕ) (opp : ℕ → ℕ) (I J : ℕ) : Option Pattern :=
  let nBlocks := q - 1
  if someNonopposite opp < nBlocks then
    if I = 0 ∧ J = 0 then firstBlocks opp 0 0
    else if I = 0 ∧ J = someNonopposite opp then firstBlocks opp 0 (someNonopposite opp)
    else if I = 0 ∧ J = firstOpposite opp then firstBlocks opp 0 (firstOpposite opp)
    else if I = J then firstBlocks opp 0 0
    else if I = opp (J + 1) - 1 then firstBlocks opp 0 (firstOpposite opp)
    else firstBlocks opp 0 (someNonopposite opp)
  else none

/-- `getIndexOfOppositeDirection` (`P/stencils/Stencil.h:153`) of a stencil class as function on `size_t` -/
noncomputable def oppOf (t : StencilType) (i : ℕ) : ℕ := if h : i < t.Q then ((t.stencil 1).opp ⟨i, h⟩ : ℕ) else 0

/-! ## Degrees of freedom at boundaries -/

/-- A cell as seen by `extract_dofs_with_support_on_boundary`: `is_locally_owned`, `at_boundary(f)` with the indicator for each face, the numbers of its degrees
of freedom, their components (first nonzero component), `has_support_on_face(i, f)`; `P/utilities/DealiiExtensions.cpp:646-689` -/
structure BCell where
  owned : Bool
  faces : List (Option ℕ)
  dofs : List ℕ
  component : ℕ → ℕ
  support : ℕ → ℕ → Bool

/-- The condition on a face, `P/utilities/DealiiExtensions.cpp:652-656`; `check_boundary_id` is false for the empty set (`:627`). -/
def faceSelected (ids : List ℕ) : Option ℕ → Bool
  | none => false
  | some id => ids.isEmpty || ids.contains id

/-- The assignment for one degree of freedom, `P/utilities/DealiiExtensions.cpp:664-690`; `mask = none` is the mask that selects all components. -/
def assignDof (mask : Option (ℕ → Bool)) (c : BCell) (f : ℕ) (s : ℕ → Bool) (i : ℕ) : ℕ → Bool :=
  if c.support i f then
    match mask with
    | none => Function.update s (c.dofs.getD i 0) true
    | some k => Function.update s (c.dofs.getD i 0) (k (c.component i))
  else s

/-- The body of the loop over the faces, `P/utilities/DealiiExtensions.cpp:652-692` -/
def assignFace (mask : Option (ℕ → Bool)) (ids : List ℕ) (c : BCell) (s : ℕ → Bool) (f : ℕ) : ℕ → Bool :=
  if faceSelected ids (c.faces.getD f none) then (List.range c.dofs.length).foldl (assignDof mask c f) s else s

/-- `extract_dofs_with_support_on_boundary`, `P/utilities/DealiiExtensions.cpp:616-696`: the array `selected_dofs` -/
def extractDofs (mask : Option (ℕ → Bool)) (ids : List ℕ) (cells : List BCell) : ℕ → Bool :=
  cells.foldl (fun s c => if c.owned then (List.range c.faces.length).foldl (assignFace mask ids c) s else s) (fun _ => false)

/-- The set of indicators handed over by the solver, `P/solver/CFDSolver.cpp:537-545`: a boundary is its indicator and `isPeriodic()`. -/
def solverIds (boundaries : List (ℕ × Bool)) : List ℕ := (boundaries.filter fun b => !b.2).map Prod.fst

/-! ## Boundary indicators on a plane -/

/-- A face: its vertices and its boundary indicator, `P/utilities/DealiiExtensions.cpp:788` and `:795` -/
structure PlaneFace (K : Type*) (D : ℕ) where
  vertices : List (Fin D → K)
  id : ℕ

/-- A call: component, value, indicator, tolerance, `P/utilities/DealiiExtensions.cpp:776-777` -/
structure PlaneCall (K : Type*) (D : ℕ) where
  component : Fin D
  value : K
  id : ℕ
  tol : K

/-- `P/utilities/DealiiExtensions.cpp:785-793` -/
def onPlane {K : Type*} [Field K] [LinearOrder K] {D : ℕ} (call : PlaneCall K D) (f : PlaneFace K D) : Bool :=
  f.vertices.all fun x => !(decide (x call.component ≥ call.value + call.tol) || decide (x call.component ≤ call.value - call.tol))

/-- `set_boundary_ids_at_hyperplane`, `P/utilities/DealiiExtensions.cpp:775-800`. A face between two cells is visited twice, with the same effect; the
loop runs over all faces, also those inside the domain. -/
def setIds {K : Type*} [Field K] [LinearOrder K] {D : ℕ} (call : PlaneCall K D) (faces : List (PlaneFace K D)) : List (PlaneFace K D) :=
  faces.map fun f => if onPlane call f then { f with id := call.id } else f

/-- Calls one after the other, as in `src/examples/step-9/Cylinder2D.cpp:179-182` -/
def setIdsAll {K : Type*} [Field K] [LinearOrder K] {D : ℕ} (calls : List (PlaneCall K D)) (faces : List (PlaneFace K D)) :
    List (PlaneFace K D) :=
  calls.foldl (fun fs call => setIds call fs) faces

end Sparsity

end NATriuM
