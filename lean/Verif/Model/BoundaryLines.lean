import Verif.Model.Utilities

/-!
# Lines at periodic boundaries, coupling at boundaries

Model of `P/boundaries/BoundaryTools.cpp` (`P` = `src/library/natrium`). Doubles are real numbers.
-/

namespace NATriuM

namespace BoundaryLines

open MathUtil

/-- `dealii::Point<2>` -/
abbrev Pt := EuclideanSpace ℝ (Fin 2)

/-- The reasons for which two lines are rejected, `BoundaryTools.cpp:36, 44, 60` -/
inductive LineError
  | equalPoints
  | differentLength
  | notParallel
  deriving DecidableEq, Repr

/-- `checkParallelLines`, `BoundaryTools.cpp:20-68`: the error (`none`: the function returns `true`) and the values of `beginLine2` and `endLine2`
after the call -/
noncomputable def checkParallelLines (begin1 end1 begin2 end2 : Pt) : Option LineError × Pt × Pt :=
  let length1 := dist begin1 end1
  let length2 := dist begin2 end2
  open Classical in
  if length1 = 0 ∨ length2 = 0 ∨ dist begin1 begin2 = 0 ∨ dist end1 end2 = 0 ∨ dist begin1 end2 = 0 ∨ dist begin2 end1 = 0 then
    (some .equalPoints, begin2, end2)
  else if |length1 - length2| / length1 > 0.01 then (some .differentLength, begin2, end2)
  else if isAngleSmall (end1 - begin1) (end2 - begin2) 0 = false then
    if isAngleSmall (end1 - begin1) (begin2 - end2) 0 = false then (some .notParallel, begin2, end2)
    else (none, end2, begin2)
  else (none, begin2, end2)

/-! ## Lines from boundary indicators -/

/-- A face: its boundary indicator and its vertices -/
structure Face where
  id : ℕ
  vertices : List Pt

/-- A cell: `at_boundary()` and its faces -/
structure Cell where
  atBoundary : Bool
  faces : List Face

/-- `BoundaryTools.cpp:97-98` and `:109-111` -/
noncomputable def key (p : Pt) : ℝ := 1000 * p 0 + p 1

/-- `std::map::insert` with the comparison `own_double_less` (epsilon `1e-6`, `P/utilities/Math.h:132-143`), the map as the list of its elements in
order. The walk from the left and the search in a tree agree if any two keys are equal or at least `1e-6` apart. -/
noncomputable def insert (k : ℝ) (p : Pt) : List (ℝ × Pt) → List (ℝ × Pt)
  | [] => [(k, p)]
  | (k', p') :: m =>
    if ownDoubleLess 1e-6 k k' then (k, p) :: (k', p') :: m
    else if ownDoubleLess 1e-6 k' k then (k', p') :: insert k p m
    else (k', p') :: m

/-- The vertices of a face enter a map, `BoundaryTools.cpp:94-102` and `:106-115`. -/
noncomputable def insertFace (m : List (ℝ × Pt)) (f : Face) : List (ℝ × Pt) := f.vertices.foldl (fun m v => insert (key v) v m) m

/-- The loop over the faces, `BoundaryTools.cpp:91-118`; the state holds both maps. -/
noncomputable def collectFace (id1 id2 : ℕ) (s : List (ℝ × Pt) × List (ℝ × Pt)) (f : Face) : List (ℝ × Pt) × List (ℝ × Pt) :=
  if f.id = id1 then (insertFace s.1 f, s.2) else if f.id = id2 then (s.1, insertFace s.2 f) else s

/-- The body of the loop over the cells, `BoundaryTools.cpp:90-119` -/
noncomputable def collectCell (id1 id2 : ℕ) (s : List (ℝ × Pt) × List (ℝ × Pt)) (c : Cell) : List (ℝ × Pt) × List (ℝ × Pt) :=
  if c.atBoundary then c.faces.foldl (collectFace id1 id2) s else s

/-- `BoundaryTools.cpp:85-120` -/
noncomputable def collect (id1 id2 : ℕ) (cells : List Cell) : List (ℝ × Pt) × List (ℝ × Pt) :=
  cells.foldl (collectCell id1 id2) ([], [])

/-- First and last element of a map, `BoundaryTools.cpp:123-126`; `none` for an empty map, whose `begin()` must not be dereferenced. -/
def lineEnds : List (ℝ × Pt) → Option (Pt × Pt)
  | [] => none
  | e :: m => some (e.2, ((e :: m).getLast (by simp)).2)

/-- The loops `BoundaryTools.cpp:131-143` and `:144-156`: are the points between the first and the last on the line? `none` for a map with less
than two elements, where the loop starts behind its end. -/
noncomputable def onLine (m : List (ℝ × Pt)) (ends : Pt × Pt) : Option Bool :=
  if m.length < 2 then none
  else some (m.tail.dropLast.all fun e => isAngleSmall (ends.2 - ends.1) (e.2 - ends.1) 0)

/-- `getInterfacialLinesByBoundaryIndicator`, `BoundaryTools.cpp:70-160`: the return value and the end points of both lines; `none` is undefined
behaviour. -/
noncomputable def interfacialLines (id1 id2 : ℕ) (cells : List Cell) : Option (Bool × (Pt × Pt) × (Pt × Pt)) :=
  let m := collect id1 id2 cells
  match lineEnds m.1, lineEnds m.2 with
  | some l1, some l2 =>
    match onLine m.1 l1 with
    | none => none
    | some false => some (false, l1, l2)
    | some true =>
      match onLine m.2 l2 with
      | none => none
      | some b => some (b, l1, l2)
  | _, _ => none

/-! ## Coupling of degrees of freedom -/

/-- `enum PointCouplingAtBoundary`, `BoundaryTools.h:169-172` -/
inductive PointCoupling
  | COUPLE_ONLY_SINGLE_POINTS
  | COUPLE_WHOLE_FACE
  deriving DecidableEq, Repr

/-- A face of a cell: `at_boundary()`, the indicator and, for each degree of freedom of the cell, `has_support_on_face` -/
structure DofFace where
  atBoundary : Bool
  id : ℕ
  support : List Bool

/-- A cell: `is_locally_owned()`, the indices of its degrees of freedom, its faces -/
structure DofCell where
  owned : Bool
  dofs : List ℕ
  faces : List DofFace

/-- `dofs_on_this_face`, `BoundaryTools.cpp:189-196` -/
def faceDofs (c : DofCell) (f : DofFace) : List ℕ := ((c.dofs.zip f.support).filter fun p => p.2).map Prod.fst

/-- `add_entries_local_to_global` without constraints: all pairs of the given indices -/
def allPairs (l : List ℕ) : List (ℕ × ℕ) := l.flatMap fun i => l.map fun j => (i, j)

/-- `BoundaryTools.cpp:199-223`: the entries added for one face; the third branch cannot be reached with the two values of the enum. -/
def faceEntries (coupling : PointCoupling) (l : List ℕ) : List (ℕ × ℕ) :=
  match coupling with
  | .COUPLE_ONLY_SINGLE_POINTS => l.flatMap fun i => allPairs [i]
  | .COUPLE_WHOLE_FACE => allPairs l

/-- `CoupleDoFsAtBoundary`, `BoundaryTools.cpp:162-231`: the entries of the sparsity pattern after the call, given those before it -/
def coupleDofs (boundaryId : ℕ) (coupling : PointCoupling) (cells : List DofCell) (pattern : List (ℕ × ℕ)) : List (ℕ × ℕ) :=
  cells.foldl (fun s c => if c.owned then
    c.faces.foldl (fun s f => if f.atBoundary then if f.id = boundaryId then s ++ faceEntries coupling (faceDofs c f) else s else s) s
    else s) pattern

end BoundaryLines

end NATriuM
