import Mathlib.Data.Fintype.Card
import Mathlib.Data.List.FinRange
import Mathlib.Logic.Function.Basic

/-!
# Model of the search for cells around a cell

`P` is short for `src/library/natrium`.  Cells are elements of a finite type; comparing them is comparing `id()`.
-/

namespace NATriuM
namespace Cells

/-- A neighbour of a cell, as `getNeighbor` returns it: nothing (`end()`), an artificial cell, an active cell, or a refined cell with its
children, which are active (`P/advection/SemiLagrangian.cpp:828` and `:878` assert this) -/
inductive Neighbor (C : Type*)
  | nothing
  | artificial
  | active (cell : C)
  | refined (children : List C)

/-- A face of a cell: interior, on a periodic boundary (with the cell that `getOppositeCellAtPeriodicBoundary` finds), or on another boundary -/
inductive Face (C : Type*)
  | interior (neighbor : Neighbor C)
  | periodic (opposite : Neighbor C)
  | boundary

/-- The mesh: `faces` is the number of faces of a cell, twice the dimension. -/
structure Mesh (C : Type*) (faces : ℕ) where
  face : C → Fin faces → Face C

/-- `SemiLagrangian::getNeighbor`, `P/advection/SemiLagrangian.cpp:759-781` -/
def Mesh.getNeighbor {C : Type*} {faces : ℕ} (mesh : Mesh C faces) (cell : C) (i : Fin faces) : Neighbor C :=
  match mesh.face cell i with
  | .periodic opposite => opposite
  | .boundary => .nothing
  | .interior neighbor => neighbor

section

variable {C : Type*} [DecidableEq C] {faces : ℕ}

/-- Elements of `neighborhood` and of `visited_faces` with the same index, `P/advection/SemiLagrangian.cpp:794-796` -/
abbrev Hood (C : Type*) (faces : ℕ) := List (C × (Fin faces → ℕ))

/-- `isCellInNeighborhood`, `P/advection/SemiLagrangian.h:230-239` -/
def inHood {V : Type*} (cell : C) (hood : List (C × V)) : Bool := hood.any fun x => decide (cell = x.1)

/-- A copy of the counters with one of them incremented, `P/advection/SemiLagrangian.cpp:819-820` -/
def increment (v : Fin faces → ℕ) (i : Fin faces) : Fin faces → ℕ := Function.update v i (v i + 1)

/-- The body of the loop over the faces, `P/advection/SemiLagrangian.cpp:805-840`, for the cell `x.1` with counters `x.2`.  (In debug mode
`is_artificial()` of deal.II throws for refined cells.) -/
def visitFace (mesh : Mesh C faces) (shells : ℕ) (x : C × (Fin faces → ℕ)) (hood : Hood C faces) (i : Fin faces) : Hood C faces :=
  if x.2 i ≥ shells then hood
  else match mesh.getNeighbor x.1 i with
    | .nothing => hood
    | .artificial => hood
    | .active n => if inHood n hood then hood else hood ++ [(n, increment x.2 i)]
    | .refined children => children.foldl (fun hood n => if inHood n hood then hood else hood ++ [(n, increment x.2 i)]) hood

/-- The loop over the cells, which runs over a growing list, `P/advection/SemiLagrangian.cpp:803-842`; at most `fuel` passes -/
def visitCells (mesh : Mesh C faces) (shells : ℕ) : ℕ → ℕ → Hood C faces → Hood C faces
  | 0, _, hood => hood
  | fuel + 1, c, hood => match hood[c]? with
    | none => hood
    | some x => visitCells mesh shells fuel (c + 1) ((List.finRange faces).foldl (visitFace mesh shells x) hood)

/-- `SemiLagrangian::getNeighborhood`, `P/advection/SemiLagrangian.cpp:790-843`.  There are enough passes for the loop to end, see
`C55_ends`. -/
def getNeighborhood [Fintype C] (mesh : Mesh C faces) (cell : C) (shells : ℕ) : List C :=
  (visitCells mesh shells (Fintype.card C + 1) 0 [(cell, fun _ => 0)]).map Prod.fst

/-- The body of the loop over the faces, `P/advection/SemiLagrangian.cpp:862-888` -/
def searchFace (mesh : Mesh C faces) (cell : C) (hood : List C) (i : Fin faces) : List C :=
  match mesh.getNeighbor cell i with
  | .nothing => hood
  | .artificial => hood
  | .active n => if n ∈ hood then hood else hood ++ [n]
  | .refined children => children.foldl (fun hood n => if n ∈ hood then hood else hood ++ [n]) hood

/-- The loop over the cells, `P/advection/SemiLagrangian.cpp:858-890`; `pointInside` is `point_inside(p)`, at most `fuel` passes -/
def searchCells (mesh : Mesh C faces) (pointInside : C → Bool) : ℕ → ℕ → List C → Option C
  | 0, _, _ => none
  | fuel + 1, c, hood => match hood[c]? with
    | none => none
    | some x => if pointInside x then some x
      else searchCells mesh pointInside fuel (c + 1) ((List.finRange faces).foldl (searchFace mesh x) hood)

/-- `SemiLagrangian::recursivelySearchInNeighborhood`, `P/advection/SemiLagrangian.cpp:851-891`; `none` is `end()`. -/
def search [Fintype C] (mesh : Mesh C faces) (pointInside : C → Bool) (cell : C) : Option C :=
  searchCells mesh pointInside (Fintype.card C + 1) 0 [cell]

end

end Cells
end NATriuM
