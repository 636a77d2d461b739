import Mathlib.Algebra.Field.Defs
import Mathlib.Algebra.Group.Pi.Basic
import Mathlib.Data.Fin.VecNotation

/-!
# Model of periodic boundaries

`P` is short for `src/library/natrium`.
Cells are named by natural numbers.  A cell of the coarse mesh is the tree of its descendants; coordinates are in a field `K` instead of doubles.
-/

namespace NATriuM
namespace Periodic

/-- An active cell: its name, `is_artificial()`, and the vertices of its faces (`cell->face(f)->vertex(v)`).  For artificial cells the degrees
of freedom are invalid, so that `P/utilities/DealiiExtensions.cpp:496-517` and `:522-523` have the same effect. -/
structure Leaf (K : Type*) (d : ℕ) where
  id : ℕ
  artificial : Bool
  vertex : ℕ → ℕ → Fin d → K

/-- A cell with all its descendants: `has_children()`, `child(i)`. -/
inductive Cell (K : Type*) (d : ℕ)
  | active (leaf : Leaf K d)
  | refined (child : ℕ → Cell K d)

/-- `PeriodicFacePair::orientation`: `[0]`, `[1]`, `[2]`, `P/utilities/DealiiExtensions.cpp:537-539` -/
structure Orientation where
  orientation : Bool
  flip : Bool
  rotation : Bool
  deriving DecidableEq

/-- A value of the map, `P/utilities/DealiiExtensions.cpp:531-539`.  Its member `matrix` is never assigned. -/
structure FacePair (K : Type*) (d : ℕ) where
  cell0 : Leaf K d
  cell1 : Leaf K d
  face0 : ℕ
  face1 : ℕ
  orientation : Orientation

/-- `PeriodicCellMap`: keys are the names of cells. -/
abbrev CellMap (K : Type*) (d : ℕ) := List (ℕ × FacePair K d)

/-- `std::map::insert`, which does nothing if the key exists -/
def CellMap.insert {K : Type*} {d : ℕ} (m : CellMap K d) (k : ℕ) (v : FacePair K d) : CellMap K d :=
  match m.lookup k with
  | some _ => m
  | none => m ++ [(k, v)]

/-- `GeometryInfo<dim>::max_children_per_face`; `dim` is 2 or 3. -/
def childrenPerFace (d : ℕ) : ℕ := if d = 2 then 2 else 4

/-- `lookup_table_2d`, `P/utilities/DealiiExtensions.cpp:414-418` -/
def lookupTable2 : Bool → ℕ → ℕ
  | false, i => [0, 1].getD i 0
  | true, i => [1, 0].getD i 0

/-- `lookup_table_3d`, `P/utilities/DealiiExtensions.cpp:420-430` -/
def lookupTable3 : Orientation → ℕ → ℕ
  | ⟨false, false, false⟩, i => [0, 2, 1, 3].getD i 0
  | ⟨false, false, true⟩, i => [2, 3, 0, 1].getD i 0
  | ⟨false, true, false⟩, i => [3, 1, 2, 0].getD i 0
  | ⟨false, true, true⟩, i => [1, 0, 3, 2].getD i 0
  | ⟨true, false, false⟩, i => [0, 1, 2, 3].getD i 0
  | ⟨true, false, true⟩, i => [1, 3, 0, 2].getD i 0
  | ⟨true, true, false⟩, i => [3, 2, 1, 0].getD i 0
  | ⟨true, true, true⟩, i => [2, 0, 3, 1].getD i 0

/-- The subface of the second face for subface `i` of the first, `P/utilities/DealiiExtensions.cpp:442-455` -/
def otherSubface (d : ℕ) (o : Orientation) (i : ℕ) : ℕ := if d = 2 then lookupTable2 o.flip i else lookupTable3 o i

section Map

variable {K : Type*} {d : ℕ} (childOnFace : Orientation → ℕ → ℕ → ℕ)

/-- `make_periodicity_map_dg` for a pair of cells, `P/utilities/DealiiExtensions.cpp:384-556`.  `childOnFace` is deal.II's
`GeometryInfo::child_cell_on_face` for isotropic refinement.  In `:480-485` an exception is constructed but not thrown, so that pairs of
different refinement level are left out (`:520-521`). -/
def makeMapPair (f1 f2 : ℕ) (o : Orientation) : Cell K d → Cell K d → CellMap K d → CellMap K d
  | .refined ch1, c2, m =>
    match c2 with
    | .refined ch2 => (List.range (childrenPerFace d)).foldl
        (fun m i => makeMapPair f1 f2 o (ch1 (childOnFace o f1 i)) (ch2 (childOnFace o f2 (otherSubface d o i))) m) m
    | .active _ => m
  | .active a, c2, m =>
    match c2 with
    | .refined _ => m
    | .active b => if a.artificial || b.artificial then m else (m.insert a.id ⟨a, b, f1, f2, o⟩).insert b.id ⟨a, b, f1, f2, o⟩

/-- A pair of faces of the coarse mesh, as found by `collect_periodic_faces` -/
structure CoarsePair (K : Type*) (d : ℕ) where
  cell0 : Cell K d
  cell1 : Cell K d
  face0 : ℕ
  face1 : ℕ
  orientation : Orientation

/-- `make_periodicity_map_dg` for a list of pairs, `P/utilities/DealiiExtensions.cpp:558-591`; called by `createCellMap`,
`P/boundaries/PeriodicBoundary.cpp:114-123` -/
def makeMap (pairs : List (CoarsePair K d)) : CellMap K d :=
  pairs.foldl (fun m p => makeMapPair childOnFace p.face0 p.face1 p.orientation p.cell0 p.cell1 m) []

end Map

/-! ## The boundary object -/

/-- `PeriodicBoundaryNotPossible` -/
inductive Exc
  | notPossible
  deriving DecidableEq

/-- The first two checks of the constructor, `P/boundaries/PeriodicBoundary.cpp:33-47` -/
def constructorChecks (id1 id2 nLevels : ℕ) : Except Exc Unit :=
  if id1 = id2 then .error .notPossible else if nLevels > 1 then .error .notPossible else .ok ()

/-- `isFaceInBoundary`, `P/boundaries/PeriodicBoundary.cpp:90-109` -/
def isFaceInBoundary (id1 id2 : ℕ) (faceId : ℕ) : Bool := if faceId = id1 then true else if faceId = id2 then true else false

section Use

variable {K : Type*} {d : ℕ}

/-- `getOppositeCellAtPeriodicBoundary`, `P/boundaries/PeriodicBoundary.cpp:150-177`: the other cell and its face -/
def opposite (m : CellMap K d) (cell : ℕ) : Except Exc (Leaf K d × ℕ) :=
  if m = [] then .error .notPossible
  else match m.lookup cell with
    | none => .error .notPossible
    | some p => if p.cell0.id = cell then .ok (p.cell1, p.face1) else .ok (p.cell0, p.face0)

/-- Replacement of values by a face flip, `P/boundaries/PeriodicBoundary.cpp:217-226` -/
def flipTable : ℕ → ℕ := fun h => [3, 2, 1, 0].getD h h

/-- Replacement of values by a face rotation, `P/boundaries/PeriodicBoundary.cpp:234-243` -/
def rotationTable : ℕ → ℕ := fun h => [1, 3, 0, 2].getD h h

/-- `face1_to_face0_vertex[i]`, `P/boundaries/PeriodicBoundary.cpp:197-255` -/
def vertexMap (d : ℕ) (o : Orientation) (i : ℕ) : ℕ :=
  if d = 3 then
    let v := if o.orientation then [0, 2, 1, 3].getD i i else [0, 1, 2, 3].getD i i
    let v := if o.flip then flipTable v else v
    if o.rotation then rotationTable v else v
  else if o.flip then [1, 0].getD i i else [0, 1].getD i i

variable [Field K]

/-- `offset`, `P/boundaries/PeriodicBoundary.cpp:267-274`.  The matrix is the identity, `:258-266`, as `FacePair` says. -/
def offset (p : FacePair K d) : Fin d → K := p.cell0.vertex p.face0 (vertexMap d p.orientation 0) - p.cell1.vertex p.face1 0

/-- `coordinatesAcrossPeriodicBoundary`, `P/boundaries/PeriodicBoundary.cpp:183-311`, with the identity matrix (see `offset`); `none` is the
exception of `std::map::at`. -/
def coordinatesAcross (m : CellMap K d) (x : Fin d → K) (cell : ℕ) : Option (Fin d → K) :=
  match m.lookup cell with
  | none => none
  | some p => if p.cell0.id = cell then some (x - offset p) else some (x + offset p)

end Use

end Periodic
end NATriuM
