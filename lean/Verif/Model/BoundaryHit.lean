import Mathlib.Algebra.Order.Field.Basic
import Mathlib.Algebra.BigOperators.Fin

/-!
# Model of the lists of boundary hits

`P` is short for `src/library/natrium`.  Coordinates are in an ordered field `K` instead of doubles.

`HitListAtCell` is a `std::map` whose comparison is not an order, so that the C++ standard leaves its behaviour open.  The model is that of
libstdc++, which keeps a binary search tree and only evaluates the comparison on the way down.  The shape of the tree depends on rebalancing;
here it is an arbitrary function of the entries.
-/

namespace NATriuM
namespace Hits

/-- What the lists need of a `BoundaryHit`, `P/boundaries/BoundaryHit.h:18-28`: the cell, the point, and the rest -/
structure Hit (K : Type*) (d : ℕ) (α : Type*) where
  cell : ℕ
  point : Fin d → K
  /-- `destination`, `dtHit`, `boundaryID` -/
  data : α

/-- A `std::vector` of hits, stored with a point, `P/boundaries/BoundaryHit.h:84-95` and `:109-110` -/
structure Entry (K : Type*) (d : ℕ) (α : Type*) where
  point : Fin d → K
  hits : List (Hit K d α)

/-- A binary search tree -/
inductive Tree (β : Type*)
  | leaf
  | node (left : Tree β) (value : β) (right : Tree β)

/-- The elements from left to right: the order of iteration -/
def Tree.toList {β : Type*} : Tree β → List β
  | .leaf => []
  | .node l x r => l.toList ++ x :: r.toList

/-- The way down a tree: the number of elements on the left of the leaf where it ends -/
def Tree.descend {β : Type*} (goRight : β → Bool) : Tree β → ℕ
  | .leaf => 0
  | .node l x r => if goRight x then l.toList.length + 1 + r.descend goRight else l.descend goRight

section

variable {K : Type*} [Field K] [LinearOrder K] {d : ℕ} {α : Type*}

/-- `PointComp`, `P/boundaries/BoundaryHit.h:97-103`; the comparison is between the squares. -/
def pointComp (l r : Fin d → K) : Bool := (∑ a, (l a - r a) ^ 2) < (1 / 10 ^ 10) ^ 2

/-- `std::map::find` of libstdc++: `lower_bound`, then one comparison -/
def find (t : Tree (Entry K d α)) (k : Fin d → K) : Option ℕ :=
  let i := t.descend fun e => pointComp e.point k
  match t.toList[i]? with
  | none => none
  | some e => if pointComp k e.point then none else some i

/-- `std::map::insert` of libstdc++ (`_M_get_insert_unique_pos`): the new elements, and the position of the inserted or the existing one -/
def insert (t : Tree (Entry K d α)) (e : Entry K d α) : List (Entry K d α) × ℕ :=
  let l := t.toList
  let g := t.descend fun x => ! pointComp e.point x.point
  match g with
  | 0 => (l.insertIdx 0 e, 0)
  | j + 1 => match l[j]? with
    | none => (l, j)
    | some x => if pointComp x.point e.point then (l.insertIdx (j + 1) e, j + 1) else (l, j)

/-- `HitListAtPoint::addHit` at an iterator, `P/boundaries/BoundaryHit.h:89-91` and `:136` -/
def push (l : List (Entry K d α)) (i : ℕ) (h : Hit K d α) : List (Entry K d α) := l.modify i fun e => ⟨e.point, e.hits ++ [h]⟩

/-- `HitListAtCell::addHit`, `P/boundaries/BoundaryHit.h:128-137`, for a tree of shape `shape` -/
def addToCell (shape : List (Entry K d α) → Tree (Entry K d α)) (l : List (Entry K d α)) (h : Hit K d α) : List (Entry K d α) :=
  match find (shape l) h.point with
  | some i => push l i h
  | none =>
    let r := insert (shape l) ⟨h.point, []⟩
    push r.1 r.2 h

/-- `HitListAtPoint::n_hits` and `HitListAtCell::n_hits`, `P/boundaries/BoundaryHit.h:92-94` and `:139-147` -/
def nHitsAtCell (l : List (Entry K d α)) : ℕ := l.foldl (fun n e => n + e.hits.length) 0

/-- `HitList`, a map from cells to `HitListAtCell`, `P/boundaries/BoundaryHit.h:165-168`.  Iterators of cells are ordered properly, so that an
association list will do; the order of iteration is that of insertion here. -/
abbrev HitList (K : Type*) (d : ℕ) (α : Type*) := List (ℕ × List (Entry K d α))

/-- `HitList::addHit`, `P/boundaries/BoundaryHit.h:176-186` -/
def HitList.addHit (shape : List (Entry K d α) → Tree (Entry K d α)) : HitList K d α → Hit K d α → HitList K d α
  | [], h => [(h.cell, addToCell shape [] h)]
  | (c, l) :: rest, h => if c = h.cell then (c, addToCell shape l h) :: rest else (c, l) :: HitList.addHit shape rest h

/-- `HitList::n_hits`, `P/boundaries/BoundaryHit.h:187-195` -/
def HitList.nHits (m : HitList K d α) : ℕ := m.foldl (fun n c => n + nHitsAtCell c.2) 0

/-- `HitList::n_cells`, `P/boundaries/BoundaryHit.h:197-199` -/
def HitList.nCells (m : HitList K d α) : ℕ := m.length

/-- The calls of `calculateBoundaryValues` in `operate`, `P/boundaries/SemiLagrangianBoundaryHandler.cpp:47-107`: the cell and the point for
which `FEBoundaryValues` was set up, and the hit -/
def HitList.calls (m : HitList K d α) : List (ℕ × (Fin d → K) × Hit K d α) :=
  m.flatMap fun c => c.2.flatMap fun e => e.hits.map fun h => (c.1, e.point, h)

end

end Hits
end NATriuM
