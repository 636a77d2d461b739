import Verif.Model.Periodic

/-!
# Specification for periodic boundaries
-/

namespace NATriuM
namespace Periodic

variable {K : Type*} {d : ℕ} (childOnFace : Orientation → ℕ → ℕ → ℕ)

/-- Active cells `a`, `b` are opposite to each other: they descend from opposite cells by always taking corresponding children at the faces. -/
inductive Opposite (f1 f2 : ℕ) (o : Orientation) : Cell K d → Cell K d → Leaf K d → Leaf K d → Prop
  | active (a b : Leaf K d) : Opposite f1 f2 o (.active a) (.active b) a b
  | child (ch1 ch2 : ℕ → Cell K d) (i : ℕ) (a b : Leaf K d) (hi : i < childrenPerFace d)
      (h : Opposite f1 f2 o (ch1 (childOnFace o f1 i)) (ch2 (childOnFace o f2 (otherSubface d o i))) a b) :
      Opposite f1 f2 o (.refined ch1) (.refined ch2) a b

/-- A pair of opposite active cells that exist on this process, for some pair of coarse cells. -/
def OppositeIn (pairs : List (CoarsePair K d)) (q : FacePair K d) : Prop :=
  ∃ p ∈ pairs, Opposite childOnFace p.face0 p.face1 p.orientation p.cell0 p.cell1 q.cell0 q.cell1 ∧
    q.face0 = p.face0 ∧ q.face1 = p.face1 ∧ q.orientation = p.orientation ∧ q.cell0.artificial = false ∧ q.cell1.artificial = false

/-- Every cell touches the boundary with at most one face: the two cells of a pair differ, and no cell is in two pairs. -/
def OneFacePerCell (pairs : List (CoarsePair K d)) : Prop :=
  (∀ q, OppositeIn childOnFace pairs q → q.cell0.id ≠ q.cell1.id) ∧
  (∀ q r, OppositeIn childOnFace pairs q → OppositeIn childOnFace pairs r →
    (q.cell0.id = r.cell0.id ∨ q.cell0.id = r.cell1.id ∨ q.cell1.id = r.cell0.id ∨ q.cell1.id = r.cell1.id) → q = r)

/-- The second face of a pair is the first one shifted by `v`. -/
def ShiftedBy [Field K] (q : FacePair K d) (v : Fin d → K) : Prop :=
  ∀ i < childrenPerFace d, q.cell1.vertex q.face1 i = q.cell0.vertex q.face0 (vertexMap d q.orientation i) + v

end Periodic
end NATriuM
