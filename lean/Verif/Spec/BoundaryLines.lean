import Verif.Model.BoundaryLines

/-!
# What is expected of lines at periodic boundaries
-/

namespace NATriuM

namespace BoundaryLines

/-- Two directions are considered the same if the cosine of their angle is above `0.99` (about eight degrees). -/
def SameDirection (v w : Pt) : Prop := InnerProductGeometry.angle v w < Real.arccos 0.99

/-- No point of the first line is one of the second, and the lines are not points. -/
def Distinct (b1 e1 b2 e2 : Pt) : Prop := b1 ≠ e1 ∧ b2 ≠ e2 ∧ b1 ≠ b2 ∧ e1 ≠ e2 ∧ b1 ≠ e2 ∧ b2 ≠ e1

/-- What a reported reason says: the first that holds in the order equal points, different lengths, not parallel -/
def Reason (b1 e1 b2 e2 : Pt) : LineError → Prop
  | .equalPoints => ¬ Distinct b1 e1 b2 e2
  | .differentLength => Distinct b1 e1 b2 e2 ∧ dist b1 e1 / 100 < |dist b1 e1 - dist b2 e2|
  | .notParallel => Distinct b1 e1 b2 e2 ∧ |dist b1 e1 - dist b2 e2| ≤ dist b1 e1 / 100 ∧ ¬ SameDirection (e1 - b1) (e2 - b2) ∧
      ¬ SameDirection (e1 - b1) (b2 - e2)

/-- The vertices of the boundary with an indicator -/
def verticesOf (id : ℕ) (cells : List Cell) : List Pt :=
  (cells.filter fun c => c.atBoundary).flatMap fun c => (c.faces.filter fun f => f.id == id).flatMap fun f => f.vertices

/-- Any two vertices have the same key or keys that the map can tell apart. -/
def Separated (vs : List Pt) : Prop := ∀ v ∈ vs, ∀ w ∈ vs, key v = key w ∨ 1e-6 < |key v - key w|

/-- The pairs that are to be added to the sparsity pattern: those of the degrees of freedom of a face of the boundary on a cell of this process,
each with itself or each with each. -/
def Coupled (id : ℕ) (coupling : PointCoupling) (cells : List DofCell) (i j : ℕ) : Prop :=
  ∃ c ∈ cells, c.owned = true ∧ ∃ f ∈ c.faces, f.atBoundary = true ∧ f.id = id ∧
    (∃ k : ℕ, c.dofs[k]? = some i ∧ f.support[k]? = some true) ∧ (∃ k : ℕ, c.dofs[k]? = some j ∧ f.support[k]? = some true) ∧
    (coupling = .COUPLE_ONLY_SINGLE_POINTS → i = j)

end BoundaryLines

end NATriuM
