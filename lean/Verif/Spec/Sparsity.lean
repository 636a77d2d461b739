import Verif.Model.Sparsity

/-!
# Specification for sparsity patterns, boundary indicators and degrees of freedom at boundaries
-/

namespace NATriuM

namespace Sparsity

section

variable {K : Type*} [Field K] [LinearOrder K] {n nq : ℕ}

/-- Shape functions are one in one node and zero in the others, the points of face `f` are the nodes `faceDof f`, and the shape functions with support on the
face are those. -/
structure Nodal (m : Mesh K n nq) (faceDof : ℕ → Fin nq → Fin n) : Prop where
  value : ∀ f i q, m.value f i q = if faceDof f q = i then 1 else 0
  injective : ∀ f, Function.Injective (faceDof f)
  support : ∀ f i, m.support f i = true ↔ ∃ q, faceDof f q = i

/-- The cells of this process -/
def Owned (m : Mesh K n nq) (rank c : ℕ) : Prop := c ∈ m.cells ∧ m.subdomain c = rank

/-- Behind each face of a cell of this process is the boundary or an active cell of the same size. -/
def Conformal (m : Mesh K n nq) (rank : ℕ) : Prop :=
  ∀ c, Owned m rank c → ∀ f < m.nFaces, (∃ id, m.side c f = .boundary id) ∨ ∃ c' f', m.side c f = .inner c' f'

/-- For a boundary face with indicator `id`: the face with the **number** `id` of the same cell exists and belongs to the same periodic boundaries. -/
def IdsFit (m : Mesh K n nq) (periodic : List PeriodicBoundary) (rank : ℕ) : Prop :=
  ∀ c, Owned m rank c → ∀ f < m.nFaces, ∀ id, m.side c f = .boundary id → ∀ p ∈ periodic,
    id < m.nFaces ∧ ((m.side c id = .boundary p.id1 ∨ m.side c id = .boundary p.id2) ↔ (id = p.id1 ∨ id = p.id2))

/-- The indicator of each boundary face is its number. -/
def Colorized (m : Mesh K n nq) : Prop := ∀ c f id, m.side c f = .boundary id → id = f

/-- The cells at periodic boundaries have a partner. -/
def Mapped (m : Mesh K n nq) (periodic : List PeriodicBoundary) (rank : ℕ) : Prop :=
  ∀ c, Owned m rank c → ∀ f < m.nFaces, ∀ id, m.side c f = .boundary id → ∀ p ∈ periodic, id = p.id1 ∨ id = p.id2 → (p.opposite c).isSome

/-- The nodes of two faces, point by point, come in the same order. -/
def SameOrder {nq n : ℕ} (faceDof : ℕ → Fin nq → Fin n) (f f' : ℕ) : Prop :=
  ∀ q q', faceDof f q < faceDof f q' ↔ faceDof f' q < faceDof f' q'

/-- The nodes of any two faces that meet come in the same order. -/
def Ordered (m : Mesh K n nq) (periodic : List PeriodicBoundary) (rank : ℕ) (faceDof : ℕ → Fin nq → Fin n) : Prop :=
  ∀ c, Owned m rank c → ∀ f < m.nFaces, ∀ c' f', assemblyNeighbor m periodic c f = some (c', f') → SameOrder faceDof f f'

/-- The positions a discontinuous Galerkin method with these nodes needs: two degrees of freedom of the same cell, or the two nodes in the same point of the
face between two cells. -/
def Needed (m : Mesh K n nq) (periodic : List PeriodicBoundary) (rank : ℕ) (faceDof : ℕ → Fin nq → Fin n) (a b : ℕ) : Prop :=
  ∃ c, Owned m rank c ∧ ((∃ i j, a = m.dof c i ∧ b = m.dof c j) ∨
    ∃ f < m.nFaces, ∃ c' f', assemblyNeighbor m periodic c f = some (c', f') ∧ ∃ q, a = m.dof c (faceDof f q) ∧ b = m.dof c' (faceDof f' q))

/-- Two degrees of freedom of a cell of another process next to one of this process -/
def Foreign (m : Mesh K n nq) (periodic : List PeriodicBoundary) (rank : ℕ) (a b : ℕ) : Prop :=
  ∃ c, Owned m rank c ∧ ∃ f < m.nFaces, ∃ c' f', assemblyNeighbor m periodic c f = some (c', f') ∧ m.subdomain c' ≠ rank ∧
    ∃ i j, a = m.dof c' i ∧ b = m.dof c' j

/-- The mesh of the assembly and that of the sparsity pattern are the same. -/
structure SameMesh {d nQ nf : ℕ} (s : Sedg.Mesh K d n nQ nf nq ℕ) (m : Mesh K n nq) (periodic : List PeriodicBoundary)
    (faceDof : ℕ → Fin nq → Fin n) : Prop where
  faces : m.nFaces = nf
  nodes : ∀ f : Fin nf, s.faceDof f = faceDof f
  neighbors : ∀ c (f : Fin nf), (s.neighbor c f).map (fun x => (x.1, (x.2 : ℕ))) = assemblyNeighbor m periodic c f

end

/-- The pattern for the block of rows for direction `I + 1` and columns for direction `J + 1` -/
def role (opp : ℕ → ℕ) (I J : ℕ) : Pattern := if I = J then .diag else if I + 1 = opp (J + 1) then .opposite else .notOpposite

/-- The degrees of freedom of boundary faces: a cell of this process, a face at the boundary whose indicator is given (or any, if none is), a shape function
of a selected component that does not vanish on the face -/
def AtBoundary (mask : Option (ℕ → Bool)) (ids : List ℕ) (cells : List BCell) (d : ℕ) : Prop :=
  ∃ c ∈ cells, c.owned = true ∧ ∃ f id, c.faces[f]? = some (some id) ∧ (ids = [] ∨ id ∈ ids) ∧
    ∃ i, c.dofs[i]? = some d ∧ c.support i f = true ∧ ∀ k, mask = some k → k (c.component i) = true

/-- A degree of freedom has one component, whichever cell it is seen from. -/
def Consistent (cells : List BCell) : Prop :=
  ∀ c ∈ cells, ∀ c' ∈ cells, ∀ i i' d, c.dofs[i]? = some d → c'.dofs[i']? = some d → c.component i = c'.component i'

/-- All vertices of the face are closer to the plane than the tolerance. -/
def OnPlane {K : Type*} [Field K] [LinearOrder K] {D : ℕ} (call : PlaneCall K D) (f : PlaneFace K D) : Prop :=
  ∀ x ∈ f.vertices, |x call.component - call.value| < call.tol

/-- The entries of a pattern: `l` are those of the cells and inner faces, `s` those of boundaries -/
def Pattern.entries (l : List (ℕ × ℕ)) (s : List (ℕ × ℕ) × List (ℕ × ℕ)) : Pattern → List (ℕ × ℕ)
  | .diag => l
  | .opposite => s.1
  | .notOpposite => s.2

end Sparsity

end NATriuM
