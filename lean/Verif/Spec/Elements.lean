import Verif.Model.Elements
import Mathlib.Order.ConditionallyCompleteLattice.Basic
import Mathlib.Algebra.BigOperators.Fin

/-!
# Specification: finite elements and distances of degrees of freedom
-/

namespace NATriuM
namespace Elements

/-- What is used about the Gauss-Lobatto points of deal.II: `n` points on the unit interval from the left to the right, with both ends -/
structure Dealii.Sound (D : Dealii) : Prop where
  length : ∀ n, 2 ≤ n → (D.gaussLobatto n).length = n
  increasing : ∀ n, 2 ≤ n → (D.gaussLobatto n).Pairwise (· < ·)
  first : ∀ n, 2 ≤ n → (D.gaussLobatto n).head? = some 0
  last : ∀ n, 2 ≤ n → (D.gaussLobatto n).getLast? = some 1

/-- The support points are on both ends of the unit interval: without them, neighbouring cells have no common support points and the function
is not continuous. -/
def AtBothEnds (points : List ℝ) : Prop := 0 ∈ points ∧ 1 ∈ points

/-- A nodal basis of a tensor product: each function is one in its own support point and zero in the others. -/
def Nodal {d n : ℕ} (points : Fin n → ℝ) (shape : (Fin d → Fin n) → (Fin d → ℝ) → ℝ) : Prop :=
  ∀ i q : Fin d → Fin n, shape i (fun a => points (q a)) = if q = i then 1 else 0

/-- A parallelogram or parallelepiped -/
structure Cell (d : ℕ) where
  origin : Fin d → ℝ
  edge : Fin d → Fin d → ℝ

variable {d : ℕ}

/-- Euclidean distance -/
noncomputable def distance (x y : Fin d → ℝ) : ℝ := √(∑ b, (x b - y b) ^ 2)

/-- The point of the cell for a point of the unit cell -/
def Cell.map (c : Cell d) (x : Fin d → ℝ) : Fin d → ℝ := fun b => c.origin b + ∑ a, x a * c.edge a b

/-- The edges are parallel to the axes. -/
def Cell.IsBox (c : Cell d) : Prop := (∀ a, 0 < c.edge a a) ∧ ∀ a b, a ≠ b → c.edge a b = 0

/-- The distances of different vertices -/
def Cell.vertexDistances (c : Cell d) : Set ℝ :=
  {r | ∃ v w : Fin d → Bool, v ≠ w ∧ r = distance (c.map fun a => if v a then 1 else 0) (c.map fun a => if w a then 1 else 0)}

/-- The distances of different degrees of freedom -/
def Cell.dofDistances (c : Cell d) {n : ℕ} (points : Fin n → ℝ) : Set ℝ :=
  {r | ∃ k l : Fin d → Fin n, k ≠ l ∧ r = distance (c.map fun a => points (k a)) (c.map fun a => points (l a))}

/-- A cell as the solver sees it: `minimum_vertex_distance` of deal.II is the least distance of two vertices. -/
noncomputable def Cell.seen (c : Bool × Cell d) : MeshCell := ⟨c.1, sInf c.2.vertexDistances⟩

/-- The Gauss-Lobatto points for an order of the finite element -/
noncomputable def Dealii.points (D : Dealii) (order : ℕ) (i : Fin (order + 1)) : ℝ := (D.gaussLobatto (order + 1)).getD i 0

end Elements
end NATriuM
