import Verif.Spec.SlSolver

/-!
# Specification: how far information travels in the semi-Lagrangian scheme
-/

namespace NATriuM
namespace SlSolver

variable {t : StencilType} {K : Type*} [Field K] [LinearOrder K] {m n N : ℕ} {C : Type*}

/-- Degree of freedom `z` is `y` itself, or belongs to a cell in which the departure point of a path from `y` has been found. -/
def Reads (s : Setup t K m n N C) (y z : Fin N) : Prop :=
  z = y ∨ ∃ alpha path p x, 0 < alpha ∧ alpha < s.paths.Q ∧ s.mesh.NewPath s.paths y alpha path ∧ Paths.Follows s.mesh s.paths path (.found p) ∧
    Paths.unitDeparture s.mesh p = .ok x ∧ z.val ∈ s.mesh.dofs p.currentCell

/-- Degree of freedom `z` is reached from `y` in `r` such steps. -/
def ReadsIn (s : Setup t K m n N C) : ℕ → Fin N → Fin N → Prop
  | 0, y, z => z = y
  | r + 1, y, z => ∃ w, Reads s y w ∧ ReadsIn s r w z

/-- What a boundary condition does to a degree of freedom depends on the new populations of this degree of freedom only. -/
def LocalWalls (s : Setup t K m n N C) : Prop :=
  ∀ hit ∈ s.assembly.hits, ∀ time old old' new new' (y : Fin N), (∀ i, new i y = new' i y) →
    ∀ i, s.applyHit time hit old new i y = s.applyHit time hit old' new' i y

/-- The processor works on each degree of freedom for itself. -/
def PointLocal (q : ℕ → ℝ → (Fin N → Node ℝ t.D t.Q) → Fin N → Node ℝ t.D t.Q) : Prop := ∀ i time x y z, x z = y z → q i time x z = q i time y z

/-- The degrees of freedom have positions, and the support points of a cell have at most the distance `h` (in each coordinate) from all points that the
mapping takes to the unit cell, up to round-off. -/
structure Located (mesh : Paths.Mesh K m C) (pos : Fin N → Fin (m + 2) → K) (h : K) : Prop where
  position (cell : C) (k : ℕ) (y : Fin N) : (mesh.dofs cell)[k]? = some y.val → mesh.supportPoint cell k = pos y
  small (cell : C) (k : ℕ) (y : Fin N) (p u : Fin (m + 2) → K) : (mesh.dofs cell)[k]? = some y.val → (mesh.mapping cell).toUnit p = some u →
    (∀ a, -(1 / 10 ^ 10) ≤ u a ∧ u a ≤ 1 + 1 / 10 ^ 10) → ∀ a, |mesh.supportPoint cell k a - p a| ≤ h

end SlSolver
end NATriuM
