import Verif.Model.FlowMeshes
import Verif.Spec.Problem

/-!
# Specification of the meshes and boundaries of the flow problems
-/

namespace NATriuM
namespace FlowMeshes

variable {d : ℕ}

/-- The faces with the ids `i1` and `i2` lie on opposite sides of the box, the lower and the upper end of a direction, and each has
exactly one partner with the same position in the other directions. -/
structure Opposite (m : BoxMesh d) (i1 i2 : ℕ) (direction : Fin d) : Prop where
  lower : ∀ f, m.AtBoundary f → (m.id f = i1 ↔ f.axis = direction ∧ f.upper = false)
  upper : ∀ f, m.AtBoundary f → (m.id f = i2 ↔ f.axis = direction ∧ f.upper = true)
  partner : ∀ f, m.AtBoundary f → m.id f = i1 → ∃! g, m.AtBoundary g ∧ m.id g = i2 ∧ ∀ a ≠ direction, g.cell a = f.cell a
  back : ∀ g, m.AtBoundary g → m.id g = i2 → ∃! f, m.AtBoundary f ∧ m.id f = i1 ∧ ∀ a ≠ direction, f.cell a = g.cell a

/-- Mesh and boundaries fit together. -/
structure Fits (m : BoxMesh d) (rs : List Reg) : Prop where
  /-- There is a face at the boundary with an id exactly if there is a boundary condition for it. -/
  ids : ∀ i, (∃ f, m.AtBoundary f ∧ m.id f = i) ↔ ∃ b, Problem.getBoundary i (Problem.history (registrations rs)) = .ok b
  /-- No id is registered twice. -/
  fresh : Problem.AllFresh (registrations rs)
  /-- Periodic boundaries connect opposite sides. -/
  periodic : ∀ i1 i2 direction, Reg.periodic i1 i2 direction ∈ rs → ∃ h : direction < d, Opposite m i1 i2 ⟨direction, h⟩

/-- The arguments for which a mesh and boundary conditions exist -/
def Flow2.Valid : Flow2 → Prop
  | .poiseuille isPeriodic => isPeriodic = true
  | .sinusoidalShear r => 0 < r ∧ r ≤ 1
  | .lubricationSine L h r => h ≠ 0 ∧ r ≠ 0 ∧ 1 ≤ L / h / r
  | .sodShockTube n => 0 < n
  | _ => True

/-- The arguments for which a mesh and boundary conditions exist -/
def Flow3.Valid : Flow3 → Prop
  | .poiseuille isPeriodic => isPeriodic = true
  | .taylorGreen n => 0 < n
  | .couette L => 0 < L
  | .turbulentChannel reps isPeriodic => (∀ a, 0 < reps a) ∧ isPeriodic = true
  | _ => True

/-- All vertices have a coordinate. -/
def OnPlane (component : Fin d) (value : ℝ) (f : Face d) : Prop := ∀ v ∈ f.vertices, v component = value

/-- The face has an extent of more than `1e-9` in a direction. -/
def Extended (component : Fin d) (f : Face d) : Prop :=
  ∃ v ∈ f.vertices, ∃ w ∈ f.vertices, v component + 1e-9 < w component

/-- The parts of the boundary of the domain around the cylinder -/
inductive CylinderPart
  | left | right | bottom | top | obstacle

/-- A face lies on a part: on one of the sides of the rectangle from (-6, -15) to (30, 15), or with vertices on the circle of radius one. -/
def CylinderPart.Contains (f : Face 2) : CylinderPart → Prop
  | .left => OnPlane 0 (-6) f ∧ Extended 1 f
  | .right => OnPlane 0 30 f ∧ Extended 1 f
  | .bottom => OnPlane 1 (-15) f ∧ Extended 0 f
  | .top => OnPlane 1 15 f ∧ Extended 0 f
  | .obstacle => f.vertices ≠ [] ∧ ∀ v ∈ f.vertices, v 0 ^ 2 + v 1 ^ 2 = 1

/-- The id of the parts -/
def CylinderPart.id : CylinderPart → ℕ
  | .left => 1 | .right => 2 | .bottom => 3 | .top => 4 | .obstacle => 0

/-- The parts of the boundary of the domain around the sphere -/
inductive SpherePart
  | inlet | outlet | back | front | bottom | top | obstacle

/-- A face lies on a part: on one of the sides of the box from (-2, -5, -5) to (8, 5, 5), or with vertices on the sphere of radius 1/2. -/
def SpherePart.Contains (f : Face 3) : SpherePart → Prop
  | .inlet => OnPlane 0 (-2) f ∧ Extended 1 f ∧ Extended 2 f
  | .outlet => OnPlane 0 8 f ∧ Extended 1 f ∧ Extended 2 f
  | .back => OnPlane 1 (-5) f ∧ Extended 0 f ∧ Extended 2 f
  | .front => OnPlane 1 5 f ∧ Extended 0 f ∧ Extended 2 f
  | .bottom => OnPlane 2 (-5) f ∧ Extended 0 f ∧ Extended 1 f
  | .top => OnPlane 2 5 f ∧ Extended 0 f ∧ Extended 1 f
  | .obstacle => f.vertices ≠ [] ∧ ∀ v ∈ f.vertices, v 0 ^ 2 + v 1 ^ 2 + v 2 ^ 2 = 1 / 4

/-- The id of the parts -/
def SpherePart.id : SpherePart → ℕ
  | .inlet => 2 | .outlet => 3 | .back => 4 | .front => 5 | .bottom => 6 | .top => 7 | .obstacle => 1

end FlowMeshes
end NATriuM
