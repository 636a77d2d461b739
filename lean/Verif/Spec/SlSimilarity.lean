import Verif.Spec.PathTracking
import Verif.Spec.Similarity
import Verif.Spec.SlSolver

/-!
# Specification: the same semi-Lagrangian simulation in other units and with another origin
-/

namespace NATriuM
namespace Paths

section

variable {K : Type*} [Field K] {d m : ℕ} {C : Type*}

/-- The coordinates of a point, with lengths `L` times as large and the origin moved by `b` -/
def movePoint (L : K) (b x : Fin d → K) : Fin d → K := fun a => L * x a + b a

/-- The way back -/
def movePointBack (L : K) (b x : Fin d → K) : Fin d → K := fun a => (x a - b a) / L

/-- The mapping of a cell: the coordinates on the unit cell are the same. -/
def moveMapping (L : K) (b : Fin d → K) (c : CellMapping K d) : CellMapping K d where
  toUnit p := c.toUnit (movePointBack L b p)
  toReal h := movePoint L b (c.toReal h)

/-- The plane of a face; the normal vector is a product of `d - 1` lengths. -/
def movePlane (L : K) (b : Fin (m + 2) → K) (f : FacePlane K (m + 2)) : FacePlane K (m + 2) where
  point := movePoint L b f.point
  normal a := L ^ (m + 1) * f.normal a

def moveKind (L : K) (b : Fin d → K) : BoundaryKind K d C → BoundaryKind K d C
  | .periodic across opposite => .periodic (fun p => movePoint L b (across (movePointBack L b p))) opposite
  | .bounceBack => .bounceBack
  | .doNothing => .doNothing
  | .other => .other

def moveFace (L : K) (b : Fin d → K) : FaceKind K d C → FaceKind K d C
  | .boundary id kind => .boundary id (moveKind L b kind)
  | .interior neighbor available => .interior neighbor available
  | .refined => .refined

/-- The mesh in the new coordinates -/
def moveMesh (L : K) (b : Fin (m + 2) → K) (mesh : Mesh K m C) : Mesh K m C :=
  { mesh with
    mapping := fun c => moveMapping L b (mesh.mapping c)
    planes := fun c => (mesh.planes c).map (movePlane L b)
    face := fun c f => moveFace L b (mesh.face c f)
    supportPoint := fun c k => movePoint L b (mesh.supportPoint c k) }

/-- Directions and time step in units in which lengths are `L` times and velocities `V` times as large -/
def moveSetup (L V : K) (s : Setup K d) : Setup K d := { s with e := fun b a => V * s.e b a, dt := L / V * s.dt }

/-- A path in the new coordinates -/
def moveTracker (L : K) (b : Fin d → K) (p : Tracker K d C) : Tracker K d C :=
  { p with departurePoint := movePoint L b p.departurePoint, currentPoint := movePoint L b p.currentPoint }

/-- The way back -/
def moveTrackerBack (L : K) (b : Fin d → K) (p : Tracker K d C) : Tracker K d C :=
  { p with departurePoint := movePointBack L b p.departurePoint, currentPoint := movePointBack L b p.currentPoint }

/-- What is assembled, in the new coordinates: the same entries of the matrix, and the same hits at the same points -/
def moveAssembly (L : K) (b : Fin d → K) (as : Assembly K d C) : Assembly K d C :=
  { as with hits := as.hits.map fun h => (moveTracker L b h.1, h.2) }

/-- The square root of the program is one: it is homogeneous. -/
def Setup.RootHomogeneous [LinearOrder K] (s : Setup K d) : Prop := ∀ k x : K, 0 < k → s.sqrt (k * k * x) = k * s.sqrt x

end

end Paths

namespace SlSolver

section

variable {t : StencilType} {K : Type*} [Field K] {m n N : ℕ} {C : Type*}

/-- The matrix and the list of hits are what the program assembles for the mesh. -/
def Assembled [LinearOrder K] (s : Setup t K m n N C) : Prop := Paths.fillSparseObject s.mesh s.paths none = .ok s.assembly

/-- The same simulation in units in which lengths are `L` times and velocities `V` times as large, with the origin moved by `b`: times are `L / V` times,
viscosities `L V` times and forces `V² / L` times as large.  Boundary conditions and data processors do the same in the new units. -/
noncomputable def transform (L V : K) (b : Fin (m + 2) → K) (s : Setup t K m n N C) : Setup t K m n N C :=
  { s with
    c := s.toReal V * s.c
    mesh := Paths.moveMesh L b s.mesh
    paths := Paths.moveSetup L V s.paths
    assembly := Paths.moveAssembly L b s.assembly
    applyHit := fun time hit => s.applyHit (time / s.toReal (L / V)) (Paths.moveTrackerBack L b hit.1, hit.2)
    viscosity := s.toReal L * s.toReal V * s.viscosity
    dt := s.toReal (L / V) * s.dt
    collision := { s.collision with force := s.collision.force.map fun F a => s.toReal V * s.toReal V / s.toReal L * F a }
    processors := s.processors.map fun q i time x y =>
      (StencilType.Symmetry.identity t).node (s.toReal V)
        (q i (time / s.toReal (L / V)) (fun y => (StencilType.Symmetry.identity t).nodeBack (s.toReal V) (x y)) y) }

end

section

variable {t : StencilType} {N : ℕ}

/-- A snapshot in units in which lengths are `L` times and velocities `V` times as large: populations and densities are the same. -/
noncomputable def transformSnapshot (L V : ℝ) (x : Solver.Snapshot (Fin N → Node ℝ t.D t.Q)) : Solver.Snapshot (Fin N → Node ℝ t.D t.Q) where
  x y := { x.x y with u := fun a => V * (x.x y).u a }
  time := L / V * x.time
  dt := L / V * x.dt

/-- What is written, in the new units -/
noncomputable def transformEvent (L V : ℝ) : Solver.Event (Fin N → Node ℝ t.D t.Q) → Solver.Event (Fin N → Node ℝ t.D t.Q)
  | .grid i => .grid i
  | .solution i x => .solution i (transformSnapshot L V x)
  | .tableLine i x => .tableLine i (transformSnapshot L V x)
  | .checkpoint i x => .checkpoint i (transformSnapshot L V x)
  | .errorLine i x => .errorLine i (transformSnapshot L V x)

end

end SlSolver
end NATriuM
