import Verif.Model.Problem
import Mathlib.Algebra.Order.Floor.Defs
import Mathlib.Data.Rat.Floor
import Mathlib.Data.Fintype.Pi
import Mathlib.Data.Finset.Sort
import Mathlib.Analysis.Real.Sqrt

/-!
# Model of the meshes and boundaries of the flow problems

The coarse meshes that the flow problems make, the boundary ids on them, and the boundaries they register.
`B` is short for `src/library/natrium/benchmarks`, `P` for `src/library/natrium`, `E` for `src/examples`.
Refinement, which hands the boundary id of a face to its children, and transformations of the points are not modelled.
-/

namespace NATriuM
namespace FlowMeshes

/-! ## Boxes -/

/-- A face of a cell of a box: the cell has position `cell`; the face is orthogonal to `axis`, at the upper or lower end of the cell.  Its number
within the cell is `2 * axis` or `2 * axis + 1` (deal.II). -/
structure BoxFace (d : ℕ) where
  cell : Fin d → ℕ
  axis : Fin d
  upper : Bool

/-- A box of `reps 0 × reps 1 × …` cells, and the boundary ids of the faces on each of its sides -/
structure BoxMesh (d : ℕ) where
  reps : Fin d → ℕ
  colour : Fin d → Bool → ℕ

/-- Exceptions and undefined behaviour -/
inductive MeshExc
  /-- deal.II's `ExcInvalidRepetitions` -/
  | repetitions
  /-- Conversion of a negative or infinite double to an unsigned integer -/
  | conversion
  /-- `natrium_errorexit` -/
  | notImplemented
  deriving DecidableEq

variable {d : ℕ}

/-- deal.II's `subdivided_hyper_rectangle` with `colorize = true` -/
def subdivided (reps : Fin d → ℕ) : Except MeshExc (BoxMesh d) :=
  if ∀ a, 0 < reps a then .ok ⟨reps, fun a u => 2 * a + u.toNat⟩ else .error .repetitions

/-- deal.II's `hyper_cube` or `hyper_rectangle` without `colorize` (all ids are zero), followed by calls of
`cell->face(f)->set_all_boundary_ids(i)` for the only cell, given as pairs `(f, i)` -/
def singleCell (ids : List (ℕ × ℕ)) : BoxMesh d :=
  ⟨fun _ => 1, fun a u => ids.foldl (fun old s => if s.1 = 2 * a + u.toNat then s.2 else old) 0⟩

/-- `at_boundary()` -/
def BoxMesh.AtBoundary (m : BoxMesh d) (f : BoxFace d) : Prop :=
  (∀ a, f.cell a < m.reps a) ∧ if f.upper then f.cell f.axis + 1 = m.reps f.axis else f.cell f.axis = 0

instance (m : BoxMesh d) (f : BoxFace d) : Decidable (m.AtBoundary f) := by unfold BoxMesh.AtBoundary; infer_instance

/-- `boundary_id()` of a face at the boundary -/
def BoxMesh.id (m : BoxMesh d) (f : BoxFace d) : ℕ := m.colour f.axis f.upper

/-- deal.II's `get_boundary_ids()`: the ids of the faces at the boundary, sorted -/
def BoxMesh.boundaryIds (m : BoxMesh d) : List ℕ :=
  ((((Fintype.piFinset fun a => Finset.range (m.reps a)) ×ˢ (Finset.univ : Finset (Fin d × Bool))).filter fun x =>
    m.AtBoundary ⟨x.1, x.2.1, x.2.2⟩).image fun x => m.colour x.2.1 x.2.2).sort (· ≤ ·)

/-- Arguments of `addBoundary`: an object of class `PeriodicBoundary` with its ids and direction, or an object of another class with its id -/
inductive Reg
  | periodic (i1 i2 direction : ℕ)
  | other (i : ℕ)
  deriving DecidableEq

/-- The calls of `addBoundary`, `P/problemdescription/BoundaryCollection.h:75-100`; the objects are numbered. -/
def registrations (rs : List Reg) : List Problem.Registration :=
  rs.mapIdx fun k r => match r with
    | .periodic i1 i2 _ => .periodic i1 i2 k
    | .other i => .plain i k

/-- Conversion of a double to `unsigned int`, for numbers that are not too large -/
def toUnsigned (x : ℚ) : Except MeshExc ℕ := if x ≤ -1 then .error .conversion else .ok ⌊x⌋₊

/-! ## Two dimensions -/

/-- The problems in two dimensions on boxes, with the arguments of their constructors on which the mesh and the boundary ids depend -/
inductive Flow2
  | couette | droplet | testDomain | riemann | shearLayer | taylorGreen | lidDrivenCavity | shockVortex | smoothDensity | complexWall
  | decayingTurbulence
  | poiseuille (isPeriodic : Bool)
  | sinusoidalShear (cellAspectRatio : ℚ)
  | lubricationSine (L averageHeight cellAspectRatio : ℚ)
  | sodShockTube (length : ℕ)

/-- Faces 0 to 3 of the cell get the ids 0 to 3: `B/CouetteFlow2D.cpp:67-71`, `B/Droplet2D.cpp:59-63`, `B/PeriodicTestDomain2D.cpp:38-42`,
`B/ShearLayer2D.cpp:69-73`, `B/TaylorGreenVortex2D.cpp:76-80`, `B/PoiseuilleFlow2D.cpp:61-65`, `E/step-0/LidDrivenCavity2D.cpp:53-57`,
`E/step-13/SmoothDensityPropagation.cpp:80-84`, `E/step-decayingTurbulence2D/DecayingTurbulence2D.cpp:50-54` -/
def fourFaces : List (ℕ × ℕ) := [(0, 0), (1, 1), (2, 2), (3, 3)]

/-- A box of one row, with a number of columns converted from a double: `B/SinusoidalShear2D.cpp:46-52`, `B/LubricationSine.cpp:45-51` -/
def columns (x : ℚ) : Except MeshExc (BoxMesh 2) :=
  match toUnsigned x with
  | .error e => .error e
  | .ok n => subdivided ![n, 1]

/-- `makeGrid` -/
def Flow2.makeGrid : Flow2 → Except MeshExc (BoxMesh 2)
  /- `B/CouetteFlow2D.cpp:64-71` -/
  | .couette => .ok (singleCell fourFaces)
  /- `B/Droplet2D.cpp:56-63` -/
  | .droplet => .ok (singleCell fourFaces)
  /- `B/PeriodicTestDomain2D.cpp:35-42` -/
  | .testDomain => .ok (singleCell fourFaces)
  /- `B/Riemann2D.cpp:122-127` -/
  | .riemann => subdivided ![2, 2]
  /- `B/ShearLayer2D.cpp:66-73` -/
  | .shearLayer => .ok (singleCell fourFaces)
  /- `B/TaylorGreenVortex2D.cpp:73-80` -/
  | .taylorGreen => .ok (singleCell fourFaces)
  /- `E/step-0/LidDrivenCavity2D.cpp:49-57` -/
  | .lidDrivenCavity => .ok (singleCell fourFaces)
  /- `E/step-12/ShockVortexInteraction.cpp:141-146` -/
  | .shockVortex => subdivided ![1, 1]
  /- `E/step-13/SmoothDensityPropagation.cpp:77-84` -/
  | .smoothDensity => .ok (singleCell fourFaces)
  /- `E/step-6/ComplexWall1.cpp:40-47` -/
  | .complexWall => subdivided ![10, 1]
  /- `E/step-decayingTurbulence2D/DecayingTurbulence2D.cpp:47-54` -/
  | .decayingTurbulence => .ok (singleCell fourFaces)
  /- `B/PoiseuilleFlow2D.cpp:57-65` -/
  | .poiseuille _ => .ok (singleCell fourFaces)
  /- `B/SinusoidalShear2D.cpp:44-52` -/
  | .sinusoidalShear r =>
    if r = 0 then .error .conversion else columns (1 / r)
  /- `B/LubricationSine.cpp:43-51` -/
  | .lubricationSine L h r =>
    if h = 0 ∨ r = 0 then .error .conversion else columns (L / h / r)
  /- `E/step-10/SodShockTube.cpp:87-92`; negative lengths are not modelled. -/
  | .sodShockTube n => subdivided ![n, 1]

/-- `makeBoundaries` -/
def Flow2.makeBoundaries : Flow2 → Except MeshExc (List Reg)
  /- `B/CouetteFlow2D.cpp:87-92` -/
  | .couette => .ok [.periodic 0 1 0, .other 2, .other 3]
  /- `B/Droplet2D.cpp:81-84` -/
  | .droplet => .ok [.periodic 0 1 0, .periodic 2 3 1]
  /- `B/PeriodicTestDomain2D.cpp:54-57` -/
  | .testDomain => .ok [.periodic 0 1 0, .periodic 2 3 1]
  /- `B/Riemann2D.cpp:151-158` -/
  | .riemann => .ok [.other 0, .other 1, .other 2, .other 3]
  /- `B/ShearLayer2D.cpp:88-91` -/
  | .shearLayer => .ok [.periodic 0 1 0, .periodic 2 3 1]
  /- `B/TaylorGreenVortex2D.cpp:96-97` -/
  | .taylorGreen => .ok [.periodic 0 1 0, .periodic 2 3 1]
  /- `E/step-0/LidDrivenCavity2D.cpp:77-80` -/
  | .lidDrivenCavity => .ok [.other 0, .other 1, .other 2, .other 3]
  /- `E/step-12/ShockVortexInteraction.cpp:170-173` -/
  | .shockVortex => .ok [.periodic 0 1 0, .periodic 2 3 1]
  /- `E/step-13/SmoothDensityPropagation.cpp:100-101` -/
  | .smoothDensity => .ok [.periodic 0 1 0, .periodic 2 3 1]
  /- `E/step-6/ComplexWall1.cpp:76-80` -/
  | .complexWall => .ok [.periodic 0 1 0, .other 2, .other 3]
  /- `E/step-decayingTurbulence2D/DecayingTurbulence2D.cpp:70-73` -/
  | .decayingTurbulence => .ok [.periodic 0 1 0, .periodic 2 3 1]
  /- `B/PoiseuilleFlow2D.cpp:83-91` -/
  | .poiseuille isPeriodic => if isPeriodic then .ok [.periodic 0 1 0, .other 2, .other 3] else .error .notImplemented
  /- `B/SinusoidalShear2D.cpp:67-72` -/
  | .sinusoidalShear _ => .ok [.periodic 0 1 0, .other 2, .other 3]
  /- `B/LubricationSine.cpp:66-71` -/
  | .lubricationSine _ _ _ => .ok [.periodic 0 1 0, .other 2, .other 3]
  /- `E/step-10/SodShockTube.cpp:116-121` -/
  | .sodShockTube _ => .ok [.other 0, .other 1, .periodic 2 3 1]

/-- The mesh and the boundaries that the constructor makes: the mesh first, as an argument of the base class, e.g. `B/CouetteFlow2D.cpp:23-33` -/
def Flow2.construct (p : Flow2) : Except MeshExc (BoxMesh 2 × List Reg) :=
  match p.makeGrid with
  | .error e => .error e
  | .ok m => match p.makeBoundaries with
    | .error e => .error e
    | .ok rs => .ok (m, rs)

/-! ## Three dimensions -/

/-- The problems in three dimensions on boxes, with the arguments of their constructors on which the mesh and the boundary ids depend -/
inductive Flow3
  | testDomain | mixingLayer
  | taylorGreen (repetitions : ℕ)
  | couette (L : ℕ)
  | poiseuille (isPeriodic : Bool)
  | turbulentChannel (repetitions : Fin 3 → ℕ) (isPeriodic : Bool)

/-- `makeGrid` -/
def Flow3.makeGrid : Flow3 → Except MeshExc (BoxMesh 3)
  /- `B/PeriodicTestDomain3D.cpp:37-46` -/
  | .testDomain => .ok (singleCell [(0, 0), (1, 1), (2, 2), (3, 3), (4, 4), (5, 5)])
  /- `E/step-mixingLayer3D/MixingLayer3D.cpp:79-85` -/
  | .mixingLayer => subdivided ![1, 1, 1]
  /- `B/TaylorGreenVortex3D.cpp:84-90` -/
  | .taylorGreen n => subdivided ![n, n, n]
  /- `B/CouetteFlow3D.cpp:62-76`: lists of step sizes, of length `L`, 1 and 1 -/
  | .couette L => subdivided ![L, 1, 1]
  /- `B/PoiseuilleFlow3D.cpp:58-70` -/
  | .poiseuille _ => subdivided ![1, 1, 1]
  /- `E/step-turbulentChannel/TurbulentChannelFlow3D.cpp:126-130`; lists of another length than three are not modelled. -/
  | .turbulentChannel reps _ => subdivided reps

/-- `makeBoundaries` -/
def Flow3.makeBoundaries : Flow3 → Except MeshExc (List Reg)
  /- `B/PeriodicTestDomain3D.cpp:56-58` -/
  | .testDomain => .ok [.periodic 0 1 0, .periodic 2 3 1, .periodic 4 5 2]
  /- `E/step-mixingLayer3D/MixingLayer3D.cpp:121-129` -/
  | .mixingLayer => .ok [.other 2, .other 3, .periodic 0 1 0, .periodic 4 5 2]
  /- `B/TaylorGreenVortex3D.cpp:114-119` -/
  | .taylorGreen _ => .ok [.periodic 0 1 0, .periodic 2 3 1, .periodic 4 5 2]
  /- `B/CouetteFlow3D.cpp:92-96` -/
  | .couette _ => .ok [.periodic 0 1 0, .periodic 2 3 1, .other 4, .other 5]
  /- `B/PoiseuilleFlow3D.cpp:87-110` -/
  | .poiseuille isPeriodic =>
    if isPeriodic then .ok [.periodic 0 1 0, .periodic 2 3 1, .other 4, .other 5] else .error .notImplemented
  /- `E/step-turbulentChannel/TurbulentChannelFlow3D.cpp:148-178`: without periodicity there is only a warning. -/
  | .turbulentChannel _ isPeriodic => if isPeriodic then .ok [.periodic 0 1 0, .periodic 4 5 2, .other 2, .other 3] else .ok []

/-- The mesh and the boundaries that the constructor makes, e.g. `B/CouetteFlow3D.cpp:23-30` -/
def Flow3.construct (p : Flow3) : Except MeshExc (BoxMesh 3 × List Reg) :=
  match p.makeGrid with
  | .error e => .error e
  | .ok m => match p.makeBoundaries with
    | .error e => .error e
    | .ok rs => .ok (m, rs)

/-! ## Faces with ids that depend on their position -/

/-- A face: its vertices and its boundary id.  Numbers are real instead of doubles. -/
structure Face (d : ℕ) where
  vertices : List (Fin d → ℝ)
  id : ℕ

open Classical in
/-- The body of the loops in `set_boundary_ids_at_hyperplane`, `P/utilities/DealiiExtensions.cpp:785-796` -/
noncomputable def Face.atHyperplane (component : Fin d) (value : ℝ) (boundaryId : ℕ) (tol : ℝ) (f : Face d) : Face d :=
  if f.vertices.any fun v => decide (v component ≥ value + tol ∨ v component ≤ value - tol) then f else { f with id := boundaryId }

/-- The default of the tolerance, `P/utilities/DealiiExtensions.h:165` -/
noncomputable def planeTol : ℝ := 1e-10

/-- `set_boundary_ids_at_hyperplane` with the default tolerance, `P/utilities/DealiiExtensions.cpp:776-800`.  The mesh is the list of its faces. -/
noncomputable def setIdsAtHyperplane (component : Fin d) (value : ℝ) (boundaryId : ℕ) (fs : List (Face d)) : List (Face d) :=
  fs.map (Face.atHyperplane component value boundaryId planeTol)

/-- The body of the loops in `make_inner_manifold`, as far as boundary ids are concerned; `E/step-9/Cylinder2D.cpp:56-73` with center zero -/
noncomputable def Face.innerCircle (radius : ℝ) (boundaryId : ℤ) (tol : ℝ) (f : Face 2) : Face 2 :=
  open Classical in
  if f.vertices.any fun v => decide (Real.sqrt (v 0 ^ 2 + v 1 ^ 2) ≥ radius + tol) then f
  else if 0 ≤ boundaryId then { f with id := boundaryId.toNat } else f

/-- The ids of the cylinder: `E/step-9/Cylinder2D.cpp:82-84` and `:179-183`, `E/step-9/Cylinder2D.h:104-106`.  Before, all ids are as in the
merged mesh. -/
noncomputable def cylinderIds (fs : List (Face 2)) : List (Face 2) :=
  (setIdsAtHyperplane 1 15 4 (setIdsAtHyperplane 1 (-15) 3 (setIdsAtHyperplane 0 30 2 (setIdsAtHyperplane 0 (-6) 1 fs)))).map
    (Face.innerCircle 1 0 1e-10)

/-- The boundaries of the cylinder, `E/step-9/Cylinder2D.cpp:227-239` -/
def cylinderBoundaries : List Reg := [.other 1, .other 2, .other 3, .other 4, .other 0]

/-- The body of the loops in `make_inner_manifold`, as far as boundary ids are concerned; `E/step-sphere/Sphere.cpp:56-72` -/
noncomputable def Face.innerSphere (boundaryId : ℤ) (f : Face 3) : Face 3 :=
  open Classical in
  if f.vertices.any fun v => decide (|v 0 ^ 2 + v 1 ^ 2 + v 2 ^ 2 - 0.25| > 1e-12) then f
  else if 0 ≤ boundaryId then { f with id := boundaryId.toNat } else f

/-- The ids of the sphere: `E/step-sphere/Sphere.cpp:103-105` and `:146-160` -/
noncomputable def sphereIds (fs : List (Face 3)) : List (Face 3) :=
  (setIdsAtHyperplane 2 5 7 (setIdsAtHyperplane 2 (-5) 6 (setIdsAtHyperplane 1 5 5 (setIdsAtHyperplane 1 (-5) 4
    (setIdsAtHyperplane 0 8 3 (setIdsAtHyperplane 0 (-2) 2 fs)))))).map (Face.innerSphere 1)

/-- The boundaries of the sphere, `E/step-sphere/Sphere.cpp:186-202` -/
def sphereBoundaries : List Reg := [.other 2, .other 3, .other 4, .other 5, .other 6, .other 7, .other 1]

/-- The ids of the backward facing step: faces at the boundary with center `x` and old id `old`; `B/BackwardFacingStep2D.cpp:82-96` -/
noncomputable def stepId (LDomain LStep HDomain : ℝ) (x : Fin 2 → ℝ) (old : ℕ) : ℕ :=
  open Classical in
  if (|x 1| < 1e-6 ∨ |x 1 - HDomain| < 1e-6) ∨ |x 0 - LStep| < 1e-6 then 0
  else if |x 0| < 1e-6 then 1
  else if |x 0 - LDomain| < 1e-6 then 2
  else old

/-- The boundaries of the backward facing step, `B/BackwardFacingStep2D.cpp:111-120` -/
def stepBoundaries : List Reg := [.other 0, .other 1]

/-- deal.II's `get_boundary_ids()` for a list of ids of faces: sorted, without repetitions -/
def idsOf (ids : List ℕ) : List ℕ := ids.toFinset.sort (· ≤ ·)

end FlowMeshes
end NATriuM
