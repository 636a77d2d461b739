import Verif.Model.LegacyBGK
import Verif.Model.CollisionCompressible

/-!
# How the solvers set their initial fields and distributions

Models `CFDSolver::applyInitialDensities`, `applyInitialVelocities`, `addToVelocity`, `scaleVelocity`, `getTau` and
`initializeDistributions` (`P/solver/CFDSolver.cpp`) and `applyInitialTemperatures`, `calcQuarticEquilibrium`,
`initializeDistributions` of `CompressibleCFDSolver` (`P/solver/CompressibleCFDSolver.h`), where `P` is `src/library/natrium`.
The degrees of freedom have the type `ι`; `double` is a field `K`.
-/

namespace NATriuM.Init

open Finset

/-- `InitializationSchemeName`, `P/utilities/ConfigNames.h:112-117` -/
inductive Scheme
  | equilibrium | iterative | compressibleIterative | gradients
  deriving DecidableEq, Repr

/-- A cell of the mesh as seen by one process: `is_locally_owned()` and the indices from `get_dof_indices`. -/
structure FieldCell (ι : Type*) where
  owned : Bool
  dofs : List ι

section fields

variable {ι K : Type*} [DecidableEq ι]

/-- The loop shared by `applyInitialDensities`, `P/solver/CFDSolver.cpp:1364-1379`, one component of `applyInitialVelocities`,
`P/solver/CFDSolver.cpp:1395-1414`, and `applyInitialTemperatures`, `P/solver/CompressibleCFDSolver.h:349-364`.  `isOwned` is
`getLocallyOwnedDofs().is_element`, `value n` the initial function at the support point of `n`, `v` the vector before the call. -/
def applyInitial (isOwned : ι → Bool) (value : ι → K) (cells : List (FieldCell ι)) (v : ι → K) : ι → K :=
  cells.foldl (fun v cell =>
    if cell.owned then
      cell.dofs.foldl (fun v n => if isOwned n then Function.update v n (value n) else v) v
    else v) v

/-- The inner loop of `addToVelocity`, `P/solver/CFDSolver.cpp:1446-1467`: the state is one component of the velocity and the set
`already_set`. -/
def addToDofs [Add K] (value : ι → K) (dofs : List ι) (s : (ι → K) × List ι) : (ι → K) × List ι :=
  dofs.foldl (fun s n => if n ∈ s.2 then s else (Function.update s.1 n (s.1 n + value n), n :: s.2)) s

/-- `CFDSolver::addToVelocity`, `P/solver/CFDSolver.cpp:1433-1469`, one component; the new distributions (line 1470) are those of
`initializeDistributions`.  The set of indices already treated is shared by the components, which are treated together. -/
def addToVelocity [Add K] (value : ι → K) (cells : List (FieldCell ι)) (v : ι → K) : ι → K :=
  (cells.foldl (fun s cell => if cell.owned then addToDofs value cell.dofs s else s) (v, [])).1

/-- `CFDSolver::scaleVelocity`, `P/solver/CFDSolver.cpp:1474-1479`, one component. -/
def scaleVelocity [Mul K] (factor : K) (v : ι → K) : ι → K := fun n => v n * factor

end fields

section distributions

variable {ι K : Type*} [DecidableEq ι] [Field K] {D Q : ℕ}

/-- The first loop of `CFDSolver::initializeDistributions`, `P/solver/CFDSolver.cpp:1120-1129`, with
`CollisionModel::getEquilibriumDistributions`, `P/collision/CollisionModel.cpp:13-19`; `feq u rho` are the equilibrium distributions of
the collision model. -/
def toEquilibrium (feq : (Fin D → K) → K → Fin Q → K) (owned : List ι) (rho : ι → K) (u : Fin D → ι → K) (f : ι → Fin Q → K) :
    ι → Fin Q → K :=
  owned.foldl (fun f n => Function.update f n (feq (fun j => u j n) (rho n))) f

/-- `CFDSolver::getTau`, `P/solver/CFDSolver.cpp:1418-1430`; `bgk` tells whether the collision scheme is `BGK_STANDARD` or
`BGK_STANDARD_TRANSFORMED`. -/
def getTau (bgk : Bool) (viscosity dt : K) (S : Stencil K D Q) : K :=
  if bgk then Legacy.calculateRelaxationParameter viscosity dt S else 0

/-- What the loop over the quadrature points of a cell reads at the `q`-th point: the index `local_indices[q]`, the density and the
gradients of the velocity components (`grad a b` is the derivative of component `a` in direction `b`).  The number of quadrature points
is that of the indices: both are `(order + 1)^dim` (`P/advection/AdvectionOperator.cpp:73-77`). -/
structure GradPoint (ι K : Type*) (D : ℕ) where
  dof : ι
  rho : K
  grad : Fin D → Fin D → K

/-- The non-equilibrium part at a quadrature point, `P/solver/CFDSolver.cpp:1187-1194, 1219-1258`; the `Pi_1` of lines 1221-1249 is the common
factor times the gradient, with `dx = 1` (line 1219). -/
def fneq (S : Stencil K D Q) (tau : K) (p : GradPoint ι K D) (i : Fin Q) : K :=
  (∑ a, ∑ b, (S.dir i a * S.dir i b - eye a b * S.cs2) * (-1 * tau * p.rho / S.cs2 * 1 * p.grad a b)) * S.weight i

/-- The loop over the quadrature points, `P/solver/CFDSolver.cpp:1218-1262`: the values are *added* to the distributions of the degree of
freedom. -/
def addPoints (S : Stencil K D Q) (tau : K) (points : List (GradPoint ι K D)) (f : ι → Fin Q → K) : ι → Fin Q → K :=
  points.foldl (fun f p => Function.update f p.dof fun i => f p.dof i + fneq S (tau + 1 / 2) p i) f

/-- The case `GRADIENTS`, `P/solver/CFDSolver.cpp:1196-1264`: a cell is `is_locally_owned()` and its points. -/
def addGradients (S : Stencil K D Q) (tau : K) (cells : List (Bool × List (GradPoint ι K D))) (f : ι → Fin Q → K) : ι → Fin Q → K :=
  cells.foldl (fun f cell => if cell.1 then addPoints S tau cell.2 f else f) f

/-- `CFDSolver::initializeDistributions`, `P/solver/CFDSolver.cpp:1104-1349`.  `iterate` is the iterative procedure of lines 1269-1338
(its loop is `Solver.iterativeInitialization`).  The `default` case cannot be reached. -/
def initializeDistributions (scheme : Scheme) (S : Stencil K D Q) (feq : (Fin D → K) → K → Fin Q → K) (tau : K) (owned : List ι)
    (cells : List (Bool × List (GradPoint ι K D))) (iterate : (ι → Fin Q → K) → ι → Fin Q → K) (rho : ι → K) (u : Fin D → ι → K)
    (f : ι → Fin Q → K) : ι → Fin Q → K :=
  match scheme with
  | .equilibrium => toEquilibrium feq owned rho u f
  | .compressibleIterative => toEquilibrium feq owned rho u f
  | .gradients => addGradients S tau cells (toEquilibrium feq owned rho u f)
  | .iterative => iterate (toEquilibrium feq owned rho u f)

/-- `CompressibleCFDSolver::calcQuarticEquilibrium`, `P/solver/CompressibleCFDSolver.h:790-848`. -/
def calcQuarticEquilibrium (density : K) (velocity : Fin D → K) (temperature cs2 : K) (e : Fin Q → Fin D → K) (weight : Fin Q → K) (i : Fin Q) : K :=
  let uuTerm : K := ∑ j, -(velocity j * velocity j) / (2 * cs2)
  let T1 : K := cs2 * (temperature - 1)
  let ueTerm : K := ∑ j, velocity j * e i j / cs2
  weight i * density * (1 + ueTerm * (1 + 1 / 2 * ueTerm) + uuTerm)
  + ∑ a, ∑ b,
    (density * weight i / (2 * cs2) * ((temperature - 1) * eye a b * e i a * e i b - cs2 * eye a b * (temperature - 1))
    + ∑ c,
      (weight i * density / (6 * cs2 * cs2 * cs2)
          * (velocity a * velocity b * velocity c + T1 * (eye a b * velocity c + eye b c * velocity a + eye a c * velocity b))
          * (e i a * e i b * e i c - cs2 * (e i c * eye a b + e i b * eye a c + e i a * eye b c))
      + ∑ d,
        (let power4 := e i a * e i b * e i c * e i d
         let power2 := e i a * e i b * eye c d + e i a * e i c * eye b d + e i a * e i d * eye b c + e i b * e i c * eye a d
           + e i b * e i d * eye a c + e i c * e i d * eye a b
         let power0 : K := eye a b * eye c d + eye a c * eye b d + eye a d * eye b c
         let u4 := velocity a * velocity b * velocity c * velocity d
         let u2 := velocity a * velocity b * eye c d + velocity a * velocity c * eye b d + velocity a * velocity d * eye b c
           + velocity b * velocity c * eye a d + velocity b * velocity d * eye a c + velocity c * velocity d * eye a b
         let multieye : K := eye a b * eye c d + eye a c * eye b d + eye a d * eye b c
         weight i * density / (24 * cs2 * cs2 * cs2 * cs2) * (power4 - cs2 * power2 + cs2 * cs2 * power0)
           * (u4 + T1 * (u2 + T1 * multieye)))))

/-- The distributions of one node after the first loop of `CompressibleCFDSolver::initializeDistributions`,
`P/solver/CompressibleCFDSolver.h:858-867, 880-901`, with `gamma` the configured heat capacity ratio. -/
def compressibleNode (S : Stencil K D Q) (gamma rho : K) (u : Fin D → K) (T : K) : (Fin Q → K) × (Fin Q → K) :=
  let feq := calcQuarticEquilibrium rho (fun j => u j / S.scaling) T (S.cs2 / (S.scaling * S.scaling))
    (fun i a => S.dir i a / S.scaling) S.weight
  (feq, fun i => feq i * T * (2 * (1 / (gamma - 1)) - D))

/-- `CompressibleCFDSolver::initializeDistributions`, `P/solver/CompressibleCFDSolver.h:850-1004`.  `iterate` is the procedure of lines
912-988; `none` is the `CFDSolverException` of lines 989-993. -/
def initializeCompressible (scheme : Scheme) (S : Stencil K D Q) (gamma : K) (owned : List ι)
    (iterate : (ι → (Fin Q → K) × (Fin Q → K)) → ι → (Fin Q → K) × (Fin Q → K)) (rho : ι → K) (u : Fin D → ι → K) (T : ι → K)
    (fg : ι → (Fin Q → K) × (Fin Q → K)) : Option (ι → (Fin Q → K) × (Fin Q → K)) :=
  let start := owned.foldl (fun fg n => Function.update fg n (compressibleNode S gamma (rho n) (fun j => u j n) (T n))) fg
  match scheme with
  | .equilibrium => some start
  | .compressibleIterative => some (iterate start)
  | _ => none

end distributions

end NATriuM.Init
