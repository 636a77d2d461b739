import Verif.Model.Config
import Verif.Model.TimeStep
import Mathlib.Analysis.SpecialFunctions.Trigonometric.Basic

/-!
# Model of the selection of finite elements and quadratures, and of the distances of degrees of freedom

`P` is short for `src/library/natrium`.  The points of the quadratures are those of deal.II, which is not in the repository.
-/

namespace NATriuM
namespace Elements

/-- Quadratures of deal.II in one dimension; `custom` is made from points (`dealii::Quadrature<1>`), see
`P/advection/AdvectionTools.cpp:22-29` and `:54-74` -/
inductive Rule
  | gaussLobatto (n : ℕ)
  | gauss (n : ℕ)
  | gaussChebyshev (n : ℕ)
  | gaussLobattoChebyshev (n : ℕ)
  | custom (points : List ℚ)
  deriving DecidableEq, Repr

/-- Exceptions of the constructors: a failed assertion, `NATriuMException` and `AdvectionSolverException`, which is derived from it
(`P/advection/AdvectionTools.h:48`) -/
inductive Exc
  | assertion
  | natrium
  | advectionSolver
  deriving DecidableEq, Repr

/-- `make_quadrature_by_name`, `P/advection/AdvectionTools.cpp:18-37`: the one-dimensional rule, of which deal.II takes the tensor product -/
def makeQuadrature (name nPoints : ℕ) : Except Exc Rule :=
  if name = Config.QGAUSS_LOBATTO then .ok (.gaussLobatto nPoints)
  else if name = Config.QGAUSS then .ok (.gauss nPoints)
  else .error .natrium

/-- The points of `EQUIDISTANT_POINTS`, `P/advection/AdvectionTools.cpp:66-70` -/
def equidistant (order : ℕ) : List ℚ := (List.range (order + 1)).map fun i : ℕ => (i : ℚ) / order

/-- The switch of `make_fe_by_name`, `P/advection/AdvectionTools.cpp:51-81`.  For `EQUIDISTANT_POINTS` of order 0 the code divides by zero. -/
def supportRule (name order : ℕ) : Except Exc Rule :=
  if name = Config.GAUSS_LOBATTO_POINTS then .ok (.gaussLobatto (order + 1))
  else if name = Config.GAUSS_CHEBYSHEV_POINTS then .ok (.gaussChebyshev (order + 1))
  else if name = Config.GAUSS_LOBATTO_CHEBYSHEV_POINTS then .ok (.gaussLobattoChebyshev (order + 1))
  else if name = Config.EQUIDISTANT_POINTS then
    if order = 0 then .error .assertion else .ok (.custom (equidistant order))
  else .error .natrium

/-- `FE_DGQArbitraryNodes` or `FE_Q`, `P/advection/AdvectionTools.cpp:83-94`, with the one-dimensional support points -/
inductive Fe
  | dg (points : Rule)
  | continuous (points : Rule)
  deriving DecidableEq, Repr

/-- `make_fe_by_name`, `P/advection/AdvectionTools.cpp:47-95`.  The warning after the first `return` is never reached. -/
def makeFe (name order : ℕ) (dg : Bool) : Except Exc Fe :=
  match supportRule name order with
  | .error e => .error e
  | .ok r => .ok (if dg then .dg r else .continuous r)

/-- `MappingCartesian` or `MappingQ1`, `P/advection/AdvectionOperator.cpp:59-62` -/
inductive Mapping
  | cartesian
  | q1
  deriving DecidableEq, Repr

/-- The members that the constructor of `AdvectionOperator` sets, `P/advection/AdvectionOperator.cpp:48-77` -/
structure Operator where
  order : ℕ
  mapping : Mapping
  quadrature : Rule
  faceQuadrature : Rule
  fe : Fe
  deriving DecidableEq, Repr

/-- The constructor of `AdvectionOperator`, `P/advection/AdvectionOperator.cpp:43-84`; `deltaT` is never negative where the solver calls it -/
def construct (cartesian : Bool) (dim order quadName pointsName stencilD : ℕ) (dg : Bool) : Except Exc Operator :=
  if order < 1 ∨ stencilD ≠ dim ∨ dim ≤ 1 ∨ 4 ≤ dim then .error .assertion
  else match makeQuadrature quadName (order + 1) with
    | .error e => .error e
    | .ok q => match makeFe pointsName order dg with
      | .error e => .error e
      | .ok fe => .ok ⟨order, if cartesian && !dg then .cartesian else .q1, q, q, fe⟩

/-- The first constructor of `SEDGMinLee`, `P/advection/SEDGMinLee.cpp:39-57` -/
def constructSedg (cartesian : Bool) (dim order quadName pointsName stencilD : ℕ) : Except Exc Operator :=
  match construct cartesian dim order quadName pointsName stencilD true with
  | .error e => .error e
  | .ok x => if quadName ≠ Config.QGAUSS_LOBATTO ∨ pointsName ≠ Config.GAUSS_LOBATTO_POINTS then .error .advectionSolver else .ok x

/-- The constructor of `SemiLagrangian`, `P/advection/SemiLagrangian.cpp:38-48` -/
def constructSemiLagrangian (cartesian : Bool) (dim order quadName pointsName stencilD : ℕ) : Except Exc Operator :=
  construct cartesian dim order quadName pointsName stencilD false

/-- How the construction of the operator ends for the solver: an operator, a null pointer (no branch taken), an exit with a message, or an
exception that is not caught there -/
inductive Outcome
  | operator (x : Operator)
  | null
  | exit
  | uncaught (e : Exc)
  deriving DecidableEq, Repr

/-- `catch (AdvectionSolverException & e)`, `P/solver/CFDSolver.cpp:212-214` and `:222-224` -/
def catchAdvection : Except Exc Operator → Outcome
  | .ok x => .operator x
  | .error .advectionSolver => .exit
  | .error e => .uncaught e

/-- The streaming object of `CFDSolver`, `P/solver/CFDSolver.cpp:199-225` -/
def streaming (scheme : ℕ) (cartesian : Bool) (dim order quadName pointsName stencilD : ℕ) : Outcome :=
  if scheme = Config.SEDG then catchAdvection (constructSedg cartesian dim order quadName pointsName stencilD)
  else if scheme = Config.SEMI_LAGRANGIAN then catchAdvection (constructSemiLagrangian cartesian dim order quadName pointsName stencilD)
  else .null

/-- Gauss-Lobatto and Gauss points of deal.II (zeros of polynomials without closed form), as given lists on the unit interval -/
structure Dealii where
  gaussLobatto : ℕ → List ℝ
  gauss : ℕ → List ℝ

/-- Point `i` of `n` of `dealii::QGaussChebyshev<1>`, used in `P/advection/AdvectionTools.cpp:59`: the zeros of the Chebyshev polynomial, from
the left, on the unit interval -/
noncomputable def chebyshevPoint (n i : ℕ) : ℝ := 1 / 2 * (1 + Real.cos (Real.pi * (1 + (2 * i + 1) / (2 * n))))

/-- Point `i` of `n` of `dealii::QGaussLobattoChebyshev<1>`, used in `P/advection/AdvectionTools.cpp:63`: the extrema of the Chebyshev
polynomial, from the left, on the unit interval -/
noncomputable def lobattoChebyshevPoint (n i : ℕ) : ℝ := 1 / 2 * (1 + Real.cos (Real.pi * (1 + i / (n - 1))))

/-- The points of a rule, `get_points()` in deal.II -/
noncomputable def Rule.points (D : Dealii) : Rule → List ℝ
  | .gaussLobatto n => D.gaussLobatto n
  | .gauss n => D.gauss n
  | .gaussChebyshev n => (List.range n).map (chebyshevPoint n)
  | .gaussLobattoChebyshev n => (List.range n).map (lobattoChebyshevPoint n)
  | .custom points => points.map fun x : ℚ => (x : ℝ)

/-- The one-dimensional support points of an element -/
def Fe.rule : Fe → Rule
  | .dg r => r
  | .continuous r => r

/-- The inner loop of `getMinimumDoFDistanceGLL`, `P/utilities/CFDSolverUtilities.cpp:31-37` -/
noncomputable def nearest (x : ℝ) (rest : List ℝ) (m : ℝ) : ℝ := rest.foldl (fun m y => if |x - y| < m then |x - y| else m) m

/-- Both loops, `P/utilities/CFDSolverUtilities.cpp:30-38` -/
noncomputable def minimumPairs : List ℝ → ℝ → ℝ
  | [], m => m
  | x :: rest, m => minimumPairs rest (nearest x rest m)

/-- `getMinimumDoFDistanceGLL`, `P/utilities/CFDSolverUtilities.cpp:19-40`; `p0 :: ps` are the cells seen by the processes; an assertion
refuses order 0 -/
noncomputable def minimumDoFDistanceGLL (D : Dealii) (p0 : List MeshCell) (ps : List (List MeshCell)) (order : ℕ) : Except Exc ℝ :=
  if order < 1 then .error .assertion
  else .ok (getMinimumVertexDistance p0 ps * minimumPairs (D.gaussLobatto (order + 1)) 10000)

end Elements
end NATriuM
