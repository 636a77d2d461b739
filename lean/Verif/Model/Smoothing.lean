import Mathlib.Analysis.SpecialFunctions.Pow.Real
import Mathlib.LinearAlgebra.Matrix.NonsingularInverse

/-!
# Model: smoothing (exponential filter, "new" filter, limiter)

Source: `src/library/natrium/smoothing`. Doubles are real numbers. `std::exp` and `pow` are the real exponential and the real power; the
arguments of `pow` are positive in the exponential filter, and non-negative with a non-negative exponent (`Patterns::Double(0, 1e10)`,
SolverConfiguration.cpp:196-197) in the new filter. A point of the unit cell is given by its coordinates `x 0`, `x 1`, `x 2`, of which the
first `dim` are used. The one-dimensional polynomials (`Polynomials::Legendre::generate_complete_basis`, a library function) are a
parameter.
-/

namespace NATriuM
namespace Smoothing

/-- `evaluateLegendreND`: mode number `i` in `dim` dimensions, for polynomial order `p`; ExponentialFilter.cpp:70-93, and in the same words
NewFilter.cpp:70-93 (instantiated for dimensions 1, 2 and 3) -/
def evaluateLegendre (leg : ℕ → ℝ → ℝ) (p : ℕ) : ℕ → ℕ → (ℕ → ℝ) → ℝ
  | 1, i, x => leg i (x 0)
  | 2, i, x => leg (i / (p + 1)) (x 0) * leg (i % (p + 1)) (x 1)
  | 3, i, x => leg (i / ((p + 1) * (p + 1))) (x 0) * leg ((i % ((p + 1) * (p + 1))) / (p + 1)) (x 1) * leg (i % (p + 1)) (x 2)
  | _, _, _ => 0

/-- The running maximum, ExponentialFilter.cpp:112-114 -/
def runMax (max i : ℕ) : ℕ := if i > max then i else max

/-- `makeDegreeVectors`, the entries of `m_degreeMax`; ExponentialFilter.cpp:95-136. In three dimensions `i % (p+1) * (p+1)` is
`(i % (p+1)) * (p+1)`: both operators have the same precedence and are evaluated from the left. -/
def degreeMax (p : ℕ) : ℕ → ℕ → ℕ
  | 1, i => i
  | 2, i => runMax (i / (p + 1)) (i % (p + 1))
  | 3, i => runMax (runMax (i / ((p + 1) * (p + 1))) ((i % (p + 1) * (p + 1)) / (p + 1))) (i % (p + 1))
  | _, _ => 0

/-- `makeDegreeVectors`, the entries of `m_degreeSum`; ExponentialFilter.cpp:95-136 -/
def degreeSum (p : ℕ) : ℕ → ℕ → ℕ
  | 1, i => i
  | 2, i => i / (p + 1) + i % (p + 1)
  | 3, i => i / ((p + 1) * (p + 1)) + (i % (p + 1) * (p + 1)) / (p + 1) + i % (p + 1)
  | _, _ => 0

/-- `makeDegreeVectors` of the new filter, the entries of `m_degreeSum`; NewFilter.cpp:95-136 -/
def newDegreeSum (p : ℕ) : ℕ → ℕ → ℕ
  | 1, i => i
  | 2, i => i / (p + 1) + i % (p + 1)
  | 3, i => i / ((p + 1) * (p + 1)) + i / (p + 1) + i % (p + 1)
  | _, _ => 0

/-- The degree that counts for mode `i`; ExponentialFilter.cpp:168-170 -/
def degree (bySum : Bool) (p dim i : ℕ) : ℕ := if bySum then degreeSum p dim i else degreeMax p dim i

/-- `max_degree`; ExponentialFilter.cpp:148-150 -/
def maxDegree (bySum : Bool) (p dim : ℕ) : ℕ := if bySum then dim * p else p

/-- What a mode of the given degree is multiplied with, if the filter has strength `alpha`, exponent `s` and cut-off `Nc`;
ExponentialFilter.cpp:172-180 -/
noncomputable def sigma (alpha s : ℝ) (Nc maxDeg deg : ℕ) : ℝ :=
  if deg ≥ Nc then Real.exp (-alpha * (((deg : ℝ) + 1 - Nc) / ((maxDeg : ℝ) + 1 - Nc)) ^ s) else 1

/-- The factors of the exponential filter for all modes; ExponentialFilter.cpp:167-181 -/
noncomputable def exponentialFactor (alpha s : ℝ) (Nc : ℕ) (bySum : Bool) (p dim i : ℕ) : ℝ :=
  sigma alpha s Nc (maxDegree bySum p dim) (degree bySum p dim i)

/-- The factor of the new filter for mode `i`; NewFilter.cpp:148, NewFilter.cpp:165-168. For order 0 it is computed from 0/0, that is, not a number
(`none`). -/
noncomputable def newFactor (alpha s : ℝ) (p dim i : ℕ) : Option ℝ :=
  if dim * p = 0 then none
  else some (Real.exp (-alpha * ((newDegreeSum p dim i : ℝ) / ((dim * p : ℕ) : ℝ)) ^ s))

section Projection
variable {n nq : ℕ}

/-- `quad_source`; `w` are the weights of the quadrature, `phi i q` the shape functions and `psi i q` the modes in the quadrature points;
ExponentialFilter.cpp:50-62 -/
def quadSource (w : Fin nq → ℝ) (phi psi : Fin n → Fin nq → ℝ) : Matrix (Fin n) (Fin n) ℝ := fun k i => ∑ q, w q * phi i q * psi k q

/-- `quad_legendre`; ExponentialFilter.cpp:50-62 -/
def quadLegendre (w : Fin nq → ℝ) (psi : Fin n → Fin nq → ℝ) : Matrix (Fin n) (Fin n) ℝ := fun k i => ∑ q, w q * psi i q * psi k q

/-- `FullMatrix::invert`, a library function that fails for singular matrices; ExponentialFilter.cpp:64, ExponentialFilter.cpp:66 -/
noncomputable def invert (A : Matrix (Fin n) (Fin n) ℝ) : Option (Matrix (Fin n) (Fin n) ℝ) := if A.det ≠ 0 then some A⁻¹ else none

/-- `makeProjectionMatrices`: the matrices to and from the basis of modes; ExponentialFilter.cpp:29-68, NewFilter.cpp:29-68 -/
noncomputable def projections (w : Fin nq → ℝ) (phi psi : Fin n → Fin nq → ℝ) :
    Option (Matrix (Fin n) (Fin n) ℝ × Matrix (Fin n) (Fin n) ℝ) :=
  match invert (quadLegendre w psi) with
  | none => none
  | some inv =>
    let toM := inv * quadSource w phi psi
    match invert toM with
    | none => none
    | some fromM => some (toM, fromM)

/-- The work of `applyFilter` in one cell: project to modes, multiply, project back; ExponentialFilter.cpp:164-184, NewFilter.cpp:162-171 -/
def filterCell (toM fromM : Matrix (Fin n) (Fin n) ℝ) (factor : Fin n → ℝ) (u : Fin n → ℝ) : Fin n → ℝ :=
  fromM.mulVec fun i => factor i * toM.mulVec u i

/-- Reading the values of a cell, and writing them back; ExponentialFilter.cpp:161-163, ExponentialFilter.cpp:185-187 -/
def writeCell {D : Type*} [DecidableEq D] (dof : Fin n → D) (v : Fin n → ℝ) (u : D → ℝ) : D → ℝ :=
  (List.finRange n).foldl (fun u i => Function.update u (dof i) (v i)) u

/-- `applyFilter`, in place, for the locally owned cells in their order, with the degrees of freedom `dof c`; ExponentialFilter.cpp:138-193,
NewFilter.cpp:138-180 -/
def applyFilter {C D : Type*} [DecidableEq D] (toM fromM : Matrix (Fin n) (Fin n) ℝ) (factor : Fin n → ℝ) (dof : C → Fin n → D)
    (cells : List C) (u : D → ℝ) : D → ℝ :=
  cells.foldl (fun u c => writeCell (dof c) (filterCell toM fromM factor fun i => u (dof c i)) u) u

end Projection

/-- `VmultLimiter::apply`, for a matrix given by its rows of entries (column, value): both functions have an empty body, all statements are
commented out; VmultLimiter.cpp:13-25, VmultLimiter.cpp:28-85 -/
def limiterApply {R C : Type*} (_matrix : R → List (C × ℝ)) (target : R → ℝ) (_source : C → ℝ) : R → ℝ := target

end Smoothing
end NATriuM
