import Mathlib.Algebra.Order.Field.Basic
import Mathlib.Algebra.BigOperators.Fin
import Mathlib.Algebra.Group.Pi.Basic

/-!
# Model of the search for the face that a Lagrangian path crosses

`P` is short for `src/library/natrium`.  Coordinates are in an ordered field `K` instead of doubles.  The dimension is `m + 2`, with `m = 0`
or `m = 1`.  Failing assertions are errors of the model; a program compiled without them goes on.
-/

namespace NATriuM
namespace Paths

/-- How the search can fail: an exception of deal.II nobody catches here, `FaceCrossedFirstFailed`, or a failing assertion -/
inductive Fail
  | uncaught
  | faceCrossedFirstFailed
  | assertion
  deriving DecidableEq

/-- The mapping of one cell: `transform_real_to_unit_cell`, which throws if it does not converge, and `transform_unit_to_real_cell` -/
structure CellMapping (K : Type*) (d : ℕ) where
  toUnit : (Fin d → K) → Option (Fin d → K)
  toReal : (Fin d → K) → Fin d → K

/-- What `faceCrossedFirst` reports if a face is crossed: the returned index, `*lambda`, the point on the unit cell, `p_boundary`, `*child_id` -/
structure Crossing (K : Type*) (d : ℕ) where
  face : ℕ
  lambda : K
  unit : Fin d → K
  boundary : Fin d → K
  child : ℕ

section

variable {K : Type*} [Field K] [LinearOrder K]

/-- The literal `1e-10` -/
def roundOff : K := 1 / 10 ^ 10

/-- Elimination of round-off errors in one coordinate, `P/advection/SemiLagrangian.cpp:558-563`, `:564-569`, `:678-683` and
`P/advection/SemiLagrangianTools.cpp:42-47` -/
def snap (x : K) : K :=
  let y := if |x| < roundOff then 0 else x
  if |y - 1| < roundOff then 1 else y

/-- `GeometryInfo<dim>::child_cell_from_point` of deal.II: bit `a` is set if coordinate `a` is beyond the middle. -/
def childFromPoint {d : ℕ} (h : Fin d → K) : ℕ := ∑ a, if h a ≤ 1 / 2 then 0 else 2 ^ (a : ℕ)

/-- `assert(lambda >= 0); assert(lambda <= 1);`, e.g. `P/advection/SemiLagrangian.cpp:616-617` -/
def checkLambda (l : K) : Except Fail K := if 0 ≤ l ∧ l ≤ 1 then .ok l else .error .assertion

/-- The faces orthogonal to the first axis, `P/advection/SemiLagrangian.cpp:610-625`; `face_id == -1` is `none`. -/
def firstAxis (pi po : K) : Except Fail (Option (ℕ × K)) :=
  if po < 0 then
    (checkLambda ((0 - pi) / (po - pi))).map fun l => some (0, l)
  else if po > 1 then
    (checkLambda ((1 - pi) / (po - pi))).map fun l => some (1, l)
  else .ok none

/-- `*lambda`, initially 100, `P/advection/SemiLagrangian.cpp:611` -/
def currentLambda (best : Option (ℕ × K)) : K := match best with
  | none => 100
  | some b => b.2

/-- The faces orthogonal to the second and third axis, `P/advection/SemiLagrangian.cpp:626-644` and `:646-664` -/
def nextAxis (axis : ℕ) (pi po : K) (best : Option (ℕ × K)) : Except Fail (Option (ℕ × K)) :=
  if po < 0 then
    (checkLambda ((0 - pi) / (po - pi))).map fun l => if l < currentLambda best then some (2 * axis, l) else best
  else if po > 1 then
    (checkLambda ((1 - pi) / (po - pi))).map fun l => if l < currentLambda best then some (2 * axis + 1, l) else best
  else .ok best

/-- `SemiLagrangian::faceCrossedFirst` between points of the unit cell, `P/advection/SemiLagrangian.cpp:571-669` -/
def crossedFace {m : ℕ} (pi po : Fin (m + 2) → K) : Except Fail (Option (ℕ × K)) :=
  if ∀ a, 0 ≤ pi a ∧ pi a ≤ 1 then
    match firstAxis (pi 0) (po 0) with
    | .error e => .error e
    | .ok b0 => match nextAxis 1 (pi 1) (po 1) b0 with
      | .error e => .error e
      | .ok b1 => if h : m = 1 then nextAxis 2 (pi ⟨2, by omega⟩) (po ⟨2, by omega⟩) b1 else .ok b1
  else .error .assertion

/-- The point where the path leaves the unit cell, `P/advection/SemiLagrangian.cpp:671-684` -/
def exitPoint {d : ℕ} (pi po : Fin d → K) (lambda : K) : Fin d → K := fun a => snap (pi a + (po a - pi a) * lambda)

/-- `SemiLagrangian::faceCrossedFirst` (with `without_mapping == false`), `P/advection/SemiLagrangian.cpp:538-697`; `none` is the result -1. -/
def faceCrossedFirst {m : ℕ} (cell : CellMapping K (m + 2)) (inside outside : Fin (m + 2) → K) :
    Except Fail (Option (Crossing K (m + 2))) :=
  match cell.toUnit inside with
  | none => .error .uncaught
  | some pi => match cell.toUnit outside with
    | none => .error .faceCrossedFirstFailed
    | some po =>
      let pi := fun a => snap (pi a)
      let po := fun a => snap (po a)
      match crossedFace pi po with
      | .error e => .error e
      | .ok none => .ok none
      | .ok (some (face, lambda)) =>
        let h := exitPoint pi po lambda
        if ∏ a, h a * (1 - h a) = 0 then
          .ok (some ⟨face, lambda, h, cell.toReal h, childFromPoint h⟩)
        else .error .assertion

/-- A face: `face->vertex(0)` and `normal_vector<dim>(face)`, `P/advection/SemiLagrangian.cpp:715-719` -/
structure FacePlane (K : Type*) (d : ℕ) where
  point : Fin d → K
  normal : Fin d → K

/-- `normal_vector<2>`, `P/advection/SemiLagrangianTools.cpp:150-157`; `cross_product_2d` of deal.II is rotation by -90 degrees. -/
def normalVector2 (v0 v1 : Fin 2 → K) : Fin 2 → K := fun a => if a = 0 then v1 1 - v0 1 else -(v1 0 - v0 0)

/-- Inner product of tensors -/
def inner {d : ℕ} (u v : Fin d → K) : K := ∑ a, u a * v a

/-- One pass of the loop over the faces, `P/advection/SemiLagrangian.cpp:714-741`.  If the denominator is zero, the quotient of doubles is
infinite or not a number: then it is negative, or not smaller than `lambda_min`, and the face is skipped. -/
def planeStep {d : ℕ} (inside outside : Fin d → K) (best : ℕ × K) (f : FacePlane K d × ℕ) : ℕ × K :=
  let den := inner (inside - outside) f.1.normal
  if den = 0 then best
  else
    let lam := inner (inside - f.1.point) f.1.normal / den
    if lam < 0 then best
    else if lam < best.2 then (f.2, lam) else best

/-- `SemiLagrangian::faceCrossedFirstWithoutMapping`, `P/advection/SemiLagrangian.cpp:701-757`, up to the child index, which needs the mapping
(and throws if the mapping cannot be inverted at the point): face, lambda and boundary point -/
def faceCrossedFirstWithoutMapping {d : ℕ} (faces : List (FacePlane K d)) (inside outside : Fin d → K) : Option (ℕ × K × (Fin d → K)) :=
  let best := faces.zipIdx.foldl (planeStep inside outside) (0, 1)
  if best.2 = 1 then none
  else some (best.1, best.2, fun a => inside a + (outside a - inside a) * best.2)

end

end Paths
end NATriuM
