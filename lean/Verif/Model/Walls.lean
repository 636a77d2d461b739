import Verif.Model.CollisionCompressible
import Verif.Model.Stencils

/-!
# Model of the wall and inflow boundaries (`P/boundaries`)

`P` stands for `src/library/natrium` in `/repo`.

A store `f : Fin Q → ι → K` holds one population for every direction and every degree of freedom `ι`, as
`DistributionFunctions::at(direction)(index)` does.  A wall velocity is a function of time and position, as `dealii::Function` after
`set_time` is.
-/

namespace NATriuM.Walls

open Finset

/-- Errors raised by the boundaries. -/
inductive WallError
  /-- a failed `assert` -/
  | assertion
  /-- thrown by `calculateDensity` -/
  | collision (e : CollError)
  deriving DecidableEq

section

variable {K : Type*} [Field K] {D Q : ℕ} {ι : Type*} [DecidableEq ι]

/-- All populations of all degrees of freedom. -/
abbrev Store (K : Type*) (Q : ℕ) (ι : Type*) := Fin Q → ι → K

/-- Assignment `f.at(i)(x) = v`. -/
def Store.set (f : Store K Q ι) (i : Fin Q) (x : ι) (v : K) : Store K Q ι :=
  fun j y => if j = i ∧ y = x then v else f j y

/-- What a boundary knows about the hit point: `hitPoint` is the registered point in real coordinates, `toUnit` the mapping of the
cell to its unit cell, with which the quadrature of `FEBoundaryValues` is made, `P/boundaries/FEBoundaryValues.h:80-83`. -/
structure HitPoint (K : Type*) (D : ℕ) where
  hitPoint : Fin D → K
  toUnit : (Fin D → K) → (Fin D → K)

/-- `FEBoundaryValues::getPoint`, `P/boundaries/FEBoundaryValues.h:228-230`: `get_quadrature().point` is a point of the unit cell. -/
def getPoint (h : HitPoint K D) : Fin D → K := h.toUnit h.hitPoint

/-! ## Velocity wall -/

/-- the wall velocity a semi-Lagrangian boundary evaluates, `P/boundaries/VelocityNeqBounceBack.cpp:154-165` -/
def evaluatedVelocity (velocity : K → (Fin D → K) → Fin D → K) (h : HitPoint K D) (eps t : K) : Fin D → K :=
  velocity (t - eps) (getPoint h)

/-- `to_add`, `P/boundaries/VelocityNeqBounceBack.cpp:145-146, 168-181` (`rho` is 1) -/
def toAdd (S : Stencil K D Q) (u : Fin D → K) (i : Fin Q) : K :=
  2 * S.weight i * 1 * (∑ a, u a * S.dir i a) / S.cs2

/-- `VelocityNeqBounceBack::calculateBoundaryValues`, `P/boundaries/VelocityNeqBounceBack.cpp:136-195` -/
def velocityWall (S : Stencil K D Q) (velocity : K → (Fin D → K) → Fin D → K) (h : HitPoint K D) (i : Fin Q) (x : ι) (eps t : K)
    (f : Store K Q ι) : Store K Q ι :=
  f.set i x (f i x + toAdd S (evaluatedVelocity velocity h eps t) i)

/-- `SLFirstOrderBounceBack::calculateBoundaryValues`, `P/boundaries/SLFirstOrderBounceBack.h:76-105`: the interpolated distribution
of the opposite direction is computed and not used; a large `eps` only gives a warning. -/
def firstOrderBounceBack (S : Stencil K D Q) (i : Fin Q) (x : ι) (f : Store K Q ι) : Store K Q ι :=
  f.set i x (f (S.opp i) x)

/-- `DoNothingBoundary::calculateBoundaryValues`, `P/boundaries/DoNothingBoundary.h:76-81` -/
def doNothing (_i : Fin Q) (_x : ι) (f : Store K Q ι) : Store K Q ι := f

/-! ## Velocity wall of the discontinuous Galerkin scheme -/

/-- The three entries computed for one face degree of freedom: coupling to the own direction, to the opposite direction, and the
inhomogeneity. -/
structure FaceEntries (K : Type*) where
  own : K
  opposite : K
  vector : K

/-- The loop body over the quadrature points, `P/boundaries/VelocityNeqBounceBack.cpp:74-109`: `jxw` quadrature weight, `n` outer
normal, `u` the wall velocity at the quadrature point (here in real coordinates). -/
def faceEntries [LinearOrder K] (S : Stencil K D Q) (central : Bool) (jxw : K) (n u : Fin D → K) (i : Fin Q) : FaceEntries K :=
  let exn := ∑ a, n a * S.dir i a
  let prefactor := jxw * exn
  let exu := ∑ a, u a * S.dir i a
  if central then
    { own := 1 / 2 * prefactor
      opposite := 1 / 2 * prefactor
      vector := -prefactor * S.weight i * 1 * exu / S.cs2 }
  else if exn < 0 then
    { own := prefactor
      opposite := -prefactor
      vector := -2 * prefactor * S.weight i * 1 * exu / S.cs2 }
  else { own := 0, opposite := 0, vector := 0 }

/-- What one face degree of freedom adds to the time derivative of the population of direction `i` at this degree of freedom:
`VelocityNeqBounceBack::assembleBoundary`, `P/boundaries/VelocityNeqBounceBack.cpp:118-132`, applied to populations `f`.  The code
stores the entries in matrix blocks and in the vector; the model multiplies out. -/
def faceRate [LinearOrder K] (S : Stencil K D Q) (central : Bool) (jxw minv : K) (n u : Fin D → K) (f : Fin Q → K) (i : Fin Q) : K :=
  let e := faceEntries S central jxw n u i
  e.own * minv * f i + e.opposite * minv * f (S.opp i) + e.vector * minv

/-! ## Equilibrium boundary -/

/-- The equilibrium computed in `SLEquilibriumBoundary::calculateBoundaryValues`, `P/boundaries/SLEquilibriumBoundary.h:98-178`, with
density 1. -/
def slEquilibrium (S : Stencil K D Q) (T : K) (u : Fin D → K) (i : Fin Q) : K :=
  let e := S.dir i
  let T1 := S.cs2 * (T - 1)
  let uuTerm : K := ∑ j, -(u j * u j) / (2 * S.cs2)
  let ueTerm : K := ∑ j, u j * e j / S.cs2
  S.weight i * 1 * (1 + ueTerm * (1 + 1 / 2 * ueTerm) + uuTerm)
  + ∑ a, ∑ b, (1 * S.weight i / (2 * S.cs2) * ((T - 1) * eye a b * e a * e b - S.cs2 * eye a b * (T - 1))
    + ∑ c, (S.weight i * 1 / (6 * S.cs2 * S.cs2 * S.cs2)
        * (u a * u b * u c + T1 * (eye a b * u c + eye b c * u a + eye a c * u b))
        * (e a * e b * e c - S.cs2 * (e c * eye a b + e b * eye a c + e a * eye b c))
      + ∑ d, S.weight i * 1 / (24 * S.cs2 * S.cs2 * S.cs2 * S.cs2)
        * (e a * e b * e c * e d
          - S.cs2 * (e a * e b * eye c d + e a * e c * eye b d + e a * e d * eye b c + e b * e c * eye a d + e b * e d * eye a c
            + e c * e d * eye a b)
          + S.cs2 * S.cs2 * (eye a b * eye c d + eye a c * eye b d + eye a d * eye b c))
        * (u a * u b * u c * u d
          + T1 * (u a * u b * eye c d + u a * u c * eye b d + u a * u d * eye b c + u b * u c * eye a d + u b * u d * eye a c
              + u c * u d * eye a b
            + T1 * (eye a b * eye c d + eye a c * eye b d + eye a d * eye b c)))))

/-- `SLEquilibriumBoundary::calculateBoundaryValues`, `P/boundaries/SLEquilibriumBoundary.h:67-183` -/
def equilibriumBoundary (S : Stencil K D Q) (T : K) (velocity : K → (Fin D → K) → Fin D → K) (h : HitPoint K D) (i : Fin Q) (x : ι)
    (eps t : K) (f : Store K Q ι) : Store K Q ι :=
  f.set i x (slEquilibrium S T (evaluatedVelocity velocity h eps t) i)

/-- What `SemiLagrangianBoundaryHandler::applyToG` does for one hit of an equilibrium boundary,
`P/boundaries/SemiLagrangianBoundaryHandler.cpp:111-150`: the temperature is the constant 1. -/
def applyToG (D : ℕ) (gamma : K) (i : Fin Q) (x : ι) (f g : Store K Q ι) : Store K Q ι :=
  g.set i x (f i x * 1 * (2 * (1 / (gamma - 1)) - D))

/-! ## Thermal wall -/

/-- The unscaled data the thermal wall works with, `P/boundaries/ThermalBounceBack.cpp:57-58, 66, 72`. -/
def wallData (S : Stencil K D Q) : CollData K D Q where
  e i a := S.dir i a / S.scaling
  weight := S.weight
  cs2 := S.cs2 / (S.scaling * S.scaling)
  scaling := S.scaling
  tau := 0
  dt := 0
  gammaSteadyState := 1
  forceType := .noForcing
  forces := fun _ => 0

/-- `gamma`, `P/boundaries/ThermalBounceBack.cpp:59` -/
def wallGamma : K := 14 / 10

/-- The calculation of `ThermalBounceBack::calculateBoundaryValues` on the populations of one degree of freedom,
`P/boundaries/ThermalBounceBack.cpp:70-97`: `none` if nothing is written.  The two members of the result are the values written to
`m_fnew` and to `m_g`. -/
def thermalNode [LinearOrder K] (eq : Equilibrium K D Q) (S : Stencil K D Q) (Tw : K) (f g : Fin Q → K) :
    Except CollError (Option ((Fin Q → K) × (Fin Q → K))) := do
  let rho ← calculateDensity f
  let u := calculateVelocity (wallData S) f rho
  let T := calculateTemperature (wallData S) wallGamma f g u rho
  if |T - Tw| > 1 / 100000 then
    let feq := eq (wallData S) { rho := rho, u := u, T := T }
    let feqW := eq (wallData S) { rho := rho, u := u, T := Tw }
    let geqW := calculateGeqFromFeq (D := D) wallGamma Tw feqW
    return some (fun i => f i - feq i + feqW i, geqW)
  else
    return none

/-- `ThermalBounceBack::calculateBoundaryValues`, `P/boundaries/ThermalBounceBack.cpp:49-97`, with separate distributions for `f` and
`g` (`P/boundaries/SemiLagrangianBoundaryHandler.cpp:33-39`). -/
def thermalWall [LinearOrder K] (eq : Equilibrium K D Q) (S : Stencil K D Q) (Tw : K) (x : ι) (f g : Store K Q ι) :
    Except WallError (Store K Q ι × Store K Q ι) :=
  if Q ≠ 45 then .error .assertion
  else match thermalNode eq S Tw (fun i => f i x) (fun i => g i x) with
    | .error e => .error (.collision e)
    | .ok none => .ok (f, g)
    | .ok (some (f', g')) => .ok (fun i y => if y = x then f' i else f i y, fun i y => if y = x then g' i else g i y)

/-- The same with the constructor of `GlobalBoundaryData` for one distribution, `P/boundaries/BoundaryTools.h:269-278`,
`P/boundaries/SemiLagrangianBoundaryHandler.cpp:25-31`: `m_g` refers to the same object as `m_fnew`, and the assignment to `m_g` comes
last. -/
def thermalWallOneDistribution [LinearOrder K] (eq : Equilibrium K D Q) (S : Stencil K D Q) (Tw : K) (x : ι) (f : Store K Q ι) :
    Except WallError (Store K Q ι) :=
  if Q ≠ 45 then .error .assertion
  else match thermalNode eq S Tw (fun i => f i x) (fun i => f i x) with
    | .error e => .error (.collision e)
    | .ok none => .ok f
    | .ok (some (_, g')) => .ok fun i y => if y = x then g' i else f i y

/-! ## Grad's distribution -/

/-- `GradsFunction`, `P/boundaries/GradsFunction.h:25-50` -/
def gradsFunction (S : Stencil K D Q) (rho : K) (j : Fin D → K) (P : Fin D → Fin D → K) (i : Fin Q) : K :=
  let pPart : K := (∑ a, ∑ b, (P a b - if a = b then rho * S.cs2 else 0)
    * (S.dir i a * S.dir i b - if a = b then S.cs2 else 0)) * (1 / (2 * S.cs2 * S.cs2))
  S.weight i * (rho + (∑ a, j a * S.dir i a) / S.cs2 + pPart)

end

end NATriuM.Walls
