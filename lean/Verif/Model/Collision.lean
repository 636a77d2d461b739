import Verif.Model.Stencils
import Mathlib.Algebra.BigOperators.Group.Finset.Basic
import Mathlib.Algebra.Order.Field.Basic
import Mathlib.Data.Fintype.BigOperators

/-!
# Model of the collision step (`P/collision_advanced`)

`P` stands for `src/library/natrium` in `/repo`.  All functions act on one node unless stated otherwise.  `double` is a
linearly ordered field `K`; the accumulation loops are finite sums.  The local variables of `GeneralCollisionData` that change
from node to node (`density`, `velocity`, `temperature`) form the record `Macro`; the ones that stay constant during a
sweep form `CollData`.
-/

namespace NATriuM

open Finset

/-- What a collision can raise. -/
inductive CollError
  /-- `CollisionException` of `calculateDensity` -/
  | densityTooSmall
  /-- `DensityZeroException` raised after the sweep -/
  | densityZero
  /-- `NATriuMException`: the problem has a force but forcing is switched off -/
  | forcingOff
  /-- `NotImplementedException` -/
  | notImplemented
  /-- `MRTException` -/
  | mrt
  /-- `CollisionException` of `selectCollision` -/
  | noCollision
  /-- a failed `assert` -/
  | assertion
  deriving DecidableEq, Repr

/-- `enum ForceType`, `P/utilities/ConfigNames.h:123-128` -/
inductive ForceType
  | noForcing | shiftingVelocity | exactDifference | guo
  deriving DecidableEq, Repr

/-- `enum EquilibriumSchemeName`, `P/utilities/ConfigNames.h:63-69` -/
inductive EquilibriumSchemeName
  | bgk | quartic | incompressible | steadyState | entropic
  deriving DecidableEq, Repr

/-- The constant part of `GeneralCollisionData`, `P/collision_advanced/AuxiliaryCollisionFunctions.h:105-202`. -/
structure CollData (K : Type*) (D Q : ℕ) where
  /-- unscaled particle velocities -/
  e : Fin Q → Fin D → K
  weight : Fin Q → K
  /-- unscaled speed of sound, squared -/
  cs2 : K
  scaling : K
  tau : K
  dt : K
  gammaSteadyState : K
  forceType : ForceType
  forces : Fin D → K

/-- The part of `GeneralCollisionData` that is rewritten for every node: `density`, `velocity`, `temperature`. -/
structure Macro (K : Type*) (D : ℕ) where
  rho : K
  u : Fin D → K
  T : K

section

variable {K : Type*} [Field K] {D Q : ℕ}

/-- `unity_matrix`, `P/collision_advanced/AuxiliaryCollisionFunctions.h:217-229` -/
def eye (a b : Fin D) : K := if a = b then 1 else 0

/-- `calculateTauFromNu`, `P/collision_advanced/AuxiliaryCollisionFunctions.h:63-68` -/
def calculateTauFromNu (viscosity cs2 timeStepSize : K) : K :=
  viscosity / (timeStepSize * cs2) + 1 / 2

/-- `calculateTauFromNuAndgamma`, `P/collision_advanced/AuxiliaryCollisionFunctions.h:73-78` -/
def calculateTauFromNuAndGamma (viscosity cs2 timeStepSize gamma : K) : K :=
  viscosity / (gamma * timeStepSize * cs2) + 1 / 2

/-- Constructor of `GeneralCollisionData`, `P/collision_advanced/AuxiliaryCollisionFunctions.h:151-200`, called with the scaling
and the speed of sound of the stencil (`P/collision_advanced/CollisionSelection.h:30-32`).  `force` is the external force of the
problem if it has one.  The member `forces` stays uninitialised if there is no force or forcing is off; it is
then never read, and the model stores zero. -/
def CollData.mk' (S : Stencil K D Q) (viscosity dt : K) (eqScheme : EquilibriumSchemeName) (gammaCfg : K)
    (forceType : ForceType) (force : Option (Fin D → K)) : CollData K D Q where
  e i a := S.dir i a / S.scaling
  weight := S.weight
  cs2 := S.cs2 / (S.scaling * S.scaling)
  scaling := S.scaling
  tau := if eqScheme = .steadyState then calculateTauFromNuAndGamma viscosity S.cs2 dt gammaCfg
    else calculateTauFromNu viscosity S.cs2 dt
  dt := dt
  gammaSteadyState := if eqScheme = .steadyState then gammaCfg else 1
  forceType := forceType
  forces := match force with
    | none => fun _ => 0
    | some F => if forceType = .noForcing then fun _ => 0
      else if eqScheme = .steadyState then fun a => F a / gammaCfg else F

/-! ## Macroscopic quantities -/

/-- `calculateDensity`, `P/collision_advanced/AuxiliaryCollisionFunctions.h:45-59` -/
def calculateDensity [LinearOrder K] (f : Fin Q → K) : Except CollError K :=
  if ∑ i, f i < 1 / 10 ^ 10 then .error .densityTooSmall else .ok (∑ i, f i)

/-- generic `calculateVelocity`, `P/collision_advanced/AuxiliaryCollisionFunctions.h:231-255` -/
def calculateVelocity (d : CollData K D Q) (f : Fin Q → K) (rho : K) : Fin D → K :=
  fun a => (∑ i, d.e i a * f i) * 1 / rho

/-- `calculateVelocity<2,9>`, `P/collision_advanced/AuxiliaryCollisionFunctions.h:258-268` -/
def calculateVelocityD2Q9 (f : Fin 9 → K) (rho : K) : Fin 2 → K :=
  ![1 / rho * (f 1 + f 5 + f 8 - f 3 - f 6 - f 7),
    1 / rho * (f 2 + f 5 + f 6 - f 4 - f 7 - f 8)]

/-- `calculateVelocity<3,19>`, `P/collision_advanced/AuxiliaryCollisionFunctions.h:270-287` -/
def calculateVelocityD3Q19 (f : Fin 19 → K) (rho : K) : Fin 3 → K :=
  ![1 / rho * (f 1 - f 3 + f 7 - f 8 - f 9 + f 10 + f 11 + f 12 - f 13 - f 14),
    1 / rho * (-f 5 + f 6 - f 11 + f 12 + f 13 - f 14 - f 15 + f 16 + f 17 - f 18),
    1 / rho * (f 2 - f 4 + f 7 + f 8 - f 9 - f 10 + f 15 + f 16 - f 17 - f 18)]

/-- `calculateTemperature`, `P/collision_advanced/AuxiliaryCollisionFunctions.h:289-307` -/
def calculateTemperature (d : CollData K D Q) (gamma : K) (f g : Fin Q → K) (u : Fin D → K) (rho : K) : K :=
  (∑ i, ((∑ a, (d.e i a - u a) * (d.e i a - u a)) * f i / d.cs2 + g i)) * (1 / 2) / (rho * (1 / (gamma - 1)))

/-! ## Equilibria -/

/-- The argument `T_equilibrium` of the collision classes: the function `calc`. -/
abbrev Equilibrium (K : Type*) (D Q : ℕ) := CollData K D Q → Macro K D → Fin Q → K

/-- generic `BGKEquilibrium::calc`, `P/collision_advanced/Equilibria.h:66-83` -/
def bgkEquilibrium : Equilibrium K D Q := fun d m i =>
  let uuTerm : K := ∑ j, -(m.u j * m.u j) / (2 * d.cs2)
  let ueTerm : K := ∑ j, m.u j * d.e i j / d.cs2
  d.weight i * m.rho * (1 + ueTerm * (1 + 1 / 2 * ueTerm) + uuTerm)

/-- `BGKEquilibrium<2,9>::calc`, `P/collision_advanced/Equilibria.h:33-63` -/
def bgkEquilibriumD2Q9 : Equilibrium K 2 9 := fun d m =>
  let prefactor : K := 1 / d.cs2
  let scalarProduct : K := m.u 0 * m.u 0 + m.u 1 * m.u 1
  let uSquareTerm : K := -scalarProduct / (2 * d.cs2)
  let w0 : K := 4 / 9 * m.rho
  let w1 : K := 1 / 9 * m.rho
  let w5 : K := 1 / 36 * m.rho
  let plus (w x : K) : K := w * (1 + x * (1 + 1 / 2 * x) + uSquareTerm)
  let minus (w x : K) : K := w * (1 - x * (1 - 1 / 2 * x) + uSquareTerm)
  let mx := prefactor * m.u 0
  let my := prefactor * m.u 1
  let mp := prefactor * (m.u 0 + m.u 1)
  let mm := prefactor * (-m.u 0 + m.u 1)
  ![w0 * (1 + uSquareTerm), plus w1 mx, plus w1 my, minus w1 mx, minus w1 my,
    plus w5 mp, plus w5 mm, minus w5 mp, minus w5 mm]

/-- `SteadyStateEquilibrium::calc`, `P/collision_advanced/Equilibria.h:293-311` -/
def steadyStateEquilibrium : Equilibrium K D Q := fun d m i =>
  let uuTerm : K := ∑ j, -(m.u j * m.u j) / (2 * d.cs2)
  let ueTerm : K := ∑ j, m.u j * d.e i j / d.cs2
  d.weight i * m.rho * (1 + ueTerm * (1 + 1 / 2 * ueTerm / d.gammaSteadyState) + uuTerm / d.gammaSteadyState)

/-- `IncompressibleEquilibrium::calc`, `P/collision_advanced/Equilibria.h:331-349` -/
def incompressibleEquilibrium : Equilibrium K D Q := fun d m i =>
  let uuTerm : K := ∑ j, -(m.u j * m.u j) / (2 * d.cs2)
  let ueTerm : K := ∑ j, m.u j * d.e i j / d.cs2
  d.weight i * (m.rho + ueTerm * (1 + 1 / 2 * ueTerm) + uuTerm)

/-- `calculateH3`, `P/collision_advanced/AuxiliaryCollisionFunctions.h:519-535` -/
def calculateH3 (cs2 : K) (e : Fin Q → Fin D → K) (i : Fin Q) (a b c : Fin D) : K :=
  e i a * e i b * e i c - cs2 * (e i a * eye b c + e i b * eye a c + e i c * eye a b)

/-- `calculateH4`, `P/collision_advanced/AuxiliaryCollisionFunctions.h:537-566` -/
def calculateH4 (cs2 : K) (e : Fin Q → Fin D → K) (i : Fin Q) (a b c d : Fin D) : K :=
  let power4 := e i a * e i b * e i c * e i d
  let power2 := e i a * e i b * eye c d + e i a * e i c * eye b d + e i a * e i d * eye b c
    + e i b * e i c * eye a d + e i b * e i d * eye a c + e i c * e i d * eye a b
  let power0 := eye a b * eye c d + eye a c * eye b d + eye a d * eye b c
  power4 - cs2 * power2 + cs2 * cs2 * power0

/-- The dimension-independent beginning of `QuarticEquilibrium::polynomial`, `P/collision_advanced/Equilibria.h:131-137, 197-211`:
second-order polynomial plus the temperature term. -/
def quarticBase (d : CollData K D Q) (m : Macro K D) (i : Fin Q) : K :=
  let uuTerm : K := ∑ j, -(m.u j * m.u j) / (2 * d.cs2)
  let ueTerm : K := ∑ j, m.u j * d.e i j / d.cs2
  d.weight i * m.rho * (1 + ueTerm * (1 + 1 / 2 * ueTerm) + uuTerm)
  + ∑ a, ∑ b, m.rho * d.weight i / (2 * d.cs2) *
      ((m.T - 1) * eye a b * d.e i a * d.e i b - d.cs2 * eye a b * (m.T - 1))

/-- `QuarticEquilibrium::polynomial` for `T_D = 2`, `P/collision_advanced/Equilibria.h:119-267` -/
def quarticEquilibrium2 : Equilibrium K 2 Q := fun d m i =>
  let u := m.u
  let T1 := d.cs2 * (m.T - 1)
  let H3 := calculateH3 d.cs2 d.e i
  let H4 := calculateH4 d.cs2 d.e i
  let a_xxx := u 0 * u 0 * u 0 + T1 * (u 0 + u 0 + u 0)
  let a_xxy := u 0 * u 0 * u 1 + T1 * u 1
  let a_xyy := u 0 * u 1 * u 1 + T1 * u 0
  let a_yyy := u 1 * u 1 * u 1 + T1 * (u 1 + u 1 + u 1)
  let a_xxxx := u 0 * u 0 * u 0 * u 0 + T1 * u 0 * u 0 * 6 + T1 * T1 * 3
  let a_yyyy := u 1 * u 1 * u 1 * u 1 + T1 * u 1 * u 1 * 6 + T1 * T1 * 3
  let a_xxxy := u 0 * u 0 * u 0 * u 1 + T1 * (u 0 * u 1 * 3)
  let a_xyyy := u 0 * u 1 * u 1 * u 1 + T1 * (u 0 * u 1 * 3)
  let a_xxyy := u 0 * u 0 * u 1 * u 1 + T1 * (u 0 * u 0 + u 1 * u 1) + T1 * T1
  quarticBase d m i
  + d.weight i * m.rho / (6 * d.cs2 * d.cs2 * d.cs2) *
      (a_xxx * H3 0 0 0 + 3 * (a_xxy * H3 0 0 1 + a_xyy * H3 0 1 1) + a_yyy * H3 1 1 1)
  + d.weight i * m.rho / (24 * d.cs2 * d.cs2 * d.cs2 * d.cs2) *
      (H4 0 0 0 0 * a_xxxx + H4 1 1 1 1 * a_yyyy + 6 * H4 0 0 1 1 * a_xxyy + 4 * H4 0 1 1 1 * a_xyyy
        + 4 * H4 0 0 0 1 * a_xxxy)

/-- `QuarticEquilibrium::polynomial` for `T_D = 3`, `P/collision_advanced/Equilibria.h:119-267` -/
def quarticEquilibrium3 : Equilibrium K 3 Q := fun d m i =>
  let u := m.u
  let T1 := d.cs2 * (m.T - 1)
  let H3 := calculateH3 d.cs2 d.e i
  let H4 := calculateH4 d.cs2 d.e i
  let a_xxx := u 0 * u 0 * u 0 + T1 * (u 0 + u 0 + u 0)
  let a_xxy := u 0 * u 0 * u 1 + T1 * u 1
  let a_xyy := u 0 * u 1 * u 1 + T1 * u 0
  let a_yyy := u 1 * u 1 * u 1 + T1 * (u 1 + u 1 + u 1)
  let a_xxxx := u 0 * u 0 * u 0 * u 0 + T1 * u 0 * u 0 * 6 + T1 * T1 * 3
  let a_yyyy := u 1 * u 1 * u 1 * u 1 + T1 * u 1 * u 1 * 6 + T1 * T1 * 3
  let a_xxxy := u 0 * u 0 * u 0 * u 1 + T1 * (u 0 * u 1 * 3)
  let a_xyyy := u 0 * u 1 * u 1 * u 1 + T1 * (u 0 * u 1 * 3)
  let a_xxyy := u 0 * u 0 * u 1 * u 1 + T1 * (u 0 * u 0 + u 1 * u 1) + T1 * T1
  let a_zzz := u 2 * u 2 * u 2 + T1 * (u 2 + u 2 + u 2)
  let a_xxz := u 0 * u 0 * u 2 + T1 * u 2
  let a_xzz := u 0 * u 2 * u 2 + T1 * u 0
  let a_yzz := u 1 * u 2 * u 2 + T1 * u 1
  let a_yyz := u 1 * u 1 * u 2 + T1 * u 2
  let a_xyz := u 0 * u 1 * u 2
  let a_zzzz := u 2 * u 2 * u 2 * u 2 + T1 * u 2 * u 2 * 6 + T1 * T1 * 3
  let a_xxxz := u 0 * u 0 * u 0 * u 2 + T1 * (u 0 * u 2 * 3)
  let a_yyyz := u 1 * u 1 * u 1 * u 2 + T1 * (u 1 * u 2 * 3)
  let a_xzzz := u 0 * u 2 * u 2 * u 2 + T1 * (u 0 * u 2 * 3)
  let a_yzzz := u 1 * u 2 * u 2 * u 2 + T1 * (u 1 * u 2 * 3)
  let a_xxzz := u 0 * u 0 * u 2 * u 2 + T1 * (u 0 * u 0 + u 2 * u 2) + T1 * T1
  let a_yyzz := u 1 * u 1 * u 2 * u 2 + T1 * (u 1 * u 1 + u 2 * u 2) + T1 * T1
  let a_xyzz := u 0 * u 1 * u 2 * u 2 + T1 * (u 0 * u 1)
  let a_xyyz := u 0 * u 1 * u 1 * u 2 + T1 * (u 0 * u 2)
  let a_xxyz := u 0 * u 0 * u 1 * u 2 + T1 * (u 1 * u 2)
  quarticBase d m i
  + d.weight i * m.rho / (6 * d.cs2 * d.cs2 * d.cs2) *
      (a_xxx * H3 0 0 0 + 3 * (a_xxy * H3 0 0 1 + a_xyy * H3 0 1 1) + a_yyy * H3 1 1 1)
  + d.weight i * m.rho / (6 * d.cs2 * d.cs2 * d.cs2) *
      (a_zzz * H3 2 2 2 + 3 * (a_xxz * H3 0 0 2 + a_xzz * H3 0 2 2 + a_yzz * H3 1 2 2 + a_yyz * H3 1 1 2)
        + 6 * a_xyz * H3 0 1 2)
  + d.weight i * m.rho / (24 * d.cs2 * d.cs2 * d.cs2 * d.cs2) *
      (H4 0 0 0 0 * a_xxxx + H4 1 1 1 1 * a_yyyy + 6 * H4 0 0 1 1 * a_xxyy + 4 * H4 0 1 1 1 * a_xyyy
        + 4 * H4 0 0 0 1 * a_xxxy)
  + d.weight i * m.rho / (24 * d.cs2 * d.cs2 * d.cs2 * d.cs2) *
      (H4 2 2 2 2 * a_zzzz + 4 * (H4 0 2 2 2 * a_xzzz + H4 1 2 2 2 * a_yzzz + H4 0 0 0 2 * a_xxxz + H4 1 1 1 2 * a_yyyz)
        + 6 * (H4 0 0 2 2 * a_xxzz + H4 1 1 2 2 * a_yyzz)
        + 12 * (H4 0 0 1 2 * a_xxyz + H4 0 1 1 2 * a_xyyz + H4 0 1 2 2 * a_xyzz))

/-! ## Relaxation -/

/-- The function `relax` of a collision class, with the equilibrium values already computed into `genData.feq` by its first
statement: constant data, equilibrium, local populations. -/
abbrev Relaxation (K : Type*) (D Q : ℕ) := CollData K D Q → (feq f : Fin Q → K) → Fin Q → K

/-- `BGKCollision::relax`, `P/collision_advanced/CollisionSchemes.h:28-41` -/
def bgkRelax : Relaxation K D Q := fun d feq f i => f i - 1 / d.tau * (f i - feq i)

/-- `Regularized::SpecificCollisionData::initializeQ`, `P/collision_advanced/CollisionSchemes.h:139-151` -/
def regularizedQ (d : CollData K D Q) (i : Fin Q) (b c : Fin D) : K :=
  if b = c then d.e i b * d.e i c - d.cs2 else d.e i b * d.e i c

/-- the non-equilibrium stress `specData.pi` of `Regularized::relax`, `P/collision_advanced/CollisionSchemes.h:164-186` -/
def regularizedPi (d : CollData K D Q) (feq f : Fin Q → K) (m n : Fin D) : K :=
  (∑ j, f j * d.e j m * d.e j n) - ∑ j, feq j * d.e j m * d.e j n

/-- `Regularized::relax`, `P/collision_advanced/CollisionSchemes.h:155-209` -/
def regularizedRelax : Relaxation K D Q := fun d feq f i =>
  let fi1 : K := ∑ b, ∑ c, d.weight i / (2 * d.cs2 * d.cs2) * regularizedQ d i b c * regularizedPi d feq f b c
  feq i + (1 - 1 / d.tau) * fi1

/-- `matrix_vector_product`, `P/collision_advanced/AuxiliaryMRTFunctions.h:71-80` -/
def matrixVectorProduct {m n : ℕ} (A : Fin m → Fin n → K) (x : Fin n → K) : Fin m → K := fun i => ∑ j, A i j * x j

/-- `MultipleRelaxationTime::relax`, `P/collision_advanced/CollisionSchemes.h:237-263`, with the matrices and relaxation rates of
its `SpecificCollisionData` as arguments -/
def mrtRelax (M T : Fin Q → Fin Q → K) (omega : Fin Q → K) : Relaxation K D Q := fun _ feq f =>
  let m := matrixVectorProduct M f
  let meq := matrixVectorProduct M feq
  matrixVectorProduct T fun i => m i - omega i * (m i - meq i)

/-! ## External force -/

/-- `applyMacroscopicForces`, `P/collision_advanced/AuxiliaryCollisionFunctions.h:331-358`: the new value of the global velocity at
this node -/
def applyMacroscopicForces (d : CollData K D Q) (rho : K) (uGlobal : Fin D → K) : Except CollError (Fin D → K) :=
  match d.forceType with
  | .noForcing => .error .forcingOff
  | .shiftingVelocity => .ok fun j => uGlobal j + 1 / 2 * d.dt * d.forces j / rho
  | .exactDifference => .ok uGlobal
  | .guo => .error .notImplemented

/-- `applyForces`, `P/collision_advanced/AuxiliaryCollisionFunctions.h:360-384` -/
def applyForces (d : CollData K D Q) (m : Macro K D) : Except CollError (Macro K D) :=
  match d.forceType with
  | .noForcing => .error .forcingOff
  | .shiftingVelocity => .ok { m with u := fun i => m.u i + d.tau * d.dt * d.forces i / m.rho / d.scaling }
  | .exactDifference => .ok m
  | .guo => .error .notImplemented

/-- `postCollisionApplyForces`, `P/collision_advanced/AuxiliaryCollisionFunctions.h:386-417`: new populations and new global velocity of
the node.  `feq` is what the preceding `relax` left in `genData.feq`. -/
def postCollisionApplyForces (eq : Equilibrium K D Q) (d : CollData K D Q) (m : Macro K D) (feq f : Fin Q → K)
    (uGlobal : Fin D → K) : Except CollError ((Fin Q → K) × (Fin D → K)) :=
  match d.forceType with
  | .noForcing => .error .forcingOff
  | .shiftingVelocity => .ok (f, uGlobal)
  | .exactDifference =>
    let m' : Macro K D := { m with u := fun j => m.u j + d.dt * d.forces j / m.rho / d.scaling }
    .ok (fun i => f i + (eq d m' i - feq i), fun j => uGlobal j + 1 / 2 * d.dt * d.forces j / m.rho)
  | .guo => .error .notImplemented

/-! ## The sweep -/

/-- What the sweep reads and writes at one node: the entries of `f`, `densities`, `velocities` at this index. -/
@[ext] structure Node (K : Type*) (D Q : ℕ) where
  f : Fin Q → K
  rho : K
  u : Fin D → K

/-- How a particular instantiation of `CollisionOperator` works: `calculateVelocity` selected by the template arguments, the
equilibrium, and the relaxation. -/
structure Operator (K : Type*) (D Q : ℕ) where
  velocity : CollData K D Q → (Fin Q → K) → K → Fin D → K
  eq : Equilibrium K D Q
  relax : Relaxation K D Q

/-- The body of the loop in the isothermal `CollisionOperator::collideAll`, `P/collision_advanced/CollisionOperator.h:52-104`.
`hasForce` is `problemDescription.hasExternalForce()`. -/
def collideNode [LinearOrder K] (op : Operator K D Q) (d : CollData K D Q) (hasForce inInit : Bool) (n : Node K D Q) :
    Except CollError (Node K D Q) := do
  let rho ← calculateDensity n.f
  let u := op.velocity d n.f rho
  let (m, uGlobal) ←
    if inInit then
      pure (({ rho := rho, u := fun j => n.u j / d.scaling, T := 1 } : Macro K D), n.u)
    else do
      let m : Macro K D := { rho := rho, u := u, T := 1 }
      let uGlobal : Fin D → K := fun j => u j * d.scaling
      if hasForce then
        let uGlobal ← applyMacroscopicForces d rho uGlobal
        let m ← applyForces d m
        pure (m, uGlobal)
      else pure (m, uGlobal)
  let feq := op.eq d m
  let f := op.relax d feq n.f
  if hasForce then
    let (f, uGlobal) ← postCollisionApplyForces op.eq d m feq f uGlobal
    pure { f := f, rho := rho, u := uGlobal }
  else pure { f := f, rho := rho, u := uGlobal }

/-- The state of the sweep: the global vectors, and `genData.density` (all other node-local variables are overwritten before
they are read). -/
structure SweepState (K : Type*) (D Q : ℕ) (ι : Type*) where
  nodes : ι → Node K D Q
  density : K

/-- One iteration of the loop over the owned degrees of freedom. -/
def sweepStep [LinearOrder K] {ι : Type*} [DecidableEq ι] (step : Node K D Q → Except CollError (Node K D Q))
    (s : SweepState K D Q ι) (ii : ι) : Except CollError (SweepState K D Q ι) :=
  match step (s.nodes ii) with
  | .error err => .error err
  | .ok n => .ok { nodes := Function.update s.nodes ii n, density := n.rho }

/-- `CollisionOperator::collideAll` (isothermal), `P/collision_advanced/CollisionOperator.h:26-111`.  `owned` lists the locally owned
degrees of freedom in loop order (the raw Trilinos views are abstracted into it).  `genData.density` is 0.0 initially (line 123 of
`AuxiliaryCollisionFunctions.h`); the check after the loop is at lines 106-109. -/
def collideAll [LinearOrder K] {ι : Type*} [DecidableEq ι] (op : Operator K D Q) (d : CollData K D Q)
    (hasForce inInit : Bool) (owned : List ι) (nodes : ι → Node K D Q) : Except CollError (ι → Node K D Q) := do
  let s ← owned.foldlM (sweepStep (collideNode op d hasForce inInit)) { nodes := nodes, density := 0 }
  if s.density ≤ 1 / 10 ^ 10 then .error .densityZero
  else pure s.nodes

end

end NATriuM
