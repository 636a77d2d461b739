import Verif.Model.Collision
import Verif.Model.StencilType

/-!
# Model of the class based collision models: the BGK family (`P/collision/BGK*.cpp`)

`P` stands for `src/library/natrium` in `/repo`.  The class based models are used for the initial equilibrium and in the
iterative initialisation (`P/solver/CFDSolver.cpp:264-360, 1125, 1310`).  Every `collideAll…` is a loop over the owned degrees of
freedom whose body reads and writes only the entries of one degree of freedom; the functions `…Node` below are
the bodies, `collideAll` is the loop.  `double` is a linearly ordered field `K`.

The hand-unrolled sums and formulas are written once for all classes that contain a textual copy of them; the citations name
every copy.
-/

namespace NATriuM.Legacy

open Finset

/-- The state of a collision object, `P/collision/CollisionModel.h:50-69` and `P/collision/BGK.h:27-38` (the members of
`MRT`, `P/collision/MRT.h:20-27`, are the same). -/
structure Obj (K : Type*) (D Q : ℕ) where
  stencil : Stencil K D Q
  /-- `m_relaxationParameter` -/
  tau : K
  /-- `m_prefactor` -/
  prefactor : K
  /-- `m_dt` of `BGK` and `MRT` -/
  dt : K
  /-- `m_timeStep` of `CollisionModel` -/
  timeStep : K
  /-- `m_viscosity` of `CollisionModel` -/
  viscosity : K
  forceType : ForceType
  force : Fin D → K

section

variable {K : Type*} [Field K] {D Q : ℕ}

/-- `CollisionModel::calculateRelaxationParameter`, `P/collision/CollisionModel.h:152-157` -/
def calculateRelaxationParameter (viscosity timeStepSize : K) (S : Stencil K D Q) : K :=
  viscosity / (timeStepSize * S.cs2)

/-- The constructors `BGK::BGK`, `P/collision/BGK.cpp:13-18`, `MRT::MRT`, `P/collision/MRT.cpp:12-18`, with
`CollisionModel::CollisionModel`, `P/collision/CollisionModel.h:61-69`. -/
def Obj.make (tau dt : K) (S : Stencil K D Q) : Obj K D Q where
  stencil := S
  tau := tau
  prefactor := -1 / (tau + 1 / 2)
  dt := dt
  timeStep := 0
  viscosity := 0
  forceType := .noForcing
  force := fun _ => 0

/-- `BGK::setTimeStep`, `P/collision/BGK.h:105-112`, and `MRT::setTimeStep`, `P/collision/MRT.h:40-47` -/
def Obj.setTimeStep [LinearOrder K] (b : Obj K D Q) (dt : K) : Except CollError (Obj K D Q) :=
  if 0 < dt then
    .ok { b with dt := dt, timeStep := dt, tau := b.dt * b.tau / dt, prefactor := -1 / (b.dt * b.tau / dt + 1 / 2) }
  else .error .assertion

/-- `BGK::setRelaxationParameter`, `P/collision/BGK.h:89-94`, and `MRT::setRelaxationParameter`, `P/collision/MRT.h:54-60` -/
def Obj.setRelaxationParameter [LinearOrder K] (b : Obj K D Q) (tau dt : K) : Except CollError (Obj K D Q) :=
  if 0 < tau then .ok { b with tau := tau, prefactor := -1 / (tau + 1 / 2), dt := dt } else .error .assertion

/-! ## Shared pieces -/

/-- the sum over all populations, written as a loop (`P/collision/BGK.cpp:82-85`) or unrolled
(`P/collision/BGKStandard.cpp:136-137, 336-338, 558-560`, `P/collision/BGKSteadyState.cpp:95-97`,
`P/collision/BGKIncompressible.cpp:105-107`, `P/collision/BGKRegularized.cpp:106-108, 325-327`,
`P/collision/BGKMultistep.cpp:227-228`, `P/collision/KBCStandard.cpp:113-115, 564-567`, `P/collision/KBCCentral.cpp:61-63`,
`P/collision/MRTStandard.cpp:61-63`, `P/collision/MRTEntropic.cpp:63-64`) -/
def density (f : Fin Q → K) : K := ∑ i, f i

/-- the velocity on D2Q9, `P/collision/BGKStandard.cpp:147-150`, `P/collision/BGKStandardTransformed.cpp:104-109`,
`P/collision/BGKSteadyState.cpp:106-111`, `P/collision/BGKIncompressible.cpp:117-122`,
`P/collision/BGKRegularized.cpp:118-123`, `P/collision/BGKMultistep.cpp:238-241`,
`P/collision/BGKPseudopotential.cpp:397-400`, `P/collision/KBCStandard.cpp:127-132`, `P/collision/KBCCentral.cpp:76-81`,
`P/collision/MRTStandard.cpp:67-72` -/
def velocityD2Q9 (scaling rho : K) (f : Fin 9 → K) : Fin 2 → K :=
  ![scaling / rho * (f 1 + f 5 + f 8 - f 3 - f 6 - f 7),
    scaling / rho * (f 2 + f 5 + f 6 - f 4 - f 7 - f 8)]

/-- the velocity on D3Q19, `P/collision/BGKStandard.cpp:348-356`, `P/collision/BGKRegularized.cpp:337-345` -/
def velocityD3Q19 (scaling rho : K) (f : Fin 19 → K) : Fin 3 → K :=
  ![scaling / rho * (f 1 - f 3 + f 7 - f 8 - f 9 + f 10 + f 11 + f 12 - f 13 - f 14),
    scaling / rho * (-f 5 + f 6 - f 11 + f 12 + f 13 - f 14 - f 15 + f 16 + f 17 - f 18),
    scaling / rho * (f 2 - f 4 + f 7 + f 8 - f 9 - f 10 + f 15 + f 16 - f 17 - f 18)]

/-- the velocity on D3Q15, `P/collision/BGKStandard.cpp:570-578`, `P/collision/KBCStandard.cpp:577-588` -/
def velocityD3Q15 (scaling rho : K) (f : Fin 15 → K) : Fin 3 → K :=
  ![scaling / rho * (f 1 - f 2 + f 7 - f 8 + f 9 - f 10 + f 11 - f 12 + f 13 - f 14),
    scaling / rho * (f 3 - f 4 + f 7 - f 8 + f 9 - f 10 - f 11 + f 12 - f 13 + f 14),
    scaling / rho * (f 5 - f 6 + f 7 - f 8 - f 9 + f 10 + f 11 - f 12 - f 13 + f 14)]

/-- `weighting * (1 + mixedTerm * (1 + g * mixedTerm) + uSquareTerm)`, e.g. `P/collision/BGKStandard.cpp:183-184` with `g = 0.5` -/
def plus (g weighting mixedTerm uSquareTerm : K) : K := weighting * (1 + mixedTerm * (1 + g * mixedTerm) + uSquareTerm)

/-- `weighting * (1 - mixedTerm * (1 - g * mixedTerm) + uSquareTerm)`, e.g. `P/collision/BGKStandard.cpp:185-186` with `g = 0.5` -/
def minus (g weighting mixedTerm uSquareTerm : K) : K := weighting * (1 - mixedTerm * (1 - g * mixedTerm) + uSquareTerm)

/-- the nine equilibrium populations, given the three weights (each already multiplied by the density), the prefactor of the
mixed terms and the term with the square of the velocity: `P/collision/BGKStandard.cpp:177-203`,
`P/collision/BGKRegularized.cpp:133-159`, `P/collision/BGKMultistep.cpp:265-291`,
`P/collision/BGKPseudopotential.cpp:423-449`, `P/collision/KBCCentral.cpp:219-245` and both halves of
`P/collision/ExternalForceFunctions.h:41-106` (all with `g = 0.5`),
`P/collision/BGKSteadyState.cpp:118-145` (with `g = one_by_2gamma`). -/
def termsD2Q9 (g w0 w1 w2 prefactor uSquareTerm : K) (u : Fin 2 → K) : Fin 9 → K :=
  ![w0 * (1 + uSquareTerm),
    plus g w1 (prefactor * u 0) uSquareTerm,
    plus g w1 (prefactor * u 1) uSquareTerm,
    minus g w1 (prefactor * u 0) uSquareTerm,
    minus g w1 (prefactor * u 1) uSquareTerm,
    plus g w2 (prefactor * (u 0 + u 1)) uSquareTerm,
    plus g w2 (prefactor * (-u 0 + u 1)) uSquareTerm,
    minus g w2 (prefactor * (u 0 + u 1)) uSquareTerm,
    minus g w2 (prefactor * (-u 0 + u 1)) uSquareTerm]

/-- the equilibrium on D2Q9: `P/collision/BGKStandard.cpp:174-203`, `P/collision/BGKRegularized.cpp:130-159`,
`P/collision/BGKMultistep.cpp:262-291`, `P/collision/BGKPseudopotential.cpp:420-449`, with `prefactor = scaling / cs2` -/
def feqD2Q9 (S : Stencil K 2 9) (rho : K) (u : Fin 2 → K) : Fin 9 → K :=
  termsD2Q9 (1 / 2) (4 / 9 * rho) (1 / 9 * rho) (1 / 36 * rho) (S.scaling / S.cs2)
    (-(u 0 * u 0 + u 1 * u 1) / (2 * S.cs2)) u

/-- the equilibrium on D3Q19: `P/collision/BGKStandard.cpp:387-441`, `P/collision/BGKRegularized.cpp:372-426`, with
`prefactor = scaling / cs2` -/
def feqD3Q19 (S : Stencil K 3 19) (rho : K) (u : Fin 3 → K) : Fin 19 → K :=
  let p := S.scaling / S.cs2
  let uu := -(u 0 * u 0 + u 1 * u 1 + u 2 * u 2) / (2 * S.cs2)
  let w1 := 1 / 18 * rho
  let w2 := 1 / 36 * rho
  ![1 / 3 * rho * (1 + uu),
    plus (1 / 2) w1 (p * u 0) uu,
    plus (1 / 2) w1 (p * u 2) uu,
    minus (1 / 2) w1 (p * u 0) uu,
    minus (1 / 2) w1 (p * u 2) uu,
    minus (1 / 2) w1 (p * u 1) uu,
    plus (1 / 2) w1 (p * u 1) uu,
    plus (1 / 2) w2 (p * (u 0 + u 2)) uu,
    plus (1 / 2) w2 (p * (-u 0 + u 2)) uu,
    minus (1 / 2) w2 (p * (u 0 + u 2)) uu,
    minus (1 / 2) w2 (p * (-u 0 + u 2)) uu,
    minus (1 / 2) w2 (p * (-u 0 + u 1)) uu,
    plus (1 / 2) w2 (p * (u 0 + u 1)) uu,
    plus (1 / 2) w2 (p * (-u 0 + u 1)) uu,
    minus (1 / 2) w2 (p * (u 0 + u 1)) uu,
    plus (1 / 2) w2 (p * (-u 1 + u 2)) uu,
    plus (1 / 2) w2 (p * (u 1 + u 2)) uu,
    minus (1 / 2) w2 (p * (-u 1 + u 2)) uu,
    minus (1 / 2) w2 (p * (u 1 + u 2)) uu]

/-- the fifteen equilibrium populations, given the term with the square of the velocity:
`P/collision/BGKStandard.cpp:591-632`, `P/collision/KBCStandard.cpp:732-781`, with `prefactor = scaling / cs2` -/
def termsD3Q15 (prefactor uSquareTerm rho : K) (u : Fin 3 → K) : Fin 15 → K :=
  let w1 := 1 / 9 * rho
  let w2 := 1 / 72 * rho
  ![2 / 9 * rho * (1 + uSquareTerm),
    plus (1 / 2) w1 (prefactor * u 0) uSquareTerm,
    minus (1 / 2) w1 (prefactor * u 0) uSquareTerm,
    plus (1 / 2) w1 (prefactor * u 1) uSquareTerm,
    minus (1 / 2) w1 (prefactor * u 1) uSquareTerm,
    plus (1 / 2) w1 (prefactor * u 2) uSquareTerm,
    minus (1 / 2) w1 (prefactor * u 2) uSquareTerm,
    plus (1 / 2) w2 (prefactor * (u 0 + u 1 + u 2)) uSquareTerm,
    minus (1 / 2) w2 (prefactor * (u 0 + u 1 + u 2)) uSquareTerm,
    plus (1 / 2) w2 (prefactor * (u 0 + u 1 - u 2)) uSquareTerm,
    minus (1 / 2) w2 (prefactor * (u 0 + u 1 - u 2)) uSquareTerm,
    plus (1 / 2) w2 (prefactor * (u 0 - u 1 + u 2)) uSquareTerm,
    minus (1 / 2) w2 (prefactor * (u 0 - u 1 + u 2)) uSquareTerm,
    plus (1 / 2) w2 (prefactor * (u 0 - u 1 - u 2)) uSquareTerm,
    minus (1 / 2) w2 (prefactor * (u 0 - u 1 - u 2)) uSquareTerm]

/-- the equilibrium on D3Q15: `P/collision/BGKStandard.cpp:588-632` -/
def feqD3Q15 (S : Stencil K 3 15) (rho : K) (u : Fin 3 → K) : Fin 15 → K :=
  termsD3Q15 (S.scaling / S.cs2) (-(u 0 * u 0 + u 1 * u 1 + u 2 * u 2) / (2 * S.cs2)) rho u

/-- The velocity that is stored and the velocity that enters the equilibrium, outside the initialisation procedure:
`P/collision/BGKStandard.cpp:152-168, 357-380`, `P/collision/BGKRegularized.cpp:346-369`,
`P/collision/BGKMultistep.cpp:243-259`, `P/collision/BGKPseudopotential.cpp:401-417`. -/
def forcedVelocity (t : ForceType) (relax dt rho : K) (force u : Fin D → K) : (Fin D → K) × (Fin D → K) :=
  match t with
  | .noForcing => (u, u)
  | .shiftingVelocity => (fun a => u a + 1 / 2 * dt * force a / rho, fun a => u a - 1 / relax * dt * force a / rho)
  | .exactDifference => (fun a => u a + 1 / 2 * dt * force a / rho, u)
  | .guo => (fun a => u a + 1 / 2 * dt * force a / rho, fun a => u a + 1 / 2 * dt * force a / rho)

/-- the source added by `applyExactDifferenceForcingD2Q9`, `P/collision/ExternalForceFunctions.h:19-117` -/
def exactDifferenceSourceD2Q9 (force u : Fin 2 → K) (rho dt prefactor : K) : Fin 9 → K :=
  let us : Fin 2 → K := fun a => u a + force a * dt / rho
  let terms (v : Fin 2 → K) := termsD2Q9 (1 / 2) (4 / 9 * rho) (1 / 9 * rho) (1 / 36 * rho) prefactor
    (-(1 / 2) * prefactor * (v 0 * v 0 + v 1 * v 1)) v
  fun i => terms us i - terms u i

/-- one entry of `s_i` of `applyGuoForcingD2Q9`, e.g. `P/collision/ExternalForceFunctions.h:140-142` -/
def guoTerm (w oneMinOmegaHalf prefactor ugFg eiaUa eigFg : K) : K :=
  w * oneMinOmegaHalf * (prefactor * (eigFg - ugFg) + prefactor * prefactor * (eiaUa * eigFg))

/-- the source added by `applyGuoForcingD2Q9`, `P/collision/ExternalForceFunctions.h:119-197`; entry 0 has no second term in
the code, its two factors are zero -/
def guoSourceD2Q9 (force u : Fin 2 → K) (omega prefactor dt : K) : Fin 9 → K :=
  let ugFg := u 0 * force 0 + u 1 * force 1
  let h := 1 - 1 / 2 * omega
  let s : Fin 9 → K :=
    ![4 / 9 * h * (prefactor * (0 - ugFg)),
      guoTerm (1 / 9) h prefactor ugFg (u 0) (force 0),
      guoTerm (1 / 9) h prefactor ugFg (u 1) (force 1),
      guoTerm (1 / 9) h prefactor ugFg (-u 0) (-force 0),
      guoTerm (1 / 9) h prefactor ugFg (-u 1) (-force 1),
      guoTerm (1 / 36) h prefactor ugFg (u 0 + u 1) (force 0 + force 1),
      guoTerm (1 / 36) h prefactor ugFg (-u 0 + u 1) (-force 0 + force 1),
      guoTerm (1 / 36) h prefactor ugFg (-u 0 - u 1) (-force 0 - force 1),
      guoTerm (1 / 36) h prefactor ugFg (u 0 - u 1) (force 0 - force 1)]
  fun i => dt * s i

/-- the source term applied after the relaxation, `P/collision/BGKStandard.cpp:216-225`, `P/collision/BGKMultistep.cpp:343-351` -/
def sourceD2Q9 (t : ForceType) (force u : Fin 2 → K) (rho relax prefactor dtExact dtGuo : K) : Fin 9 → K :=
  match t with
  | .exactDifference => exactDifferenceSourceD2Q9 force u rho dtExact prefactor
  | .guo => guoSourceD2Q9 force u (-relax) prefactor dtGuo
  | _ => fun _ => 0

/-! ## Equilibrium distributions of single directions -/

/-- `BGKStandard::getEquilibriumDistribution`, `P/collision/BGKStandard.cpp:23-41`; the copies in
`P/collision/BGKIncompressible.cpp:20-38`, `P/collision/BGKRegularized.cpp:21-39`, `P/collision/BGKMultistep.cpp:31-49`,
`P/collision/BGKPseudopotential.cpp:50-71` and `P/collision/MRT.cpp:24-43` are the same (asserts: see `assertsOk`) -/
def equilibrium (S : Stencil K D Q) (u : Fin D → K) (rho : K) (i : Fin Q) : K :=
  let uSquareTerm := -(∑ a, u a * u a) / (2 * S.cs2)
  if i.val = 0 then S.weight i * rho * (1 + uSquareTerm)
  else
    let mixedTerm := (∑ a, u a * S.dir i a) / S.cs2
    S.weight i * rho * (1 + mixedTerm * (1 + 1 / 2 * mixedTerm) + uSquareTerm)

/-- `BGKStandardTransformed::getEquilibriumDistribution`, `P/collision/BGKStandardTransformed.cpp:23-43`, with
`m_rho0 = 1` (`P/collision/BGKStandardTransformed.cpp:16`) -/
def equilibriumTransformed (S : Stencil K D Q) (u : Fin D → K) (rho : K) (i : Fin Q) : K :=
  equilibrium S u rho i - S.weight i * 1

/-- `BGKSteadyState::getEquilibriumDistribution`, `P/collision/BGKSteadyState.cpp:28-47` -/
def equilibriumSteady (gamma : K) (S : Stencil K D Q) (u : Fin D → K) (rho : K) (i : Fin Q) : K :=
  let uSquareTerm := -(∑ a, u a * u a) / (2 * S.cs2)
  if i.val = 0 then S.weight i * rho * (1 + 1 / gamma * uSquareTerm)
  else
    let mixedTerm := (∑ a, u a * S.dir i a) / S.cs2
    S.weight i * rho * (1 + mixedTerm * (1 + 1 / 2 / gamma * mixedTerm) + 1 / gamma * uSquareTerm)

end

section

variable {K : Type*} [Field K] [LinearOrder K] {D Q : ℕ}

/-- the assertions on the arguments of the equilibrium functions, `P/collision/BGKStandard.cpp:26-30` (the sizes always fit) -/
def assertsOk (u : Fin D → K) (rho : K) : Prop := 0 < rho ∧ ∀ a : Fin D, a.val ≤ 1 → u a < 10 ^ 15

/-- the assertions can be evaluated -/
instance (u : Fin D → K) (rho : K) : Decidable (assertsOk u rho) := by unfold assertsOk; infer_instance

/-! ## The bodies of the collision loops -/

/-- body of the generic `BGK::collideAll`, `P/collision/BGK.cpp:78-116`, with `collideSingleDoF`, `P/collision/BGK.h:67-72`; `feq`
is the virtual function `getEquilibriumDistribution` -/
def genericNode (feq : Stencil K D Q → (Fin D → K) → K → Fin Q → K) (b : Obj K D Q) (inInit : Bool) (n : Node K D Q) :
    Except CollError (Node K D Q) :=
  let rho := density n.f
  if rho < 1 / 10 ^ 10 then .error .densityTooSmall
  else
    let u : Fin D → K := if inInit then n.u else fun j => (∑ k, n.f k * b.stencil.dir k j) / rho
    if assertsOk u rho then .ok { f := fun j => n.f j + b.prefactor * (n.f j - feq b.stencil u rho j), rho := rho, u := u }
    else .error .assertion

/-- body of `BGKStandard::collideAllD2Q9`, `P/collision/BGKStandard.cpp:121-238` -/
def standardD2Q9Node (b : Obj K 2 9) (inInit : Bool) (n : Node K 2 9) : Except CollError (Node K 2 9) :=
  let rho := density n.f
  if rho < 1 / 10 ^ 10 then .error .densityTooSmall
  else
    let us := if inInit then (n.u, n.u)
      else forcedVelocity b.forceType b.prefactor b.dt rho b.force (velocityD2Q9 b.stencil.scaling rho n.f)
    let feq := feqD2Q9 b.stencil rho us.2
    let src := sourceD2Q9 b.forceType b.force us.2 rho b.prefactor (b.stencil.scaling / b.stencil.cs2) b.dt b.dt
    .ok { f := fun i => n.f i + b.prefactor * (n.f i - feq i) + src i, rho := rho, u := us.1 }

/-- body of `BGKStandard::collideAllD3Q19`, `P/collision/BGKStandard.cpp:312-475`.  The source terms (lines 464-473) are added to the
local copy `f_i` after the populations `f0(i) … f18(i)` have been written, and `f_i` is not used any more: they have no
effect, and the model leaves them out. -/
def standardD3Q19Node (b : Obj K 3 19) (inInit : Bool) (n : Node K 3 19) : Except CollError (Node K 3 19) :=
  let rho := density n.f
  if rho < 1 / 10 ^ 10 then .error .densityTooSmall
  else
    let us := if inInit then (n.u, n.u)
      else forcedVelocity b.forceType b.prefactor b.dt rho b.force (velocityD3Q19 b.stencil.scaling rho n.f)
    let feq := feqD3Q19 b.stencil rho us.2
    .ok { f := fun i => n.f i + b.prefactor * (n.f i - feq i), rho := rho, u := us.1 }

/-- body of `BGKStandard::collideAllD3Q15`, `P/collision/BGKStandard.cpp:537-651`; no force appears in it -/
def standardD3Q15Node (b : Obj K 3 15) (inInit : Bool) (n : Node K 3 15) : Except CollError (Node K 3 15) :=
  let rho := density n.f
  if rho < 1 / 10 ^ 10 then .error .densityTooSmall
  else
    let u := if inInit then n.u else velocityD3Q15 b.stencil.scaling rho n.f
    .ok { f := fun i => n.f i + b.prefactor * (n.f i - feqD3Q15 b.stencil rho u i), rho := rho, u := u }

/-- body of `BGKStandardTransformed::collideAll` on D2Q9, `P/collision/BGKStandardTransformed.cpp:89-160`: the populations are
deviations from the weights (`m_rho0 = 1`) -/
def transformedD2Q9Node (b : Obj K 2 9) (inInit : Bool) (n : Node K 2 9) : Except CollError (Node K 2 9) :=
  let rho := density n.f + 1
  if rho < 1 / 10 ^ 10 then .error .densityTooSmall
  else
    let u := if inInit then n.u else velocityD2Q9 b.stencil.scaling rho n.f
    let w : Fin 9 → K := ![4 / 9, 1 / 9, 1 / 9, 1 / 9, 1 / 9, 1 / 36, 1 / 36, 1 / 36, 1 / 36]
    .ok { f := fun i => n.f i + b.prefactor * (n.f i - (feqD2Q9 b.stencil rho u i - w i * 1)), rho := rho, u := u }

/-- body of `BGKSteadyState::collideAll` on D2Q9, `P/collision/BGKSteadyState.cpp:91-157`; `gamma` is `m_gamma` -/
def steadyD2Q9Node (gamma : K) (b : Obj K 2 9) (inInit : Bool) (n : Node K 2 9) : Except CollError (Node K 2 9) :=
  let rho := density n.f
  if rho < 1 / 10 ^ 10 then .error .densityTooSmall
  else
    let u := if inInit then n.u else velocityD2Q9 b.stencil.scaling rho n.f
    let h := 1 / 2 / gamma
    let feq := termsD2Q9 h (4 / 9 * rho) (1 / 9 * rho) (1 / 36 * rho) (b.stencil.scaling / b.stencil.cs2)
      (h * (-(u 0 * u 0 + u 1 * u 1) / b.stencil.cs2)) u
    .ok { f := fun i => n.f i + b.prefactor * (n.f i - feq i), rho := rho, u := u }

/-- the equilibrium of `BGKIncompressible` on D2Q9, `P/collision/BGKIncompressible.cpp:125-176`, with `m_lambda = 1/3` and
`m_gamma = 1/12` (`P/collision/BGKIncompressible.h:22-23`).  The weights of directions 0-4 lack the factor density, those of
directions 5-8 have it. -/
def feqIncompressible (S : Stencil K 2 9) (rho : K) (u : Fin 2 → K) : Fin 9 → K :=
  let lambda : K := 1 / 3
  let gamma : K := 1 / 12
  let sigma := lambda + gamma
  let t := termsD2Q9 (1 / 2) (4 / 9) (1 / 9) (1 / 36 * rho) (S.scaling / S.cs2) (-(u 0 * u 0 + u 1 * u 1) / (2 * S.cs2)) u
  let c : Fin 9 → K := ![-4 * sigma, lambda, lambda, lambda, lambda, gamma, gamma, gamma, gamma]
  fun i => c i * rho + t i

/-- body of `BGKIncompressible::collideAllD2Q9`, `P/collision/BGKIncompressible.cpp:100-188` -/
def incompressibleD2Q9Node (b : Obj K 2 9) (inInit : Bool) (n : Node K 2 9) : Except CollError (Node K 2 9) :=
  let rho := density n.f
  if rho < 1 / 10 ^ 10 then .error .densityTooSmall
  else
    let u := if inInit then n.u else velocityD2Q9 b.stencil.scaling rho n.f
    .ok { f := fun i => n.f i + b.prefactor * (n.f i - feqIncompressible b.stencil rho u i), rho := rho, u := u }

/-- the tensor `Q` of the regularised collision, `P/collision/BGKRegularized.cpp:186-201, 445-460` -/
def regQ (S : Stencil K D Q) (i : Fin Q) (b c : Fin D) : K :=
  if b = c then S.dir i b * S.dir i c - S.cs2 else S.dir i b * S.dir i c

/-- `fi1`, `P/collision/BGKRegularized.cpp:204-214, 462-472` -/
def regFi1 (S : Stencil K D Q) (pi : Fin D → Fin D → K) (i : Fin Q) : K :=
  ∑ b, ∑ c, S.weight i / (2 * S.cs2 * S.cs2) * regQ S i b c * pi b c

/-- second moments in lattice units, `P/collision/BGKRegularized.cpp:164-167` and `P/collision/BGKRegularized.cpp:171-174` -/
def piD2Q9 (f : Fin 9 → K) : Fin 2 → Fin 2 → K :=
  ![![f 1 + f 3 + f 5 + f 6 + f 7 + f 8, f 5 - f 6 + f 7 - f 8],
    ![f 5 - f 6 + f 7 - f 8, f 2 + f 4 + f 5 + f 6 + f 7 + f 8]]

/-- body of `BGKRegularized::collideAllD2Q9`, `P/collision/BGKRegularized.cpp:101-224`; no force appears in it -/
def regularizedD2Q9Node (b : Obj K 2 9) (inInit : Bool) (n : Node K 2 9) : Except CollError (Node K 2 9) :=
  let rho := density n.f
  if rho < 1 / 10 ^ 10 then .error .densityTooSmall
  else
    let u := if inInit then n.u else velocityD2Q9 b.stencil.scaling rho n.f
    let feq := feqD2Q9 b.stencil rho u
    let pi : Fin 2 → Fin 2 → K := fun x y => piD2Q9 n.f x y - piD2Q9 feq x y
    .ok { f := fun i => feq i + (1 + b.prefactor) * regFi1 b.stencil pi i, rho := rho, u := u }

/-- second moments of the populations, `P/collision/BGKRegularized.cpp:430-443` -/
def piD3Q19 (S : Stencil K 3 19) (f : Fin 19 → K) (b c : Fin 3) : K := ∑ a, f a * S.dir a b * S.dir a c

/-- body of `BGKRegularized::collideAllD3Q19`, `P/collision/BGKRegularized.cpp:301-517`.  `pieq` is computed but not subtracted from
`pi`.  The source terms (lines 506-515) are added to the local copy `f_i` and have no effect.  In the initialisation
procedure the local velocity is never assigned; `junk` stands for what is in it. -/
def regularizedD3Q19Node (junk : Fin 3 → K) (b : Obj K 3 19) (inInit : Bool) (n : Node K 3 19) : Except CollError (Node K 3 19) :=
  let rho := density n.f
  if rho < 1 / 10 ^ 10 then .error .densityTooSmall
  else
    let us := if inInit then (n.u, junk)
      else forcedVelocity b.forceType b.prefactor b.dt rho b.force (velocityD3Q19 b.stencil.scaling rho n.f)
    let feq := feqD3Q19 b.stencil rho us.2
    .ok { f := fun i => feq i + (1 + b.prefactor) * regFi1 b.stencil (piD3Q19 b.stencil n.f) i, rho := rho, u := us.1 }

/-- body of `BGKPseudopotential::collideAllD2Q9`, `P/collision/BGKPseudopotential.cpp:203-482`.  The density is read from the vector of
densities, not computed from the populations (line 219).  The density gradient is set to zero (line 240, the computation is
commented out), so the interaction force is the external force (lines 337-385; for CARNAHAN_STARLING as
long as its pressure is defined).  There is no source term for GUO (line 469).  In the initialisation procedure the local velocity
is not assigned; `junk` stands for what is in it. -/
def pseudopotentialD2Q9Node (junk : Fin 2 → K) (b : Obj K 2 9) (inInit : Bool) (n : Node K 2 9) :
    Except CollError (Node K 2 9) :=
  let rho := n.rho
  if rho < 1 / 10 ^ 10 then .error .densityTooSmall
  else
    let us := if inInit then (n.u, junk)
      else forcedVelocity b.forceType b.prefactor b.dt rho b.force (velocityD2Q9 b.stencil.scaling rho n.f)
    let feq := feqD2Q9 b.stencil rho us.2
    let src : Fin 9 → K := match b.forceType with
      | .exactDifference => exactDifferenceSourceD2Q9 b.force us.2 rho b.dt (b.stencil.scaling / b.stencil.cs2)
      | _ => fun _ => 0
    .ok { f := fun i => n.f i + b.prefactor * (n.f i - feq i) + src i, rho := rho, u := us.1 }

/-! ## Multistep -/

/-- `m_model`, `P/collision/BGKMultistep.cpp:18-23` -/
inductive MultistepModel
  | adamsMoulton4 | bdf2
  deriving DecidableEq, Repr

/-- one node together with the stored values of the last collision (`m_formerF`, `m_formerFEq`,
`P/collision/MultistepCollisionData.h:22-23`) -/
structure MultiNode (K : Type*) (D Q : ℕ) where
  node : Node K D Q
  formerF : Fin Q → K
  formerFEq : Fin Q → K

/-- `multistep_factor0`, `multistep_factor1`, `P/collision/BGKMultistep.cpp:92-106` -/
def multistepFactors (m : MultistepModel) (b : Obj K D Q) : K × K :=
  let lambda := b.viscosity / b.stencil.cs2
  match m with
  | .adamsMoulton4 => (-1 / (12 / 13 * lambda / b.timeStep + 5 / 13), 1 / (12 * lambda / b.timeStep + 5))
  | .bdf2 => (-1 / (9 / 8 * lambda / b.timeStep + 3 / 4), 1 / (9 / 2 * lambda / b.timeStep + 3))

/-- body of `BGKMultistep::collideAllD2Q9`, `P/collision/BGKMultistep.cpp:108-386`; `first` is `m_firstCollision` (lines 115-121).
In the initialisation procedure the local velocity is not assigned; `junk` stands for what is in it. -/
def multistepD2Q9Node (m : MultistepModel) (junk : Fin 2 → K) (b : Obj K 2 9) (first inInit : Bool) (x : MultiNode K 2 9) :
    Except CollError (MultiNode K 2 9) :=
  let n := x.node
  let formerF := if first then n.f else x.formerF
  let formerFEq := if first then n.f else x.formerFEq
  let c := multistepFactors m b
  let relax := -1 / (b.viscosity / b.stencil.cs2 / b.timeStep + 1 / 2)
  let rho := density n.f
  if rho < 1 / 10 ^ 10 then .error .densityTooSmall
  else
    let us := if inInit then (n.u, junk)
      else forcedVelocity b.forceType relax b.timeStep rho b.force (velocityD2Q9 b.stencil.scaling rho n.f)
    let feq := feqD2Q9 b.stencil rho us.2
    let relaxed : Fin 9 → K := fun i => match m with
      | .adamsMoulton4 => n.f i + (c.1 * (n.f i - feq i) + c.2 * (formerF i - formerFEq i))
      | .bdf2 => 4 / 3 * n.f i - 1 / 3 * formerF i + c.1 * (n.f i - feq i) + c.2 * (formerF i - formerFEq i)
    let src := sourceD2Q9 b.forceType b.force us.2 rho relax (b.stencil.scaling / b.stencil.cs2) b.dt b.timeStep
    .ok { node := { f := fun i => relaxed i + src i, rho := rho, u := us.1 }, formerF := n.f, formerFEq := feq }

/-- What the body of `BGKMultistep::collideAllD3Q19`, `P/collision/BGKMultistep.cpp:391-775`, does to a node: density and velocity are
stored, the relaxed populations are computed in the local array `f_i`, but neither written back nor
saved as former values. -/
def multistepD3Q19Node (b : Obj K 3 19) (first inInit : Bool) (x : MultiNode K 3 19) : Except CollError (MultiNode K 3 19) :=
  let n := x.node
  let formerF := if first then n.f else x.formerF
  let formerFEq := if first then n.f else x.formerFEq
  let relax := -1 / (b.viscosity / b.stencil.cs2 / b.timeStep + 1 / 2)
  let rho := density n.f
  if rho < 1 / 10 ^ 10 then .error .densityTooSmall
  else
    let us := if inInit then (n.u, n.u)
      else forcedVelocity b.forceType relax b.timeStep rho b.force (velocityD3Q19 b.stencil.scaling rho n.f)
    .ok { node := { f := n.f, rho := rho, u := us.1 }, formerF := formerF, formerFEq := formerFEq }

/-- The loop over the owned degrees of freedom, e.g. `P/collision/BGK.cpp:75-116`, `P/collision/BGKStandard.cpp:118-238`: the first
exception ends it. -/
def collideAll {ι : Type*} [DecidableEq ι] (step : Node K D Q → Except CollError (Node K D Q)) (owned : List ι)
    (nodes : ι → Node K D Q) : Except CollError (ι → Node K D Q) :=
  match owned.foldlM (sweepStep step) { nodes := nodes, density := 0 } with
  | .error e => .error e
  | .ok s => .ok s.nodes

end

/-- `BGKStandard::collideAll`, `P/collision/BGKStandard.cpp:43-62`: which loop body is used for which stencil -/
noncomputable def standardNode : (t : StencilType) → Obj ℝ t.D t.Q → Bool → Node ℝ t.D t.Q → Except CollError (Node ℝ t.D t.Q)
  | .D2Q9 => standardD2Q9Node
  | .D3Q19 => standardD3Q19Node
  | .D3Q15 => standardD3Q15Node
  | _ => genericNode equilibrium

/-- `BGKStandardTransformed::collideAll`, `P/collision/BGKStandardTransformed.cpp:46-54` -/
noncomputable def transformedNode : (t : StencilType) → Obj ℝ t.D t.Q → Bool → Node ℝ t.D t.Q → Except CollError (Node ℝ t.D t.Q)
  | .D2Q9 => transformedD2Q9Node
  | _ => genericNode equilibriumTransformed

/-- `BGKSteadyState::collideAll`, `P/collision/BGKSteadyState.cpp:49-57` -/
noncomputable def steadyNode (gamma : ℝ) : (t : StencilType) → Obj ℝ t.D t.Q → Bool → Node ℝ t.D t.Q → Except CollError (Node ℝ t.D t.Q)
  | .D2Q9 => steadyD2Q9Node gamma
  | _ => genericNode (equilibriumSteady gamma)

end NATriuM.Legacy
