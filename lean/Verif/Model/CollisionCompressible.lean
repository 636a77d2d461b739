import Verif.Model.CollisionSelection
import Mathlib.Analysis.SpecialFunctions.Pow.Real

/-!
# Model of the compressible collision step (`P/collision_advanced`, functions with two distributions `f`, `g`)

`f` carries mass and momentum, `g` the internal energy of the non-translational degrees of freedom.  Only `BGKCollision` has the
member `relaxWithG`, and only `BGKCollision` is instantiated by the compressible selection tables.
-/

namespace NATriuM

open Finset

section

variable {K : Type*} [Field K] {D Q : ℕ}

/-- `calculateGeqFromFeq`, `P/collision_advanced/AuxiliaryCollisionFunctions.h:420-431` -/
def calculateGeqFromFeq (gamma T : K) (feq : Fin Q → K) : Fin Q → K :=
  fun i => feq i * T * (2 * (1 / (gamma - 1)) - D)

/-- `calculateCenteredHeatFluxTensor`, `P/collision_advanced/AuxiliaryCollisionFunctions.h:445-460` (accumulates into an array of
zeros) -/
def calculateCenteredHeatFluxTensor (d : CollData K D Q) (u : Fin D → K) (f : Fin Q → K) (a b c : Fin D) : K :=
  ∑ i, (d.e i a - u a) * (d.e i b - u b) * (d.e i c - u c) * f i

/-- `calculateCenteredMomentumFlux`, `P/collision_advanced/AuxiliaryCollisionFunctions.h:462-472` -/
def calculateCenteredMomentumFlux (d : CollData K D Q) (u : Fin D → K) (g : Fin Q → K) (a : Fin D) : K :=
  ∑ i, (d.e i a - u a) * g i

/-- `calculateKnudsenNumberEstimate`, `P/collision_advanced/AuxiliaryCollisionFunctions.h:474-481` (`abs` is `std::abs`) -/
def calculateKnudsenNumberEstimate [LinearOrder K] (f feq weight : Fin Q → K) : K :=
  (∑ i, |f i - feq i| / weight i) / Q

/-- `calculateFStar`, `P/collision_advanced/AuxiliaryCollisionFunctions.h:484-501` -/
def calculateFStar (d : CollData K D Q) (q : Fin D → Fin D → Fin D → K) (i : Fin Q) : K :=
  ∑ a, ∑ b, ∑ c, d.weight i * (q a b c * (d.e i a * d.e i b * d.e i c - 3 * d.cs2 * d.e i c * eye a b))
    / (6 * d.cs2 * d.cs2 * d.cs2)

/-- `calculateGStar`, `P/collision_advanced/AuxiliaryCollisionFunctions.h:503-515` -/
def calculateGStar (d : CollData K D Q) (T : K) (flux : Fin D → K) (i : Fin Q) : K :=
  ∑ a, d.weight i * (flux a * d.e i a) / T

end

/-- The configuration parameters the compressible collision reads. -/
structure CompressibleConfig where
  /-- `getHeatCapacityRatioGamma` -/
  gamma : ℝ
  /-- `getPrandtlNumber` if `isPrandtlNumberSet`; otherwise the getter still yields its default, which multiplies zero
  distributions only -/
  prandtl : Option ℝ
  /-- `isSutherlandLawSet` -/
  sutherland : Bool

section

variable {D Q : ℕ}

/-- `visc_tau` of `relaxWithG`, `P/collision_advanced/CollisionSchemes.h:81-88` -/
noncomputable def viscTau (cc : CompressibleConfig) (tau : ℝ) (m : Macro ℝ D) : ℝ :=
  let sutherlandFactor : ℝ := if cc.sutherland then (m.T / (85 / 100)) ^ (7 / 10 : ℝ) else 1
  (tau - 1 / 2) * sutherlandFactor / (m.T * m.rho) + 1 / 2

/-- `BGKCollision::relaxWithG`, `P/collision_advanced/CollisionSchemes.h:43-118`.  Without a Prandtl number `fStar` and `gStar` are zero,
so that the value of `prandtl_diff` does not matter.  `tau_factor` (lines 91-97) is computed but not used, and left out.
Returns the new populations and `maskShockSensor`. -/
noncomputable def relaxWithG (cc : CompressibleConfig) (eq : Equilibrium ℝ D Q) (d : CollData ℝ D Q) (m : Macro ℝ D)
    (f g : Fin Q → ℝ) : (Fin Q → ℝ) × (Fin Q → ℝ) × ℝ :=
  let feq := eq d m
  let geq := calculateGeqFromFeq (D := D) cc.gamma m.T feq
  let fNeq := fun p => f p - feq p
  let gNeq := fun p => g p - geq p
  let fStar : Fin Q → ℝ := match cc.prandtl with
    | some _ => calculateFStar d (calculateCenteredHeatFluxTensor d m.u fNeq)
    | none => fun _ => 0
  let gStar : Fin Q → ℝ := match cc.prandtl with
    | some _ => calculateGStar d m.T (calculateCenteredMomentumFlux d m.u gNeq)
    | none => fun _ => 0
  let visc := viscTau cc d.tau m
  let prandtlTau := (visc - 1 / 2) / cc.prandtl.getD 1 + 1 / 2
  let prandtlDiff := 1 / visc - 1 / prandtlTau
  (fun p => f p - (1 / visc * fNeq p - prandtlDiff * fStar p),
   fun p => g p - (1 / visc * gNeq p - prandtlDiff * gStar p),
   calculateKnudsenNumberEstimate f feq d.weight)

/-- What the compressible sweep reads and writes at one node. -/
@[ext] structure GNode (D Q : ℕ) where
  f : Fin Q → ℝ
  g : Fin Q → ℝ
  rho : ℝ
  u : Fin D → ℝ
  T : ℝ
  shock : ℝ

/-- The body of the loop in the compressible `CollisionOperator::collideAll`, `P/collision_advanced/CollisionOperator.h:153-216`.
The temperature is computed with the velocity before forces or initial values enter. -/
noncomputable def collideNodeG (velocity : CollData ℝ D Q → (Fin Q → ℝ) → ℝ → Fin D → ℝ) (eq : Equilibrium ℝ D Q)
    (cc : CompressibleConfig) (d : CollData ℝ D Q) (hasForce inInit : Bool) (n : GNode D Q) : Except CollError (GNode D Q) := do
  let rho ← calculateDensity n.f
  let u := velocity d n.f rho
  let T := calculateTemperature d cc.gamma n.f n.g u rho
  let (m, uGlobal) ←
    if inInit then
      pure (({ rho := rho, u := fun j => n.u j / d.scaling, T := T } : Macro ℝ D), n.u)
    else do
      let m : Macro ℝ D := { rho := rho, u := u, T := T }
      let uGlobal : Fin D → ℝ := fun j => u j * d.scaling
      if hasForce then
        let uGlobal ← applyMacroscopicForces d rho uGlobal
        let m ← applyForces d m
        pure (m, uGlobal)
      else pure (m, uGlobal)
  let (f, g, shock) := relaxWithG cc eq d m n.f n.g
  if hasForce then
    let (f, uGlobal) ← postCollisionApplyForces eq d m (eq d m) f uGlobal
    pure { f := f, g := g, rho := rho, u := uGlobal, T := T, shock := shock }
  else pure { f := f, g := g, rho := rho, u := uGlobal, T := T, shock := shock }

/-- One iteration of the loop; the state is the global vectors and `genData.density`. -/
noncomputable def sweepStepG {ι : Type*} [DecidableEq ι] (step : GNode D Q → Except CollError (GNode D Q))
    (s : (ι → GNode D Q) × ℝ) (ii : ι) : Except CollError ((ι → GNode D Q) × ℝ) :=
  match step (s.1 ii) with
  | .error err => .error err
  | .ok n => .ok (Function.update s.1 ii n, n.rho)

/-- The compressible `CollisionOperator::collideAll`, `P/collision_advanced/CollisionOperator.h:113-224`. -/
noncomputable def collideAllG {ι : Type*} [DecidableEq ι] (step : GNode D Q → Except CollError (GNode D Q)) (owned : List ι)
    (nodes : ι → GNode D Q) : Except CollError (ι → GNode D Q) :=
  match owned.foldlM (sweepStepG step) (nodes, 0) with
  | .error err => .error err
  | .ok (nodes', density) => if density ≤ 1 / 10 ^ 10 then .error .densityZero else .ok nodes'

end

/-- One compressible collision step: `selectCollision` with two distributions, `P/collision_advanced/CollisionSelection.h:124-163,
234-268`.  For collision classes other than `BGKCollision` the code would not compile; the tables contain none. -/
noncomputable def compressibleCollide {ι : Type*} [DecidableEq ι] (t : StencilType) (c viscosity dt : ℝ) (cfg : CollisionConfig t.D)
    (cc : CompressibleConfig) (inInit : Bool) (owned : List ι) (nodes : ι → GNode t.D t.Q) : Except CollError (ι → GNode t.D t.Q) :=
  let d := collisionData t c viscosity dt cfg
  selectCollision (compSelection t.D).1 (compSelection t.D).2
    (fun cl ec nodes =>
      match cl with
      | .bgk => collideAllG (collideNodeG t.velocity (t.equilibrium ec) cc d cfg.force.isSome inInit) owned nodes
      | _ => .error .notImplemented)
    { stencil := t, scheme := cfg.scheme, eq := cfg.eq } nodes

end NATriuM
