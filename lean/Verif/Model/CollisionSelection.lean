import Verif.Model.MRT
import Verif.Model.StencilType

/-!
# Model of the selection of the collision operator (`P/collision_advanced/CollisionSelection.h`)
-/

namespace NATriuM

/-- `enum CollisionSchemeName`, `P/utilities/ConfigNames.h:46-61` -/
inductive CollisionSchemeName
  | bgkStandard | bgkStandardTransformed | bgkSteadyState | bgkMultiphase | bgkIncompressible | mrtStandard | mrtEntropic
  | entropicStabilized | kbcStandard | kbcCentral | bgkMultiAM4 | bgkMultiBDF2 | bgkRegularized
  deriving DecidableEq, Repr

/-- The collision class templates of `P/collision_advanced/CollisionSchemes.h`. -/
inductive CollisionClass
  | bgk | regularized | mrt
  deriving DecidableEq, Repr

/-- The equilibrium class templates used by the selection. -/
inductive EquilibriumClass
  | bgk | quartic
  deriving DecidableEq, Repr

/-- The arguments of one use of the macro `DEFINE_POSSIBLE_COLLISION` or `DEFINE_POSSIBLE_COMPRESSIBLE_COLLISION`,
`P/collision_advanced/CollisionSelection.h:26-55`. -/
structure Row where
  D : ℕ
  Q : ℕ
  stencil : StencilType
  scheme : CollisionSchemeName
  eq : EquilibriumSchemeName
  collisionType : CollisionClass
  equilibriumType : EquilibriumClass
  deriving DecidableEq, Repr

/-- rows of `selectCollision<2>` (isothermal), `P/collision_advanced/CollisionSelection.h:85-91` -/
def iso2Rows : List Row :=
  [⟨2, 9, .D2Q9, .bgkStandard, .bgk, .bgk, .bgk⟩,
   ⟨2, 9, .D2Q9, .bgkStandard, .quartic, .bgk, .quartic⟩,
   ⟨2, 9, .D2Q9, .bgkRegularized, .bgk, .regularized, .bgk⟩,
   ⟨2, 9, .D2Q9, .mrtStandard, .bgk, .mrt, .bgk⟩,
   ⟨2, 25, .D2Q25H, .bgkStandard, .quartic, .bgk, .quartic⟩,
   ⟨2, 19, .D2Q19H, .bgkStandard, .quartic, .bgk, .quartic⟩,
   ⟨2, 19, .D2Q19V, .bgkStandard, .quartic, .bgk, .quartic⟩]

/-- rows of `selectCollision<2>` (compressible), `P/collision_advanced/CollisionSelection.h:141-149` -/
def comp2Rows : List Row :=
  [⟨2, 25, .D2Q25H, .bgkStandard, .bgk, .bgk, .bgk⟩,
   ⟨2, 19, .D2Q19H, .bgkStandard, .bgk, .bgk, .bgk⟩,
   ⟨2, 25, .D2Q25H, .bgkStandard, .quartic, .bgk, .quartic⟩,
   ⟨2, 19, .D2Q19H, .bgkStandard, .quartic, .bgk, .quartic⟩,
   ⟨2, 19, .D2Q19V, .bgkStandard, .quartic, .bgk, .quartic⟩,
   ⟨2, 777, .D2Q777, .bgkStandard, .quartic, .bgk, .quartic⟩,
   ⟨2, 25, .D2Q25H, .bgkRegularized, .bgk, .bgk, .bgk⟩]

/-- rows of `selectCollision<3>` (isothermal), `P/collision_advanced/CollisionSelection.h:179-202` -/
def iso3Rows : List Row :=
  [⟨3, 13, .D3Q13, .bgkStandard, .bgk, .bgk, .bgk⟩,
   ⟨3, 15, .D3Q15, .bgkStandard, .bgk, .bgk, .bgk⟩,
   ⟨3, 15, .D3Q15, .bgkRegularized, .bgk, .regularized, .bgk⟩,
   ⟨3, 19, .D3Q19, .bgkStandard, .bgk, .bgk, .bgk⟩,
   ⟨3, 19, .D3Q19, .bgkRegularized, .bgk, .regularized, .bgk⟩,
   ⟨3, 19, .D3Q19, .mrtStandard, .bgk, .mrt, .bgk⟩,
   ⟨3, 21, .D3Q21, .bgkStandard, .bgk, .bgk, .bgk⟩,
   ⟨3, 27, .D3Q27, .bgkStandard, .bgk, .bgk, .bgk⟩,
   ⟨3, 27, .D3Q27, .bgkStandard, .quartic, .bgk, .quartic⟩,
   ⟨3, 27, .D3V27, .bgkStandard, .bgk, .bgk, .bgk⟩,
   ⟨3, 27, .D3V27, .bgkStandard, .quartic, .bgk, .quartic⟩,
   ⟨3, 27, .D3Q27, .bgkRegularized, .bgk, .regularized, .bgk⟩,
   ⟨3, 45, .D3Q45, .bgkStandard, .bgk, .bgk, .bgk⟩,
   ⟨3, 45, .D3Q45, .bgkStandard, .quartic, .bgk, .bgk⟩,
   ⟨3, 77, .D3Q77, .bgkStandard, .bgk, .bgk, .bgk⟩,
   ⟨3, 77, .D3Q77, .bgkStandard, .quartic, .bgk, .bgk⟩]

/-- rows of `selectCollision<3>` (compressible), `P/collision_advanced/CollisionSelection.h:251-253` -/
def comp3Rows : List Row :=
  [⟨3, 45, .D3Q45, .bgkStandard, .quartic, .bgk, .quartic⟩,
   ⟨3, 77, .D3Q77, .bgkStandard, .quartic, .bgk, .quartic⟩]

/-- The three configuration parameters the selection looks at. -/
structure SelectionConfig where
  stencil : StencilType
  scheme : CollisionSchemeName
  eq : EquilibriumSchemeName
  deriving DecidableEq, Repr

/-- the condition of the macro, `P/collision_advanced/CollisionSelection.h:27-29` -/
def Row.applies (r : Row) (cfg : SelectionConfig) : Bool :=
  cfg.stencil = r.stencil ∧ cfg.scheme = r.scheme ∧ cfg.eq = r.eq

/-- The body of `selectCollision`: every row that applies performs its sweep; then the counter `has_collided` is checked.
`checkTwice` tells whether the check `has_collided > 1` is present (it is missing in the isothermal 3D version, where the counter is
a `bool`: `P/collision_advanced/CollisionSelection.h:178, 227-230`).  `sweep` is the construction of the collision data and the
call of `collideAll`. -/
def runRows {σ : Type*} (sweep : CollisionClass → EquilibriumClass → σ → Except CollError σ) (cfg : SelectionConfig) :
    List Row → σ × ℕ → Except CollError (σ × ℕ)
  | [], s => .ok s
  | r :: rs, (s, n) =>
    if r.applies cfg then
      match sweep r.collisionType r.equilibriumType s with
      | .error err => .error err
      | .ok s' => runRows sweep cfg rs (s', n + 1)
    else runRows sweep cfg rs (s, n)

/-- `selectCollision`, `P/collision_advanced/CollisionSelection.h:69-113` (2D), `124-163` (2D compressible), `167-232` (3D),
`234-268` (3D compressible) -/
def selectCollision {σ : Type*} (rows : List Row) (checkTwice : Bool)
    (sweep : CollisionClass → EquilibriumClass → σ → Except CollError σ) (cfg : SelectionConfig) (s : σ) : Except CollError σ :=
  match runRows sweep cfg rows (s, 0) with
  | .error err => .error err
  | .ok (s', n) =>
    if n = 0 then .error .noCollision
    else if checkTwice ∧ n > 1 then .error .noCollision
    else .ok s'

/-- the rows and the check used for dimension `D` -/
def isoSelection : ℕ → List Row × Bool
  | 2 => (iso2Rows, true)
  | _ => (iso3Rows, false)

/-- the rows and the check used for dimension `D` in the compressible solver -/
def compSelection : ℕ → List Row × Bool
  | 2 => (comp2Rows, true)
  | _ => (comp3Rows, true)

namespace StencilType

/-- `calculateVelocity` as selected by the template arguments, `P/collision_advanced/AuxiliaryCollisionFunctions.h:231-287` -/
noncomputable def velocity : (t : StencilType) → CollData ℝ t.D t.Q → (Fin t.Q → ℝ) → ℝ → Fin t.D → ℝ
  | D2Q9 => fun _ => calculateVelocityD2Q9
  | D3Q19 => fun _ => calculateVelocityD3Q19
  | D3Q15 | D3Q27 | D2Q19H | D2Q19V | D2Q777 | D2Q25H | D3Q13 | D3Q21 | RD3Q27 | D3Q45 | D3Q77 | D3V27 => calculateVelocity

/-- `calc` of the equilibrium class as selected by the template arguments, `P/collision_advanced/Equilibria.h` -/
noncomputable def equilibrium : (t : StencilType) → EquilibriumClass → Equilibrium ℝ t.D t.Q
  | D2Q9, .bgk => bgkEquilibriumD2Q9
  | D2Q9, .quartic => quarticEquilibrium2
  | D2Q19H, .quartic => quarticEquilibrium2
  | D2Q19V, .quartic => quarticEquilibrium2
  | D2Q777, .quartic => quarticEquilibrium2
  | D2Q25H, .quartic => quarticEquilibrium2
  | D3Q19, .quartic => quarticEquilibrium3
  | D3Q15, .quartic => quarticEquilibrium3
  | D3Q27, .quartic => quarticEquilibrium3
  | D3Q13, .quartic => quarticEquilibrium3
  | D3Q21, .quartic => quarticEquilibrium3
  | RD3Q27, .quartic => quarticEquilibrium3
  | D3Q45, .quartic => quarticEquilibrium3
  | D3Q77, .quartic => quarticEquilibrium3
  | D3V27, .quartic => quarticEquilibrium3
  | D3Q19, .bgk => bgkEquilibrium
  | D3Q15, .bgk => bgkEquilibrium
  | D3Q27, .bgk => bgkEquilibrium
  | D2Q19H, .bgk => bgkEquilibrium
  | D2Q19V, .bgk => bgkEquilibrium
  | D2Q777, .bgk => bgkEquilibrium
  | D2Q25H, .bgk => bgkEquilibrium
  | D3Q13, .bgk => bgkEquilibrium
  | D3Q21, .bgk => bgkEquilibrium
  | RD3Q27, .bgk => bgkEquilibrium
  | D3Q45, .bgk => bgkEquilibrium
  | D3Q77, .bgk => bgkEquilibrium
  | D3V27, .bgk => bgkEquilibrium

/-- Construction of `MultipleRelaxationTime::SpecificCollisionData`, `P/collision_advanced/CollisionSchemes.h:217-235`; for the other
stencils the primary templates of `make_M` throw (`P/collision_advanced/AuxiliaryMRTFunctions.cpp:215-219`). -/
noncomputable def mrtRelaxation : (t : StencilType) → MRTBasis → RelaxMode → ℝ → Except CollError (Relaxation ℝ t.D t.Q)
  | D2Q9, b, r, tau => do
    let M ← MRT.makeM9 b
    let T ← MRT.makeT9 b
    let omega ← MRT.makeDiag9 tau b r
    pure (mrtRelax M T omega)
  | D3Q19, b, r, tau => do
    let M ← MRT.makeM19 b
    let T ← MRT.makeT19 b
    let omega ← MRT.makeDiag19 tau b r
    pure (mrtRelax M T omega)
  | _, _, _, _ => .error .mrt

/-- Construction of the `SpecificCollisionData` of the collision class and its function `relax`. -/
noncomputable def relaxation (t : StencilType) (b : MRTBasis) (r : RelaxMode) (tau : ℝ) :
    CollisionClass → Except CollError (Relaxation ℝ t.D t.Q)
  | .bgk => .ok bgkRelax
  | .regularized => .ok regularizedRelax
  | .mrt => t.mrtRelaxation b r tau

end StencilType

/-- The configuration of an isothermal collision step. -/
structure CollisionConfig (D : ℕ) where
  /-- `getCollisionScheme` -/
  scheme : CollisionSchemeName
  /-- `getEquilibriumScheme` -/
  eq : EquilibriumSchemeName
  /-- `getMRTBasis` -/
  mrtBasis : MRTBasis
  /-- `getMRTRelaxationTimes` -/
  relaxMode : RelaxMode
  /-- `getForcingScheme` -/
  forceType : ForceType
  /-- `getBGKSteadyStateGamma` -/
  gamma : ℝ
  /-- the external force of the problem, if it has one -/
  force : Option (Fin D → ℝ)

/-- the collision data constructed in `selectCollision` from the stencil object of class `t` with scaling `c`, the problem and the
configuration -/
noncomputable def collisionData (t : StencilType) (c viscosity dt : ℝ) (cfg : CollisionConfig t.D) : CollData ℝ t.D t.Q :=
  CollData.mk' (t.stencil c) viscosity dt cfg.eq cfg.gamma cfg.forceType cfg.force

/-- One isothermal collision step of the solver with the stencil class `t` and scaling `c`: `selectCollision` called by
`CFDSolver::collide`.  The body of the macro constructs the collision data, then the specific data, then sweeps
(`P/collision_advanced/CollisionSelection.h:26-39`).  The configured stencil is the class of the stencil object, because the
solver constructs the object from the configuration (`P/solver/CFDSolver.cpp:129-178`). -/
noncomputable def isothermalCollide {ι : Type*} [DecidableEq ι] (t : StencilType) (c viscosity dt : ℝ)
    (cfg : CollisionConfig t.D) (inInit : Bool) (owned : List ι) (nodes : ι → Node ℝ t.D t.Q) :
    Except CollError (ι → Node ℝ t.D t.Q) :=
  let d := collisionData t c viscosity dt cfg
  selectCollision (isoSelection t.D).1 (isoSelection t.D).2
    (fun cc ec nodes =>
      match t.relaxation cfg.mrtBasis cfg.relaxMode d.tau cc with
      | .error err => .error err
      | .ok relax =>
        collideAll { velocity := t.velocity, eq := t.equilibrium ec, relax := relax } d cfg.force.isSome inInit owned nodes)
    { stencil := t, scheme := cfg.scheme, eq := cfg.eq } nodes

end NATriuM
