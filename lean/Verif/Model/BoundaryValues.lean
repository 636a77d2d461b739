import Verif.Model.Walls
import Mathlib.Algebra.Order.Field.Basic

/-!
# Model of the flow variables at boundaries, of the prescribed values, and of the application of boundaries in semi-Lagrangian streaming

`P` stands for `src/library/natrium` in `/repo`.  Doubles are elements of an ordered field `K`.  Where the code would divide by zero, and go
on with values that are not finite, the model stops with the error `notFinite`.  `debug` says whether the code is compiled with assertions.
-/

namespace NATriuM.BoundaryValues

open Finset NATriuM.Walls

/-! ## Flags -/

/-- `BoundaryFlags`, `P/boundaries/BoundaryFlags.h:20-54`: an unsigned integer with the bitwise operators `|` and `&` -/
abbrev Flags := ℕ

/-- `P/boundaries/BoundaryFlags.h:21` -/
def onlyDistributions : Flags := 0x0000
/-- `P/boundaries/BoundaryFlags.h:22` -/
def boundaryRho : Flags := 0x0001
/-- `P/boundaries/BoundaryFlags.h:23` -/
def boundaryU : Flags := 0x0002
/-- `P/boundaries/BoundaryFlags.h:24` -/
def boundaryDuDx : Flags := 0x0004
/-- `P/boundaries/BoundaryFlags.h:25` -/
def boundaryDRhoDt : Flags := 0x0008
/-- `P/boundaries/BoundaryFlags.h:26` -/
def boundaryDuDt : Flags := 0x0010
/-- `P/boundaries/BoundaryFlags.h:27` -/
def boundaryD2uDxDt : Flags := 0x0020
/-- `P/boundaries/BoundaryFlags.h:28` -/
def boundaryP : Flags := 0x0040
/-- `P/boundaries/BoundaryFlags.h:29` -/
def boundaryDpDt : Flags := 0x0080
/-- `P/boundaries/BoundaryFlags.h:30` -/
def boundaryPUT : Flags := 0x0100

/-- The conversion of `a & b` to `bool` -/
def Flags.has (flags a : Flags) : Bool := a &&& flags ≠ 0

/-! ## Flow variables at a boundary point -/

/-- Errors of `FEBoundaryValues` -/
inductive BVError
  /-- a failed `assert` -/
  | assertion
  /-- a gradient or hessian that the `FEValues` object was not told to compute -/
  | notComputed
  /-- a division by zero -/
  | notFinite
  deriving DecidableEq

/-- `m_feValues` at one point, `P/boundaries/FEBoundaryValues.h:80-84`: `shape_value`, `shape_grad` and `shape_hessian` of the degrees of
freedom of the cell -/
structure Shape (K : Type*) (D n : ℕ) where
  value : Fin n → K
  grad : Fin n → Fin D → K
  hess : Fin n → Fin D → Fin D → K

/-- What a `FEBoundaryValues` object knows of the cell and of the flow: `GlobalBoundaryData`, `P/boundaries/BoundaryTools.h:235-287`, and the
members set by the constructor, `P/boundaries/FEBoundaryValues.h:74-89`.  `f i j` is `m_fold.at(i)(m_localDofs.at(j))`; `m_cs2` and `m_Q` are
those of the stencil. -/
structure Cell (K : Type*) (D Q n : ℕ) where
  S : Stencil K D Q
  viscosity : K
  dt : K
  f : Fin Q → Fin n → K
  flags : Flags
  debug : Bool

/-- The members that are calculated, `P/boundaries/FEBoundaryValues.h:40-61` -/
structure State (K : Type*) (D n : ℕ) where
  upToDate : Flags
  rhoDof : Fin n → K
  rho : K
  rhoUDof : Fin n → Fin D → K
  rhoU : Fin D → K
  uDof : Fin n → Fin D → K
  u : Fin D → K
  drhodt : K
  dudt : Fin D → K

section

variable {K : Type*} [Field K] [LinearOrder K] {D Q n : ℕ}

/-- `resize` and `setToZero` in the constructor, `P/boundaries/FEBoundaryValues.h:86-87, 99-119`.  `m_upToDate` has no value yet; `reinit`
sets it. -/
def State.init : State K D n where
  upToDate := 0
  rhoDof := fun _ => 0
  rho := 0
  rhoUDof := fun _ _ => 0
  rhoU := fun _ => 0
  uDof := fun _ _ => 0
  u := fun _ => 0
  drhodt := 0
  dudt := fun _ => 0

/-- `assert`, followed by the rest of the function -/
def check {α : Type*} (debug : Bool) (p : Bool) (rest : Except BVError α) : Except BVError α :=
  if debug && !p then .error .assertion else rest

/-- `getFEValuesFlags`, `P/boundaries/FEBoundaryValues.h:238-248`: are gradients computed? -/
def hasGradients (flags : Flags) : Bool := flags.has boundaryDRhoDt || flags.has boundaryDuDt

/-- `getFEValuesFlags`, `P/boundaries/FEBoundaryValues.h:238-248`: are hessians computed? -/
def hasHessians (flags : Flags) : Bool := flags.has boundaryDuDt

/-- `getDistribution`, `P/boundaries/FEBoundaryValues.h:215-226` -/
def getDistribution (c : Cell K D Q n) (p : Shape K D n) (i : Fin Q) : K := ∑ j, c.f i j * p.value j

/-- The density at the degrees of freedom, `P/boundaries/FEBoundaryValues.h:265-273` -/
def densityDof (c : Cell K D Q n) : Fin n → K := fun j => ∑ i, c.f i j

/-- `calculateRho`, `P/boundaries/FEBoundaryValues.h:252-277` -/
def calculateRho (c : Cell K D Q n) (p : Shape K D n) (s : State K D n) : Except BVError (State K D n) :=
  check c.debug (!s.upToDate.has boundaryRho) <| check c.debug (0 < c.viscosity) <| check c.debug (0 < c.dt) <|
  .ok { s with rhoDof := densityDof c, rho := ∑ j, densityDof c j * p.value j, upToDate := s.upToDate ||| boundaryRho }

/-- The momentum at the degrees of freedom, `P/boundaries/FEBoundaryValues.h:298-311` -/
def momentumDof (c : Cell K D Q n) : Fin n → Fin D → K := fun j a => ∑ i, c.f i j * c.S.dir i a

/-- The velocity at the degrees of freedom, `P/boundaries/FEBoundaryValues.h:312-313` -/
def velocityDof (c : Cell K D Q n) (s : State K D n) : Fin n → Fin D → K := fun j a => momentumDof c j a / s.rhoDof j

/-- The members after the loop of `calculateU`, `P/boundaries/FEBoundaryValues.h:296-317` -/
def afterU (c : Cell K D Q n) (p : Shape K D n) (s : State K D n) : State K D n :=
  { s with
    rhoUDof := momentumDof c
    uDof := velocityDof c s
    rhoU := fun a => ∑ j, momentumDof c j a * p.value j
    u := fun a => ∑ j, velocityDof c s j a * p.value j
    upToDate := s.upToDate ||| boundaryU }

/-- The assertion of `calculateU`, `P/boundaries/FEBoundaryValues.h:318`; the norm is compared by its square. -/
def velocityConsistent (s : State K D n) : Bool := ∑ a, (s.u a * s.rho - s.rhoU a) ^ 2 < (1 / 10 ^ 10) ^ 2

/-- `calculateU`, `P/boundaries/FEBoundaryValues.h:282-320` -/
def calculateU (c : Cell K D Q n) (p : Shape K D n) (s : State K D n) : Except BVError (State K D n) :=
  check c.debug (s.upToDate.has boundaryRho) <| check c.debug (!s.upToDate.has boundaryU) <| check c.debug (0 < c.viscosity) <|
  check c.debug (0 < c.dt) <|
  if ∃ j, s.rhoDof j = 0 then .error .notFinite
  else check c.debug (velocityConsistent (afterU c p s)) <| .ok (afterU c p s)

/-- `calculateDRhoDt`, `P/boundaries/FEBoundaryValues.h:325-342` -/
def calculateDRhoDt (c : Cell K D Q n) (p : Shape K D n) (s : State K D n) : Except BVError (State K D n) :=
  check c.debug (!s.upToDate.has boundaryDRhoDt) <| check c.debug (s.upToDate.has boundaryU) <|
  if !hasGradients c.flags then .error .notComputed
  else .ok { s with drhodt := (∑ j, ∑ a, p.grad j a * s.rhoUDof j a) * -1, upToDate := s.upToDate ||| boundaryDRhoDt }

/-- One component of `m_dudt`, `P/boundaries/FEBoundaryValues.h:356-379` -/
def dudtComponent (c : Cell K D Q n) (p : Shape K D n) (s : State K D n) (a : Fin D) : K :=
  ((∑ j, ∑ k, (p.hess j k k * s.uDof j a + p.hess j a k * s.uDof j k)) * -c.viscosity
    + ∑ j, ((∑ k, s.u k * p.grad j k * s.uDof j a) + c.S.cs2 / s.rho * p.grad j a * s.rhoDof j)) * -1

/-- `calculateDuDt`, `P/boundaries/FEBoundaryValues.h:347-382` -/
def calculateDuDt (c : Cell K D Q n) (p : Shape K D n) (s : State K D n) : Except BVError (State K D n) :=
  check c.debug (!s.upToDate.has boundaryDuDt) <| check c.debug (s.upToDate.has boundaryU) <| check c.debug (s.upToDate.has boundaryRho) <|
  if !(hasGradients c.flags && hasHessians c.flags) then .error .notComputed
  else if s.rho = 0 then .error .notFinite
  else .ok { s with dudt := dudtComponent c p s, upToDate := s.upToDate ||| boundaryDuDt }

/-- `if (b) step();` after the steps before -/
def andIf (r : Except BVError (State K D n)) (b : Bool) (step : State K D n → Except BVError (State K D n)) :
    Except BVError (State K D n) :=
  match r with
  | .error e => .error e
  | .ok s => if b then step s else .ok s

/-- The steps of `reinit`, `P/boundaries/FEBoundaryValues.h:142-162` -/
def reinitSteps (c : Cell K D Q n) (p : Shape K D n) (s : State K D n) : Except BVError (State K D n) :=
  andIf (andIf (andIf (andIf (.ok { s with upToDate := onlyDistributions })
    (c.flags ≠ onlyDistributions) (calculateRho c p))
    (c.flags.has boundaryDRhoDt || c.flags.has boundaryU || c.flags.has boundaryDuDt) (calculateU c p))
    (c.flags.has boundaryDRhoDt) (calculateDRhoDt c p))
    (c.flags.has boundaryDuDt) (calculateDuDt c p)

/-- `reinit`, `P/boundaries/FEBoundaryValues.h:142-164`.  The members keep the values of the previous point unless they are calculated. -/
def reinit (c : Cell K D Q n) (p : Shape K D n) (s : State K D n) : Except BVError (State K D n) :=
  match reinitSteps c p s with
  | .error e => .error e
  | .ok s => check c.debug (c.flags = s.upToDate) (.ok s)

end

/-! ## Prescribed values -/

/-- `PrescribedBoundaryValues`, `P/boundaries/BoundaryFlags.h:59-66`.  A function pointer is empty or a function of the position; time is
left out. -/
structure Prescribed (K : Type*) (D : ℕ) where
  prescribed : Flags
  pressure : Option ((Fin D → K) → K)
  velocity : Option ((Fin D → K) → Fin D → K)
  temperature : Option ((Fin D → K) → K)
  velocityGradient : Option ((Fin D → K) → Fin D → Fin D → K)

/-- A `dealii::Function` with its number of components -/
structure Func (K : Type*) (D : ℕ) where
  components : ℕ
  value : (Fin D → K) → Fin components → K

/-- The `NATriuMException` of the constructor with a function -/
inductive PrescribedError
  | components
  deriving DecidableEq

namespace Prescribed

variable {K : Type*} {D : ℕ}

/-- The empty constructor, `P/boundaries/BoundaryFlags.h:72-74` -/
def empty : Prescribed K D := ⟨onlyDistributions, none, none, none, none⟩

/-- The copy constructor, `P/boundaries/BoundaryFlags.h:79-84`: the temperature stays empty -/
def copy (p : Prescribed K D) : Prescribed K D :=
  { empty with
    prescribed := p.prescribed, pressure := p.pressure, velocity := p.velocity, velocityGradient := p.velocityGradient }

/-- The constructor with a function, `P/boundaries/BoundaryFlags.h:91-104` -/
def ofFunction (f : Func K D) : Except PrescribedError (Prescribed K D) :=
  if h : f.components = 1 then .ok { empty with pressure := some fun x => f.value x ⟨0, by omega⟩, prescribed := boundaryP }
  else if h : f.components = D then .ok { empty with velocity := some fun x a => f.value x (a.cast h.symm), prescribed := boundaryU }
  else .error .components

/-- The constructor with a tensor function, `P/boundaries/BoundaryFlags.h:109-113` -/
def ofGradientFunction (f : (Fin D → K) → Fin D → Fin D → K) : Prescribed K D :=
  { empty with velocityGradient := some f, prescribed := boundaryDuDx }

/-- The constructor with a number, `P/boundaries/BoundaryFlags.h:119-123`, with `BoundaryPressure`, `P/boundaries/BoundaryTools.h:63-79` -/
def ofPressure (p : K) : Prescribed K D := { empty with pressure := some fun _ => p, prescribed := boundaryP }

/-- The constructors with a tensor or a vector, `P/boundaries/BoundaryFlags.h:129-133, 153-157`, with `BoundaryVelocity`,
`P/boundaries/BoundaryTools.h:98-124` -/
def ofVelocity (u : Fin D → K) : Prescribed K D := { empty with velocity := some fun _ => u, prescribed := boundaryU }

/-- The constructor with pressure, velocity and temperature, `P/boundaries/BoundaryFlags.h:139-147`: the function for the temperature is made
from the pressure (`BoundaryTemperature`, `P/boundaries/BoundaryTools.h:81-97`) -/
def ofPUT (p : K) (u : Fin D → K) (_T : K) : Prescribed K D :=
  { empty with
    pressure := some fun _ => p, velocity := some fun _ => u, temperature := some fun _ => p, prescribed := boundaryPUT }

/-- The constructor with a tensor of rank 2, `P/boundaries/BoundaryFlags.h:163-167`, with `BoundaryVelocityGradient`,
`P/boundaries/BoundaryTools.h:126-140` -/
def ofGradient (g : Fin D → Fin D → K) : Prescribed K D := { empty with velocityGradient := some fun _ => g, prescribed := boundaryDuDx }

/-- `operator+`, `P/boundaries/BoundaryFlags.h:172-179`: the object to which the returned reference refers -/
def add (p q : Prescribed K D) : Prescribed K D := { empty with prescribed := p.prescribed ||| q.prescribed }

end Prescribed

/-- What `getBoundaryValues` of a `Boundary` returns that was constructed with `values`, `P/boundaries/Boundary.h:87-92, 109-111`: the
member is a copy. -/
def boundaryValues {K : Type*} {D : ℕ} (values : Prescribed K D) : Prescribed K D := values.copy

/-- The constructor of `VelocityNeqBounceBack`, `P/boundaries/VelocityNeqBounceBack.cpp:14-23`: a failed construction of the prescribed
values, a failed assertion, or the values of the boundary -/
def velocityBoundary {K : Type*} {D : ℕ} (f : Func K D) : Except (PrescribedError ⊕ BVError) (Prescribed K D) :=
  match Prescribed.ofFunction f with
  | .error e => .error (.inl e)
  | .ok p => if (boundaryValues p).velocity.isSome then .ok (boundaryValues p) else .error (.inr .assertion)

/-! ## Application of the boundaries -/

/-- The boundaries of the library, and boundaries that do not support semi-Lagrangian streaming -/
inductive Wall (K : Type*) (D : ℕ)
  /-- `PeriodicBoundary` -/
  | periodic
  /-- `VelocityNeqBounceBack` -/
  | velocity (v : K → (Fin D → K) → Fin D → K)
  /-- `SLFirstOrderBounceBack` -/
  | firstOrder
  /-- `DoNothingBoundary` -/
  | doNothing
  /-- `SLEquilibriumBoundary` -/
  | equilibrium (T : K) (v : K → (Fin D → K) → Fin D → K)
  /-- `ThermalBounceBack` -/
  | thermal (Tw : K)
  /-- a boundary for the discontinuous Galerkin scheme only -/
  | dgOnly

/-- `isPeriodic`, `P/boundaries/PeriodicBoundary.h:155-157`, `P/boundaries/VelocityNeqBounceBack.h:60-62`,
`P/boundaries/SLFirstOrderBounceBack.h:42-44`, `P/boundaries/DoNothingBoundary.h:42-44`, `P/boundaries/SLEquilibriumBoundary.h:43-45`,
`P/boundaries/ThermalBounceBack.h:60-62` -/
def Wall.isPeriodic {K : Type*} {D : ℕ} : Wall K D → Bool
  | .periodic => true
  | _ => false

/-- `isSLSupported`, `P/boundaries/PeriodicBoundary.h:161-163`, `P/boundaries/VelocityNeqBounceBack.h:72-74`,
`P/boundaries/SLFirstOrderBounceBack.h:54-56`, `P/boundaries/DoNothingBoundary.h:54-56`, `P/boundaries/SLEquilibriumBoundary.h:55-57`,
`P/boundaries/ThermalBounceBack.h:72-74` -/
def Wall.isSLSupported {K : Type*} {D : ℕ} : Wall K D → Bool
  | .periodic => false
  | .dgOnly => false
  | _ => true

/-- `getUpdateFlags`, `P/boundaries/VelocityNeqBounceBack.h:137-140`, `P/boundaries/SLFirstOrderBounceBack.h:63-65`,
`P/boundaries/DoNothingBoundary.h:63-65`, `P/boundaries/SLEquilibriumBoundary.h:61-64`, `P/boundaries/ThermalBounceBack.h:88-91`; it is
only called for boundaries that support semi-Lagrangian streaming. -/
def Wall.updateFlags {K : Type*} {D : ℕ} : Wall K D → Flags
  | .thermal _ => boundaryRho
  | _ => onlyDistributions

/-- Errors of the boundary handler -/
inductive OperateError
  /-- `BoundaryCollectionException` of `getBoundary` -/
  | noBoundary
  /-- the `NATriuMException` for boundaries without semi-Lagrangian support -/
  | notSupported
  /-- raised by `FEBoundaryValues` -/
  | values (e : BVError)
  /-- raised by the boundary -/
  | wall (e : WallError)
  /-- a failed `assert` -/
  | assertion
  deriving DecidableEq

/-- What the handler reads of a `BoundaryHit`, `P/boundaries/BoundaryHit.h:18-28`: boundary id, destination and the time of the hit -/
structure HitRecord (K : Type*) (Q : ℕ) (ι : Type*) where
  boundary : ℕ
  dir : Fin Q
  dof : ι
  eps : K

/-- The hits at one point, with the shape functions there -/
structure PointHits (K : Type*) (D Q n : ℕ) (ι : Type*) where
  point : HitPoint K D
  shape : Shape K D n
  hits : List (HitRecord K Q ι)

/-- The hits at one cell.  `faces` has an entry for each face: `none` in the interior, or the boundary id.  `localDofs` are the degrees of
freedom of the cell. -/
structure CellHits (K : Type*) (D Q : ℕ) (ι : Type*) where
  n : ℕ
  faces : List (Option ℕ)
  localDofs : Fin n → ι
  points : List (PointHits K D Q n ι)

/-- The handler and its arguments: the boundaries, the stencil, the time step, the time `t`, the populations of the previous time step,
the equilibrium of the thermal wall, and whether assertions are compiled -/
structure Handler (K : Type*) (D Q : ℕ) (ι : Type*) where
  boundaries : ℕ → Option (Wall K D)
  S : Stencil K D Q
  timeStep : K
  t : K
  fold : Store K Q ι
  eq : Equilibrium K D Q
  debug : Bool

section

variable {K : Type*} [Field K] [LinearOrder K] {D Q : ℕ} {ι : Type*} [DecidableEq ι]

/-- The flags of one cell, `P/boundaries/SemiLagrangianBoundaryHandler.cpp:55-70` -/
def cellFlags (h : Handler K D Q ι) : List (Option ℕ) → Flags → Except OperateError Flags
  | [], flags => .ok flags
  | none :: rest, flags => cellFlags h rest flags
  | some b :: rest, flags =>
    match h.boundaries b with
    | none => .error .noBoundary
    | some w =>
      if w.isPeriodic then cellFlags h rest flags
      else if w.isSLSupported then cellFlags h rest (flags ||| w.updateFlags)
      else .error .notSupported

/-- `calculateBoundaryValues` of the boundaries; the populations are `f` and `g`
(`P/boundaries/SemiLagrangianBoundaryHandler.cpp:33-39`). -/
def applyWall (h : Handler K D Q ι) (w : Wall K D) (p : HitPoint K D) (r : HitRecord K Q ι) (fg : Store K Q ι × Store K Q ι) :
    Except OperateError (Store K Q ι × Store K Q ι) :=
  match w with
  | .velocity v => .ok (velocityWall h.S v p r.dir r.dof r.eps h.t fg.1, fg.2)
  | .firstOrder => .ok (firstOrderBounceBack h.S r.dir r.dof fg.1, fg.2)
  | .doNothing => .ok (doNothing r.dir r.dof fg.1, fg.2)
  | .equilibrium T v => .ok (equilibriumBoundary h.S T v p r.dir r.dof r.eps h.t fg.1, fg.2)
  | .thermal Tw =>
    match thermalWall h.eq h.S Tw r.dof fg.1 fg.2 with
    | .error e => .error (.wall e)
    | .ok fg => .ok fg
  | .periodic => .error .assertion
  | .dgOnly => .error .assertion

/-- One hit, `P/boundaries/SemiLagrangianBoundaryHandler.cpp:97-104`.  Without assertions an unsupported boundary throws from
`Boundary::calculateBoundaryValues` (`P/boundaries/Boundary.h:223-228`); both are one error here. -/
def applyHit (h : Handler K D Q ι) (p : HitPoint K D) (r : HitRecord K Q ι) (fg : Store K Q ι × Store K Q ι) :
    Except OperateError (Store K Q ι × Store K Q ι) :=
  match h.boundaries r.boundary with
  | none => .error .noBoundary
  | some w => applyWall h w p r fg

/-- The hits at one point -/
def applyHits (h : Handler K D Q ι) (p : HitPoint K D) : List (HitRecord K Q ι) → Store K Q ι × Store K Q ι →
    Except OperateError (Store K Q ι × Store K Q ι)
  | [], fg => .ok fg
  | r :: rest, fg =>
    match applyHit h p r fg with
    | .error e => .error e
    | .ok fg => applyHits h p rest fg

/-- The `FEBoundaryValues` object of a cell, `P/boundaries/SemiLagrangianBoundaryHandler.cpp:83-86`; the viscosity is a literal,
`P/boundaries/SemiLagrangianBoundaryHandler.cpp:29, 37`. -/
def cellData (h : Handler K D Q ι) (c : CellHits K D Q ι) (flags : Flags) : Cell K D Q c.n where
  S := h.S
  viscosity := 1 / 10
  dt := h.timeStep
  f := fun i j => h.fold i (c.localDofs j)
  flags := flags
  debug := h.debug

/-- The points of one cell, `P/boundaries/SemiLagrangianBoundaryHandler.cpp:88-106` -/
def applyPoints (h : Handler K D Q ι) {n : ℕ} (c : Cell K D Q n) : List (PointHits K D Q n ι) → State K D n →
    Store K Q ι × Store K Q ι → Except OperateError (Store K Q ι × Store K Q ι)
  | [], _, fg => .ok fg
  | p :: rest, s, fg =>
    match reinit c p.shape s with
    | .error e => .error (.values e)
    | .ok s =>
      match applyHits h p.point p.hits fg with
      | .error e => .error e
      | .ok fg => applyPoints h c rest s fg

/-- One cell, `P/boundaries/SemiLagrangianBoundaryHandler.cpp:48-106` -/
def applyCell (h : Handler K D Q ι) (c : CellHits K D Q ι) (fg : Store K Q ι × Store K Q ι) :
    Except OperateError (Store K Q ι × Store K Q ι) :=
  match cellFlags h c.faces onlyDistributions with
  | .error e => .error e
  | .ok flags => applyPoints h (cellData h c flags) c.points State.init fg

/-- `operate`, `P/boundaries/SemiLagrangianBoundaryHandler.cpp:42-109` -/
def operate (h : Handler K D Q ι) : List (CellHits K D Q ι) → Store K Q ι × Store K Q ι →
    Except OperateError (Store K Q ι × Store K Q ι)
  | [], fg => .ok fg
  | c :: rest, fg =>
    match applyCell h c fg with
    | .error e => .error e
    | .ok fg => operate h rest fg

end

end NATriuM.BoundaryValues
