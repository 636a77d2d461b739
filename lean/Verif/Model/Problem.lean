import Mathlib.Algebra.Field.Basic
import Mathlib.Data.Nat.Bitwise
import Mathlib.Logic.Function.Basic

/-!
# Model of the problem description

The registry of boundary conditions, the check of the boundary ids, the external force, flags and prescribed values at boundaries.
Paths are relative to `/repo/src/library/natrium`, abbreviated `P`.
Boundary objects are represented by a tag, which stands for the address of the object.  Assertions (`assert`) are not modelled: release build.
-/

namespace NATriuM
namespace Problem

/-! ## Registry of boundary conditions -/

/-- A boundary object -/
inductive Boundary
  /-- An object of class `PeriodicBoundary` -/
  | periodic (tag : ℕ)
  /-- An object of any other class -/
  | plain (tag : ℕ)
  deriving DecidableEq

/-- `isPeriodic`, `P/boundaries/PeriodicBoundary.h:155-157` and `false` in the other classes -/
def Boundary.isPeriodic : Boundary → Bool
  | .periodic _ => true
  | .plain _ => false

/-- A `std::map` with natural numbers as keys; the order of the entries is not modelled. -/
abbrev Map (α : Type*) := List (ℕ × α)

/-- `std::map::insert`: does nothing and returns `false` if the key is present. -/
def Map.insert {α : Type*} (m : Map α) (k : ℕ) (a : α) : Map α × Bool :=
  match m.lookup k with
  | some _ => (m, false)
  | none => (m ++ [(k, a)], true)

/-- `BoundaryCollection`, `P/problemdescription/BoundaryCollection.h:47-53` -/
structure Registry where
  /-- `m_boundaries` -/
  boundaries : Map Boundary
  /-- `m_periodicBoundaries` -/
  periodic : Map ℕ

/-- The constructor, `P/problemdescription/BoundaryCollection.h:62-63` -/
def Registry.empty : Registry := ⟨[], []⟩

/-- `BoundaryCollectionException` -/
inductive Exc
  | collection
  deriving DecidableEq

/-- `addBoundary` for periodic boundaries, `P/problemdescription/BoundaryCollection.h:75-95` -/
def addPeriodic (i1 i2 tag : ℕ) (r : Registry) : Except Exc Unit × Registry :=
  let (b1, success1) := r.boundaries.insert i1 (.periodic tag)
  let (b2, success2) := b1.insert i2 (.periodic tag)
  if !success1 || !success2 then (.error .collection, { r with boundaries := b2 })
  else (.ok (), ⟨b2, ((r.periodic.insert i1 tag).1.insert i2 tag).1⟩)

/-- `addBoundary` for other boundaries, `P/problemdescription/BoundaryCollection.h:97-100` -/
def addPlain (i tag : ℕ) (r : Registry) : Except Exc Unit × Registry :=
  (.ok (), { r with boundaries := (r.boundaries.insert i (.plain tag)).1 })

/-- `getBoundary`, `P/problemdescription/BoundaryCollection.h:106-113` -/
def getBoundary (i : ℕ) (r : Registry) : Except Exc Boundary :=
  match r.boundaries.lookup i with
  | none => .error .collection
  | some b => .ok b

/-- `getPeriodicBoundary`, `P/problemdescription/BoundaryCollection.h:119-127` -/
def getPeriodicBoundary (i : ℕ) (r : Registry) : Except Exc ℕ :=
  match r.periodic.lookup i with
  | none => .error .collection
  | some b => .ok b

/-- `isPeriodic`, `P/problemdescription/BoundaryCollection.h:132-134` -/
def isPeriodic (i : ℕ) (r : Registry) : Except Exc Bool :=
  match getBoundary i r with
  | .error e => .error e
  | .ok b => .ok b.isPeriodic

/-- `numberOfBoundaries`, `P/problemdescription/BoundaryCollection.h:136-138` -/
def numberOfBoundaries (r : Registry) : ℕ := r.boundaries.length

/-- `hasID`, `P/problemdescription/BoundaryCollection.h:152-154` -/
def hasID (i : ℕ) (r : Registry) : Bool := (r.boundaries.lookup i).isSome

/-- A call of `addBoundary` -/
inductive Registration
  | periodic (i1 i2 tag : ℕ)
  | plain (i tag : ℕ)

/-- Executes a call. -/
def Registration.exec : Registration → Registry → Except Exc Unit × Registry
  | .periodic i1 i2 t => addPeriodic i1 i2 t
  | .plain i t => addPlain i t

/-- The registry after some calls; exceptions are caught by the caller. -/
def history (rs : List Registration) : Registry := rs.foldl (fun r c => (c.exec r).2) .empty

/-! ## Check of the boundary ids -/

/-- The loop over the ids of the mesh, `P/problemdescription/ProblemDescription.h:141-152`: removes what it finds. -/
def checkLoop : List ℕ → List ℕ × Bool → List ℕ × Bool
  | [], s => s
  | i :: is, (coll, result) => checkLoop is (if i ∈ coll then (coll.erase i, result) else (coll, false))

/-- `checkBoundaryConditions`, `P/problemdescription/ProblemDescription.h:124-161`.  `w` is the number of bits of `dealii::types::boundary_id`,
to which the keys of the registry are converted in line 137. -/
def checkBoundaryConditions (w : ℕ) (mesh : List ℕ) (r : Registry) : Bool :=
  let (rest, result) := checkLoop mesh (r.boundaries.map fun b => b.1 % 2 ^ w, true)
  result && rest.isEmpty

/-! ## External force -/

section Force

variable {K : Type*} [Field K] [DecidableEq K] {d : ℕ}

/-- `m_externalForce`: a null pointer, or the vector stored in the `ConstantExternalForce`
(`P/problemdescription/ConstantExternalForce.h:17-23`). -/
abbrev ForcePtr (K : Type*) (d : ℕ) := Option (Fin d → K)

/-- Calls that change the force. -/
inductive ForceCall (K : Type*) (d : ℕ)
  /-- `setExternalForce(make_shared<ConstantExternalForce>(f))`, `P/problemdescription/ProblemDescription.h:172-175` -/
  | set (f : Fin d → K)
  /-- `setExternalForceTensor`, `P/problemdescription/ProblemDescription.h:177-180` -/
  | setTensor (f : Fin d → K)
  /-- `getExternalForce()->scale(c)`, `P/problemdescription/ConstantExternalForce.h:30-32` -/
  | scale (c : K)

/-- Dereferencing a null pointer. -/
inductive Undefined
  | nullPointer
  deriving DecidableEq

/-- Executes a call. -/
def ForceCall.exec : ForceCall K d → ForcePtr K d → Except Undefined (ForcePtr K d)
  | .set f, _ => .ok (some f)
  | .setTensor f, some _ => .ok (some f)
  | .setTensor _, none => .error .nullPointer
  | .scale c, some f => .ok (some fun a => f a * c)
  | .scale _, none => .error .nullPointer

/-- `hasExternalForce` in two dimensions, `P/problemdescription/ProblemDescription.h:186-202` -/
def hasExternalForce2 : ForcePtr K 2 → Bool
  | none => false
  | some f => if f 0 ≠ 0 then true else if f 1 ≠ 0 then true else false

/-- `hasExternalForce` in three dimensions, `P/problemdescription/ProblemDescription.h:186-202` -/
def hasExternalForce3 : ForcePtr K 3 → Bool
  | none => false
  | some f => if f 0 ≠ 0 then true else if f 1 ≠ 0 then true else if f 2 ≠ 0 then true else false

end Force

/-! ## Flags -/

/-- The named flags, `P/boundaries/BoundaryFlags.h:20-31`, without `only_distributions`, which is the empty set -/
inductive Flag
  | rho | u | duDx | drhoDt | duDt | d2uDxdt | p | dpDt | pUT
  deriving DecidableEq

/-- The values of the enumeration, `P/boundaries/BoundaryFlags.h:20-31` -/
def Flag.code : Flag → ℕ
  | .rho => 0x0001 | .u => 0x0002 | .duDx => 0x0004 | .drhoDt => 0x0008 | .duDt => 0x0010 | .d2uDxdt => 0x0020 | .p => 0x0040
  | .dpDt => 0x0080 | .pUT => 0x0100

/-- `only_distributions`, `P/boundaries/BoundaryFlags.h:21` -/
def onlyDistributions : ℕ := 0x0000

/-- `operator |` and `operator |=`, `P/boundaries/BoundaryFlags.h:33-43` -/
def flagOr (f g : ℕ) : ℕ := f ||| g

/-- `operator &` and `operator &=`, `P/boundaries/BoundaryFlags.h:44-54` -/
def flagAnd (f g : ℕ) : ℕ := f &&& g

/-- A flag value as condition, as in `P/boundaries/FEBoundaryValues.h:156` -/
def flagTest (f g : ℕ) : Bool := flagAnd f g ≠ 0

/-! ## Prescribed values -/

section Prescribed

variable {K : Type*} [Field K] {d : ℕ}

/-- A `dealii::Function`: number of components, and components as functions of time and point. -/
structure Fn (K : Type*) (d : ℕ) where
  /-- `n_components` -/
  components : ℕ
  /-- `value(point, component)` after `set_time(t)` -/
  value : K → (Fin d → K) → ℕ → K

/-- A `dealii::TensorFunction<2,dim>` -/
abbrev TensorFn (K : Type*) (d : ℕ) := K → (Fin d → K) → Fin d → Fin d → K

/-- `PrescribedBoundaryValues`, `P/boundaries/BoundaryFlags.h:59-66`; pointers are null before they are set. -/
structure Prescribed (K : Type*) (d : ℕ) where
  /-- `m_prescribedValues` -/
  flags : ℕ
  pressure : Option (Fn K d)
  velocity : Option (Fn K d)
  temperature : Option (Fn K d)
  velocityGradient : Option (TensorFn K d)

/-- The empty constructor, `P/boundaries/BoundaryFlags.h:72-74` -/
def Prescribed.none : Prescribed K d := ⟨onlyDistributions, .none, .none, .none, .none⟩

/-- The copy constructor, `P/boundaries/BoundaryFlags.h:79-84` -/
def Prescribed.copy (o : Prescribed K d) : Prescribed K d := ⟨o.flags, o.pressure, o.velocity, .none, o.velocityGradient⟩

/-- `BoundaryPressure`, `P/boundaries/BoundaryTools.h:63-79`, and `BoundaryTemperature`, `P/boundaries/BoundaryTools.h:81-97` -/
def constantFn (p : K) : Fn K d := ⟨1, fun _ _ _ => p⟩

/-- `BoundaryVelocity`, `P/boundaries/BoundaryTools.h:98-124`; components that do not exist are zero here. -/
def constantVelocity (u : Fin d → K) : Fn K d := ⟨d, fun _ _ c => if h : c < d then u ⟨c, h⟩ else 0⟩

/-- The exceptions of the constructors: `NATriuMException` -/
inductive PrescribedExc
  | components
  deriving DecidableEq

/-- The constructor from a function, `P/boundaries/BoundaryFlags.h:91-104` -/
def Prescribed.ofFn (f : Fn K d) : Except PrescribedExc (Prescribed K d) :=
  if f.components = 1 then .ok { Prescribed.none with pressure := some f, flags := Flag.code .p }
  else if f.components = d then .ok { Prescribed.none with velocity := some f, flags := Flag.code .u }
  else .error .components

/-- The constructor from a tensor function, `P/boundaries/BoundaryFlags.h:109-113` -/
def Prescribed.ofTensorFn (f : TensorFn K d) : Prescribed K d := { Prescribed.none with velocityGradient := some f, flags := Flag.code .duDx }

/-- The constructor from a pressure, `P/boundaries/BoundaryFlags.h:119-123` -/
def Prescribed.ofPressure (p : K) : Prescribed K d := { Prescribed.none with pressure := some (constantFn p), flags := Flag.code .p }

/-- The constructors from a velocity, `P/boundaries/BoundaryFlags.h:129-133` and `:153-157` -/
def Prescribed.ofVelocity (u : Fin d → K) : Prescribed K d := { Prescribed.none with velocity := some (constantVelocity u), flags := Flag.code .u }

/-- The constructor from pressure, velocity and temperature, `P/boundaries/BoundaryFlags.h:139-147` -/
def Prescribed.ofPUT (p : K) (u : Fin d → K) (_T : K) : Prescribed K d :=
  { Prescribed.none with pressure := some (constantFn p), velocity := some (constantVelocity u), temperature := some (constantFn p),
                         flags := Flag.code .pUT }

/-- The constructor from a velocity gradient, `P/boundaries/BoundaryFlags.h:163-167` -/
def Prescribed.ofGradient (g : Fin d → Fin d → K) : Prescribed K d :=
  { Prescribed.none with velocityGradient := some fun _ _ => g, flags := Flag.code .duDx }

/-- The values held by a boundary object: the constructor of `Boundary` copies them, `P/boundaries/Boundary.h:87-92`. -/
def boundaryValues (v : Prescribed K d) : Prescribed K d := v.copy

end Prescribed

end Problem
end NATriuM
