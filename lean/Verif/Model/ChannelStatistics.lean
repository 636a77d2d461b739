import Verif.Model.SyntheticTurbulence
import Verif.Model.Distributions
import Verif.Model.MeshTransform
import Mathlib.Data.List.Sort
import Mathlib.Data.List.Dedup
import Mathlib.Algebra.Order.Field.Basic

/-!
# Statistics over planes, and adaptive forcing, of the turbulent channel

`E` is `src/examples/step-turbulentChannel`.  A *visit* is a degree of freedom of a cell, in the order of the loops over cells and quadrature points; degrees
of freedom shared by cells are visited more than once.  Not modelled: the files that are written (`E/FinalChannelStatistics.cpp:312-400`,
`E/AdaptiveForcing.cpp:179-190`) and `setBoundaryTemperature` (`E/AdaptiveForcing.cpp:354-444`), which is not called (`:72`).
-/

namespace NATriuM.Channel

variable {K : Type*} [Field K] [LinearOrder K]

/-! ## The planes -/

/-- `own_double_less`, `src/library/natrium/utilities/Math.h:132-143` -/
def less (left right : K) : Bool := |left - right| > 1 / 10 ^ 6 && left < right

/-- neither is less: equal as keys of a set or a map -/
def sameKey (a b : K) : Bool := !less a b && !less b a

/-- `y_coords.insert`, `E/FinalChannelStatistics.cpp:93`.  Simplified: `own_double_less` is no strict weak order, so that `std::set` may overlook an
equal key; here it is found. -/
def insertKey (keys : List K) (y : K) : List K := if keys.any (sameKey y) then keys else keys ++ [y]

/-- `y_coords` of a process, `E/FinalChannelStatistics.cpp:76-96`; the order plays no role -/
def localCoordinates (ys : List K) : List K := ys.foldl insertKey []

/-- Exchange of the coordinates, `E/FinalChannelStatistics.cpp:98-138`: `m_yCoordinates`.  A process that has less coordinates than another fills up
with its first one (`:111-113`), which is undefined if it has none. -/
def coordinates (processes : List (List K)) : Except Undefined (List K) :=
  let ls := processes.map localCoordinates
  if ls.any List.isEmpty && ls.any (!·.isEmpty) then .error .bounds
  else .ok (ls.flatten.dedup.insertionSort (· ≤ ·))

/-- `m_yCoordinateToIndex`, `E/FinalChannelStatistics.cpp:131-137`: `insert` does nothing for a key that is there -/
def indexMap (coords : List K) : List (K × ℕ) :=
  coords.zipIdx.foldl (fun m p => if m.any fun q => sameKey p.1 q.1 then m else m ++ [p]) []

/-- `m_yCoordinateToIndex.at(y)`, `E/FinalChannelStatistics.cpp:239-243`; `none`: the assertion fails -/
def indexOf (coords : List K) (y : K) : Option ℕ := ((indexMap coords).find? fun q => sameKey y q.1).map Prod.snd

/-- `number` and the sums of a quantity over the visits of all processes, and the quotient, `E/FinalChannelStatistics.cpp:222-309`,
`E/AdaptiveForcing.cpp:128-164`: the average in plane `i`.  A visit has a coordinate and a value; `none` if the quotient is `0/0`. -/
def planeAverage (coords : List K) (processes : List (List (K × K))) (i : ℕ) : Option K :=
  let here := (processes.map fun visits => visits.filter fun v => indexOf coords v.1 = some i)
  let number : ℕ := (here.map List.length).sum
  let total : K := (here.map fun visits => (visits.map Prod.snd).sum).sum
  if number = 0 then none else some (total / number)

/-- The averages of a quantity, `E/FinalChannelStatistics.cpp:68-163, 169-310` -/
def planeAverages (processes : List (List (K × K))) : Except Undefined (List K × List (Option K)) :=
  match coordinates (processes.map fun visits => visits.map Prod.fst) with
  | .error e => .error e
  | .ok coords => .ok (coords, (List.range coords.length).map (planeAverage coords processes))

/-! ## Averages over time -/

/-- `addToTemporalAverages`, `E/FinalChannelStatistics.cpp:413-439`, for one of the quantities in one of the planes: the average and `n_steps` -/
def addToTemporalAverage (s : K × ℕ) (new : K) : K × ℕ := ((s.1 * s.2 + new) / (s.2 + 1), s.2 + 1)

/-- the samples of a run, from `n_steps = 0` and the zeros of `resize`, `E/FinalChannelStatistics.cpp:57, 154-161` -/
def temporalAverage (samples : List K) : K × ℕ := samples.foldl addToTemporalAverage (0, 0)

/-! ## Adaptive forcing -/

/-- The integral over the height with the trapezoidal rule, divided by 2, `E/AdaptiveForcing.cpp:167-175`; in each plane the coordinate and the average -/
def heightMean : List (K × K) → K
  | [] => 0
  | [_] => 0
  | p :: q :: rest => |q.1 - p.1| * (1 / 2) * (p.2 + q.2) / 2 + heightMean (q :: rest)

/-- `m_integral` and `m_force` -/
structure Control (K : Type*) where
  integral : K
  force : K
  deriving DecidableEq

/-- the two bounds of the force, `E/AdaptiveForcing.cpp:472-475` -/
def limitForce (start new : K) : K :=
  let new := if new > 5 * start then 5 * start else new
  if new < -2 * start then -2 * start else new

/-- `calculateForce`, `E/AdaptiveForcing.cpp:451-483`; `start` is `m_starting_force`, `current` is `m_currentValueRhoU`.  The force is the first component of
the external force, the others are set to zero. -/
def calculateForce (start target : K) (s : Control K) (current : K) : Control K :=
  let error := target - current
  let integral := s.integral + error
  ⟨integral, limitForce start (50 * error + 5 / 100 * integral + 0)⟩

/-- The controller after a sequence of measurements; `m_integral` starts from 0 (`E/AdaptiveForcing.cpp:22`).  Until the first call the
force is that of the problem (`:20`; `m_force` itself has no value then and is overwritten). -/
def control (start target : K) (measured : List K) : Control K := measured.foldl (calculateForce start target) ⟨0, start⟩

/-- `rescaleDensity`, `E/AdaptiveForcing.cpp:192-195`: only `f` is scaled; `none` for a division by zero -/
def rescaleDensity {N : Type*} [DecidableEq N] (currentRho : K) (f g : Distributions (N → K)) (owned : List N) :
    Option (Distributions (N → K) × Distributions (N → K)) :=
  if currentRho = 0 then none else some (f.scaleF (1 / currentRho) owned, g)

/-! ## Planes that the driver monitors -/

/-- `rms_coords`, `E/step-turbulent-channel.cpp:143-151`; the density 0.8 is the default of the transformation (`E/TurbulentChannelFlow3D.h:113`, used in
`E/step-turbulent-channel.cpp:148`) -/
noncomputable def monitoredPlanes (height : ℝ) : List ℝ :=
  [height / 2, height / 8, height / 32].map (MeshTransform.channelTrans height (8 / 10))

end NATriuM.Channel
