import Verif.Model.Config

/-!
# Documented ranges of the configuration parameters

The ranges are those given with the parameters in the constructor of `SolverConfiguration` and repeated in the parameter files; only the names
of the setters are taken from the model.
-/

namespace NATriuM
namespace Config

/-- The values a parameter of type `double` may take. -/
def DblParam.Range : DblParam → ℝ → Prop
  | .cfl, x | .heatCapacityRatioGamma, x | .referenceTemperature, x | .stencilScaling, x => 1 / 10 ^ 10 ≤ x
  | .thetaMethodTheta, x | .bgkSteadyStateGamma, x => 0 ≤ x ∧ x ≤ 1
  | .bgkPseudopotentialG, x | .bgkPseudopotentialT, x => |x| ≤ 10 ^ 10
  | .exponentialFilterAlpha, x | .exponentialFilterS, x => 0 ≤ x ∧ x ≤ 10 ^ 10
  | .exponentialFilterNc, x => 0 ≤ x ∧ x ≤ 50
  | .iterativeInitializationResidual, x => 1 / 10 ^ 25 ≤ x
  | .simulationEndTime, x => 0 ≤ x
  | .convergenceThreshold, _ => True

/-- The values a parameter of integer type may take; integers without a stated upper bound must fit into `int`. -/
def IntParam.Range : IntParam → ℤ → Prop
  | .commandLineVerbosity, i => 0 ≤ i ∧ i ≤ 8
  | .filterInterval, i => 1 ≤ i ∧ i ≤ 10000000
  | .restartAtIteration, i => 0 ≤ i ∧ i < 2 ^ 31
  | .wallNormalDirection, i => 0 ≤ i ∧ i ≤ 3
  | _, i => 1 ≤ i ∧ i < 2 ^ 31

/-- The number of enumerators of each enumeration. -/
def EnumParam.count : EnumParam → ℕ
  | .advectionScheme => 2 | .supportPoints => 4 | .quadrature => 2 | .collisionScheme => 13 | .mrtBasis => 3 | .mrtRelaxationTimes => 3
  | .equilibriumScheme => 5 | .pseudopotentialType => 3 | .forcingScheme => 4 | .filteringScheme => 2 | .initializationScheme => 4
  | .sedgFluxType => 2 | .stencil => 14 | .timeIntegrator => 4 | .dealIntegrator => 13 | .dealLinearSolver => 8 | .regularizationScheme => 5

/-- The six arguments of `setEmbeddedDealIntegratorParameters` (as written to the configuration) that are in range. -/
def embeddedRange (v : Fin 6 → Num) : Prop :=
  (∀ i, ∃ x, v i = .fin x) ∧ (∃ x, v 0 = .fin x ∧ 1 ≤ sixteenDigits x ∧ sixteenDigits x ≤ 1000) ∧
    ∃ x, v 1 = .fin x ∧ 0 ≤ sixteenDigits x ∧ sixteenDigits x ≤ 1

/-- The call has its arguments in the documented range.  Numbers of type `double` count as they are written to the configuration, with 16
significant digits (coordinates: 6 digits); `nan` and `inf` are never in range. -/
def Call.InRange : Call → Prop
  | .enum p n => n < p.count
  | .dbl p v => ∃ x, v = .fin x ∧ p.Range (sixteenDigits x)
  | .int p i => p.Range i
  | .bool _ _ | .outputDirectory _ | .sutherlandLaw => True
  | .prandtlNumber v => ∃ x, v = .fin x ∧ 1 / 10 ^ 10 ≤ sixteenDigits x
  | .wallNormalCoordinates l => l ≠ [] ∧ ∀ v ∈ l, ∃ x, v = .fin x ∧ |Checkpoint.sixDigits x| ≤ 10 ^ 10
  | .embedded v => embeddedRange v

/-- The entries a call is meant to change, by full path. -/
def Call.touches : Call → List (List String)
  | .enum p _ => [p.key.1 ++ [p.key.2]]
  | .dbl p _ => [p.key.1 ++ [p.key.2]]
  | .int p _ => [p.key.1 ++ [p.key.2]]
  | .bool p _ => [p.key.1 ++ [p.key.2]]
  | .outputDirectory _ => [["Output", "Output directory"]]
  | .prandtlNumber _ => [["General", "Prandtl"], ["General", "Prandtl number set"]]
  | .sutherlandLaw => [["General", "Sutherland law set"]]
  | .wallNormalCoordinates _ => [["Output", "Turbulence Statistics", "Wall normal coordinates"]]
  | .embedded _ => embeddedNames.map fun n => ["Advection", "Embedded Parameters", n]

/-- All calls of a history that could break the object are in range: see `C37_embedded_fails`. -/
def Safe (cs : List Call) : Prop := ∀ v, Call.embedded v ∈ cs → embeddedRange v

end Config
end NATriuM
