import Verif.Model.CommandLine
import Verif.Spec.Config

/-!
# Documented command line options

The tables repeat the help texts, `src/library/natrium/utilities/CommandLineParser.cpp:19-67`.
-/

namespace NATriuM
namespace CommandLine

open Config

/-- `--streaming` -/
def streamingDoc : List (String × ℕ) := [("sedg", SEDG), ("sl", SEMI_LAGRANGIAN)]

/-- `--collision` -/
def collisionDoc : List (String × ℕ) :=
  [("bgk", BGK_STANDARD), ("bgkt", BGK_STANDARD_TRANSFORMED), ("inc", BGK_INCOMPRESSIBLE), ("pp", BGK_MULTIPHASE), ("ss", BGK_STEADY_STATE),
   ("mrt", MRT_STANDARD), ("kbcs", KBC_STANDARD), ("kbcc", KBC_CENTRAL), ("reg", BGK_REGULARIZED), ("am4", BGK_MULTI_AM4),
   ("bdf2", BGK_MULTI_BDF2), ("est", ENTROPIC_STABILIZED)]

/-- `--integrator`, numbered from 1 for `--integrator-id` -/
def integratorDoc : List (String × ℕ × ℕ) :=
  [("rk4", RUNGE_KUTTA_5STAGE, NONE), ("theta", THETA_METHOD, NONE), ("exp", EXPONENTIAL, NONE), ("ee", OTHER, FORWARD_EULER),
   ("rk3", OTHER, RK_THIRD_ORDER), ("rk4_2", OTHER, RK_CLASSIC_FOURTH_ORDER), ("ie", OTHER, BACKWARD_EULER),
   ("midpoint", OTHER, IMPLICIT_MIDPOINT), ("cn", OTHER, CRANK_NICOLSON), ("sdirk", OTHER, SDIRK_TWO_STAGES), ("heun-euler", OTHER, HEUN_EULER),
   ("bogacki", OTHER, BOGACKI_SHAMPINE), ("dopri", OTHER, DOPRI), ("fehlberg", OTHER, FEHLBERG), ("cash-karp", OTHER, CASH_KARP)]

/-- `--equilibrium` -/
def equilibriumDoc : List (String × ℕ) := [("bgk", BGK_EQUILIBRIUM), ("quartic", QUARTIC_EQUILIBRIUM)]

/-- `--regularization` -/
def regularizationDoc : List (String × ℕ) :=
  [("no", NO_REGULARIZATION), ("pem", PSEUDO_ENTROPY_MAXIMIZATION), ("zero", ZERO_HIGH_ORDER_MOMENTS), ("em", ENTROPY_MAXIMIZATION),
   ("pemwe", PSEUDO_ENTROPY_MAXIMIZATION_WITH_E)]

/-- `--support-points` -/
def supportPointsDoc : List (String × ℕ) :=
  [("gll", GAUSS_LOBATTO_POINTS), ("glc", GAUSS_LOBATTO_CHEBYSHEV_POINTS), ("gc", GAUSS_CHEBYSHEV_POINTS), ("equi", EQUIDISTANT_POINTS)]

/-- `--stencil` -/
def stencilDoc : List (String × ℕ) :=
  [("d2q9", Stencil_D2Q9), ("d3q19", Stencil_D3Q19), ("d3q15", Stencil_D3Q15), ("d3q27", Stencil_D3Q27), ("d2q19v", Stencil_D2Q19V),
   ("d2q19h", Stencil_D2Q19H), ("d2q777", Stencil_D2Q777), ("d2q25h", Stencil_D2Q25H), ("d3q45", Stencil_D3Q45), ("d3q77", Stencil_D3Q77),
   ("d3v27", Stencil_D3V27)]

/-- Values of `--stencil` that are accepted but not in the help text. -/
def stencilExtra : List (String × ℕ) := [("d3q21", Stencil_D3Q21), ("d3q13", Stencil_D3Q13), ("rd3q27", Stencil_RD3Q27)]

/-- `--init` -/
def initDoc : List (String × ℕ) := [("equi", EQUILIBRIUM), ("iter", ITERATIVE)]

/-- `--mrt-basis` -/
def mrtBasisDoc : List (String × ℕ) := [("dellar-d2q9", DELLAR_D2Q9), ("lallemand-d2q9", LALLEMAND_D2Q9), ("dhumieres-d3q19", DHUMIERES_D3Q19)]

/-- `--mrt-relax` -/
def mrtRelaxDoc : List (String × ℕ) :=
  [("full", RELAX_FULL), ("dellar-only-N", DELLAR_RELAX_ONLY_N), ("dhumieres-paper", RELAX_DHUMIERES_PAPER)]

/-- The value is one of the names of a table. -/
def Named {α : Type} (o : Option String) (doc : List (String × α)) : Prop := ∀ s ∈ o, s ∈ doc.map (·.1)

/-- A number given for a parameter is in its range, as it is written to the configuration. -/
def NumberIn (o : Option Num) (p : DblParam) : Prop := ∀ v ∈ o, ∃ x, v = .fin x ∧ p.Range (sixteenDigits x)

/-- An integer given for a parameter is in its range. -/
def IntegerIn (o : Option ℤ) (p : IntParam) : Prop := ∀ n ∈ o, p.Range n

/-- No two options contradict each other: the two forms of `standard-lbm` fix the CFL number, order 2 and the advection scheme `sl` and exclude
each other; there is only one way to name an integrator. -/
structure NoConflict (a : Args) : Prop where
  cfl : a.standardLbm = true ∨ a.standardLbmWith.isSome → a.cfl = none
  order : a.standardLbm = true ∨ a.standardLbmWith.isSome → ∀ n ∈ a.orderFe, n = 2
  streaming : a.standardLbm = true ∨ a.standardLbmWith.isSome → ∀ s ∈ a.streaming, s = "sl"
  standard : ¬ (a.standardLbm = true ∧ a.standardLbmWith.isSome)
  integrator : ¬ (a.integrator.isSome ∧ a.integratorId.isSome)

/-- All given values are documented ones.  The numbers of the stencils that are not in the help text, the integrator numbers and the relaxation
times of the MRT model are stated apart. -/
structure ValuesDocumented (a : Args) : Prop where
  standardLbmWith : IntegerIn a.standardLbmWith .sedgOrderOfFiniteElement
  orderFe : IntegerIn a.orderFe .sedgOrderOfFiniteElement
  cfl : NumberIn a.cfl .cfl
  streaming : Named a.streaming streamingDoc
  collision : Named a.collision collisionDoc
  integrator : Named a.integrator integratorDoc
  scaling : NumberIn a.scaling .stencilScaling
  regularization : Named a.regularization regularizationDoc
  equilibrium : Named a.equilibrium equilibriumDoc
  supportPoints : Named a.supportPoints supportPointsDoc
  outputSol : IntegerIn a.outputSol .outputSolutionInterval
  outputChk : IntegerIn a.outputChk .outputCheckpointInterval
  outputTab : IntegerIn a.outputTab .outputTableInterval
  tmax : NumberIn a.tmax .simulationEndTime
  init : Named a.init initDoc
  initRes : NumberIn a.initRes .iterativeInitializationResidual
  initNiter : IntegerIn a.initNiter .iterativeInitializationNumberOfIterations
  mrtBasis : Named a.mrtBasis mrtBasisDoc

/-- The integrator number is one of the documented numbers. -/
def IdDocumented (a : Args) : Prop := ∀ id ∈ a.integratorId, 1 ≤ id ∧ id ≤ 15

/-- An enumeration parameter has the value documented for the given name. -/
def EnumSet (o : Option String) (doc : List (String × ℕ)) (p : EnumParam) (h : Handler) : Prop :=
  ∀ s ∈ o, ∃ n, (s, n) ∈ doc ∧ (getEnum p h).1 = .ok n

/-- A parameter has the given number, as it is written to the configuration. -/
def NumberSet (o : Option Num) (p : DblParam) (h : Handler) : Prop := ∀ v ∈ o, ∃ x, v = .fin x ∧ (getDbl p h).1 = .ok (sixteenDigits x)

/-- A parameter has the given integer. -/
def IntegerSet (o : Option ℤ) (p : IntParam) (h : Handler) : Prop := ∀ n ∈ o, (getInt p h).1 = .ok n

/-- The configuration `h` is what the options ask for. -/
structure Applied (a : Args) (h : Handler) : Prop where
  standardLbm : a.standardLbm = true → (getDbl .cfl h).1 = .ok (sixteenDigits (√2 * 2)) ∧ (getInt .sedgOrderOfFiniteElement h).1 = .ok 2 ∧
    (getEnum .advectionScheme h).1 = .ok SEMI_LAGRANGIAN
  standardLbmWith : ∀ n ∈ a.standardLbmWith, (getDbl .cfl h).1 = .ok (sixteenDigits (√2 * n)) ∧
    (getEnum .advectionScheme h).1 = .ok SEMI_LAGRANGIAN ∧ (a.orderFe = none → (getInt .sedgOrderOfFiniteElement h).1 = .ok n) ∧
    (a.supportPoints = none → (getEnum .supportPoints h).1 = .ok EQUIDISTANT_POINTS)
  orderFe : IntegerSet a.orderFe .sedgOrderOfFiniteElement h
  cfl : NumberSet a.cfl .cfl h
  output : a.outputOn = true ∨ a.verbose = true ∨ a.outputDir.isSome ∨ a.outputSol.isSome ∨ a.outputChk.isSome ∨ a.outputTab.isSome →
    (getBool .switchOutputOff h).1 = .ok false
  verbose : a.verbose = true → (getInt .commandLineVerbosity h).1 = .ok 8
  streaming : EnumSet a.streaming streamingDoc .advectionScheme h
  collision : EnumSet a.collision collisionDoc .collisionScheme h
  integrator : ∀ s ∈ a.integrator, ∃ t d, (s, t, d) ∈ integratorDoc ∧ (getEnum .timeIntegrator h).1 = .ok t ∧
    (getEnum .dealIntegrator h).1 = .ok d
  integratorId : ∀ id ∈ a.integratorId, 1 ≤ id → id ≤ 15 → ∃ s t d, integratorDoc[(id - 1).toNat]? = some (s, t, d) ∧
    (getEnum .timeIntegrator h).1 = .ok t ∧ (getEnum .dealIntegrator h).1 = .ok d
  scaling : NumberSet a.scaling .stencilScaling h
  regularization : EnumSet a.regularization regularizationDoc .regularizationScheme h
  equilibrium : EnumSet a.equilibrium equilibriumDoc .equilibriumScheme h
  supportPoints : EnumSet a.supportPoints supportPointsDoc .supportPoints h
  outputDir : ∀ s ∈ a.outputDir, (getOutputDirectory h).1 = .ok s
  outputSol : IntegerSet a.outputSol .outputSolutionInterval h
  outputChk : IntegerSet a.outputChk .outputCheckpointInterval h
  outputTab : IntegerSet a.outputTab .outputTableInterval h
  stencil : EnumSet a.stencil (stencilDoc ++ stencilExtra) .stencil h
  tmax : NumberSet a.tmax .simulationEndTime h
  init : EnumSet a.init initDoc .initializationScheme h
  initRes : NumberSet a.initRes .iterativeInitializationResidual h
  initNiter : IntegerSet a.initNiter .iterativeInitializationNumberOfIterations h
  mrtBasis : EnumSet a.mrtBasis mrtBasisDoc .mrtBasis h
  mrtRelax : Named a.mrtRelax mrtRelaxDoc → EnumSet a.mrtRelax mrtRelaxDoc .mrtRelaxationTimes h

/-! ## Life cycle -/

/-- What is assumed of `boost::program_options`: it stores values of declared options only, with the declared type. -/
def Boost (parse : Parse) : Prop := ∀ d pos m, parse d pos = .ok m → ∀ n v, m n = some v → (n, v.kind) ∈ d

/-- The options declared by a sequence of calls, with their type. -/
def declarations (ops : List Op) : List (List Char × Kind) :=
  ops.filterMap fun
    | .declare n k => some (longName n, k)
    | .declarePositional n k => some (longName n, k)
    | _ => none

/-- The calls before the first `importOptions`. -/
def beforeImport : List Op → List Op
  | [] => []
  | .importOptions :: _ => []
  | o :: ops => o :: beforeImport ops

/-- The options declared by the constructor. -/
def reserved : List (List Char × Kind) := predefined.map fun q => (q.1.toList, q.2)

end CommandLine
end NATriuM
