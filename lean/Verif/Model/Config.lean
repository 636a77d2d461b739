import Verif.Model.Checkpoint

/-!
# Solver configuration

Model of `P/solver/SolverConfiguration.{h,cpp}` (`P` = `src/library/natrium`) on top of the part of `dealii::ParameterHandler` it uses.

`dealii::ParameterHandler` is a dependency; its behaviour is taken from its documentation: entries are found by the path of the current
subsection followed by the name; `set` throws if the entry is not declared or the new value does not match the declared pattern, and then
leaves the entry as it is; `Double(a, b)` and `Integer(a, b)` include their bounds; an argument of type `double` is written with 16 significant
digits, `nan` and `inf` are not numbers for a pattern.

Simplifications: the value of an entry is kept as the value its text stands for (a string, a boolean, an integer, a real number, a list of
real numbers) instead of the text; the largest double, which is the upper bound of `Double(a)`, is no bound.
-/

namespace NATriuM
namespace Config

/-! ## Parameter handler -/

/-- An argument of type `double`. -/
inductive Num
  | fin (x : ℝ) | nan | posInf | negInf

/-- What the text of an entry stands for. -/
inductive Val
  | text (s : String) | bool (b : Bool) | int (i : ℤ) | dbl (x : ℝ) | list (l : List ℝ)

/-- The patterns used by the constructor, `dealii::Patterns::{Selection, Bool, Integer, Double, DirectoryName, List}`. -/
inductive Pattern
  | selection (l : List String) | bool | integer (lo hi : ℤ) | double (lo hi : Option ℚ) | directoryName | doubleList (lo hi : ℚ)
  deriving DecidableEq

/-- `lo <= x && x <= hi` with missing bounds -/
def Within (lo hi : Option ℚ) (x : ℝ) : Prop := (∀ a ∈ lo, (a : ℝ) ≤ x) ∧ ∀ b ∈ hi, x ≤ (b : ℝ)

/-- `PatternBase::match` -/
def Pattern.Match : Pattern → Val → Prop
  | .selection l, .text s => s ∈ l
  | .bool, .bool _ => True
  | .integer lo hi, .int i => lo ≤ i ∧ i ≤ hi
  | .double lo hi, .dbl x => Within lo hi x
  | .directoryName, .text _ => True
  | .doubleList lo hi, .list l => ∀ x ∈ l, Within (some lo) (some hi) x
  | _, _ => False

/-- A declared entry. -/
structure Entry where
  pattern : Pattern
  value : Val

/-- The object: the entries by full path, and the path of the current subsection. -/
structure Handler where
  entries : List String → Option Entry
  path : List String

/-- The exceptions that leave a call. -/
inductive Exc
  /-- `natrium::ConfigurationException` -/
  | configuration
  /-- an exception of deal.II (value does not match the pattern, entry not declared) -/
  | dealii
  /-- `natrium::CommandLineParserException` -/
  | commandLine
  /-- a failed `assert` -/
  | assertion
  deriving DecidableEq, Repr

/-- `enter_subsection` for each element -/
def Handler.enter (h : Handler) (subs : List String) : Handler := { h with path := h.path ++ subs }

/-- `n` times `leave_subsection` -/
def Handler.leave (h : Handler) : ℕ → Handler
  | 0 => h
  | n + 1 => ({ h with path := h.path.dropLast } : Handler).leave n

open Classical in
/-- `set(name, value)` -/
noncomputable def Handler.set (h : Handler) (name : String) (v : Val) : Except Exc Handler :=
  match h.entries (h.path ++ [name]) with
  | none => .error .dealii
  | some e => if e.pattern.Match v then .ok { h with entries := Function.update h.entries (h.path ++ [name]) (some { e with value := v }) } else .error .dealii

/-- `get(name)` -/
def Handler.get (h : Handler) (name : String) : Except Exc Val :=
  match h.entries (h.path ++ [name]) with
  | none => .error .dealii
  | some e => .ok e.value

/-- 16 significant digits: `ParameterHandler::set(std::string, double)` writes with `std::setprecision(16)`.  Ties are rounded up. -/
noncomputable def sixteenDigits (x : ℝ) : ℝ := if x = 0 then 0 else round (x / 10 ^ (Int.log 10 |x| - 15)) * 10 ^ (Int.log 10 |x| - 15)

/-- The result of a member function: a value or an exception, and the object afterwards. -/
abbrev Res (α : Type) := Except Exc α × Handler

/-- The shape of a setter with a `try` block, e.g. `P/solver/SolverConfiguration.h:590-605`: the subsections are left on both ways, any
exception becomes a `ConfigurationException`. -/
noncomputable def guardedSet (subs : List String) (name : String) (v : Val) (h : Handler) : Res Unit :=
  match (h.enter subs).set name v with
  | .ok h' => (.ok (), h'.leave subs.length)
  | .error _ => (.error .configuration, (h.enter subs).leave subs.length)

/-- The shape of a setter without a `try` block, e.g. `P/solver/SolverConfiguration.h:834-838`: an exception of deal.II passes through and the
subsections are not left. -/
noncomputable def plainSet (subs : List String) (name : String) (v : Val) (h : Handler) : Res Unit :=
  match (h.enter subs).set name v with
  | .ok h' => (.ok (), h'.leave subs.length)
  | .error e => (.error e, h.enter subs)

/-- The conversion of a `double` argument to the text of the entry; `nan` and `inf` give a text that no `Double` pattern accepts. -/
noncomputable def Num.toVal : Num → Val
  | .fin x => .dbl (sixteenDigits x)
  | .nan => .text "nan"
  | .posInf => .text "inf"
  | .negInf => .text "-inf"

/-! ## Enumerations, `P/utilities/ConfigNames.h`; enumerators are their underlying integers -/

/-- The setters and getters of enumeration type. -/
inductive EnumParam
  | advectionScheme | supportPoints | quadrature | collisionScheme | mrtBasis | mrtRelaxationTimes | equilibriumScheme | pseudopotentialType
  | forcingScheme | filteringScheme | initializationScheme | sedgFluxType | stencil | timeIntegrator | dealIntegrator | dealLinearSolver
  | regularizationScheme
  deriving DecidableEq, Repr

/-- `enum RelaxMode`, `P/utilities/ConfigNames.h:20-24` -/
abbrev RELAX_FULL := 0
abbrev DELLAR_RELAX_ONLY_N := 1
abbrev RELAX_DHUMIERES_PAPER := 2
/-- `enum MomentBasis`, `P/utilities/ConfigNames.h:29-33` -/
abbrev DELLAR_D2Q9 := 0
abbrev LALLEMAND_D2Q9 := 1
abbrev DHUMIERES_D3Q19 := 2
/-- `enum AdvectionSchemeName`, `P/utilities/ConfigNames.h:39-41` -/
abbrev SEDG := 0
abbrev SEMI_LAGRANGIAN := 1
/-- `enum CollisionSchemeName`, `P/utilities/ConfigNames.h:46-61` -/
abbrev BGK_STANDARD := 0
abbrev BGK_STANDARD_TRANSFORMED := 1
abbrev BGK_STEADY_STATE := 2
abbrev BGK_MULTIPHASE := 3
abbrev BGK_INCOMPRESSIBLE := 4
abbrev MRT_STANDARD := 5
abbrev MRT_ENTROPIC := 6
abbrev ENTROPIC_STABILIZED := 7
abbrev KBC_STANDARD := 8
abbrev KBC_CENTRAL := 9
abbrev BGK_MULTI_AM4 := 10
abbrev BGK_MULTI_BDF2 := 11
abbrev BGK_REGULARIZED := 12
/-- `enum EquilibriumSchemeName`, `P/utilities/ConfigNames.h:63-69` -/
abbrev BGK_EQUILIBRIUM := 0
abbrev QUARTIC_EQUILIBRIUM := 1
abbrev INCOMPRESSIBLE_EQUILIBRIUM := 2
abbrev STEADYSTATE_EQUILIBRIUM := 3
abbrev ENTROPIC_EQUILIBRIUM := 4
/-- `enum TimeIntegratorName`, `P/utilities/ConfigNames.h:78-80` -/
abbrev RUNGE_KUTTA_5STAGE := 0
abbrev THETA_METHOD := 1
abbrev EXPONENTIAL := 2
abbrev OTHER := 3
/-- `enum DealIntegratorName`, `P/utilities/ConfigNames.h:82-96` -/
abbrev FORWARD_EULER := 0
abbrev RK_THIRD_ORDER := 1
abbrev RK_CLASSIC_FOURTH_ORDER := 2
abbrev BACKWARD_EULER := 3
abbrev IMPLICIT_MIDPOINT := 4
abbrev CRANK_NICOLSON := 5
abbrev SDIRK_TWO_STAGES := 6
abbrev HEUN_EULER := 7
abbrev BOGACKI_SHAMPINE := 8
abbrev DOPRI := 9
abbrev FEHLBERG := 10
abbrev CASH_KARP := 11
abbrev NONE := 12
/-- `enum DealSolverName`, `P/utilities/ConfigNames.h:98-100` -/
abbrev BICGSTAB := 0
abbrev CG := 1
abbrev FGMRES := 2
abbrev GMRES := 3
abbrev MINRES := 4
abbrev QMRS := 5
abbrev RELAXATION := 6
abbrev RICHARDSON := 7
/-- `enum FluxTypeName`, `P/utilities/ConfigNames.h:105-107` -/
abbrev LAX_FRIEDRICHS := 0
abbrev CENTRAL := 1
/-- `enum InitializationSchemeName`, `P/utilities/ConfigNames.h:112-117` -/
abbrev EQUILIBRIUM := 0
abbrev ITERATIVE := 1
abbrev COMPRESSIBLE_ITERATIVE := 2
abbrev GRADIENTS := 3
/-- `enum PseudopotentialType`, `P/utilities/ConfigNames.h:119-121` -/
abbrev SHAN_CHEN := 0
abbrev SUKOP := 1
abbrev CARNAHAN_STARLING := 2
/-- `enum ForceType`, `P/utilities/ConfigNames.h:123-128` -/
abbrev NO_FORCING := 0
abbrev SHIFTING_VELOCITY := 1
abbrev EXACT_DIFFERENCE := 2
abbrev GUO := 3
/-- `enum FilteringSchemeName`, `P/utilities/ConfigNames.h:130-132` -/
abbrev EXPONENTIAL_FILTER := 0
abbrev NEW_FILTER := 1
/-- `enum SupportPointsName`, `P/utilities/ConfigNames.h:134-136` -/
abbrev GAUSS_LOBATTO_POINTS := 0
abbrev GAUSS_CHEBYSHEV_POINTS := 1
abbrev GAUSS_LOBATTO_CHEBYSHEV_POINTS := 2
abbrev EQUIDISTANT_POINTS := 3
/-- `enum QuadratureName`, `P/utilities/ConfigNames.h:138-140` -/
abbrev QGAUSS_LOBATTO := 0
abbrev QGAUSS := 1
/-- `enum RegularizationSchemeName`, `P/utilities/ConfigNames.h:142-144` -/
abbrev NO_REGULARIZATION := 0
abbrev PSEUDO_ENTROPY_MAXIMIZATION := 1
abbrev ZERO_HIGH_ORDER_MOMENTS := 2
abbrev ENTROPY_MAXIMIZATION := 3
abbrev PSEUDO_ENTROPY_MAXIMIZATION_WITH_E := 4
/-- `enum StencilType`, `P/stencils/Stencil.h:21-47` -/
abbrev Stencil_D2Q9 := 0
abbrev Stencil_D3Q19 := 1
abbrev Stencil_D3Q15 := 2
abbrev Stencil_D3Q27 := 3
abbrev Stencil_D2Q19H := 4
abbrev Stencil_D2Q19V := 5
abbrev Stencil_D2Q777 := 6
abbrev Stencil_D2Q25H := 7
abbrev Stencil_D3Q13 := 8
abbrev Stencil_D3Q21 := 9
abbrev Stencil_RD3Q27 := 10
abbrev Stencil_D3Q45 := 11
abbrev Stencil_D3Q77 := 12
abbrev Stencil_D3V27 := 13

namespace EnumParam

/-- The subsections entered by setter and getter, and the name of the entry: the first lines of the functions cited at `setTable`. -/
def key : EnumParam → List String × String
  | advectionScheme => (["Advection"], "Advection scheme")
  | supportPoints => (["Advection"], "Support points")
  | quadrature => (["Advection"], "Quadrature")
  | collisionScheme => (["Collision"], "Collision scheme")
  | mrtBasis => (["Collision"], "MRT basis")
  | mrtRelaxationTimes => (["Collision"], "MRT relaxation times")
  | equilibriumScheme => (["Collision"], "Equilibrium scheme")
  | pseudopotentialType => (["Collision", "BGK parameters"], "Pseudopotential type")
  | forcingScheme => (["Collision", "BGK parameters"], "Forcing scheme")
  | filteringScheme => (["Filtering"], "Filtering scheme")
  | initializationScheme => (["Initialization"], "Initialization scheme")
  | sedgFluxType => (["Advection", "SEDG"], "Flux type")
  | stencil => (["General"], "Stencil")
  | timeIntegrator => (["Advection"], "Time integrator")
  | dealIntegrator => (["Advection", "Deal.II integrator"], "Runge Kutta scheme")
  | dealLinearSolver => (["Advection", "Deal.II linear solver"], "Linear solver")
  | regularizationScheme => (["Filtering"], "Regularization")

/-- The cases of the `switch` in the setter, `P/solver/SolverConfiguration.h:202-222`, `:245-273`, `:292-312`, `:353-417`, `:438-462`,
`:483-509`, `:534-568`, `:628-655` (the labels are enumerators of `CollisionSchemeName`), `:753-784`, `:884-905`, `:1114-1144`,
`:1490-1513`, `:1624-1692`, `:1715-1743`, `:1822-1890`, `:1925-1973`, `:2550-2582` (the first label is `NO_FORCING`). -/
def setTable : EnumParam → List (ℕ × String)
  | advectionScheme => [(SEDG, "SEDG"), (SEMI_LAGRANGIAN, "Semi-Lagrangian")]
  | supportPoints =>
    [(GAUSS_LOBATTO_POINTS, "Gauss-Lobatto"), (GAUSS_LOBATTO_CHEBYSHEV_POINTS, "Gauss-Lobatto-Chebyshev"),
     (GAUSS_CHEBYSHEV_POINTS, "Gauss-Chebyshev"), (EQUIDISTANT_POINTS, "Equidistant")]
  | quadrature => [(QGAUSS_LOBATTO, "Gauss-Lobatto"), (QGAUSS, "Gauss")]
  | collisionScheme =>
    [(BGK_STANDARD, "BGK standard"), (BGK_STANDARD_TRANSFORMED, "BGK standard transformed"), (BGK_STEADY_STATE, "BGK steady state"),
     (BGK_MULTIPHASE, "BGK multiphase"), (BGK_INCOMPRESSIBLE, "BGK incompressible"), (BGK_REGULARIZED, "BGK regularized"),
     (MRT_STANDARD, "MRT standard"), (MRT_ENTROPIC, "MRT entropic"), (ENTROPIC_STABILIZED, "Entropic stabilized"),
     (KBC_STANDARD, "KBC standard"), (KBC_CENTRAL, "KBC central"), (BGK_MULTI_AM4, "BGK multi am4"), (BGK_MULTI_BDF2, "BGK multi bdf2")]
  | mrtBasis => [(DELLAR_D2Q9, "Dellar D2Q9"), (LALLEMAND_D2Q9, "Lallemand D2Q9"), (DHUMIERES_D3Q19, "DHumieres D3Q19")]
  | mrtRelaxationTimes =>
    [(RELAX_FULL, "Full"), (DELLAR_RELAX_ONLY_N, "Dellar D2Q9 Only N"), (RELAX_DHUMIERES_PAPER, "DHumieres Paper")]
  | equilibriumScheme =>
    [(BGK_EQUILIBRIUM, "BGK equilibrium"), (QUARTIC_EQUILIBRIUM, "Quartic equilibrium"),
     (INCOMPRESSIBLE_EQUILIBRIUM, "Incompressible equilibrium"), (STEADYSTATE_EQUILIBRIUM, "Steady-state equilibrium"),
     (ENTROPIC_EQUILIBRIUM, "Entropic equilibrium")]
  | pseudopotentialType =>
    [(BGK_STANDARD, "ShanChen"), (BGK_STANDARD_TRANSFORMED, "Sukop"), (BGK_STEADY_STATE, "CarnahanStarling")]
  | forcingScheme =>
    [(NO_FORCING, "No Forcing"), (SHIFTING_VELOCITY, "Shifting Velocity"), (EXACT_DIFFERENCE, "Exact Difference"), (GUO, "Guo")]
  | filteringScheme => [(EXPONENTIAL_FILTER, "Exponential"), (NEW_FILTER, "New")]
  | initializationScheme =>
    [(ITERATIVE, "Iterative"), (COMPRESSIBLE_ITERATIVE, "CompressibleIterative"), (GRADIENTS, "Gradients"), (EQUILIBRIUM, "Equilibrium")]
  | sedgFluxType => [(LAX_FRIEDRICHS, "Lax-Friedrichs"), (CENTRAL, "Central")]
  | stencil =>
    [(Stencil_D2Q9, "D2Q9"), (Stencil_D3Q19, "D3Q19"), (Stencil_D3Q13, "D3Q13"), (Stencil_D3Q15, "D3Q15"), (Stencil_D3Q21, "D3Q21"),
     (Stencil_D3Q27, "D3Q27"), (Stencil_D2Q19H, "D2Q19H"), (Stencil_D2Q19V, "D2Q19V"), (Stencil_D2Q777, "D2Q777"),
     (Stencil_D2Q25H, "D2Q25H"), (Stencil_RD3Q27, "RD3Q27"), (Stencil_D3Q45, "D3Q45"), (Stencil_D3Q77, "D3Q77"), (Stencil_D3V27, "D3V27")]
  | timeIntegrator =>
    [(RUNGE_KUTTA_5STAGE, "Runge-Kutta 5-stage"), (THETA_METHOD, "Theta method"), (EXPONENTIAL, "Exponential"), (OTHER, "Other")]
  | dealIntegrator =>
    [(NONE, "None"), (FORWARD_EULER, "Forward Euler"), (RK_THIRD_ORDER, "RK 3rd order"), (RK_CLASSIC_FOURTH_ORDER, "RK Classic 4th order"),
     (BACKWARD_EULER, "Backward Euler"), (IMPLICIT_MIDPOINT, "Implicit midpoint"), (CRANK_NICOLSON, "Crank-Nicoloson"),
     (SDIRK_TWO_STAGES, "SDIRK 2 stages"), (HEUN_EULER, "Heun-Euler"), (BOGACKI_SHAMPINE, "Bogacki-Shampine"), (DOPRI, "Dopri"),
     (FEHLBERG, "Fehlberg"), (CASH_KARP, "Cash-Karp")]
  | dealLinearSolver =>
    [(BICGSTAB, "Bicgstab"), (CG, "Cg"), (FGMRES, "Fgmres"), (GMRES, "Gmres"), (MINRES, "Minres"), (QMRS, "Qmrs"),
     (RELAXATION, "Relaxation"), (RICHARDSON, "Richardson")]
  | regularizationScheme =>
    [(NO_FORCING, "No Regularization"), (PSEUDO_ENTROPY_MAXIMIZATION, "Pseudo-entropy maximization"),
     (ZERO_HIGH_ORDER_MOMENTS, "Zero high-order moments"), (ENTROPY_MAXIMIZATION, "Entropy maximization"),
     (PSEUDO_ENTROPY_MAXIMIZATION_WITH_E, "Pseudo-entropy maximization with e")]

/-- The comparisons of the getter in order, `P/solver/SolverConfiguration.h:185-200`, `:224-243`, `:275-290`, `:314-351`, `:419-436`,
`:464-481`, `:511-532`, `:607-626`, `:731-751`, `:906-922`, `:1093-1112`, `:1471-1488`, `:1583-1622`, `:1694-1713`, `:1781-1820`,
`:1892-1923`, `:2525-2548`. -/
def getTable : EnumParam → List (String × ℕ)
  | advectionScheme => [("SEDG", SEDG), ("Semi-Lagrangian", SEMI_LAGRANGIAN)]
  | supportPoints =>
    [("Gauss-Lobatto", GAUSS_LOBATTO_POINTS), ("Gauss-Lobatto-Chebyshev", GAUSS_LOBATTO_CHEBYSHEV_POINTS),
     ("Gauss-Chebyshev", GAUSS_CHEBYSHEV_POINTS), ("Equidistant", EQUIDISTANT_POINTS)]
  | quadrature => [("Gauss-Lobatto", QGAUSS_LOBATTO), ("Gauss", QGAUSS)]
  | collisionScheme =>
    [("BGK standard", BGK_STANDARD), ("BGK standard transformed", BGK_STANDARD_TRANSFORMED), ("BGK steady state", BGK_STEADY_STATE),
     ("BGK multiphase", BGK_MULTIPHASE), ("BGK incompressible", BGK_INCOMPRESSIBLE), ("BGK regularized", BGK_REGULARIZED),
     ("MRT standard", MRT_STANDARD), ("MRT entropic", MRT_ENTROPIC), ("Entropic stabilized", ENTROPIC_STABILIZED),
     ("KBC standard", KBC_STANDARD), ("KBC central", KBC_CENTRAL), ("BGK multi am4", BGK_MULTI_AM4), ("BGK multi bdf2", BGK_MULTI_BDF2)]
  | mrtBasis => [("Dellar D2Q9", DELLAR_D2Q9), ("Lallemand D2Q9", LALLEMAND_D2Q9), ("DHumieres D3Q19", DHUMIERES_D3Q19)]
  | mrtRelaxationTimes => [("Dellar D2Q9 Only N", DELLAR_RELAX_ONLY_N), ("Full", RELAX_FULL)]
  | equilibriumScheme =>
    [("BGK equilibrium", BGK_EQUILIBRIUM), ("Incompressible equilibrium", INCOMPRESSIBLE_EQUILIBRIUM),
     ("Quartic equilibrium", QUARTIC_EQUILIBRIUM), ("Steady-state equilibrium", STEADYSTATE_EQUILIBRIUM),
     ("Entropic equilibrium", ENTROPIC_EQUILIBRIUM)]
  | pseudopotentialType => [("ShanChen", SHAN_CHEN), ("Sukop", SUKOP), ("CarnahanStarling", CARNAHAN_STARLING)]
  | forcingScheme =>
    [("No Forcing", NO_FORCING), ("Shifting Velocity", SHIFTING_VELOCITY), ("Exact Difference", EXACT_DIFFERENCE), ("Guo", GUO)]
  | filteringScheme => [("Exponential", EXPONENTIAL_FILTER), ("New", NEW_FILTER)]
  | initializationScheme =>
    [("Iterative", ITERATIVE), ("CompressibleIterative", COMPRESSIBLE_ITERATIVE), ("Gradients", GRADIENTS), ("Equilibrium", EQUILIBRIUM)]
  | sedgFluxType => [("Lax-Friedrichs", LAX_FRIEDRICHS), ("Central", CENTRAL)]
  | stencil =>
    [("D2Q9", Stencil_D2Q9), ("D3Q19", Stencil_D3Q19), ("D3Q13", Stencil_D3Q13), ("D3Q15", Stencil_D3Q15), ("D3Q21", Stencil_D3Q21),
     ("D3Q27", Stencil_D3Q27), ("D2Q19H", Stencil_D2Q19H), ("D2Q19V", Stencil_D2Q19V), ("D2Q777", Stencil_D2Q777),
     ("D2Q25H", Stencil_D2Q25H), ("RD3Q27", Stencil_RD3Q27), ("D3Q45", Stencil_D3Q45), ("D3Q77", Stencil_D3Q77), ("D3V27", Stencil_D3V27)]
  | timeIntegrator =>
    [("Runge-Kutta 5-stage", RUNGE_KUTTA_5STAGE), ("Theta method", THETA_METHOD), ("Exponential", EXPONENTIAL), ("Other", OTHER)]
  | dealIntegrator =>
    [("None", NONE), ("Forward Euler", FORWARD_EULER), ("RK 3rd order", RK_THIRD_ORDER), ("RK Classic 4th order", RK_CLASSIC_FOURTH_ORDER),
     ("Backward Euler", BACKWARD_EULER), ("Implicit midpoint", IMPLICIT_MIDPOINT), ("Crank-Nicoloson", CRANK_NICOLSON),
     ("SDIRK 2 stages", SDIRK_TWO_STAGES), ("Heun-Euler", HEUN_EULER), ("Bogacki-Shampine", BOGACKI_SHAMPINE), ("Dopri", DOPRI),
     ("Fehlberg", FEHLBERG), ("Cash-Karp", CASH_KARP)]
  | dealLinearSolver =>
    [("Bicgstab", BICGSTAB), ("Cg", CG), ("Fgmres", FGMRES), ("Gmres", GMRES), ("Minres", MINRES), ("Qmrs", QMRS),
     ("Relaxation", RELAXATION), ("Richardson", RICHARDSON)]
  | regularizationScheme =>
    [("No Regularization", NO_REGULARIZATION), ("Pseudo-entropy maximization", PSEUDO_ENTROPY_MAXIMIZATION),
     ("Zero high-order moments", ZERO_HIGH_ORDER_MOMENTS), ("Entropy maximization", ENTROPY_MAXIMIZATION),
     ("Pseudo-entropy maximization with e", PSEUDO_ENTROPY_MAXIMIZATION_WITH_E)]

/-- What the getter does with any other text: an exception, except `P/solver/SolverConfiguration.h:472-473`, where the condition
`else if ("DHumieres Paper")` is a non-null pointer and always true. -/
def getElse : EnumParam → Except Exc ℕ
  | mrtRelaxationTimes => .ok RELAX_DHUMIERES_PAPER
  | _ => .error .configuration

end EnumParam

/-- The setter of an enumeration parameter: the `switch` with its `default` branch, which leaves the subsections and throws.  There is no
`try` block.  Citations at `EnumParam.setTable`. -/
noncomputable def setEnum (p : EnumParam) (n : ℕ) (h : Handler) : Res Unit :=
  match p.setTable.lookup n with
  | some s => plainSet p.key.1 p.key.2 (.text s) h
  | none => (.error .configuration, (h.enter p.key.1).leave p.key.1.length)

/-- The chain of comparisons in the getter of an enumeration parameter, citations at `EnumParam.getTable` and `getElse`. -/
def decodeEnum (p : EnumParam) : Val → Except Exc ℕ
  | .text s => match p.getTable.lookup s with
    | some n => .ok n
    | none => p.getElse
  | _ => .error .configuration

/-- The getter of an enumeration parameter.  `get` is not in a `try` block. -/
def getEnum (p : EnumParam) (h : Handler) : Res ℕ :=
  match (h.enter p.key.1).get p.key.2 with
  | .error e => (.error e, h.enter p.key.1)
  | .ok v => (decodeEnum p v, (h.enter p.key.1).leave p.key.1.length)

/-! ## Numbers and flags -/

/-- Setters with one argument of type `double` and one entry. -/
inductive DblParam
  | cfl | heatCapacityRatioGamma | referenceTemperature | stencilScaling | thetaMethodTheta | bgkSteadyStateGamma | bgkPseudopotentialG
  | bgkPseudopotentialT | exponentialFilterAlpha | exponentialFilterS | exponentialFilterNc | iterativeInitializationResidual
  | simulationEndTime | convergenceThreshold
  deriving DecidableEq, Repr

/-- Setters with one argument of type `long int`. -/
inductive IntParam
  | commandLineVerbosity | filterInterval | iterativeInitializationNumberOfIterations | numberOfTimeSteps | outputCheckpointInterval
  | outputTableInterval | outputSolutionInterval | restartAtIteration | sedgOrderOfFiniteElement | wallNormalDirection
  deriving DecidableEq, Repr

/-- Setters with one argument of type `bool`. -/
inductive BoolParam
  | hasAnalyticSolution | filtering | vmultLimiter | filterDegreeByComponentSums | writeALogFile | switchOutputOff
  | outputTurbulenceStatistics | outputGlobalTurbulenceStatistics | outputCompressibleTurbulenceStatistics | userInteraction
  deriving DecidableEq, Repr

/-- The subsections and the name used by the setter (and, identically, the getter):
`P/solver/SolverConfiguration.h:2128-2139`, `:2157-2168`, `:2217-2228`, `:1569-1581`, `:1764-1779`, `:590-605`, `:677-692`, `:714-729`,
`:961-976`, `:996-1011`, `:1031-1046`, `:1205-1221`, `:1271-1283`, `:1302-1314`. -/
def DblParam.key : DblParam → List String × String
  | .cfl => (["General"], "CFL")
  | .heatCapacityRatioGamma => (["General"], "Gamma")
  | .referenceTemperature => (["General"], "Reference temperature")
  | .stencilScaling => (["General"], "Stencil scaling")
  | .thetaMethodTheta => (["Advection", "Theta method"], "Theta")
  | .bgkSteadyStateGamma => (["Collision", "BGK parameters"], "Steady state gamma")
  | .bgkPseudopotentialG => (["Collision", "BGK parameters"], "Pseudopotential G")
  | .bgkPseudopotentialT => (["Collision", "BGK parameters"], "Pseudopotential T")
  | .exponentialFilterAlpha => (["Filtering", "Filter parameters"], "Exponential alpha")
  | .exponentialFilterS => (["Filtering", "Filter parameters"], "Exponential s")
  | .exponentialFilterNc => (["Filtering", "Filter parameters"], "Exponential Nc")
  | .iterativeInitializationResidual => (["Initialization", "Iterative initialization stop condition"], "Residual")
  | .simulationEndTime => (["Stop condition"], "Simulation end time")
  | .convergenceThreshold => (["Stop condition"], "Convergence threshold")

/-- `P/solver/SolverConfiguration.h:803-815`, `:924-939`, `:1166-1184`, `:1240-1252`, `:1333-1345`, `:1364-1376`, `:1426-1438`,
`:1457-1469`, `:1535-1550`, `:2430-2445`. -/
def IntParam.key : IntParam → List String × String
  | .commandLineVerbosity => (["Output"], "Command line verbosity")
  | .filterInterval => (["Filtering", "Filter parameters"], "Filter interval")
  | .iterativeInitializationNumberOfIterations => (["Initialization", "Iterative initialization stop condition"], "Number of iterations")
  | .numberOfTimeSteps => (["Stop condition"], "Number of time steps")
  | .outputCheckpointInterval => (["Output"], "Output checkpoint interval")
  | .outputTableInterval => (["Output"], "Output table interval")
  | .outputSolutionInterval => (["Output"], "Output solution interval")
  | .restartAtIteration => (["Initialization"], "Restart at iteration")
  | .sedgOrderOfFiniteElement => (["Advection", "SEDG"], "Order of finite element")
  | .wallNormalDirection => (["Output", "Turbulence Statistics"], "Wall normal direction")

/-- `P/solver/SolverConfiguration.h:834-838`, `:840-844`, `:862-866`, `:1066-1072`, `:2295-2299`, `:2318-2322`, `:2344-2350`, `:2373-2379`,
`:2402-2408`, `:2519-2523`. -/
def BoolParam.key : BoolParam → List String × String
  | .hasAnalyticSolution => (["General"], "Has analytic solution?")
  | .filtering => (["Filtering"], "Apply filtering?")
  | .vmultLimiter => (["Filtering"], "Apply vmult limiter?")
  | .filterDegreeByComponentSums => (["Filtering", "Filter parameters"], "Degree by component sums")
  | .writeALogFile => (["Output"], "Write a log file?")
  | .switchOutputOff => (["Output"], "Switch output off?")
  | .outputTurbulenceStatistics => (["Output", "Turbulence Statistics"], "Output turbulence statistics?")
  | .outputGlobalTurbulenceStatistics => (["Output", "Turbulence Statistics"], "Output global turbulence statistics?")
  | .outputCompressibleTurbulenceStatistics => (["Output", "Turbulence Statistics"], "Output compressible turbulence statistics?")
  | .userInteraction => (["Output"], "User interaction?")

/-- The setters cited at `DblParam.key` -/
noncomputable def setDbl (p : DblParam) (v : Num) : Handler → Res Unit := guardedSet p.key.1 p.key.2 v.toVal

/-- The setters cited at `IntParam.key` -/
noncomputable def setInt (p : IntParam) (i : ℤ) : Handler → Res Unit := guardedSet p.key.1 p.key.2 (.int i)

/-- The setters cited at `BoolParam.key` (no `try` block) -/
noncomputable def setBool (p : BoolParam) (b : Bool) : Handler → Res Unit := plainSet p.key.1 p.key.2 (.bool b)

/-- The shape of a getter with a `try` block, e.g. `P/solver/SolverConfiguration.h:570-588`; `conv` is `get_double`, `get_integer`,
`get_bool` or `get`. -/
def guardedGet {α : Type} (subs : List String) (name : String) (conv : Val → Option α) (h : Handler) : Res α :=
  match (h.enter subs).get name with
  | .error _ => (.error .configuration, (h.enter subs).leave subs.length)
  | .ok v => match conv v with
    | some x => (.ok x, (h.enter subs).leave subs.length)
    | none => (.error .configuration, (h.enter subs).leave subs.length)

/-- `get_double`: the text of an integer is also the text of a double -/
def Val.toDbl : Val → Option ℝ
  | .dbl x => some x
  | .int i => some i
  | _ => none

/-- `get_integer` -/
def Val.toInt : Val → Option ℤ
  | .int i => some i
  | _ => none

/-- `get_bool` -/
def Val.toBool : Val → Option Bool
  | .bool b => some b
  | _ => none

/-- `get` -/
def Val.toText : Val → Option String
  | .text s => some s
  | _ => none

/-- The conversion of the result of `get_double` to the return type of the getter: `double`, except `size_t` in
`getExponentialFilterNc`, `P/solver/SolverConfiguration.h:1047-1064` (the digits after the point are cut off; the entry is not negative). -/
noncomputable def DblParam.ret : DblParam → ℝ → ℝ
  | .exponentialFilterNc, x => ⌊x⌋
  | _, x => x

/-- The getters `P/solver/SolverConfiguration.h:2112-2126`, `:2141-2155`, `:2201-2215`, `:1552-1567`, `:1745-1762`, `:570-588`, `:657-675`,
`:694-712`, `:977-995`, `:1012-1029`, `:1047-1064`, `:1186-1203`, `:1254-1269`, `:1285-1300` -/
noncomputable def getDbl (p : DblParam) : Handler → Res ℝ := guardedGet p.key.1 p.key.2 fun v => v.toDbl.map p.ret

/-- The getters `P/solver/SolverConfiguration.h:786-801`, `:941-959` (reads with `get_double` and converts, which gives the same number),
`:1146-1164`, `:1223-1238`, `:1316-1331`, `:1347-1362`, `:1409-1424`, `:1440-1455`, `:1515-1533`, `:2410-2428`.  The entries are never
negative, so the conversion to `size_t` keeps the value. -/
def getInt (p : IntParam) : Handler → Res ℤ := guardedGet p.key.1 p.key.2 Val.toInt

/-- The getters `P/solver/SolverConfiguration.h:817-832`, `:845-860`, `:867-882`, `:1073-1091`, `:2278-2293`, `:2301-2316`, `:2324-2342`,
`:2352-2371`, `:2381-2400`, `:2502-2517` -/
def getBool (p : BoolParam) : Handler → Res Bool := guardedGet p.key.1 p.key.2 Val.toBool

/-! ## The other setters -/

/-- `setOutputDirectory`, `P/solver/SolverConfiguration.h:1395-1407` -/
noncomputable def setOutputDirectory (s : String) : Handler → Res Unit := guardedSet ["Output"] "Output directory" (.text s)

/-- `getOutputDirectory`, `P/solver/SolverConfiguration.h:1378-1393` -/
def getOutputDirectory : Handler → Res String := guardedGet ["Output"] "Output directory" Val.toText

/-- `setPrandtlNumber`, `P/solver/SolverConfiguration.h:2187-2199`: two entries in one `try` block -/
noncomputable def setPrandtlNumber (v : Num) (h : Handler) : Res Unit :=
  match (h.enter ["General"]).set "Prandtl" v.toVal with
  | .error _ => (.error .configuration, (h.enter ["General"]).leave 1)
  | .ok h1 => match h1.set "Prandtl number set" (.bool true) with
    | .error _ => (.error .configuration, h1.leave 1)
    | .ok h2 => (.ok (), h2.leave 1)

/-- `getPrandtlNumber`, `P/solver/SolverConfiguration.h:2171-2185` -/
noncomputable def getPrandtlNumber : Handler → Res ℝ := guardedGet ["General"] "Prandtl" Val.toDbl

/-- `isPrandtlNumberSet`, `P/solver/SolverConfiguration.h:2244-2259` -/
def isPrandtlNumberSet : Handler → Res Bool := guardedGet ["General"] "Prandtl number set" Val.toBool

/-- `setSutherlandLaw`, `P/solver/SolverConfiguration.h:2231-2242` -/
noncomputable def setSutherlandLaw : Handler → Res Unit := guardedSet ["General"] "Sutherland law set" (.bool true)

/-- `isSutherlandLawSet`, `P/solver/SolverConfiguration.h:2261-2276` -/
def isSutherlandLawSet : Handler → Res Bool := guardedGet ["General"] "Sutherland law set" Val.toBool

/-- The text of a finite number in a stream with default settings; `none` for `nan` and `inf`. -/
noncomputable def Num.sixDigits? : Num → Option ℝ
  | .fin x => some (Checkpoint.sixDigits x)
  | _ => none

/-- `setWallNormalCoordinates`, `P/solver/SolverConfiguration.h:2477-2500`.  For an empty vector `n - 1` wraps around and `at(0)` throws
inside the `try` block.  The text is written by a stream with the default precision of 6 digits. -/
noncomputable def setWallNormalCoordinates (l : List Num) (h : Handler) : Res Unit :=
  if l = [] then (.error .configuration, (h.enter ["Output", "Turbulence Statistics"]).leave 2)
  else guardedSet ["Output", "Turbulence Statistics"] "Wall normal coordinates"
    (match l.mapM Num.sixDigits? with | some xs => .list xs | none => .text "nan") h

/-- `get` of a comma-separated list of numbers -/
def Val.toList : Val → Option (List ℝ)
  | .list l => some l
  | _ => none

/-- `getWallNormalCoordinates`, `P/solver/SolverConfiguration.h:2447-2475` -/
noncomputable def getWallNormalCoordinates : Handler → Res (List ℝ) :=
  guardedGet ["Output", "Turbulence Statistics"] "Wall normal coordinates" Val.toList

/-- The names set by `setEmbeddedDealIntegratorParameters` in order, `P/solver/SolverConfiguration.h:1981-1986` -/
def embeddedNames : List String :=
  ["Coarsen parameter", "Refinement parameter", "Minimum CFL", "Maximum CFL", "Refinement tolerance", "Coarsen tolerance"]

/-- The sequence of `set` calls; it stops at the first exception. -/
noncomputable def setAll : List (String × Num) → Handler → Except Exc Unit × Handler
  | [], h => (.ok (), h)
  | (n, v) :: l, h => match h.set n v.toVal with
    | .ok h' => setAll l h'
    | .error e => (.error e, h)

/-- `setEmbeddedDealIntegratorParameters`, `P/solver/SolverConfiguration.h:1975-1990`: no `try` block -/
noncomputable def setEmbedded (v : Fin 6 → Num) (h : Handler) : Res Unit :=
  match setAll (embeddedNames.zip (List.ofFn v)) (h.enter ["Advection", "Embedded Parameters"]) with
  | (.ok (), h') => (.ok (), h'.leave 2)
  | (.error e, h') => (.error e, h')

/-! ## Declarations -/

/-- The upper bound of `Integer(a)`: the largest `int` -/
abbrev intMax : ℤ := 2147483647

/-- One `declare_entry`. -/
structure Decl where
  path : List String
  name : String
  pattern : Pattern
  deriving DecidableEq

/-- The declarations in the constructor, `P/solver/SolverConfiguration.cpp:17-293`.  `1 + 1e-50` (line 150) is the double `1`.  The default
values are at `defaults`. -/
def declarations : List Decl :=
  [⟨["General"], "CFL", .double (some (1 / 10 ^ 10)) none⟩,
   ⟨["General"], "Prandtl", .double (some (1 / 10 ^ 10)) none⟩,
   ⟨["General"], "Reference temperature", .double (some (1 / 10 ^ 10)) none⟩,
   ⟨["General"], "Gamma", .double (some (1 / 10 ^ 10)) none⟩,
   ⟨["General"], "Prandtl number set", .bool⟩,
   ⟨["General"], "Sutherland law set", .bool⟩,
   ⟨["General"], "Stencil", .selection ["D2Q9", "D3Q13", "D3Q19", "D3Q15", "D3Q21", "D3Q27", "RD3Q27", "D2Q19V", "D2Q19H", "D2Q777",
      "D2Q25H", "D3Q45", "D3Q77", "D3V27"]⟩,
   ⟨["General"], "Stencil scaling", .double (some (1 / 10 ^ 10)) none⟩,
   ⟨["General"], "Has analytic solution?", .bool⟩,
   ⟨["Advection"], "Advection scheme", .selection ["SEDG", "Semi-Lagrangian"]⟩,
   ⟨["Advection"], "Support points", .selection ["Gauss-Lobatto", "Gauss-Lobatto-Chebyshev", "Gauss-Chebyshev", "Equidistant"]⟩,
   ⟨["Advection"], "Quadrature", .selection ["Gauss-Lobatto", "Gauss"]⟩,
   ⟨["Advection"], "Time integrator", .selection ["Runge-Kutta 5-stage", "Theta method", "Exponential", "Other"]⟩,
   ⟨["Advection", "SEDG"], "Order of finite element", .integer 1 intMax⟩,
   ⟨["Advection", "SEDG"], "Flux type", .selection ["Lax-Friedrichs", "Central"]⟩,
   ⟨["Advection", "Theta method"], "Theta", .double (some 0) (some 1)⟩,
   ⟨["Advection", "Deal.II integrator"], "Runge Kutta scheme", .selection ["Forward Euler", "RK 3rd order", "RK Classic 4th order",
      "Backward Euler", "Implicit midpoint", "Crank-Nicoloson", "SDIRK 2 stages", "Heun-Euler", "Bogacki-Shampine", "Dopri", "Fehlberg",
      "Cash-Karp", "None"]⟩,
   ⟨["Advection", "Deal.II linear solver"], "Linear solver", .selection ["Bicgstab", "Cg", "Fgmres", "Gmres", "Minres", "Qmrs", "Relaxation",
      "Richardson"]⟩,
   ⟨["Advection", "Embedded Parameters"], "Coarsen parameter", .double (some 1) (some 1000)⟩,
   ⟨["Advection", "Embedded Parameters"], "Refinement parameter", .double (some 0) (some 1)⟩,
   ⟨["Advection", "Embedded Parameters"], "Minimum CFL", .double none none⟩,
   ⟨["Advection", "Embedded Parameters"], "Maximum CFL", .double none none⟩,
   ⟨["Advection", "Embedded Parameters"], "Refinement tolerance", .double none none⟩,
   ⟨["Advection", "Embedded Parameters"], "Coarsen tolerance", .double none none⟩,
   ⟨["Collision"], "Collision scheme", .selection ["BGK standard", "BGK steady state", "BGK standard transformed", "BGK multiphase",
      "BGK incompressible", "BGK regularized", "MRT standard", "MRT entropic", "Entropic stabilized", "KBC standard", "KBC central",
      "BGK multi am4", "BGK multi bdf2"]⟩,
   ⟨["Collision"], "MRT basis", .selection ["Dellar D2Q9", "Lallemand D2Q9", "DHumieres D3Q19"]⟩,
   ⟨["Collision"], "MRT relaxation times", .selection ["Full", "Dellar D2Q9 Only N", "DHumieres Paper"]⟩,
   ⟨["Collision"], "Equilibrium scheme", .selection ["BGK equilibrium", "Quartic equilibrium", "Incompressible equilibrium",
      "Steady-state equilibrium", "Entropic equilibrium"]⟩,
   ⟨["Collision", "BGK parameters"], "Steady state gamma", .double (some 0) (some 1)⟩,
   ⟨["Collision", "BGK parameters"], "Pseudopotential type", .selection ["ShanChen", "Sukop", "CarnahanStarling"]⟩,
   ⟨["Collision", "BGK parameters"], "Pseudopotential G", .double (some (-10 ^ 10)) (some (10 ^ 10))⟩,
   ⟨["Collision", "BGK parameters"], "Pseudopotential T", .double (some (-10 ^ 10)) (some (10 ^ 10))⟩,
   ⟨["Collision", "BGK parameters"], "Forcing scheme", .selection ["No Forcing", "Shifting Velocity", "Exact Difference", "Guo"]⟩,
   ⟨["Filtering"], "Regularization", .selection ["No Regularization", "Pseudo-entropy maximization", "Zero high-order moments",
      "Entropy maximization", "Pseudo-entropy maximization with e"]⟩,
   ⟨["Filtering"], "Apply vmult limiter?", .bool⟩,
   ⟨["Filtering"], "Apply filtering?", .bool⟩,
   ⟨["Filtering"], "Filtering scheme", .selection ["Exponential", "New"]⟩,
   ⟨["Filtering", "Filter parameters"], "Filter interval", .integer 1 10000000⟩,
   ⟨["Filtering", "Filter parameters"], "Exponential alpha", .double (some 0) (some (10 ^ 10))⟩,
   ⟨["Filtering", "Filter parameters"], "Exponential s", .double (some 0) (some (10 ^ 10))⟩,
   ⟨["Filtering", "Filter parameters"], "Exponential Nc", .double (some 0) (some 50)⟩,
   ⟨["Filtering", "Filter parameters"], "Degree by component sums", .bool⟩,
   ⟨["Initialization"], "Restart at iteration", .integer 0 intMax⟩,
   ⟨["Initialization"], "Initialization scheme", .selection ["Equilibrium", "Iterative", "CompressibleIterative", "Gradients"]⟩,
   ⟨["Initialization", "Iterative initialization stop condition"], "Residual", .double (some (1 / 10 ^ 25)) none⟩,
   ⟨["Initialization", "Iterative initialization stop condition"], "Number of iterations", .integer 1 intMax⟩,
   ⟨["Stop condition"], "Number of time steps", .integer 1 intMax⟩,
   ⟨["Stop condition"], "Simulation end time", .double (some 0) none⟩,
   ⟨["Stop condition"], "Convergence threshold", .double none none⟩,
   ⟨["Output"], "Switch output off?", .bool⟩,
   ⟨["Output"], "User interaction?", .bool⟩,
   ⟨["Output"], "Output directory", .directoryName⟩,
   ⟨["Output"], "Output checkpoint interval", .integer 1 intMax⟩,
   ⟨["Output"], "Output table interval", .integer 1 intMax⟩,
   ⟨["Output"], "Output solution interval", .integer 1 intMax⟩,
   ⟨["Output"], "Command line verbosity", .integer 0 8⟩,
   ⟨["Output"], "Write a log file?", .bool⟩,
   ⟨["Output", "Turbulence Statistics"], "Output global turbulence statistics?", .bool⟩,
   ⟨["Output", "Turbulence Statistics"], "Output compressible turbulence statistics?", .bool⟩,
   ⟨["Output", "Turbulence Statistics"], "Output turbulence statistics?", .bool⟩,
   ⟨["Output", "Turbulence Statistics"], "Wall normal direction", .integer 0 3⟩,
   ⟨["Output", "Turbulence Statistics"], "Wall normal coordinates", .doubleList (-10 ^ 10) (10 ^ 10)⟩]

/-- The default values, in the order of `declarations`, `P/solver/SolverConfiguration.cpp:17-293`. -/
noncomputable def defaults : List Val :=
  [.dbl 0.4, .dbl 1, .dbl 1, .dbl 1.4, .bool false, .bool false, .text "D2Q9", .dbl 1, .bool false,
   .text "SEDG", .text "Gauss-Lobatto", .text "Gauss-Lobatto", .text "Runge-Kutta 5-stage", .int 1, .text "Lax-Friedrichs", .dbl 0.5,
   .text "None", .text "Bicgstab", .dbl 1.2, .dbl 0.8, .dbl 10, .dbl 0.05, .dbl 1e-8, .dbl 1e-12,
   .text "BGK standard", .text "Dellar D2Q9", .text "Full", .text "BGK equilibrium", .dbl 1, .text "ShanChen", .dbl (-5), .dbl 0.0848997582,
   .text "No Forcing", .text "No Regularization", .bool false, .bool false, .text "Exponential", .int 1, .dbl 10, .dbl 20, .dbl 1,
   .bool false, .int 0, .text "Equilibrium", .dbl 1e-7, .int 2000, .int 100000000, .dbl 100000000, .dbl 1e-30,
   .bool false, .bool true, .text "/tmp/NATriuM", .int 1000000000, .int 1000, .int 1000, .int 5, .bool true,
   .bool false, .bool false, .bool false, .int 1, .list [1e-1, 2e-1, 5e-1]]

/-- The position of a declaration by full path. -/
def position (k : List String) : Option (Fin declarations.length) :=
  (List.finRange declarations.length).find? fun i => decide (declarations[i].path ++ [declarations[i].name] = k)

/-- The object built by the default constructor, `P/solver/SolverConfiguration.cpp:14-295`. -/
noncomputable def initial : Handler where
  entries k := (position k).map fun (i : Fin declarations.length) => ⟨declarations[i].pattern, defaults.getD i (.bool false)⟩
  path := []

open Classical in
/-- `readFromXMLFile`, `P/solver/SolverConfiguration.cpp:315-321`, that is `parse_input_from_xml`: the entries of the file, given by full
path, are set one after the other; an entry that is not declared or does not match its pattern is an exception. -/
noncomputable def readXML : List (List String × Val) → Handler → Except Exc Handler
  | [], h => .ok h
  | (k, v) :: l, h => match h.entries k with
    | none => .error .dealii
    | some e => if e.pattern.Match v then readXML l { h with entries := Function.update h.entries k (some { e with value := v }) } else .error .dealii

/-- The constructor with a file name, `P/solver/SolverConfiguration.cpp:297-300`: the statement `SolverConfiguration();` builds and discards
another object, so nothing is declared in the object that reads the file. -/
noncomputable def fromXML (file : List (List String × Val)) : Except Exc Handler := readXML file ⟨fun _ => none, []⟩

/-- `print_parameters` in XML style: every entry with its value.  Used to state what a file written from a configuration contains. -/
noncomputable def writeXML (h : Handler) : List (List String × Val) :=
  declarations.filterMap fun d => (h.entries (d.path ++ [d.name])).map fun e => (d.path ++ [d.name], e.value)

/-! ## Histories -/

/-- A call of a setter. -/
inductive Call
  | enum (p : EnumParam) (n : ℕ)
  | dbl (p : DblParam) (v : Num)
  | int (p : IntParam) (i : ℤ)
  | bool (p : BoolParam) (b : Bool)
  | outputDirectory (s : String)
  | prandtlNumber (v : Num)
  | sutherlandLaw
  | wallNormalCoordinates (l : List Num)
  | embedded (v : Fin 6 → Num)

/-- One call -/
noncomputable def exec : Call → Handler → Res Unit
  | .enum p n => setEnum p n
  | .dbl p v => setDbl p v
  | .int p i => setInt p i
  | .bool p b => setBool p b
  | .outputDirectory s => setOutputDirectory s
  | .prandtlNumber v => setPrandtlNumber v
  | .sutherlandLaw => setSutherlandLaw
  | .wallNormalCoordinates l => setWallNormalCoordinates l
  | .embedded v => setEmbedded v

/-- The object after a sequence of calls, whose exceptions were caught by the caller. -/
noncomputable def history (cs : List Call) : Handler := cs.foldl (fun h c => (exec c h).2) initial

/-! ## Consistency check -/

/-- Runs a getter and continues with its value; an exception passes through. -/
def bindRes {α β : Type} (r : Res α) (f : α → Handler → Res β) : Res β :=
  match r with
  | (.ok a, h) => f a h
  | (.error e, h) => (.error e, h)

/-- `isConsistent`, `P/solver/SolverConfiguration.cpp:467-531`; `processes` is the number of MPI processes.  Lines 493-496 and 499-516
only write to the log (the getters called there are not modelled, they do not change the object). -/
def isConsistent (processes : ℕ) (h : Handler) : Res Unit :=
  bindRes (getEnum .timeIntegrator h) fun t h =>
  bindRes (getEnum .dealIntegrator h) fun d h =>
  if t = OTHER ∧ d = NONE then (.error .configuration, h) else
  bindRes (getEnum .collisionScheme h) fun c h =>
  bindRes (getEnum .forcingScheme h) fun f h =>
  if c = BGK_MULTIPHASE ∧ f = NO_FORCING then (.error .configuration, h) else
  if 1 < processes then
    bindRes (getBool .userInteraction h) fun u h => if u then (.error .configuration, h) else (.ok (), h)
  else (.ok (), h)

end Config
end NATriuM
