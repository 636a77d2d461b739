import Verif.Model.Config

/-!
# Command line parser

Model of `P/utilities/CommandLineParser.{h,cpp}` (`P` = `src/library/natrium`).

`boost::program_options` is a dependency: parsing the command line into a map from option names to typed values is a parameter of the model.
`applyToSolverConfiguration` is modelled as the sequence of setter calls and exceptions that it performs for given option values; log messages
are left out.
-/

namespace NATriuM
namespace CommandLine

open Config

/-! ## Applying the options -/

/-- The values of the predefined options after import (`P/utilities/CommandLineParser.cpp:16-67`); `none` and `false`: not given. -/
structure Args where
  standardLbm : Bool := false
  standardLbmWith : Option ℤ := none
  orderFe : Option ℤ := none
  cfl : Option Num := none
  outputOn : Bool := false
  verbose : Bool := false
  streaming : Option String := none
  collision : Option String := none
  integrator : Option String := none
  integratorId : Option ℤ := none
  scaling : Option Num := none
  regularization : Option String := none
  equilibrium : Option String := none
  supportPoints : Option String := none
  outputDir : Option String := none
  outputSol : Option ℤ := none
  outputChk : Option ℤ := none
  outputTab : Option ℤ := none
  stencil : Option String := none
  tmax : Option Num := none
  init : Option String := none
  initRes : Option Num := none
  initNiter : Option ℤ := none
  mrtBasis : Option String := none
  mrtRelax : Option String := none

/-- What `applyToSolverConfiguration` does: call a setter or throw. -/
inductive Action
  | call (c : Call)
  | throw (e : Exc)

/-- Execution in order, up to the first exception. -/
noncomputable def run : List Action → Handler → Res Unit
  | [], h => (.ok (), h)
  | .throw e :: _, h => (.error e, h)
  | .call c :: l, h => match exec c h with
    | (.ok (), h') => run l h'
    | (.error e, h') => (.error e, h')

/-- `if (b) throw CommandLineParserException(…)` -/
def throwIf (b : Bool) : List Action := if b then [.throw .commandLine] else []

/-- A chain of `if (value == "…") cfg.set…(enumerator); … else throw` for one enumeration. -/
def select (p : EnumParam) (tbl : List (String × ℕ)) (s : String) : List Action := match tbl.lookup s with
  | some n => [.call (.enum p n)]
  | none => [.throw .commandLine]

/-- `if (hasArgument(…))` for an option with a value -/
def given {α : Type} (o : Option α) (f : α → List Action) : List Action := match o with
  | some x => f x
  | none => []

/-- The blocks of `applyToSolverConfiguration` in order. -/
inductive Block
  | standardLbm | standardLbmWith | orderFe | cfl | outputOn | verbose | streaming | collision | integrator | integratorId | scaling
  | regularization | equilibrium | supportPoints | outputDir | outputSol | outputChk | outputTab | stencil | tmax | init | initRes | initNiter
  | mrtBasis | mrtRelax
  deriving DecidableEq

/-- The order of the blocks, `P/utilities/CommandLineParser.cpp:71-501`. -/
def Block.all : List Block :=
  [.standardLbm, .standardLbmWith, .orderFe, .cfl, .outputOn, .verbose, .streaming, .collision, .integrator, .integratorId, .scaling,
   .regularization, .equilibrium, .supportPoints, .outputDir, .outputSol, .outputChk, .outputTab, .stencil, .tmax, .init, .initRes, .initNiter,
   .mrtBasis, .mrtRelax]

/-- `P/utilities/CommandLineParser.cpp:155-162` -/
def streamingTable : List (String × ℕ) :=
  [("sedg", SEDG), ("sl", SEMI_LAGRANGIAN)]

/-- `P/utilities/CommandLineParser.cpp:170-197` -/
def collisionTable : List (String × ℕ) :=
  [("bgk", BGK_STANDARD), ("bgkt", BGK_STANDARD_TRANSFORMED),
   ("inc", BGK_INCOMPRESSIBLE), ("pp", BGK_MULTIPHASE),
   ("ss", BGK_STEADY_STATE), ("mrt", MRT_STANDARD),
   ("kbcs", KBC_STANDARD), ("kbcc", KBC_CENTRAL),
   ("am4", BGK_MULTI_AM4), ("bdf2", BGK_MULTI_BDF2),
   ("reg", BGK_REGULARIZED), ("est", ENTROPIC_STABILIZED)]

/-- `P/utilities/CommandLineParser.cpp:209-257` -/
def integratorTable : List (String × ℕ × ℕ) :=
  [("rk4", RUNGE_KUTTA_5STAGE, NONE),
   ("theta", THETA_METHOD, NONE),
   ("exp", EXPONENTIAL, NONE),
   ("ee", OTHER, FORWARD_EULER),
   ("rk3", OTHER, RK_THIRD_ORDER),
   ("rk4_2", OTHER, RK_CLASSIC_FOURTH_ORDER),
   ("ie", OTHER, BACKWARD_EULER),
   ("midpoint", OTHER, IMPLICIT_MIDPOINT),
   ("cn", OTHER, CRANK_NICOLSON),
   ("sdirk", OTHER, SDIRK_TWO_STAGES),
   ("heun-euler", OTHER, HEUN_EULER),
   ("bogacki", OTHER, BOGACKI_SHAMPINE),
   ("dopri", OTHER, DOPRI),
   ("fehlberg", OTHER, FEHLBERG),
   ("cash-karp", OTHER, CASH_KARP)]

/-- `CFDSolverUtilities::get_integrator_by_id`, `P/utilities/CFDSolverUtilities.cpp:139-229`, called with an uninitialised variable `t` at
`P/utilities/CommandLineParser.cpp:269-272`: `t0` is what it happens to contain.  (A negative `id` becomes a large `size_t`.) -/
def integratorOfId (t0 : ℕ) (id : ℤ) : ℕ × ℕ :=
  if id = 1 then (RUNGE_KUTTA_5STAGE, NONE)
  else if id = 2 then (THETA_METHOD, NONE)
  else if id = 3 then (EXPONENTIAL, NONE)
  else if id = 4 then (OTHER, FORWARD_EULER)
  else if id = 5 then (OTHER, RK_THIRD_ORDER)
  else if id = 6 then (OTHER, RK_CLASSIC_FOURTH_ORDER)
  else if id = 7 then (OTHER, BACKWARD_EULER)
  else if id = 8 then (OTHER, IMPLICIT_MIDPOINT)
  else if id = 9 then (OTHER, CRANK_NICOLSON)
  else if id = 10 then (OTHER, SDIRK_TWO_STAGES)
  else if id = 11 then (OTHER, HEUN_EULER)
  else if id = 12 then (OTHER, BOGACKI_SHAMPINE)
  else if id = 13 then (OTHER, DOPRI)
  else if id = 14 then (OTHER, FEHLBERG)
  else if id = 15 then (OTHER, CASH_KARP)
  else (t0, NONE)

/-- `P/utilities/CommandLineParser.cpp:290-305` -/
def regularizationTable : List (String × ℕ) :=
  [("no", NO_REGULARIZATION), ("pem", PSEUDO_ENTROPY_MAXIMIZATION),
   ("zero", ZERO_HIGH_ORDER_MOMENTS), ("em", ENTROPY_MAXIMIZATION),
   ("pemwe", PSEUDO_ENTROPY_MAXIMIZATION_WITH_E)]

/-- `P/utilities/CommandLineParser.cpp:313-322` -/
def equilibriumTable : List (String × ℕ) :=
  [("bgk", BGK_EQUILIBRIUM), ("quartic", QUARTIC_EQUILIBRIUM)]

/-- `P/utilities/CommandLineParser.cpp:330-343` -/
def supportPointsTable : List (String × ℕ) :=
  [("gll", GAUSS_LOBATTO_POINTS), ("glc", GAUSS_LOBATTO_CHEBYSHEV_POINTS),
   ("gc", GAUSS_CHEBYSHEV_POINTS), ("equi", EQUIDISTANT_POINTS)]

/-- `P/utilities/CommandLineParser.cpp:387-420` -/
def stencilTable : List (String × ℕ) :=
  [("d2q9", Stencil_D2Q9), ("d3q19", Stencil_D3Q19), ("d3q15", Stencil_D3Q15),
   ("d3q27", Stencil_D3Q27), ("d3q21", Stencil_D3Q21), ("d3q13", Stencil_D3Q13),
   ("rd3q27", Stencil_RD3Q27), ("d2q19h", Stencil_D2Q19H), ("d2q19v", Stencil_D2Q19V),
   ("d2q777", Stencil_D2Q777), ("d2q25h", Stencil_D2Q25H), ("d3q45", Stencil_D3Q45),
   ("d3q77", Stencil_D3Q77), ("d3v27", Stencil_D3V27)]

/-- `P/utilities/CommandLineParser.cpp:435-444` -/
def initTable : List (String × ℕ) :=
  [("equi", EQUILIBRIUM), ("iter", ITERATIVE)]

/-- `P/utilities/CommandLineParser.cpp:467-478` -/
def mrtBasisTable : List (String × ℕ) :=
  [("dellar-d2q9", DELLAR_D2Q9), ("lallemand-d2q9", LALLEMAND_D2Q9),
   ("dhumieres-d3q19", DHUMIERES_D3Q19)]

/-- `hasArgument("order-fe") and (getArgument<int>("order-fe") != 2)`, `P/utilities/CommandLineParser.cpp:79` -/
def orderConflict (a : Args) : Bool := a.orderFe.any fun n => decide (n ≠ 2)

/-- `hasArgument("streaming") and (getArgument<string>("streaming") != "sl")`, `P/utilities/CommandLineParser.cpp:83-84` -/
def streamingConflict (a : Args) : Bool := a.streaming.any fun s => decide (s ≠ "sl")

/-- The body of each block; the lines are given with the cases.  All paths are `P/utilities/CommandLineParser.cpp`. -/
noncomputable def block (t0 : ℕ) (a : Args) : Block → List Action
  -- `P/utilities/CommandLineParser.cpp:74-92`
  | .standardLbm => if a.standardLbm then
      throwIf a.cfl.isSome ++ throwIf (orderConflict a) ++ throwIf (streamingConflict a) ++
      [.call (.dbl .cfl (.fin (√2 * 2))), .call (.int .sedgOrderOfFiniteElement 2), .call (.enum .advectionScheme SEMI_LAGRANGIAN)]
    else []
  -- `P/utilities/CommandLineParser.cpp:95-122`; the product with `order` twice and the division by it are one product for `order > 0`
  | .standardLbmWith => given a.standardLbmWith fun n =>
      throwIf a.cfl.isSome ++ throwIf (orderConflict a) ++ throwIf (streamingConflict a) ++ throwIf a.standardLbm ++
      (if 0 < n then [] else [.throw .assertion]) ++
      [.call (.dbl .cfl (.fin (√2 * n * n / n))), .call (.int .sedgOrderOfFiniteElement n), .call (.enum .supportPoints EQUIDISTANT_POINTS),
       .call (.enum .advectionScheme SEMI_LAGRANGIAN)]
  -- `P/utilities/CommandLineParser.cpp:125-130`
  | .orderFe => given a.orderFe fun n => [.call (.int .sedgOrderOfFiniteElement n)]
  -- `P/utilities/CommandLineParser.cpp:133-137`
  | .cfl => given a.cfl fun x => [.call (.dbl .cfl x)]
  -- `P/utilities/CommandLineParser.cpp:140-143`
  | .outputOn => if a.outputOn then [.call (.bool .switchOutputOff false)] else []
  -- `P/utilities/CommandLineParser.cpp:146-150`; `ALL` is 8
  | .verbose => if a.verbose then [.call (.int .commandLineVerbosity 8), .call (.bool .switchOutputOff false)] else []
  -- `P/utilities/CommandLineParser.cpp:153-165`
  | .streaming => given a.streaming (select .advectionScheme streamingTable)
  -- `P/utilities/CommandLineParser.cpp:168-200`
  | .collision => given a.collision (select .collisionScheme collisionTable)
  -- `P/utilities/CommandLineParser.cpp:203-260`
  | .integrator => given a.integrator fun s => throwIf a.integratorId.isSome ++ match integratorTable.lookup s with
      | some (t, d) => [.call (.enum .timeIntegrator t), .call (.enum .dealIntegrator d)]
      | none => [.throw .commandLine]
  -- `P/utilities/CommandLineParser.cpp:263-277`
  | .integratorId => given a.integratorId fun id => throwIf a.integrator.isSome ++
      [.call (.enum .timeIntegrator (integratorOfId t0 id).1), .call (.enum .dealIntegrator (integratorOfId t0 id).2)]
  -- `P/utilities/CommandLineParser.cpp:280-285`
  | .scaling => given a.scaling fun x => [.call (.dbl .stencilScaling x)]
  -- `P/utilities/CommandLineParser.cpp:288-308`
  | .regularization => given a.regularization (select .regularizationScheme regularizationTable)
  -- `P/utilities/CommandLineParser.cpp:311-325`
  | .equilibrium => given a.equilibrium (select .equilibriumScheme equilibriumTable)
  -- `P/utilities/CommandLineParser.cpp:328-346`
  | .supportPoints => given a.supportPoints (select .supportPoints supportPointsTable)
  -- `P/utilities/CommandLineParser.cpp:349-355`
  | .outputDir => given a.outputDir fun s => [.call (.outputDirectory s), .call (.bool .switchOutputOff false)]
  -- `P/utilities/CommandLineParser.cpp:358-364`
  | .outputSol => given a.outputSol fun n => [.call (.int .outputSolutionInterval n), .call (.bool .switchOutputOff false)]
  -- `P/utilities/CommandLineParser.cpp:367-373`
  | .outputChk => given a.outputChk fun n => [.call (.int .outputCheckpointInterval n), .call (.bool .switchOutputOff false)]
  -- `P/utilities/CommandLineParser.cpp:376-382`
  | .outputTab => given a.outputTab fun n => [.call (.int .outputTableInterval n), .call (.bool .switchOutputOff false)]
  -- `P/utilities/CommandLineParser.cpp:385-422`
  | .stencil => given a.stencil (select .stencil stencilTable)
  -- `P/utilities/CommandLineParser.cpp:425-430`
  | .tmax => given a.tmax fun x => [.call (.dbl .simulationEndTime x)]
  -- `P/utilities/CommandLineParser.cpp:433-447`
  | .init => given a.init (select .initializationScheme initTable)
  -- `P/utilities/CommandLineParser.cpp:450-455`
  | .initRes => given a.initRes fun x => [.call (.dbl .iterativeInitializationResidual x)]
  -- `P/utilities/CommandLineParser.cpp:458-463`
  | .initNiter => given a.initNiter fun n => [.call (.int .iterativeInitializationNumberOfIterations n)]
  -- `P/utilities/CommandLineParser.cpp:465-481`
  | .mrtBasis => given a.mrtBasis (select .mrtBasis mrtBasisTable)
  -- `P/utilities/CommandLineParser.cpp:483-499`; the third condition is a string literal, which is always true
  | .mrtRelax => given a.mrtRelax fun s =>
      if s = "full" then [.call (.enum .mrtRelaxationTimes RELAX_FULL)]
      else if s = "dellar-only-N" then [.call (.enum .mrtRelaxationTimes DELLAR_RELAX_ONLY_N)]
      else [.call (.enum .mrtRelaxationTimes RELAX_DHUMIERES_PAPER)]

/-- All actions of `applyToSolverConfiguration` for imported options. -/
noncomputable def actions (t0 : ℕ) (a : Args) : List Action := (Block.all.map (block t0 a)).flatten

/-- `applyToSolverConfiguration`, `P/utilities/CommandLineParser.cpp:71-501`, after import. -/
noncomputable def apply (t0 : ℕ) (a : Args) (h : Handler) : Res Unit := run (actions t0 a) h

/-! ## Life cycle -/

/-- The type of an option: the template argument of `setArgument`, or a flag. -/
inductive Kind
  | flag | int | double | string
  deriving DecidableEq

/-- A value in the map of `boost::program_options`. -/
inductive Value
  | flag | int (i : ℤ) | double (v : Num) | string (s : String)

/-- The type of a value -/
def Value.kind : Value → Kind
  | .flag => .flag | .int _ => .int | .double _ => .double | .string _ => .string

/-- The name of an option without its short form: `"help,h"` is stored under `"help"`. -/
def longName (s : List Char) : List Char := s.takeWhile (· ≠ ',')

/-- The exceptions: `CommandLineParserException` of this class, an exception of `boost::program_options`, `HelpMessageStop`. -/
inductive ParserExc
  | commandLine | boost | help
  deriving DecidableEq

/-- The state of the parser.  Names are lists of characters. -/
structure Parser where
  /-- `m_description`: name (without short form) and type of every declared option -/
  declared : List (List Char × Kind)
  /-- `m_positionalOptions` -/
  positional : List (List Char)
  /-- `m_varMap` -/
  map : List Char → Option Value
  /-- `m_isImported` -/
  imported : Bool

/-- `po::parse` and `po::store` together: what the command line gives for the declared options, an error or a map. -/
abbrev Parse := List (List Char × Kind) → List (List Char) → Except Unit (List Char → Option Value)

/-- The operations of the class. -/
inductive Op
  /-- `setArgument`, `setFlag` -/
  | declare (name : List Char) (k : Kind)
  /-- `setPositionalArgument` -/
  | declarePositional (name : List Char) (k : Kind)
  | makePositional (name : List Char)
  | importOptions
  | has (name : List Char)
  | get (name : List Char) (k : Kind)

/-- What an operation returns. -/
inductive Answer
  | unit | bool (b : Bool) | value (v : Value)

/-- `setArgument`, `P/utilities/CommandLineParser.cpp:565-585` and `:594-611`, `setFlag`, `:656-670`.  (`add_options` of boost does not look for
duplicates.) -/
def declare (name : List Char) (k : Kind) (p : Parser) : Except ParserExc Answer × Parser :=
  if p.imported then (.error .commandLine, p) else (.ok .unit, { p with declared := p.declared ++ [(longName name, k)] })

/-- `setPositionalArgument`, `P/utilities/CommandLineParser.cpp:503-522` -/
def declarePositional (name : List Char) (k : Kind) (p : Parser) : Except ParserExc Answer × Parser :=
  if p.imported then (.error .commandLine, p)
  else (.ok .unit, { p with declared := p.declared ++ [(longName name, k)], positional := p.positional ++ [name] })

/-- `makePositional`, `P/utilities/CommandLineParser.cpp:524-552` -/
def makePositional (name : List Char) (p : Parser) : Except ParserExc Answer × Parser :=
  if p.imported then (.error .commandLine, p) else (.ok .unit, { p with positional := p.positional ++ [name] })

/-- `importOptions`, `P/utilities/CommandLineParser.cpp:672-687`; `po::store` does not replace values that are already in the map. -/
def importOptions (parse : Parse) (p : Parser) : Except ParserExc Answer × Parser :=
  match parse p.declared p.positional with
  | .error () => (.error .boost, { p with imported := true })
  | .ok m =>
    let m' := fun n => (p.map n).orElse fun _ => m n
    (if (m' "help".toList).isSome then .error .help else .ok .unit, { p with imported := true, map := m' })

/-- `hasArgument`, `P/utilities/CommandLineParser.h:177-183` -/
def hasArgument (name : List Char) (p : Parser) : Except ParserExc Answer × Parser :=
  if p.imported then (.ok (.bool (p.map name).isSome), p) else (.error .commandLine, p)

/-- `getArgument`, `P/utilities/CommandLineParser.cpp:619-651`.  A value of another type is an exception. -/
def getArgument (name : List Char) (k : Kind) (p : Parser) : Except ParserExc Answer × Parser :=
  if p.imported then match p.map name with
    | some v => if v.kind = k then (.ok (.value v), p) else (.error .commandLine, p)
    | none => (.error .commandLine, p)
  else (.error .commandLine, p)

/-- One operation -/
def step (parse : Parse) : Op → Parser → Except ParserExc Answer × Parser
  | .declare n k => declare n k
  | .declarePositional n k => declarePositional n k
  | .makePositional n => makePositional n
  | .importOptions => importOptions parse
  | .has n => hasArgument n
  | .get n k => getArgument n k

/-- The options declared by the constructor, `P/utilities/CommandLineParser.cpp:16-67` -/
def predefined : List (String × Kind) :=
  [("help", .flag), ("standard-lbm", .flag), ("standard-lbm-with", .int), ("order-fe", .int), ("cfl", .double), ("output-on", .flag),
   ("verbose", .flag), ("streaming", .string), ("collision", .string), ("integrator", .string), ("integrator-id", .int), ("scaling", .double),
   ("equilibrium", .string), ("regularization", .string), ("support-points", .string), ("output-dir", .string), ("output-sol", .int),
   ("output-chk", .int), ("output-tab", .int), ("stencil", .string), ("tmax", .double), ("init", .string), ("init-niter", .int),
   ("init-res", .double), ("mrt-basis", .string), ("mrt-relax", .string)]

/-- The constructor, `P/utilities/CommandLineParser.cpp:13-69` -/
def construct : Parser := ⟨predefined.map fun q => (q.1.toList, q.2), [], fun _ => none, false⟩

/-- The parser after a sequence of operations, with their exceptions caught by the caller. -/
def history (parse : Parse) (ops : List Op) : Parser := ops.foldl (fun p o => (step parse o p).2) construct

end CommandLine
end NATriuM
