# Formal model of NATriuM in Lean 4 — design

`/repo` (lettucecfd/NATriuM) is read as text; nothing in it is built, run or changed.
`P/` below abbreviates `src/library/natrium/`.

## Layout of the development (`/verif/lean/Verif`)

| directory | content |
|---|---|
| `Verif/Model/…`  | the model: one definition per modelled C++ function, each with a citation `file:lines` |
| `Verif/Spec/…`   | small specifications (moments, conservation, orderings, schedules) that do not mention model helpers |
| `Verif/Lemmas/…` | helper lemmas (not meant to be read as claims) |
| `Verif/Props/…`  | the property theorems named in `MANIFEST.json`, each with a non-vacuity `example` next to it |

## Trusted base

* Lean 4.33.0's kernel. No project axioms, no `sorry`/`admit`, no `native_decide`/`bv_decide`, no `implemented_by`/`unsafe`.
* Axioms, from `#print axioms` on every theorem named in `MANIFEST.json`: all of them depend on
  `propext`, `Classical.choice` and `Quot.sound` or on a subset of these. See *Axioms per theorem* at the end for those that need fewer.
* `decide +kernel` is used on closed statements about finite tables and rational witnesses; it is evaluated by the kernel.
* Mathlib (as installed) for definitions occurring in statements: finite sums, fields, `ℝ`, `Real.sqrt`,
  `Matrix`, `List`, derivatives.
* The transcription C++ → Lean, i.e. that each definition says what the cited lines do. Systematic idealisations:
  1. **Reals for doubles.** `double` arithmetic is modelled in an arbitrary ordered field `K`
     (or in `ℝ` where square roots, exponentials or trigonometric functions occur). Rounding, overflow, NaN and
     infinities are not modelled. (How errors of any origin accumulate in streaming is proved in C142 and C146.) Decimal literals are the exact rational they denote. Division by zero, where the
     code can reach it and the result would be NaN/inf, is made an explicit outcome in the model or excluded by an
     explicit hypothesis; it is never hidden in Lean's `x/0 = 0`.
  2. **Single address space.** MPI distribution is modelled by an arbitrary list (or set) of owned indices. Message passing
     (ghost exchange) is modelled where the code calls it, as a copy.
  3. **deal.II / Trilinos / boost / the standard library** are not modelled. What the code relies on appears as a hypothesis or as a small model:
     * deal.II finite elements: shape functions, quadrature and mappings are parameters; partition of unity, integration by parts on a cell,
       matching quadrature points of neighbouring cells are hypotheses of the theorems that need them (`Sedg`, `PathTracking`, `Smoothing`).
     * deal.II triangulations: a mesh is a structure of cells, neighbours, boundary indicators and periodic partners; that neighbours point back is a hypothesis.
     * deal.II `ParameterHandler`: a string-keyed store; patterns `Integer`, `Double`, `Bool`, `Selection`, `Anything` accept what the
       documentation says; a rejected value leaves the store unchanged and throws (`Model/Config.lean`).
     * deal.II linear solvers: a function returning a solution of the system is a hypothesis of C24.
     * boost `program_options`: stores only declared options, with a value of the declared type (`Model/CommandLine.lean`).
     * boost `filesystem`: a finite map from names to contents (`Model/Checkpoint.lean`, `Model/OutputDirectory.lean`).
     * `std::map`: an association list searched with the given comparison. Where that comparison is no strict weak order (findings 21 and 25) the C++
       behaviour is undefined; the model shows the linear insertion that a tree would do at best.
     * Printing doubles: six significant digits by default, otherwise the number of digits the code sets.
  4. Exceptions and `assert`s are explicit outcomes (`Except`, `Option`) unless the comment on a definition says otherwise.
  5. Logging, timers and text formatting are dropped, except where the property is about the text (checkpoint status).

Where the code violates a property, the model keeps the code's behaviour: the negation is proved with a concrete witness
(theorems named `…_fails`/`not_…`), the part that does hold is proved as `…_partial` (or a theorem with the precise extra hypothesis)
and the defect is listed under *Findings*.

## Plan per property

Stencils (`Model/Stencils*`): every `makeDirections`/`makeWeights`/opposite table/max velocity formula transcribed as functions of the scaling.
* **C01** table functions on `Fin Q`; finite case split on the index, symbolic in the scaling.
* **C02, C03** moments as `∑ i, w i * e i a * …` over `Fin Q`; finite case split on tensor indices, `ring`/`field_simp` symbolic in the scaling. Stencils given by decimals: exact rational error bound.
* **C04** inequality over `ℝ` for all positive scalings; counterexample for the stencils with wrong formula.
* **C05** from C04 by order reasoning on the formula of `calculateTimestep`.
* **C06** explicit left/right inverse matrices, symbolic in the scaling.

Equilibria and collision (`Model/Collision*`): per-node functions over a generic stencil structure; properties proved from isotropy hypotheses, then instantiated with the concrete stencils via C02/C03.
* **C07–C10** expand the polynomial and use the moments; D2Q9 unrolled version by `ring`.
* **C11** `Except`-valued density; unrolled sums equal the generic ones.
* **C12–C16, C19** conservation from the moments of the equilibria; MRT from exact `M*T = 1`.
* **C17** sweep as a monadic fold over the list of owned nodes; induction on the list; permutation invariance.
* **C18** the decision table as a function to the list of sweeps executed; full case analysis of the finite table.
* **C20** algebra plus induction over the list of `setTimeStep` calls.
* **C21** diagonal tables by case analysis. **C22** matrices over `ℚ`, exact.

Time integration (`Model/Time`): **C23–C26** over arbitrary modules/linear maps; stage loop as a fold.

Solver (`Model/Solver*`): **C27–C30, C62, C68** transition system for `run()` with abstract streaming/collision maps; invariants by induction on steps.
**C31–C34** file system as a finite map from names to contents; decimal formatting with six significant digits.
**C35, C65** loop over nodes writing a vector through the variables the code uses.

Configuration (`Model/Config*`): **C36–C41** string-keyed store with patterns; finite tables by case analysis lifted to all strings.

Distribution container: **C42, C43** vectors indexed by `Fin Q`.

Boundaries (`Model/Boundary*`): **C44–C51, C64**; registry as association list, induction over registration histories; affine maps over a field.

Advection (`Model/Advection*`): **C52–C56**; face crossing over an ordered field; path tracking as an iterated step function with fuel from the code's own counter; assembly as finite sums.

Smoothing and utilities: **C57–C61**; **C63** derivatives in Mathlib; **C66** unrolled legacy models; **C67** decision logic.

Added while the model grew:
* **C69** (variable Prandtl number, `Model/CollisionCompressible`): first moments of the third-order Hermite term `gStar`; heat flux before and after a collision.
* **C70** (forces in compressible collisions): moments of the force terms as in C16, with the relaxation time of the node.
* **C71** (time integrators keep linear invariants): every stage is a linear combination; a functional that the right-hand side kills is constant over any history.
* **C72** (velocity norms): maximum and sum over a partition of the nodes, independent of the partition.
* **C73** (parameter files): reading what was written, key by key.
* **C74** (equilibrium inflow): moments of the populations set at the boundary.
* **C75** (sparsity pattern): every entry the assembly writes is in the pattern, by following the same paths.
* **C76** (energy of the upwind scheme): cell energy by the divergence theorem, face terms are a negative square.
* **C77–C80** (reported integrals): a run is the list of the cells of each process; sums over processes and cells become sums over the mesh, then
  compare with quadrature of the named field; Cauchy–Schwarz for the variances; witnesses on single cells where the statement is false.
* **C81–C83** (tables): plane statistics as sums over filtered index lists, equal to finite sums by the partition; the running average by
  induction over the history; errors by rewriting cell and process sums into one quadrature; buffers by induction over the written cells; the
  cache of the statistics objects by an invariant over call sequences; table files by induction over the runs.
* **C84–C86** (boundary values): `reinit` as a chain of steps that may fail, inverted step by step; interpolation and summation commute; the
  application of hits is a fold over all hits, in which separate hits commute; witnesses for varying density and for corners.
* **C87–C88** (mesh transformations): the maps as real functions; strict monotonicity from `|sin a - sin b| ≤ |a - b|` and from the addition theorem of
  `sinh`; onto by the intermediate value theorem; products and gaps of such functions are bijections; witnesses for unchecked parameters.
* **C89–C91** (initial states): the fields as real functions, values that are not numbers as `none`; bounds of `tanh`, `sin` and `exp`; derivatives by
  `HasDerivAt`, the mean inflow by the fundamental theorem of calculus; the Rankine-Hugoniot conditions by arithmetic on the constants of the code.
* **C92, C93** (advection benchmark): `while` loops with a bound on the iterations, shown to end; the profile is differentiated by `HasDerivAt`; the time loop by an
  invariant for each of the two branches.
* **C94, C95** (choice of the time integrator and linear solver): the dispatch over the numbers of the enums; the linear solvers of deal.II are parameters with a
  contract on the residual.
* **C96, C97** (lines at periodic boundaries): the decisions as in the code over real points; the `std::map` with its tolerant comparison is a sorted list, an invariant of
  the insertion gives its first and last element.
* **C98** (coupling at boundaries): membership in the resulting pattern by induction over cells and faces.
* **C99** (pattern covers the assembly): the pattern as the list of its entries; membership is characterised exactly by induction over cells and faces; the two lists of nodes
  of a face are equal as sorted lists with the same elements. The entries of the assembly are those of the model of C56.
* **C100** (blocks): case distinction over the order in which the blocks are initialised, with the involution of C01 and the coupling of C98.
* **C101, C102** (indicators on planes, boundary points): folds over faces and cells with an invariant.
* **C103** (viscosity of the class based collision models): second moments of the unrolled equilibria (which are shown to be the generic ones), linearity of the relaxation; for KBC the
  shear part is shown to carry the momentum flux, so the stabilizer drops out.
* **C104** (boundaries of flow problems on boxes): box meshes with arbitrary numbers of cells and the ids of their sides; the registered boundaries go through the model of the registry
  (C45, C51). The ids on the sides are computed once, the partner of a face is constructed.
* **C105** (ids by position): the loops over faces are maps; a face that is larger than the tolerance cannot be in two planes.
* **C106** (initial fields): the loops over cells as folds; invariant over the set of indices treated; moments of the equilibrium by isotropy (C03).
* **C107** (gradients): the stress of the added part by fourth-order isotropy, summed over the visits of a node.
* **C108** (compressible initialisation): the initial distributions equal the quartic equilibrium of the collision (the four nested sums against the closed form), hence its moments.
* **C109** (conservation over a run): the models of advection, walls, integrators, filter, collision and time loop put together; linear functionals that vanish on the operator are kept by each stage of the
  integrators; induction along the trajectory of the time loop.
* **C110** (uniform flow): a state on which operator and vector cancel is a fixed point of the integrators and of the collision.
* **C111** (force): as C109, with the momentum after `k` collisions as invariant.
* **C112** (assembling again): the calls of the operators as a history; matrix and vector of a state are those of one assembly times the number of assemblies since the last reset; induction over the calls; counterexamples with two assemblies.
* **C113** (uniform flow, semi-Lagrangian): each row of the streaming matrix consists of the entries of one path (C53, C54); its weights sum to one, and its direction is the row's or the opposite one; induction
  along the trajectory of the time loop.
* **C114** (conservation, semi-Lagrangian): the streaming matrix as a permutation of directions and points, with degrees of freedom at periodic boundaries identified; invariants along the trajectory; witnesses by
  evaluation of the matrix for other time steps and for walls.
* **C115** (finite element selection): the constructors as a chain of conditions over names and orders; positions of the support points by monotonicity of the cosine; the map between degrees of freedom and
  quadrature points by C56.
* **C116** (distances): invariants of the loops (lower bound, attained), boxes as cells with edges on the axes; a flat parallelogram as witness.
* **C117, C118** (whole compressible runs): the parts of C109–C111 with a second distribution; an invariant of the time loop; energy as a weighted sum of integrals whose weights are equal for opposite
  directions, which walls at rest conserve; the first collision by C108, also in the iterative initialisation.
* **C119** (thermal wall in a step): the wall applied once per hit, then streaming of `g`; the imbalance of translational and total temperature shrinks by 2/5 per hit, by induction.
* **C120** (random angles): Schrage's method by integer arithmetic; invariant that table and seeds are members of the Park–Miller sequence, which stays positive as 16807 and the modulus are coprime.
* **C121, C122** (synthetic turbulence): derivative of each mode along the axes; orthogonality by trigonometric identities; forward differences commute. Mean profile by evaluation; witnesses for the driver's defaults.
* **C123–C126** (channel statistics and forcing): lists of visits per process; sets and maps with the tolerance of `own_double_less`; induction over samples and measurements; scaling of moments.
* **C127** (exactness of streaming): the assembled row (C54) is an interpolation, and interpolation is exact for represented functions; tensor products of Lagrange polynomials by `Lagrange.interpolate`; where the path ends by C53.
* **C128** (exactness of the discontinuous Galerkin operator): the rate by cells as in the proofs about conservation; jumps vanish at continuous states; derivative of the Lagrange interpolation.
* **C129** (other units and axes): a correspondence between two solvers is carried through collision (equilibria, forcing, relaxation with all schemes), the advection operators, the integrators and the loop; the symmetries of the tables are finite checks over rationals, and a moment basis is symmetric if its entries are sums over isotropic groups of moments.
* **C130** (symmetric flows): the simulation along the other axes (C129) is the same simulation with other numbers (C131).
* **C131** (numbering): the entries of the advection operator are the renumbered entries in another order; walls, filter and collision act on each degree of freedom or cell alone; the two runs agree in every pass of the loop. Completion (`C131_completes_partial`): the collision keeps densities, so a state of the run without a density of exactly 1e-10 has been collided without one, and then every order succeeds.
* **C132** (order of Runge-Kutta): Taylor's theorem for solutions of linear systems; the step is a polynomial in the operator (C23); errors add up over the steps.
* **C133** (order of the theta method): the same for the implicit scheme with the residual of the linear solver; for small steps the initial guess of the solver passes its test.
* **C134** (KBC equilibrium): the product formula factorises on D2Q9; on D3Q15 it does not unless one factor is trivial (witness with rational roots).
* **C135** (locality): an entry of the system matrix couples a cell with itself or a neighbour; five stages of the integrator per step; collision, filter and stabiliser are local; induction on the number of steps. Checked on a row of twelve cells with a bump in the sixth.
* **C136** (stability of streaming): scalar product with the state, integration by parts in each cell; faces between cells pair up to minus the squared jump, wall points pair over opposite directions to minus the squared difference of opposite distributions; theta method by the polarisation identity; solvability by injectivity in finite dimension.
* **C137** (relaxation): conserved quantities fix the equilibrium, so each collision is the same affine map; BGK contracts by |1 - 1/tau| < 1, the regularised collision contracts the stress, MRT every moment that is not conserved.
* **C138** (old checkpoints): the status file as a list of words, read by a stream that can fail; acceptance as an equivalence (the last word can only be read if all reads before it succeeded); the conversion through C31-C33.
* **C139** (semi-Lagrangian, other units): every function of the path tracking commutes with the change of coordinates, by following the definitions; then the simulation lemma of C129 for the time loop, extended to the semi-Lagrangian branch.
* **C140** (how far information travels, semi-Lagrangian): the entries of a row of the matrix are those of one path for each direction (C53); their columns are degrees of freedom of the cell where the path has been found; induction over the time steps. The distance by induction over trips (C53).
* **C141** (no new extreme values): streaming is monotone if the shape functions are not negative, as all entries are shape functions at points of the cell or 1; it keeps constants (C113). Witness for quadratic elements by computation.
* **C142** (errors add up): stability (C136) for a step without error plus the bound of the inverse of the matrix of the linear system, from the same dissipation and the inequality of Cauchy and Schwarz; induction over the steps.
* **C143** (convergence of implicit streaming): existence by the exponential of the system, extended by one component for the walls; uniqueness by C136. The truncation error paired with itself is a function of one variable, bounded by mean values; derivatives of the flow are streamed as well and do not grow (C136). Then C142.
* **C144** (explicit streaming): the values scaled by roots of weights form a Euclidean space whose norm is the root of the energy; there the local error of C132 applies, with derivatives that do not grow (C136). The difference of two flows is streamed without walls; its step is the exact one, which does not enlarge it, plus a local error.
* **C145** (mass with iterative solvers): the mass is a linear functional that the system matrix maps to zero, so its change in a step is its value on the residual, bounded by Cauchy-Schwarz; the filter and the collision keep it. Induction over the run.
* **C146** (rounding): a nonnegative matrix with row sums one does not enlarge the largest difference (monotone, and constants are kept; C141), and velocity walls, bounce back, prescribed equilibria and do-nothing boundaries do not either; for the Runge-Kutta integrator the factor of one step from C144. Induction over the steps.

## What is modelled

| model file | part of `P/` |
|---|---|
| `Stencils`, `StencilsDecimal`, `StencilD2Q777`, `StencilType`, `MomentBasis` | `stencils/*`: directions, weights, opposite directions, maximal velocities, moment matrices |
| `TimeStep` | `CFDSolverUtilities::calculateTimestep` and the mesh loops it uses |
| `Collision`, `MRT`, `CollisionCompressible`, `CollisionSelection` | `collision_advanced/*` |
| `LegacyBGK`, `LegacyMRT`, `EntropicEquilibrium` | `collision/*` (all node updates and equilibria; D3Q27 of the entropic stabilizer is an `assert(false)` in the code) |
| `Stabilizer` | `dataprocessors/PseudoEntropicStabilizer` |
| `TimeIntegration` | `timeintegration/*` except the wrapper of the deal.II integrators |
| `Distributions` | `solver/DistributionFunctions` |
| `SolverLoop` | `run`, `stream`, `collide`, `stopConditionMet`, `output`, iterative initialisation of both solvers |
| `Checkpoint`, `OldCheckpoint`, `OutputDirectory` | `solver/Checkpoint`, `SolverConfiguration::prepareOutputDirectory` |
| `Config`, `CommandLine` | `solver/SolverConfiguration`, `utilities/CommandLineParser` |
| `Problem`, `Periodic` | `problemdescription/*`, `boundaries/PeriodicBoundary` |
| `BoundaryHit`, `Walls` | `boundaries/*`: hits, bounce-back, thermal wall, equilibrium inflow, Grad's distribution |
| `BoundaryValues` | `boundaries/{FEBoundaryValues, BoundaryFlags, Boundary, SemiLagrangianBoundaryHandler}` |
| `MeshTransform` | the `UnstructuredGridFunc` classes and `isCartesian` of the benchmarks and of `examples/{step-0, step-10, step-12, step-turbulentChannel}` |
| `InitialStates` | initial and inflow fields of `benchmarks/{Riemann2D, Droplet2D, BackwardFacingStep2D, LubricationSine}` and `examples/{step-10, step-12, step-13, step-decayingTurbulence2D, step-mixingLayer3D}` |
| `AdvectionBenchmark` | `benchmarks/AdvectionBenchmark.cpp` |
| `IntegratorSelection` | `solver/CFDSolver.cpp:402-445`, `benchmarks/AdvectionBenchmark.cpp` (`make_integrator`), `timeintegration/DealIIWrapper.cpp` |
| `BoundaryLines` | `boundaries/BoundaryTools.cpp` |
| `Sparsity` | `utilities/DealiiExtensions` (sparsity pattern, boundary indicators, boundary points), `advection/SEDGMinLee` (`updateSparsityPattern`) |
| `CompressibleSolver` | the compressible solver with the discontinuous Galerkin scheme, put together from its parts |
| `ThermalStep` | streaming of both distributions of the compressible solver at a thermal wall, semi-Lagrangian |
| `SyntheticTurbulence`, `ChannelStatistics` | `examples/step-turbulentChannel`: random angles, initial velocities, force, statistics over planes and time, adaptive forcing |
| `FaceCrossing`, `Neighborhood`, `PathTracking` | `advection/SemiLagrangian*` |
| `Sedg` | `advection/SEDGMinLee` |
| `Smoothing` | `smoothing/*` |
| `Benchmarks` | `benchmarks/*`: analytic solutions and initial fields |
| `Statistics` | `solver/PhysicalProperties`, `dataprocessors/GlobalTurbulenceStats`, `dataprocessors/CompressibleTurbulenceStats` |
| `Tables` | `solver/TurbulenceStats`, `solver/ErrorStats`, `solver/SolverStats` (update and lines), `solver/BenchmarkCFDSolver` |
| `Utilities` | `utilities/{Math, ...}`, velocity norms in `solver/PhysicalProperties` |

## Not modelled

* Mesh generation and deal.II internals, VTU output, MPI transport, floating-point rounding, timing, logging text.
* `CellShockSensor` (an empty loop).
* The preprocessing/postprocessing/analysis/example programs outside `P/`, but for the parts listed in the table above.

## Findings

Defects of the code found while modelling. "proved" names the theorem with the witness; the others are observations made while reading the cited lines.

### Stencils and collision
1. D3Q21 uses a decimal literal for `sqrt(0.6)`: not exactly isotropic (C02).
2. `getMaxParticleVelocityMagnitude` is wrong for eight stencils (C04; D3Q27, D2Q25H, D3V27, D2Q19H/V, D3Q45, D3Q77, D2Q777).
3. `collideAll` on a process without owned nodes throws `DensityZeroException`; so does a last node of density exactly 1e-10 (C17).
4. Regularized collision with shifted velocity injects `tau*dt*F`, the MRT paper mode injects nothing (C16); compressible collisions inject `tau/tau_node*dt*F` (C70).
5. Compressible collision with the second-order equilibrium does not conserve energy unless `T = 1` (C19).
6. `DELLAR_RELAX_ONLY_N` sets entry 8 instead of 6 (C21). The stabilizer "with e" resets the trace of the stress (C22); for other stencils it silently does nothing.
7. First moment of `gStar` is `cs2/T` times the flux (C69). `tau_factor` in `relaxWithG` is dead code.
8. Selection (C18): D3Q45/D3Q77 isothermal quartic run the second-order equilibrium; D2Q25H compressible regularized runs plain BGK; RD3Q27 is not selectable.
9. An external force with `NO_FORCING` throws in the collision, not in the configuration.
10. Class-based models (C66): exact-difference and Guo forcing on D2Q9 change the mass unless the scaling is 1; on D3Q19 the exact-difference force is lost and
    Guo gives `omega/2*dt*F`; D3Q15 and the generic path ignore forces; the transformed model loses mass on other stencils than D2Q9; the incompressible model
    conserves mass and momentum at density 1 only; the regularized D3Q19 model does not subtract the equilibrium stress and uses an uninitialised velocity during initialisation; the multistep model does nothing on
    D3Q19, divides by a zero time step until `setTimeStep` is called, and injects a wrong momentum with shifted velocity; the pseudopotential force is zero because the gradient is never assembled; the entropic
    MRT tests the old density and uses tables of another numbering on D3Q19; KBC on D3Q15 conserves mass for scaling 1 only; the entropic stabilizer's derivative adds the weight instead of 1.

### Time integration and solver
11. The exponential integrator divides by zero in every steady state (C25). RK5 is of fourth order. Its source weights are rounded decimals (C23).
12. Integrator ids outside 1..15 keep the previous integrator (C26); on the command line the variable is uninitialised (C40).
13. `transferFromOtherScaling` keeps the populations for stencils without a moment basis (C43); `setF0` does not update ghosts; `reinit(0)` wraps around.
14. The residual is compared over 100 iterations, documented are 10; its initial value 1 stops a run whose threshold is larger (C62). Iterative initialisation does one pass more than the limit (C68).
15. The compressible solver writes checkpoints with output switched off; no table line in the final iteration; no checkpoint in the start iteration (C29).
16. A restart collides the stored state once more (C30), loses the velocity (C35), does not read `g` and gets the temperature wrong where the fluid moves (C65).
17. Checkpoint status prints six digits (C32); iteration 1 is magic; `f` and `g` checkpoints in one directory make `stoi` throw; a crash between the two files leaves an unreadable checkpoint (C31);
    `make_stencil` does not know six classes and truncates the scaling (C33, C34).

### Configuration
18. The constructor of `SolverConfiguration` from an XML file declares no parameters and always throws (C73). Default minimal and maximal CFL of the embedded integrator are swapped; `setEmbeddedDealIntegratorParameters` breaks the object; Nc is truncated; wall
    coordinates keep six digits; the wall-normal direction accepts 3 (C37). `isConsistent` only logs unsupported combinations (C38).
19. `prepareOutputDirectory` deletes `testfile_process.0.txt` and its permission check is ineffective (C39).
20. Command line: five deviations (C40); a failing import still marks the configuration as imported; `setArgument` keeps a dangling pointer to its default.
21. `own_double_less` is not a strict weak order (C59). `is_angle_small` converts degrees with the reciprocal factor (C60).

### Boundaries and advection
22. Periodic registration is not atomic; a second plain boundary with the same indicator is dropped silently (C45); `numberOfPeriodicBoundaries` counts each twice.
23. `PrescribedBoundaryValues` drops the temperature when copied and stores the pressure as temperature (C47). Boundary ids are truncated by the check (C51).
24. Meshes one cell wide in a periodic direction and cells of different levels (C44). `PeriodicBoundaryNotPossible` is constructed but not thrown in one place; a rotation matrix is dropped; the vertex table inverts `orientation[0]`.
25. `PointComp` is inverted (C48). A space-dependent wall velocity is evaluated at unit-cell coordinates; the central flux has a sign error (C46, C56).
26. Thermal wall: non-equilibrium part of `g` dropped, wall velocity ignored, 1.4 hard-coded, `g` aliasing `f` doubles the density (C49). Equilibrium boundary: temperature (C74), viscosity 0.1 hard-coded.
27. `FEBoundaryValues` asserts `|u*rho - rho_u| < 1e-10`, which is not true in general. `GradsBoundary` is commented out entirely.
28. `faceCrossedFirstWithoutMapping` reports the face on which an inward-moving path starts (C52). `child()` is taken of active cells for refined neighbours; do-nothing boundaries do not reset the cell (C53). Weights below 1e-10 are
    dropped without rescaling (C54); `reassemble` twice doubles the matrix. The neighbourhood is a box, not a ball (C55).
29. The short constructor of `SEDGMinLee` passes the time step as `use_central_flux` (C56). Hanging nodes are not implemented there.

### Smoothing, benchmarks
30. The 3D exponential filter computes the y-degree as the z-degree; cut-off 0 damps the mean; order 0 of the new filter divides by zero; continuous elements are filtered cell after cell (C57).
31. `VmultLimiter` is commented out (C58), `CellShockSensor` does nothing, `make_fe_by_name` returns before its warning.
32. Taylor-Green 2D is a solution only for `L = 2*pi`; Poiseuille's analytic velocity is zero; 3D Couette uses the length as height (C63). The 2D Couette stretching maps to `[0,1]` for any length.
33. `ErrorStats` overwrites the stored analytic fields with the errors.

### Reported quantities
34. `DealIIWrapper::step` is commented out: with integrator ids 4 to 15 the populations are never advected and the returned time is undefined.
35. The enstrophy of the solver table in three dimensions is the integral of the squared velocity gradient (C78). `meanVelocityX` and `entropy` do not use the
    shape functions (C79): wrong mean for elements of order two and more, entropy multiplied by the degrees of freedom per cell.
36. "Averages" and correlations of the global turbulence statistics are not divided by the volume; the legend puts the time in column 3 instead of 2 and all
    compressible columns at 0, 1, 2 instead of 3, 4, 5; the compressible "total energy" is the integral of the temperature (C80).
37. The benchmark solver's `output` drops the argument `is_final`, so a benchmark run writes neither solution nor checkpoint at its end unless that
    iteration is a multiple of the intervals (C29). The compressible benchmark solver's `output` is never called, since the run calls the
    non-virtual `compressibleOutput`; its error table has only a header (`CompressibleCFDSolver.h:1019-1042`).
38. A restart repeats the table line of the iteration in which the computation was interrupted (C83); the time averages of the turbulence
    statistics are not in the checkpoint and start from zero. `SolverStats` never initialises `m_meanVelocityX`. A statistics plane without nodes
    divides by zero (C81).
39. `FEBoundaryValues::calculateU` interpolates the velocity by itself and asserts that the result is momentum over density up to `1e-10`, which
    is false as soon as the density varies over the cell (C84): no boundary can ask for the velocity. The handler passes the literal viscosity 0.1
    (`SemiLagrangianBoundaryHandler.cpp:29, 37`), so `du/dt` would belong to another fluid.
40. `PrescribedBoundaryValues` makes the temperature function from the pressure, its copy constructor drops the temperature, and `operator+` returns a
    reference to a local object without values (C85).
41. First-order bounce back reads the new population of the opposite direction. In a corner that population may be the destination of another hit; the
    result then depends on the order of the hits (C86).
42. `CouetteFlow3D`'s mesh transformation builds its result with the two-dimensional constructor, so the refined mesh is flat (C87, C88).
    `CouetteFlow2D`'s is written for the unit square whatever size the constructor is given. `ShockVortexInteraction`'s has the wrong period in `y`,
    so the upper boundary moves as soon as `trafo-y` is positive. `LubricationSine` and `SinusoidalShear2D` only check that the height exceeds the
    signed amplitude, and ignore the roughness.
43. The driver of the turbulent channel passes nine arguments to a constructor with ten parameters: the grid density becomes `is_periodic`
    (`step-turbulent-channel.cpp:136-139`), the mesh always has density 0.8 (C87).
44. `BackwardFacingStep2D` registers its initial velocity as initial density (`BackwardFacingStep2D.cpp:28`), so the run starts with density zero (C89).
    Its mesh is generated from members that are not initialised yet, with one rectangle generated into a non-empty mesh and one left empty, and its outlet
    has no boundary (not modelled: deal.II's meshes).
45. `ShockVortexInteraction` is periodic although the states left and right differ: a second jump at the boundary (C90). Its initial velocity is `0/0` in
    the centre of the vortex (C89).
46. `DecayingTurbulence2D` draws wave numbers from a normal distribution: the periodic velocity field is not periodic (C90).
47. `LubricationSine`'s initial velocity does not vanish on the upper wall (C90). `SmoothDensityPropagation`'s reference solution moves `L` times too fast
    for sizes other than one, among them the default (C91).
48. `AdvectionBenchmark.cpp:227` adds the time returned by the integrator to the current time (line 260 assigns it): with output, the time after `n` steps
    is `(2^n - 1) dt`, the run ends early and the errors are computed at a wrong time (C93).
49. `SolverConfiguration::isConsistent` is not called anywhere: the time integrator `Other` without scheme leads to a null pointer that is dereferenced in the
    first step (C94).
50. The linear solver `Relaxation` of the configuration has no case in `DealIIWrapper`: the right-hand side is returned as solution (C95).
51. `checkParallelLines` compares the lengths relative to the first line: for lengths 100000 and 101005 the answer depends on the order of the lines (C96).
52. `getInterfacialLinesByBoundaryIndicator` sorts the vertices by `1000 x + y`: all vertices of a boundary in the direction `(1, -1000)` have the same key, the loop over
    the inner points then starts at the end of the map (undefined behaviour). Inner points are only required to be seen within eight degrees from the begin of the
    line: the boundary `(0,0), (1,0.1), (2,0)` is accepted as straight (C97).
53. `make_sparser_flux_sparsity_pattern` hands the boundary indicator of a face to `isFaceInBoundary`, which expects the number of a face. Unless indicators are face numbers,
    entries across periodic boundaries are missing, or a face that does not exist is looked at (C99, proved: `C99_indicators_fails`, `C99_range_fails`).
54. The same function pairs the nodes of two faces in the order of their numbers, while the assembly pairs them point by point. Where a face across the first axis of a cube
    meets a face across the second axis of another, entries are missing (C99, proved: `C99_order_fails`).
55. With pairwise coupling, a face with smaller cells behind it gets no entries (C99, proved: `C99_hanging_fails`); for a neighbour on another process, the entry of this row is
    added twice instead of the one of the other row (`DealiiExtensions.cpp:346-357`).
56. `assert(some_nonopposite <= n_blocks)` (`SEDGMinLee.cpp:281`) should be `<`: a stencil whose direction 1 has the last direction as opposite would pass and access a block that
    does not exist (C100, proved: `C100_last_direction`); none of the stencils is like that.
57. For a flow with periodic boundaries only, the set of indicators handed to `extract_dofs_with_support_on_boundary` is empty, which stands for all boundaries: the points
    at periodic boundaries are reported as "non-periodic boundary grid points" (C102, proved: `C102_periodic_fails`).
58. `BGKRegularized::collideAllD2Q9` computes the stress in lattice units and uses it with scaled directions: unless the scaling of the stencil is one, the stress is wrong by the factor
    scaling² (C103, proved: `C103_regularizedD2Q9_stress`, `C103_regularizedD2Q9_fails`).
59. `BGKRegularized::collideAllD3Q19` does not subtract the equilibrium part (`pieq` is computed and not used): a fluid at rest is driven out of equilibrium (C103, proved:
    `C103_regularizedD3Q19_fails`).
60. `MRTStandard` uses momenta where velocities are meant, `MRTEntropic` (D2Q9) lacks the division by the density in two equilibrium moments: the equilibrium stress is wrong unless the
    density is one (C103, proved: `C103_mrtStandard_fails`, `C103_mrtEntropic_fails`).
61. `KBCStandard::collideAllD3Q15` has the third moment `Q_xyz` in the shear part in place of the shear stresses: shear stresses relax at the rate of the stabilizer, not of the
    viscosity (C103, proved: `C103_kbcD3Q15_partial`, `C103_kbcD3Q15_fails`).
62. The equilibrium of `BGKIncompressible` is meant for a pressure variable but is given the density: its pressure is larger than that of the fluid by `rho · scaling²` (C103, proved:
    `C103_incompressible_fails`).
63. `TurbulentChannelFlow3D` without periodicity is constructed with a warning only, and without any boundary condition (C104, proved: `C104_channel_fails`).
64. `BackwardFacingStep2D` gives the outflow an id for which no boundary condition is registered: its own check `checkBoundaryConditions` fails on each mesh with an outflow (C105, proved:
    `C105_step_fails`). Besides, by reading: its constructor calls `makeGrid` before the members are set that `makeGrid` uses, and `makeGrid` fills `rect_lu` twice instead of `rect_rb`.
65. `SinusoidalShear2D` with a cell aspect ratio above one, and `LubricationSine` with cells longer than the domain, ask for a mesh of zero columns (C104, proved: `C104_accepted2`).
66. `initializeDistributions` with `GRADIENTS` omits the factor of the time step (`dx` is the constant 1.0, `CFDSolver.cpp:1219`): the stress is too large by `1/dt` (C107, proved: `C107_fails`).
67. The same loop adds to the distributions of the nodes of each cell; with continuous elements (semi-Lagrangian) nodes shared by `k` cells get `k` times the part (C107, proved:
    `C107_fails`). For collision schemes other than `BGK_STANDARD(_TRANSFORMED)` `getTau` returns zero and the viscosity is ignored (`C107_ignored`). Besides, by reading: the values are those at
    the `q`-th quadrature point but stored at the `q`-th local index, which is another point for continuous elements of order two and more.
68. With integrators that choose their step (`CFDSolver.cpp:723-748`), `collide` still uses the time step of the CFL number (`:821-829`); `stream` hands the new one to the class-based collision model only (by reading).
69. A run starts with a collision before its first step (`CFDSolver.cpp:878-893`): after `k` steps the force has acted `k+1` times (C111, proved). Walls assume density 1 (`VelocityNeqBounceBack.cpp:75`): walls with
    velocity `u` fit a uniform flow with `rho * v = u` (C110).
70. `reassemble` adds to matrix and vector without resetting them (`SEDGMinLee.cpp:91-184`, `SemiLagrangian.cpp:75-90`): after `k` additional calls of `CFDSolver::reassemble` (`CFDSolver.cpp:845-856`) the discontinuous Galerkin
    operator advects `k+1` times as fast, and the semi-Lagrangian operator multiplies the distributions by `k+1` with each step (C112, proved). The list of boundary hits is never cleared: with walls, a second assembly or a
    second `setDeltaT` stops at the assertion in `SemiLagrangian.cpp:157`.
71. Semi-Lagrangian streaming interpolates and does not conserve mass unless departure points are nodes: with quadratic elements on equal periodic cells and a quarter of a cell per step, the mass of one direction grows
    from 4/3 to 3/2 per cell (C114, proved).
72. With nodes on bounce-back walls, streaming takes what comes from the neighbouring node twice and loses what is on the wall (C114, proved).
73. A semi-Lagrangian path that is turned round at two moving walls gets the wall term of its destination's direction from both (`VelocityNeqBounceBack.cpp:180-193`), although the population moves in the opposite
    direction at the second one (by reading).
74. The semi-Lagrangian solver accepts Gauss-Chebyshev support points for its continuous element, which have no point on the ends of a cell (`AdvectionTools.cpp:58-61, 92-94`); neighbouring cells share no
    support points (C115, proved for all orders).
75. The warning about other support points in the discontinuous scheme (`AdvectionTools.cpp:86-91`) comes after a `return`; the constructor of `SEDGMinLee` refuses them, however (C115, proved).
76. `getMinimumDoFDistanceGLL` is too large on sheared cells: degrees of freedom may be arbitrarily close to each other while it reports one half (C116, proved).
77. `gStream` adds the wall terms of `f` to the equation of `g` (`CompressibleCFDSolver.h:308-310`), which is wrong for moving walls unless `T (2 cv - D) = 1` (C118, proved).
78. The thermal wall is applied to the new `f` and the old `g`; `g` is streamed afterwards, without a wall (`CompressibleCFDSolver.h:195, 290-293`): a node at a wall of temperature 1 next to a warm node has temperature
    23/12 after the step (C119, proved). As the wall is called once per hit, the deviation proved in C49 shrinks by 2/5 per hit (C119, proved).
79. `TurbulentChannelFlow3D::InitialVelocity` writes `wnrf[12]` of a vector of 12 numbers (`TurbulentChannelFlow3D.cpp:510, 532-535`; C121, proved).
80. `step-turbulent-channel` scales the initial perturbation with maxima that each process takes over its own points (`step-turbulent-channel.cpp:300-309`; C121, proved).
81. `setCharacteristicLength(1.0)` (`step-turbulent-channel.cpp:140`) and the profile that takes the characteristic length for the height (`TurbulentChannelFlow3D.cpp:191, 198`): with default options the initial velocity
    at the upper wall is below -39 times the centre line velocity (C122, proved). The monitored planes are transformed from physical coordinates, the middle becomes the wall (`step-turbulent-channel.cpp:145-151`; C122, proved).
82. Planes: coordinates of the processes are merged without tolerance but looked up with one: `0/0` for a plane whose coordinates differ by rounding; a process without cells dereferences the end of a set
    (`FinalChannelStatistics.cpp:111-137`; C123, proved).
83. Adaptive forcing: a balanced flow loses its force, a force in negative direction is turned around (`AdaptiveForcing.cpp:461-475`; C125, proved); rescaling the density scales `f` only and changes the temperature (`:192-195`);
    the mean over the height is right for height 2 only (`:174-175`; C126, proved).
84. `CFDSolver.cpp:399-400`, `SolverStats.h:126-166`, `CFDSolver.cpp:904-946`: the residual of the velocity is in physical units but starts at the number one. With a convergence threshold above one (reasonable where velocities are large numbers, for example in cm/s) a run stops before the first step if the first iteration is divisible by 100, while the same run in other units does not (`SedgSolver.C129_threshold_fails`).
85. The theta method does not converge when the step size goes to zero: the linear solver starts with the old vector and stops as soon as the residual is below 1e-6 times the right-hand side (`ThetaMethod.cpp:106-111`). The residual of the old vector is `dt` times the time derivative, so that below some step size every step returns the old vector while the time goes on (`C133_stands_still_fails`).
86. `KBCStandard.cpp:35-45`: the equilibrium used for the initial state is a product over the axes, which has the right density and momentum on D2Q9 (and on a lattice with 27 velocities), but the model is also accepted on D3Q15 (`KBCStandard.cpp:76`). There the initial density is wrong wherever no component of the velocity vanishes, for example 1347/1331 instead of 1 for `u = (4/11, 4/11, 4/11)` (`C134_space_fails`).
87. `Checkpoint::loadFromDeprecatedCheckpointVersion` (`P/solver/Checkpoint.cpp:403`, `:410`) divides the difference of the scalings by the stored scaling instead of its absolute value: a file with a negative scaling is always accepted (`C138_scaling_fails`). The second component is 0 for the usual stencils and is accepted because 0/0 is not a number.
88. The same function does not check that `checkpoint.dat` could be read (`P/solver/Checkpoint.cpp:443-446`): without it the checkpoint is converted as iteration 0 at time 0 (`C138_counter_fails`).
89. `CFDSolver::convertDeprecatedCheckpoint` (`P/solver/CFDSolver.cpp:1537`) passes the iteration number to the constructor in which 1 means "the newest checkpoint": the old checkpoint of iteration 1 overwrites the newest checkpoint of the directory (`C138_first_fails`).
90. `PointComp` (`P/boundaries/BoundaryHit.h:97-103`) compares points with a tolerance of 1e-10 in the units of the mesh. Together with its inversion (finding 25) the point at which boundary values are evaluated depends on the units (`C139_hits_fails`). All tolerances in `SemiLagrangian.cpp` are relative to the cell (`C139_matrix`).
91. Semi-Lagrangian streaming with quadratic elements makes negative populations out of positive ones (`C141_quadratic_fails`), and the limiter that should prevent it does nothing (C58).

## Axioms per theorem

Every theorem in `MANIFEST.json` depends on `propext`, `Classical.choice` and `Quot.sound`, except these, which need fewer (prefix `NATriuM.` left out):

* `Sparsity.C100_last_direction`: none
* `Sparsity.C100_boundaries`: `Quot.sound`, `propext`
* `Sparsity.C102_extracted`: `Quot.sound`, `propext`
* `Sparsity.C102_solver_partial`: `Quot.sound`, `propext`
* `Sparsity.C102_periodic_fails`: `propext`
* `Reassembly.C112_solver`: `Quot.sound`, `propext`
* `Channel.C123_empty_process_fails`: `Quot.sound`, `propext`
* `Channel.C125_law`: `Quot.sound`, `propext`
* `C14_mrt_stencils`: `propext`
* `C18_exactly_one`: `Quot.sound`, `propext`
* `C18_configured_partial`: `Quot.sound`, `propext`
* `C18_misdispatched`: `Quot.sound`, `propext`
* `TimeIntegration.C26_names_partial`: `propext`
* `TimeIntegration.C26_injective`: `propext`
* `TimeIntegration.C26_other_ids`: `Quot.sound`, `propext`
* `Distributions.C42_slots`: `Quot.sound`, `propext`
* `Distributions.C42_range`: `Quot.sound`, `propext`
* `Distributions.C42_history`: `Quot.sound`, `propext`
* `Distributions.C42_copy`: `propext`
* `Distributions.C42_ghosted`: `propext`
* `Distributions.C42_reinit`: `Quot.sound`, `propext`
* `Distributions.C42_scaleF`: `Quot.sound`, `propext`
* `Distributions.C42_equals`: `Quot.sound`, `propext`
* `Periodic.C44_levels_fails`: `propext`
* `Problem.C45_failing_call_fails`: none
* `Problem.C45_duplicate_fails`: none
* `Walls.C46_first_order`: `propext`
* `Problem.C47_kept_partial`: `Quot.sound`, `propext`
* `Problem.C47_function`: none
* `Problem.C47_put_partial`: `Quot.sound`, `propext`
* `Problem.C47_temperature_fails`: `Quot.sound`, `propext`
* `Sedg.C56_constructor_fails`: `Quot.sound`, `propext`
* `Smoothing.C57_degree_partial`: `Quot.sound`, `propext`
* `Legacy.C66_collideAll`: `Quot.sound`, `propext`
* `Problem.C67_calls`: `Quot.sound`, `propext`
* `Solver.C68_compressible`: `Quot.sound`, `propext`
* `Stats.C80_legend_partial`: `Quot.sound`, `propext`
* `Stats.C80_legend_complete`: `Quot.sound`, `propext`
* `Stats.C80_legend_fails`: `Quot.sound`, `propext`
* `Stats.C80_compressible_legend_fails`: `propext`
* `Tables.C83_second_run_fails`: `propext`
* `Tables.C83_marker_fails`: `propext`
* `BoundaryValues.C85_kept_partial`: none
* `BoundaryValues.C85_constants`: none
* `BoundaryValues.C85_velocity_function`: `Quot.sound`, `propext`
* `BoundaryValues.C85_temperature_fails`: none
* `BoundaryValues.C85_add_fails`: `propext`
* `IntegratorSelection.C94_build_partial`: `propext`
* `IntegratorSelection.C94_benchmark`: `Quot.sound`, `propext`
* `BoundaryLines.C98_coupled`: `Quot.sound`, `propext`
* `BoundaryLines.C98_symmetric`: `Quot.sound`, `propext`
* `Sparsity.C99_colorized`: `propext`
* `Sparsity.C99_monotone`: `propext`
* `Sparsity.C99_hanging_fails`: `Quot.sound`, `propext`
* `Sparsity.C99_range_fails`: `Quot.sound`, `propext`
