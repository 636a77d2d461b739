{"id": "C01", "title": "Opposite directions reverse the velocity", "statement": "For every stencil the library offers, asking for the opposite of a direction index returns a valid index whose velocity is exactly the negative, whose weight is equal, and whose own opposite is the original index.", "quantifier": "every stencil class, every scaling, every direction index < Q", "why_tests_cant": "bounce-back walls apply the table to whichever direction hits the wall at whichever scaling; tests use one scaling and a few indices", "anchors": ["src/library/natrium/stencils/*.cpp: makeDirections, makeWeights, getIndexOfOppositeDirection"]}
{"id": "C02", "title": "Stencil weights are a normalised isotropic quadrature up to second order", "statement": "Weights sum to one, the weighted mean velocity is zero and the weighted second moment is exactly the advertised speed-of-sound-square times the identity.", "quantifier": "every analytic stencil (D2Q9, D2Q25H, D3Q13, D3Q15, D3Q19, D3Q21, D3Q27, RD3Q27), every nonzero scaling; tolerance-bounded version for stencils tabulated as decimals", "why_tests_cant": "the identity must hold for every scaling, a test checks one scaling within a tolerance", "anchors": ["src/library/natrium/stencils/Stencil.h: getWeight, getDirection, getSpeedOfSoundSquare"]}
{"id": "C03", "title": "Navier-Stokes isotropy (third and fourth moments)", "statement": "The third weighted velocity moments vanish and the fourth are cs^4(dd+dd+dd), so that the scheme recovers an isotropic stress tensor.", "quantifier": "every analytic stencil, every scaling, every index tuple", "why_tests_cant": "81 index tuples times a continuum of scalings", "anchors": ["src/library/natrium/stencils/*.cpp"]}
{"id": "C04", "title": "Reported maximum particle velocity bounds every particle velocity", "statement": "getMaxParticleVelocityMagnitude is at least the Euclidean norm of each stencil direction.", "quantifier": "every stencil class, every positive scaling, every direction", "why_tests_cant": "each getter is a hand-written formula that must bound a table for all scalings", "anchors": ["src/library/natrium/stencils/*.h: getMaxParticleVelocityMagnitude"]}
{"id": "C05", "title": "Time step from CFL number really bounds the streaming distance", "statement": "A time step computed by calculateTimestep with a CFL number lets no particle travel farther than CFL*dx_min/p^2 in one step.", "quantifier": "every mesh spacing, polynomial order, CFL number, stencil with a correct maximum velocity", "why_tests_cant": "quantifies over all meshes and CFL numbers", "anchors": ["src/library/natrium/utilities/CFDSolverUtilities.cpp: calculateTimestep"]}
{"id": "C06", "title": "Moment basis of a stencil is invertible", "statement": "The moment matrix built by a stencil has an inverse for every nonzero scaling, so converting distributions to moments and back is lossless.", "quantifier": "every stencil with a non-trivial moment basis, every nonzero scaling", "why_tests_cant": "the matrix depends on scaling through its fourth powers; an unlucky scaling could make it singular", "anchors": ["src/library/natrium/stencils/D2Q9.cpp: makeMomentBasis", "src/library/natrium/stencils/Stencil.h: getMomentBasis, getInverseMomentBasis"]}
{"id": "C07", "title": "BGK equilibrium carries the prescribed density, momentum and momentum flux", "statement": "The equilibrium distribution has zeroth moment rho, first moment rho*u and second moment rho*cs^2*I + rho*u*u.", "quantifier": "every stencil with isotropy up to order four, every rho, every u", "why_tests_cant": "real-valued inputs; rounding tolerance hides systematic errors", "anchors": ["src/library/natrium/collision_advanced/Equilibria.h: BGKEquilibrium::calc"]}
{"id": "C08", "title": "Hand-unrolled D2Q9 equilibrium equals the generic formula", "statement": "The specialised D2Q9 equilibrium returns, in every direction, the same value as the generic stencil formula.", "quantifier": "every rho, u, cs2", "why_tests_cant": "17 hand-unrolled expressions over real inputs", "anchors": ["src/library/natrium/collision_advanced/Equilibria.h: BGKEquilibrium<2,9>::calc"]}
{"id": "C09", "title": "Fourth-order (quartic) equilibrium carries density, momentum, pressure and energy", "statement": "For stencils of sufficient isotropy the quartic equilibrium at temperature T has moments rho, rho*u, rho*(cs2*T*I+u*u), hence energy rho*(D*cs2*T+u^2).", "quantifier": "every rho, u, T; every stencil isotropic to sixth order", "why_tests_cant": "real-valued inputs in five or more dimensions", "anchors": ["src/library/natrium/collision_advanced/Equilibria.h: QuarticEquilibrium::calc"]}
{"id": "C10", "title": "Steady-state and incompressible equilibria keep the conserved moments", "statement": "The preconditioned steady-state equilibrium has moments rho, rho*u and momentum flux rho*cs2*I + rho*u*u/gamma; the incompressible equilibrium has zeroth moment rho and first moment u.", "quantifier": "every rho, u, gamma != 0", "why_tests_cant": "real-valued inputs", "anchors": ["src/library/natrium/collision_advanced/Equilibria.h: SteadyStateEquilibrium, IncompressibleEquilibrium"]}
{"id": "C11", "title": "Density and velocity evaluation; specialised versions agree with the generic ones", "statement": "Density is the sum of the distributions, refused (exception) exactly when it is below 1e-10; the unrolled D2Q9 and D3Q19 velocity formulas equal sum(f_i e_i)/rho for the stencil directions.", "quantifier": "every distribution vector", "why_tests_cant": "real-valued inputs; index slips in unrolled sums", "anchors": ["src/library/natrium/collision_advanced/AuxiliaryCollisionFunctions.h: calculateDensity, calculateVelocity"]}
{"id": "C12", "title": "BGK collision conserves mass and momentum", "statement": "One BGK collision without force leaves sum f_i and sum f_i e_i unchanged at each node.", "quantifier": "every node state with admissible density, every relaxation time, every equilibrium offered, every isotropic stencil", "why_tests_cant": "conservation is a for-all statement over real vectors", "anchors": ["src/library/natrium/collision_advanced/CollisionSchemes.h: BGKCollision::relax", "src/library/natrium/collision_advanced/CollisionOperator.h"]}
{"id": "C13", "title": "Regularized collision conserves mass and momentum and projects onto second-order non-equilibrium", "statement": "The regularized collision leaves mass and momentum unchanged, multiplies the non-equilibrium stress by (1-1/tau), and its result does not depend on non-equilibrium moments above second order.", "quantifier": "every node state, tau; stencils isotropic to fourth order", "why_tests_cant": "for-all over real vectors", "anchors": ["src/library/natrium/collision_advanced/CollisionSchemes.h: Regularized::relax"]}
{"id": "C14", "title": "MRT moment matrices are mutually inverse and the MRT collision conserves mass and momentum", "statement": "For each moment basis the library offers, back-transformation after transformation is the identity, and the collision conserves mass and momentum for every relaxation mode.", "quantifier": "every basis (Dellar, Lallemand, d'Humieres), relaxation mode, tau, node state", "why_tests_cant": "81/361 hand-typed coefficients; conservation over real vectors", "anchors": ["src/library/natrium/collision_advanced/AuxiliaryMRTFunctions.h", "src/library/natrium/collision_advanced/CollisionSchemes.h: MultipleRelaxationTime::relax"]}
{"id": "C15", "title": "Equilibrium is a fixed point of every collision", "statement": "A node that is exactly in equilibrium is left unchanged by BGK, regularized and MRT collision, and collision with tau=1 BGK maps every node to its equilibrium.", "quantifier": "every rho >= 1e-10, u, tau", "why_tests_cant": "real-valued inputs", "anchors": ["src/library/natrium/collision_advanced/CollisionSchemes.h", "src/library/natrium/collision_advanced/CollisionOperator.h"]}
{"id": "C16", "title": "Body force injects exactly dt*F of momentum and no mass", "statement": "With a constant external force F, one collision changes the momentum of a node by dt*F and leaves its mass unchanged, for both supported forcing schemes.", "quantifier": "every node state, force, dt, tau, SHIFTING_VELOCITY or EXACT_DIFFERENCE", "why_tests_cant": "real-valued inputs; depends on cancellation between schemes", "anchors": ["src/library/natrium/collision_advanced/AuxiliaryCollisionFunctions.h: applyForces, applyMacroscopicForces, postCollisionApplyForces"]}
{"id": "C17", "title": "Collision sweep touches each owned node once, independently and in any order", "statement": "Sweeping a list of owned nodes collides each of them with its own pre-sweep state, leaves all other nodes untouched, gives the same result in any order, and reports failure exactly when some owned node has density below 1e-10.", "quantifier": "every set of owned nodes, every iteration order, every state", "why_tests_cant": "arbitrary index sets and orders", "anchors": ["src/library/natrium/collision_advanced/CollisionOperator.h: CollisionOperator::collideAll"]}
{"id": "C18", "title": "Collision selection runs exactly one scheme, the configured one, or fails loudly", "statement": "For every combination of stencil, collision scheme and equilibrium the solver either runs exactly one collision sweep with exactly that scheme and that equilibrium or throws.", "quantifier": "all stencil x scheme x equilibrium x (in)compressible combinations", "why_tests_cant": "thousands of combinations; wrong dispatch is silent", "anchors": ["src/library/natrium/collision_advanced/CollisionSelection.h: selectCollision"]}
{"id": "C19", "title": "Compressible collision conserves mass, momentum and total energy", "statement": "One compressible collision with variable Prandtl number leaves sum f, sum f e and sum (|e|^2 f/cs2 + g) unchanged.", "quantifier": "every node state, tau, gamma, Prandtl number; stencils isotropic to sixth order", "why_tests_cant": "real-valued inputs in 2Q dimensions", "anchors": ["src/library/natrium/collision_advanced/CollisionSchemes.h: BGKCollision::relaxWithG", "src/library/natrium/collision_advanced/AuxiliaryCollisionFunctions.h: calculateFStar, calculateGStar, calculateGeqFromFeq"]}
{"id": "C20", "title": "Relaxation time and viscosity determine each other", "statement": "The relaxation time handed to the collision reproduces the configured viscosity, nu = cs2*dt*(tau-1/2), is > 1/2 for positive nu, and halving dt with fixed nu keeps the viscosity; the class-based models keep viscosity under any sequence of time step changes.", "quantifier": "every nu, dt, scaling, any history of setTimeStep calls", "why_tests_cant": "any sequence of time step changes", "anchors": ["src/library/natrium/collision_advanced/AuxiliaryCollisionFunctions.h: calculateTauFromNu", "src/library/natrium/collision/BGK.h: setTimeStep", "src/library/natrium/collision/CollisionModel.h: calculateRelaxationParameter"]}
{"id": "C21", "title": "MRT relaxation modes relax the advertised moments", "statement": "Mode 'relax full' relaxes every ghost moment fully; mode 'only N' relaxes only the scalar ghost mode N; stress moments relax with 1/tau; conserved moments are never relaxed with full mode altering them.", "quantifier": "every mode/basis/tau", "why_tests_cant": "index tables; a wrong index is numerically plausible", "anchors": ["src/library/natrium/collision_advanced/AuxiliaryMRTFunctions.h: make_diag"]}
{"id": "C22", "title": "Pseudo-entropic stabilizer conserves mass, momentum (and stress) and is idempotent", "statement": "Applying the stabilizer leaves density, momentum and stress of each node unchanged, and applying it twice equals applying it once.", "quantifier": "every node state; D2Q9, D2Q9 with energy, D3Q19 matrices", "why_tests_cant": "81/361 hand-typed coefficients acting on real vectors", "anchors": ["src/library/natrium/dataprocessors/PseudoEntropicStabilizer.cpp"]}
{"id": "C23", "title": "Runge-Kutta step: steady states stay, constant sources integrate exactly, clock advances by dt", "statement": "The 5-stage low-storage Runge-Kutta step leaves a state with Af+b=0 unchanged, integrates constant right-hand sides exactly, is affine in the state and returns t+dt.", "quantifier": "every linear system A,b, every state, every dt", "why_tests_cant": "all systems of all sizes", "anchors": ["src/library/natrium/timeintegration/RungeKutta5LowStorage.cpp: step"]}
{"id": "C24", "title": "Theta-method step solves the theta scheme", "statement": "The result satisfies f_new = f + dt*((1-theta)(A f+b) + theta(A f_new + b)); steady states stay; theta=0 is explicit Euler and theta=1 implicit Euler; returns t+dt.", "quantifier": "every A,b,f,dt,theta with a solvable system", "why_tests_cant": "all systems of all sizes", "anchors": ["src/library/natrium/timeintegration/ThetaMethod.cpp: step"]}
{"id": "C25", "title": "Exponential integrator keeps steady states", "statement": "If Af+b=0, a step of the exponential integrator leaves the state unchanged.", "quantifier": "every A,b,f", "why_tests_cant": "the failing case is a measure-zero set of inputs (exactly zero residual)", "anchors": ["src/library/natrium/timeintegration/ExponentialTimeIntegrator.cpp: step"]}
{"id": "C26", "title": "Integrator ids and names identify the integrator", "statement": "Every id 1..15 selects a distinct documented integrator, the name of the selected integrator parses back to it, and other ids do not silently select one.", "quantifier": "all ids, all integrator pairs", "why_tests_cant": "all size_t ids", "anchors": ["src/library/natrium/utilities/CFDSolverUtilities.cpp: get_integrator_by_id, get_integrator_name"]}
{"id": "C27", "title": "Run performs exactly the requested number of time steps and the clock equals steps*dt", "statement": "run() with limit N starting from iteration i0 performs max(0,N-i0) streaming steps if neither end time nor convergence stops it, and the physical time afterwards is t0 + steps*dt.", "quantifier": "every N, i0, dt", "why_tests_cant": "unbounded iteration counts", "anchors": ["src/library/natrium/solver/CFDSolver.cpp: run, stream, stopConditionMet"]}
{"id": "C28", "title": "Run stops at the first iteration satisfying a stop condition, and not before", "statement": "The loop ends at the least iteration at which the iteration limit, the end time, or (checked every 100 iterations) the convergence threshold is reached.", "quantifier": "every configuration and residual history", "why_tests_cant": "arbitrary histories", "anchors": ["src/library/natrium/solver/CFDSolver.cpp: stopConditionMet"]}
{"id": "C29", "title": "Output and checkpoint schedule", "statement": "With output on, solution files, table lines and checkpoints are written exactly at multiples of the configured intervals during the run and at the final iteration; with output off nothing is written.", "quantifier": "every interval configuration, start iteration and run length", "why_tests_cant": "arbitrary schedules", "anchors": ["src/library/natrium/solver/CFDSolver.cpp: output, run"]}
{"id": "C30", "title": "Restart from a checkpoint continues the uninterrupted run", "statement": "Running to iteration n, checkpointing, restarting and running to m gives the same distributions as one run to m.", "quantifier": "every n, m, every collision/streaming map", "why_tests_cant": "all crash points", "anchors": ["src/library/natrium/solver/CFDSolver.cpp: run, CFDSolver", "src/library/natrium/solver/Checkpoint.cpp"]}
{"id": "C31", "title": "Restart picks the newest checkpoint and writing one never destroys another", "statement": "Asking to restart from the latest checkpoint loads the checkpoint with the highest iteration number in the directory; writing the checkpoint of iteration i creates files for i only.", "quantifier": "every set of files in the checkpoint directory", "why_tests_cant": "arbitrary directory contents and crash points", "anchors": ["src/library/natrium/solver/Checkpoint.cpp: Checkpoint, write"]}
{"id": "C32", "title": "Checkpoint status round-trips", "statement": "The iteration number, time, stencil scaling and order written in a checkpoint are read back unchanged.", "quantifier": "every status value", "why_tests_cant": "all doubles", "anchors": ["src/library/natrium/solver/Checkpoint.cpp: write, load"]}
{"id": "C33", "title": "Restart on a different mesh is accepted only when it is a refinement", "statement": "Restart succeeds unchanged on the same refinement level, interpolates when the new mesh is finer, and is refused when it is coarser or has another polynomial order.", "quantifier": "all pairs of refinement levels and orders", "why_tests_cant": "all pairs", "anchors": ["src/library/natrium/solver/Checkpoint.cpp: load"]}
{"id": "C34", "title": "Every stencil that can be checkpointed can be loaded", "statement": "The stencil recreated from a checkpoint's (D,Q,scaling) equals the one that wrote it.", "quantifier": "every stencil class and scaling", "why_tests_cant": "all scalings", "anchors": ["src/library/natrium/utilities/CFDSolverUtilities.cpp: make_stencil", "src/library/natrium/solver/Checkpoint.cpp: load"]}
{"id": "C35", "title": "Macroscopic fields recomputed after restart match the distributions", "statement": "After recomputing densities and velocities, rho = sum f_i and u = sum f_i e_i / rho at each node.", "quantifier": "every distribution field", "why_tests_cant": "arbitrary fields", "anchors": ["src/library/natrium/solver/CFDSolver.cpp: calculateDensitiesAndVelocities"]}
{"id": "C36", "title": "Configuration enums round-trip", "statement": "Reading a configuration parameter after setting it returns the value that was set, for every enumeration value the setter accepts.", "quantifier": "all enumeration parameters and values", "why_tests_cant": "string tables typed twice; mismatch only for some values", "anchors": ["src/library/natrium/solver/SolverConfiguration.cpp, .h: set*/get*"]}
{"id": "C37", "title": "Out-of-range configuration values are rejected", "statement": "Setting a parameter outside its declared range raises a configuration error and leaves the old value; values in range are stored.", "quantifier": "every sequence of set calls with any values", "why_tests_cant": "all histories of set calls", "anchors": ["src/library/natrium/solver/SolverConfiguration.cpp: SolverConfiguration", "src/library/natrium/solver/SolverConfiguration.h"]}
{"id": "C38", "title": "Consistency check rejects the documented inconsistent combinations", "statement": "isConsistent throws exactly for the documented contradictory settings and accepts all others.", "quantifier": "all configurations", "why_tests_cant": "combinatorial", "anchors": ["src/library/natrium/solver/SolverConfiguration.cpp: isConsistent"]}
{"id": "C39", "title": "Preparing the output directory never deletes user data without consent", "statement": "Existing results are removed only when the user agreed or switched the interactive check off and no restart is requested; otherwise an exception is raised or the files remain.", "quantifier": "all directory states, settings and user answers", "why_tests_cant": "combinatorial", "anchors": ["src/library/natrium/solver/SolverConfiguration.cpp: prepareOutputDirectory"]}
{"id": "C40", "title": "Command line options are applied or rejected, never silently misread", "statement": "Each documented option value is mapped to its documented setting; an undocumented value raises an error; conflicting options raise an error.", "quantifier": "all argument strings", "why_tests_cant": "infinite set of strings", "anchors": ["src/library/natrium/utilities/CommandLineParser.cpp: applyToSolverConfiguration"]}
{"id": "C41", "title": "Command line parser life cycle", "statement": "Declaring options after import and reading options before import are errors; a read option was declared.", "quantifier": "all call histories", "why_tests_cant": "arbitrary histories", "anchors": ["src/library/natrium/utilities/CommandLineParser.h"]}
{"id": "C42", "title": "Distribution container: each direction is a separate slot", "statement": "Writing direction i of the container changes exactly direction i; index Q or above is an error; copying copies every direction.", "quantifier": "all Q, indices and write histories", "why_tests_cant": "all histories", "anchors": ["src/library/natrium/solver/DistributionFunctions.h, .cpp"]}
{"id": "C43", "title": "Rescaling distributions to another scaling preserves density and macroscopic velocity", "statement": "transferFromOtherScaling maps populations of one scaling to populations of another scaling with the same moments.", "quantifier": "all distributions, both scalings", "why_tests_cant": "real-valued inputs", "anchors": ["src/library/natrium/solver/DistributionFunctions.cpp: transferFromOtherScaling"]}
{"id": "C44", "title": "Crossing a periodic boundary twice returns to the start", "statement": "Mapping coordinates through a periodic boundary from one side and then from the other is the identity, and the opposite cell of the opposite cell is the original cell.", "quantifier": "all points, offsets, rotation matrices, cell pairs", "why_tests_cant": "real-valued inputs and arbitrary meshes", "anchors": ["src/library/natrium/boundaries/PeriodicBoundary.cpp: coordinatesAcrossPeriodicBoundary, getOppositeCellAtPeriodicBoundary"]}
{"id": "C45", "title": "Boundary registry: one boundary per indicator, lookups return what was registered", "statement": "After any sequence of registrations each indicator maps to the first boundary registered for it; a failing registration leaves the registry unchanged; lookup of unknown indicators throws.", "quantifier": "all registration histories", "why_tests_cant": "all histories", "anchors": ["src/library/natrium/problemdescription/BoundaryCollection.h"]}
{"id": "C46", "title": "Bounce-back walls conserve mass at rest and inject wall momentum", "statement": "With zero wall velocity a bounced population is unchanged in magnitude; with wall velocity u the incoming population gains 2 w rho (e.u)/cs2, so opposite walls' corrections cancel.", "quantifier": "all populations, velocities, directions, scalings", "why_tests_cant": "real-valued inputs", "anchors": ["src/library/natrium/boundaries/VelocityNeqBounceBack.cpp: calculateBoundaryValues", "src/library/natrium/boundaries/SLFirstOrderBounceBack.h"]}
{"id": "C47", "title": "Prescribed boundary values are kept", "statement": "Values (pressure, velocity, temperature) given to a boundary are the ones evaluated later, also after copying.", "quantifier": "all constructor combinations and copies", "why_tests_cant": "null/garbage members only show for particular combinations", "anchors": ["src/library/natrium/boundaries/BoundaryFlags.h: PrescribedBoundaryValues"]}
{"id": "C48", "title": "Every boundary hit is recorded once at its point", "statement": "The number of stored hits equals the number of addHit calls and hits are grouped by their point: equal points share an entry and different points have different entries.", "quantifier": "all sequences of hits", "why_tests_cant": "depends on insertion order and ordering relation", "anchors": ["src/library/natrium/boundaries/BoundaryHit.h", "src/library/natrium/boundaries/SemiLagrangianBoundaryHandler.h"]}
{"id": "C49", "title": "Thermal wall sets the wall temperature", "statement": "After the thermal bounce-back the node keeps density and velocity and has the wall temperature.", "quantifier": "all node states and wall temperatures", "why_tests_cant": "real-valued inputs", "anchors": ["src/library/natrium/boundaries/ThermalBounceBack.cpp"]}
{"id": "C50", "title": "Boundary flag sets behave as sets", "statement": "Combining and testing boundary flags behaves as union, intersection and subset.", "quantifier": "all flag combinations", "why_tests_cant": "combinatorial", "anchors": ["src/library/natrium/boundaries/BoundaryFlags.h"]}
{"id": "C51", "title": "Problem check accepts a mesh iff every boundary id has a boundary condition and vice versa", "statement": "checkBoundaryConditions returns true exactly if the ids on the mesh and the registered ids coincide.", "quantifier": "all meshes (sets of boundary ids) and registries", "why_tests_cant": "all sets", "anchors": ["src/library/natrium/problemdescription/ProblemDescription.h: checkBoundaryConditions"]}
{"id": "C52", "title": "First crossed face of a cell is found", "statement": "For a departure outside the unit cell the reported face is the first one the segment leaves through, and the reported point lies on that face, on the segment and in the cell; departure inside gives 'no crossing'.", "quantifier": "all point pairs", "why_tests_cant": "real-valued inputs with ties", "anchors": ["src/library/natrium/advection/SemiLagrangian.cpp: faceCrossedFirst"]}
{"id": "C53", "title": "Path tracking terminates and preserves travelled time", "statement": "Tracking a characteristic back through cells, periodic boundaries and bounce-back walls ends after at most 50 hops per path and always handles each (dof, direction) exactly once.", "quantifier": "all meshes and paths", "why_tests_cant": "arbitrary meshes", "anchors": ["src/library/natrium/advection/SemiLagrangian.cpp: fillSparseObject"]}
{"id": "C54", "title": "Streaming preserves uniform states", "statement": "Streaming with interpolation weights forming a partition of unity leaves uniform distributions unchanged and never mixes directions; streaming with standard LBM settings is an exact shift.", "quantifier": "all meshes/orders/steps", "why_tests_cant": "arbitrary meshes", "anchors": ["src/library/natrium/advection/SemiLagrangian.cpp: fillSparseObject, stream"]}
{"id": "C55", "title": "Cell neighbourhood search", "statement": "The neighbourhood of a cell for n shells contains exactly the cells at face distance at most n, including across periodic boundaries.", "quantifier": "all meshes, n", "why_tests_cant": "arbitrary meshes", "anchors": ["src/library/natrium/advection/SemiLagrangian.cpp: getNeighborhood"]}
{"id": "C56", "title": "DG face fluxes are consistent and conservative", "statement": "The assembled advection operator of the discontinuous Galerkin scheme maps uniform states to zero, and what leaves a cell through an interior face enters its neighbour.", "quantifier": "every direction, face normal, cell pair, with upwind and with central flux", "why_tests_cant": "all meshes and directions", "anchors": ["src/library/natrium/advection/SEDGMinLee.cpp: assembleAndDistributeInternalFace, calculateAndDistributeLocalStiffnessMatrix"]}
{"id": "C57", "title": "Exponential filter damps only high modes and keeps the mean", "statement": "The filter multiplies every mode with a factor in (0,1], factor 1 below the cut-off, decreasing with the degree; the cell mean is unchanged.", "quantifier": "all orders, cut-offs, strengths, dimensions", "why_tests_cant": "all parameter values", "anchors": ["src/library/natrium/smoothing/ExponentialFilter.cpp"]}
{"id": "C58", "title": "Limiter keeps streamed values within the range of their sources", "statement": "After limiting, each value lies between the minimum and maximum of the source values it was interpolated from; values already inside are unchanged.", "quantifier": "all matrices and vectors", "why_tests_cant": "sign combinations of real inputs", "anchors": ["src/library/natrium/smoothing/VmultLimiter.cpp: apply"]}
{"id": "C59", "title": "Tolerant comparison is a strict weak ordering", "statement": "The tolerant less-than used as ordering of a std::map/set is irreflexive, asymmetric, transitive, with transitive equivalence.", "quantifier": "all doubles", "why_tests_cant": "fails only for chains of close values", "anchors": ["src/library/natrium/utilities/Math.h: own_double_less"]}
{"id": "C60", "title": "Small-angle test uses degrees", "statement": "is_angle_small returns true exactly when the angle between two vectors is below the threshold in degrees.", "quantifier": "all vectors, thresholds", "why_tests_cant": "real-valued inputs", "anchors": ["src/library/natrium/utilities/Math.h: is_angle_small"]}
{"id": "C61", "title": "Semi-parallel matrix multiplication is matrix-vector multiplication", "statement": "vmult adds up blocks/rows as the mathematical matrix product, for all sizes.", "quantifier": "all sizes and contents", "why_tests_cant": "all sizes", "anchors": ["src/library/natrium/utilities/SemiParallelMatrix.h, .cpp"]}
{"id": "C62", "title": "Residual used by the convergence stop compares iterations 10 apart and never stops a run early", "statement": "The reported residual is the largest change over the last ten iterations, and is a huge sentinel before enough history exists.", "quantifier": "all iteration histories", "why_tests_cant": "arbitrary histories", "anchors": ["src/library/natrium/solver/SolverStats.h: calculateResiduals, update"]}
{"id": "C63", "title": "Benchmark reference solutions solve the flow equations", "statement": "The analytic solutions shipped for error measurement (Taylor-Green vortex, Poiseuille, Couette, sinusoidal shear) are divergence free, satisfy the stated equations and the boundary conditions of their problem.", "quantifier": "every point, time, viscosity", "why_tests_cant": "a continuum of points; an error in a reference solution shows as slow convergence only", "anchors": ["src/library/natrium/benchmarks/TaylorGreenVortex2D.cpp", "src/library/natrium/benchmarks/PoiseuilleFlow2D.cpp", "src/library/natrium/benchmarks/CouetteFlow2D.cpp"]}
{"id": "C64", "title": "Grad's distribution reproduces density, momentum and stress", "statement": "GradsFunction(rho, j, P) has moments rho, j and P.", "quantifier": "all rho, j, P", "why_tests_cant": "real-valued inputs", "anchors": ["src/library/natrium/boundaries/GradsFunction.h"]}
{"id": "C65", "title": "Compressible restart restores temperature and internal-energy distributions", "statement": "After a restart of a compressible run, the temperature field and the energy distributions equal those of the checkpointed state.", "quantifier": "every state", "why_tests_cant": "arbitrary fields and crash points", "anchors": ["src/library/natrium/solver/CompressibleCFDSolver.h: applyCheckpointToG, calculateTemperature"]}
{"id": "C66", "title": "Legacy collision models conserve mass and momentum and apply the force", "statement": "The class-based collision models (BGK standard, transformed, steady state, incompressible, regularized, multistep, MRT, KBC) conserve mass and momentum, and the external force changes momentum by dt*F.", "quantifier": "all node states", "why_tests_cant": "real-valued inputs", "anchors": ["src/library/natrium/collision/*.cpp"]}
{"id": "C67", "title": "External force is applied iff it is set and nonzero", "statement": "hasExternalForce is true exactly when a force with a nonzero component has been set.", "quantifier": "all forces", "why_tests_cant": "all reals", "anchors": ["src/library/natrium/problemdescription/ProblemDescription.h: hasExternalForce"]}
{"id": "C68", "title": "Iterative initialisation stops", "statement": "The iterative initialisation performs at most the configured maximum number of iterations.", "quantifier": "all residual histories", "why_tests_cant": "arbitrary histories", "anchors": ["src/library/natrium/solver/CFDSolver.cpp: initializeDistributions"]}
{"id": "C69", "title": "Variable Prandtl number: heat flux relaxes with its own rate", "statement": "In a compressible collision with Prandtl number Pr the heat fluxes carried by f and by g relax with the rate 1/((tau'-1/2)/Pr+1/2) where tau' is the relaxation time of the stress.", "quantifier": "every node state, Pr, tau; stencils isotropic to sixth order", "why_tests_cant": "real-valued inputs in 2Q dimensions", "anchors": ["src/library/natrium/collision_advanced/CollisionSchemes.h: BGKCollision::relaxWithG", "src/library/natrium/collision_advanced/AuxiliaryCollisionFunctions.h: calculateFStar, calculateGStar"]}
{"id": "C70", "title": "Body force in compressible collisions", "statement": "A compressible collision with external force F changes the momentum of every node by dt*F and keeps its mass.", "quantifier": "every node state, force, forcing scheme", "why_tests_cant": "real-valued inputs", "anchors": ["src/library/natrium/collision_advanced/CollisionOperator.h: collideAll", "src/library/natrium/collision_advanced/CollisionSchemes.h: BGKCollision::relaxWithG"]}
{"id": "C71", "title": "Time integrators conserve what the system conserves", "statement": "If a linear functional (e.g. total mass) is conserved by the semi-discrete system df/dt = Af+b, a step of the Runge-Kutta, theta or exponential integrator conserves it, and the returned time is t plus the step size used.", "quantifier": "every A, b, f, dt and every linear functional annihilating A and b", "why_tests_cant": "quantifies over all linear systems and all functionals", "anchors": ["src/library/natrium/timeintegration/RungeKutta5LowStorage.cpp: step", "src/library/natrium/timeintegration/ThetaMethod.cpp: step", "src/library/natrium/timeintegration/ExponentialTimeIntegrator.cpp: step"]}
{"id": "C72", "title": "Velocity norms do not depend on the partition", "statement": "maxVelocityNorm is the largest nodal speed and is attained; velocity2Norm is the root of the sum of all squared components; neither depends on how the nodes are distributed over the processes.", "quantifier": "all velocity fields in 2D and 3D, all numbers of processes and all distributions of nodes", "why_tests_cant": "quantifies over all fields and all partitions", "anchors": ["src/library/natrium/utilities/Math.h: maxVelocityNorm", "src/library/natrium/utilities/Math.cpp: velocity2Norm"]}
{"id": "C73", "title": "Parameter files restore the configuration", "statement": "Writing the configuration to an XML file and reading the file back into a new configuration object gives the same value of every parameter.", "quantifier": "all histories of setter calls before writing", "why_tests_cant": "quantifies over all combinations of parameter values", "anchors": ["src/library/natrium/solver/SolverConfiguration.cpp: SolverConfiguration(filename)", "src/library/natrium/solver/SolverConfiguration.cpp: readFromXMLFile"]}
{"id": "C74", "title": "Equilibrium inflow imposes the prescribed state", "statement": "A node all of whose populations come from the equilibrium boundary has density 1, the prescribed velocity and, in compressible runs, the prescribed temperature.", "quantifier": "all velocities, temperatures, heat capacity ratios and sufficiently isotropic stencils", "why_tests_cant": "real-valued inputs; tests use temperature 1", "anchors": ["src/library/natrium/boundaries/SLEquilibriumBoundary.h: calculateBoundaryValues", "src/library/natrium/boundaries/SemiLagrangianBoundaryHandler.cpp: applyToG"]}
{"id": "C75", "title": "Sparsity pattern covers the streaming matrix", "statement": "Every entry written when the streaming matrix is assembled has been reserved when the sparsity pattern was built, direction by direction, for the same mesh and time step.", "quantifier": "all meshes, boundaries, stencils and time steps for which assembly succeeds", "why_tests_cant": "arbitrary meshes and paths; a missing entry aborts the run in the linear algebra library", "anchors": ["src/library/natrium/advection/SemiLagrangian.cpp: updateSparsityPattern, fillSparseObject"]}
{"id": "C76", "title": "Upwind DG advection never increases the energy", "statement": "With the upwind flux the sum of the squared values of a population, weighted with the mass matrix, has a non-positive rate of change, on every closed mesh.", "quantifier": "all directions, periodic meshes, polynomial orders, states", "why_tests_cant": "all meshes and states; instability of the scheme would show only in long runs", "anchors": ["src/library/natrium/advection/SEDGMinLee.cpp: assembleAndDistributeInternalFace, calculateAndDistributeLocalStiffnessMatrix"]}
{"id": "C77", "title": "Reported mass, energy and pressure are those of the discrete fields", "statement": "The reported mass and kinetic energy are the integrals of the discrete density and of half the density times the squared velocity over the whole domain, and the reported extreme pressures are attained bounds; none depends on the distribution of the mesh over the processes.", "quantifier": "all meshes, elements, quadratures, fields and distributions of cells over processes", "why_tests_cant": "quantifies over all fields and all partitions; tests use one process and uniform fields", "anchors": ["src/library/natrium/solver/PhysicalProperties.cpp: mass, kineticEnergy, maximalPressure"]}
{"id": "C78", "title": "Reported enstrophy is the integral of the squared vorticity", "statement": "The enstrophy reported in the solver table is the integral of the squared vorticity, in two and three dimensions, and does not depend on the distribution of the mesh.", "quantifier": "all meshes, elements, quadratures, velocity fields and distributions", "why_tests_cant": "quantifies over all velocity fields", "anchors": ["src/library/natrium/solver/PhysicalProperties.cpp: enstrophy"]}
{"id": "C79", "title": "Reported mean velocity and entropy are volume averages and integrals", "statement": "meanVelocityX is the integral of the x-velocity divided by the volume; entropy is the integral of -sum f log(f/w).", "quantifier": "all meshes, polynomial orders, fields and distributions", "why_tests_cant": "deviations appear only for non-uniform fields and elements of higher order", "anchors": ["src/library/natrium/solver/PhysicalProperties.cpp: meanVelocityX, entropy"]}
{"id": "C80", "title": "Turbulence statistics are what the table says", "statement": "Each column of the turbulence tables holds the statistic the legend file names: averages, correlations and moments of density, velocity and gradients, energies, dissipations, maximal Mach number and total energy; variances are non-negative.", "quantifier": "all fields, meshes and distributions over processes, all columns", "why_tests_cant": "78 columns in 2D and 208 in 3D, all fields and partitions", "anchors": ["src/library/natrium/dataprocessors/GlobalTurbulenceStats.cpp: calculate, apply", "src/library/natrium/dataprocessors/CompressibleTurbulenceStats.cpp: calculate, apply"]}
{"id": "C81", "title": "Plane statistics and time averages are means", "statement": "The average of a velocity component reported for a wall-parallel plane is the arithmetic mean over the nodes of the plane, and the fluctuation its standard deviation, independent of the distribution over processes; the time-averaged velocity field is the mean of all fields added so far.", "quantifier": "all sets of nodes, planes, tolerances, fields and distributions over processes; all histories of added fields", "why_tests_cant": "all partitions and all histories of a running average", "anchors": ["src/library/natrium/solver/TurbulenceStats.cpp: updatePlaneIndices, StatsInPlane::calculate, addToReynoldsStatistics"]}
{"id": "C82", "title": "Reported errors are norms of the error", "statement": "The density and velocity errors in the error table are the L2 and maximum norms of the difference between the numerical and the analytic solution of the current time; they vanish exactly if both agree; the analytic solution written next to the numerical one is the analytic one whatever was computed before.", "quantifier": "all meshes, fields, reference solutions and distributions over processes; all histories of error evaluations and outputs", "why_tests_cant": "buffers are overwritten with errors between outputs; all partitions", "anchors": ["src/library/natrium/solver/ErrorStats.cpp: update", "src/library/natrium/solver/BenchmarkCFDSolver.cpp: getAllAnalyticDensities, getAllAnalyticVelocities", "src/library/natrium/solver/BenchmarkCFDSolver.h: addAnalyticSolutionToOutput"]}
{"id": "C83", "title": "Tables have one line per output iteration with current data", "statement": "A line in a table of a run has the data of the iteration it names, whatever updates were requested in between; a computation that is interrupted and restarted leaves one header and one line for every multiple of the table interval, as the uninterrupted one.", "quantifier": "all sequences of updates and prints; all sequences of runs continuing each other", "why_tests_cant": "sequences of calls and restarts of arbitrary length", "anchors": ["src/library/natrium/solver/SolverStats.h: update, printNewLine", "src/library/natrium/solver/ErrorStats.cpp: update, printNewLine", "src/library/natrium/solver/TurbulenceStats.cpp: printNewLine"]}
{"id": "C84", "title": "Flow variables at boundary points", "statement": "After the values of a boundary point have been computed, density and momentum are those of the populations interpolated to the point, the velocity is the quotient of the two, and the time derivatives of density and velocity are the right-hand sides of the continuity and momentum equations, for every variable that a boundary asks for and whatever was computed at other points before; a request is refused exactly if it cannot be served.", "quantifier": "all cells, shape functions, populations, requested variables and earlier computations", "why_tests_cant": "a test evaluates one field on one cell with one set of flags", "anchors": ["src/library/natrium/boundaries/FEBoundaryValues.h: reinit, calculateRho, calculateU, calculateDRhoDt, calculateDuDt, getDistribution", "src/library/natrium/boundaries/BoundaryFlags.h: BoundaryFlags"]}
{"id": "C85", "title": "Prescribed boundary values", "statement": "A boundary reports exactly the values it was constructed with: constants at every point, functions with the right number of components, combinations of several quantities; wrong functions are refused.", "quantifier": "all values and functions", "why_tests_cant": "a test constructs a few boundaries", "anchors": ["src/library/natrium/boundaries/BoundaryFlags.h: PrescribedBoundaryValues", "src/library/natrium/boundaries/Boundary.h: Boundary, getBoundaryValues", "src/library/natrium/boundaries/VelocityNeqBounceBack.cpp: VelocityNeqBounceBack"]}
{"id": "C86", "title": "Application of boundaries is independent of the order", "statement": "In semi-Lagrangian streaming, applying the boundaries gives every population that hit a wall the value its wall makes of the streamed populations and changes no other population; the result does not depend on the order in which cells, points and hits are stored; unsupported boundaries are always reported and supported ones never fail.", "quantifier": "all lists of hits, boundaries, meshes and populations", "why_tests_cant": "the order of hits depends on the mesh, the partition and the addresses of cells", "anchors": ["src/library/natrium/boundaries/SemiLagrangianBoundaryHandler.cpp: apply, operate", "src/library/natrium/boundaries/SLFirstOrderBounceBack.h: calculateBoundaryValues"]}
{"id": "C87", "title": "Mesh transformations cover the flow domain", "statement": "The transformation that a flow problem applies to its refined mesh carries the reference domain onto the flow domain, one to one, without changing the order of the points, so that no cell is turned inside out or lost; walls go to walls and the two ends of a periodic domain match; this for every parameter the constructor accepts.", "quantifier": "all accepted parameters and all points of the domain", "why_tests_cant": "a test looks at the vertices of one mesh with one set of parameters", "anchors": ["src/library/natrium/benchmarks/ShearLayer2D.h: UnstructuredGridFunc", "src/library/natrium/benchmarks/Riemann2D.h: UnstructuredGridFunc", "src/library/natrium/benchmarks/CouetteFlow2D.h: UnstructuredGridFunc", "src/library/natrium/benchmarks/CouetteFlow3D.h: UnstructuredGridFunc", "src/library/natrium/benchmarks/LubricationSine.h: UnstructuredGridFunc", "src/library/natrium/benchmarks/SinusoidalShear2D.h: UnstructuredGridFunc", "src/examples/step-turbulentChannel/TurbulentChannelFlow3D.h: UnstructuredGridFunc", "src/examples/step-turbulentChannel/step-turbulent-channel.cpp: main", "src/examples/step-0/LidDrivenCavity2D.h: UnstructuredGridFunc", "src/examples/step-12/ShockVortexInteraction.h: UnstructuredGridFunc"]}
{"id": "C88", "title": "Cartesian problems have axis-parallel cells", "statement": "A flow problem that calls itself Cartesian (which selects the mapping for axis-parallel cells in semi-Lagrangian streaming) has axis-parallel cells after its mesh transformation.", "quantifier": "all accepted parameters and all cells", "why_tests_cant": "a test looks at the cells of one mesh", "anchors": ["src/library/natrium/problemdescription/ProblemDescription.h: isCartesian", "src/library/natrium/advection/AdvectionOperator.cpp: AdvectionOperator", "src/library/natrium/benchmarks/CouetteFlow3D.h: isCartesian"]}
{"id": "C89", "title": "Initial states are admissible", "statement": "The initial density and temperature of a shipped flow problem are positive numbers, and the initial velocity is a number, at every point of the domain, for all parameters the constructor accepts.", "quantifier": "all points and accepted parameters", "why_tests_cant": "a test evaluates the fields at the nodes of one mesh", "anchors": ["src/library/natrium/benchmarks/Riemann2D.cpp: InitialDensity::value, InitialTemperature::value", "src/library/natrium/benchmarks/Droplet2D.cpp: InitialDensity::value", "src/library/natrium/benchmarks/BackwardFacingStep2D.cpp: BackwardFacingStep2D", "src/examples/step-10/SodShockTube.cpp: InitialDensity::value", "src/examples/step-12/ShockVortexInteraction.cpp: InitialVelocity::value, InitialDensity::value", "src/examples/step-13/SmoothDensityPropagation.cpp: AnalyticDensity::value"]}
{"id": "C90", "title": "Initial states match the boundary conditions", "statement": "The initial fields take the same values on two sides that a periodic boundary identifies, and the velocity prescribed on walls and inlets.", "quantifier": "all points of the boundary and accepted parameters", "why_tests_cant": "a jump at the boundary only shows as a spurious wave in the results", "anchors": ["src/library/natrium/benchmarks/LubricationSine.cpp: InitialVelocity::value", "src/library/natrium/benchmarks/Droplet2D.cpp: makeBoundaries", "src/library/natrium/benchmarks/BackwardFacingStep2D.cpp: InflowVelocity::value", "src/examples/step-12/ShockVortexInteraction.cpp: makeBoundaries", "src/examples/step-decayingTurbulence2D/DecayingTurbulence2D.cpp: InitialVelocity::value", "src/examples/step-mixingLayer3D/MixingLayer3D.cpp: makeBoundaries"]}
{"id": "C91", "title": "Initial states are those of the named flow", "statement": "The initial states are those of the flow the problem is named after: Riemann and Sod states, a shock in balance (Rankine-Hugoniot conditions), an isentropic vortex, turbulence free of divergence, a density wave carried by the flow, an inflow with the given mean velocity.", "quantifier": "all points, times, random waves and parameters", "why_tests_cant": "a test compares a few numbers; conservation laws and derivatives hold at all points", "anchors": ["src/library/natrium/benchmarks/Riemann2D.cpp: InitialVelocity::value", "src/examples/step-10/SodShockTube.h: calcOffsets", "src/examples/step-12/ShockVortexInteraction.h: calcOffsets", "src/examples/step-13/SmoothDensityPropagation.cpp: AnalyticDensity::value", "src/examples/step-13/sdp.cpp: main", "src/examples/step-decayingTurbulence2D/DecayingTurbulence2D.cpp: InitialVelocity::value", "src/library/natrium/benchmarks/BackwardFacingStep2D.cpp: InflowVelocity::value"]}
{"id": "C92", "title": "The advection benchmark's reference solution", "statement": "The reference solution of the advection benchmark is defined for every time and point, solves the advection equation with speed one, has the period of the domain and starts with the documented wave; it is entered for exactly the degrees of freedom of this process.", "quantifier": "all times, points, both profiles, all distributions of cells", "why_tests_cant": "tests compare with the same function; a wrong wrap at the boundary appears only for some times", "anchors": ["src/library/natrium/benchmarks/AdvectionBenchmark.cpp: analytic_solution, getAnalyticSolution"]}
{"id": "C93", "title": "The advection benchmark compares at the time it has reached", "statement": "After a run of the advection benchmark the computed state is compared with the reference solution at the time the state has reached, which is the first multiple of the step not below the end time, with and without output; the errors are the maximum and the Euclidean norm of the difference.", "quantifier": "all steppers, step sizes, end times, with and without output", "why_tests_cant": "the branch with output is not run by tests; the error only looks large", "anchors": ["src/library/natrium/benchmarks/AdvectionBenchmark.cpp: oneTest", "src/library/natrium/timeintegration/RungeKutta5LowStorage.cpp: step"]}
{"id": "C94", "title": "The solver integrates with the integrator of its configuration", "statement": "For every configuration that can be set, the solver (and the advection benchmark) makes the named time integrator with its parameters, and a step of it advances the state.", "quantifier": "all combinations of integrator, Runge-Kutta scheme, linear solver", "why_tests_cant": "tests use a few combinations; a missing return value is undefined behaviour", "anchors": ["src/library/natrium/solver/CFDSolver.cpp: CFDSolver", "src/library/natrium/benchmarks/AdvectionBenchmark.cpp: make_integrator", "src/library/natrium/timeintegration/DealIIWrapper.cpp: DealIIWrapper, step", "src/library/natrium/solver/SolverConfiguration.cpp: isConsistent"]}
{"id": "C95", "title": "Implicit schemes solve their linear system", "statement": "With every linear solver of the configuration, the implicit schemes of deal.II get a solution of (I - tau A) x = f within the tolerance or an exception.", "quantifier": "all matrices, step sizes, right-hand sides, linear solvers", "why_tests_cant": "one linear solver of eight falls through the switch", "anchors": ["src/library/natrium/timeintegration/DealIIWrapper.cpp: evaluateF, evaluateIdMinusTauJInverse", "src/library/natrium/utilities/ConfigNames.h: DealSolverName"]}
{"id": "C96", "title": "Parallel lines are recognised and oriented", "statement": "The check of two lines at periodic boundaries accepts them exactly if their points are distinct, they have the same length up to one per cent and are parallel up to eight degrees; afterwards both point in the same direction; a rejected pair is left unchanged; the answer does not depend on which line is named first.", "quantifier": "all positions of the four points", "why_tests_cant": "tests use a few lines along the axes", "anchors": ["src/library/natrium/boundaries/BoundaryTools.cpp: checkParallelLines", "src/library/natrium/utilities/Math.h: is_angle_small"]}
{"id": "C97", "title": "The line of a boundary is found from its indicator", "statement": "For a straight boundary in any direction, the line found from the boundary indicator begins and ends at the extreme vertices; a boundary that is not straight is rejected.", "quantifier": "all meshes, boundary indicators and directions", "why_tests_cant": "the sort key fails for some directions only", "anchors": ["src/library/natrium/boundaries/BoundaryTools.cpp: getInterfacialLinesByBoundaryIndicator", "src/library/natrium/utilities/Math.h: own_double_less"]}
{"id": "C98", "title": "Degrees of freedom are coupled at a boundary", "statement": "After the coupling at a boundary, the sparsity pattern has exactly the entries it had before and those of the degrees of freedom with support on faces of the boundary on cells of this process: each with itself, or all pairs of a face.", "quantifier": "all meshes, distributions of cells, indicators, both kinds of coupling", "why_tests_cant": "a missing entry of the pattern shows only when the matrix is assembled on the mesh concerned", "anchors": ["src/library/natrium/boundaries/BoundaryTools.cpp: CoupleDoFsAtBoundary"]}
{"id": "C99", "title": "The matrix has room for what is assembled", "statement": "The sparsity pattern of the discontinuous Galerkin operator is made without error and contains every position to which the assembly adds on the cells of this process, and nothing else but entries of neighbouring cells on other processes.", "quantifier": "all meshes, distributions of cells to processes, periodic boundaries and boundary indicators, numbers of nodes", "why_tests_cant": "a missing entry shows only on a mesh where two particular faces meet; the tests use rectangles whose boundary indicators are the face numbers", "anchors": ["src/library/natrium/utilities/DealiiExtensions.cpp: make_sparser_flux_sparsity_pattern", "src/library/natrium/boundaries/PeriodicBoundary.cpp: isFaceInBoundary, getOppositeCellAtPeriodicBoundary", "src/library/natrium/advection/SEDGMinLee.cpp: reassemble, assembleAndDistributeInternalFace"]}
{"id": "C100", "title": "Each pair of directions has the right pattern", "statement": "For every stencil, the block of the system matrix for two directions has the pattern of cells and inner faces if they are the same, of boundary points if they are opposite, and only of boundaries that couple all directions otherwise; everything a wall with prescribed velocity adds is in the pattern of its block; boundaries not supported by the scheme are refused.", "quantifier": "all stencils, pairs of directions, meshes and sets of boundaries", "why_tests_cant": "there are hundreds of thousands of blocks for the large stencils, and tests use D2Q9 only", "anchors": ["src/library/natrium/advection/SEDGMinLee.cpp: updateSparsityPattern", "src/library/natrium/boundaries/VelocityNeqBounceBack.cpp: assembleBoundary", "src/library/natrium/boundaries/VelocityNeqBounceBack.h: addToSparsityPattern"]}
{"id": "C101", "title": "Boundary indicators are set on planes", "statement": "Faces all of whose vertices lie on a plane, up to the tolerance, get the indicator; all other faces keep theirs; of several calls the last that applies counts.", "quantifier": "all meshes, planes, tolerances and sequences of calls", "why_tests_cant": "tests use one mesh", "anchors": ["src/library/natrium/utilities/DealiiExtensions.cpp: set_boundary_ids_at_hyperplane", "src/examples/step-9/Cylinder2D.cpp: makeGrid"]}
{"id": "C102", "title": "Boundary points are found", "statement": "The degrees of freedom extracted for a set of boundary indicators are those with support on such faces of cells of this process; the solver counts with it the points at boundaries that are not periodic.", "quantifier": "all meshes, distributions of cells, sets of indicators, component masks", "why_tests_cant": "the case of no boundary that is not periodic is special", "anchors": ["src/library/natrium/utilities/DealiiExtensions.cpp: extract_dofs_with_support_on_boundary", "src/library/natrium/solver/CFDSolver.cpp: CFDSolver"]}
{"id": "C103", "title": "The class based collision models give the fluid its viscosity", "statement": "A collision of a class based collision model without force multiplies the viscous stress (the deviation of the momentum flux from that of a fluid in equilibrium of the same density and momentum) by one minus 1/(tau+1/2), where tau is the relaxation time that belongs to the viscosity.", "quantifier": "all collision models of the BGK, MRT and KBC families, stencils, scalings, relaxation times and populations", "why_tests_cant": "the error of a wrong rate is a wrong viscosity, which tests with a loose tolerance, unit scaling or density one do not show", "anchors": ["src/library/natrium/collision/BGKStandard.cpp: collideAllD2Q9, collideAllD3Q19, collideAllD3Q15", "src/library/natrium/collision/BGKRegularized.cpp: collideAllD2Q9, collideAllD3Q19", "src/library/natrium/collision/MRTStandard.cpp: collideAllD2Q9", "src/library/natrium/collision/MRTEntropic.cpp: collideAllD2Q9", "src/library/natrium/collision/KBCStandard.cpp: collideAllD2Q9, collideAllD3Q15", "src/library/natrium/collision/KBCCentral.cpp: collideAllD2Q9"]}
{"id": "C104", "title": "The boundaries of each flow problem on a box fit its mesh", "statement": "Whenever a benchmark or example on a box is constructed, a boundary condition is registered for an id exactly if a face of the mesh has it, no id is registered twice, and each periodic boundary connects the lower and the upper side of its direction, each face having exactly one partner.", "quantifier": "all flow problems on boxes and all arguments of their constructors (numbers of cells, aspect ratios, periodicity)", "why_tests_cant": "a missing boundary condition shows only for the problem and the arguments for which it is missing", "anchors": ["src/library/natrium/benchmarks/CouetteFlow2D.cpp: makeGrid, makeBoundaries", "src/library/natrium/benchmarks/TaylorGreenVortex3D.cpp: makeGrid, makeBoundaries", "src/library/natrium/benchmarks/SinusoidalShear2D.cpp: makeGrid", "src/library/natrium/benchmarks/LubricationSine.cpp: makeGrid", "src/library/natrium/problemdescription/ProblemDescription.h: checkBoundaryConditions", "src/examples/step-turbulentChannel/TurbulentChannelFlow3D.cpp: makeGrid, makeBoundaries", "src/examples/step-10/SodShockTube.cpp: makeGrid, makeBoundaries"]}
{"id": "C105", "title": "Ids given by position fit the boundaries", "statement": "Giving ids to the faces on a plane changes the faces on this plane only. On each mesh of the cylinder, the sphere and the backward facing step, the faces get the id of the part of the boundary they are on, and a boundary condition is registered for each.", "quantifier": "all meshes of these domains (any number and size of faces above the tolerance), planes, ids and dimensions", "why_tests_cant": "a test sees one mesh; ids depend on tolerances and on the order of the calls", "anchors": ["src/library/natrium/utilities/DealiiExtensions.cpp: set_boundary_ids_at_hyperplane", "src/examples/step-9/Cylinder2D.cpp: makeGrid, makeBoundaries, make_inner_manifold", "src/examples/step-sphere/Sphere.cpp: makeGrid, makeBoundaries, make_inner_manifold", "src/library/natrium/benchmarks/BackwardFacingStep2D.cpp: makeGrid, makeBoundaries"]}
{"id": "C106", "title": "Initial fields and distributions have the given density and velocity", "statement": "Setting initial fields stores the function at each owned degree of freedom and changes no other one; adding a velocity adds it exactly once to each degree of freedom, also where cells share it; afterwards the distributions have the given density and momentum at each owned degree of freedom.", "quantifier": "all partitions of meshes, shared degrees of freedom, initial functions, stencils, schemes other than the iterative one", "why_tests_cant": "shared degrees of freedom occur in many patterns; a value added twice shows only at shared ones", "anchors": ["src/library/natrium/solver/CFDSolver.cpp: applyInitialDensities, applyInitialVelocities, addToVelocity, scaleVelocity, initializeDistributions"]}
{"id": "C107", "title": "Initialisation by gradients gives the Newtonian stress", "statement": "With the initialisation scheme GRADIENTS, the non-equilibrium part of the initial distributions carries the viscous stress of the velocity gradient for the configured viscosity and time step.", "quantifier": "all stencils, viscosities, time steps, velocity gradients and meshes with shared or separate degrees of freedom", "why_tests_cant": "the deviation is a factor that depends on the time step and on how many cells share a node", "anchors": ["src/library/natrium/solver/CFDSolver.cpp: initializeDistributions (GRADIENTS), getTau"]}
{"id": "C108", "title": "The compressible solver starts in the given state", "statement": "The compressible solver starts with the given density, velocity and temperature at each owned degree of freedom, and its first collision neither changes the distributions nor reports other fields.", "quantifier": "all stencils isotropic to sixth order, states, heat capacity ratios, Prandtl numbers, viscosity laws", "why_tests_cant": "a wrong coefficient in one of the 81 terms of the equilibrium shows only for certain velocities and temperatures", "anchors": ["src/library/natrium/solver/CompressibleCFDSolver.h: initializeDistributions, calcQuarticEquilibrium, applyInitialTemperatures"]}
{"id": "C109", "title": "A whole run conserves mass and momentum", "statement": "A run of the discontinuous Galerkin solver, with all its steps, collisions, filters and stabilisers, keeps the mass of the fluid in the domain if walls move along themselves, and the momentum if there are no walls and no force.", "quantifier": "all meshes, orders of the finite element, stencils, collision schemes, numbers of steps, step sizes, initial states, filter and output settings", "why_tests_cant": "tests run a few steps on one mesh and compare with a tolerance; a leak may be small and accumulate", "anchors": ["src/library/natrium/solver/CFDSolver.cpp: run, stream, collide, filter", "src/library/natrium/advection/SEDGMinLee.cpp: reassemble", "src/library/natrium/boundaries/VelocityNeqBounceBack.cpp: assembleBoundary", "src/library/natrium/timeintegration/RungeKutta5LowStorage.cpp: step", "src/library/natrium/timeintegration/ThetaMethod.cpp: step"]}
{"id": "C110", "title": "A uniform flow stays uniform, also between walls that move with it", "statement": "A run that starts in the equilibrium of a uniform flow without force is completed and reports that flow at all times; walls do not disturb it if their velocity fits.", "quantifier": "all meshes, orders, stencils, densities, velocities, numbers of steps, step sizes, filter and output settings", "why_tests_cant": "the property combines all parts of the solver over arbitrarily many steps", "anchors": ["src/library/natrium/solver/CFDSolver.cpp: run, stream, collide, filter", "src/library/natrium/boundaries/VelocityNeqBounceBack.cpp: assembleBoundary"]}
{"id": "C111", "title": "A constant force changes the momentum by force, time and volume", "statement": "With a constant external force on a domain without walls, each step of a run adds the force times the time step times the volume to the momentum of the fluid.", "quantifier": "all meshes, stencils, collision schemes with EXACT_DIFFERENCE, forces, numbers of steps", "why_tests_cant": "the error of a missing or additional collision is one part in the number of steps", "anchors": ["src/library/natrium/solver/CFDSolver.cpp: run, collide", "src/library/natrium/collision_advanced/AuxiliaryCollisionFunctions.h: applyForces"]}
{"id": "C112", "title": "Assembling the operator again does not change it", "statement": "After any sequence of setting up the degrees of freedom, setting the time step and assembling, the advection operator is that of one assembly for the last time step; calling reassemble once more changes nothing.", "quantifier": "all meshes, stencils, time steps and sequences of calls", "why_tests_cant": "the effect depends on the history of calls; the constructor assembles once, so runs of the examples do not show it", "anchors": ["src/library/natrium/advection/SemiLagrangian.cpp: setupDoFs, reassemble, fillSparseObject", "src/library/natrium/advection/SemiLagrangian.h: setDeltaT", "src/library/natrium/advection/SEDGMinLee.cpp: setupDoFs, reassemble, assembleLocalMatrix", "src/library/natrium/solver/CFDSolver.cpp: reassemble"]}
{"id": "C113", "title": "A uniform flow stays uniform in the semi-Lagrangian solver", "statement": "A semi-Lagrangian run that starts in the equilibrium of a uniform flow without force is completed and reports that flow at all times: moving in a periodic domain, or at rest between walls at rest.", "quantifier": "all meshes, finite elements, stencils, collision schemes, densities, velocities, time steps, numbers of steps, filter and output settings", "why_tests_cant": "the property combines path tracking, interpolation, boundary hits, collision and the time loop over arbitrarily many steps", "anchors": ["src/library/natrium/solver/CFDSolver.cpp: run, stream, collide, filter", "src/library/natrium/advection/SemiLagrangian.cpp: fillSparseObject", "src/library/natrium/boundaries/SemiLagrangianBoundaryHandler.cpp: apply", "src/library/natrium/boundaries/VelocityNeqBounceBack.cpp: calculateBoundaryValues"]}
{"id": "C114", "title": "A semi-Lagrangian run conserves mass and momentum", "statement": "A run of the semi-Lagrangian solver keeps the mass of the fluid in a periodic domain, and its momentum up to the impulse of the external force.", "quantifier": "all meshes, finite elements, stencils, collision schemes, time steps, numbers of steps, initial states", "why_tests_cant": "tests compare with a tolerance on one mesh; loss of mass accumulates over steps", "anchors": ["src/library/natrium/solver/CFDSolver.cpp: run, stream, collide", "src/library/natrium/advection/SemiLagrangian.cpp: fillSparseObject"]}
{"id": "C115", "title": "The advection operator has the finite element of its configuration", "statement": "For every scheme, order, quadrature and set of support points that a configuration can name, the solver either gets the operator with that element, quadrature and mapping or is refused with a message; elements of the discontinuous Galerkin scheme have their support points in the quadrature points, continuous elements have support points on both ends of a cell.", "quantifier": "all orders, dimensions, schemes, quadratures, sets of support points and stencils", "why_tests_cant": "a test constructs a few combinations; the positions of the points matter for all orders", "anchors": ["src/library/natrium/advection/AdvectionTools.cpp: make_quadrature_by_name, make_fe_by_name", "src/library/natrium/advection/AdvectionOperator.cpp: AdvectionOperator", "src/library/natrium/advection/SEDGMinLee.cpp: SEDGMinLee", "src/library/natrium/advection/SemiLagrangian.cpp: SemiLagrangian", "src/library/natrium/solver/CFDSolver.cpp: CFDSolver"]}
{"id": "C116", "title": "The reported distance of degrees of freedom is the least one", "statement": "The reported minimum distance of degrees of freedom is positive, not longer than the distance of any two degrees of freedom of a cell, and attained; half of it separates the layers of nodes that the plane statistics collect.", "quantifier": "all meshes, orders and distributions over processes", "why_tests_cant": "a test checks one square mesh; other cells behave differently", "anchors": ["src/library/natrium/utilities/CFDSolverUtilities.cpp: getMinimumDoFDistanceGLL, getMinimumVertexDistance", "src/library/natrium/solver/TurbulenceStats.cpp: TurbulenceStats"]}
{"id": "C117", "title": "Whole compressible runs conserve mass, momentum and energy", "statement": "From the initialisation to the end of a compressible run with the discontinuous Galerkin scheme the mass of the gas is constant, in a domain without walls the momentum, too (or it grows by force times volume times time), and with walls at rest or none the energy; the values are those of the initial fields.", "quantifier": "all meshes, elements, initial fields, gases (adiabatic exponent, Prandtl number, Sutherland's law), viscosities, time steps, integrators and numbers of steps", "why_tests_cant": "a test makes a few steps from one initial state", "anchors": ["src/library/natrium/solver/CompressibleCFDSolver.h: run, stream, gStream, compressibleFilter, collide, initializeDistributions", "src/library/natrium/advection/SEDGMinLee.cpp: assembleAndDistributeInternalFace", "src/library/natrium/collision_advanced/CollisionOperator.h: collideAll"]}
{"id": "C118", "title": "A uniform gas stays uniform", "statement": "A uniform gas, at rest in a box, or moving in a domain without walls, or moving along with its walls, keeps density, velocity, temperature and both distributions in a compressible run, which is completed.", "quantifier": "all meshes, densities, temperatures, velocities, gases, time steps, initialisation schemes and numbers of steps", "why_tests_cant": "a test has one state and a few steps", "anchors": ["src/library/natrium/solver/CompressibleCFDSolver.h: run, stream, gStream, collide, initializeDistributions"]}
{"id": "C119", "title": "Nodes at a thermal wall have the wall temperature after a step", "statement": "After the streaming of a semi-Lagrangian step of the compressible solver, a node at a thermal wall has the wall temperature, and density and velocity as without the wall.", "quantifier": "all node states, wall temperatures, system matrices and numbers of hits of a node", "why_tests_cant": "a test looks at one wall and one state, and only at what the wall writes", "anchors": ["src/library/natrium/solver/CompressibleCFDSolver.h: stream, gStream", "src/library/natrium/boundaries/SemiLagrangianBoundaryHandler.cpp: operate, applyToG", "src/library/natrium/boundaries/ThermalBounceBack.cpp: calculateBoundaryValues"]}
{"id": "C120", "title": "Random angles of the synthetic turbulence", "statement": "The random number generator of the turbulent channel never overflows or leaves its table, runs through the sequence of Park and Miller, and gives numbers strictly between 0 and 1, hence angles inside of their intervals.", "quantifier": "all seeds, numbers of modes and lengths of the sequence", "why_tests_cant": "a test draws some numbers from one seed", "anchors": ["src/examples/step-turbulentChannel/TurbulentChannelFlow3D.cpp: randf_1, randf_2, angles"]}
{"id": "C121", "title": "The synthetic perturbation is free of divergence and the same for each distribution of the mesh", "statement": "The initial perturbation of the turbulent channel is computed within its arrays, uses all its modes, is free of divergence, and its scaling does not depend on the number of processes.", "quantifier": "all channels, points, velocity fields and distributions of the points to processes", "why_tests_cant": "a test evaluates the field in a few points on one process", "anchors": ["src/examples/step-turbulentChannel/TurbulentChannelFlow3D.cpp: InitialVelocity::value, IncompressibleU::value", "src/examples/step-turbulentChannel/step-turbulent-channel.cpp: main"]}
{"id": "C122", "title": "Mean flow, force and monitors of the turbulent channel", "statement": "The initial mean velocity is symmetric, zero at both walls and the centre line velocity in the middle; the body force balances the wall shear stress; the monitored planes are where they are meant to be.", "quantifier": "all friction Reynolds numbers, viscosities and heights", "why_tests_cant": "a test compares single values", "anchors": ["src/examples/step-turbulentChannel/TurbulentChannelFlow3D.cpp: MeanVelocityProfile::value, TurbulentChannelFlow3D", "src/examples/step-turbulentChannel/step-turbulent-channel.cpp: main"]}
{"id": "C123", "title": "Averages over planes do not depend on the distribution of the mesh", "statement": "The statistics of the channel list each plane once, in ascending order, with the mean of all values in this plane, however the cells are distributed to processes.", "quantifier": "all meshes, values and distributions of cells to processes", "why_tests_cant": "a test has one mesh and one number of processes", "anchors": ["src/examples/step-turbulentChannel/FinalChannelStatistics.cpp: updateYValues, updateAverages", "src/examples/step-turbulentChannel/AdaptiveForcing.cpp: calculateRhoU", "src/library/natrium/utilities/Math.h: own_double_less"]}
{"id": "C124", "title": "Averages over time are means of all samples", "statement": "After any number of samples the statistics of the channel in time are the arithmetic means of the samples.", "quantifier": "all sequences of samples", "why_tests_cant": "a test has a few samples", "anchors": ["src/examples/step-turbulentChannel/FinalChannelStatistics.cpp: addToTemporalAverages"]}
{"id": "C125", "title": "The controlled force stays within its bounds and keeps a balanced flow", "statement": "The adaptive force is proportional to deviation and sum of deviations, stays between -2 and 5 times the force of the problem, and does not change for a flow that is in balance.", "quantifier": "all histories of measured momenta, forces and targets", "why_tests_cant": "a test has one history", "anchors": ["src/examples/step-turbulentChannel/AdaptiveForcing.cpp: calculateForce, apply"]}
{"id": "C126", "title": "Rescaling the density keeps velocity and temperature", "statement": "When the adaptive forcing rescales the density, the mean density is one afterwards and velocity and temperature of all nodes are as before.", "quantifier": "all node states, planes and heights of the channel", "why_tests_cant": "a test has one state", "anchors": ["src/examples/step-turbulentChannel/AdaptiveForcing.cpp: rescaleDensity, calculateRhoU", "src/library/natrium/solver/DistributionFunctions.cpp: scaleF"]}
{"id": "C127", "title": "Semi-Lagrangian streaming is exact for functions the mesh represents", "statement": "If the distributions are functions that the finite elements represent, streaming gives at each support point the value of the function at the point a time step upstream, exactly or within the thresholds of the code; box-shaped cells with tensor products of Lagrange polynomials of degree p represent all polynomials of degree up to p in each coordinate.", "quantifier": "all meshes with periodic boundaries and walls, time steps, directions, degrees and functions", "why_tests_cant": "a test compares the error of one flow on a few meshes", "anchors": ["src/library/natrium/advection/SemiLagrangian.cpp: fillSparseObject, stream"]}
{"id": "C128", "title": "The discontinuous Galerkin operator is exact for continuous piecewise polynomials", "statement": "With the upwind flux, each distribution that is a continuous piecewise polynomial of the degree of the elements changes at exactly the rate -e . grad f, in every degree of freedom.", "quantifier": "all meshes of boxes, directions, degrees and continuous piecewise polynomials", "why_tests_cant": "a test looks at one function on one mesh", "anchors": ["src/library/natrium/advection/SEDGMinLee.cpp: reassemble"]}
{"id": "C129", "title": "The same simulation in other units and along other axes gives the same result", "statement": "A run of the discontinuous Galerkin solver that is set up in other units of length and time, and with axes exchanged and reflected, performs the same number of steps, writes the same output and ends in the same state or with the same error, expressed in the other units and along the other axes.", "quantifier": "all setups, meshes, initial states, collision schemes, integrators, units and symmetries of the lattice", "why_tests_cant": "a test runs a flow in one set of units and along one axis", "anchors": ["src/library/natrium/solver/CFDSolver.cpp: run, stopConditionMet", "src/library/natrium/advection/SEDGMinLee.cpp: reassemble, stream", "src/library/natrium/collision_advanced/AuxiliaryMRTFunctions.cpp: make_M, make_T, make_diag", "src/library/natrium/solver/SolverStats.h: calculateResiduals"]}
{"id": "C130", "title": "A symmetric flow stays symmetric", "statement": "If the domain, its mesh, the velocities of the walls, the force and the initial state are symmetric with respect to an exchange or a reflection of axes, then the final state of a run of the discontinuous Galerkin solver and everything it writes are symmetric.", "quantifier": "all setups, meshes, initial states, collision schemes, integrators and symmetries of the lattice", "why_tests_cant": "a test compares a few values of one flow", "anchors": ["src/library/natrium/solver/CFDSolver.cpp: run", "src/library/natrium/advection/SEDGMinLee.cpp: reassemble, stream", "src/library/natrium/collision_advanced/CollisionOperator.h: collideAll"]}
{"id": "C131", "title": "Results do not depend on the numbering", "statement": "Runs of the discontinuous Galerkin solver on the same mesh with cells, degrees of freedom, quadrature points and faces numbered or ordered in another way perform the same number of steps, write the same output and end in the same state.", "quantifier": "all setups, meshes, initial states and numberings", "why_tests_cant": "a test uses the numbers that the mesh library gives on one machine", "anchors": ["src/library/natrium/solver/CFDSolver.cpp: run", "src/library/natrium/advection/SEDGMinLee.cpp: reassemble, setupDoFs", "src/library/natrium/collision_advanced/CollisionOperator.h: collideAll"]}
{"id": "C132", "title": "The Runge-Kutta integrator converges with fourth order", "statement": "After any number of steps of the Runge-Kutta integrator the result differs from the solution of the system at the time it reports by at most a constant times the fourth power of the step size, until the error reaches the rounding of the coefficients; the constant depends on the norm of the operator, the length of the time interval and the time derivative of the solution only.", "quantifier": "all linear systems with source, all solutions, step sizes and numbers of steps", "why_tests_cant": "a test looks at one system and a few step sizes, and cannot tell the order from the constant", "anchors": ["src/library/natrium/timeintegration/RungeKutta5LowStorage.cpp: step", "src/library/natrium/timeintegration/RungeKutta5LowStorage.h: makeA, makeB"]}
{"id": "C133", "title": "The theta method converges with its order", "statement": "After any number of steps of the theta method the result differs from the solution by at most a constant times the square of the step size for theta one half, and times the step size otherwise.", "quantifier": "all linear systems with source, all solutions, theta, step sizes and numbers of steps", "why_tests_cant": "a test looks at one system and a few step sizes that are not small", "anchors": ["src/library/natrium/timeintegration/ThetaMethod.cpp: step"]}
{"id": "C134", "title": "A run with the KBC model starts with the given density and velocity", "statement": "With the collision scheme KBC standard, the distributions the solver starts with have the density and the velocity of the initial fields at every degree of freedom.", "quantifier": "all stencils the model accepts, scalings, initial fields with velocities below the lattice velocity and distributions of the degrees of freedom", "why_tests_cant": "a test looks at one velocity, usually along an axis or in a plane", "anchors": ["src/library/natrium/collision/KBCStandard.cpp: getEquilibriumDistribution", "src/library/natrium/solver/CFDSolver.cpp: initializeDistributions"]}
{"id": "C135", "title": "Information travels over five cell faces in a step at most", "statement": "With the SEDG advection and the Runge-Kutta integrator, what a run computes in a cell during its first k steps depends only on the initial data in the cells that can be reached from it over 5 k faces: two runs that start equal there show the same distributions, densities and velocities in that cell, whatever the data are elsewhere, as long as neither is aborted.", "quantifier": "all meshes, boundary conditions, stencils, collision models, numbers of steps, cells and pairs of initial data", "why_tests_cant": "a test compares two runs on one small mesh; it cannot show that no far-away value ever leaks in", "anchors": ["src/library/natrium/advection/SEDGMinLee.cpp: reassemble", "src/library/natrium/timeintegration/RungeKutta5LowStorage.cpp: step", "src/library/natrium/solver/CFDSolver.cpp: run"]}
{"id": "C136", "title": "Streaming is stable", "statement": "With the SEDG advection with upwind flux, the energy of the distributions - the integral over the domain of the sum of their squares, with equal weights for opposite directions - never grows by streaming, in a domain that is periodic or has walls at rest; with moving walls the energy of the difference of two flows does not grow. This holds exactly in time, and for every step of the theta method with theta of at least one half, whatever the size of the time step; and the linear system of such a step always has exactly one solution.", "quantifier": "all meshes, finite elements, stencils, walls, time steps, numbers of steps and states", "why_tests_cant": "a test observes that some runs do not blow up; instability may need a particular mesh, time step or many steps to show", "anchors": ["src/library/natrium/advection/SEDGMinLee.cpp: reassemble", "src/library/natrium/boundaries/VelocityNeqBounceBack.cpp: assembleBoundary", "src/library/natrium/timeintegration/ThetaMethod.cpp: step", "src/library/natrium/solver/CFDSolver.cpp: stream"]}
{"id": "C137", "title": "Repeated collisions lead to equilibrium", "statement": "If the nodes are collided again and again without force and streaming, the distributions of every node tend to the equilibrium with the density and velocity the node had at the beginning, for BGK, regularised and MRT collisions and every positive viscosity and time step; with BGK every collision multiplies the distance to it by 1 - 1/(nu/(dt cs^2) + 1/2). The collisions never fail on the way.", "quantifier": "all exact stencils, collision schemes, moment bases and relaxation times, equilibria, positive viscosities and time steps, states with densities above the threshold", "why_tests_cant": "it is about a limit over infinitely many collisions from arbitrary states", "anchors": ["src/library/natrium/collision_advanced/CollisionSchemes.h: relax", "src/library/natrium/collision_advanced/AuxiliaryMRTFunctions.cpp: make_diag", "src/library/natrium/collision_advanced/AuxiliaryCollisionFunctions.h: calculateTauFromNu"]}
{"id": "C138", "title": "An old checkpoint is converted faithfully or refused", "statement": "The conversion of a checkpoint of the deprecated format accepts it only if its status file is complete and describes the running solver (cells, order, degrees of freedom, stencil, flux, operator; stencil scaling to one per cent); a missing or truncated file, a mismatch or an unreadable file of distributions ends it. An accepted checkpoint is written in the new format under its own iteration number with its time and distributions, leaves every other checkpoint as it was, and a restart from it continues with the same distributions.", "quantifier": "all contents of the old files, all solvers, all contents of the checkpoint directory, all values of uninitialised variables", "why_tests_cant": "it is about arbitrary (also damaged) files and arbitrary directories; the library has no test of the conversion", "anchors": ["src/library/natrium/solver/Checkpoint.cpp: Checkpoint::loadFromDeprecatedCheckpointVersion", "src/library/natrium/solver/CFDSolver.cpp: CFDSolver::convertDeprecatedCheckpoint"]}
{"id": "C139", "title": "A semi-Lagrangian simulation does not depend on units and origin", "statement": "Setting up a semi-Lagrangian simulation in other units of length and velocity and with the origin at another place gives the same streaming matrix, the same hits of paths on boundaries, and the same run: same number of steps, same output, same final state or same error, expressed in the other units.", "quantifier": "all lattices, collisions, meshes (also curved, refined up to the error of the program, periodic), finite elements, directions, time steps, initial states and numbers of steps; all positive factors for lengths and velocities and all origins", "why_tests_cant": "paths are followed with several tolerances; whether one of them has a unit shows only for particular meshes, and a test runs in one system of units", "anchors": ["src/library/natrium/advection/SemiLagrangian.cpp: SemiLagrangian::fillSparseObject, faceCrossedFirst, faceCrossedFirstWithoutMapping", "src/library/natrium/solver/CFDSolver.cpp: CFDSolver::run, CFDSolver::stream", "src/library/natrium/boundaries/BoundaryHit.h: PointComp", "src/library/natrium/boundaries/VelocityNeqBounceBack.cpp: VelocityNeqBounceBack::calculateBoundaryValues"]}
{"id": "C140", "title": "Information travels no faster than the velocities of the stencil in the semi-Lagrangian scheme", "statement": "Two semi-Lagrangian simulations without filter whose initial data differ only far away from a point give the same result at this point after k steps: far away means further, in some coordinate and up to the shifts of periodic boundaries, than k times the way that the fastest population takes in a time step plus the size of a cell. More precisely, a step reads for a degree of freedom only the degree of freedom itself and those of the cells where its departure points lie.", "quantifier": "all lattices, collisions, meshes, finite elements, time steps (also of many cells), initial states, pairs of simulations and numbers of steps; periodic boundaries and walls", "why_tests_cant": "a wrong entry of the streaming matrix that couples distant cells has an effect only for particular flows; tests compare single fields with tolerances", "anchors": ["src/library/natrium/advection/SemiLagrangian.cpp: SemiLagrangian::fillSparseObject", "src/library/natrium/solver/CFDSolver.cpp: CFDSolver::run, CFDSolver::stream, CFDSolver::collide", "src/library/natrium/boundaries/VelocityNeqBounceBack.cpp: VelocityNeqBounceBack::calculateBoundaryValues"]}
{"id": "C141", "title": "Semi-Lagrangian streaming makes no new extreme values", "statement": "Streaming interpolates: populations that lie between given bounds everywhere lie between these bounds after any number of streaming steps, and populations that are not negative stay so, so that streaming alone does not bring a density below the threshold at which the collision aborts the run.", "quantifier": "all lattices, meshes, time steps, populations and numbers of streaming steps; periodic boundaries and walls at rest; bounds of their own for each direction without walls", "why_tests_cant": "whether a value overshoots depends on the flow, the position of the departure points in the cells and the finite element; tests use smooth flows", "anchors": ["src/library/natrium/advection/SemiLagrangian.cpp: SemiLagrangian::fillSparseObject", "src/library/natrium/advection/SemiLagrangian.h: SemiLagrangian::stream", "src/library/natrium/solver/CFDSolver.cpp: CFDSolver::stream"]}
{"id": "C142", "title": "Errors of implicit streaming add up, but do not grow", "statement": "Linear systems of the implicit time integrators are solved iteratively, up to a tolerance. The resulting errors, and truncation errors, are not amplified by later steps: after any number of streaming steps the distance to the run with an exact linear solver, which exists and is unique, is at most the sum of the tolerances.", "quantifier": "all meshes, finite elements, exact lattices, initial states, numbers and sizes of time steps, theta methods with theta >= 1/2, and linear solvers whose residual is bounded, by a bound that may depend on the right side; periodic boundaries and walls, which may move", "why_tests_cant": "small errors of every step could be amplified slowly, so that a long run is wrong while short tests agree; the solver's errors depend on the flow", "anchors": ["src/library/natrium/timeintegration/ThetaMethod.cpp: ThetaMethod::step", "src/library/natrium/advection/SEDGMinLee.cpp: SEDGMinLee::reassemble", "src/library/natrium/solver/CFDSolver.cpp: CFDSolver::stream"]}
{"id": "C143", "title": "Implicit streaming converges to exact streaming, with a bound that does not grow with time", "statement": "For every initial state there is exactly one flow that is streamed exactly in time. The error of implicit streaming with respect to it is at most the sum over the steps of the squared step size (of half the cubed step size for Crank-Nicolson), times the size of a derivative of the initial flow, plus the tolerances of the linear solver; there is no exponential growth and no restriction of the time step. With more and more steps the result tends to exact streaming.", "quantifier": "all meshes, finite elements, exact lattices, initial states, numbers and sizes of time steps, theta methods with 1/2 <= theta <= 1, solver tolerances; periodic boundaries and walls, which may move", "why_tests_cant": "an order of convergence is a statement about all small time steps and all later times; tests compare a few runs", "anchors": ["src/library/natrium/timeintegration/ThetaMethod.cpp: ThetaMethod::step", "src/library/natrium/advection/SEDGMinLee.cpp: SEDGMinLee::reassemble", "src/library/natrium/solver/CFDSolver.cpp: CFDSolver::stream"]}
{"id": "C144", "title": "Explicit streaming is stable for small time steps and of fourth order, without exponential growth", "statement": "In streaming steps of the Runge-Kutta integrator the distance of two flows grows by at most a factor exp(L T (L h)^4/70), up to the rounding of the coefficients, where L bounds the rate at which streaming changes values, h is the step size and T the time: the factor tends to 1 with the step size. The error with respect to exact streaming is at most T times this factor times (L h)^4/70 times the size of the initial rate of change.", "quantifier": "all meshes, finite elements, exact lattices, initial states, step sizes and numbers of steps; periodic boundaries and walls, which may move", "why_tests_cant": "whether a scheme is stable shows only in long runs and depends on the mesh; tests run a few steps on a few meshes", "anchors": ["src/library/natrium/timeintegration/RungeKutta5LowStorage.cpp: RungeKutta5LowStorage::step", "src/library/natrium/advection/SEDGMinLee.cpp: SEDGMinLee::reassemble", "src/library/natrium/solver/CFDSolver.cpp: CFDSolver::stream"]}
{"id": "C145", "title": "Iterative linear solvers lose little mass and momentum in whole runs", "statement": "In runs with the implicit integrator whose linear solver stops at residuals of at most eps, where eps may depend on the right-hand side, the total mass after k steps differs from the initial one by at most sqrt(Q V) times the sum of the tolerances of these steps, which is k eps for a fixed tolerance; Q is the number of directions and V the volume. Without walls and force, each component of the momentum differs by at most sqrt(V sum_i e_ia^2) times the sum of the tolerances.", "quantifier": "all meshes, finite elements, exact lattices, collision schemes, initial states, numbers of steps and solvers with this stopping rule; for the mass also walls and exact-difference forces", "why_tests_cant": "losses accumulate over a run; tests see a few steps on small meshes, where they are below every tolerance", "anchors": ["src/library/natrium/timeintegration/ThetaMethod.cpp: ThetaMethod::step", "src/library/natrium/solver/CFDSolver.cpp: CFDSolver::stream, CFDSolver::run"]}
{"id": "C146", "title": "Rounding errors of streaming add up, but are not amplified", "statement": "A run in which each streaming step is disturbed by an error of at most delta, as by rounding, differs after k steps by at most the initial difference plus k delta: in each single population with semi-Lagrangian streaming and linear elements, for time steps of any size; in the quadratic mean with the Runge-Kutta integrator, up to a factor that tends to 1 with the step size.", "quantifier": "all meshes, lattices, initial states, sequences of errors and numbers of steps", "why_tests_cant": "rounding errors are below the tolerances of tests; whether they grow shows only in long runs", "anchors": ["src/library/natrium/advection/SemiLagrangian.cpp: SemiLagrangian::reassemble", "src/library/natrium/timeintegration/RungeKutta5LowStorage.cpp: RungeKutta5LowStorage::step", "src/library/natrium/solver/CFDSolver.cpp: CFDSolver::stream"]}
