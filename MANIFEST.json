{
 "claims": [
  {
   "property": "C01",
   "status": "proved",
   "theorems": [
    "NATriuM.C01_opposite"
   ],
   "note": "All 14 stencil classes, every scaling."
  },
  {
   "property": "C02",
   "status": "proved",
   "theorems": [
    "NATriuM.C02_quadrature",
    "NATriuM.C03_isotropy_tabulated",
    "NATriuM.C03_isotropy_D3Q21",
    "NATriuM.C02_D3Q21_inexact",
    "NATriuM.C03_coverage"
   ],
   "note": "Exact for the closed-form stencils; tabulated stencils and D3Q21 (decimal literal for sqrt(0.6)) with an explicit tolerance; D3Q21 proved not exact (finding)."
  },
  {
   "property": "C03",
   "status": "proved",
   "theorems": [
    "NATriuM.C03_isotropy",
    "NATriuM.C03_isotropy6_D2Q25H",
    "NATriuM.C03_isotropy_tabulated",
    "NATriuM.C03_isotropy_D3Q21",
    "NATriuM.C03_coverage"
   ],
   "note": "Orders 3, 4, 5; order 6 for D2Q25H; tolerance version for tabulated stencils."
  },
  {
   "property": "C04",
   "status": "partial",
   "theorems": [
    "NATriuM.C04_maxVelocity_partial",
    "NATriuM.C04_maxVelocity_wrong"
   ],
   "note": "True for six stencils; proved false for the other eight (finding F02)."
  },
  {
   "property": "C05",
   "status": "proved",
   "theorems": [
    "NATriuM.C05_cfl"
   ],
   "note": "Includes the loop over owned cells and the MPI minimum; hypothesis: the stencil reports a correct maximum velocity (C04)."
  },
  {
   "property": "C06",
   "status": "proved",
   "theorems": [
    "NATriuM.C06_momentBasis_invertible",
    "NATriuM.C06_roundtrip"
   ],
   "note": "All non-trivial bases, every nonzero scaling."
  },
  {
   "property": "C07",
   "status": "proved",
   "theorems": [
    "NATriuM.C07_bgk_moments",
    "NATriuM.C07_bgk_moments_stencil"
   ],
   "note": "Density, momentum, momentum flux of the BGK equilibrium; every exactly isotropic stencil."
  },
  {
   "property": "C08",
   "status": "proved",
   "theorems": [
    "NATriuM.C08_D2Q9_unrolled",
    "NATriuM.C08_D2Q9_unrolled_any_cs2"
   ],
   "note": ""
  },
  {
   "property": "C09",
   "status": "proved",
   "theorems": [
    "NATriuM.C09_quartic_moments2",
    "NATriuM.C09_quartic_moments3",
    "NATriuM.C09_quartic_moments_D2Q25H",
    "NATriuM.C09_quartic_conserved"
   ],
   "note": ""
  },
  {
   "property": "C10",
   "status": "proved",
   "theorems": [
    "NATriuM.C10_steadyState_moments",
    "NATriuM.C10_incompressible_moments"
   ],
   "note": ""
  },
  {
   "property": "C100",
   "status": "proved",
   "theorems": [
    "NATriuM.Sparsity.C100_blocks",
    "NATriuM.Sparsity.C100_last_direction",
    "NATriuM.Sparsity.C100_refused",
    "NATriuM.Sparsity.C100_boundaries",
    "NATriuM.Sparsity.C100_walls"
   ],
   "note": ""
  },
  {
   "property": "C101",
   "status": "proved",
   "theorems": [
    "NATriuM.Sparsity.C101_plane",
    "NATriuM.Sparsity.C101_planes"
   ],
   "note": "Faces inside the domain are treated like those at the boundary."
  },
  {
   "property": "C102",
   "status": "partial",
   "theorems": [
    "NATriuM.Sparsity.C102_extracted",
    "NATriuM.Sparsity.C102_solver_partial",
    "NATriuM.Sparsity.C102_periodic_fails"
   ],
   "note": "The extraction is complete. The count of the solver is right if there is a boundary that is not periodic; without one, the points at periodic boundaries are counted (_fails; the count is only logged)."
  },
  {
   "property": "C103",
   "status": "partial",
   "theorems": [
    "NATriuM.Legacy.C103_standard",
    "NATriuM.Legacy.C103_transformedD2Q9",
    "NATriuM.Legacy.C103_steadyD2Q9",
    "NATriuM.Legacy.C103_kbcCentral",
    "NATriuM.Legacy.C103_kbcD2Q9",
    "NATriuM.Legacy.C103_regularizedD2Q9_stress",
    "NATriuM.Legacy.C103_regularizedD2Q9_partial",
    "NATriuM.Legacy.C103_regularizedD2Q9_fails",
    "NATriuM.Legacy.C103_regularizedD3Q19_stress",
    "NATriuM.Legacy.C103_regularizedD3Q19_fails",
    "NATriuM.Legacy.C103_mrtStandard_partial",
    "NATriuM.Legacy.C103_mrtStandard_fails",
    "NATriuM.Legacy.C103_mrtEntropic_partial",
    "NATriuM.Legacy.C103_mrtEntropic_fails",
    "NATriuM.Legacy.C103_kbcD3Q15_partial",
    "NATriuM.Legacy.C103_kbcD3Q15_fails",
    "NATriuM.Legacy.C103_incompressible_fails"
   ],
   "note": "Holds for BGK standard on every exact stencil, BGK transformed, BGK steady state (preconditioned flux), KBC with central moments and (shear stress) KBC on D2Q9. False for BGK regularized on D2Q9 unless the scaling is one and on D3Q19, for MRT unless the density is one, for the shear stresses of KBC on D3Q15, and for BGK incompressible (_fails). The multistep, pseudopotential and entropic stabilized models are not treated."
  },
  {
   "property": "C104",
   "status": "partial",
   "theorems": [
    "NATriuM.FlowMeshes.C104_fits2",
    "NATriuM.FlowMeshes.C104_fits3_partial",
    "NATriuM.FlowMeshes.C104_check",
    "NATriuM.FlowMeshes.C104_accepted2",
    "NATriuM.FlowMeshes.C104_accepted3",
    "NATriuM.FlowMeshes.C104_channel_fails"
   ],
   "note": "Holds for 15 problems in two and 6 in three dimensions with all arguments; false for the turbulent channel without periodicity, which is constructed without boundary conditions (_fails)."
  },
  {
   "property": "C105",
   "status": "partial",
   "theorems": [
    "NATriuM.FlowMeshes.C105_plane",
    "NATriuM.FlowMeshes.C105_cylinder",
    "NATriuM.FlowMeshes.C105_sphere",
    "NATriuM.FlowMeshes.C105_step_partial",
    "NATriuM.FlowMeshes.C105_step_fails"
   ],
   "note": "Holds for planes, the cylinder and the sphere; false for the backward facing step, which has no boundary condition for the outflow (_fails). Numbers are real; the meshes themselves (deal.II) are any lists of faces on the parts."
  },
  {
   "property": "C106",
   "status": "proved",
   "theorems": [
    "NATriuM.Init.C106_initial",
    "NATriuM.Init.C106_add",
    "NATriuM.Init.C106_distributions",
    "NATriuM.Init.C106_changed"
   ],
   "note": "All partitions, functions and stencils with exact weights; the iterative scheme changes the fields on purpose and is not covered."
  },
  {
   "property": "C107",
   "status": "partial",
   "theorems": [
    "NATriuM.Init.C107_stress_partial",
    "NATriuM.Init.C107_factor",
    "NATriuM.Init.C107_newtonian_iff",
    "NATriuM.Init.C107_fails",
    "NATriuM.Init.C107_ignored"
   ],
   "note": "False: the stress is that of the gradient, but too large by 1/dt times the number of cells that share the node, and independent of the viscosity for schemes other than BGK_STANDARD (_fails, _ignored). The proved part gives the exact stress and when it is right."
  },
  {
   "property": "C108",
   "status": "proved",
   "theorems": [
    "NATriuM.Init.C108_fields",
    "NATriuM.Init.C108_temperature",
    "NATriuM.Init.C108_first_collision",
    "NATriuM.Init.C108_all"
   ],
   "note": "Density and momentum on all exact stencils, temperature on those isotropic to sixth order; first collision with the quartic equilibrium without force."
  },
  {
   "property": "C109",
   "status": "proved",
   "theorems": [
    "NATriuM.SedgSolver.C109_mass",
    "NATriuM.SedgSolver.C109_momentum",
    "NATriuM.SedgSolver.C109_stabiliser"
   ],
   "note": "SEDG with upwind flux, Runge-Kutta 5 or theta method with exact linear solver, all rows of the collision table, stencils with exact weights; the class-based collision models, multistep schemes and external integrators are not part of this composition. The central flux is wrong at walls (C46)."
  },
  {
   "property": "C11",
   "status": "proved",
   "theorems": [
    "NATriuM.C11_density",
    "NATriuM.C11_velocity",
    "NATriuM.C11_unrolled",
    "NATriuM.C11_stored_fields",
    "NATriuM.C11_compressible_fields"
   ],
   "note": ""
  },
  {
   "property": "C110",
   "status": "partial",
   "theorems": [
    "NATriuM.SedgSolver.C110_uniform_partial",
    "NATriuM.SedgSolver.C110_completes_partial",
    "NATriuM.SedgSolver.C110_rate",
    "NATriuM.SedgSolver.Sample.C110_density_fails"
   ],
   "note": "Proved for walls with velocity rho times the flow velocity: the wall condition takes the density for 1, so walls that move with a fluid of another density disturb it (C110_rate, witness C110_density_fails). With walls and a moving flow the equilibrium has to be that of BGK."
  },
  {
   "property": "C111",
   "status": "partial",
   "theorems": [
    "NATriuM.SedgSolver.C111_momentum_partial"
   ],
   "note": "Proved with k+1 instead of k forces after k steps: a run begins with an additional collision, which applies the force as well."
  },
  {
   "property": "C112",
   "status": "partial",
   "theorems": [
    "NATriuM.Reassembly.C112_semiLagrangian_partial",
    "NATriuM.Reassembly.C112_hits",
    "NATriuM.Reassembly.C112_sedg_partial",
    "NATriuM.Reassembly.C112_solver",
    "NATriuM.Reassembly.C112_semiLagrangian_fails",
    "NATriuM.Reassembly.C112_sedg_fails"
   ],
   "note": "False for more than one assembly: neither operator resets its matrix. Proved instead, for every sequence of calls, what the operator then is: that of one assembly times the number of assemblies since the last reset."
  },
  {
   "property": "C113",
   "status": "proved",
   "theorems": [
    "NATriuM.SlSolver.C113_uniform",
    "NATriuM.SlSolver.C113_completes",
    "NATriuM.SlSolver.C113_walls"
   ],
   "note": "For departure points at which no shape function has a value between 0 and 1e-10 (such weights are left out, C54), stencils with exact weights, all rows of the isothermal collision table. The matrix is that of the model of fillSparseObject."
  },
  {
   "property": "C114",
   "status": "partial",
   "theorems": [
    "NATriuM.SlSolver.C114_mass_partial",
    "NATriuM.SlSolver.C114_momentum_partial",
    "NATriuM.SlSolver.C114_force_partial",
    "NATriuM.SlSolver.Sample.C114_interpolation_fails",
    "NATriuM.SlSolver.Sample.C114_walls_fails"
   ],
   "note": "Proved when the time step moves populations from node to node; degrees of freedom on both sides of a periodic boundary have to start with the same values. False with interpolation (witness: quadratic elements on equal cells) and with nodes on walls (witness)."
  },
  {
   "property": "C115",
   "status": "partial",
   "theorems": [
    "NATriuM.Elements.C115_sedg",
    "NATriuM.Elements.C115_sedg_refused",
    "NATriuM.Elements.C115_semiLagrangian",
    "NATriuM.Elements.C115_points",
    "NATriuM.Elements.C115_collocated",
    "NATriuM.Elements.C115_continuous_partial",
    "NATriuM.Elements.C115_continuous_fails"
   ],
   "note": "Selection proved for all configurations. Support points on both ends: proved for three of four sets, false for Gauss-Chebyshev points for all orders. The points of deal.II are a premise for Gauss-Lobatto points (number, order, ends) and a formula for Chebyshev points."
  },
  {
   "property": "C116",
   "status": "partial",
   "theorems": [
    "NATriuM.Elements.C116_lower_partial",
    "NATriuM.Elements.C116_attained_partial",
    "NATriuM.Elements.C116_equidistant",
    "NATriuM.Elements.C116_layers",
    "NATriuM.Elements.C116_sheared_fails"
   ],
   "note": "Proved for meshes of boxes (attained if a cell is smaller than the start value 1e11 of the loop) and for layers of tensor product meshes; false for sheared cells. Premise: number, order and ends of the Gauss-Lobatto points."
  },
  {
   "property": "C117",
   "status": "proved",
   "theorems": [
    "NATriuM.CompressibleSolver.C117_mass",
    "NATriuM.CompressibleSolver.C117_momentum",
    "NATriuM.CompressibleSolver.C117_energy",
    "NATriuM.CompressibleSolver.C117_initial"
   ],
   "note": "Upwind flux. Mass: walls that move along themselves, no force or exact-difference force. Energy: quartic equilibrium on a stencil that is isotropic to sixth order, no force. The soundness of mesh and element is a premise, shown for a concrete mesh."
  },
  {
   "property": "C118",
   "status": "partial",
   "theorems": [
    "NATriuM.CompressibleSolver.C118_uniform_partial",
    "NATriuM.CompressibleSolver.C118_completes_partial",
    "NATriuM.CompressibleSolver.C118_moving_walls_fails"
   ],
   "note": "Proved at rest in a box and without walls (quartic equilibrium, sixth-order isotropic stencil). For moving walls the wall terms of f are added to the equation of g as well, so that g and f change in different proportions: false."
  },
  {
   "property": "C119",
   "status": "partial",
   "theorems": [
    "NATriuM.Walls.C119_hits",
    "NATriuM.Walls.C119_step_partial",
    "NATriuM.Walls.Sample.C119_step_fails"
   ],
   "note": "Density, momentum: proved. The hits themselves bring the node near the wall temperature (at most 1e-5 or 3/5 (2/5)^k of the initial imbalance after k + 1 hits); the streaming of g that follows changes the temperature again: formula proved, full claim false."
  },
  {
   "property": "C12",
   "status": "proved",
   "theorems": [
    "NATriuM.C12_bgk_conserves",
    "NATriuM.C12_bgk_relaxes"
   ],
   "note": "Full sweep over owned nodes, every stencil that is isotropic exactly."
  },
  {
   "property": "C120",
   "status": "proved",
   "theorems": [
    "NATriuM.Channel.C120_random",
    "NATriuM.Channel.C120_angles",
    "NATriuM.Channel.C120_interval"
   ],
   "note": "Seeds below the modulus 2^31 - 1, among them the one of the program. Division in the choice of the table entry in exact arithmetic."
  },
  {
   "property": "C121",
   "status": "partial",
   "theorems": [
    "NATriuM.Channel.Flow.C121_modes_partial",
    "NATriuM.Channel.Flow.C121_divergence_partial",
    "NATriuM.Channel.C121_curl",
    "NATriuM.Channel.C121_curl_linear",
    "NATriuM.Channel.C121_scaling_partial",
    "NATriuM.Channel.Flow.C121_bounds_fails",
    "NATriuM.Channel.C121_processes_fails"
   ],
   "note": "Each evaluation writes behind the end of a vector (fails); with room for one more number the field is free of divergence and uses all modes. Scaling: right on one process, each of several processes has a factor of its own (fails)."
  },
  {
   "property": "C122",
   "status": "partial",
   "theorems": [
    "NATriuM.Channel.Flow.C122_profile_partial",
    "NATriuM.Channel.Flow.C122_profile_fails",
    "NATriuM.Channel.Flow.C122_force",
    "NATriuM.Channel.C122_monitors_partial",
    "NATriuM.Channel.C122_monitors_fails"
   ],
   "note": "Force: proved. Profile: if the characteristic length is the height of the channel; the driver sets another one (fails). Monitors: for height 1 only."
  },
  {
   "property": "C123",
   "status": "partial",
   "theorems": [
    "NATriuM.Channel.C123_planes_partial",
    "NATriuM.Channel.C123_planes_fails",
    "NATriuM.Channel.C123_empty_process_fails"
   ],
   "note": "Proved if coordinates of a plane agree exactly and each process has a cell; false with coordinates that differ by rounding on several processes, or a process without cells."
  },
  {
   "property": "C124",
   "status": "proved",
   "theorems": [
    "NATriuM.Channel.C124_temporal"
   ],
   "note": "For one quantity in one plane; the program does the same for all of them."
  },
  {
   "property": "C125",
   "status": "partial",
   "theorems": [
    "NATriuM.Channel.C125_bounds_partial",
    "NATriuM.Channel.C125_law",
    "NATriuM.Channel.C125_balance_fails",
    "NATriuM.Channel.C125_negative_fails"
   ],
   "note": "Law: proved. Bounds: for forces along the axis; for a force against it the result is always -2 times the force (fails). A flow in balance loses its force (fails)."
  },
  {
   "property": "C126",
   "status": "partial",
   "theorems": [
    "NATriuM.Channel.C126_density_partial",
    "NATriuM.Channel.C126_height",
    "NATriuM.Channel.C126_temperature_fails"
   ],
   "note": "Density and velocity: proved, with the mean over the height as it is computed, which is a mean only for height 2. Temperature: false, as g is not scaled."
  },
  {
   "property": "C127",
   "status": "proved",
   "theorems": [
    "NATriuM.Paths.C127_polynomials",
    "NATriuM.Paths.C127_paths",
    "NATriuM.Paths.C127_transport",
    "NATriuM.Paths.C127_walls"
   ],
   "note": "Exact if the end of the path is not snapped and no weight is left out, otherwise up to 1e-10 of the largest value for each shape function, at a point whose unit coordinates differ by less than 1e-10 each."
  },
  {
   "property": "C128",
   "status": "proved",
   "theorems": [
    "NATriuM.Sedg.C128_gradient",
    "NATriuM.Sedg.C128_continuous",
    "NATriuM.Sedg.C128_exact"
   ],
   "note": "Mass lumping by nodal quadrature as in the code; faces to neighbours. Boundary faces are the subject of the wall properties."
  },
  {
   "property": "C129",
   "status": "proved",
   "theorems": [
    "NATriuM.SedgSolver.C129_similar",
    "NATriuM.SedgSolver.C129_units",
    "NATriuM.SedgSolver.C129_axes",
    "NATriuM.StencilType.Symmetry.C129_lattices",
    "NATriuM.StencilType.Symmetry.C129_mrt",
    "NATriuM.StencilType.Symmetry.C129_onlyN_fails",
    "NATriuM.SedgSolver.C129_threshold_fails"
   ],
   "note": "Convergence thresholds up to one; false above (finding 84). Symmetries of D2Q9, D3Q15, D3Q19, D3Q27 and RD3Q27 are all exchanges of axes and reflections. False along other axes with the relaxation times dellarRelaxOnlyN (finding 6)."
  },
  {
   "property": "C13",
   "status": "proved",
   "theorems": [
    "NATriuM.C13_regularized_conserves",
    "NATriuM.C13_regularized_stress",
    "NATriuM.C13_regularized_projects"
   ],
   "note": ""
  },
  {
   "property": "C130",
   "status": "proved",
   "theorems": [
    "NATriuM.SedgSolver.C130_symmetric"
   ],
   "note": "For the symmetries of C129 and the relaxation times that have them (C129_mrt), and convergence thresholds up to one."
  },
  {
   "property": "C131",
   "status": "partial",
   "theorems": [
    "NATriuM.SedgSolver.C131_numbering_partial",
    "NATriuM.SedgSolver.C131_completes_partial"
   ],
   "note": "Results agree if both runs are completed. If one run is completed, so is the other, provided that no density is exactly 1e-10; then the failure of the collision does depend on the order (C17). For forces of exact differences and data processors that keep the density."
  },
  {
   "property": "C132",
   "status": "proved",
   "theorems": [
    "NATriuM.TimeIntegration.C132_order"
   ],
   "note": "With explicit constants. The part that does not vanish with the step size is below 1e-25 relative to the time derivative (C23). The documentation calls the scheme fifth-order; C23_scheme shows that it is not."
  },
  {
   "property": "C133",
   "status": "partial",
   "theorems": [
    "NATriuM.TimeIntegration.C133_order_partial",
    "NATriuM.TimeIntegration.C133_stands_still_fails"
   ],
   "note": "Proved with an additional error of N times the tolerance of the linear solver, which is zero for exact solves. With the tolerance 1e-6 of the code the method does not converge: below some step size no step changes the vector (_fails)."
  },
  {
   "property": "C134",
   "status": "partial",
   "theorems": [
    "NATriuM.Legacy.C134_plane",
    "NATriuM.Legacy.C134_space_partial",
    "NATriuM.Legacy.C134_space_fails"
   ],
   "note": "Proved on D2Q9, with positive distributions. On D3Q15 only for velocities with a component equal to zero; otherwise false (_fails)."
  },
  {
   "property": "C135",
   "status": "proved",
   "theorems": [
    "NATriuM.SedgSolver.C135_locality",
    "NATriuM.SedgSolver.C135_stabiliser"
   ],
   "note": "Data processors that work cell by cell (the stabiliser does). A run that is aborted because the density is too low somewhere has no result anywhere. The implicit theta method is excluded: it couples all cells."
  },
  {
   "property": "C136",
   "status": "proved",
   "theorems": [
    "NATriuM.SedgSolver.C136_exact",
    "NATriuM.SedgSolver.C136_step",
    "NATriuM.SedgSolver.C136_bounded",
    "NATriuM.SedgSolver.C136_solvable"
   ],
   "note": "For meshes on which integration by parts holds for the quadratures (ByParts; Gauss-Lobatto on parallelograms) with positive quadrature weights, and exact solution of the linear system (see C95 for the iterative solver). The Runge-Kutta integrator is stable for small steps only and is not covered."
  },
  {
   "property": "C137",
   "status": "proved",
   "theorems": [
    "NATriuM.C137_equilibrium",
    "NATriuM.C137_rate",
    "NATriuM.C137_exists"
   ],
   "note": "Stencils that are exactly isotropic (D2Q9, D3Q15, D3Q19, D3Q27, D2Q25H, D3Q13, RD3Q27)."
  },
  {
   "property": "C138",
   "status": "partial",
   "theorems": [
    "NATriuM.Checkpoint.C138_accepted_partial",
    "NATriuM.Checkpoint.C138_converted_partial",
    "NATriuM.Checkpoint.C138_absent",
    "NATriuM.Checkpoint.C138_unreadable",
    "NATriuM.Checkpoint.C138_scaling_fails",
    "NATriuM.Checkpoint.C138_counter_fails",
    "NATriuM.Checkpoint.C138_first_fails"
   ],
   "note": "False of the code in three cases, each proved: a negative stored scaling is always accepted; without the file checkpoint.dat the checkpoint becomes iteration 0 at time 0; the old checkpoint of iteration 1 replaces the newest checkpoint in the directory. Proved in all other cases. Words of a text file are read as numbers in whole or not at all; one process."
  },
  {
   "property": "C139",
   "status": "partial",
   "theorems": [
    "NATriuM.Paths.C139_matrix",
    "NATriuM.Paths.C139_root",
    "NATriuM.SlSolver.C139_units",
    "NATriuM.SlSolver.C139_walls_partial",
    "NATriuM.Walls.C139_position_fails",
    "NATriuM.Hits.C139_hits_fails"
   ],
   "note": "Matrix, hits and whole runs: proved, for boundary conditions that do the same in the new units. Velocity walls do so if the velocity does not depend on the position; they do not otherwise (proved, a consequence of finding 25). The grouping of hits by points has a tolerance with a unit (proved, finding 90). Exchanged axes are not covered here (C129 covers them for the discontinuous Galerkin scheme)."
  },
  {
   "property": "C14",
   "status": "proved",
   "theorems": [
    "NATriuM.C14_inverse_D2Q9",
    "NATriuM.C14_inverse_D3Q19",
    "NATriuM.C14_mrt_conserves",
    "NATriuM.C14_mrt_stencils"
   ],
   "note": ""
  },
  {
   "property": "C140",
   "status": "proved",
   "theorems": [
    "NATriuM.SlSolver.C140_locality",
    "NATriuM.SlSolver.C140_reach",
    "NATriuM.SlSolver.C140_speed",
    "NATriuM.SlSolver.C140_walls"
   ],
   "note": "For runs that are not aborted, without the filter, with processors that work on each degree of freedom for itself and boundary conditions that depend on the new populations of the degree of freedom only (proved for velocity walls). The distance needs that there are no do-nothing boundaries and, with walls, that the wall points found are on the paths (C52)."
  },
  {
   "property": "C141",
   "status": "partial",
   "theorems": [
    "NATriuM.SlSolver.C141_maximum_partial",
    "NATriuM.SlSolver.C141_positive",
    "NATriuM.SlSolver.Sample.C141_quadratic_fails"
   ],
   "note": "Proved for finite elements whose shape functions are not negative in the cell, as linear elements; false for quadratic elements (witness). Bounds need that no weight below 1e-10 is left out; positivity does not."
  },
  {
   "property": "C142",
   "status": "proved",
   "theorems": [
    "NATriuM.SedgSolver.C142_accumulation",
    "NATriuM.SedgSolver.C142_tolerance"
   ],
   "note": "Distance in the weighted quadratic mean over the domain; upwind flux. The residual of the linear solver is measured in the same norm; its bound may depend on the right side, as in the code, where it is relative."
  },
  {
   "property": "C143",
   "status": "proved",
   "theorems": [
    "NATriuM.SedgSolver.C143_exact",
    "NATriuM.SedgSolver.C143_first",
    "NATriuM.SedgSolver.C143_second",
    "NATriuM.SedgSolver.C143_limit"
   ],
   "note": "Errors in the weighted quadratic mean over the domain; upwind flux; exact streaming is exact in time on the given mesh. The limit is for exact linear solvers."
  },
  {
   "property": "C144",
   "status": "proved",
   "theorems": [
    "NATriuM.SedgSolver.C144_rate",
    "NATriuM.SedgSolver.C144_growth",
    "NATriuM.SedgSolver.C144_error"
   ],
   "note": "Distances in the weighted quadratic mean over the domain; upwind flux. The bound L exists on every mesh (C144_rate); its value is not computed."
  },
  {
   "property": "C145",
   "status": "proved",
   "theorems": [
    "NATriuM.SedgSolver.C145_mass",
    "NATriuM.SedgSolver.C145_momentum",
    "NATriuM.SedgSolver.C145_tolerance"
   ],
   "note": "Residuals in the weighted quadratic mean over the domain; upwind flux."
  },
  {
   "property": "C146",
   "status": "proved",
   "theorems": [
    "NATriuM.SlSolver.C146_semiLagrangian",
    "NATriuM.SlSolver.C146_walls",
    "NATriuM.SlSolver.C146_velocityWalls",
    "NATriuM.SedgSolver.C146_explicit"
   ],
   "note": "Streaming only. Semi-Lagrangian: walls that do not amplify differences (proved for velocity walls, also moving ones, bounce back of first order, prescribed equilibrium, do-nothing), shape functions that are not negative (linear elements), no weight below 1e-10. Runge-Kutta: upwind flux."
  },
  {
   "property": "C15",
   "status": "proved",
   "theorems": [
    "NATriuM.C15_equilibrium_fixed",
    "NATriuM.C15_tau_one"
   ],
   "note": ""
  },
  {
   "property": "C16",
   "status": "partial",
   "theorems": [
    "NATriuM.C16_exactDifference",
    "NATriuM.C16_shifting_bgk",
    "NATriuM.C16_shifting_mrt_partial",
    "NATriuM.C16_shifting_mrt_paper",
    "NATriuM.C16_shifting_regularized",
    "NATriuM.C16_regularized_wrong"
   ],
   "note": "Exact difference: all schemes. Shifted velocity: BGK and MRT except the paper mode; proved false for the regularized scheme (injects tau*dt*F) and the paper mode (injects nothing)."
  },
  {
   "property": "C17",
   "status": "partial",
   "theorems": [
    "NATriuM.C17_sweep_local",
    "NATriuM.C17_sweep_fails_iff_partial",
    "NATriuM.C17_sweep_order_partial",
    "NATriuM.C17_sweep_empty_fails",
    "NATriuM.C17_sweep_order_dependent"
   ],
   "note": "Proved false for an empty set of nodes and for densities exactly 1e-10 (findings)."
  },
  {
   "property": "C18",
   "status": "partial",
   "theorems": [
    "NATriuM.C18_exactly_one",
    "NATriuM.C18_configured_partial",
    "NATriuM.C18_misdispatched"
   ],
   "note": "Exactly one sweep or an exception: always. The configured one: all but three configurations, which are proved to be misdispatched."
  },
  {
   "property": "C19",
   "status": "proved",
   "theorems": [
    "NATriuM.C19_compressible_conserves",
    "NATriuM.C19_bgk_energy",
    "NATriuM.C19_bgk_not_conserved",
    "NATriuM.C19_relaxation_times_positive"
   ],
   "note": "Quartic equilibrium on stencils isotropic to sixth order (D2Q25H). With the second-order equilibrium energy is proved not conserved (finding)."
  },
  {
   "property": "C20",
   "status": "proved",
   "theorems": [
    "NATriuM.C20_tau",
    "NATriuM.C20_tau_dt",
    "NATriuM.Legacy.C66_setTimeStep"
   ],
   "note": "Collision data of the current solver; the class-based models by C66_setTimeStep."
  },
  {
   "property": "C21",
   "status": "partial",
   "theorems": [
    "NATriuM.C21_ghosts_D2Q9_partial",
    "NATriuM.C21_ghosts_D3Q19_partial",
    "NATriuM.C21_stress",
    "NATriuM.C21_stress_paper",
    "NATriuM.C21_onlyN_wrong"
   ],
   "note": "Mode 'only N' proved wrong (finding): it relaxes another moment."
  },
  {
   "property": "C22",
   "status": "partial",
   "theorems": [
    "NATriuM.Stabilizer.C22_mass_momentum",
    "NATriuM.Stabilizer.C22_stress_partial",
    "NATriuM.Stabilizer.C22_idempotent",
    "NATriuM.Stabilizer.C22_local",
    "NATriuM.Stabilizer.C22_withE",
    "NATriuM.Stabilizer.C22_withE_stress_changed"
   ],
   "note": "Mass, momentum, idempotence: all modes. Stress: except D2Q9 \"with e\", which resets the trace (proved)."
  },
  {
   "property": "C23",
   "status": "partial",
   "theorems": [
    "NATriuM.TimeIntegration.C23_scheme",
    "NATriuM.TimeIntegration.C23_defined",
    "NATriuM.TimeIntegration.C23_steady",
    "NATriuM.TimeIntegration.C23_affine",
    "NATriuM.TimeIntegration.C23_constant_source_partial",
    "NATriuM.TimeIntegration.C23_constant_source_not_exact"
   ],
   "note": "Everything but \"exactly\": constant sources are integrated with a relative error proved to be nonzero and at most 1e-25 (finding)."
  },
  {
   "property": "C24",
   "status": "proved",
   "theorems": [
    "NATriuM.TimeIntegration.C24_scheme",
    "NATriuM.TimeIntegration.C24_euler",
    "NATriuM.TimeIntegration.C24_steady",
    "NATriuM.TimeIntegration.C24_tolerance"
   ],
   "note": "The linear solver is a parameter with its contract as hypothesis."
  },
  {
   "property": "C25",
   "status": "partial",
   "theorems": [
    "NATriuM.TimeIntegration.C25_fails",
    "NATriuM.TimeIntegration.C25_eigenvector_fails"
   ],
   "note": "False: proved that every steady state makes the step divide by zero (finding)."
  },
  {
   "property": "C26",
   "status": "partial",
   "theorems": [
    "NATriuM.TimeIntegration.C26_names_partial",
    "NATriuM.TimeIntegration.C26_injective",
    "NATriuM.TimeIntegration.C26_name_injective",
    "NATriuM.TimeIntegration.C26_other_ids"
   ],
   "note": "Ids 1..15 and names: proved. Other ids: proved to silently keep the previous integrator (finding)."
  },
  {
   "property": "C27",
   "status": "proved",
   "theorems": [
    "NATriuM.Solver.C27_clock_and_steps",
    "NATriuM.Solver.C27_run_steps",
    "NATriuM.Solver.C27_clock_adaptive"
   ],
   "note": "For parts whose streaming returns the configured step (FixedStep); the compressible SEDG branch is modelled without a clock update of its own."
  },
  {
   "property": "C28",
   "status": "proved",
   "theorems": [
    "NATriuM.Solver.C28_run_stops_first",
    "NATriuM.Solver.C28_run_completes",
    "NATriuM.Solver.C28_run_fails_only_before_stop",
    "NATriuM.Solver.C28_compressibleRun_stops_first"
   ],
   "note": ""
  },
  {
   "property": "C29",
   "status": "partial",
   "theorems": [
    "NATriuM.Solver.C29_solution_partial",
    "NATriuM.Solver.C29_table_partial",
    "NATriuM.Solver.C29_checkpoint_partial",
    "NATriuM.Solver.C29_output_off",
    "NATriuM.Solver.C29_once",
    "NATriuM.Solver.C29_table_final_fails",
    "NATriuM.Solver.C29_compressible_output_off_fails",
    "NATriuM.Tables.C29_benchmark_errors",
    "NATriuM.Tables.C29_benchmark_solution_partial",
    "NATriuM.Tables.C29_benchmark_checkpoint_partial",
    "NATriuM.Tables.C28_benchmark",
    "NATriuM.Tables.C29_benchmark_fails"
   ],
   "note": "Proved exactly when each output is written. Deviations proved with witnesses (findings): no table line in the final iteration unless it is a multiple; no checkpoint in the start iteration; the compressible solver writes checkpoints with output switched off; the benchmark solver writes neither solution nor checkpoint at its end."
  },
  {
   "property": "C30",
   "status": "partial",
   "theorems": [
    "NATriuM.Checkpoint.C30_restart_collides_again",
    "NATriuM.Checkpoint.C30_restart_partial",
    "NATriuM.Checkpoint.C30_fails"
   ],
   "note": "False: a restarted run collides the checkpointed state once more (finding). Proved: exactly this, for every collision and streaming map; equality for states the collision leaves fixed; difference for a D2Q9 BGK solver for every number of steps."
  },
  {
   "property": "C31",
   "status": "partial",
   "theorems": [
    "NATriuM.Checkpoint.C31_newest_partial",
    "NATriuM.Checkpoint.C31_particular",
    "NATriuM.Checkpoint.C31_save_partial",
    "NATriuM.Checkpoint.C31_first_iteration_fails",
    "NATriuM.Checkpoint.C31_both_kinds_fails",
    "NATriuM.Checkpoint.C31_crash_fails"
   ],
   "note": "Proved for directories with one kind of checkpoint and iterations other than 1. Three deviations proved (findings): iteration 1 overwrites the newest checkpoint; f and g checkpoints in one directory; crash between the two files."
  },
  {
   "property": "C32",
   "status": "partial",
   "theorems": [
    "NATriuM.Checkpoint.C32_status_partial",
    "NATriuM.Checkpoint.C32_time_fails"
   ],
   "note": "Iteration and order round-trip. Time and scaling are printed with six significant digits: exact characterisation, error bound, and witness (finding)."
  },
  {
   "property": "C33",
   "status": "partial",
   "theorems": [
    "NATriuM.Checkpoint.C33_restart_partial",
    "NATriuM.Checkpoint.C33_unknown_stencil_fails"
   ],
   "note": "Proved for stencils known to make_stencil; the others can never be restarted (finding). The mesh is represented by its number of levels, the only quantity the code compares."
  },
  {
   "property": "C34",
   "status": "partial",
   "theorems": [
    "NATriuM.Checkpoint.C34_exact_partial",
    "NATriuM.Checkpoint.C34_class_fails",
    "NATriuM.Checkpoint.C34_scaling_fails"
   ],
   "note": "Exact characterisation of the stencils that come back; six classes and all non-integer scalings do not (finding)."
  },
  {
   "property": "C35",
   "status": "partial",
   "theorems": [
    "NATriuM.Checkpoint.C35_density_partial",
    "NATriuM.Checkpoint.C35_velocity_zero",
    "NATriuM.Checkpoint.C35_velocity_fails"
   ],
   "note": "Density proved; the velocity is zero after every restart (finding)."
  },
  {
   "property": "C36",
   "status": "proved",
   "theorems": [
    "NATriuM.Config.C36_roundtrip",
    "NATriuM.Config.C36_accepts"
   ],
   "note": ""
  },
  {
   "property": "C37",
   "status": "partial",
   "theorems": [
    "NATriuM.Config.C37_range_partial",
    "NATriuM.Config.C37_double_read_partial",
    "NATriuM.Config.C37_double_exact_partial",
    "NATriuM.Config.C37_int",
    "NATriuM.Config.C37_bool",
    "NATriuM.Config.C37_prandtl",
    "NATriuM.Config.C37_outputDirectory",
    "NATriuM.Config.C37_sutherland",
    "NATriuM.Config.C37_coordinates_partial",
    "NATriuM.Config.C37_digits_fails",
    "NATriuM.Config.C37_filter_fails",
    "NATriuM.Config.C37_embedded_fails",
    "NATriuM.Config.C37_coordinates_fails"
   ],
   "note": "Proved for every history of calls, with the values as they are written to the configuration (16 digits). Four deviations proved with witnesses (findings): a double just above the bound is accepted; the filter parameter Nc is truncated; setEmbeddedDealIntegratorParameters breaks the object; wall-normal coordinates keep six digits."
  },
  {
   "property": "C38",
   "status": "partial",
   "theorems": [
    "NATriuM.Config.C38_consistent_partial",
    "NATriuM.Config.C38_forcing_fails"
   ],
   "note": "Exact condition proved; combinations reported as unsupported in the log are accepted (finding, with witness)."
  },
  {
   "property": "C39",
   "status": "partial",
   "theorems": [
    "NATriuM.OutputDirectory.C39_files_remain_partial",
    "NATriuM.OutputDirectory.C39_consent",
    "NATriuM.OutputDirectory.C39_result",
    "NATriuM.OutputDirectory.C39_testFile_fails",
    "NATriuM.OutputDirectory.C39_permission_fails"
   ],
   "note": "Proved except for a file named testfile_process.0.txt, which is deleted without asking (finding, with witness)."
  },
  {
   "property": "C40",
   "status": "partial",
   "theorems": [
    "NATriuM.CommandLine.C40_applied_partial",
    "NATriuM.CommandLine.C40_accepted",
    "NATriuM.CommandLine.C40_rejected_partial",
    "NATriuM.CommandLine.C40_mrtRelax_fails",
    "NATriuM.CommandLine.C40_integratorId_fails",
    "NATriuM.CommandLine.C40_stencil_fails",
    "NATriuM.CommandLine.C40_standardLbm_fails",
    "NATriuM.CommandLine.C40_order_fails"
   ],
   "note": "Proved except for five findings, each with a witness: --mrt-relax accepts any text, --integrator-id outside 1..15 reads an uninitialised variable, three undocumented stencil names are accepted, --standard-lbm sets another CFL number than documented, --standard-lbm-with N together with --order-fe 2 is accepted."
  },
  {
   "property": "C41",
   "status": "proved",
   "theorems": [
    "NATriuM.CommandLine.C41_declare_after_import",
    "NATriuM.CommandLine.C41_read_before_import",
    "NATriuM.CommandLine.C41_read_declared",
    "NATriuM.CommandLine.C41_has_declared",
    "NATriuM.CommandLine.C41_read_value"
   ],
   "note": "For every sequence of calls; boost::program_options is assumed to store only declared options with their declared type."
  },
  {
   "property": "C42",
   "status": "proved",
   "theorems": [
    "NATriuM.Distributions.C42_slots",
    "NATriuM.Distributions.C42_range",
    "NATriuM.Distributions.C42_history",
    "NATriuM.Distributions.C42_copy",
    "NATriuM.Distributions.C42_ghosted",
    "NATriuM.Distributions.C42_reinit",
    "NATriuM.Distributions.C42_ofVector",
    "NATriuM.Distributions.C42_scaleF",
    "NATriuM.Distributions.C42_equals"
   ],
   "note": ""
  },
  {
   "property": "C43",
   "status": "partial",
   "theorems": [
    "NATriuM.C43_transfer_partial",
    "NATriuM.C43_roundtrip",
    "NATriuM.C43_unit_fails",
    "NATriuM.C43_unit_witness"
   ],
   "note": "Proved for stencils with a moment basis. For the other stencils the populations are kept and the momentum is not preserved: proved with a witness (finding)."
  },
  {
   "property": "C44",
   "status": "partial",
   "theorems": [
    "NATriuM.Periodic.C44_opposite_partial",
    "NATriuM.Periodic.C44_other",
    "NATriuM.Periodic.C44_coordinates_partial",
    "NATriuM.Periodic.C44_roundtrip_partial",
    "NATriuM.Periodic.C44_construction",
    "NATriuM.Periodic.C44_one_cell_fails",
    "NATriuM.Periodic.C44_levels_fails"
   ],
   "note": "Proved for meshes in which each cell touches the periodic boundary with one face at most. For a mesh one cell wide the answer is wrong, and cells of different refinement level are skipped silently (findings, with witnesses)."
  },
  {
   "property": "C45",
   "status": "partial",
   "theorems": [
    "NATriuM.Problem.C45_first_partial",
    "NATriuM.Problem.C45_unknown",
    "NATriuM.Problem.C45_accepted",
    "NATriuM.Problem.C45_periodic_partial",
    "NATriuM.Problem.C45_count",
    "NATriuM.Problem.C45_failing_call_fails",
    "NATriuM.Problem.C45_duplicate_fails"
   ],
   "note": "Proved for every sequence of registrations. A periodic registration that throws leaves one indicator behind, and a second wall for the same indicator is dropped silently (findings, with witnesses)."
  },
  {
   "property": "C46",
   "status": "partial",
   "theorems": [
    "NATriuM.Walls.C46_gain_partial",
    "NATriuM.Walls.C46_rest",
    "NATriuM.Walls.C46_cancel",
    "NATriuM.Walls.C46_moments",
    "NATriuM.Walls.C46_first_order",
    "NATriuM.Walls.C46_position_fails",
    "NATriuM.Walls.C46_dg_upwind",
    "NATriuM.Walls.C46_dg_mass",
    "NATriuM.Walls.C46_dg_central_fails"
   ],
   "note": "Proved for uniformly moving walls and, for the discontinuous Galerkin scheme, for the upwind flux. Two findings with witnesses: a space-dependent wall velocity is evaluated at unit-cell coordinates; the central flux has a wrong sign."
  },
  {
   "property": "C47",
   "status": "partial",
   "theorems": [
    "NATriuM.Problem.C47_kept_partial",
    "NATriuM.Problem.C47_function",
    "NATriuM.Problem.C47_put_partial",
    "NATriuM.Problem.C47_temperature_fails"
   ],
   "note": "Proved for pressure, velocity and velocity gradient. The temperature is replaced by the pressure and dropped when copied into a boundary (finding)."
  },
  {
   "property": "C48",
   "status": "partial",
   "theorems": [
    "NATriuM.Hits.C48_once_partial",
    "NATriuM.Hits.C48_cells",
    "NATriuM.Hits.C48_different_points_fails",
    "NATriuM.Hits.C48_same_point_fails"
   ],
   "note": "Every registered hit is handed out once, with the cell it was registered for. The grouping by points is wrong: different points share an entry and equal points do not (finding: inverted comparison, with witnesses)."
  },
  {
   "property": "C49",
   "status": "partial",
   "theorems": [
    "NATriuM.Walls.C49_wall_partial",
    "NATriuM.Walls.C49_other_stencils",
    "NATriuM.Walls.C49_isothermal_fails",
    "NATriuM.Walls.Sample.C49_temperature_fails"
   ],
   "note": "Density and velocity proved for exactly isotropic 45-velocity stencils; exact formula for the temperature, which is the wall temperature only if the translational temperature equals the temperature (finding, with witness). The decimal weights of the library stencil D3Q45 are isotropic only approximately, see C03."
  },
  {
   "property": "C50",
   "status": "proved",
   "theorems": [
    "NATriuM.Problem.C50_sets",
    "NATriuM.Problem.C50_ext"
   ],
   "note": ""
  },
  {
   "property": "C51",
   "status": "partial",
   "theorems": [
    "NATriuM.Problem.C51_partial",
    "NATriuM.Problem.C51_fails"
   ],
   "note": "Proved for indicators that fit into boundary_id; larger ones are cut off by the check (finding, with witness for every width)."
  },
  {
   "property": "C52",
   "status": "partial",
   "theorems": [
    "NATriuM.Paths.C52_first_face",
    "NATriuM.Paths.C52_rounding",
    "NATriuM.Paths.C52_real_segment",
    "NATriuM.Paths.C52_planes_partial",
    "NATriuM.Paths.C52_planes_fails"
   ],
   "note": "Proved in 2 and 3 dimensions for the search on the unit cell, with the elimination of round-off errors as part of the statement. The fallback without mapping can report a face the path does not leave through (finding, with witness)."
  },
  {
   "property": "C53",
   "status": "partial",
   "theorems": [
    "NATriuM.Paths.C53_ends_partial",
    "NATriuM.Paths.C53_once_partial",
    "NATriuM.Paths.C53_departure",
    "NATriuM.Paths.C53_time",
    "NATriuM.Paths.C53_refined_fails",
    "NATriuM.Paths.Sample.C53_doNothing_fails"
   ],
   "note": "Proved for paths through cells, periodic boundaries and bounce-back walls. Paths into refined neighbours and paths that reach a do-nothing boundary in another cell fail (findings, with witnesses)."
  },
  {
   "property": "C54",
   "status": "partial",
   "theorems": [
    "NATriuM.Paths.C54_rows",
    "NATriuM.Paths.C54_rest",
    "NATriuM.Paths.C54_uniform_partial",
    "NATriuM.Paths.C54_shift",
    "NATriuM.Paths.Sample.C54_uniform_fails"
   ],
   "note": "Uniform states are preserved exactly if no weight is below 1e-10, otherwise up to the weights left out (witness that they matter). At bounce-back walls the opposite direction is used."
  },
  {
   "property": "C55",
   "status": "partial",
   "theorems": [
    "NATriuM.Cells.C55_ends",
    "NATriuM.Cells.C55_once",
    "NATriuM.Cells.C55_complete_partial",
    "NATriuM.Cells.C55_sound",
    "NATriuM.Cells.C55_regular",
    "NATriuM.Cells.C55_search",
    "NATriuM.Cells.C55_exact_fails"
   ],
   "note": "The neighbourhood contains all cells at face distance up to n, but more: on regular meshes it is the box of cells whose position differs by at most n in each direction (finding, with witness; proved for all regular meshes)."
  },
  {
   "property": "C56",
   "status": "partial",
   "theorems": [
    "NATriuM.Sedg.C56_uniform_partial",
    "NATriuM.Sedg.C56_cell_partial",
    "NATriuM.Sedg.upwindFlux_opposite",
    "NATriuM.Sedg.C56_exchange",
    "NATriuM.Sedg.C56_conservation",
    "NATriuM.Sedg.C56_central_rate",
    "NATriuM.Sedg.Sample.C56_central_fails",
    "NATriuM.Sedg.C56_constructor_fails",
    "NATriuM.Sedg.C56_maps",
    "NATriuM.Sedg.C56_face_map"
   ],
   "note": "Proved for the upwind flux on meshes without hanging nodes. False for the central flux (wrong sign of one entry; finding, with witness); the short constructor selects the central flux for every nonzero time step (finding)."
  },
  {
   "property": "C57",
   "status": "partial",
   "theorems": [
    "NATriuM.Smoothing.C57_factor",
    "NATriuM.Smoothing.C57_modes_tensor",
    "NATriuM.Smoothing.C57_degree_partial",
    "NATriuM.Smoothing.C57_damps_partial",
    "NATriuM.Smoothing.C57_new_partial",
    "NATriuM.Smoothing.C57_modes",
    "NATriuM.Smoothing.C57_mean",
    "NATriuM.Smoothing.C57_mesh_partial",
    "NATriuM.Smoothing.C57_degree_fails",
    "NATriuM.Smoothing.C57_damps_fails",
    "NATriuM.Smoothing.C57_cutoff_zero_fails",
    "NATriuM.Smoothing.C57_new_order_zero_fails",
    "NATriuM.Smoothing.Sample.C57_continuous_fails"
   ],
   "note": "Proved in one and two dimensions, for discontinuous elements and cut-off at least 1. False in three dimensions (wrong index; modes in y are never damped), for cut-off 0, and for continuous elements, whose cells share degrees of freedom (findings, with witnesses)."
  },
  {
   "property": "C58",
   "status": "partial",
   "theorems": [
    "NATriuM.Smoothing.C58_fails",
    "NATriuM.Smoothing.C58_partial"
   ],
   "note": "The limiter is commented out and does nothing (finding). What is proved instead: nonnegative rows that add up to one need no limiter."
  },
  {
   "property": "C59",
   "status": "partial",
   "theorems": [
    "NATriuM.MathUtil.C59_partialOrder_partial",
    "NATriuM.MathUtil.C59_fails",
    "NATriuM.MathUtil.C59_separated_partial"
   ],
   "note": "False for every positive tolerance: proved with a witness (finding). Strict partial order, and strict weak order on separated keys: proved."
  },
  {
   "property": "C60",
   "status": "partial",
   "theorems": [
    "NATriuM.MathUtil.C60_isAngleSmall_partial",
    "NATriuM.MathUtil.C60_never_small",
    "NATriuM.MathUtil.C60_right_angle_small"
   ],
   "note": "False: degrees are converted with the reciprocal factor; two witnesses proved (finding). What the function does compute is proved."
  },
  {
   "property": "C61",
   "status": "proved",
   "theorems": [
    "NATriuM.SemiParallelMatrix.C61_vmult",
    "NATriuM.SemiParallelMatrix.C61_set",
    "NATriuM.SemiParallelMatrix.C61_setColumn",
    "NATriuM.SemiParallelMatrix.C61_reinit"
   ],
   "note": ""
  },
  {
   "property": "C62",
   "status": "partial",
   "theorems": [
    "NATriuM.Solver.C62_residual_partial",
    "NATriuM.Solver.C62_not_early",
    "NATriuM.Solver.C62_sentinel_fails",
    "NATriuM.Solver.C62_ten_iterations_fails"
   ],
   "note": "Proved for a distance of 100 iterations; the documented distance is 10 (finding, with witness). The initial residual is 1, so that a threshold above 1 stops at once (finding, with witness)."
  },
  {
   "property": "C63",
   "status": "partial",
   "theorems": [
    "NATriuM.Benchmarks.C63_taylorGreen_partial",
    "NATriuM.Benchmarks.C63_taylorGreen_divergence",
    "NATriuM.Benchmarks.C63_taylorGreen_periodic",
    "NATriuM.Benchmarks.C63_taylorGreen_fails",
    "NATriuM.Benchmarks.C63_taylorGreen3D",
    "NATriuM.Benchmarks.C63_shearLayer",
    "NATriuM.Benchmarks.C63_poiseuille_fails",
    "NATriuM.Benchmarks.C63_poiseuille_force",
    "NATriuM.Benchmarks.C63_couette_diffuses",
    "NATriuM.Benchmarks.C63_couette_walls",
    "NATriuM.Benchmarks.C63_couette_steady",
    "NATriuM.Benchmarks.C63_couette3D_fails"
   ],
   "note": "Proved for the 2D Taylor-Green vortex of the default size, the initial fields of the 3D vortex and the shear layer, and the 2D Couette flow. False for 2D Taylor-Green of other sizes, Poiseuille (the reference velocity is zero) and 3D Couette of length other than one (findings, with proofs). The sinusoidal shear problem ships no solution."
  },
  {
   "property": "C64",
   "status": "proved",
   "theorems": [
    "NATriuM.Walls.C64_grad"
   ],
   "note": "For symmetric P the momentum flux is P; otherwise its symmetric part."
  },
  {
   "property": "C65",
   "status": "partial",
   "theorems": [
    "NATriuM.Checkpoint.C65_monatomic_partial",
    "NATriuM.Checkpoint.C65_g_fails",
    "NATriuM.Checkpoint.C65_diatomic_fails",
    "NATriuM.Checkpoint.C65_temperature_fails"
   ],
   "note": "The checkpointed g is never read (finding): proved that g is restored for a monatomic gas only in form, and that the temperature is wrong wherever the fluid moves."
  },
  {
   "property": "C66",
   "status": "partial",
   "theorems": [
    "NATriuM.Legacy.C66_setTimeStep",
    "NATriuM.Legacy.C66_standardD2Q9",
    "NATriuM.Legacy.C66_shiftingD2Q9",
    "NATriuM.Legacy.C66_exact_guo_D2Q9_partial",
    "NATriuM.Legacy.C66_exactD2Q9_mass",
    "NATriuM.Legacy.C66_guoD2Q9_mass",
    "NATriuM.Legacy.C66_initD2Q9",
    "NATriuM.Legacy.C66_exactD2Q9_fails",
    "NATriuM.Legacy.C66_guoD2Q9_fails",
    "NATriuM.Legacy.C66_standardD3Q19",
    "NATriuM.Legacy.C66_lost_force_D3Q19",
    "NATriuM.Legacy.C66_lost_force_D3Q19_fails",
    "NATriuM.Legacy.C66_standardD3Q15",
    "NATriuM.Legacy.C66_transformedD2Q9",
    "NATriuM.Legacy.C66_transformed_fails",
    "NATriuM.Legacy.C66_steadyD2Q9",
    "NATriuM.Legacy.C66_incompressible_partial",
    "NATriuM.Legacy.C66_incompressible_fails",
    "NATriuM.Legacy.C66_regularizedD2Q9",
    "NATriuM.Legacy.C66_regularizedD3Q19_partial",
    "NATriuM.Legacy.C66_regularizedD3Q19_init_fails",
    "NATriuM.Legacy.C66_pseudopotential_partial",
    "NATriuM.Legacy.C66_collideAll",
    "NATriuM.Legacy.C66_total",
    "NATriuM.Legacy.C66_multistep",
    "NATriuM.Legacy.C66_multistep_shifting_fails",
    "NATriuM.Legacy.C66_multistepD3Q19_no_collision",
    "NATriuM.Legacy.C66_standard",
    "NATriuM.Legacy.C66_steady",
    "NATriuM.Legacy.C66_transformed",
    "NATriuM.Legacy.C66_mrtStandard",
    "NATriuM.Legacy.C66_mrtEntropicD2Q9",
    "NATriuM.Legacy.C66_mrtEntropic_density_fails",
    "NATriuM.Legacy.C66_mrtEntropicD3Q19_partial",
    "NATriuM.Legacy.C66_mrtEntropicD3Q19_fails",
    "NATriuM.Legacy.C66_kbcCentral",
    "NATriuM.Legacy.C66_kbcD3Q15_partial",
    "NATriuM.Legacy.C66_kbcD3Q15_fails",
    "NATriuM.Legacy.C66_kbcD2Q9",
    "NATriuM.Legacy.C66_entropicStabilized"
   ],
   "note": "Mass and momentum conservation and the momentum dt*F proved, per class and stencil, for the cases in which the code has them; the others are refuted with witnesses: forcing schemes of the D2Q9 BGK away from scaling 1, lost forces on D3Q19, the transformed model, the incompressible model away from density 1, the first collision of the regularized model on D3Q19, the multistep models, the entropic MRT on D3Q19, KBC on D3Q15 away from scaling 1."
  },
  {
   "property": "C67",
   "status": "proved",
   "theorems": [
    "NATriuM.Problem.C67_iff",
    "NATriuM.Problem.C67_calls"
   ],
   "note": ""
  },
  {
   "property": "C68",
   "status": "partial",
   "theorems": [
    "NATriuM.Solver.C68_iterations_partial",
    "NATriuM.Solver.C68_limit_fails",
    "NATriuM.Solver.C68_compressible"
   ],
   "note": "Isothermal solver: proved that the loop ends and conserves clock and counter, with one pass more than the limit (finding, with witness). Compressible solver: exact."
  },
  {
   "property": "C69",
   "status": "partial",
   "theorems": [
    "NATriuM.C69_heat_flux_partial",
    "NATriuM.C69_g_flux",
    "NATriuM.C69_g_flux_wrong"
   ],
   "note": "Holds for f; for g proved false unless T = cs2 (finding)."
  },
  {
   "property": "C70",
   "status": "partial",
   "theorems": [
    "NATriuM.C70_exactDifference_partial",
    "NATriuM.C70_shifting"
   ],
   "note": "Exact difference: proved. Shifted velocity: proved to inject tau/tau_node*dt*F instead (finding)."
  },
  {
   "property": "C71",
   "status": "proved",
   "theorems": [
    "NATriuM.TimeIntegration.C71_rungeKutta",
    "NATriuM.TimeIntegration.C71_theta",
    "NATriuM.TimeIntegration.C71_exponential"
   ],
   "note": ""
  },
  {
   "property": "C72",
   "status": "proved",
   "theorems": [
    "NATriuM.MathUtil.C72_maxVelocityNorm",
    "NATriuM.MathUtil.C72_velocity2Norm",
    "NATriuM.MathUtil.C72_max_distribution",
    "NATriuM.MathUtil.C72_2Norm_distribution",
    "NATriuM.MathUtil.C72_defined"
   ],
   "note": "The MPI reduction is modelled as max / sum over the list of processes."
  },
  {
   "property": "C73",
   "status": "partial",
   "theorems": [
    "NATriuM.Config.C73_read_partial",
    "NATriuM.Config.C73_constructor_fails"
   ],
   "note": "Default constructor plus readFromXMLFile: proved. The constructor from a file always throws (finding)."
  },
  {
   "property": "C74",
   "status": "partial",
   "theorems": [
    "NATriuM.Walls.C74_moments",
    "NATriuM.Walls.C74_stored",
    "NATriuM.Walls.C74_temperature_partial",
    "NATriuM.Walls.C74_temperature_fails"
   ],
   "note": "Density, velocity, stress proved. The temperature of the node is the prescribed one only if it is 1 or the gas is monatomic in the dimension used (finding)."
  },
  {
   "property": "C75",
   "status": "proved",
   "theorems": [
    "NATriuM.Paths.C75_pattern"
   ],
   "note": ""
  },
  {
   "property": "C76",
   "status": "proved",
   "theorems": [
    "NATriuM.Sedg.C76_energy"
   ],
   "note": "Upwind flux."
  },
  {
   "property": "C77",
   "status": "partial",
   "theorems": [
    "NATriuM.Stats.C77_mass",
    "NATriuM.Stats.C77_mass_uniform",
    "NATriuM.Stats.C77_energy_partial",
    "NATriuM.Stats.C77_energy_collocated",
    "NATriuM.Stats.C77_energy_fails",
    "NATriuM.Stats.C77_energy_nonneg",
    "NATriuM.Stats.C77_pressure"
   ],
   "note": "Mass exact for every mesh. Energy: integral of the interpolant of rho|u|^2, which is the energy of the discrete fields when quadrature and support points agree (the standard setting), and not otherwise (_fails)."
  },
  {
   "property": "C78",
   "status": "partial",
   "theorems": [
    "NATriuM.Stats.C78_plane",
    "NATriuM.Stats.C78_space_partial",
    "NATriuM.Stats.C78_space_right",
    "NATriuM.Stats.C78_space_fails",
    "NATriuM.Stats.C78_space_bound"
   ],
   "note": "Two dimensions exact. In three dimensions the squared Frobenius norm of the velocity gradient is integrated (finding): C78_space_fails; partial: difference and lower bound."
  },
  {
   "property": "C79",
   "status": "partial",
   "theorems": [
    "NATriuM.Stats.C79_mean_uniform",
    "NATriuM.Stats.C79_mean_partial",
    "NATriuM.Stats.C79_mean_fails",
    "NATriuM.Stats.C79_entropy_partial",
    "NATriuM.Stats.C79_entropy_fails"
   ],
   "note": "Exact for uniform fields; meanVelocityX ignores the shape functions (wrong from order two on), entropy counts every cell once per degree of freedom."
  },
  {
   "property": "C80",
   "status": "partial",
   "theorems": [
    "NATriuM.Stats.C80_names2",
    "NATriuM.Stats.C80_names3",
    "NATriuM.Stats.C80_averages",
    "NATriuM.Stats.C80_correlations",
    "NATriuM.Stats.C80_moments",
    "NATriuM.Stats.C80_averages_fails",
    "NATriuM.Stats.C80_energies2",
    "NATriuM.Stats.C80_energies3",
    "NATriuM.Stats.C80_variance",
    "NATriuM.Stats.C80_cauchy_schwarz",
    "NATriuM.Stats.C80_legend_partial",
    "NATriuM.Stats.C80_legend_complete",
    "NATriuM.Stats.C80_legend_fails",
    "NATriuM.Stats.C80_compressible_legend_fails",
    "NATriuM.Stats.C80_dilatation",
    "NATriuM.Stats.C80_solenoidal3",
    "NATriuM.Stats.C80_solenoidal2",
    "NATriuM.Stats.C80_maxMach",
    "NATriuM.Stats.C80_totalEnergy_partial",
    "NATriuM.Stats.C80_totalEnergy_fails"
   ],
   "note": "All entries are the named integrals; averages are not divided by the volume, the legend has the wrong column for the time and for all compressible columns, and the total energy is the integral of the temperature (_fails)."
  },
  {
   "property": "C81",
   "status": "partial",
   "theorems": [
    "NATriuM.Tables.C81_average_partial",
    "NATriuM.Tables.C81_rms_partial",
    "NATriuM.Tables.C81_rms_square",
    "NATriuM.Tables.C81_rms_zero",
    "NATriuM.Tables.C81_average_bounds",
    "NATriuM.Tables.C81_one_layer",
    "NATriuM.Tables.C81_reynolds",
    "NATriuM.Tables.C81_empty_fails"
   ],
   "note": "Proved for planes with nodes and for all histories of added fields. A plane without nodes yields 0/0 (_fails)."
  },
  {
   "property": "C82",
   "status": "partial",
   "theorems": [
    "NATriuM.Tables.C82_density",
    "NATriuM.Tables.C82_velocity",
    "NATriuM.Tables.C82_density_zero",
    "NATriuM.Tables.C82_velocity_zero",
    "NATriuM.Tables.C82_density_bound",
    "NATriuM.Tables.C82_max_density",
    "NATriuM.Tables.C82_max_velocity",
    "NATriuM.Tables.C82_output",
    "NATriuM.Tables.C82_update",
    "NATriuM.Tables.C82_documented_fails"
   ],
   "note": "Norms by quadrature, as deal.II evaluates them. The formula in the documentation is another one (_fails). The compressible benchmark solver never fills its error table (finding)."
  },
  {
   "property": "C83",
   "status": "partial",
   "theorems": [
    "NATriuM.Tables.C83_lines_partial",
    "NATriuM.Tables.C83_second_run_fails",
    "NATriuM.Tables.C83_marker_fails",
    "NATriuM.Tables.C83_file",
    "NATriuM.Tables.C83_header",
    "NATriuM.Tables.C83_continued_partial",
    "NATriuM.Tables.C83_interrupted_fails"
   ],
   "note": "Current data proved for call sequences in which equal iterations have equal data; repeated iteration numbers print old data (_fails). Restarts: one header, one line per multiple except that the iteration of the interruption occurs twice (_fails)."
  },
  {
   "property": "C84",
   "status": "partial",
   "theorems": [
    "NATriuM.BoundaryValues.C84_values",
    "NATriuM.BoundaryValues.C84_accepted",
    "NATriuM.BoundaryValues.C84_velocity_partial",
    "NATriuM.BoundaryValues.C84_velocity_fails"
   ],
   "note": "All variables are the interpolated ones and the right-hand sides; accepted requests characterised. The velocity is the quotient of momentum and density only where the density is constant on the cell; otherwise an assertion fails (_fails)."
  },
  {
   "property": "C85",
   "status": "partial",
   "theorems": [
    "NATriuM.BoundaryValues.C85_kept_partial",
    "NATriuM.BoundaryValues.C85_constants",
    "NATriuM.BoundaryValues.C85_velocity_function",
    "NATriuM.BoundaryValues.C85_temperature_fails",
    "NATriuM.BoundaryValues.C85_add_fails"
   ],
   "note": "Pressure, velocity and gradient are kept. A prescribed temperature is replaced by the pressure and then lost; the sum of two sets has no values (_fails)."
  },
  {
   "property": "C86",
   "status": "partial",
   "theorems": [
    "NATriuM.BoundaryValues.C86_succeeds",
    "NATriuM.BoundaryValues.C86_supported",
    "NATriuM.BoundaryValues.C86_values_partial",
    "NATriuM.BoundaryValues.C86_order_partial",
    "NATriuM.BoundaryValues.C86_order_fails"
   ],
   "note": "Proved for all walls but the thermal one, if no first-order bounce back reads a population that another hit writes. In corners it does, and the result depends on the order (_fails)."
  },
  {
   "property": "C87",
   "status": "partial",
   "theorems": [
    "NATriuM.MeshTransform.C87_wave_domain",
    "NATriuM.MeshTransform.C87_shock_domain_partial",
    "NATriuM.MeshTransform.C87_shock_domain_fails",
    "NATriuM.MeshTransform.C87_channel_domain_partial",
    "NATriuM.MeshTransform.C87_channel_domain_fails",
    "NATriuM.MeshTransform.C87_channel_driver_fails",
    "NATriuM.MeshTransform.C87_couette2D_domain_partial",
    "NATriuM.MeshTransform.C87_couette2D_domain_fails",
    "NATriuM.MeshTransform.C87_couette3D_domain_partial",
    "NATriuM.MeshTransform.C87_couette3D_domain_fails",
    "NATriuM.MeshTransform.C87_lubrication_domain_partial",
    "NATriuM.MeshTransform.C87_lubrication_domain_fails",
    "NATriuM.MeshTransform.C87_sinusoidal_domain_partial",
    "NATriuM.MeshTransform.C87_sinusoidal_domain_fails",
    "NATriuM.MeshTransform.C87_cavity_domain",
    "NATriuM.MeshTransform.C87_cavity_domain_fails"
   ],
   "note": "Proved for all accepted parameters of the shear layer, Riemann problem and shock tube, for the cavity as used, and for the others under conditions the constructors do not check; witnesses of failure (_fails) for the rest, among them the 3D Couette flow whose refined mesh is flat."
  },
  {
   "property": "C88",
   "status": "partial",
   "theorems": [
    "NATriuM.MeshTransform.C88_cells_partial",
    "NATriuM.MeshTransform.C88_channel",
    "NATriuM.MeshTransform.C88_couette3D_fails",
    "NATriuM.MeshTransform.C88_lubrication_not_cartesian"
   ],
   "note": "Proved for all problems with a transformation that call themselves Cartesian, except the 3D Couette flow, where it is false (_fails)."
  },
  {
   "property": "C89",
   "status": "partial",
   "theorems": [
    "NATriuM.InitialStates.C89_riemann",
    "NATriuM.InitialStates.C89_sod",
    "NATriuM.InitialStates.C89_shockVortex_partial",
    "NATriuM.InitialStates.C89_shockVortex_fails",
    "NATriuM.InitialStates.C89_droplet_partial",
    "NATriuM.InitialStates.C89_droplet_fails",
    "NATriuM.InitialStates.C89_smooth",
    "NATriuM.InitialStates.C89_step_fails"
   ],
   "note": "Proved for the Riemann problem, the shock tube and the density wave; for the vortex below a Mach number and outside its centre; for the droplet with positive width. False for the backward facing step (density zero), fast vortices, the centre of the vortex and a droplet of width zero (_fails)."
  },
  {
   "property": "C90",
   "status": "partial",
   "theorems": [
    "NATriuM.InitialStates.C90_smooth",
    "NATriuM.InitialStates.C90_droplet",
    "NATriuM.InitialStates.C90_shockVortex_fails",
    "NATriuM.InitialStates.C90_turbulence_partial",
    "NATriuM.InitialStates.C90_turbulence_fails",
    "NATriuM.InitialStates.C90_step_inflow",
    "NATriuM.InitialStates.C90_lubrication_partial",
    "NATriuM.InitialStates.C90_lubrication_fails",
    "NATriuM.InitialStates.C90_mixing_partial"
   ],
   "note": "Proved for the density wave, the droplet and the inflow of the step. False for shock and vortex, decaying turbulence and the upper wall of the lubrication gap (_fails); the mixing layer is off by less than a tenth."
  },
  {
   "property": "C91",
   "status": "partial",
   "theorems": [
    "NATriuM.InitialStates.C91_riemann",
    "NATriuM.InitialStates.C91_sod",
    "NATriuM.InitialStates.C91_shock",
    "NATriuM.InitialStates.C91_vortex",
    "NATriuM.InitialStates.C91_turbulence",
    "NATriuM.InitialStates.C91_smooth_partial",
    "NATriuM.InitialStates.C91_smooth_fails",
    "NATriuM.InitialStates.C91_smooth_end_fails",
    "NATriuM.InitialStates.C91_step_inflow"
   ],
   "note": "Proved for all; the density wave is a solution only on the unit square (_fails for every other size, among them the default)."
  },
  {
   "property": "C92",
   "status": "proved",
   "theorems": [
    "NATriuM.AdvectionBenchmark.C92_solution",
    "NATriuM.AdvectionBenchmark.C92_transport",
    "NATriuM.AdvectionBenchmark.C92_dofs"
   ],
   "note": "For both profiles."
  },
  {
   "property": "C93",
   "status": "partial",
   "theorems": [
    "NATriuM.AdvectionBenchmark.C93_integrators",
    "NATriuM.AdvectionBenchmark.C93_plain",
    "NATriuM.AdvectionBenchmark.C93_plain_ends",
    "NATriuM.AdvectionBenchmark.C93_output_semiLagrangian",
    "NATriuM.AdvectionBenchmark.C93_output_partial",
    "NATriuM.AdvectionBenchmark.C93_output_fails",
    "NATriuM.AdvectionBenchmark.C93_errors"
   ],
   "note": "Proved without output and for the semi-Lagrangian operator; with output and a time integrator the time doubles in each step (_fails)."
  },
  {
   "property": "C94",
   "status": "partial",
   "theorems": [
    "NATriuM.IntegratorSelection.C94_build_partial",
    "NATriuM.IntegratorSelection.C94_build_fails",
    "NATriuM.IntegratorSelection.C94_step_fails",
    "NATriuM.IntegratorSelection.C94_benchmark"
   ],
   "note": "The right integrator is made for all combinations but OTHER with NONE, which leads to a null pointer because the consistency check is never called (_fails). The step of the schemes of deal.II is commented out (_fails)."
  },
  {
   "property": "C95",
   "status": "partial",
   "theorems": [
    "NATriuM.IntegratorSelection.C95_system",
    "NATriuM.IntegratorSelection.C95_solve_partial",
    "NATriuM.IntegratorSelection.C95_solve_fails"
   ],
   "note": "For all linear solvers but RELAXATION, given that the solvers of deal.II keep their tolerance; RELAXATION returns the right-hand side (_fails)."
  },
  {
   "property": "C96",
   "status": "partial",
   "theorems": [
    "NATriuM.BoundaryLines.C96_accepted_partial",
    "NATriuM.BoundaryLines.C96_orientation",
    "NATriuM.BoundaryLines.C96_rejected",
    "NATriuM.BoundaryLines.C96_stable",
    "NATriuM.BoundaryLines.C96_symmetric_fails"
   ],
   "note": "Complete but for the symmetry: lengths are compared relative to the first line (_fails)."
  },
  {
   "property": "C97",
   "status": "partial",
   "theorems": [
    "NATriuM.BoundaryLines.C97_ends_partial",
    "NATriuM.BoundaryLines.C97_defined",
    "NATriuM.BoundaryLines.C97_found_partial",
    "NATriuM.BoundaryLines.C97_true",
    "NATriuM.BoundaryLines.C97_direction_fails",
    "NATriuM.BoundaryLines.C97_straight_fails"
   ],
   "note": "For vertices whose keys 1000x+y are equal or more than 1e-6 apart, and lines along which the key grows. A boundary in the direction (1,-1000) leads to undefined behaviour, a boundary with a kink below eight degrees is accepted (_fails)."
  },
  {
   "property": "C98",
   "status": "proved",
   "theorems": [
    "NATriuM.BoundaryLines.C98_coupled",
    "NATriuM.BoundaryLines.C98_symmetric"
   ],
   "note": "Without hanging-node constraints, as in the code."
  },
  {
   "property": "C99",
   "status": "partial",
   "theorems": [
    "NATriuM.Sparsity.C99_covered_partial",
    "NATriuM.Sparsity.C99_exact_partial",
    "NATriuM.Sparsity.C99_colorized",
    "NATriuM.Sparsity.C99_monotone",
    "NATriuM.Sparsity.C99_whole_faces_partial",
    "NATriuM.Sparsity.C99_hanging_fails",
    "NATriuM.Sparsity.C99_range_fails",
    "NATriuM.Sparsity.Sample.C99_indicators_fails",
    "NATriuM.Sparsity.Sample.C99_order_fails"
   ],
   "note": "For meshes without hanging nodes, boundary indicators that are face numbers (or fit them), and faces whose nodes come in the same order. Each of the three conditions is needed (_fails)."
  }
 ]
}