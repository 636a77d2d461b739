import Verif.Props.Stencils
import Verif.Props.Equilibria
import Verif.Props.Collision
import Verif.Props.CollisionMRT
import Verif.Props.Compressible
import Verif.Props.Stabilizer
import Verif.Props.TimeIntegration
import Verif.Props.Distributions
import Verif.Props.Utilities
import Verif.Props.SolverLoop
import Verif.Props.Checkpoint
import Verif.Props.Config
import Verif.Props.OutputDirectory
import Verif.Props.CommandLine
import Verif.Props.Problem
import Verif.Props.Periodic
import Verif.Props.BoundaryHit
import Verif.Props.WallDensity
import Verif.Props.Walls
import Verif.Props.ThermalWall
import Verif.Props.FaceCrossing
import Verif.Props.Neighborhood
import Verif.Props.PathTracking
import Verif.Props.Sedg
import Verif.Props.Smoothing
import Verif.Props.Benchmarks
import Verif.Model.LegacyBGK
import Verif.Model.LegacyMRT
import Verif.Spec.Legacy
import Verif.Lemmas.Legacy
import Verif.Props.LegacyBGK
import Verif.Props.LegacyMRT
import Verif.Model.Statistics
import Verif.Spec.Statistics
import Verif.Lemmas.Statistics
import Verif.Props.Statistics
import Verif.Model.Tables
import Verif.Spec.Tables
import Verif.Lemmas.Tables
import Verif.Props.Tables
import Verif.Model.BoundaryValues
import Verif.Spec.BoundaryValues
import Verif.Lemmas.BoundaryValues
import Verif.Props.BoundaryValues
import Verif.Model.MeshTransform
import Verif.Spec.MeshTransform
import Verif.Lemmas.MeshTransform
import Verif.Props.MeshTransform
import Verif.Model.InitialStates
import Verif.Spec.InitialStates
import Verif.Lemmas.InitialStates
import Verif.Props.InitialStates
import Verif.Model.AdvectionBenchmark
import Verif.Spec.AdvectionBenchmark
import Verif.Lemmas.AdvectionBenchmark
import Verif.Props.AdvectionBenchmark
import Verif.Model.IntegratorSelection
import Verif.Spec.IntegratorSelection
import Verif.Lemmas.IntegratorSelection
import Verif.Props.IntegratorSelection
import Verif.Model.BoundaryLines
import Verif.Spec.BoundaryLines
import Verif.Lemmas.BoundaryLines
import Verif.Props.BoundaryLines
import Verif.Model.Sparsity
import Verif.Spec.Sparsity
import Verif.Lemmas.Sparsity
import Verif.Props.Sparsity
import Verif.Spec.LegacyStress
import Verif.Lemmas.LegacyStress
import Verif.Props.LegacyStress
import Verif.Model.FlowMeshes
import Verif.Spec.FlowMeshes
import Verif.Lemmas.FlowMeshes
import Verif.Props.FlowMeshes
import Verif.Model.Initialisation
import Verif.Spec.Initialisation
import Verif.Lemmas.Initialisation
import Verif.Props.Initialisation
import Verif.Model.SedgSolver
import Verif.Spec.SedgSolver
import Verif.Lemmas.SedgSolver
import Verif.Props.SedgSolver
import Verif.Model.Reassembly
import Verif.Spec.Reassembly
import Verif.Lemmas.Reassembly
import Verif.Props.Reassembly
import Verif.Model.SlSolver
import Verif.Spec.SlSolver
import Verif.Lemmas.SlSolver
import Verif.Props.SlSolver
import Verif.Model.Elements
import Verif.Spec.Elements
import Verif.Lemmas.Elements
import Verif.Props.Elements
import Verif.Model.CompressibleSolver
import Verif.Spec.CompressibleSolver
import Verif.Lemmas.CompressibleSolver
import Verif.Props.CompressibleSolver
import Verif.Model.ThermalStep
import Verif.Props.ThermalStep
import Verif.Model.SyntheticTurbulence
import Verif.Spec.SyntheticTurbulence
import Verif.Lemmas.SyntheticTurbulence
import Verif.Props.SyntheticTurbulence
import Verif.Model.ChannelStatistics
import Verif.Props.ChannelStatistics
import Verif.Spec.Accuracy
import Verif.Lemmas.Accuracy
import Verif.Props.Accuracy
import Verif.Spec.SedgAccuracy
import Verif.Props.SedgAccuracy
import Verif.Spec.Similarity
import Verif.Lemmas.Similarity
import Verif.Lemmas.SimilarityLoop
import Verif.Lemmas.SimilarityCollision
import Verif.Lemmas.SimilaritySweep
import Verif.Lemmas.SimilaritySolver
import Verif.Lemmas.SimilarityAdvection
import Verif.Lemmas.SimilarityMrt
import Verif.Props.Similarity
import Verif.Spec.Renumbering
import Verif.Lemmas.Renumbering
import Verif.Props.Renumbering
import Verif.Spec.Convergence
import Verif.Lemmas.Convergence
import Verif.Props.Convergence
import Verif.Model.EntropicEquilibrium
import Verif.Lemmas.EntropicEquilibrium
import Verif.Props.EntropicEquilibrium
import Verif.Spec.Locality
import Verif.Lemmas.Locality
import Verif.Props.Locality
import Verif.Spec.Stability
import Verif.Lemmas.Stability
import Verif.Props.Stability
import Verif.Spec.Relaxation
import Verif.Lemmas.Relaxation
import Verif.Props.Relaxation
import Verif.Model.OldCheckpoint
import Verif.Spec.OldCheckpoint
import Verif.Lemmas.OldCheckpoint
import Verif.Props.OldCheckpoint
import Verif.Spec.SlSimilarity
import Verif.Lemmas.SlSimilarity
import Verif.Lemmas.SlSimilaritySolver
import Verif.Props.SlSimilarity
import Verif.Spec.SlLocality
import Verif.Lemmas.SlLocality
import Verif.Props.SlLocality
import Verif.Spec.SlMaximum
import Verif.Lemmas.SlMaximum
import Verif.Props.SlMaximum
import Verif.Spec.ErrorGrowth
import Verif.Lemmas.ErrorGrowth
import Verif.Props.ErrorGrowth
import Verif.Spec.ImplicitConvergence
import Verif.Lemmas.ImplicitConvergence
import Verif.Props.ImplicitConvergence
import Verif.Spec.ExplicitStability
import Verif.Lemmas.ExplicitStability
import Verif.Props.ExplicitStability
import Verif.Lemmas.MassTolerance
import Verif.Props.MassTolerance
import Verif.Spec.Rounding
import Verif.Lemmas.Rounding
import Verif.Props.Rounding
import Verif.Lemmas.RenumberingCompletes
import Verif.Props.RenumberingCompletes
