import Verif.Model.StencilType

/-!
# Model of the time step computation (`P/utilities/CFDSolverUtilities.cpp`)
-/

namespace NATriuM

/-- An active cell as seen by one MPI process: is it locally owned, and its `minimum_vertex_distance()`. -/
structure MeshCell where
  owned : Bool
  minDist : ℝ

/-- The loop over the active cells of one process, `P/utilities/CFDSolverUtilities.cpp:71-81`. -/
noncomputable def localMinDistance (cells : List MeshCell) : ℝ :=
  cells.foldl (fun m cell => if cell.owned then (if cell.minDist < m then cell.minDist else m) else m) 100000000000

/-- `getMinimumVertexDistance`, `P/utilities/CFDSolverUtilities.cpp:68-85`: `p0 :: ps` are the cells seen by the MPI processes;
`min_max_avg(..).min` is the minimum over the processes. -/
noncomputable def getMinimumVertexDistance (p0 : List MeshCell) (ps : List (List MeshCell)) : ℝ :=
  ps.foldl (fun m cells => min m (localMinDistance cells)) (localMinDistance p0)

/-- `calculateTimestep`, `P/utilities/CFDSolverUtilities.cpp:91-100` with `u = getMaxParticleVelocityMagnitude()`. -/
noncomputable def calculateTimestep (p0 : List MeshCell) (ps : List (List MeshCell)) (orderOfFiniteElement : ℕ) (u cFL : ℝ) : ℝ :=
  cFL * getMinimumVertexDistance p0 ps / (u * orderOfFiniteElement * orderOfFiniteElement)

end NATriuM
