import Mathlib.Geometry.Euclidean.Angle.Unoriented.Basic
import Mathlib.Analysis.InnerProductSpace.PiL2
import Mathlib.Analysis.SpecialFunctions.Trigonometric.Inverse

/-!
# Utilities

Models of `P/utilities/Math.h`, `P/utilities/Math.cpp`, `P/utilities/SemiParallelMatrix.{h,cpp}` (`P` = `src/library/natrium`).
-/

namespace NATriuM

namespace MathUtil

/-- `Math::PI`, `P/utilities/Math.h:24` -/
noncomputable def PI : ℝ := 3.141592653589793238462

/-- `Math::is_angle_small`, `P/utilities/Math.h:61-69`. If one of the vectors is zero, the quotient is `0/0 = NaN` and the comparison is
false. -/
noncomputable def isAngleSmall (v w : EuclideanSpace ℝ (Fin 2)) (thresholdDegrees : ℝ) : Bool :=
  if ‖v‖ * ‖w‖ = 0 then false
  else if thresholdDegrees = 0 then decide (inner ℝ v w / (‖v‖ * ‖w‖) > 0.99)
  else decide (inner ℝ v w / (‖v‖ * ‖w‖) > Real.cos (thresholdDegrees / PI * 180))

/-- `own_double_less::operator()`, `P/utilities/Math.h:132-143` -/
noncomputable def ownDoubleLess (epsilon left right : ℝ) : Bool := decide (|left - right| > epsilon) && decide (left < right)

/-- `norm_square` of a node, `P/utilities/Math.h:95-98` and `P/utilities/Math.cpp:64-67` -/
def normSquare {ι : Type*} (velocity : List (ι → ℝ)) (i : ι) : ℝ := velocity.foldl (fun s v => s + v i * v i) 0

/-- The loop of `maxVelocityNorm` on one process, `P/utilities/Math.h:89-102` -/
noncomputable def localMaxNormSquare {ι : Type*} (velocity : List (ι → ℝ)) (owned : List ι) : ℝ :=
  owned.foldl (fun m i => if normSquare velocity i > m then normSquare velocity i else m) 0

/-- `Math::maxVelocityNorm`, `P/utilities/Math.h:77-106`: `processes` lists the locally owned dofs of all processes, the reduction
`min_max_avg(·).max` takes the largest of their results. `none`: failing assertions on the dimension. -/
noncomputable def maxVelocityNorm {ι : Type*} (velocity : List (ι → ℝ)) (processes : List (List ι)) : Option ℝ :=
  if 1 < velocity.length ∧ velocity.length < 4 then
    ((processes.map (localMaxNormSquare velocity)).max?).map Real.sqrt
  else none

/-- `Math::velocity2Norm<distributed_vector>`, `P/utilities/Math.cpp:46-74` -/
noncomputable def velocity2Norm {ι : Type*} (velocity : List (ι → ℝ)) (processes : List (List ι)) : Option ℝ :=
  if 1 < velocity.length ∧ velocity.length < 4 then
    some (Real.sqrt ((processes.map fun owned => owned.foldl (fun s i => s + normSquare velocity i) 0).sum))
  else none

end MathUtil

/-- `SemiParallelMatrix`, `P/utilities/SemiParallelMatrix.h`: the list `m_M` of columns -/
structure SemiParallelMatrix (ι : Type*) where
  M : List (ι → ℝ)

namespace SemiParallelMatrix

variable {ι : Type*} [DecidableEq ι]

/-- `reinit`, `P/utilities/SemiParallelMatrix.cpp:52-61` -/
def reinit (n : ℕ) : SemiParallelMatrix ι := ⟨List.replicate n 0⟩

/-- `operator()`, `P/utilities/SemiParallelMatrix.cpp:68-71`; `vector::at` throws for an invalid column. -/
def get (A : SemiParallelMatrix ι) (i : ι) (j : ℕ) : Option ℝ := A.M[j]?.map fun c => c i

/-- `set`, `P/utilities/SemiParallelMatrix.cpp:63-66`; `none`: `vector::at` throws -/
def set (A : SemiParallelMatrix ι) (i : ι) (j : ℕ) (v : ℝ) : Option (SemiParallelMatrix ι) :=
  A.M[j]?.map fun c => ⟨A.M.set j (Function.update c i v)⟩

/-- `setColumn`, `P/utilities/SemiParallelMatrix.cpp:96-100`; `none`: failing assertion -/
def setColumn (A : SemiParallelMatrix ι) (j : ℕ) (c : ι → ℝ) : Option (SemiParallelMatrix ι) :=
  if j < A.M.length then some ⟨A.M.set j c⟩ else none

/-- `getColumn`, `P/utilities/SemiParallelMatrix.cpp:85-89`; `none`: failing assertion -/
def getColumn (A : SemiParallelMatrix ι) (j : ℕ) : Option (ι → ℝ) := A.M[j]?

/-- `vmult`, `P/utilities/SemiParallelMatrix.cpp:73-83`; `none`: failing assertion -/
def vmult (A : SemiParallelMatrix ι) (src : List ℝ) : Option (ι → ℝ) :=
  if src.length = A.M.length then some ((A.M.zip src).foldl (fun dst p => dst + p.2 • p.1) 0) else none

end SemiParallelMatrix

end NATriuM
