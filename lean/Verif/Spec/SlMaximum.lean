import Verif.Spec.SlSolver

/-!
# Specification: finite elements without overshoots
-/

namespace NATriuM
namespace SlSolver

/-- The shape functions are not negative in their cells, as for linear elements. -/
def NonnegativeShapes {K : Type*} [Field K] [LinearOrder K] {m : ℕ} {C : Type*} (mesh : Paths.Mesh K m C) : Prop :=
  ∀ h k, Paths.InCell h → 0 ≤ mesh.shape k h

end SlSolver
end NATriuM
