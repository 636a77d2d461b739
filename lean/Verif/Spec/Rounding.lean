import Verif.Spec.SlSolver

/-!
# Specification: boundary conditions that do not amplify errors
-/

namespace NATriuM
namespace SlSolver

/-- Populations of two states differ by at most `B`. -/
def Close {Q : ℕ} {ι : Type*} (B : ℝ) (f g : Walls.Store ℝ Q ι) : Prop := ∀ i y, |f i y - g i y| ≤ B

/-- A boundary condition, as a map of the old and the new populations, does not amplify differences. -/
def KeepsClose {Q : ℕ} {ι : Type*} (hit : Walls.Store ℝ Q ι → Walls.Store ℝ Q ι → Walls.Store ℝ Q ι) : Prop :=
  ∀ B old old' new new', Close B old old' → Close B new new' → Close B (hit old new) (hit old' new')

/-- No boundary condition of the simulation amplifies differences. -/
def WallsKeepClose {t : StencilType} {K : Type*} [Field K] {m n N : ℕ} {C : Type*} (s : Setup t K m n N C) : Prop :=
  ∀ hit ∈ s.assembly.hits, ∀ time, KeepsClose (s.applyHit time hit)

end SlSolver
end NATriuM
