import Verif.Spec.ErrorGrowth
import Mathlib.Analysis.Calculus.Deriv.Basic
import Mathlib.Analysis.Calculus.Deriv.Pi

/-!
# Specification: exact streaming
-/

namespace NATriuM
namespace SedgSolver

variable {t : StencilType} {n nQ nf nq : ℕ} {C : Type*} [DecidableEq C] [Fintype C]

/-- `y` is streamed exactly in time: it solves the differential equation that the discretisation in space leaves. -/
def Streams (s : Setup t n nQ nf nq C) (y : ℝ → Block t n C) : Prop := ∀ τ, HasDerivAt y (systemMatrix s (y τ) + systemVector s) τ

/-- The time after `k` steps -/
def time (dt : ℕ → ℝ) (k : ℕ) : ℝ := ∑ j ∈ Finset.range k, dt j

end SedgSolver
end NATriuM
