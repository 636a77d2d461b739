import Verif.Model.TimeIntegration
import Mathlib.Analysis.Calculus.Deriv.Basic
import Mathlib.Analysis.Normed.Operator.Basic

/-!
# What it means for a time integrator to converge

`Solves A b y`: the function `y` solves the system `y' = A y + b` that the integrator is given. `Steps step N r`: the states
`r 0, …, r N` are those of `N` successive calls of the step function, each of which gets the vector, the time and the stored step size the
one before has left.
-/

namespace NATriuM

namespace TimeIntegration

variable {E : Type*} [NormedAddCommGroup E] [NormedSpace ℝ E]

/-- `y` is a solution of the system of ordinary differential equations with matrix `A` and vector `b` -/
def Solves (A : E →L[ℝ] E) (b : E) (y : ℝ → E) : Prop := ∀ s, HasDerivAt y (A (y s) + b) s

/-- `N` successive steps; `step stored f t` is the call with the stored step size `stored`, the vector `f` and the time `t` -/
def Steps {E : Type*} (step : ℝ → E → ℝ → Except StepError (StepResult E)) (N : ℕ) (r : ℕ → StepResult E) : Prop :=
  ∀ n < N, step (r n).timeStepSize (r n).f (r n).t = .ok (r (n + 1))

end TimeIntegration

end NATriuM
