import Mathlib.Analysis.SpecialFunctions.Trigonometric.Deriv
import Verif.Model.AdvectionBenchmark

/-!
# What the advection benchmark should do
-/

namespace NATriuM

namespace AdvectionBenchmark

open TimeIntegration

/-- The initial profiles: a sine wave of period one, and the sine times its absolute value -/
noncomputable def wave (isSmooth : Bool) (s : ℝ) : ℝ :=
  if isSmooth then Real.sin (2 * Real.pi * s) else Real.sin (2 * Real.pi * s) * |Real.sin (2 * Real.pi * s)|

/-- `u t x` solves `∂u/∂t + ∂u/∂x = 0` at all times and points. -/
def Transported (u : ℝ → ℝ → ℝ) : Prop :=
  ∀ t x, ∃ ut ux, HasDerivAt (fun s => u s x) ut t ∧ HasDerivAt (fun y => u t y) ux x ∧ ut + ux = 0

/-- `f` is transformed into `g` by `n` steps of the stepper, each of length `h`. -/
inductive Advanced {E : Type*} (s : Stepper E) (h : ℝ) (f : E) : ℕ → E → Prop
  | zero : Advanced s h f 0 f
  | matrix {n g apply} (hs : s = .semiLagrangian apply) : Advanced s h f n g → Advanced s h f (n + 1) (apply g)
  | step {n g step t r} (hs : s = .integrator step) (hr : step h g t h = .ok r) : Advanced s h f n g → Advanced s h f (n + 1) r.f

/-- The integrator returns the time at the end of the step, and its step size stays. -/
def Clocked {E : Type*} (s : Stepper E) : Prop :=
  ∀ step, s = .integrator step → ∀ h f t r, step h f t h = .ok r → r.t = t + h ∧ r.timeStepSize = h

/-- The degree of freedom belongs to a cell and to the vector of this process. -/
def IsSet (localRange : ℕ → Bool) (cells : List Cell) (j : ℕ) : Prop :=
  localRange j = true ∧ ∃ c ∈ cells, c.owned = true ∧ j ∈ c.dofs

end AdvectionBenchmark

end NATriuM
