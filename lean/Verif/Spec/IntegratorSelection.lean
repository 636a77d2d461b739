import Mathlib.Analysis.InnerProductSpace.PiL2
import Verif.Model.IntegratorSelection

/-!
# Which time integrator a configuration names
-/

namespace NATriuM

namespace IntegratorSelection

open Config

/-- The integrator is the one named in the configuration, with its step size and parameters. -/
def Named {K : Type*} (c : Choice K) (dt minDelta maxDelta : K) : Integrator K → Prop
  | .rungeKutta5 h => c.timeIntegrator = RUNGE_KUTTA_5STAGE ∧ h = dt
  | .theta h θ => c.timeIntegrator = THETA_METHOD ∧ h = dt ∧ θ = c.theta
  | .exponential h => c.timeIntegrator = EXPONENTIAL ∧ h = dt
  | .explicitRK h s l => c.timeIntegrator = OTHER ∧ s = c.dealIntegrator ∧ s ∈ [FORWARD_EULER, RK_THIRD_ORDER, RK_CLASSIC_FOURTH_ORDER] ∧
      h = dt ∧ l = c.linearSolver
  | .implicitRK h s l => c.timeIntegrator = OTHER ∧ s = c.dealIntegrator ∧
      s ∈ [BACKWARD_EULER, IMPLICIT_MIDPOINT, CRANK_NICOLSON, SDIRK_TWO_STAGES] ∧ h = dt ∧ l = c.linearSolver
  | .embeddedRK h s l lim => c.timeIntegrator = OTHER ∧ s = c.dealIntegrator ∧
      s ∈ [HEUN_EULER, BOGACKI_SHAMPINE, DOPRI, FEHLBERG, CASH_KARP] ∧ h = dt ∧ l = c.linearSolver ∧ lim = some (minDelta, maxDelta)

/-- The Euclidean norm of a vector of reals -/
noncomputable def norm2 {n : ℕ} (v : Fin n → ℝ) : ℝ := Real.sqrt (∑ i, v i ^ 2)

/-- A linear solver that fulfils its contract: if it does not throw, the residual is within the tolerance. -/
def Solves {n : ℕ} (tol : ℝ) (solve : ℕ → Matrix (Fin n) (Fin n) ℝ → (Fin n → ℝ) → (Fin n → ℝ) → Option (Fin n → ℝ)) : Prop :=
  ∀ s M x f y, solve s M x f = some y → norm2 (fun i => f i - M.mulVec y i) ≤ tol * norm2 f

end IntegratorSelection

end NATriuM
