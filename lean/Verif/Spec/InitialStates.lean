import Mathlib.Analysis.Real.Sqrt

/-!
# Specification: initial states
-/

namespace NATriuM

namespace InitialStatesSpec

/-- A field on the rectangle `[0, L] × [0, H]` that takes the same values on opposite sides. -/
def MatchesSides {α : Type*} (f : ℝ × ℝ → α) (L H : ℝ) : Prop :=
  (∀ y, f (0, y) = f (L, y)) ∧ ∀ x, f (x, 0) = f (x, H)

/-- The state of a gas on one side of a shock: density, velocity, temperature (in units in which the speed of sound is `√(γT/3)`). -/
structure Gas where
  ρ : ℝ
  u : ℝ
  T : ℝ

/-- Mass per time through a shock at rest. -/
def Gas.massFlux (g : Gas) : ℝ := g.ρ * g.u

/-- Momentum per time; the pressure is `ρ T / 3`. -/
noncomputable def Gas.momentumFlux (g : Gas) : ℝ := g.ρ * g.u ^ 2 + g.ρ * g.T / 3

/-- Total enthalpy, for a ratio of specific heats of `7/5`. -/
noncomputable def Gas.enthalpy (g : Gas) : ℝ := g.u ^ 2 / 2 + (7 / 5) / (7 / 5 - 1) * (g.T / 3)

/-- The square of the Mach number. -/
noncomputable def Gas.mach2 (g : Gas) : ℝ := g.u ^ 2 / (7 / 5 * (g.T / 3))

/-- Two states that a shock at rest can separate, up to an error `ε`: the Rankine-Hugoniot conditions. -/
def Gas.Balanced (ε : ℝ) (l r : Gas) : Prop :=
  |l.massFlux - r.massFlux| ≤ ε ∧ |l.momentumFlux - r.momentumFlux| ≤ ε ∧ |l.enthalpy - r.enthalpy| ≤ ε

end InitialStatesSpec

end NATriuM
