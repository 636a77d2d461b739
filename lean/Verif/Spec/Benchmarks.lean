import Verif.Model.Benchmarks
import Mathlib.Analysis.Calculus.ContDiff.Operations
import Mathlib.MeasureTheory.Integral.IntervalIntegral.Basic

/-!
# Specification: the equations of incompressible flow
-/

namespace NATriuM
namespace Benchmarks

/-- Partial derivatives of a function of `x`, `y` and time -/
noncomputable def dx (f : ℝ → ℝ → ℝ → ℝ) (x y t : ℝ) : ℝ := deriv (fun s => f s y t) x
noncomputable def dy (f : ℝ → ℝ → ℝ → ℝ) (x y t : ℝ) : ℝ := deriv (fun s => f x s t) y
noncomputable def dt (f : ℝ → ℝ → ℝ → ℝ) (x y t : ℝ) : ℝ := deriv (fun s => f x y s) t

/-- Differentiable as often as wanted, in all variables together -/
def Smooth (f : ℝ → ℝ → ℝ → ℝ) : Prop := ∀ n : ℕ, ContDiff ℝ n fun z : ℝ × ℝ × ℝ => f z.1 z.2.1 z.2.2

/-- Once differentiable in each variable -/
def Differentiable3 (f : ℝ → ℝ → ℝ → ℝ) : Prop :=
  ∀ x y t, DifferentiableAt ℝ (fun s => f s y t) x ∧ DifferentiableAt ℝ (fun s => f x s t) y ∧ DifferentiableAt ℝ (fun s => f x y s) t

/-- The flow has no sources. -/
def DivergenceFree (u v : ℝ → ℝ → ℝ → ℝ) : Prop := ∀ x y t, dx u x y t + dy v x y t = 0

/-- The momentum equations for density 1, viscosity `ν` and pressure `p` -/
def Momentum (ν : ℝ) (u v p : ℝ → ℝ → ℝ → ℝ) : Prop := ∀ x y t,
  dt u x y t + u x y t * dx u x y t + v x y t * dy u x y t = - dx p x y t + ν * (dx (dx u) x y t + dy (dy u) x y t) ∧
  dt v x y t + u x y t * dx v x y t + v x y t * dy v x y t = - dy p x y t + ν * (dx (dx v) x y t + dy (dy v) x y t)

/-- Equal values at both sides of a square of side length `L` -/
def Periodic2 (L : ℝ) (f : ℝ → ℝ → ℝ → ℝ) : Prop := ∀ x y t, f (x + L) y t = f x y t ∧ f x (y + L) t = f x y t

/-- The profile `u` of a steady flow between plates at 0 and `h`, driven by a force -/
def ChannelFlow (ν force h : ℝ) (u : ℝ → ℝ) : Prop :=
  u 0 = 0 ∧ u h = 0 ∧ Differentiable ℝ u ∧ Differentiable ℝ (deriv u) ∧ ∀ y, ν * deriv (deriv u) y + force = 0

/-- The profile `u y t` diffuses with viscosity `ν`, at position `y` and time `t`. -/
def DiffusesAt (ν : ℝ) (u : ℝ → ℝ → ℝ) (y t : ℝ) : Prop :=
  DifferentiableAt ℝ (fun s => u y s) t ∧ Differentiable ℝ (fun s => u s t) ∧ DifferentiableAt ℝ (deriv fun s => u s t) y ∧
    deriv (fun s => u y s) t = ν * deriv (deriv fun s => u s t) y

end Benchmarks
end NATriuM
