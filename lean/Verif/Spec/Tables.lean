import Verif.Model.Tables
import Verif.Spec.Statistics

/-!
# What the tables should contain
-/

namespace NATriuM
namespace Tables

variable {N : Type*} [Fintype N]

/-- The nodes whose wall-normal coordinate is closer to that of the plane than the tolerance. -/
noncomputable def plane (coordinate : N → ℝ) (wall tolerance : ℝ) : Finset N :=
  haveI := Classical.dec
  Finset.univ.filter fun i => |coordinate i - wall| < tolerance

/-- The arithmetic mean over a set of nodes. -/
noncomputable def mean (s : Finset N) (u : N → ℝ) : ℝ := (∑ i ∈ s, u i) / s.card

/-- The standard deviation over a set of nodes. -/
noncomputable def deviation (s : Finset N) (u : N → ℝ) : ℝ := √(mean s fun i => (u i - mean s u) ^ 2)

/-- The `L²` norm of the difference between a discrete function and a reference solution. -/
noncomputable def l2Norm {d n nq : ℕ} {C : Type*} [Fintype C] (fe : Stats.FE ℝ d n nq C N) (u : N → ℝ) (reference : C → Fin nq → ℝ) : ℝ :=
  √(Stats.integral fe fun c q => (Stats.discrete fe u c q - reference c q) ^ 2)

/-- The iteration of a call. -/
def StatsCall.iteration {β : Type*} : StatsCall β → ℕ
  | .update i _ | .forceUpdate i _ | .print i _ => i

/-- The data of the solver at the moment of a call. -/
def StatsCall.current {β : Type*} : StatsCall β → β
  | .update _ x | .forceUpdate _ x | .print _ x => x

/-- The line that a call should print. -/
def StatsCall.line {β : Type*} : StatsCall β → Option (ℕ × β)
  | .print i x => some (i, x)
  | _ => none

/-- A computation in several runs: each continues where the one before ended. -/
inductive Continued : ℕ → ℕ → List (ℕ × ℕ) → Prop
  | last {a b : ℕ} (h : a ≤ b) : Continued a b [(a, b)]
  | run {a b e : ℕ} {l : List (ℕ × ℕ)} (h : a ≤ b) (hl : Continued b e l) : Continued a e ((a, b) :: l)

end Tables
end NATriuM
