import Mathlib.Analysis.Real.Sqrt
import Mathlib.Order.Bounds.Basic

/-!
# Specification of a run

Independent of the way the loop is programmed: a run starts from prepared data `init` and a numbered update `upd`, which define the
trajectory; it stops at the first iteration that satisfies a stop condition.
-/

namespace NATriuM
namespace Spec

/-- The data after `k` updates; update number `k` of a run from iteration `start` is that of iteration `start + k`. -/
def trajectory {E S : Type*} (init : Except E S) (upd : ℕ → S → Except E S) (start : ℕ) : ℕ → Except E S
  | 0 => init
  | k + 1 =>
    match trajectory init upd start k with
    | .error e => .error e
    | .ok s => upd (start + (k + 1)) s

/-- `r` is the largest (over the nodes) Euclidean length of the difference of two vector fields; zero if there are no nodes. -/
def IsMaxChange {ι : Type*} {D : ℕ} (u v : Fin D → ι → ℝ) (r : ℝ) : Prop :=
  IsLeast {b | 0 ≤ b ∧ ∀ n, √(∑ a, (u a n - v a n) ^ 2) ≤ b} r

/-- The same for scalar fields. -/
def IsMaxScalarChange {ι : Type*} (u v : ι → ℝ) (r : ℝ) : Prop := IsLeast {b | 0 ≤ b ∧ ∀ n, |u n - v n| ≤ b} r

/-- What the user configures to end a run. -/
structure StopRule where
  limit : ℕ
  endTime : ℝ
  threshold : ℝ

section

variable {E S ι : Type*} {D : ℕ} (rule : StopRule) (time : S → ℝ) (u : S → Fin D → ι → ℝ) (start : ℕ) (T : ℕ → Except E S)

/-- `r` is the velocity residual held after checking iteration `n` (a multiple of 100) of a run from iteration `start`: 1 for the first
check, then the largest change of velocity since the check 100 iterations earlier.  `T k` are the data after `k` steps. -/
def ResidualAt (n : ℕ) (r : ℝ) : Prop :=
  (n < start + 100 ∧ r = 1) ∨
    (start + 100 ≤ n ∧ ∃ s s', T (n - 100 - start) = .ok s ∧ T (n - start) = .ok s' ∧ IsMaxChange (u s) (u s') r)

/-- The stop conditions: iteration limit, end time, convergence (checked every 100 iterations). -/
def Stops (n : ℕ) : Prop :=
  rule.limit ≤ n ∨ (∃ s, T (n - start) = .ok s ∧ rule.endTime ≤ time s) ∨
    (100 ∣ n ∧ ∃ r, ResidualAt u start T n r ∧ r < rule.threshold)

end

end Spec
end NATriuM
