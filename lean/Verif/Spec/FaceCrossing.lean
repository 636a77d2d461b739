import Mathlib.Algebra.Order.Field.Basic
import Mathlib.Algebra.BigOperators.Fin

/-!
# Specification: leaving a cell on a straight line
-/

namespace NATriuM
namespace Paths

section

variable {K : Type*} [Field K] [LinearOrder K] {d : ℕ}

/-- The point at parameter `t` of the segment from `p` (`t = 0`) to `q` (`t = 1`) -/
def along (p q : Fin d → K) (t : K) : Fin d → K := fun a => p a + t * (q a - p a)

/-- In the closed unit cell -/
def InCell (p : Fin d → K) : Prop := ∀ a, 0 ≤ p a ∧ p a ≤ 1

/-- On the plane of a face of the unit cell: face `2 a` is where coordinate `a` is 0, face `2 a + 1` where it is 1. -/
def OnFace (face : ℕ) (p : Fin d → K) : Prop := ∃ a : Fin d, (face = 2 * a ∧ p a = 0) ∨ (face = 2 * a + 1 ∧ p a = 1)

/-- Beyond the plane of a face, seen from the unit cell -/
def Beyond (face : ℕ) (p : Fin d → K) : Prop := ∃ a : Fin d, (face = 2 * a ∧ p a < 0) ∨ (face = 2 * a + 1 ∧ 1 < p a)

/-- The segment from `p` to `q` leaves the unit cell at parameter `t`, through the given face: until then it is in the cell, then it is on the
face, and afterwards it is beyond the face. -/
def LeavesThrough (face : ℕ) (t : K) (p q : Fin d → K) : Prop :=
  0 ≤ t ∧ t ≤ 1 ∧ (∀ s, 0 ≤ s → s ≤ t → InCell (along p q s)) ∧ OnFace face (along p q t) ∧
  ∀ s, t < s → s ≤ 1 → Beyond face (along p q s)

/-- Side of a plane through `x` with normal `n` on which `p` lies: the sign of this number -/
def side (x n p : Fin d → K) : K := ∑ a, (p a - x a) * n a

end

end Paths
end NATriuM
