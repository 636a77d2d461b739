import Verif.Model.OldCheckpoint

/-!
# What a status file of the deprecated format says
-/

namespace NATriuM
namespace Checkpoint

/-- The ten entries of the file, in their order. -/
structure OldRecord where
  cells : ℕ
  degree : ℕ
  dofs : ℕ
  D : ℕ
  Q : ℕ
  magic : ℝ
  first : ℝ
  second : ℝ
  flux : ℕ
  operator : String

/-- The file begins with these entries. -/
def OldRecord.WrittenIn (r : OldRecord) (file : List Word) : Prop :=
  ∃ a b c d e m x y g o rest, file = a :: b :: c :: d :: e :: m :: x :: y :: g :: o :: rest ∧
    a.asNat = some r.cells ∧ b.asNat = some r.degree ∧ c.asNat = some r.dofs ∧ d.asNat = some r.D ∧ e.asNat = some r.Q ∧
    m.asReal = some r.magic ∧ x.asReal = some r.first ∧ y.asReal = some r.second ∧ g.asNat = some r.flux ∧ o.text = r.operator

/-- The whole numbers and the operator are those of the solver. -/
def OldRecord.SameDiscretisation (r : OldRecord) (env : OldEnv) : Prop :=
  r.cells = env.cells ∧ r.degree = env.degree ∧ r.dofs = env.dofs ∧ r.D = env.stencil.D ∧ r.Q = env.stencil.Q ∧ r.flux = 0 ∧
    r.operator = "SEDGMinLee"

/-- The stored component of the stencil agrees with the one of the solver to one per cent of its size. -/
def CloseScaling (stored expected : ℝ) : Prop := |stored - expected| ≤ |stored| / 100

end Checkpoint
end NATriuM
