import Verif.Model.SedgSolver

/-!
# Specification: how far information travels
-/

namespace NATriuM

/-- From cell `c` one comes to cell `d` over `r` faces at most (periodic boundaries count as faces between cells). -/
def Sedg.Mesh.Within {K : Type*} {d n nQ nf nq : ℕ} {C : Type*} (m : Sedg.Mesh K d n nQ nf nq C) : ℕ → C → C → Prop
  | 0, c, e => e = c
  | r + 1, c, e => m.Within r c e ∨ ∃ f c' f', m.neighbor c f = some (c', f') ∧ m.Within r c' e

/-- Two sets of data agree in all cells that are `r` faces from `c` at most. -/
def Sedg.Mesh.AgreeWithin {K X : Type*} {d n nQ nf nq : ℕ} {C : Type*} (m : Sedg.Mesh K d n nQ nf nq C) (r : ℕ) (c : C)
    (x y : C × Fin n → X) : Prop :=
  ∀ e, m.Within r c e → ∀ i, x (e, i) = y (e, i)

/-- The processor works on each cell for itself. -/
def SedgSolver.CellLocal {t : StencilType} {n : ℕ} {C : Type*} (q : ℕ → ℝ → (C × Fin n → Node ℝ t.D t.Q) → C × Fin n → Node ℝ t.D t.Q) : Prop :=
  ∀ i time x y c, (∀ k, x (c, k) = y (c, k)) → ∀ k, q i time x (c, k) = q i time y (c, k)

end NATriuM
