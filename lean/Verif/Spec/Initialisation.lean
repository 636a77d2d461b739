import Verif.Model.Initialisation
import Verif.Spec.Collision

/-!
# Specification vocabulary for the initial fields and distributions
-/

namespace NATriuM.Spec

open Finset

variable {ι K : Type*} {D Q : ℕ}

/-- The node belongs to a cell that this process owns. -/
def InOwnedCell (cells : List (Init.FieldCell ι)) (n : ι) : Prop := ∃ cell ∈ cells, cell.owned = true ∧ n ∈ cell.dofs

/-- The quadrature points of the cells that this process owns, in the order in which they are visited. -/
def ownedPoints (cells : List (Bool × List (Init.GradPoint ι K D))) : List (Init.GradPoint ι K D) :=
  cells.flatMap fun cell => if cell.1 then cell.2 else []

/-- The deviation of the momentum flux of `f` from that of the equilibrium `feq` is the one of a Newtonian fluid of kinematic viscosity `viscosity`
in a lattice Boltzmann method with time step `dt`: `Π - Πeq = -ρ (ν + cs² dt/2) (∇u + ∇uᵀ)`. -/
def Newtonian [Field K] (e : Fin Q → Fin D → K) (cs2 viscosity dt rho : K) (grad : Fin D → Fin D → K) (f feq : Fin Q → K) : Prop :=
  ∀ a b, momentumFlux e f a b - momentumFlux e feq a b = -(rho * (viscosity + cs2 * dt / 2)) * (grad a b + grad b a)

end NATriuM.Spec
