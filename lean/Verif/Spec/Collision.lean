import Verif.Spec.Stencil

/-!
# Specification vocabulary for collisions: moments of a distribution

`f` is a vector of populations, `e` the particle velocities.
-/

namespace NATriuM.Spec

open Finset

variable {K : Type*} [Field K] {D Q : ℕ}

/-- Zeroth moment (mass density) of the populations. -/
def mass (f : Fin Q → K) : K := ∑ i, f i

/-- First moment (momentum density). -/
def momentum (e : Fin Q → Fin D → K) (f : Fin Q → K) (a : Fin D) : K := ∑ i, f i * e i a

/-- Second moment (momentum flux). -/
def momentumFlux (e : Fin Q → Fin D → K) (f : Fin Q → K) (a b : Fin D) : K := ∑ i, f i * (e i a * e i b)

/-- Third moment (heat flux tensor). -/
def heatFlux (e : Fin Q → Fin D → K) (f : Fin Q → K) (a b c : Fin D) : K := ∑ i, f i * (e i a * e i b * e i c)

/-- Total energy of a node with populations `f` and internal-energy populations `g` (in the units of the code: twice the
energy, divided by the square of the speed of sound). -/
def totalEnergy (e : Fin Q → Fin D → K) (cs2 : K) (f g : Fin Q → K) : K :=
  ∑ i, ((∑ a, e i a * e i a) * f i / cs2 + g i)

end NATriuM.Spec
