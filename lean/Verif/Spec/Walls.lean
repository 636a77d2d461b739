import Verif.Spec.Collision

/-!
# Specification vocabulary for walls

Scalar product, temperatures of a node.  `f` and `g` are the two sets of populations of a node, `e` the particle velocities, `cs2` the
square of the speed of sound.
-/

namespace NATriuM.Spec

open Finset

variable {K : Type*} [Field K] {D Q : ℕ}

/-- Scalar product. -/
def dot (x y : Fin D → K) : K := ∑ a, x a * y a

/-- Temperature of a node with heat capacity ratio `gamma`: total energy minus kinetic energy of the mean motion is
`2 ρ T / (gamma - 1)` in the units of `totalEnergy`. -/
def temperature (e : Fin Q → Fin D → K) (cs2 gamma : K) (f g : Fin Q → K) : K :=
  (totalEnergy e cs2 f g - (∑ a, momentum e f a * momentum e f a) / (mass f * cs2)) * (gamma - 1) / (2 * mass f)

/-- Temperature of the translational degrees of freedom alone: the trace of the momentum flux is `ρ (D cs² θ + u²)`. -/
def translationalTemperature (e : Fin Q → Fin D → K) (cs2 : K) (f : Fin Q → K) : K :=
  ((∑ a, momentumFlux e f a a) - (∑ a, momentum e f a * momentum e f a) / mass f) / (D * mass f * cs2)

end NATriuM.Spec
