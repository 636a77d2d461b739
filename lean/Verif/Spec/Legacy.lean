import Verif.Spec.Collision

/-!
# Specification vocabulary for the class based collision models

`e` are the particle velocities, `f` the populations of one node before and `f'` after the collision.
-/

namespace NATriuM.Spec

variable {K : Type*} [Field K] {D Q : ℕ}

/-- The collision keeps the mass, and changes the momentum by `imp`. -/
structure Accelerated (e : Fin Q → Fin D → K) (imp : Fin D → K) (f f' : Fin Q → K) : Prop where
  mass : mass f' = mass f
  momentum : ∀ a, momentum e f' a = momentum e f a + imp a

/-- The collision keeps mass and momentum. -/
structure Conserves (e : Fin Q → Fin D → K) (f f' : Fin Q → K) : Prop where
  mass : Spec.mass f' = Spec.mass f
  momentum : ∀ a, Spec.momentum e f' a = Spec.momentum e f a

/-- `rho` and `u` are the density and the velocity of the populations `f`, the momentum of which is counted with the extra `half`
(half of the impulse of the force, or zero). -/
structure Reports (e : Fin Q → Fin D → K) (f : Fin Q → K) (half : Fin D → K) (rho : K) (u : Fin D → K) : Prop where
  density : rho = mass f
  velocity : ∀ a, rho * u a = momentum e f a + half a

end NATriuM.Spec
