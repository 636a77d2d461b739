import Verif.Model.CollisionSelection
import Verif.Spec.Collision

/-!
# Specification: the equilibrium that belongs to given distributions
-/

namespace NATriuM

/-- The equilibrium (of class `ec`) with the density and velocity of the distributions `f`; the equilibrium functions take velocities in units of the
scaling `c`. -/
noncomputable def localEquilibrium (t : StencilType) (c viscosity dt : ℝ) (cfg : CollisionConfig t.D) (ec : EquilibriumClass) (f : Fin t.Q → ℝ) :
    Fin t.Q → ℝ :=
  t.equilibrium ec (collisionData t c viscosity dt cfg)
    { rho := Spec.mass f, u := fun a => Spec.momentum (t.stencil c).dir f a / Spec.mass f / c, T := 1 }

end NATriuM
