import Verif.Spec.Collision

/-!
# Specification vocabulary for the relaxation of the stress

`e` are the particle velocities, `f` the populations of one node before and `f'` after the collision, `cs2` the square of the speed
of sound.
-/

namespace NATriuM.Spec

variable {K : Type*} [Field K] {D Q : ℕ}

/-- The momentum flux of an isothermal fluid in equilibrium, given its density and momentum: pressure plus convection. -/
def idealFlux (cs2 rho : K) (j : Fin D → K) (a b : Fin D) : K := rho * cs2 * δ a b + j a * j b / rho

/-- The deviation of the momentum flux of `f` from that of a fluid in equilibrium with the same density and momentum: the viscous stress. -/
def viscousStress (e : Fin Q → Fin D → K) (cs2 : K) (f : Fin Q → K) (a b : Fin D) : K :=
  momentumFlux e f a b - idealFlux cs2 (mass f) (momentum e f) a b

/-- The collision multiplies the viscous stress by `1 - omega`.  With `omega = 1 / (tau + 1 / 2)` and `tau = nu / (dt · cs2)` this is what makes the
fluid have the viscosity `nu`. -/
def StressRelaxes (e : Fin Q → Fin D → K) (cs2 omega : K) (f f' : Fin Q → K) : Prop :=
  ∀ a b, viscousStress e cs2 f' a b = (1 - omega) * viscousStress e cs2 f a b

/-- As `StressRelaxes`, only for the shear stresses (the components with different directions). -/
def ShearRelaxes (e : Fin Q → Fin D → K) (cs2 omega : K) (f f' : Fin Q → K) : Prop :=
  ∀ a b, a ≠ b → viscousStress e cs2 f' a b = (1 - omega) * viscousStress e cs2 f a b

/-- As `StressRelaxes`, only for the shear stresses and the differences of normal stresses, which determine the shear viscosity. -/
def DeviatorRelaxes (e : Fin Q → Fin D → K) (cs2 omega : K) (f f' : Fin Q → K) : Prop :=
  ∀ a b, a ≠ b → viscousStress e cs2 f' a b = (1 - omega) * viscousStress e cs2 f a b ∧
    viscousStress e cs2 f' a a - viscousStress e cs2 f' b b =
      (1 - omega) * (viscousStress e cs2 f a a - viscousStress e cs2 f b b)

end NATriuM.Spec
