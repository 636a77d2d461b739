import Verif.Model.LegacyMRT
import Mathlib.Analysis.SpecialFunctions.Pow.Real
import Mathlib.Data.List.FinRange

/-!
# The equilibrium of the KBC model for single directions

Model of `KBCStandard::getEquilibriumDistribution` (`P/collision/KBCStandard.cpp`, `P` = `src/library/natrium`), which the solver calls when it
initialises the distributions; the collision itself has an equilibrium of its own (`Legacy.kbcFeqD2Q9`, `Legacy.kbcStandardD3Q15Node`).
-/

namespace NATriuM.Legacy

variable {D Q : ℕ}

/-- `KBCStandard::getEquilibriumDistribution`, `P/collision/KBCStandard.cpp:26-63`: the loop over the components of the velocity multiplies the
value by two factors.  `pow` of `double`s is the real power, which is right for positive bases and for exponents that are integers; the bases are
positive if the components of the velocity are smaller than the scaling. -/
noncomputable def kbcEquilibrium (S : Stencil ℝ D Q) (u : Fin D → ℝ) (rho : ℝ) (i : Fin Q) : ℝ :=
  (List.finRange D).foldl
    (fun value p => value * (2 - kbcRoot (u p / S.scaling)) * kbcPost (u p / S.scaling) ^ (S.dir i p / S.scaling))
    (S.weight i * rho)

end NATriuM.Legacy
