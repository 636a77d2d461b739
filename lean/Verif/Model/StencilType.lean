import Verif.Model.Stencils
import Verif.Model.StencilsDecimal
import Verif.Model.StencilD2Q777

/-!
# The enumeration of stencils
-/

namespace NATriuM

/-- `enum StencilType`, `P/stencils/Stencil.h:21-47` -/
inductive StencilType
  | D2Q9 | D3Q19 | D3Q15 | D3Q27 | D2Q19H | D2Q19V | D2Q777 | D2Q25H | D3Q13 | D3Q21 | RD3Q27 | D3Q45 | D3Q77 | D3V27
  deriving DecidableEq, Repr

namespace StencilType

/-- `Stencil::getD` (`P/stencils/Stencil.h:126-128`), the constant `D` of each class -/
def D : StencilType → ℕ
  | D2Q9 | D2Q19H | D2Q19V | D2Q777 | D2Q25H => 2
  | _ => 3

/-- `Stencil::getQ` (`P/stencils/Stencil.h:119-121`), the constant `Q` of each class -/
def Q : StencilType → ℕ
  | D2Q9 => 9 | D3Q19 => 19 | D3Q15 => 15 | D3Q27 => 27 | D2Q19H => 19 | D2Q19V => 19 | D2Q777 => 777 | D2Q25H => 25
  | D3Q13 => 13 | D3Q21 => 21 | RD3Q27 => 27 | D3Q45 => 45 | D3Q77 => 77 | D3V27 => 27

/-- The object constructed by the class of that name with the given scaling. -/
noncomputable def stencil : (t : StencilType) → ℝ → Stencil ℝ t.D t.Q
  | D2Q9, c => NATriuM.D2Q9.stencil c
  | D3Q19, c => NATriuM.D3Q19.stencil c
  | D3Q15, c => NATriuM.D3Q15.stencil c
  | D3Q27, c => NATriuM.D3Q27.stencil c
  | D2Q19H, c => NATriuM.D2Q19H.stencil c
  | D2Q19V, c => NATriuM.D2Q19V.stencil c
  | D2Q777, c => NATriuM.D2Q777.stencil c
  | D2Q25H, c => NATriuM.D2Q25H.stencil c
  | D3Q13, c => NATriuM.D3Q13.stencil c
  | D3Q21, c => NATriuM.D3Q21.stencil c
  | RD3Q27, c => NATriuM.RD3Q27.stencil c
  | D3Q45, c => NATriuM.D3Q45.stencil c
  | D3Q77, c => NATriuM.D3Q77.stencil c
  | D3V27, c => NATriuM.D3V27.stencil c

/-- `getMaxParticleVelocityMagnitude` of the class of that name (one override per class, cited in the stencil modules). -/
noncomputable def maxVelocity : StencilType → ℝ → ℝ
  | D2Q9 => NATriuM.D2Q9.maxVelocity
  | D3Q19 => NATriuM.D3Q19.maxVelocity
  | D3Q15 => NATriuM.D3Q15.maxVelocity
  | D3Q27 => NATriuM.D3Q27.maxVelocity
  | D2Q19H => NATriuM.D2Q19H.maxVelocity
  | D2Q19V => NATriuM.D2Q19V.maxVelocity
  | D2Q777 => NATriuM.D2Q777.maxVelocity
  | D2Q25H => NATriuM.D2Q25H.maxVelocity
  | D3Q13 => NATriuM.D3Q13.maxVelocity
  | D3Q21 => NATriuM.D3Q21.maxVelocity
  | RD3Q27 => NATriuM.RD3Q27.maxVelocity
  | D3Q45 => NATriuM.D3Q45.maxVelocity
  | D3Q77 => NATriuM.D3Q77.maxVelocity
  | D3V27 => NATriuM.D3V27.maxVelocity

end StencilType

end NATriuM
