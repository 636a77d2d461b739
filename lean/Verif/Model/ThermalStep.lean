import Verif.Model.Walls

/-!
# A semi-Lagrangian step of the compressible solver at a thermal wall

`P` is `src/library/natrium`.
-/

namespace NATriuM.Walls

section

variable {K : Type*} [Field K] [LinearOrder K] {D Q : ℕ} {ι : Type*} [DecidableEq ι]

/-- `SemiLagrangianBoundaryHandler::operate`, `P/boundaries/SemiLagrangianBoundaryHandler.cpp:43-107`, if all hits are hits of one thermal wall: the wall
is called once for every hit, with the degree of freedom at which the path starts (lines 97-104).  All calls read and write the same `f` and `g`. -/
def thermalHits (eq : Equilibrium K D Q) (S : Stencil K D Q) (Tw : K) (hits : List ι) (f g : Store K Q ι) :
    Except WallError (Store K Q ι × Store K Q ι) :=
  match hits with
  | [] => .ok (f, g)
  | x :: hits =>
    match thermalWall eq S Tw x f g with
    | .error e => .error e
    | .ok r => thermalHits eq S Tw hits r.1 r.2

/-- The streaming of a step, `P/solver/CompressibleCFDSolver.h:191-195` and `286-293` (without limiter and multistep data): `f` is multiplied with the
system matrix, the wall is applied to the new `f` and the old `g`, then `g` is multiplied.  `applyBoundaryConditionsToG` does nothing at thermal walls
(`P/boundaries/SemiLagrangianBoundaryHandler.cpp:146-150`). -/
def thermalStream (eq : Equilibrium K D Q) (S : Stencil K D Q) (vmult : Store K Q ι → Store K Q ι) (Tw : K) (hits : List ι) (f g : Store K Q ι) :
    Except WallError (Store K Q ι × Store K Q ι) :=
  match thermalHits eq S Tw hits (vmult f) g with
  | .error e => .error e
  | .ok r => .ok (r.1, vmult r.2)

end

end NATriuM.Walls
