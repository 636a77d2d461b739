import Mathlib.Analysis.SpecialFunctions.Trigonometric.Deriv
import Mathlib.Analysis.SpecialFunctions.ExpDeriv
import Mathlib.Analysis.SpecialFunctions.Trigonometric.Arctan

/-!
# Model: the reference solutions of the shipped benchmark problems

Source: `src/library/natrium/benchmarks`. Doubles are real numbers; `M_PI` and `atan(1) * 4` are π. A function of deal.II (`dealii::Function`) with a
current time is a function of point and time.
-/

namespace NATriuM
namespace Benchmarks

open Real

/-- The parameters of the two-dimensional Taylor-Green vortex; TaylorGreenVortex2D.cpp:20-23, TaylorGreenVortex2D.h:81-92 -/
structure TaylorGreen2D where
  viscosity : ℝ
  cs : ℝ
  analyticInit : Bool
  L : ℝ
  horizontalVelocity : ℝ

/-- The default arguments of the constructor; TaylorGreenVortex2D.h:54-55, TaylorGreenVortex2D.cpp:23 -/
noncomputable def TaylorGreen2D.default (viscosity : ℝ) : TaylorGreen2D :=
  ⟨viscosity, 0.57735026919, false, 2 * π, 0⟩

/-- `AnalyticVelocity::value`, component 0; TaylorGreenVortex2D.cpp:39-41 -/
noncomputable def TaylorGreen2D.ux (f : TaylorGreen2D) (x y t : ℝ) : ℝ :=
  f.horizontalVelocity + sin (x * (2 * π) / f.L - f.horizontalVelocity * t) * cos (y * (2 * π) / f.L)
    * exp (-2 * f.viscosity * t * (2 * π) / f.L)

/-- `AnalyticVelocity::value`, component 1; TaylorGreenVortex2D.cpp:42-45 -/
noncomputable def TaylorGreen2D.uy (f : TaylorGreen2D) (x y t : ℝ) : ℝ :=
  -cos (x * (2 * π) / f.L - f.horizontalVelocity * t) * sin (y * (2 * π) / f.L)
    * exp (-2 * f.viscosity * t * (2 * π) / f.L)

/-- The pressure in `AnalyticDensity::value` (`rho0` is 1); TaylorGreenVortex2D.cpp:53-55 -/
noncomputable def TaylorGreen2D.p (f : TaylorGreen2D) (x y t : ℝ) : ℝ :=
  1 / 4 * (cos (2 * (x * (2 * π) / f.L - f.horizontalVelocity * t)) + cos (2 * y * (2 * π) / f.L))
    * exp (-4 * f.viscosity * t * (2 * π) / f.L)

/-- `AnalyticDensity::value`; TaylorGreenVortex2D.cpp:49-60 -/
noncomputable def TaylorGreen2D.rho (f : TaylorGreen2D) (x y t : ℝ) : ℝ :=
  if f.analyticInit then 1 + f.p x y t / (f.cs * f.cs) else 1

/-- Initial velocity of the three-dimensional Taylor-Green vortex; TaylorGreenVortex3D.cpp:38-48 -/
noncomputable def taylorGreen3D_u (x y z : ℝ) : Fin 3 → ℝ
  | 0 => sin x * cos y * cos z
  | 1 => -cos x * sin y * cos z
  | 2 => 0

/-- The pressure in its initial density; TaylorGreenVortex3D.cpp:54 -/
noncomputable def taylorGreen3D_p (x y z : ℝ) : ℝ := 1 / 16 * (cos (2 * x) + cos (2 * y)) * (cos (2 * z) + 2)

/-- Initial density, `InitialDensity::value`; TaylorGreenVortex3D.cpp:50-62 -/
noncomputable def taylorGreen3D_rho (analyticInit compressibleCase : Bool) (cs densityNumerator x y z : ℝ) : ℝ :=
  if analyticInit then
    if compressibleCase then 1 + taylorGreen3D_p x y z * densityNumerator
    else 1 + taylorGreen3D_p x y z / (cs * cs)
  else 1

/-- Initial velocity of the shear layer; ShearLayer2D.cpp:39-51 -/
noncomputable def shearLayer_u (u0 kappa perturbation x y : ℝ) : Fin 2 → ℝ
  | 0 => if y ≤ 1 / 2 then u0 * tanh (kappa * (y - 1 / 4)) else u0 * tanh (kappa * (3 / 4 - y))
  | 1 => perturbation * u0 * sin (8 * arctan 1 * (x + 1 / 4))

/-- The parameters of the flow between plates driven by a force; PoiseuilleFlow2D.cpp:22-26 (3D: PoiseuilleFlow3D.cpp:24-27) -/
structure Poiseuille where
  viscosity : ℝ
  uBulk : ℝ
  height : ℝ

/-- `m_uMax`; PoiseuilleFlow2D.cpp:25, PoiseuilleFlow3D.cpp:27 -/
noncomputable def Poiseuille.uMax (f : Poiseuille) : ℝ := 3 / 2 * f.uBulk

/-- The external force in x direction; PoiseuilleFlow2D.cpp:35, PoiseuilleFlow3D.cpp:38 -/
noncomputable def Poiseuille.force (f : Poiseuille) : ℝ := 8 * f.uMax * f.viscosity / (f.height * f.height)

/-- `AnalyticVelocity::value`: zero for all components; the parabola is commented out; PoiseuilleFlow2D.cpp:113-123, PoiseuilleFlow3D.cpp:131-141 -/
def Poiseuille.u (_f : Poiseuille) (_y : ℝ) (_component : ℕ) : ℝ := 0

/-- The parameters of the flow between a fixed and a moving plate; CouetteFlow2D.cpp:23-26, CouetteFlow3D.cpp:23-26 -/
structure Couette where
  viscosity : ℝ
  /-- velocity of the top plate, `getCharacteristicVelocity()`, CouetteFlow2D.h:48-50 -/
  U : ℝ
  L : ℝ
  startTime : ℝ

/-- `lambda`; CouetteFlow2D.cpp:131 -/
noncomputable def Couette.lambda (f : Couette) (i : ℕ) : ℝ := i * π / f.L

/-- `exp_expression`; CouetteFlow2D.cpp:132 -/
noncomputable def Couette.expTerm (f : Couette) (i : ℕ) (t : ℝ) : ℝ := exp (-f.viscosity * f.lambda i * f.lambda i * t)

/-- `increment`; CouetteFlow2D.cpp:133-134 -/
noncomputable def Couette.increment (f : Couette) (i : ℕ) (y t : ℝ) : ℝ :=
  (if i % 2 = 0 then 1 else -1) * 2 * f.U / (f.lambda i * f.L) * f.expTerm i t * sin (f.lambda i * y)

/-- The loop, from term `i` on, with at most `fuel` more terms, left when a term is below 1e-20; CouetteFlow2D.cpp:129-141 -/
noncomputable def Couette.loop (f : Couette) (y t : ℝ) : ℕ → ℕ → ℝ → ℝ
  | 0, _, sum => sum
  | fuel + 1, i, sum =>
    if f.expTerm i t < 1 / 10 ^ 20 then sum + f.increment i y t else f.loop y t fuel (i + 1) (sum + f.increment i y t)

/-- `AnalyticVelocity::value`, component 0, in terms of the time since start `t0` and the coordinate `y` across the channel (x(2) in three dimensions); the
other components are 0; CouetteFlow2D.cpp:100-151, CouetteFlow3D.cpp:104-156 -/
noncomputable def Couette.u (f : Couette) (y time : ℝ) : ℝ :=
  let t := time + f.startTime
  if t < 0.00001 then
    if y < f.L - 0.00001 then 0 else f.U
  else f.loop y t 10000 1 (f.U * y / f.L)

/-- The z coordinate of the moving plate in three dimensions: the domain is [0,L] x [0,1] x [0,1]; CouetteFlow3D.cpp:62-63, CouetteFlow3D.cpp:94-96 -/
def couette3D_plate (_f : Couette) : ℝ := 1

/-- The y coordinate of the moving plate in two dimensions: the domain is [0,L] x [0,L]; CouetteFlow2D.cpp:64, CouetteFlow2D.cpp:91-92 -/
def couette2D_plate (f : Couette) : ℝ := f.L

end Benchmarks
end NATriuM
