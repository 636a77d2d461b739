import Mathlib.Analysis.SpecialFunctions.Trigonometric.DerivHyp

/-!
# Model: the mesh transformations of the flow problems

After refinement every flow problem moves the vertices of its mesh with a function (`dealii::GridTools::transform`).  The functions are
modelled on real coordinates; `M_PI` and `4 * atan(1)` are `π`.  deal.II's mesh, and the fact that `GridTools::transform` applies the
function to every vertex exactly once, are not modelled.
-/

namespace NATriuM

namespace MeshTransform

open Real

/-- `benchmarks/ShearLayer2D.h:77-80`, `benchmarks/Riemann2D.h:101-104`, `examples/step-10/SodShockTube.h:108-111`:
`UnstructuredGridFunc::trans`. -/
noncomputable def waveTrans (trafo y : ℝ) : ℝ := 1 / (4 * π) * (trafo * sin (4 * π * y) + 4 * π * y)

/-- `benchmarks/ShearLayer2D.h:81-83`, `benchmarks/Riemann2D.h:105-107`, `examples/step-10/SodShockTube.h:112-114`: `operator()`. -/
noncomputable def wave (tX tY : ℝ) (p : ℝ × ℝ) : ℝ × ℝ := (waveTrans tX p.1, waveTrans tY p.2)

/-- The assertions of the constructors, `benchmarks/ShearLayer2D.cpp:25-28`, `benchmarks/Riemann2D.cpp:26-29`,
`examples/step-10/SodShockTube.cpp:26-29`, `examples/step-12/ShockVortexInteraction.cpp:26-29`. -/
def trafoAccepted (tX tY : ℝ) : Prop := 0 ≤ tX ∧ tX < 1 ∧ 0 ≤ tY ∧ tY < 1

/-- `examples/step-12/ShockVortexInteraction.h:110-113`: `trans`. -/
noncomputable def shockTrans (trafo y : ℝ) : ℝ := 30 / π * (trafo * sin (π / 30 * y) + π / 30 * y)

/-- `examples/step-12/ShockVortexInteraction.h:114-116`: `operator()`. -/
noncomputable def shock (tX tY : ℝ) (p : ℝ × ℝ) : ℝ × ℝ := (shockTrans tX p.1, shockTrans tY p.2)

/-- `examples/step-turbulentChannel/TurbulentChannelFlow3D.h:116-123`: `trans`; the height is the whole height of the channel. -/
noncomputable def channelTrans (height gridDensity y : ℝ) : ℝ :=
  (-gridDensity * sin (2 * y * π) / (2 * π) + y) * height

/-- `examples/step-turbulentChannel/TurbulentChannelFlow3D.h:124-127`: `operator()`. -/
noncomputable def channel (length height width gridDensity : ℝ) (p : ℝ × ℝ × ℝ) : ℝ × ℝ × ℝ :=
  (length * p.1, channelTrans height gridDensity p.2.1, width * p.2.2)

/-- What the constructor of the channel keeps of its last two parameters, `examples/step-turbulentChannel/TurbulentChannelFlow3D.h:135-139`
and `examples/step-turbulentChannel/TurbulentChannelFlow3D.cpp:26-32` (`isPeriodic` is used at `:87` and `:94`). -/
structure ChannelArgs where
  isPeriodic : Bool
  gridDensity : ℝ

/-- The call in the driver, `examples/step-turbulentChannel/step-turbulent-channel.cpp:136-139`: nine arguments for the ten parameters, so
the grid density read from the command line (`:129`) becomes, by C++'s conversion of a number to `bool`, the ninth parameter `is_periodic`,
and the tenth has its default value (`TurbulentChannelFlow3D.h:139`). -/
noncomputable def channelDriver (gridDensity : ℝ) : ChannelArgs := ⟨decide (gridDensity ≠ 0), 0.8⟩

/-- `benchmarks/CouetteFlow2D.h:84-86`: `trans`. -/
noncomputable def couette2DTrans (y : ℝ) : ℝ := tanh (4 * (y - 0.5)) / tanh 2 / 2 + 0.5

/-- `benchmarks/CouetteFlow2D.h:87-89` and `benchmarks/CouetteFlow2D.cpp:49-51`: `operator()`, if the grid is to be unstructured. -/
noncomputable def couette2D (isUnstructured : Bool) (p : ℝ × ℝ) : ℝ × ℝ :=
  if isUnstructured then (p.1, couette2DTrans p.2) else p

/-- `benchmarks/CouetteFlow3D.h:92-95`: `trans`. -/
noncomputable def couette3DTrans (y : ℝ) : ℝ := tanh (2 * y) / tanh 2

/-- `benchmarks/CouetteFlow3D.h:96-100` and `benchmarks/CouetteFlow3D.cpp:47-49`: `operator()`.  The result is built with the constructor
for two coordinates, so the third coordinate keeps the value zero a new point has (in a debug build of deal.II this constructor fails for
points in three dimensions). -/
noncomputable def couette3D (isUnstructured : Bool) (p : ℝ × ℝ × ℝ) : ℝ × ℝ × ℝ :=
  if isUnstructured then (p.1, couette3DTrans p.2.1, 0) else p

/-- `benchmarks/LubricationSine.h:80-85`: the parameters of the lubrication gap. -/
structure Lubrication where
  height : ℝ
  ampl : ℝ
  wavelength : ℝ
  roughnessHeight : ℝ
  roughnessLengthRatio : ℕ

namespace Lubrication

/-- The assertion of the constructor, `benchmarks/LubricationSine.h:107`. -/
def accepted (g : Lubrication) : Prop := g.height > g.ampl

/-- `benchmarks/LubricationSine.h:86-91`. -/
noncomputable def refineBoundaryY (g : Lubrication) (y : ℝ) : ℝ :=
  g.height * (0.5 + 0.5 * tanh ((y / g.height - 0.5) * π) / tanh (0.5 * π))

/-- `benchmarks/LubricationSine.h:92-98`. -/
noncomputable def refineBoundaryX (g : Lubrication) (x : ℝ) : ℝ :=
  x + g.wavelength * g.ampl / g.height / (2 * π) * sin (2 * π * x / g.wavelength)

/-- `benchmarks/LubricationSine.h:100`: the height of the gap. -/
noncomputable def upper (g : Lubrication) (x : ℝ) : ℝ :=
  g.height + g.ampl * cos (2 * π * x / g.wavelength) +
    g.roughnessHeight * cos (2 * π * x / (g.wavelength / g.roughnessLengthRatio))

/-- `benchmarks/LubricationSine.h:99-102`. -/
noncomputable def trans (g : Lubrication) (x y : ℝ) : ℝ := y / g.height * g.upper x

/-- `benchmarks/LubricationSine.h:103-105`: `operator()`. -/
noncomputable def map (g : Lubrication) (p : ℝ × ℝ) : ℝ × ℝ :=
  (g.refineBoundaryX p.1, g.trans (g.refineBoundaryX p.1) (g.refineBoundaryY p.2))

/-- `benchmarks/LubricationSine.cpp:79-88`: the initial velocity; `bottom` is the velocity of the lower wall. -/
noncomputable def initialVelocity (g : Lubrication) (bottom : ℝ) (p : ℝ × ℝ) : Fin 2 → ℝ
  | 0 => bottom * (1 - p.2 / (g.height - g.ampl)) ^ 2
  | 1 => 0

end Lubrication

/-- `benchmarks/SinusoidalShear2D.h:80-83`: the parameters of the sinusoidal channel. -/
structure Sinusoidal where
  height : ℝ
  ampl : ℝ
  wavelength : ℝ

namespace Sinusoidal

/-- The assertion of the constructor, `benchmarks/SinusoidalShear2D.h:103`. -/
def accepted (g : Sinusoidal) : Prop := g.height > g.ampl

/-- `benchmarks/SinusoidalShear2D.h:84-89`. -/
noncomputable def refineBoundaryY (y : ℝ) : ℝ := 0.5 + 0.5 * tanh ((y - 0.5) * π) / tanh (0.5 * π)

/-- `benchmarks/SinusoidalShear2D.h:90-94`. -/
noncomputable def refineBoundaryX (g : Sinusoidal) (x : ℝ) : ℝ := x - 0.019 * g.ampl / 0.49 * sin (4 * π * x)

/-- `benchmarks/SinusoidalShear2D.h:95-98`. -/
noncomputable def trans (g : Sinusoidal) (x y : ℝ) : ℝ := y * (g.height + g.ampl * sin (2 * π * x))

/-- `benchmarks/SinusoidalShear2D.h:99-101`: `operator()`. -/
noncomputable def map (g : Sinusoidal) (p : ℝ × ℝ) : ℝ × ℝ :=
  (g.wavelength * g.refineBoundaryX p.1, g.trans (g.refineBoundaryX p.1) (refineBoundaryY p.2))

end Sinusoidal

/-- `examples/step-0/LidDrivenCavity2D.h:75-77`. -/
noncomputable def shiftedSine (x : ℝ) : ℝ := 0.5 * (1 + sin (π * x - 0.5 * π))

/-- `examples/step-0/LidDrivenCavity2D.h:78-86`: `trafo`; the assertions are in `cavityAccepted`. -/
noncomputable def cavityTrans (a b x : ℝ) : ℝ :=
  (shiftedSine ((b - a) * x + a) - shiftedSine a) / (shiftedSine b - shiftedSine a)

/-- `examples/step-0/LidDrivenCavity2D.h:79-80`: the assertions on the parameters. -/
def cavityAccepted (a b : ℝ) : Prop := a > 0 ∧ b < 1

/-- `examples/step-0/LidDrivenCavity2D.h:88-90`: `operator()`. -/
noncomputable def cavity (ax bx ay byy : ℝ) (p : ℝ × ℝ) : ℝ × ℝ := (cavityTrans ax bx p.1, cavityTrans ay byy p.2)

/-- `examples/step-0/LidDrivenCavity2D.cpp:37-39`: the transformation the example uses. -/
noncomputable def cavityUsed : ℝ × ℝ → ℝ × ℝ := cavity 0.2 0.9 0.15 0.85

end MeshTransform

end NATriuM
