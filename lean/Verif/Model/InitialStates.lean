import Mathlib.Analysis.SpecialFunctions.Trigonometric.DerivHyp
import Mathlib.Analysis.SpecialFunctions.Pow.Real
import Mathlib.Analysis.SpecialFunctions.ExpDeriv

/-!
# Model: the initial states of the flow problems

The functions `value` of the initial (and inflow) fields on real coordinates; `M_PI` and `4 * atan(1)` are `π`, and the powers of the code are real powers.  A value
that is not a number in the code (a root or a broken power of a negative number, `0 / 0`) is `none`.  The rounding, in particular the
overflow of `sinh` and `cosh` for large arguments, is not modelled.
-/

namespace NATriuM

namespace InitialStates

open Real

/-! ## The Riemann problem in two dimensions -/

/-- `benchmarks/Riemann2D.cpp:41-64`. -/
noncomputable def riemannVelocity (x : ℝ × ℝ) : Fin 2 → ℝ
  | 0 => if x.1 ≤ 1 ∧ x.2 > 1 then 0.42008 else 0
  | 1 => if x.1 > 1 ∧ x.2 ≤ 1 then 0.42008 else 0

/-- `benchmarks/Riemann2D.cpp:66-86`. -/
noncomputable def riemannDensity (x : ℝ × ℝ) : ℝ :=
  if x.1 ≤ 1 ∧ x.2 ≤ 1 then 0.8
  else if x.1 > 1 ∧ x.2 ≤ 1 then 1
  else if x.1 ≤ 1 ∧ x.2 > 1 then 1
  else if x.1 > 1 ∧ x.2 > 1 then 0.5313
  else 0

/-- `benchmarks/Riemann2D.cpp:88-106`. -/
noncomputable def riemannTemperature (x : ℝ × ℝ) : ℝ :=
  if x.1 ≤ 1 ∧ x.2 ≤ 1 then 1.25
  else if x.1 > 1 ∧ x.2 ≤ 1 then 1
  else if x.1 ≤ 1 ∧ x.2 > 1 then 1
  else if x.1 > 1 ∧ x.2 > 1 then 0.7532956685
  else 0

/-! ## Smoothed jumps -/

/-- `examples/step-10/SodShockTube.h:94-99`, `examples/step-12/ShockVortexInteraction.h:96-101`: `calcOffsets`, the pair `(c, d)`. -/
noncomputable def calcOffsets (left right : ℝ) : ℝ × ℝ := (2 * left / (right - left) + 1, right / 2 - left / 2)

/-- `examples/step-10/SodShockTube.cpp:51-53`, `examples/step-12/ShockVortexInteraction.cpp:50-55`, `:94-96`, `:112-113`: a jump from `left`
to `right` at `offset`. -/
noncomputable def profile (left right steepness offset x : ℝ) : ℝ :=
  (tanh (steepness * (x - offset)) + (calcOffsets left right).1) * (calcOffsets left right).2

/-- `examples/step-10/SodShockTube.cpp:47-57`. -/
noncomputable def sodDensity (length : ℤ) (x : ℝ × ℝ) : ℝ := profile 8 1 10000 (length / 2) x.1

/-- `examples/step-10/SodShockTube.cpp:59-71`. -/
noncomputable def sodTemperature (length : ℤ) (x : ℝ × ℝ) : ℝ := profile 1.25 1 10000 (length / 2) x.1

/-! ## The interaction of a shock and a vortex -/

namespace ShockVortex

/-- `examples/step-12/ShockVortexInteraction.h:128`. -/
def shockPosition : ℝ := 30
/-- `examples/step-12/ShockVortexInteraction.h:129`. -/
def shockSteepness : ℝ := 1000000
/-- `examples/step-12/ShockVortexInteraction.h:130`. -/
noncomputable def densityLeft : ℝ := 1.34161490
/-- `examples/step-12/ShockVortexInteraction.h:131`. -/
def densityRight : ℝ := 1
/-- `examples/step-12/ShockVortexInteraction.h:132`. -/
noncomputable def machLeft : ℝ := 0.84217047
/-- `examples/step-12/ShockVortexInteraction.h:133`. -/
noncomputable def machRight : ℝ := 1.2
/-- `examples/step-12/ShockVortexInteraction.h:134`. -/
noncomputable def temperatureLeft : ℝ := 1.12799382716
/-- `examples/step-12/ShockVortexInteraction.h:135`. -/
def temperatureRight : ℝ := 1
/-- `examples/step-12/ShockVortexInteraction.h:136`. -/
def vortexOffset : ℝ := 2

/-- `examples/step-12/ShockVortexInteraction.cpp:62-63`, `:89-90`, `:116-117`: the position relative to the centre of the vortex. -/
noncomputable def rel (x : ℝ × ℝ) : ℝ × ℝ := (x.1 - (shockPosition + vortexOffset), x.2 - 12)

/-- `examples/step-12/ShockVortexInteraction.cpp:64`, `:91`, `:118`. -/
noncomputable def radius (x : ℝ × ℝ) : ℝ := sqrt ((rel x).1 * (rel x).1 + (rel x).2 * (rel x).2)

/-- `examples/step-12/ShockVortexInteraction.cpp:45`: the velocity left of the shock. -/
noncomputable def velocityLeft : ℝ := -machLeft / sqrt 3 * sqrt (1.4 * temperatureLeft)

/-- `examples/step-12/ShockVortexInteraction.cpp:46`: the velocity right of the shock. -/
noncomputable def velocityRight : ℝ := -machRight / sqrt 3 * sqrt (1.4 * temperatureRight)

/-- `examples/step-12/ShockVortexInteraction.cpp:121`, and the basis of the power in `:100`: the factor the vortex puts on the
temperature. -/
noncomputable def vortexFactor (maV r : ℝ) : ℝ := 1 - (1.4 - 1) / 2 * maV * maV * exp (1 - r * r)

/-- `examples/step-12/ShockVortexInteraction.cpp:108-126`. -/
noncomputable def temperature (maV : ℝ) (x : ℝ × ℝ) : ℝ :=
  if radius x ≤ 5 then profile temperatureLeft temperatureRight shockSteepness shockPosition x.1 * vortexFactor maV (radius x)
  else profile temperatureLeft temperatureRight shockSteepness shockPosition x.1

/-- `examples/step-12/ShockVortexInteraction.cpp:86-103`; a broken power of a negative number is not a number. -/
noncomputable def density (maV : ℝ) (x : ℝ × ℝ) : Option ℝ :=
  if radius x ≤ 5 then
    if vortexFactor maV (radius x) < 0 then none
    else some (profile densityLeft densityRight shockSteepness shockPosition x.1 * vortexFactor maV (radius x) ^ (1 / (1.4 - 1) : ℝ))
  else some (profile densityLeft densityRight shockSteepness shockPosition x.1)

/-- `examples/step-12/ShockVortexInteraction.cpp:53-59`: the velocity without the vortex. -/
noncomputable def shockVelocity (x : ℝ × ℝ) : Fin 2 → ℝ
  | 0 => profile velocityLeft velocityRight shockSteepness shockPosition x.1
  | 1 => 0

/-- `examples/step-12/ShockVortexInteraction.cpp:70`: the speed of the vortex (for a temperature that is not negative). -/
noncomputable def vortexSpeed (maV : ℝ) (x : ℝ × ℝ) : ℝ := maV / sqrt 3 * sqrt (1.4 * temperature maV x)

/-- `examples/step-12/ShockVortexInteraction.cpp:65-66`, `:71-77`: what the vortex adds (for a radius other than zero). -/
noncomputable def vortexVelocity (maV : ℝ) (x : ℝ × ℝ) : Fin 2 → ℝ
  | 0 => -(radius x * vortexSpeed maV x * ((rel x).2 / radius x) * exp ((1 - radius x * radius x) / 2))
  | 1 => radius x * vortexSpeed maV x * ((rel x).1 / radius x) * exp ((1 - radius x * radius x) / 2)

/-- `examples/step-12/ShockVortexInteraction.cpp:41-83`: not a number in the centre of the vortex (`0 / 0`) and where the temperature is
negative. -/
noncomputable def velocity (maV : ℝ) (x : ℝ × ℝ) (component : Fin 2) : Option ℝ :=
  if radius x ≤ 5 then
    if radius x = 0 ∨ 1.4 * temperature maV x < 0 then none
    else some (shockVelocity x component + vortexVelocity maV x component)
  else some (shockVelocity x component)

end ShockVortex

/-! ## The droplet -/

/-- `benchmarks/Droplet2D.h:50-92`, `benchmarks/Droplet2D.cpp:21-24`: the parameters; the assertions on them are commented out
(`benchmarks/Droplet2D.cpp:25-29`). -/
structure Droplet where
  length : ℝ
  height : ℝ
  rhoL : ℝ
  rhoG : ℝ
  W : ℝ
  R0 : ℝ

/-- `benchmarks/Droplet2D.cpp:115-116`. -/
noncomputable def Droplet.dist (d : Droplet) (x : ℝ × ℝ) : ℝ := sqrt ((x.1 - 0.5 * d.length) ^ 2 + (x.2 - 0.5 * d.height) ^ 2)

/-- `benchmarks/Droplet2D.cpp:95-123`; a division by `W = 0` is `none`. -/
noncomputable def Droplet.density (d : Droplet) (x : ℝ × ℝ) : Option ℝ :=
  if d.W = 0 then none
  else some (0.5 * (d.rhoL + d.rhoG) -
    0.5 * (d.rhoL - d.rhoG) * sinh ((d.dist x - d.R0) / d.W) / cosh ((d.dist x - d.R0) / d.W))

/-! ## Smooth propagation of a density wave -/

/-- `examples/step-13/SmoothDensityPropagation.cpp:55-64`. -/
noncomputable def smoothDensity (L U t : ℝ) (x : ℝ × ℝ) : ℝ :=
  1 + 0.2 * (sin (2 * π * x.1 / L - 2 * π * U * t) * sin (x.2 * (2 * π) / L))

/-- `examples/step-13/SmoothDensityPropagation.cpp:39-43`. -/
noncomputable def smoothTemperature (L U t : ℝ) (x : ℝ × ℝ) : ℝ := 1 / smoothDensity L U t x

/-- `examples/step-13/SmoothDensityPropagation.cpp:45-53`. -/
def smoothVelocity (U : ℝ) (_x : ℝ × ℝ) : Fin 2 → ℝ
  | 0 => U
  | 1 => 0

/-- The length and the velocity of the driver, `examples/step-13/sdp.cpp:71-72`, `:76-78`; `horizontal` is the command line argument. -/
noncomputable def smoothDriverVelocity (horizontal : ℝ) : ℝ := horizontal * sqrt 1.4 / sqrt 3

/-- `examples/step-13/sdp.cpp:102`: the end time of the driver, `none` for the division by zero. -/
noncomputable def smoothDriverEnd (horizontal : ℝ) : Option ℝ :=
  if horizontal = 0 then none else some (1 / horizontal / (sqrt 1.4 / sqrt 3))

/-! ## The backward facing step -/

/-- `benchmarks/BackwardFacingStep2D.h:36-47`, `benchmarks/BackwardFacingStep2D.cpp:139-148`: the inflow velocity; `none` is the division
by zero if the step is as high as the domain. -/
noncomputable def stepInflow (hStep hDomain uAverage : ℝ) (x : ℝ × ℝ) : Fin 2 → Option ℝ
  | 0 => if hDomain = hStep then none
    else some (-uAverage * 1.5 * 4 * (x.2 - hDomain) * (x.2 - hStep) / (hDomain - hStep) ^ 2)
  | 1 => some 0

/-- `benchmarks/BackwardFacingStep2D.cpp:150-161`: the initial velocity (`FASTER_CONVERGENCE_INIT` is not defined). -/
def stepInitialVelocity (_x : ℝ × ℝ) (_component : Fin 2) : ℝ := 0

/-- `benchmarks/BackwardFacingStep2D.cpp:28`: the function given to the problem as its initial density is the initial velocity, whose first
component is evaluated. -/
def stepInitialDensity (x : ℝ × ℝ) : ℝ := stepInitialVelocity x 0

/-! ## Decaying turbulence and the mixing layer -/

/-- One wave of `examples/step-decayingTurbulence2D/DecayingTurbulence2D.cpp:98-118`: the two wave numbers, which the code draws from a
normal distribution (`:103`, `:108`). -/
structure Wave where
  n : ℝ
  m : ℝ

/-- `examples/step-decayingTurbulence2D/DecayingTurbulence2D.cpp:109-113`: the amplitude of the stream function, for a
wave other than `0, 0` (there the code divides zero by zero). -/
noncomputable def Wave.psi (w : Wave) : ℝ :=
  let k := sqrt (w.n * w.n + w.m * w.m)
  1e-9 * k ^ 6 / (1 + (k / 4) ^ (17 + 1)) / (k * k)

/-- `examples/step-decayingTurbulence2D/DecayingTurbulence2D.cpp:114`. -/
noncomputable def Wave.sine (w : Wave) (x y : ℝ) : ℝ := sin (2 * π * w.n * x + 2 * π * w.m * y)

/-- `examples/step-decayingTurbulence2D/DecayingTurbulence2D.cpp:98-124`, the first component; the sum over the waves drawn.  That the waves
are the same at every point (the seed is set at `:100`) is assumed. -/
noncomputable def turbulenceU (ws : List Wave) (x y : ℝ) : ℝ := (ws.map fun w => -w.psi * 2 * π * w.m * w.sine x y).sum

/-- The same, second component. -/
noncomputable def turbulenceV (ws : List Wave) (x y : ℝ) : ℝ := (ws.map fun w => w.psi * 2 * π * w.n * w.sine x y).sum

/-- `examples/step-mixingLayer3D/MixingLayer3D.cpp:38-51`. -/
noncomputable def mixingVelocity (x : ℝ × ℝ × ℝ) : Fin 3 → ℝ
  | 0 => tanh (-x.2.1 / (2 * 1))
  | _ => 0

/-- `examples/step-mixingLayer3D/MixingLayer3D.cpp:110-124`: the velocity of the equilibrium boundaries 2 (below) and 3 (above). -/
def mixingBoundary (above : Bool) : Fin 3 → ℝ
  | 0 => if above then -1 else 1
  | _ => 0

end InitialStates

end NATriuM
