import Mathlib.Data.Rat.Floor
import Mathlib.Analysis.SpecialFunctions.Pow.Real
import Mathlib.Analysis.SpecialFunctions.Trigonometric.Inverse
import Mathlib.Algebra.BigOperators.Fin

/-!
# Synthetic turbulence: initial velocities of the turbulent channel

`E` is `src/examples/step-turbulentChannel`.  Not modelled: the second formula for the mean velocity (`meanVelocityMethodID == 2`,
`E/TurbulentChannelFlow3D.cpp:226-321`), which is never selected (`:189`), and the blending function, which is the constant 1 (`:637`).  Doubles are
rational or real numbers; `int` has 32 bits and an overflow is an error.
-/

namespace NATriuM.Channel

/-- what C++ leaves undefined -/
inductive Undefined where
  /-- an `int` that does not fit, or a double converted to one -/
  | overflow
  /-- an index behind the end of a vector -/
  | bounds
  deriving DecidableEq, Repr

/-! ## The random numbers -/

/-- the result of an operation on `int`s -/
def int32 (z : ℤ) : Except Undefined ℤ := if -2147483648 ≤ z ∧ z ≤ 2147483647 then .ok z else .error .overflow

/-- `iy` and `iv`, the state that `randf_2` is handed by reference, `E/TurbulentChannelFlow3D.cpp:505-506` -/
structure Rng where
  iy : ℤ
  iv : List ℤ
  deriving DecidableEq, Repr

/-- `iy = 0` and 32 zeros, `E/TurbulentChannelFlow3D.cpp:505-506` -/
def Rng.initial : Rng := ⟨0, List.replicate 32 0⟩

/-- `k = floor(idum/iq); idum = ia*(idum-k*iq)-ir*k`, with division of `int`s, `E/TurbulentChannelFlow3D.cpp:741-742, 753-754`, constants `:725-729` -/
def schrage (idum : ℤ) : Except Undefined ℤ := do
  let k := idum.tdiv 127773
  let kq ← int32 (k * 127773)
  let r ← int32 (idum - kq)
  let a ← int32 (16807 * r)
  let b ← int32 (2836 * k)
  int32 (a - b)

/-- `if (idum < 0) idum = idum+im`, `E/TurbulentChannelFlow3D.cpp:743-745` -/
def wrapNegative (z : ℤ) : Except Undefined ℤ := if z < 0 then int32 (z + 2147483647) else .ok z

/-- `if (idum <= 0) idum = idum+im`, `E/TurbulentChannelFlow3D.cpp:756-758` -/
def wrapNonpositive (z : ℤ) : Except Undefined ℤ := if z ≤ 0 then int32 (z + 2147483647) else .ok z

/-- `iv[j] = z` -/
def store (iv : List ℤ) (j : ℕ) (z : ℤ) : Except Undefined (List ℤ) := if j < iv.length then .ok (iv.set j z) else .error .bounds

/-- `if (j <= ntab) iv[j-1] = idum` for `j + 1`, `E/TurbulentChannelFlow3D.cpp:746-748` -/
def storeLast (iv : List ℤ) (j : ℕ) (z : ℤ) : Except Undefined (List ℤ) := if j + 1 ≤ 32 then store iv j z else .ok iv

/-- the loop that fills the table, `E/TurbulentChannelFlow3D.cpp:740-749`, for `j`, `j - 1`, …, 1 -/
def fillTable : ℕ → ℤ → List ℤ → Except Undefined (ℤ × List ℤ)
  | 0, idum, iv => .ok (idum, iv)
  | j + 1, idum, iv => do
    let z ← schrage idum
    let z ← wrapNegative z
    let iv ← storeLast iv j z
    fillTable j z iv

/-- `iv[j]` -/
def fetch (iv : List ℤ) (j : ℤ) : Except Undefined ℤ :=
  if 0 ≤ j then match iv[j.toNat]? with
    | some z => .ok z
    | none => .error .bounds
  else .error .bounds

/-- `E/TurbulentChannelFlow3D.cpp:738-751`: start with a seed that is not positive, or if `iy` is zero -/
def begin (idum : ℤ) (s : Rng) : Except Undefined (ℤ × Rng) :=
  if idum ≤ 0 ∨ s.iy = 0 then do
    let m ← int32 (-idum)
    let (z, iv) ← fillTable 40 (max m 1) s.iv
    let iy ← fetch iv 0
    .ok (z, ⟨iy, iv⟩)
  else .ok (idum, s)

/-- `randf_2`, `E/TurbulentChannelFlow3D.cpp:723-765`: `ran1`, `iseed` and the new state.  `ndiv` is a double (`:726, 731`). -/
def randf2 (idum : ℤ) (s : Rng) : Except Undefined (ℚ × ℤ × Rng) := do
  let (idum, s) ← begin idum s
  let z ← schrage idum
  let z ← wrapNonpositive z
  let j := ⌊(s.iy : ℚ) / (1 + (2147483647 - 1) / 32)⌋
  let iy ← fetch s.iv j
  let iv ← store s.iv j.toNat z
  .ok (min (1 / 2147483647 * (iy : ℚ)) (1 - 12 / 10 ^ 8), z, ⟨iy, iv⟩)

/-- `randf_1`, `E/TurbulentChannelFlow3D.cpp:697-707`: the numbers `ran1` of the `nmd` calls, the last seed and the state -/
def randf1 : ℕ → ℤ → Rng → Except Undefined (List ℚ × ℤ × Rng)
  | 0, idum, s => .ok ([], idum, s)
  | n + 1, idum, s => do
    let (r, z, s) ← randf2 idum s
    let (rs, z, s) ← randf1 n z s
    .ok (r :: rs, z, s)

/-- `out[j]`, `E/TurbulentChannelFlow3D.cpp:705` -/
noncomputable def scaled (low high : ℝ) (r : ℚ) : ℝ := r * (high - low) + low

/-- the random angles -/
structure Angles where
  fi : List ℝ
  psi : List ℝ
  alfa : List ℝ
  teta : List ℝ

/-- `angles`, `E/TurbulentChannelFlow3D.cpp:679-692`, called with the state of `:505-506` and the seed of `:502` -/
noncomputable def angles (nmodes : ℕ) (iseed : ℤ) (s : Rng) : Except Undefined Angles := do
  let (fi, z, s) ← randf1 nmodes iseed s
  let (psi, z, s) ← randf1 nmodes z s
  let (alfa, z, s) ← randf1 nmodes z s
  let (ang, _, _) ← randf1 nmodes z s
  let circle := scaled 0 (2 * Real.pi)
  .ok ⟨fi.map circle, psi.map circle, alfa.map circle, ang.map fun r => Real.arccos (1 - scaled 0 1 r / (1 / 2))⟩

/-! ## The perturbation -/

/-- What the initial velocities use of the channel; `length` is `getCharacteristicLength()`. -/
structure Flow where
  length : ℝ
  viscosity : ℝ
  uCl : ℝ
  reTau : ℝ
  refinementLevel : ℕ
  repetitionsY : ℕ

namespace Flow

variable (F : Flow)

/-- `urms`, `E/TurbulentChannelFlow3D.cpp:458-459` -/
noncomputable def urms : ℝ := 15 / 100 * F.uCl

/-- `sli`, `E/TurbulentChannelFlow3D.cpp:461, 486` -/
noncomputable def sli : ℝ := 5 / 32 * F.length

/-- `amp`, `E/TurbulentChannelFlow3D.cpp:481` -/
noncomputable def amp : ℝ := 1452762113 / 10 ^ 9

/-- `wnrn`, the highest wave number, `E/TurbulentChannelFlow3D.cpp:490-491` -/
noncomputable def wnrn : ℝ := 2 * Real.pi / (F.length / (3 * 2 ^ F.refinementLevel * F.repetitionsY))

/-- `wnre`, `E/TurbulentChannelFlow3D.cpp:492` -/
noncomputable def wnre : ℝ := 9 * Real.pi * amp / (55 * F.sli)

/-- `wnreta`, `E/TurbulentChannelFlow3D.cpp:460, 487, 493` -/
noncomputable def wnreta : ℝ := ((3 / 2 * F.urms ^ 2) ^ (3 / 2 : ℝ) / F.sli / F.viscosity ^ 3) ^ (1 / 4 : ℝ)

/-- `dkl`, the step of the wave numbers, `E/TurbulentChannelFlow3D.cpp:478, 496-497` -/
noncomputable def dkl (nmodes : ℕ) : ℝ := (F.wnrn - F.wnre / 1) / nmodes

/-- the loop that fills `wnrf`, `E/TurbulentChannelFlow3D.cpp:532-535`: the indices `0, …, nmodes` of a vector of `capacity` numbers -/
noncomputable def wavenumberFaces (capacity nmodes : ℕ) : Except Undefined (ℕ → ℝ) :=
  if nmodes < capacity then .ok fun m => F.wnre / 1 + F.dkl nmodes * m else .error .bounds

/-- A mode: wave vector of unit length (`kxio`, …), direction (`sxio`, …), phase, wave number and width of the interval around it -/
structure Mode where
  k : Fin 3 → ℝ
  s : Fin 3 → ℝ
  psi : ℝ
  wnr : ℝ
  dkn : ℝ

/-- the wave vectors and directions, `E/TurbulentChannelFlow3D.cpp:538-556` -/
noncomputable def mode (faces : ℕ → ℝ) (m : ℕ) (fi psi alfa teta : ℝ) : Mode where
  k := ![Real.sin teta * Real.cos fi, Real.sin teta * Real.sin fi, Real.cos teta]
  s := ![Real.cos fi * Real.cos teta * Real.cos alfa - Real.sin fi * Real.sin alfa,
    Real.sin fi * Real.cos teta * Real.cos alfa + Real.cos fi * Real.sin alfa, -Real.sin teta * Real.cos alfa]
  psi := psi
  wnr := 1 / 2 * (faces (m + 1) + faces m)
  dkn := faces (m + 1) - faces m

/-- `e`, the energy spectrum, `E/TurbulentChannelFlow3D.cpp:588-589` -/
noncomputable def spectrum (k : ℝ) : ℝ :=
  amp / F.wnre * (k / F.wnre) ^ 3 / (1 + (k / F.wnre) ^ 2) ^ (17 / 6 : ℝ) * Real.exp (-2 * (k / F.wnreta) ^ 2)

/-- `rk`, `E/TurbulentChannelFlow3D.cpp:574-577` -/
noncomputable def Mode.norm (M : Mode) : ℝ :=
  Real.sqrt ((M.k 0 * M.wnr) ^ 2 + (M.k 1 * M.wnr) ^ 2 + (M.k 2 * M.wnr) ^ 2)

/-- what a mode adds to a component, `E/TurbulentChannelFlow3D.cpp:574-599` -/
noncomputable def contribution (M : Mode) (x : Fin 3 → ℝ) (a : Fin 3) : ℝ :=
  open scoped Classical in
  if M.norm < F.wnrn then
    2 * (F.urms * Real.sqrt (F.spectrum M.wnr * M.dkn)) *
      Real.cos (M.k 0 * M.wnr * x 0 + M.k 1 * M.wnr * x 1 + M.k 2 * M.wnr * x 2 + M.psi) * M.s a
  else 0

/-- the modes, from angles and wave numbers, `E/TurbulentChannelFlow3D.cpp:538-556` -/
noncomputable def modes (faces : ℕ → ℝ) (A : Angles) (nmodes : ℕ) : List Mode :=
  (List.range nmodes).map fun m => mode faces m (A.fi.getD m 0) (A.psi.getD m 0) (A.alfa.getD m 0) (A.teta.getD m 0)

/-- `InitialVelocity::value`, `E/TurbulentChannelFlow3D.cpp:440-659`, with room for `capacity` wave numbers -/
noncomputable def initialVelocityIn (capacity nmodes : ℕ) : Except Undefined ((Fin 3 → ℝ) → Fin 3 → ℝ) := do
  let A ← angles nmodes (-50) .initial
  let faces ← F.wavenumberFaces capacity nmodes
  .ok fun x a => ((modes faces A nmodes).map fun M => F.contribution M x a).sum

/-- `InitialVelocity::value` with its 12 modes (`E/TurbulentChannelFlow3D.cpp:471`) and vectors of 12 numbers (`:510`) -/
noncomputable def initialVelocity : Except Undefined ((Fin 3 → ℝ) → Fin 3 → ℝ) := F.initialVelocityIn 12 12

end Flow

/-! ## Made free of divergence -/

section Curl

variable {K : Type*} [Field K]

/-- the difference quotient of a function in direction `b`, `E/TurbulentChannelFlow3D.cpp:364-384` -/
def quotient (h : K) (u : (Fin 3 → K) → K) (b : Fin 3) (x : Fin 3 → K) : K := (u (Function.update x b (x b + h)) - u x) / h

/-- `IncompressibleU::value`, `E/TurbulentChannelFlow3D.cpp:352-409`; `h` is `m_increment`, `u` the velocity `m_initialU`.  The maximum that is noted on
the way (`:391-395`) is modelled in `noteMaximum`. -/
def incompressible (h : K) (u : (Fin 3 → K) → Fin 3 → K) (x : Fin 3 → K) : Fin 3 → K :=
  let grad (c b : Fin 3) := quotient h (fun y => u y c) b x
  ![grad 2 1 - grad 1 2, grad 0 2 - grad 2 0, grad 1 0 - grad 0 1]

/-- `m_maxUtrp` and `m_maxIncUtrp` are raised to the largest value seen, `E/TurbulentChannelFlow3D.cpp:391-395, 603-607`; they start from 0 (`:32`) -/
def noteMaximum [LinearOrder K] (values : List K) : K := values.foldl (fun m v => if m < v then v else m) 0

/-- The factor with which a process scales its velocities, `E/step-turbulent-channel.cpp:300-309`, from the values that this process has seen; `none` for
a division by zero. -/
def scalingFactor [LinearOrder K] (seen seenIncompressible : List K) : Option K :=
  if noteMaximum seenIncompressible = 0 then none else some (noteMaximum seen / noteMaximum seenIncompressible)

end Curl

/-! ## The mean velocity -/

namespace Flow

/-- `uPlus` of the mean velocity profile, `E/TurbulentChannelFlow3D.cpp:191-225` -/
noncomputable def uPlus (F : Flow) (y : ℝ) : ℝ :=
  open scoped Classical in
  let yPlus := F.reTau * (min y (F.length - y) / (F.length / 2))
  if yPlus ≤ 5 then yPlus
  else if yPlus > 5 ∧ yPlus < 30 then -(305 / 100) + 5 * Real.log yPlus
  else F.uCl / (F.reTau * F.viscosity / (F.length / 2))

/-- `U`, `E/TurbulentChannelFlow3D.cpp:324` -/
noncomputable def meanU (F : Flow) (y : ℝ) : ℝ := F.uPlus y * (F.reTau * F.viscosity / (F.length / 2))

/-- `MeanVelocityProfile::value`, `E/TurbulentChannelFlow3D.cpp:184-349` -/
noncomputable def meanVelocity (F : Flow) (x : Fin 3 → ℝ) : Fin 3 → ℝ :=
  ![F.meanU (x 1) + 6 / 100 * F.uCl * Real.sin (4 * x 0) + 5 / 100 * Real.cos (x 0) * Real.cos (x 1),
    2 / 100 * F.uCl * Real.sin (2 * x 2) + 5 / 100 * Real.cos (x 0) * Real.cos (x 1),
    12 / 100 * F.uCl * Real.sin (6 * Real.pi * x 1) + 5 / 100 * Real.cos (x 0) * Real.cos (x 1)]

/-- `Fx`, the body force, `E/TurbulentChannelFlow3D.cpp:97-102` -/
def bodyForce {K : Type*} [Field K] (reTau viscosity height : K) : K := (reTau * viscosity / (height / 2)) ^ 2 * 1 / (height / 2)

/-- The channel of the driver, `E/step-turbulent-channel.cpp:114-115, 127-140`: `Re_tau`, `U_cl`, `delta` and `Re_cl` are options of the command line, the
characteristic length is set to 1. -/
noncomputable def driver (reTau uCl delta reCl : ℝ) (refinementLevel repetitionsY : ℕ) : Flow where
  length := 1
  viscosity := uCl * delta / reCl
  uCl := uCl
  reTau := reTau
  refinementLevel := refinementLevel
  repetitionsY := repetitionsY

end Flow

end NATriuM.Channel
