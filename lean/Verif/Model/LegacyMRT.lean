import Verif.Model.LegacyBGK
import Verif.Model.Stabilizer
import Mathlib.Analysis.SpecialFunctions.Log.Basic
import Mathlib.Analysis.Real.Sqrt

/-!
# Model of the class based collision models: multiple relaxation times, KBC and the entropic stabilizer

`P/collision/MRTStandard.cpp`, `P/collision/MRTEntropic.cpp`, `P/collision/KBCStandard.cpp`, `P/collision/KBCCentral.cpp`,
`P/collision/EntropicStabilized.cpp`; `P` stands for `src/library/natrium` in `/repo`.  The functions `…Node` are the bodies of
the loops over the owned degrees of freedom, see `Verif.Model.LegacyBGK`.
-/

namespace NATriuM.Legacy

open Finset

section

variable {K : Type*} [Field K] {D Q : ℕ}

/-- the transformation to moments on D2Q9, `P/collision/MRTStandard.cpp:98-117`; `P/collision/MRTEntropic.cpp:62-80` computes the
entries 0, 1, 3, 5, 7 and 8 -/
def moments (f : Fin 9 → K) : Fin 9 → K :=
  ![f 0 + f 1 + f 2 + f 3 + f 4 + f 5 + f 6 + f 7 + f 8,
    -4 * f 0 - f 1 - f 2 - f 3 - f 4 + 2 * (f 5 + f 6 + f 7 + f 8),
    4 * f 0 - 2 * (f 1 + f 2 + f 3 + f 4) + f 5 + f 6 + f 7 + f 8,
    f 1 - f 3 + f 5 - f 6 - f 7 + f 8,
    -2 * (f 1 - f 3) + f 5 - f 6 - f 7 + f 8,
    f 2 - f 4 + f 5 + f 6 - f 7 - f 8,
    -2 * (f 2 - f 4) + f 5 + f 6 - f 7 - f 8,
    f 1 - f 2 + f 3 - f 4,
    f 5 - f 6 + f 7 - f 8]

/-- `MRTWeights`, `P/collision/MRTStandard.cpp:77-86`, `P/collision/MRTEntropic.cpp:82-91` -/
def mrtWeights : Fin 9 → K := ![9, 36, 36, 6, 12, 6, 12, 4, 4]

/-- the transformation back to populations, `P/collision/MRTStandard.cpp:140-157`, `P/collision/MRTEntropic.cpp:139-156` -/
def backTransform (m : Fin 9 → K) : Fin 9 → K :=
  ![m 0 - 4 * (m 1 - m 2),
    m 0 - m 1 - 2 * (m 2 + m 4) + m 3 + m 7,
    m 0 - m 1 - 2 * (m 2 + m 6) + m 5 - m 7,
    m 0 - m 1 - 2 * (m 2 - m 4) - m 3 + m 7,
    m 0 - m 1 - 2 * (m 2 - m 6) - m 5 - m 7,
    m 0 + m 1 + m 1 + m 2 + m 3 + m 4 + m 5 + m 6 + m 8,
    m 0 + m 1 + m 1 + m 2 - m 3 - m 4 + m 5 + m 6 - m 8,
    m 0 + m 1 + m 1 + m 2 - m 3 - m 4 - m 5 - m 6 + m 8,
    m 0 + m 1 + m 1 + m 2 + m 3 + m 4 - m 5 - m 6 - m 8]

/-- relaxation rates of `MRTStandard`, `P/collision/MRTStandard.cpp:89-95` -/
def standardRates (tau : K) : Fin 9 → K :=
  let s7 := 1 / (tau + 1 / 2)
  let s4 := 8 * (2 - s7) / (8 - s7)
  ![0, 16 / 10, 18 / 10, 0, s4, 0, s4, s7, s7]

/-- equilibrium moments of `MRTStandard`, `P/collision/MRTStandard.cpp:119-132`; what is called `ux`, `uy` there are the momenta -/
def standardMeq (rho ux uy : K) : Fin 9 → K :=
  ![rho, rho * (-2 + 3 * (ux * ux + uy * uy)), rho * (1 - 3 * (ux * ux + uy * uy)), rho * ux, -rho * ux, rho * uy, -rho * uy,
    rho * (ux * ux - uy * uy), rho * ux * uy]

/-- body of `MRTStandard::collideAllD2Q9`, `P/collision/MRTStandard.cpp:57-161`; the density is not checked -/
def mrtStandardD2Q9Node (b : Obj K 2 9) (inInit : Bool) (n : Node K 2 9) : Node K 2 9 :=
  let rho := density n.f
  let u := if inInit then n.u else velocityD2Q9 b.stencil.scaling rho n.f
  let m := moments n.f
  let meq := standardMeq rho (m 3) (m 5)
  let s := standardRates b.tau
  { f := backTransform fun j => (m j - s j * (m j - meq j)) / mrtWeights j, rho := rho, u := u }

/-- equilibrium, relaxed and remaining moments of `MRTEntropic` on D2Q9, `P/collision/MRTEntropic.cpp:107-133` -/
def entropicMoments (tau : K) (m : Fin 9 → K) : Fin 9 → K :=
  let rho := m 0
  let jx := m 3
  let jy := m 5
  let relax := -1 / (tau + 1 / 2)
  let m1 := m 1 + relax * (m 1 - (-2 * rho + 3 / rho * (jx * jx + jy * jy)))
  let m7 := m 7 + relax * (m 7 - (jx * jx - jy * jy))
  let m8 := m 8 + relax * (m 8 - jx * jy)
  ![rho, m1, -rho - m1, jx, -jx, jy, -jy, m7, m8]

/-- the table `tm`, `P/collision/MRTEntropic.cpp:172-201` -/
def tm : Fin 19 → Fin 19 → ℚ :=
  ![![1, 1, 1, 1, 1, 1, 1, 1, 1, 1, 1, 1, 1, 1, 1, 1, 1, 1, 1],
    ![-30, -11, -11, -11, -11, -11, -11, 8, 8, 8, 8, 8, 8, 8, 8, 8, 8, 8, 8],
    ![12, -4, -4, -4, -4, -4, -4, 1, 1, 1, 1, 1, 1, 1, 1, 1, 1, 1, 1],
    ![0, 1, -1, 0, 0, 0, 0, 1, -1, 1, -1, 1, -1, 1, -1, 0, 0, 0, 0],
    ![0, -4, 4, 0, 0, 0, 0, 1, -1, 1, -1, 1, -1, 1, -1, 0, 0, 0, 0],
    ![0, 0, 0, 1, -1, 0, 0, 1, 1, -1, -1, 0, 0, 0, 0, 1, -1, 1, -1],
    ![0, 0, 0, -4, 4, 0, 0, 1, 1, -1, -1, 0, 0, 0, 0, 1, -1, 1, -1],
    ![0, 0, 0, 0, 0, 1, -1, 0, 0, 0, 0, 1, 1, -1, -1, 1, 1, -1, -1],
    ![0, 0, 0, 0, 0, -4, 4, 0, 0, 0, 0, 1, 1, -1, -1, 1, 1, -1, -1],
    ![0, 2, 2, -1, -1, -1, -1, 1, 1, 1, 1, 1, 1, 1, 1, -2, -2, -2, -2],
    ![0, -4, -4, 2, 2, 2, 2, 1, 1, 1, 1, 1, 1, 1, 1, -2, -2, -2, -2],
    ![0, 0, 0, 1, 1, -1, -1, 1, 1, 1, 1, -1, -1, -1, -1, 0, 0, 0, 0],
    ![0, 0, 0, -2, -2, 2, 2, 1, 1, 1, 1, -1, -1, -1, -1, 0, 0, 0, 0],
    ![0, 0, 0, 0, 0, 0, 0, 1, -1, -1, 1, 0, 0, 0, 0, 0, 0, 0, 0],
    ![0, 0, 0, 0, 0, 0, 0, 0, 0, 0, 0, 0, 0, 0, 0, 1, -1, -1, 1],
    ![0, 0, 0, 0, 0, 0, 0, 0, 0, 0, 0, 1, -1, -1, 1, 0, 0, 0, 0],
    ![0, 0, 0, 0, 0, 0, 0, 1, -1, 1, -1, -1, 1, -1, 1, 0, 0, 0, 0],
    ![0, 0, 0, 0, 0, 0, 0, -1, -1, 1, 1, 0, 0, 0, 0, 1, -1, 1, -1],
    ![0, 0, 0, 0, 0, 0, 0, 0, 0, 0, 0, 1, 1, -1, -1, -1, -1, 1, 1]]

/-- the table `invm`, `P/collision/MRTEntropic.cpp:203-221` -/
def invm : Fin 19 → Fin 19 → ℚ :=
  ![![1 / 19, -5 / 399, 1 / 21, 0, 0, 0, 0, 0, 0, 0, 0, 0, 0, 0, 0, 0, 0, 0, 0],
    ![1 / 19, -11 / 2394, -1 / 63, 1 / 10, -1 / 10, 0, 0, 0, 0, 1 / 18, -1 / 18, 0, 0, 0, 0, 0, 0, 0, 0],
    ![1 / 19, -11 / 2394, -1 / 63, -1 / 10, 1 / 10, 0, 0, 0, 0, 1 / 18, -1 / 18, 0, 0, 0, 0, 0, 0, 0, 0],
    ![1 / 19, -11 / 2394, -1 / 63, 0, 0, 1 / 10, -1 / 10, 0, 0, -1 / 36, 1 / 36, 1 / 12, -1 / 12, 0, 0, 0, 0, 0, 0],
    ![1 / 19, -11 / 2394, -1 / 63, 0, 0, -1 / 10, 1 / 10, 0, 0, -1 / 36, 1 / 36, 1 / 12, -1 / 12, 0, 0, 0, 0, 0, 0],
    ![1 / 19, -11 / 2394, -1 / 63, 0, 0, 0, 0, 1 / 10, -1 / 10, -1 / 36, 1 / 36, -1 / 12, 1 / 12, 0, 0, 0, 0, 0, 0],
    ![1 / 19, -11 / 2394, -1 / 63, 0, 0, 0, 0, -1 / 10, 1 / 10, -1 / 36, 1 / 36, -1 / 12, 1 / 12, 0, 0, 0, 0, 0, 0],
    ![1 / 19, 4 / 1197, 1 / 252, 1 / 10, 1 / 40, 1 / 10, 1 / 40, 0, 0, 1 / 36, 1 / 72, 1 / 12, 1 / 24, 1 / 4, 0, 0, 1 / 8, -1 / 8, 0],
    ![1 / 19, 4 / 1197, 1 / 252, -1 / 10, -1 / 40, 1 / 10, 1 / 40, 0, 0, 1 / 36, 1 / 72, 1 / 12, 1 / 24, -1 / 4, 0, 0, -1 / 8, -1 / 8, 0],
    ![1 / 19, 4 / 1197, 1 / 252, 1 / 10, 1 / 40, -1 / 10, -1 / 40, 0, 0, 1 / 36, 1 / 72, 1 / 12, 1 / 24, -1 / 4, 0, 0, 1 / 8, 1 / 8, 0],
    ![1 / 19, 4 / 1197, 1 / 252, -1 / 10, -1 / 40, -1 / 10, -1 / 40, 0, 0, 1 / 36, 1 / 72, 1 / 12, 1 / 24, 1 / 4, 0, 0, -1 / 8, 1 / 8, 0],
    ![1 / 19, 4 / 1197, 1 / 252, 1 / 10, 1 / 40, 0, 0, 1 / 10, 1 / 40, 1 / 36, 1 / 72, -1 / 12, -1 / 24, 0, 0, 1 / 4, -1 / 8, 0, 1 / 8],
    ![1 / 19, 4 / 1197, 1 / 252, -1 / 10, -1 / 40, 0, 0, 1 / 10, 1 / 40, 1 / 36, 1 / 72, -1 / 12, -1 / 24, 0, 0, -1 / 4, 1 / 8, 0, 1 / 8],
    ![1 / 19, 4 / 1197, 1 / 252, 1 / 10, 1 / 40, 0, 0, -1 / 10, -1 / 40, 1 / 36, 1 / 72, -1 / 12, -1 / 24, 0, 0, -1 / 4, -1 / 8, 0, -1 / 8],
    ![1 / 19, 4 / 1197, 1 / 252, -1 / 10, -1 / 40, 0, 0, -1 / 10, -1 / 40, 1 / 36, 1 / 72, -1 / 12, -1 / 24, 0, 0, 1 / 4, 1 / 8, 0, -1 / 8],
    ![1 / 19, 4 / 1197, 1 / 252, 0, 0, 1 / 10, 1 / 40, 1 / 10, 1 / 40, -1 / 18, -1 / 36, 0, 0, 0, 1 / 4, 0, 0, 1 / 8, -1 / 8],
    ![1 / 19, 4 / 1197, 1 / 252, 0, 0, -1 / 10, -1 / 40, 1 / 10, 1 / 40, -1 / 18, -1 / 36, 0, 0, 0, -1 / 4, 0, 0, -1 / 8, -1 / 8],
    ![1 / 19, 4 / 1197, 1 / 252, 0, 0, 1 / 10, 1 / 40, -1 / 10, -1 / 40, -1 / 18, -1 / 36, 0, 0, 0, -1 / 4, 0, 0, 1 / 8, 1 / 8],
    ![1 / 19, 4 / 1197, 1 / 252, 0, 0, -1 / 10, -1 / 40, -1 / 10, -1 / 40, -1 / 18, -1 / 36, 0, 0, 0, 1 / 4, 0, 0, -1 / 8, 1 / 8]]

end

section

variable {K : Type*} [Field K] [LinearOrder K] {D Q : ℕ}

/-- body of `MRTEntropic::collideAllD2Q9`, `P/collision/MRTEntropic.cpp:54-158`; the check is on the stored density, which is
overwritten afterwards -/
def mrtEntropicD2Q9Node (b : Obj K 2 9) (inInit : Bool) (n : Node K 2 9) : Except CollError (Node K 2 9) :=
  if n.rho < 1 / 10 ^ 10 then .error .densityTooSmall
  else
    let m := moments n.f
    let u : Fin 2 → K := if inInit then n.u else ![b.stencil.scaling / m 0 * m 3, b.stencil.scaling / m 0 * m 5]
    let m' := entropicMoments b.tau m
    .ok { f := backTransform fun j => m' j / mrtWeights j, rho := m 0, u := u }

/-- the moments on D3Q19, `P/collision/MRTEntropic.cpp:241-246` -/
def moments19 (f : Fin 19 → K) : Fin 19 → K := fun p => ∑ q, (tm p q : K) * f q

/-- equilibrium, relaxed and remaining moments of `MRTEntropic` on D3Q19, `P/collision/MRTEntropic.cpp:262-296` -/
def entropicMoments19 (tau : K) (m : Fin 19 → K) : Fin 19 → K :=
  let rho := m 0
  let jx := m 3
  let jy := m 5
  let jz := m 7
  let relax := -1 / (tau + 1 / 2)
  let m1 := m 1 + relax * (m 1 - (-11 * rho + 19 / rho * (jx * jx + jy * jy + jz * jz)))
  let m9 := m 9 + relax * (m 9 - 1 / rho * (2 * jx * jx - (jy * jy + jz * jz)))
  let m11 := m 11 + relax * (m 11 - 1 / rho * (jy * jy - jz * jz))
  let m13 := m 13 + relax * (m 13 - 1 / rho * jx * jy)
  let m14 := m 14 + relax * (m 14 - 1 / rho * jy * jz)
  let m15 := m 15 + relax * (m 15 - 1 / rho * jx * jz)
  ![rho, m1, -7 / 38 * rho - 11 / 38 * m1, jx, -2 / 3 * jx, jy, -2 / 3 * jy, jz, -2 / 3 * jz, m9, -1 / 2 * m9, m11, -1 / 2 * m11,
    m13, m14, m15, 0, 0, 0]

/-- body of `MRTEntropic::collideAllD3Q19`, `P/collision/MRTEntropic.cpp:233-305` -/
def mrtEntropicD3Q19Node (b : Obj K 3 19) (inInit : Bool) (n : Node K 3 19) : Except CollError (Node K 3 19) :=
  if n.rho < 1 / 10 ^ 10 then .error .densityTooSmall
  else
    let m := moments19 n.f
    let c := b.stencil.scaling / m 0
    let u : Fin 3 → K := if inInit then n.u else ![c * m 3, c * m 5, c * m 7]
    let m' := entropicMoments19 b.tau m
    .ok { f := fun p => ∑ q, (invm p q : K) * m' q, rho := m 0, u := u }

/-! ## KBC -/

/-- `beta`, `P/collision/KBCStandard.cpp:424, 983`, `P/collision/KBCCentral.cpp:407` -/
def kbcBeta (tau : K) : K := 1 / (tau + 1 / 2) / 2

/-- The second half of all KBC collisions: deviations, entropic scalar products, stabilizer and update,
`P/collision/KBCStandard.cpp:350-490`, `P/collision/KBCStandard.cpp:887-1023`, `P/collision/KBCCentral.cpp:332-474`.  `s`,
`seq` are the shear parts of `f` and `feq`, `k` the kinematic part; `h = f - k - s`
(`P/collision/KBCStandard.cpp:232-240, 713-727`, `P/collision/KBCCentral.cpp:196-204`). -/
def kbcUpdate (tau : K) (f feq k s seq : Fin Q → K) : Fin Q → K :=
  let h : Fin Q → K := fun i => f i - k i - s i
  let heq : Fin Q → K := fun i => feq i - k i - seq i
  let deltaS : Fin Q → K := fun i => s i - seq i
  let deltaH : Fin Q → K := fun i => h i - heq i
  let sumS := ∑ i, deltaS i * deltaH i / feq i
  let sumH := ∑ i, deltaH i * deltaH i / feq i
  let beta := kbcBeta tau
  let gamma := if sumH < 1 / 10 ^ 16 then 2 else 1 / beta - (2 - 1 / beta) * (sumS / sumH)
  fun i => f i - beta * (2 * deltaS i + gamma * deltaH i)

/-- the shear part on D2Q9 in terms of raw moments, `P/collision/KBCStandard.cpp:140-153, 184-192` for `f` and
`P/collision/KBCStandard.cpp:275-285, 301-309` for `feq` -/
def kbcShearD2Q9 (rho : K) (f : Fin 9 → K) : Fin 9 → K :=
  let T := (f 1 + f 2 + f 3 + f 4 + 2 * (f 5 + f 6 + f 7 + f 8)) / rho
  let N := (f 1 - f 2 + f 3 - f 4) / rho
  let Pi := (f 5 - f 6 + f 7 - f 8) / rho
  ![-rho * T, 1 / 2 * rho * (1 / 2) * (T + N), 1 / 2 * rho * (1 / 2) * (T - N), 1 / 2 * rho * (1 / 2) * (T + N),
    1 / 2 * rho * (1 / 2) * (T - N), 1 / 4 * rho * Pi, 1 / 4 * rho * -Pi, 1 / 4 * rho * Pi, 1 / 4 * rho * -Pi]

/-- the kinematic part on D2Q9, `P/collision/KBCStandard.cpp:166-177` -/
def kbcKinematicD2Q9 (rho ux uy : K) : Fin 9 → K :=
  ![rho, 1 / 2 * rho * ux, 1 / 2 * rho * uy, 1 / 2 * rho * -ux, 1 / 2 * rho * -uy, 0, 0, 0, 0]

/-- the shear part on D3Q15, `P/collision/KBCStandard.cpp:594-605, 637-639, 663-678` for `f` and
`P/collision/KBCStandard.cpp:785-797, 829-831, 837-852` for `feq` -/
def kbcShearD3Q15 (rho : K) (f : Fin 15 → K) : Fin 15 → K :=
  let T := (f 1 + f 2 + f 3 + f 4 + f 5 + f 6 + 3 * f 7 + 3 * f 8 + 3 * f 9 + 3 * f 10 + 3 * f 11 + 3 * f 12 + 3 * f 13
    + 3 * f 14) / rho
  let Nxz := (f 1 + f 2 - f 5 - f 6) / rho
  let Nyz := (f 3 + f 4 - f 5 - f 6) / rho
  let Qxyz := (f 7 - f 8 - f 9 + f 10 - f 11 + f 12 + f 13 - f 14) / rho
  let s1 := 1 / 6 * rho * (2 * Nxz - Nyz + T)
  let s3 := 1 / 6 * rho * (-Nxz + 2 * Nyz + T)
  let s5 := 1 / 6 * rho * (-Nxz - Nyz + T)
  let s7 := 1 / 8 * rho * Qxyz
  ![rho * -T, s1, s1, s3, s3, s5, s5, s7, -s7, -s7, s7, -s7, s7, s7, -s7]

/-- the kinematic part on D3Q15, `P/collision/KBCStandard.cpp:646-661` -/
def kbcKinematicD3Q15 (rho ux uy uz : K) : Fin 15 → K :=
  ![rho, rho / 6 * (3 * ux), rho / 6 * (3 * -ux), rho / 6 * (3 * uy), rho / 6 * (3 * -uy), rho / 6 * (3 * uz), rho / 6 * (3 * -uz),
    0, 0, 0, 0, 0, 0, 0, 0]

/-- body of `KBCStandard::collideAllD3Q15`, `P/collision/KBCStandard.cpp:560-1025`: the term with the square of the velocity is
formed from `u / scaling` (lines 590-592, 730-731) but divided by the scaled `cs2` -/
def kbcStandardD3Q15Node (b : Obj K 3 15) (inInit : Bool) (n : Node K 3 15) : Except CollError (Node K 3 15) :=
  let rho := density n.f
  if rho < 1 / 10 ^ 10 then .error .densityTooSmall
  else
    let c := b.stencil.scaling
    let u := if inInit then n.u else velocityD3Q15 c rho n.f
    let ux := u 0 / c
    let uy := u 1 / c
    let uz := u 2 / c
    let feq := termsD3Q15 (c / b.stencil.cs2) (-(ux * ux + uy * uy + uz * uz) / (2 * b.stencil.cs2)) rho u
    .ok { f := kbcUpdate b.tau n.f feq (kbcKinematicD3Q15 rho ux uy uz) (kbcShearD3Q15 rho n.f) (kbcShearD3Q15 rho feq),
          rho := rho, u := u }

/-- central moments `moments[p][q]`, `P/collision/KBCCentral.cpp:88-106, 247-263` -/
def centralMoment (S : Stencil K 2 9) (ux uy : K) (f : Fin 9 → K) (p q : ℕ) : K :=
  ∑ j, (S.dir j 0 / S.scaling - ux) ^ p * (S.dir j 1 / S.scaling - uy) ^ q * f j

/-- the shear part in terms of the central moments, `P/collision/KBCCentral.cpp:147-191, 288-330` -/
def centralShearOf (rho ux uy T N Pi : K) : Fin 9 → K :=
  let u2 := ux * ux + uy * uy
  ![rho * (4 * ux * uy * Pi - 1 / 2 * (ux * ux - uy * uy) * N + 1 / 2 * (u2 - 2) * T),
    1 / 2 * rho * (1 / 2 * (1 + 1 * ux + ux * ux - uy * uy) * N - (2 * 1 * uy + 4 * ux * uy) * Pi + 1 / 2 * (1 - 1 * ux - u2) * T),
    1 / 2 * rho * (1 / 2 * (-1 - 1 * uy + ux * ux - uy * uy) * N - (2 * 1 * ux + 4 * ux * uy) * Pi + 1 / 2 * (1 - 1 * uy - u2) * T),
    1 / 2 * rho * (1 / 2 * (1 - 1 * ux + ux * ux - uy * uy) * N - (2 * -1 * uy + 4 * ux * uy) * Pi + 1 / 2 * (1 + 1 * ux - u2) * T),
    1 / 2 * rho * (1 / 2 * (-1 + 1 * uy + ux * ux - uy * uy) * N - (2 * -1 * ux + 4 * ux * uy) * Pi + 1 / 2 * (1 + 1 * uy - u2) * T),
    1 / 4 * rho * ((4 * ux * uy + 1 * 1 + 2 * 1 * uy + 2 * 1 * ux) * Pi + 1 / 2 * (-ux * ux + uy * uy - 1 * ux + 1 * uy) * N
      + 1 / 2 * (u2 + 1 * ux + 1 * uy) * T),
    1 / 4 * rho * ((4 * ux * uy + -1 * 1 + 2 * -1 * uy + 2 * 1 * ux) * Pi + 1 / 2 * (-ux * ux + uy * uy + 1 * ux + 1 * uy) * N
      + 1 / 2 * (u2 + -1 * ux + 1 * uy) * T),
    1 / 4 * rho * ((4 * ux * uy + -1 * -1 + 2 * -1 * uy + 2 * -1 * ux) * Pi + 1 / 2 * (-ux * ux + uy * uy + 1 * ux - 1 * uy) * N
      + 1 / 2 * (u2 + -1 * ux - 1 * uy) * T),
    1 / 4 * rho * ((4 * ux * uy + 1 * -1 + 2 * 1 * uy + 2 * -1 * ux) * Pi + 1 / 2 * (-ux * ux + uy * uy - 1 * ux - 1 * uy) * N
      + 1 / 2 * (u2 + 1 * ux - 1 * uy) * T)]

/-- the shear part of `f` (`P/collision/KBCCentral.cpp:111-121, 147-191`) or of `feq` (`P/collision/KBCCentral.cpp:265-275, 288-330`) -/
def centralShear (S : Stencil K 2 9) (rho ux uy : K) (f : Fin 9 → K) : Fin 9 → K :=
  let m := centralMoment S ux uy f
  centralShearOf rho ux uy ((m 2 0 + m 0 2) / rho) ((m 2 0 - m 0 2) / rho) (m 1 1 / rho)

/-- the kinematic part, `P/collision/KBCCentral.cpp:134-145` -/
def centralKinematic (rho ux uy : K) : Fin 9 → K :=
  ![rho * (1 - (ux * ux + uy * uy)), 1 / 2 * rho * (ux * ux + 1 * ux), 1 / 2 * rho * (uy * uy + 1 * uy),
    1 / 2 * rho * (ux * ux - 1 * ux), 1 / 2 * rho * (uy * uy - 1 * uy), 1 / 4 * rho * (1 * 1) * ux * uy,
    1 / 4 * rho * (1 * -1) * ux * uy, 1 / 4 * rho * (-1 * -1) * ux * uy, 1 / 4 * rho * (-1 * 1) * ux * uy]

/-- the equilibrium in lattice units, `P/collision/KBCCentral.cpp:216-245` with `cs2 / (scaling * scaling)` from line 51 -/
def centralFeq (S : Stencil K 2 9) (rho ux uy : K) : Fin 9 → K :=
  let cs2 := S.cs2 / (S.scaling * S.scaling)
  termsD2Q9 (1 / 2) (4 / 9 * rho) (1 / 9 * rho) (1 / 36 * rho) (1 / cs2) (-(ux * ux + uy * uy) / (2 * cs2)) ![ux, uy]

/-- body of `KBCCentral::collideAllD2Q9`, `P/collision/KBCCentral.cpp:57-476`; the entropy is only computed for output -/
def kbcCentralD2Q9Node (b : Obj K 2 9) (inInit : Bool) (n : Node K 2 9) : Except CollError (Node K 2 9) :=
  let rho := density n.f
  if rho < 1 / 10 ^ 10 then .error .densityTooSmall
  else
    let c := b.stencil.scaling
    let u := if inInit then n.u else velocityD2Q9 c rho n.f
    let ux := u 0 / c
    let uy := u 1 / c
    let feq := centralFeq b.stencil rho ux uy
    .ok { f := kbcUpdate b.tau n.f feq (centralKinematic rho ux uy) (centralShear b.stencil rho ux uy n.f)
            (centralShear b.stencil rho ux uy feq),
          rho := rho, u := u }

end

/-- `sqrt_ux`, `P/collision/KBCStandard.cpp:250-254` -/
noncomputable def kbcRoot (u : ℝ) : ℝ := √(1 + u * √3 * (u * √3))

/-- `postfactor_x`, `P/collision/KBCStandard.cpp:258-261` -/
noncomputable def kbcPost (u : ℝ) : ℝ := (2 * (u * √3) / √3 + kbcRoot u) / (1 - u * √3 / √3)

/-- the equilibrium on D2Q9, `P/collision/KBCStandard.cpp:250-271` -/
noncomputable def kbcFeqD2Q9 (rho ux uy : ℝ) : Fin 9 → ℝ :=
  let p := rho * (2 - kbcRoot ux) * (2 - kbcRoot uy)
  let x := kbcPost ux
  let y := kbcPost uy
  ![4 / 9 * p, 1 / 9 * p * x, 1 / 9 * p * y, 1 / 9 * p / x, 1 / 9 * p / y, 1 / 36 * p * x * y, 1 / 36 * p / x * y, 1 / 36 * p / x / y,
    1 / 36 * p * x / y]

/-- body of `KBCStandard::collideAllD2Q9`, `P/collision/KBCStandard.cpp:109-492`, compiled with `KBC_C`
(`P/collision/KBCStandard.cpp:93`); the entropy is only computed for output -/
noncomputable def kbcStandardD2Q9Node (b : Obj ℝ 2 9) (inInit : Bool) (n : Node ℝ 2 9) : Except CollError (Node ℝ 2 9) :=
  let rho := density n.f
  if rho < 1 / 10 ^ 10 then .error .densityTooSmall
  else
    let c := b.stencil.scaling
    let u := if inInit then n.u else velocityD2Q9 c rho n.f
    let ux := u 0 / c
    let uy := u 1 / c
    let feq := kbcFeqD2Q9 rho ux uy
    .ok { f := kbcUpdate b.tau n.f feq (kbcKinematicD2Q9 rho ux uy) (kbcShearD2Q9 rho n.f) (kbcShearD2Q9 rho feq), rho := rho, u := u }

/-! ## Entropic stabilizer -/

variable {D Q : ℕ}

/-- the equilibrium in `collideBGK`, `P/collision/EntropicStabilized.cpp:302-320` -/
noncomputable def estFeq (S : Stencil ℝ D Q) (rho : ℝ) (u : Fin D → ℝ) (i : Fin Q) : ℝ :=
  let uu := ∑ j, -(u j * u j) / (2 * S.cs2)
  let ue := ∑ j, u j * S.dir i j / S.cs2
  S.weight i * rho * (1 + ue * (1 + 1 / 2 * ue) + uu)

/-- `entropy`, `P/collision/EntropicStabilized.cpp:262-273` -/
noncomputable def entropy (f w : Fin Q → ℝ) : ℝ := -∑ i, f i * Real.log (f i / w i)

/-- `entropyDerivative`, `P/collision/EntropicStabilized.cpp:279-290` -/
noncomputable def entropyDerivative (f direction w : Fin Q → ℝ) : ℝ := -∑ i, direction i * (Real.log (f i / w i) + w i)

/-- what `collideBGK` with `tau = 0.5` makes of the populations, `P/collision/EntropicStabilized.cpp:321-324` called at
`P/collision/EntropicStabilized.cpp:148-153` -/
noncomputable def estPost (f feq : Fin Q → ℝ) : Fin Q → ℝ := fun i => f i - 1 / (1 / 2) * (f i - feq i)

/-- the condition under which some entropy is not evaluated, `P/collision/EntropicStabilized.cpp:157-177` -/
def estNegative (f feq post reg : Fin Q → ℝ) : Prop :=
  ∃ j, ¬1 / 10 ^ 11 < reg j ∨ ¬1 / 10 ^ 11 < post j ∨ ¬1 / 10 ^ 11 < feq j ∨ ¬1 / 10 ^ 11 < f j

open Classical in
/-- `omega2`, `P/collision/EntropicStabilized.cpp:178-215` -/
noncomputable def estOmega2 (w f feq post reg : Fin Q → ℝ) : ℝ :=
  if estNegative f feq post reg then 0
  else if ¬1 / 10 ^ 10 < |entropy f w| then 0
  else if 1 / 10 ^ 10 < |entropy reg w - entropy post w| then
    (entropy f w - entropy reg w) / entropyDerivative reg (fun j => reg j - feq j) w
  else 0

/-- the condition under which `omega2` is a quotient, `P/collision/EntropicStabilized.cpp:178-215` -/
def estDivides (w f feq post reg : Fin Q → ℝ) : Prop :=
  ¬estNegative f feq post reg ∧ 1 / 10 ^ 10 < |entropy f w| ∧ 1 / 10 ^ 10 < |entropy reg w - entropy post w|

/-- body of `EntropicStabilized::collide`, `P/collision/EntropicStabilized.cpp:84-120`, with `collideOne`,
`P/collision/EntropicStabilized.cpp:140-233`; `M` is the matrix of `applyStabilizer`
(`P/dataprocessors/PseudoEntropicStabilizer.cpp:294-314`).  With `omega2 = 0` line 230 is line 183. -/
noncomputable def entropicStabilizedNode (M : Fin Q → Fin Q → ℚ) (b : Obj ℝ D Q) (inInit : Bool) (n : Node ℝ D Q) :
    Except CollError (Node ℝ D Q) :=
  let tau := b.tau + 1 / 2
  let rho := density n.f
  let u : Fin D → ℝ := if inInit then n.u else fun j => (∑ k, n.f k * b.stencil.dir k j) / rho
  if rho < 1 / 10 ^ 12 then .error .densityTooSmall
  else
    let feq := estFeq b.stencil rho u
    let post := estPost n.f feq
    let reg := Stabilizer.multiply M post
    let omega2 := estOmega2 b.stencil.weight n.f feq post reg
    .ok { f := fun j => feq j + (1 / tau - 1) * (reg j + omega2 * (reg j - feq j) - feq j), rho := rho, u := u }

end NATriuM.Legacy
