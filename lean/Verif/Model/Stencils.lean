import Mathlib.Algebra.Field.Basic
import Mathlib.Data.Fin.VecNotation
import Mathlib.Data.Matrix.Basic
import Mathlib.Analysis.Real.Sqrt

/-!
# Model of the velocity stencils (`P/stencils`)

`P` stands for `src/library/natrium` in `/repo`.

A stencil object is modelled by its immutable data: weights, (scaled) directions, the table of opposite
directions, the square of the speed of sound and the scaling it was constructed with.  `double` is modelled by a
field `K` (by `ℝ` where square roots occur).  The functions `weight`/`dir` are only defined on valid indices
(`Fin Q`); the C++ getters assert `i < m_q` (`P/stencils/Stencil.h:111-114, 141-144`).
-/

namespace NATriuM

/-- The data of a `Stencil` object, `P/stencils/Stencil.h:53-171`: `getWeight`, `getDirection`,
`getIndexOfOppositeDirection`, `getSpeedOfSoundSquare`, `getScaling`. -/
structure Stencil (K : Type*) (D Q : ℕ) where
  /-- `getWeight(i)`, `P/stencils/Stencil.h:141-144` -/
  weight : Fin Q → K
  /-- `getDirection(i)(a)`, `P/stencils/Stencil.h:111-114`; includes the scaling -/
  dir : Fin Q → Fin D → K
  /-- `getIndexOfOppositeDirection(i)`, `P/stencils/Stencil.h:153` -/
  opp : Fin Q → Fin Q
  /-- `getSpeedOfSoundSquare()`, `P/stencils/Stencil.h:157`; includes the scaling -/
  cs2 : K
  /-- `getScaling()`, `P/stencils/Stencil.h:167-169` -/
  scaling : K


/-! ## D2Q9 -/

namespace D2Q9

variable {K : Type*} [Field K]

/-- `D2Q9::makeWeights`, `P/stencils/D2Q9.cpp:40-45` -/
def weight : Fin 9 → K :=
  ![4 / 9, 1 / 9, 1 / 9, 1 / 9, 1 / 9, 1 / 36, 1 / 36, 1 / 36, 1 / 36]

/-- `D2Q9::makeDirections`, `P/stencils/D2Q9.cpp:48-61` -/
def dir (c : K) : Fin 9 → Fin 2 → K :=
  ![![0, 0], ![c, 0], ![0, c], ![-c, 0], ![0, -c],
    ![c, c], ![-c, c], ![-c, -c], ![c, -c]]

/-- `D2Q9::getIndexOfOppositeDirection`, `P/stencils/D2Q9.h:67-99` (indices `≥ 9`, for which the code returns 0,
are outside the domain) -/
def opp : Fin 9 → Fin 9 :=
  ![0, 3, 4, 1, 2, 7, 8, 5, 6]

/-- `D2Q9::D2Q9(scaling)`, `P/stencils/D2Q9.cpp:28-34`, with the getters of `P/stencils/D2Q9.h` -/
def stencil (c : K) : Stencil K 2 9 where
  weight := weight
  dir := dir c
  opp := opp
  cs2 := c * c / 3
  scaling := c

/-- `D2Q9::getMaxParticleVelocityMagnitude`, `P/stencils/D2Q9.h:101-103` -/
noncomputable def maxVelocity (c : ℝ) : ℝ := c * √2

end D2Q9

/-! ## D3Q15 -/

namespace D3Q15

variable {K : Type*} [Field K]

/-- `D3Q15::makeWeights`, `P/stencils/D3Q15.cpp:44-50` -/
def weight : Fin 15 → K :=
  ![2 / 9, 1 / 9, 1 / 9, 1 / 9, 1 / 9, 1 / 9, 1 / 9, 1 / 72, 1 / 72,
    1 / 72, 1 / 72, 1 / 72, 1 / 72, 1 / 72, 1 / 72]

/-- `D3Q15::makeDirections`, `P/stencils/D3Q15.cpp:54-73` -/
def dir (c : K) : Fin 15 → Fin 3 → K :=
  ![![0, 0, 0], ![c, 0, 0], ![-c, 0, 0], ![0, c, 0], ![0, -c, 0],
    ![0, 0, c], ![0, 0, -c], ![c, c, c], ![-c, -c, -c], ![c, c, -c],
    ![-c, -c, c], ![c, -c, c], ![-c, c, -c], ![c, -c, -c], ![-c, c, c]]

/-- `D3Q15::getIndexOfOppositeDirection`, `P/stencils/D3Q15.h:89-139` (indices `≥ 15`, for which the code returns 0,
are outside the domain) -/
def opp : Fin 15 → Fin 15 :=
  ![0, 2, 1, 4, 3, 6, 5, 8, 7, 10, 9, 12, 11, 14,
    13]

/-- `D3Q15::D3Q15(scaling)`, `P/stencils/D3Q15.cpp:25-31`, with the getters of `P/stencils/D3Q15.h` -/
def stencil (c : K) : Stencil K 3 15 where
  weight := weight
  dir := dir c
  opp := opp
  cs2 := c * c / 3
  scaling := c

/-- `D3Q15::getMaxParticleVelocityMagnitude`, `P/stencils/D3Q15.h:141-143` -/
noncomputable def maxVelocity (c : ℝ) : ℝ := c * √3

end D3Q15

/-! ## D3Q19 -/

namespace D3Q19

variable {K : Type*} [Field K]

/-- `D3Q19::makeWeights`, `P/stencils/D3Q19.cpp:37-43` -/
def weight : Fin 19 → K :=
  ![1 / 3, 1 / 18, 1 / 18, 1 / 18, 1 / 18, 1 / 18, 1 / 18, 1 / 36, 1 / 36,
    1 / 36, 1 / 36, 1 / 36, 1 / 36, 1 / 36, 1 / 36, 1 / 36, 1 / 36, 1 / 36,
    1 / 36]

/-- `D3Q19::makeDirections`, `P/stencils/D3Q19.cpp:47-67` -/
def dir (c : K) : Fin 19 → Fin 3 → K :=
  ![![0, 0, 0], ![c, 0, 0], ![0, 0, c], ![-c, 0, 0], ![0, 0, -c],
    ![0, -c, 0], ![0, c, 0], ![c, 0, c], ![-c, 0, c], ![-c, 0, -c],
    ![c, 0, -c], ![c, -c, 0], ![c, c, 0], ![-c, c, 0], ![-c, -c, 0],
    ![0, -c, c], ![0, c, c], ![0, c, -c], ![0, -c, -c]]

/-- `D3Q19::getIndexOfOppositeDirection`, `P/stencils/D3Q19.h:90-152` (indices `≥ 19`, for which the code returns 0,
are outside the domain) -/
def opp : Fin 19 → Fin 19 :=
  ![0, 3, 4, 1, 2, 6, 5, 9, 10, 7, 8, 13, 14, 11,
    12, 17, 18, 15, 16]

/-- `D3Q19::D3Q19(scaling)`, `P/stencils/D3Q19.cpp:25-31`, with the getters of `P/stencils/D3Q19.h` -/
def stencil (c : K) : Stencil K 3 19 where
  weight := weight
  dir := dir c
  opp := opp
  cs2 := c * c / 3
  scaling := c

/-- `D3Q19::getMaxParticleVelocityMagnitude`, `P/stencils/D3Q19.h:154-156` -/
noncomputable def maxVelocity (c : ℝ) : ℝ := c * √2

end D3Q19

/-! ## D3Q27 -/

namespace D3Q27

variable {K : Type*} [Field K]

/-- `D3Q27::makeWeights`, `P/stencils/D3Q27.cpp:37-67` -/
def weight : Fin 27 → K :=
  ![8 / 27, 2 / 27, 2 / 27, 2 / 27, 2 / 27, 2 / 27, 2 / 27, 1 / 54, 1 / 54,
    1 / 54, 1 / 54, 1 / 54, 1 / 54, 1 / 54, 1 / 54, 1 / 54, 1 / 54, 1 / 54,
    1 / 54, 1 / 216, 1 / 216, 1 / 216, 1 / 216, 1 / 216, 1 / 216, 1 / 216, 1 / 216]

/-- `D3Q27::makeDirections`, `P/stencils/D3Q27.cpp:71-110` -/
def dir (c : K) : Fin 27 → Fin 3 → K :=
  ![![0, 0, 0], ![c, 0, 0], ![-c, 0, 0], ![0, c, 0], ![0, -c, 0],
    ![0, 0, c], ![0, 0, -c], ![0, c, c], ![0, -c, -c], ![0, c, -c],
    ![0, -c, c], ![c, 0, c], ![-c, 0, -c], ![c, 0, -c], ![-c, 0, c],
    ![c, c, 0], ![-c, -c, 0], ![c, -c, 0], ![-c, c, 0], ![c, c, c],
    ![-c, -c, -c], ![c, c, -c], ![-c, -c, c], ![c, -c, c], ![-c, c, -c],
    ![c, -c, -c], ![-c, c, c]]

/-- `D3Q27::getIndexOfOppositeDirection`, `P/stencils/D3Q27.h:99-185` (indices `≥ 27`, for which the code returns 0,
are outside the domain) -/
def opp : Fin 27 → Fin 27 :=
  ![0, 2, 1, 4, 3, 6, 5, 8, 7, 10, 9, 12, 11, 14,
    13, 16, 15, 18, 17, 20, 19, 22, 21, 24, 23, 26, 25]

/-- `D3Q27::D3Q27(scaling)`, `P/stencils/D3Q27.cpp:25-31`, with the getters of `P/stencils/D3Q27.h` -/
def stencil (c : K) : Stencil K 3 27 where
  weight := weight
  dir := dir c
  opp := opp
  cs2 := c * c / 3
  scaling := c

/-- `D3Q27::getMaxParticleVelocityMagnitude`, `P/stencils/D3Q27.h:187-189` -/
noncomputable def maxVelocity (c : ℝ) : ℝ := c * √2

end D3Q27

/-! ## RD3Q27 -/

namespace RD3Q27

variable {K : Type*} [Field K]

/-- `RD3Q27::makeWeights`, `P/stencils/RD3Q27.cpp:37-67` -/
def weight : Fin 27 → K :=
  ![1 / 3, 1 / 30, 1 / 30, 1 / 30, 1 / 30, 1 / 30, 1 / 30, 1 / 300, 1 / 300,
    1 / 300, 1 / 300, 1 / 300, 1 / 300, 1 / 300, 1 / 300, 1 / 300, 1 / 300, 1 / 300,
    1 / 300, 4 / 75, 4 / 75, 4 / 75, 4 / 75, 4 / 75, 4 / 75, 4 / 75, 4 / 75]

/-- `RD3Q27::makeDirections`, `P/stencils/RD3Q27.cpp:71-111` -/
def dir (c : K) : Fin 27 → Fin 3 → K :=
  ![![0, 0, 0], ![c, 0, 0], ![-c, 0, 0], ![0, c, 0], ![0, -c, 0],
    ![0, 0, c], ![0, 0, -c], ![0, c, c], ![0, -c, -c], ![0, c, -c],
    ![0, -c, c], ![c, 0, c], ![-c, 0, -c], ![c, 0, -c], ![-c, 0, c],
    ![c, c, 0], ![-c, -c, 0], ![c, -c, 0], ![-c, c, 0], ![c / 2, c / 2, c / 2],
    ![-(c / 2), -(c / 2), -(c / 2)], ![c / 2, c / 2, -(c / 2)], ![-(c / 2), -(c / 2), c / 2], ![c / 2, -(c / 2), c / 2], ![-(c / 2), c / 2, -(c / 2)],
    ![c / 2, -(c / 2), -(c / 2)], ![-(c / 2), c / 2, c / 2]]

/-- `RD3Q27::getIndexOfOppositeDirection`, `P/stencils/RD3Q27.h:99-185` (indices `≥ 27`, for which the code returns 0,
are outside the domain) -/
def opp : Fin 27 → Fin 27 :=
  ![0, 2, 1, 4, 3, 6, 5, 8, 7, 10, 9, 12, 11, 14,
    13, 16, 15, 18, 17, 20, 19, 22, 21, 24, 23, 26, 25]

/-- `RD3Q27::RD3Q27(scaling)`, `P/stencils/RD3Q27.cpp:25-31`, with the getters of `P/stencils/RD3Q27.h` -/
def stencil (c : K) : Stencil K 3 27 where
  weight := weight
  dir := dir c
  opp := opp
  cs2 := c * c / 5
  scaling := c

/-- `RD3Q27::getMaxParticleVelocityMagnitude`, `P/stencils/RD3Q27.h:187-189` -/
noncomputable def maxVelocity (c : ℝ) : ℝ := c * √2

end RD3Q27

/-! ## D3Q13 -/

namespace D3Q13

/-- `D3Q13::makeWeights`, `P/stencils/D3Q13.cpp:45-49` -/
noncomputable def weight : Fin 13 → ℝ :=
  ![2 / 5, 1 / 20, 1 / 20, 1 / 20, 1 / 20, 1 / 20, 1 / 20, 1 / 20, 1 / 20,
    1 / 20, 1 / 20, 1 / 20, 1 / 20]

/-- `D3Q13::makeDirections`, `P/stencils/D3Q13.cpp:52-81` -/
noncomputable def dir (c : ℝ) : Fin 13 → Fin 3 → ℝ :=
  let s := c * (1 / √3)
  let phiPlus := s * √((5 + √5) / 2)
  let phiMinu := s * √((5 - √5) / 2)
  ![![0, 0, 0], ![0, phiMinu, phiPlus], ![0, -phiMinu, -phiPlus], ![0, -phiMinu, phiPlus], ![0, phiMinu, -phiPlus],
    ![phiMinu, phiPlus, 0], ![-phiMinu, -phiPlus, 0], ![-phiMinu, phiPlus, 0], ![phiMinu, -phiPlus, 0], ![phiPlus, 0, phiMinu],
    ![-phiPlus, 0, -phiMinu], ![-phiPlus, 0, phiMinu], ![phiPlus, 0, -phiMinu]]

/-- `D3Q13::getIndexOfOppositeDirection`, `P/stencils/D3Q13.h:93-137` (indices `≥ 13`, for which the code returns 0,
are outside the domain) -/
def opp : Fin 13 → Fin 13 :=
  ![0, 2, 1, 4, 3, 6, 5, 8, 7, 10, 9, 12, 11]

/-- `D3Q13::D3Q13(scaling)`, `P/stencils/D3Q13.cpp:26-32`, with the getters of `P/stencils/D3Q13.h` -/
noncomputable def stencil (c : ℝ) : Stencil ℝ 3 13 where
  weight := weight
  dir := dir c
  opp := opp
  cs2 := c * c / 3
  scaling := c

/-- `D3Q13::getMaxParticleVelocityMagnitude`, `P/stencils/D3Q13.h:139-141` -/
noncomputable def maxVelocity (c : ℝ) : ℝ := c * √2

end D3Q13

/-! ## D3Q21 -/

namespace D3Q21

/-- `D3Q21::makeWeights`, `P/stencils/D3Q21.cpp:37-61` -/
noncomputable def weight : Fin 21 → ℝ :=
  ![2 / 5, 3 / 100, 3 / 100, 3 / 100, 3 / 100, 3 / 100, 3 / 100, 3 / 100, 3 / 100,
    3 / 100, 3 / 100, 3 / 100, 3 / 100, 3 / 100, 3 / 100, 3 / 100, 3 / 100, 3 / 100,
    3 / 100, 3 / 100, 3 / 100]

/-- `D3Q21::makeDirections`, `P/stencils/D3Q21.cpp:65-106` -/
noncomputable def dir (c : ℝ) : Fin 21 → Fin 3 → ℝ :=
  let s := c / (774596669241483 / 10 ^ 15) * (1 / √3)
  let phi := s * (1 + √5) / 2
  let inphi := s * 1 / ((1 + √5) / 2)
  ![![0, 0, 0], ![s, s, s], ![-s, -s, -s], ![-s, s, s], ![s, -s, -s],
    ![s, -s, s], ![-s, s, -s], ![s, s, -s], ![-s, -s, s], ![0, phi, inphi],
    ![0, -phi, -inphi], ![0, -phi, inphi], ![0, phi, -inphi], ![inphi, 0, phi], ![-inphi, 0, -phi],
    ![-inphi, 0, phi], ![inphi, 0, -phi], ![phi, inphi, 0], ![-phi, -inphi, 0], ![-phi, inphi, 0],
    ![phi, -inphi, 0]]

/-- `D3Q21::getIndexOfOppositeDirection`, `P/stencils/D3Q21.h:68-136` (indices `≥ 21`, for which the code returns 0,
are outside the domain) -/
def opp : Fin 21 → Fin 21 :=
  ![0, 2, 1, 4, 3, 6, 5, 8, 7, 10, 9, 12, 11, 14,
    13, 16, 15, 18, 17, 20, 19]

/-- `D3Q21::D3Q21(scaling)`, `P/stencils/D3Q21.cpp:25-31`, with the getters of `P/stencils/D3Q21.h` -/
noncomputable def stencil (c : ℝ) : Stencil ℝ 3 21 where
  weight := weight
  dir := dir c
  opp := opp
  cs2 := c * c / 3
  scaling := c

/-- `D3Q21::getMaxParticleVelocityMagnitude`, `P/stencils/D3Q21.h:138-140` -/
noncomputable def maxVelocity (c : ℝ) : ℝ := c * √2

end D3Q21

/-! ## D2Q25H -/

namespace D2Q25H

/-- `D2Q25H::makeWeights`, `P/stencils/D2Q25H.cpp:39-56` -/
noncomputable def weight : Fin 25 → ℝ :=
  let r : ℝ := (√5 - √2) / √3
  let w_0 : ℝ := (-3 - 3 * r * r * r * r + 54 * r * r) / (75 * r * r)
  let w_m : ℝ := (9 * r * r * r * r - 6 - 27 * r * r) / (300 * r * r * (r * r - 1))
  let w_n : ℝ := (9 - 6 * r * r * r * r - 27 * r * r) / (300 * (1 - r * r))
  let w_0n := w_0 * w_n
  let w_0m := w_0 * w_m
  let w_mm := w_m * w_m
  let w_mn := w_m * w_n
  let w_nn := w_n * w_n
  ![w_0 * w_0, w_0m, w_0m, w_0m, w_0m, w_mm, w_mm, w_mm,
    w_mm, w_0n, w_0n, w_0n, w_0n, w_nn, w_nn, w_nn,
    w_nn, w_mn, w_mn, w_mn, w_mn, w_mn, w_mn, w_mn,
    w_mn]

/-- `D2Q25H::makeDirections`, `P/stencils/D2Q25H.cpp:59-79` -/
noncomputable def dir (c : ℝ) : Fin 25 → Fin 2 → ℝ :=
  let cm := c * √(5 - √10) / √3
  let cn := √(5 + √10) * c / √3
  ![![0, 0], ![cm, 0], ![0, cm], ![-cm, 0], ![0, -cm],
    ![cm, cm], ![-cm, cm], ![-cm, -cm], ![cm, -cm], ![cn, 0],
    ![0, cn], ![-cn, 0], ![0, -cn], ![cn, cn], ![-cn, cn],
    ![-cn, -cn], ![cn, -cn], ![cm, cn], ![cm, -cn], ![-cm, -cn],
    ![-cm, cn], ![cn, cm], ![cn, -cm], ![-cn, -cm], ![-cn, cm]]

/-- `D2Q25H::getIndexOfOppositeDirection`, `P/stencils/D2Q25H.h:67-147` (indices `≥ 25`, for which the code returns 0,
are outside the domain) -/
def opp : Fin 25 → Fin 25 :=
  ![0, 3, 4, 1, 2, 7, 8, 5, 6, 11, 12, 9, 10, 15,
    16, 13, 14, 19, 20, 17, 18, 23, 24, 21, 22]

/-- `D2Q25H::D2Q25H(scaling)`, `P/stencils/D2Q25H.cpp:25-31`, with the getters of `P/stencils/D2Q25H.h` -/
noncomputable def stencil (c : ℝ) : Stencil ℝ 2 25 where
  weight := weight
  dir := dir c
  opp := opp
  cs2 := c * c / 3
  scaling := c

/-- `D2Q25H::getMaxParticleVelocityMagnitude`, `P/stencils/D2Q25H.h:149-151` -/
noncomputable def maxVelocity (c : ℝ) : ℝ := c * √2

end D2Q25H

end NATriuM
