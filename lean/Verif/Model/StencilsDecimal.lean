import Verif.Model.Stencils
import Mathlib.Data.Rat.Cast.Order

/-!
# Model of the stencils given by decimal literals

The literals are the decimal numbers of the source text, as exact rationals (the conversion of a literal to the nearest `double` is
not modelled).
-/

namespace NATriuM

/-! ## D3V27 -/

namespace D3V27

/-- The decimal literals of `D3V27::makeWeights`, `P/stencils/D3V27.cpp:37-71` (the named constants `w0…w3` are substituted) -/
def weightTable : List ℚ :=
  [0.31247897198654906, 0.029035130153906134, 0.029035130153906134, 0.029035130153906134, 0.029035130153906134,
   0.029035130153906134, 0.029035130153906134, 0.0005195469396656799, 0.0005195469396656799, 0.0005195469396656799,
   0.0005195469396656799, 0.0005195469396656799, 0.0005195469396656799, 0.0005195469396656799, 0.0005195469396656799,
   0.0005195469396656799, 0.0005195469396656799, 0.0005195469396656799, 0.0005195469396656799, 0.06338446047675325,
   0.06338446047675325, 0.06338446047675325, 0.06338446047675325, 0.06338446047675325, 0.06338446047675325,
   0.06338446047675325, 0.06338446047675325]

/-- The decimal literals of `D3V27::makeDirections`, `P/stencils/D3V27.cpp:75-119` (`r`, `s`, `t` substituted) -/
def dirTable : List (Fin 3 → ℚ) :=
  [![0, 0, 0], ![2.358709038202103, 0, 0], ![-2.358709038202103, 0, 0],
   ![0, 2.358709038202103, 0], ![0, -2.358709038202103, 0], ![0, 0, 2.358709038202103],
   ![0, 0, -2.358709038202103], ![0, 3.142130383387586, 3.142130383387586], ![0, -3.142130383387586, -3.142130383387586],
   ![0, 3.142130383387586, -3.142130383387586], ![0, -3.142130383387586, 3.142130383387586], ![3.142130383387586, 0, 3.142130383387586],
   ![-3.142130383387586, 0, -3.142130383387586], ![3.142130383387586, 0, -3.142130383387586], ![-3.142130383387586, 0, 3.142130383387586],
   ![3.142130383387586, 3.142130383387586, 0], ![-3.142130383387586, -3.142130383387586, 0], ![3.142130383387586, -3.142130383387586, 0],
   ![-3.142130383387586, 3.142130383387586, 0], ![1.1198362860638005, 1.1198362860638005, 1.1198362860638005], ![-1.1198362860638005, -1.1198362860638005, -1.1198362860638005],
   ![1.1198362860638005, 1.1198362860638005, -1.1198362860638005], ![-1.1198362860638005, -1.1198362860638005, 1.1198362860638005], ![1.1198362860638005, -1.1198362860638005, 1.1198362860638005],
   ![-1.1198362860638005, 1.1198362860638005, -1.1198362860638005], ![1.1198362860638005, -1.1198362860638005, -1.1198362860638005], ![-1.1198362860638005, 1.1198362860638005, 1.1198362860638005]]

/-- The `switch` of `D3V27::getIndexOfOppositeDirection`, `P/stencils/D3V27.h:66-152` -/
def oppTable : List (Fin 27) :=
  [0, 2, 1, 4, 3, 6, 5, 8, 7, 10, 9, 12, 11, 14, 13, 16, 15, 18,
   17, 20, 19, 22, 21, 24, 23, 26, 25]

/-- `D3V27::D3V27(scaling)`, `P/stencils/D3V27.cpp:25-30`; `makeDirections` returns `scaling * directionsArray[i][a] / sqrt(3)` -/
noncomputable def stencil (c : ℝ) : Stencil ℝ 3 27 where
  weight i := ((weightTable.getD i 0 : ℚ) : ℝ)
  dir i a := let raw : Fin 3 → ℚ := dirTable.getD i 0
    c * ((raw a : ℚ) : ℝ) / √3
  opp i := oppTable.getD i 0
  cs2 := c * c / 3
  scaling := c

/-- `D3V27::getMaxParticleVelocityMagnitude`, `P/stencils/D3V27.h:154-156` -/
noncomputable def maxVelocity (c : ℝ) : ℝ := c * √2

end D3V27

/-! ## D2Q19H -/

namespace D2Q19H

/-- The decimal literals of `D2Q19H::makeWeights`, `P/stencils/D2Q19H.cpp:39-74` -/
def weightTable : List ℚ :=
  [0.3168437267921905, 0.1024247123210936, 0.1024247123210936, 0.1024247123210936, 0.1024247123210936,
   0.002405335328939458, 0.002405335328939458, 0.002405335328939458, 0.002405335328939458, 0.00953510698543825,
   0.00953510698543825, 0.00953510698543825, 0.00953510698543825, 0.006865104210104631, 0.006865104210104631,
   0.10558878375062891, 0.10558878375062891, 0.0003939393722285871, 0.0003939393722285871]

/-- The decimal literals of `D2Q19H::makeDirections`, `P/stencils/D2Q19H.cpp:77-106` -/
def dirTable : List (Fin 2 → ℚ) :=
  [![0, 0], ![1.367469636752619, 0.775196278121181], ![1.367469636752619, -0.775196278121181],
   ![-1.367469636752619, 0.775196278121181], ![-1.367469636752619, -0.775196278121181], ![2.6987507639352253, 1.8663975507141328],
   ![2.6987507639352253, -1.8663975507141328], ![-2.6987507639352253, 1.8663975507141328], ![-2.6987507639352253, -1.8663975507141328],
   ![1.105629214668943, 2.5175897644357486], ![1.105629214668943, -2.5175897644357486], ![-1.105629214668943, 2.5175897644357486],
   ![-1.105629214668943, -2.5175897644357486], ![2.9213306655318734, 0], ![-2.9213306655318734, 0],
   ![0, 1.4869982213169028], ![0, -1.4869982213169028], ![0, 3.8358342053914734],
   ![0, -3.8358342053914734]]

/-- The `switch` of `D2Q19H::getIndexOfOppositeDirection`, `P/stencils/D2Q19H.h:67-147` -/
def oppTable : List (Fin 19) :=
  [0, 4, 3, 2, 1, 8, 7, 6, 5, 12, 11, 10, 9, 14, 13, 16, 15, 18,
   17]

/-- `D2Q19H::D2Q19H(scaling)`, `P/stencils/D2Q19H.cpp:25-30`; `makeDirections` returns `scaling * directionsArray[i][a] / sqrt(3)`; the code stores
`directionsArray[i][1]` in component 0 and `directionsArray[i][0]` in component 1 (lines 101-102) -/
noncomputable def stencil (c : ℝ) : Stencil ℝ 2 19 where
  weight i := ((weightTable.getD i 0 : ℚ) : ℝ)
  dir i a := let raw : Fin 2 → ℚ := dirTable.getD i 0
    c * ((![raw 1, raw 0] a : ℚ) : ℝ) / √3
  opp i := oppTable.getD i 0
  cs2 := c * c / 3
  scaling := c

/-- `D2Q19H::getMaxParticleVelocityMagnitude`, `P/stencils/D2Q19H.h:150-152` -/
noncomputable def maxVelocity (c : ℝ) : ℝ := c * √2

end D2Q19H

/-! ## D2Q19V -/

namespace D2Q19V

/-- The decimal literals of `D2Q19V::makeWeights`, `P/stencils/D2Q19V.cpp:40-75` -/
def weightTable : List ℚ :=
  [0.3168437267921905, 0.1024247123210936, 0.1024247123210936, 0.1024247123210936, 0.1024247123210936,
   0.002405335328939458, 0.002405335328939458, 0.002405335328939458, 0.002405335328939458, 0.00953510698543825,
   0.00953510698543825, 0.00953510698543825, 0.00953510698543825, 0.006865104210104631, 0.006865104210104631,
   0.10558878375062891, 0.10558878375062891, 0.0003939393722285871, 0.0003939393722285871]

/-- The decimal literals of `D2Q19V::makeDirections`, `P/stencils/D2Q19V.cpp:78-108` -/
def dirTable : List (Fin 2 → ℚ) :=
  [![0, 0], ![1.367469636752619, 0.775196278121181], ![1.367469636752619, -0.775196278121181],
   ![-1.367469636752619, 0.775196278121181], ![-1.367469636752619, -0.775196278121181], ![2.6987507639352253, 1.8663975507141328],
   ![2.6987507639352253, -1.8663975507141328], ![-2.6987507639352253, 1.8663975507141328], ![-2.6987507639352253, -1.8663975507141328],
   ![1.105629214668943, 2.5175897644357486], ![1.105629214668943, -2.5175897644357486], ![-1.105629214668943, 2.5175897644357486],
   ![-1.105629214668943, -2.5175897644357486], ![2.9213306655318734, 0], ![-2.9213306655318734, 0],
   ![0, 1.4869982213169028], ![0, -1.4869982213169028], ![0, 3.8358342053914734],
   ![0, -3.8358342053914734]]

/-- The `switch` of `D2Q19V::getIndexOfOppositeDirection`, `P/stencils/D2Q19V.h:68-148` -/
def oppTable : List (Fin 19) :=
  [0, 4, 3, 2, 1, 8, 7, 6, 5, 12, 11, 10, 9, 14, 13, 16, 15, 18,
   17]

/-- `D2Q19V::D2Q19V(scaling)`, `P/stencils/D2Q19V.cpp:26-31`; `makeDirections` returns `scaling * directionsArray[i][a] / sqrt(3)` -/
noncomputable def stencil (c : ℝ) : Stencil ℝ 2 19 where
  weight i := ((weightTable.getD i 0 : ℚ) : ℝ)
  dir i a := let raw : Fin 2 → ℚ := dirTable.getD i 0
    c * ((raw a : ℚ) : ℝ) / √3
  opp i := oppTable.getD i 0
  cs2 := c * c / 3
  scaling := c

/-- `D2Q19V::getMaxParticleVelocityMagnitude`, `P/stencils/D2Q19V.h:150-152` -/
noncomputable def maxVelocity (c : ℝ) : ℝ := c * √2

end D2Q19V

/-! ## D3Q45 -/

namespace D3Q45

/-- The decimal literals of `D3Q45::makeWeights`, `P/stencils/D3Q45.cpp:39-90` -/
def weightTable : List ℚ :=
  [0.20740740740740618, 0.05787037037037047, 0.05787037037037047, 0.05787037037037047, 0.05787037037037047,
   0.05787037037037047, 0.05787037037037047, 0.05787037037037047, 0.05787037037037047, 0.05787037037037047,
   0.05787037037037047, 0.05787037037037047, 0.05787037037037047, 0.00462962962962958, 0.00462962962962958,
   0.00462962962962958, 0.00462962962962958, 0.00462962962962958, 0.00462962962962958, 0.00462962962962958,
   0.00462962962962958, 0.00462962962962958, 0.00462962962962958, 0.00462962962962958, 0.00462962962962958,
   0.00462962962962958, 0.00462962962962958, 0.00462962962962958, 0.00462962962962958, 0.00462962962962958,
   0.00462962962962958, 0.00462962962962958, 0.00462962962962958, 0.0004629629629629939, 0.0004629629629629939,
   0.0004629629629629939, 0.0004629629629629939, 0.0004629629629629939, 0.0004629629629629939, 0.0004629629629629939,
   0.0004629629629629939, 0.0004629629629629939, 0.0004629629629629939, 0.0004629629629629939, 0.0004629629629629939]

/-- The decimal literals of `D3Q45::makeDirections`, `P/stencils/D3Q45.cpp:93-154` -/
def dirTable : List (Fin 3 → ℚ) :=
  [![0, 0, 0], ![0.06386083877343968, -1.2239121278243665, -1.2239121278243665], ![-1.2239121278243665, 0.06386083877343968, -1.2239121278243665],
   ![-1.2239121278243665, -1.2239121278243665, 0.06386083877343968], ![1.5766994272507744, -0.5069610024977665, -0.5069610024977665], ![-0.5069610024977665, 1.5766994272507744, -0.5069610024977665],
   ![-0.5069610024977665, -0.5069610024977665, 1.5766994272507744], ![0.5069610024977665, 0.5069610024977665, -1.5766994272507744], ![0.5069610024977665, -1.5766994272507744, 0.5069610024977665],
   ![-1.5766994272507744, 0.5069610024977665, 0.5069610024977665], ![1.2239121278243665, 1.2239121278243665, -0.06386083877343968], ![1.2239121278243665, -0.06386083877343968, 1.2239121278243665],
   ![-0.06386083877343968, 1.2239121278243665, 1.2239121278243665], ![2.9239876105912574, 0.4744978678080795, 0.4744978678080795], ![0.4744978678080795, 2.9239876105912574, 0.4744978678080795],
   ![0.4744978678080795, 0.4744978678080795, 2.9239876105912574], ![1.7320508075688787, 1.7320508075688787, 1.7320508075688787], ![2.403092127540177, 0.8892242114059369, -1.5602655313772367],
   ![2.403092127540177, -1.5602655313772367, 0.8892242114059369], ![1.5602655313772367, -0.8892242114059369, -2.403092127540177], ![1.5602655313772367, -2.403092127540177, -0.8892242114059369],
   ![0.8892242114059369, 2.403092127540177, -1.5602655313772367], ![0.8892242114059369, -1.5602655313772367, 2.403092127540177], ![-0.8892242114059369, 1.5602655313772367, -2.403092127540177],
   ![-0.8892242114059369, -2.403092127540177, 1.5602655313772367], ![-1.5602655313772367, 2.403092127540177, 0.8892242114059369], ![-1.5602655313772367, 0.8892242114059369, 2.403092127540177],
   ![-2.403092127540177, 1.5602655313772367, -0.8892242114059369], ![-2.403092127540177, -0.8892242114059369, 1.5602655313772367], ![-1.7320508075688787, -1.7320508075688787, -1.7320508075688787],
   ![-0.4744978678080795, -0.4744978678080795, -2.9239876105912574], ![-0.4744978678080795, -2.9239876105912574, -0.4744978678080795], ![-2.9239876105912574, -0.4744978678080795, -0.4744978678080795],
   ![2.7367507163016924, 2.7367507163016924, -0.14279717659756475], ![2.7367507163016924, -0.14279717659756475, 2.7367507163016924], ![-0.14279717659756475, 2.7367507163016924, 2.7367507163016924],
   ![-3.5256070994177073, 1.1335992635264445, 1.1335992635264445], ![1.1335992635264445, -3.5256070994177073, 1.1335992635264445], ![1.1335992635264445, 1.1335992635264445, -3.5256070994177073],
   ![-1.1335992635264445, -1.1335992635264445, 3.5256070994177073], ![-1.1335992635264445, 3.5256070994177073, -1.1335992635264445], ![3.5256070994177073, -1.1335992635264445, -1.1335992635264445],
   ![0.14279717659756475, -2.7367507163016924, -2.7367507163016924], ![-2.7367507163016924, 0.14279717659756475, -2.7367507163016924], ![-2.7367507163016924, -2.7367507163016924, 0.14279717659756475]]

/-- The `switch` of `D3Q45::getIndexOfOppositeDirection`, `P/stencils/D3Q45.h:67-208` -/
def oppTable : List (Fin 45) :=
  [0, 12, 11, 10, 9, 8, 7, 6, 5, 4, 3, 2, 1, 32, 31, 30, 29, 28,
   27, 26, 25, 24, 23, 22, 21, 20, 19, 18, 17, 16, 15, 14, 13, 44, 43, 42,
   41, 40, 39, 38, 37, 36, 35, 34, 33]

/-- `D3Q45::D3Q45(scaling)`, `P/stencils/D3Q45.cpp:25-30`; `makeDirections` returns `scaling * directionsArray[i][a] / sqrt(3)` -/
noncomputable def stencil (c : ℝ) : Stencil ℝ 3 45 where
  weight i := ((weightTable.getD i 0 : ℚ) : ℝ)
  dir i a := let raw : Fin 3 → ℚ := dirTable.getD i 0
    c * ((raw a : ℚ) : ℝ) / √3
  opp i := oppTable.getD i 0
  cs2 := c * c / 3
  scaling := c

/-- `D3Q45::getMaxParticleVelocityMagnitude`, `P/stencils/D3Q45.h:211-213` -/
noncomputable def maxVelocity (c : ℝ) : ℝ := c * √2

end D3Q45

/-! ## D3Q77 -/

namespace D3Q77

/-- The decimal literals of `D3Q77::makeWeights`, `P/stencils/D3Q77.cpp:40-123` -/
def weightTable : List ℚ :=
  [0.12148148148148114, 0.0009194665015833565, 0.0009194665015833565, 0.0009194665015833565, 0.0009194665015833565,
   0.0009194665015833565, 0.0009194665015833565, 0.08056201497989846, 0.08056201497989846, 0.08056201497989846,
   0.08056201497989846, 0.08056201497989846, 0.08056201497989846, 4.224310326716467e-5, 4.224310326716467e-5,
   4.224310326716467e-5, 4.224310326716467e-5, 4.224310326716467e-5, 4.224310326716467e-5, 4.224310326716467e-5,
   4.224310326716467e-5, 4.224310326716467e-5, 4.224310326716467e-5, 4.224310326716467e-5, 4.224310326716467e-5,
   0.016439238378214215, 0.016439238378214215, 0.016439238378214215, 0.016439238378214215, 0.016439238378214215,
   0.016439238378214215, 0.016439238378214215, 0.016439238378214215, 0.016439238378214215, 0.016439238378214215,
   0.016439238378214215, 0.016439238378214215, 0.0025000000000000053, 0.0025000000000000053, 0.0025000000000000053,
   0.0025000000000000053, 0.0025000000000000053, 0.0025000000000000053, 0.0025000000000000053, 0.0025000000000000053,
   0.0025000000000000053, 0.0025000000000000053, 0.0025000000000000053, 0.0025000000000000053, 0.0025000000000000053,
   0.0025000000000000053, 0.0025000000000000053, 0.0025000000000000053, 0.0025000000000000053, 0.0025000000000000053,
   0.0025000000000000053, 0.0025000000000000053, 0.0025000000000000053, 0.0025000000000000053, 0.0025000000000000053,
   0.0025000000000000053, 4.224310326716467e-5, 4.224310326716467e-5, 4.224310326716467e-5, 4.224310326716467e-5,
   4.224310326716467e-5, 4.224310326716467e-5, 4.224310326716467e-5, 4.224310326716467e-5, 0.01643923837821427,
   0.01643923837821427, 0.01643923837821427, 0.01643923837821427, 0.01643923837821427, 0.01643923837821427,
   0.01643923837821427, 0.01643923837821427]

/-- The decimal literals of `D3Q77::makeDirections`, `P/stencils/D3Q77.cpp:126-218` -/
def dirTable : List (Fin 3 → ℚ) :=
  [![0, 0, 0], ![2.856970013872812, 0, 0], ![-2.856970013872812, 0, 0],
   ![0, 2.856970013872812, 0], ![0, -2.856970013872812, 0], ![0, 0, 2.856970013872812],
   ![0, 0, -2.856970013872812], ![1.3556261799742664, 0, 0], ![-1.3556261799742664, 0, 0],
   ![0, 1.3556261799742664, 0], ![0, -1.3556261799742664, 0], ![0, 0, 1.3556261799742664],
   ![0, 0, -1.3556261799742664], ![2.856970013872812, 2.856970013872812, 0], ![2.856970013872812, -2.856970013872812, 0],
   ![-2.856970013872812, 2.856970013872812, 0], ![-2.856970013872812, -2.856970013872812, 0], ![2.856970013872812, 0, 2.856970013872812],
   ![2.856970013872812, 0, -2.856970013872812], ![-2.856970013872812, 0, 2.856970013872812], ![-2.856970013872812, 0, -2.856970013872812],
   ![0, 2.856970013872812, 2.856970013872812], ![0, 2.856970013872812, -2.856970013872812], ![0, -2.856970013872812, 2.856970013872812],
   ![0, -2.856970013872812, -2.856970013872812], ![1.3556261799742664, 1.3556261799742664, 0], ![1.3556261799742664, -1.3556261799742664, 0],
   ![-1.3556261799742664, 1.3556261799742664, 0], ![-1.3556261799742664, -1.3556261799742664, 0], ![1.3556261799742664, 0, 1.3556261799742664],
   ![1.3556261799742664, 0, -1.3556261799742664], ![-1.3556261799742664, 0, 1.3556261799742664], ![-1.3556261799742664, 0, -1.3556261799742664],
   ![0, 1.3556261799742664, 1.3556261799742664], ![0, 1.3556261799742664, -1.3556261799742664], ![0, -1.3556261799742664, 1.3556261799742664],
   ![0, -1.3556261799742664, -1.3556261799742664], ![2.856970013872812, 1.3556261799742664, 0], ![2.856970013872812, -1.3556261799742664, 0],
   ![-2.856970013872812, 1.3556261799742664, 0], ![-2.856970013872812, -1.3556261799742664, 0], ![2.856970013872812, 0, 1.3556261799742664],
   ![2.856970013872812, 0, -1.3556261799742664], ![-2.856970013872812, 0, 1.3556261799742664], ![-2.856970013872812, 0, -1.3556261799742664],
   ![1.3556261799742664, 2.856970013872812, 0], ![1.3556261799742664, -2.856970013872812, 0], ![-1.3556261799742664, 2.856970013872812, 0],
   ![-1.3556261799742664, -2.856970013872812, 0], ![1.3556261799742664, 0, 2.856970013872812], ![1.3556261799742664, 0, -2.856970013872812],
   ![-1.3556261799742664, 0, 2.856970013872812], ![-1.3556261799742664, 0, -2.856970013872812], ![0, 2.856970013872812, 1.3556261799742664],
   ![0, 2.856970013872812, -1.3556261799742664], ![0, -2.856970013872812, 1.3556261799742664], ![0, -2.856970013872812, -1.3556261799742664],
   ![0, 1.3556261799742664, 2.856970013872812], ![0, 1.3556261799742664, -2.856970013872812], ![0, -1.3556261799742664, 2.856970013872812],
   ![0, -1.3556261799742664, -2.856970013872812], ![2.856970013872812, 2.856970013872812, 2.856970013872812], ![2.856970013872812, 2.856970013872812, -2.856970013872812],
   ![2.856970013872812, -2.856970013872812, 2.856970013872812], ![2.856970013872812, -2.856970013872812, -2.856970013872812], ![-2.856970013872812, 2.856970013872812, 2.856970013872812],
   ![-2.856970013872812, 2.856970013872812, -2.856970013872812], ![-2.856970013872812, -2.856970013872812, 2.856970013872812], ![-2.856970013872812, -2.856970013872812, -2.856970013872812],
   ![1.3556261799742664, 1.3556261799742664, 1.3556261799742664], ![1.3556261799742664, 1.3556261799742664, -1.3556261799742664], ![1.3556261799742664, -1.3556261799742664, 1.3556261799742664],
   ![1.3556261799742664, -1.3556261799742664, -1.3556261799742664], ![-1.3556261799742664, 1.3556261799742664, 1.3556261799742664], ![-1.3556261799742664, 1.3556261799742664, -1.3556261799742664],
   ![-1.3556261799742664, -1.3556261799742664, 1.3556261799742664], ![-1.3556261799742664, -1.3556261799742664, -1.3556261799742664]]

/-- The `switch` of `D3Q77::getIndexOfOppositeDirection`, `P/stencils/D3Q77.h:67-304` -/
def oppTable : List (Fin 77) :=
  [0, 2, 1, 4, 3, 6, 5, 8, 7, 10, 9, 12, 11, 16, 15, 14, 13, 20,
   19, 18, 17, 24, 23, 22, 21, 28, 27, 26, 25, 32, 31, 30, 29, 36, 35, 34,
   33, 40, 39, 38, 37, 44, 43, 42, 41, 48, 47, 46, 45, 52, 51, 50, 49, 56,
   55, 54, 53, 60, 59, 58, 57, 68, 67, 66, 65, 64, 63, 62, 61, 76, 75, 74,
   73, 72, 71, 70, 69]

/-- `D3Q77::D3Q77(scaling)`, `P/stencils/D3Q77.cpp:26-31`; `makeDirections` returns `scaling * directionsArray[i][a] / sqrt(3)` -/
noncomputable def stencil (c : ℝ) : Stencil ℝ 3 77 where
  weight i := ((weightTable.getD i 0 : ℚ) : ℝ)
  dir i a := let raw : Fin 3 → ℚ := dirTable.getD i 0
    c * ((raw a : ℚ) : ℝ) / √3
  opp i := oppTable.getD i 0
  cs2 := c * c / 3
  scaling := c

/-- `D3Q77::getMaxParticleVelocityMagnitude`, `P/stencils/D3Q77.h:307-309` -/
noncomputable def maxVelocity (c : ℝ) : ℝ := c * √2

end D3Q77

end NATriuM
