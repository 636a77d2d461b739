import Verif.Model.Stencils

/-!
# Model of the moment bases (`makeMomentBasis`)

Every basis is given by `Q` polynomials in the (scaled) velocity; row `i`, column `α` of the matrix is the `i`-th polynomial at
direction `α`.  All other stencils use the unit matrix.
-/

namespace NATriuM

/-- `m(i, alpha) = row e[alpha] i`: the matrix filled by the loops of `makeMomentBasis`. -/
def momentMatrix {K : Type*} {D Q : ℕ} (row : (Fin D → K) → Fin Q → K) (e : Fin Q → Fin D → K) :
    Matrix (Fin Q) (Fin Q) K :=
  Matrix.of fun i α => row (e α) i

/-- The unit matrix built by the other stencils, e.g. `P/stencils/D3V27.cpp:122-131`, `P/stencils/D2Q25H.cpp` -/
def unityMomentBasis {K : Type*} [Zero K] [One K] {Q : ℕ} : Matrix (Fin Q) (Fin Q) K := 1

/-- The polynomials of `D2Q9::makeMomentBasis`, `P/stencils/D2Q9.cpp:63-107` -/
def D2Q9.momentRow {K : Type*} [Field K] (e : Fin 2 → K) : Fin 9 → K :=
  let n := e 0 * e 0 + e 1 * e 1
  ![1,
    -4 + 3 * n,
    4 - 21 / 2 * n + 9 / 2 * n * n,
    e 0,
    (-5 + 3 * n) * e 0,
    e 1,
    (-5 + 3 * n) * e 1,
    e 0 * e 0 - e 1 * e 1,
    e 0 * e 1]

/-- `D2Q9::makeMomentBasis(makeDirections(scaling))`, `P/stencils/D2Q9.cpp:63-107` -/
def D2Q9.momentBasis {K : Type*} [Field K] (c : K) : Matrix (Fin 9) (Fin 9) K :=
  momentMatrix D2Q9.momentRow (dir c)

/-- The polynomials of `D3Q15::makeMomentBasis`, `P/stencils/D3Q15.cpp:75-187` -/
def D3Q15.momentRow {K : Type*} [Field K] (e : Fin 3 → K) : Fin 15 → K :=
  let n := e 0 * e 0 + e 1 * e 1 + e 2 * e 2
  ![1,
    n - 2,
    1 / 2 * (15 * n * n - 55 * n + 32),
    e 0,
    1 / 2 * (5 * n - 13) * e 0,
    e 1,
    1 / 2 * (5 * n - 13) * e 1,
    e 2,
    1 / 2 * (5 * n - 13) * e 2,
    3 * e 0 * e 0 - n,
    e 1 * e 1 - e 2 * e 2,
    e 0 * e 1,
    e 1 * e 2,
    e 0 * e 2,
    e 0 * e 1 * e 2]

/-- `D3Q15::makeMomentBasis(makeDirections(scaling))`, `P/stencils/D3Q15.cpp:75-187` -/
def D3Q15.momentBasis {K : Type*} [Field K] (c : K) : Matrix (Fin 15) (Fin 15) K :=
  momentMatrix D3Q15.momentRow (dir c)

/-- The polynomials of `D3Q19::makeMomentBasis`, `P/stencils/D3Q19.cpp:69-198` -/
def D3Q19.momentRow {K : Type*} [Field K] (e : Fin 3 → K) : Fin 19 → K :=
  let n := e 0 * e 0 + e 1 * e 1 + e 2 * e 2
  ![1,
    19 * n - 30,
    1 / 2 * (21 * n * n - 53 * n + 24),
    e 0,
    (5 * n - 9) * e 0,
    e 1,
    (5 * n - 9) * e 1,
    e 2,
    (5 * n - 9) * e 2,
    3 * e 0 * e 0 - n,
    (3 * n * n - 5) * (3 * e 0 * e 0 - n),
    e 1 * e 1 - e 2 * e 2,
    (3 * n * n - 5) * (e 1 * e 1 - e 2 * e 2),
    e 0 * e 1,
    e 1 * e 2,
    e 0 * e 2,
    (e 1 * e 1 - e 2 * e 2) * e 0,
    (e 2 * e 2 - e 0 * e 0) * e 1,
    (e 0 * e 0 - e 1 * e 1) * e 2]

/-- `D3Q19::makeMomentBasis(makeDirections(scaling))`, `P/stencils/D3Q19.cpp:69-198` -/
def D3Q19.momentBasis {K : Type*} [Field K] (c : K) : Matrix (Fin 19) (Fin 19) K :=
  momentMatrix D3Q19.momentRow (dir c)

/-- The polynomials of `D3Q27::makeMomentBasis`, `P/stencils/D3Q27.cpp:113-234` -/
def D3Q27.momentRow {K : Type*} [Field K] (e : Fin 3 → K) : Fin 27 → K :=
  let n := e 0 * e 0 + e 1 * e 1 + e 2 * e 2
  ![1,
    e 0,
    e 1,
    e 2,
    n,
    3 * e 0 * e 0 - n,
    e 1 * e 1 - e 2 * e 2,
    e 0 * e 1,
    e 1 * e 2,
    e 0 * e 2,
    3 * n * e 0,
    3 * n * e 1,
    3 * n * e 2,
    9 / 2 * n * n * e 0,
    9 / 2 * n * n * e 1,
    9 / 2 * n * n * e 2,
    3 / 2 * n * n,
    9 / 2 * n * n * n,
    (3 * e 0 * e 0 - n) * n,
    (e 1 * e 1 - e 2 * e 2) * n,
    e 0 * e 1 * n,
    e 1 * e 2 * n,
    e 0 * e 2 * n,
    e 0 * (e 1 * e 1 - e 2 * e 2),
    e 1 * (e 2 * e 2 - e 0 * e 0),
    e 2 * (e 0 * e 0 - e 1 * e 1),
    e 0 * e 1 * e 2]

/-- `D3Q27::makeMomentBasis(makeDirections(scaling))`, `P/stencils/D3Q27.cpp:113-234` -/
def D3Q27.momentBasis {K : Type*} [Field K] (c : K) : Matrix (Fin 27) (Fin 27) K :=
  momentMatrix D3Q27.momentRow (dir c)

end NATriuM
