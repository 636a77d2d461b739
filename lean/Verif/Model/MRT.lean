import Verif.Model.Collision
import Mathlib.Data.Rat.Cast.CharZero

/-!
# Model of the MRT data (`P/collision_advanced/AuxiliaryMRTFunctions.cpp`)

The tables are transcribed as rational numbers (the C++ tables are written as quotients of integers).
-/

namespace NATriuM

/-- `enum MomentBasis`, `P/utilities/ConfigNames.h:29-33` -/
inductive MRTBasis
  | dellarD2Q9 | lallemandD2Q9 | dHumieresD3Q19
  deriving DecidableEq, Repr

/-- `enum RelaxMode`, `P/utilities/ConfigNames.h:20-24` -/
inductive RelaxMode
  | relaxFull | dellarRelaxOnlyN | relaxDHumieresPaper
  deriving DecidableEq, Repr

namespace MRT

/-- `MRTDellarD2Q9::moment_trafo`, `P/collision_advanced/AuxiliaryMRTFunctions.cpp:14-28` -/
def dellarM : Fin 9 → Fin 9 → ℚ :=
  ![![1, 1, 1, 1, 1, 1, 1, 1, 1],
    ![0, 1, 0, -1, 0, 1, -1, -1, 1],
    ![0, 0, 1, 0, -1, 1, 1, -1, -1],
    ![-3 / 2, 3, -3 / 2, 3, -3 / 2, 3, 3, 3, 3],
    ![0, 0, 0, 0, 0, 9, -9, 9, -9],
    ![-3 / 2, -3 / 2, 3, -3 / 2, 3, 3, 3, 3, 3],
    ![1, -2, -2, -2, -2, 4, 4, 4, 4],
    ![0, -2, 0, 2, 0, 4, -4, -4, 4],
    ![0, 0, -2, 0, 2, 4, 4, -4, -4]]

/-- `MRTDellarD2Q9::inverse_trafo`, `P/collision_advanced/AuxiliaryMRTFunctions.cpp:30-43` -/
def dellarT : Fin 9 → Fin 9 → ℚ :=
  ![![4 / 9, 0, 0, -4 / 27, 0, -4 / 27, 1 / 9, 0, 0],
    ![1 / 9, 1 / 3, 0, 2 / 27, 0, -1 / 27, -1 / 18, -1 / 12, 0],
    ![1 / 9, 0, 1 / 3, -1 / 27, 0, 2 / 27, -1 / 18, 0, -1 / 12],
    ![1 / 9, -1 / 3, 0, 2 / 27, 0, -1 / 27, -1 / 18, 1 / 12, 0],
    ![1 / 9, 0, -1 / 3, -1 / 27, 0, 2 / 27, -1 / 18, 0, 1 / 12],
    ![1 / 36, 1 / 12, 1 / 12, 1 / 54, 1 / 36, 1 / 54, 1 / 36, 1 / 24, 1 / 24],
    ![1 / 36, -1 / 12, 1 / 12, 1 / 54, -1 / 36, 1 / 54, 1 / 36, -1 / 24, 1 / 24],
    ![1 / 36, -1 / 12, -1 / 12, 1 / 54, 1 / 36, 1 / 54, 1 / 36, -1 / 24, -1 / 24],
    ![1 / 36, 1 / 12, -1 / 12, 1 / 54, -1 / 36, 1 / 54, 1 / 36, 1 / 24, -1 / 24]]

/-- `MRTLallemandD2Q9::moment_trafo`, `P/collision_advanced/AuxiliaryMRTFunctions.cpp:50-62` -/
def lallemandM : Fin 9 → Fin 9 → ℚ :=
  ![![1, 1, 1, 1, 1, 1, 1, 1, 1],
    ![0, 1, 0, -1, 0, 1, -1, -1, 1],
    ![0, 0, 1, 0, -1, 1, 1, -1, -1],
    ![0, 1, -1, 1, -1, 0, 0, 0, 0],
    ![0, 0, 0, 0, 0, 1, -1, 1, -1],
    ![-4, -1, -1, -1, -1, 2, 2, 2, 2],
    ![0, -2, 0, 2, 0, 1, -1, -1, 1],
    ![0, 0, -2, 0, 2, 1, 1, -1, -1],
    ![4, -2, -2, -2, -2, 1, 1, 1, 1]]

/-- `MRTLallemandD2Q9::inverse_trafo`, `P/collision_advanced/AuxiliaryMRTFunctions.cpp:63-76` -/
def lallemandT : Fin 9 → Fin 9 → ℚ :=
  ![![1 / 9, 0, 0, 0, 0, -1 / 9, 0, 0, 1 / 9],
    ![1 / 9, 1 / 6, 0, 1 / 4, 0, -1 / 36, -1 / 6, 0, -1 / 18],
    ![1 / 9, 0, 1 / 6, -1 / 4, 0, -1 / 36, 0, -1 / 6, -1 / 18],
    ![1 / 9, -1 / 6, 0, 1 / 4, 0, -1 / 36, 1 / 6, 0, -1 / 18],
    ![1 / 9, 0, -1 / 6, -1 / 4, 0, -1 / 36, 0, 1 / 6, -1 / 18],
    ![1 / 9, 1 / 6, 1 / 6, 0, 1 / 4, 1 / 18, 1 / 12, 1 / 12, 1 / 36],
    ![1 / 9, -1 / 6, 1 / 6, 0, -1 / 4, 1 / 18, -1 / 12, 1 / 12, 1 / 36],
    ![1 / 9, -1 / 6, -1 / 6, 0, 1 / 4, 1 / 18, -1 / 12, -1 / 12, 1 / 36],
    ![1 / 9, 1 / 6, -1 / 6, 0, -1 / 4, 1 / 18, 1 / 12, -1 / 12, 1 / 36]]

/-- `MRTDHumieresD3Q19::moment_trafo`, `P/collision_advanced/AuxiliaryMRTFunctions.cpp:83-135` -/
def dHumieresM : Fin 19 → Fin 19 → ℚ :=
  ![![1, 1, 1, 1, 1, 1, 1, 1, 1, 1, 1, 1, 1, 1, 1, 1, 1, 1, 1],
    ![-30, -11, -11, -11, -11, -11, -11, 8, 8, 8, 8, 8, 8, 8, 8, 8, 8, 8, 8],
    ![12, -4, -4, -4, -4, -4, -4, 1, 1, 1, 1, 1, 1, 1, 1, 1, 1, 1, 1],
    ![0, 1, 0, -1, 0, 0, 0, 1, -1, -1, 1, 1, 1, -1, -1, 0, 0, 0, 0],
    ![0, -4, 0, 4, 0, 0, 0, 1, -1, -1, 1, 1, 1, -1, -1, 0, 0, 0, 0],
    ![0, 0, 0, 0, 0, -1, 1, 0, 0, 0, 0, -1, 1, 1, -1, -1, 1, 1, -1],
    ![0, 0, 0, 0, 0, 4, -4, 0, 0, 0, 0, -1, 1, 1, -1, -1, 1, 1, -1],
    ![0, 0, 1, 0, -1, 0, 0, 1, 1, -1, -1, 0, 0, 0, 0, 1, 1, -1, -1],
    ![0, 0, -4, 0, 4, 0, 0, 1, 1, -1, -1, 0, 0, 0, 0, 1, 1, -1, -1],
    ![0, 2, -1, 2, -1, -1, -1, 1, 1, 1, 1, 1, 1, 1, 1, -2, -2, -2, -2],
    ![0, -4, 2, -4, 2, 2, 2, 1, 1, 1, 1, 1, 1, 1, 1, -2, -2, -2, -2],
    ![0, 0, -1, 0, -1, 1, 1, -1, -1, -1, -1, 1, 1, 1, 1, 0, 0, 0, 0],
    ![0, 0, 2, 0, 2, -2, -2, -1, -1, -1, -1, 1, 1, 1, 1, 0, 0, 0, 0],
    ![0, 0, 0, 0, 0, 0, 0, 0, 0, 0, 0, -1, 1, -1, 1, 0, 0, 0, 0],
    ![0, 0, 0, 0, 0, 0, 0, 0, 0, 0, 0, 0, 0, 0, 0, -1, 1, -1, 1],
    ![0, 0, 0, 0, 0, 0, 0, 1, -1, 1, -1, 0, 0, 0, 0, 0, 0, 0, 0],
    ![0, 0, 0, 0, 0, 0, 0, -1, 1, 1, -1, 1, 1, -1, -1, 0, 0, 0, 0],
    ![0, 0, 0, 0, 0, 0, 0, 0, 0, 0, 0, 1, -1, -1, 1, -1, 1, 1, -1],
    ![0, 0, 0, 0, 0, 0, 0, 1, 1, -1, -1, 0, 0, 0, 0, -1, -1, 1, 1]]

/-- `MRTDHumieresD3Q19::inverse_trafo`, `P/collision_advanced/AuxiliaryMRTFunctions.cpp:137-207` -/
def dHumieresT : Fin 19 → Fin 19 → ℚ :=
  ![![1 / 19, -5 / 399, 1 / 21, 0, 0, 0, 0, 0, 0, 0, 0, 0, 0, 0, 0, 0, 0, 0, 0],
    ![1 / 19, -11 / 2394, -1 / 63, 1 / 10, -1 / 10, 0, 0, 0, 0, 1 / 18, -1 / 18, 0, 0, 0, 0, 0, 0, 0, 0],
    ![1 / 19, -11 / 2394, -1 / 63, 0, 0, 0, 0, 1 / 10, -1 / 10, -1 / 36, 1 / 36, -1 / 12, 1 / 12, 0, 0, 0, 0, 0, 0],
    ![1 / 19, -11 / 2394, -1 / 63, -1 / 10, 1 / 10, 0, 0, 0, 0, 1 / 18, -1 / 18, 0, 0, 0, 0, 0, 0, 0, 0],
    ![1 / 19, -11 / 2394, -1 / 63, 0, 0, 0, 0, -1 / 10, 1 / 10, -1 / 36, 1 / 36, -1 / 12, 1 / 12, 0, 0, 0, 0, 0, 0],
    ![1 / 19, -11 / 2394, -1 / 63, 0, 0, -1 / 10, 1 / 10, 0, 0, -1 / 36, 1 / 36, 1 / 12, -1 / 12, 0, 0, 0, 0, 0, 0],
    ![1 / 19, -11 / 2394, -1 / 63, 0, 0, 1 / 10, -1 / 10, 0, 0, -1 / 36, 1 / 36, 1 / 12, -1 / 12, 0, 0, 0, 0, 0, 0],
    ![1 / 19, 4 / 1197, 1 / 252, 1 / 10, 1 / 40, 0, 0, 1 / 10, 1 / 40, 1 / 36, 1 / 72, -1 / 12, -1 / 24, 0, 0, 1 / 4, -1 / 8, 0, 1 / 8],
    ![1 / 19, 4 / 1197, 1 / 252, -1 / 10, -1 / 40, 0, 0, 1 / 10, 1 / 40, 1 / 36, 1 / 72, -1 / 12, -1 / 24, 0, 0, -1 / 4, 1 / 8, 0, 1 / 8],
    ![1 / 19, 4 / 1197, 1 / 252, -1 / 10, -1 / 40, 0, 0, -1 / 10, -1 / 40, 1 / 36, 1 / 72, -1 / 12, -1 / 24, 0, 0, 1 / 4, 1 / 8, 0, -1 / 8],
    ![1 / 19, 4 / 1197, 1 / 252, 1 / 10, 1 / 40, 0, 0, -1 / 10, -1 / 40, 1 / 36, 1 / 72, -1 / 12, -1 / 24, 0, 0, -1 / 4, -1 / 8, 0, -1 / 8],
    ![1 / 19, 4 / 1197, 1 / 252, 1 / 10, 1 / 40, -1 / 10, -1 / 40, 0, 0, 1 / 36, 1 / 72, 1 / 12, 1 / 24, -1 / 4, 0, 0, 1 / 8, 1 / 8, 0],
    ![1 / 19, 4 / 1197, 1 / 252, 1 / 10, 1 / 40, 1 / 10, 1 / 40, 0, 0, 1 / 36, 1 / 72, 1 / 12, 1 / 24, 1 / 4, 0, 0, 1 / 8, -1 / 8, 0],
    ![1 / 19, 4 / 1197, 1 / 252, -1 / 10, -1 / 40, 1 / 10, 1 / 40, 0, 0, 1 / 36, 1 / 72, 1 / 12, 1 / 24, -1 / 4, 0, 0, -1 / 8, -1 / 8, 0],
    ![1 / 19, 4 / 1197, 1 / 252, -1 / 10, -1 / 40, -1 / 10, -1 / 40, 0, 0, 1 / 36, 1 / 72, 1 / 12, 1 / 24, 1 / 4, 0, 0, -1 / 8, 1 / 8, 0],
    ![1 / 19, 4 / 1197, 1 / 252, 0, 0, -1 / 10, -1 / 40, 1 / 10, 1 / 40, -1 / 18, -1 / 36, 0, 0, 0, -1 / 4, 0, 0, -1 / 8, -1 / 8],
    ![1 / 19, 4 / 1197, 1 / 252, 0, 0, 1 / 10, 1 / 40, 1 / 10, 1 / 40, -1 / 18, -1 / 36, 0, 0, 0, 1 / 4, 0, 0, 1 / 8, -1 / 8],
    ![1 / 19, 4 / 1197, 1 / 252, 0, 0, 1 / 10, 1 / 40, -1 / 10, -1 / 40, -1 / 18, -1 / 36, 0, 0, 0, -1 / 4, 0, 0, 1 / 8, 1 / 8],
    ![1 / 19, 4 / 1197, 1 / 252, 0, 0, -1 / 10, -1 / 40, -1 / 10, -1 / 40, -1 / 18, -1 / 36, 0, 0, 0, 1 / 4, 0, 0, -1 / 8, 1 / 8]]

variable {K : Type*} [Field K]

/-- A table of quotients as a matrix of `double`s. -/
def ofTable {n : ℕ} (A : Fin n → Fin n → ℚ) : Fin n → Fin n → K := fun i j => (A i j : K)

/-- `make_M<9>`, `P/collision_advanced/AuxiliaryMRTFunctions.cpp:221-235` -/
def makeM9 : MRTBasis → Except CollError (Fin 9 → Fin 9 → K)
  | .dellarD2Q9 => .ok (ofTable dellarM)
  | .lallemandD2Q9 => .ok (ofTable lallemandM)
  | .dHumieresD3Q19 => .error .mrt

/-- `make_M<19>`, `P/collision_advanced/AuxiliaryMRTFunctions.cpp:236-246` -/
def makeM19 : MRTBasis → Except CollError (Fin 19 → Fin 19 → K)
  | .dHumieresD3Q19 => .ok (ofTable dHumieresM)
  | _ => .error .mrt

/-- `make_T<9>`, `P/collision_advanced/AuxiliaryMRTFunctions.cpp:256-270` -/
def makeT9 : MRTBasis → Except CollError (Fin 9 → Fin 9 → K)
  | .dellarD2Q9 => .ok (ofTable dellarT)
  | .lallemandD2Q9 => .ok (ofTable lallemandT)
  | .dHumieresD3Q19 => .error .mrt

/-- `make_T<19>`, `P/collision_advanced/AuxiliaryMRTFunctions.cpp:271-281` -/
def makeT19 : MRTBasis → Except CollError (Fin 19 → Fin 19 → K)
  | .dHumieresD3Q19 => .ok (ofTable dHumieresT)
  | _ => .error .mrt

/-- `make_diag<9>`, `P/collision_advanced/AuxiliaryMRTFunctions.cpp:292-339`.  The `assert` at line 326 is an explicit outcome. -/
def makeDiag9 (tau : K) (basis : MRTBasis) (mode : RelaxMode) : Except CollError (Fin 9 → K) :=
  let diag : Fin 9 → K := fun _ => 1 / tau
  match mode with
  | .relaxFull =>
    match basis with
    | .dellarD2Q9 => .ok (Function.update (Function.update (Function.update diag 6 1) 7 1) 8 1)
    | .lallemandD2Q9 => .ok (Function.update (Function.update (Function.update diag 6 1) 7 1) 8 1)
    | .dHumieresD3Q19 => .error .mrt
  | .dellarRelaxOnlyN =>
    if basis = .dellarD2Q9 then .ok (Function.update diag 8 1) else .error .assertion
  | .relaxDHumieresPaper => .error .mrt

/-- `make_diag<19>`, `P/collision_advanced/AuxiliaryMRTFunctions.cpp:341-405`.  The `assert(tau > 0.5)` at line 344 is an explicit
outcome. -/
def makeDiag19 [LinearOrder K] (tau : K) (basis : MRTBasis) (mode : RelaxMode) : Except CollError (Fin 19 → K) :=
  if ¬ tau > 1 / 2 then .error .assertion
  else
    let diag : Fin 19 → K := fun _ => 1 / tau
    match mode with
    | .relaxFull =>
      match basis with
      | .dHumieresD3Q19 =>
        .ok ([4, 6, 8, 10, 12, 2, 16, 17, 18].foldl (fun dg (i : Fin 19) => Function.update dg i 1) diag)
      | _ => .error .mrt
    | .relaxDHumieresPaper =>
      match basis with
      | .dHumieresD3Q19 =>
        let s9 := 1 / tau
        let s13 := 1 / tau
        let s1 := 119 / 100
        let s2 := 14 / 10
        let s10 := 14 / 10
        let s4 := 12 / 10
        let s16 := 198 / 100
        .ok ![0, s1, s2, 0, s4, 0, s4, 0, s4, s9, s10, s9, s10, s13, s13, s13, s16, s16, s16]
      | _ => .error .mrt
    | .dellarRelaxOnlyN => .error .mrt

end MRT

end NATriuM
