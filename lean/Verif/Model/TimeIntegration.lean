import Mathlib.Analysis.Real.Sqrt
import Mathlib.Analysis.SpecialFunctions.Log.Basic
import Mathlib.LinearAlgebra.Matrix.NonsingularInverse
import Mathlib.Algebra.Order.Floor.Ring
import Mathlib.Algebra.Module.LinearMap.Basic

/-!
# Time integrators

Models of `P/timeintegration/` (`P` = `src/library/natrium`): `TimeIntegrator`, `RungeKutta5LowStorage`, `ThetaMethod`,
`ExponentialTimeIntegrator`, and of the integrator table in `P/utilities/CFDSolverUtilities.cpp`.

The system matrix is a linear map `A : E →ₗ[ℝ] E`, the system vector is `b : E`; block vectors are vectors of the product space. The
integrators' work vectors (`m_df`, `m_Af`, `m_w`, …) are overwritten before being read in each step, hence local here. The only state that
survives a step is `m_timeStepSize`.
-/

namespace NATriuM

namespace TimeIntegration

/-- What a call of `step` leaves behind: the state vector, the returned time and the stored `m_timeStepSize`. -/
structure StepResult (E : Type*) where
  f : E
  t : ℝ
  timeStepSize : ℝ

/-- Abnormal outcomes of a step. -/
inductive StepError
  /-- `assert(timeStepSize > 0.0)` in `setTimeStepSize` -/
  | assertTimeStep
  /-- division by zero, i.e. NaN in the state -/
  | divisionByZero
  /-- `gauss_jordan` of a singular matrix -/
  | singularMatrix
  /-- `SolverControl::NoConvergence` -/
  | noConvergence
  deriving DecidableEq, Repr

/-- The prologue common to all `step` functions: `RungeKutta5LowStorage.cpp:63-68`, `ThetaMethod.cpp:69-74`, `:125-130`, `:185-190`,
`:256-261`, `ExponentialTimeIntegrator.cpp:77-82`, with `TimeIntegrator.h:39-45` inlined. The result is the pair of the stored
`m_timeStepSize` and the local `dt` after the prologue. -/
noncomputable def prologue (stored dt : ℝ) : Except StepError (ℝ × ℝ) :=
  if dt ≠ 0 ∧ dt ≠ stored then
    if 0 < dt then .ok (dt, dt) else .error .assertTimeStep
  else if dt = 0 then .ok (stored, stored)
  else .ok (stored, dt)

section RungeKutta

/-- `RungeKutta5LowStorage.h:29-34`, `makeA` -/
def rkA : Fin 5 → ℚ :=
  ![0, -567301805773 / 1357537059087, -2404267990393 / 2016746695238, -3550918686646 / 2091501179385, -1275806237668 / 842570457699]

/-- `RungeKutta5LowStorage.h:35-40`, `makeB` -/
def rkB : Fin 5 → ℚ :=
  ![1432997174477 / 9575080441755, 5161836677717 / 13612068292357, 1720146321549 / 2090206949498, 3134564353537 / 4481467310338,
    2277821191437 / 14882151754819]

variable {E : Type*} [AddCommGroup E] [Module ℝ E]

/-- The body of the first stage, `RungeKutta5LowStorage.cpp:77-87`; the result is `(f, m_df)`. -/
noncomputable def rkFirst (A : E →ₗ[ℝ] E) (b : E) (h : ℝ) (f : E) : E × E :=
  let Af := h • (A f + b)
  let df := (rkB 0 : ℝ) • Af
  (f + df, (rkB 0 : ℝ)⁻¹ • df)

/-- The loop body `RungeKutta5LowStorage.cpp:88-101` -/
noncomputable def rkStage (A : E →ₗ[ℝ] E) (b : E) (h : ℝ) (s : E × E) (i : Fin 5) : E × E :=
  let Af := h • (A s.1 + b)
  let df := (rkB i : ℝ) • ((rkA i : ℝ) • s.2 + Af)
  (s.1 + df, (rkB i : ℝ)⁻¹ • df)

/-- `RungeKutta5LowStorage::step`, `RungeKutta5LowStorage.cpp:56-105` -/
noncomputable def rkStep (A : E →ₗ[ℝ] E) (b : E) (stored : ℝ) (f : E) (t dt : ℝ) : Except StepError (StepResult E) :=
  match prologue stored dt with
  | .error e => .error e
  | .ok (h, dt) => .ok ⟨([1, 2, 3, 4].foldl (rkStage A b h) (rkFirst A b h f)).1, t + dt, h⟩

end RungeKutta

section Theta

variable {E : Type*} [AddCommGroup E] [Module ℝ E]

/-- `m_tmpMatrix` at the time of the solve: `I - θ dt A`, `ThetaMethod.cpp:89-99` (`:148-158`, `:210-230`, `:278-298`) -/
noncomputable def thetaMatrix (A : E →ₗ[ℝ] E) (θ h : ℝ) : E →ₗ[ℝ] E := (-θ) • (h • A) + LinearMap.id

/-- `m_tmpSystemVector` at the time of the solve, `ThetaMethod.cpp:86-104` -/
noncomputable def thetaRhs (A : E →ₗ[ℝ] E) (b : E) (θ h : ℝ) (f : E) : E := (h • b + (h • A) f) + thetaMatrix A θ h f

/-- `ThetaMethod::step`, `ThetaMethod.cpp:61-115` and the three other specialisations `:117-315`, which differ in the types only. The
solver is a parameter: `solve M x rhs` is `bicgstab.solve(M, x, rhs, PreconditionIdentity())` with initial guess `x`, `none` when it
throws `NoConvergence`. -/
noncomputable def thetaStep (solve : (E →ₗ[ℝ] E) → E → E → Option E) (A : E →ₗ[ℝ] E) (b : E) (θ stored : ℝ) (f : E) (t dt : ℝ) :
    Except StepError (StepResult E) :=
  match prologue stored dt with
  | .error e => .error e
  | .ok (h, dt) =>
    match solve (thetaMatrix A θ h) f (thetaRhs A b θ h f) with
    | none => .error .noConvergence
    | some x => .ok ⟨x, t + dt, h⟩

end Theta

section Exponential

variable {n : ℕ}

/-- `m_w * m_vi`: the scalar product of deal.II vectors -/
noncomputable def dot (x y : Fin n → ℝ) : ℝ := ∑ k, x k * y k

/-- `l2_norm` of deal.II vectors -/
noncomputable def l2norm (x : Fin n → ℝ) : ℝ := Real.sqrt (dot x x)

/-- `static const size_t arnoldiSize`, `ExponentialTimeIntegrator.h` / `.cpp`; `taylorSteps` has the same value -/
def arnoldiSize : ℕ := 6

/-- State of the Arnoldi process: the columns of `m_V` and the matrix `m_H`. -/
structure Arnoldi (n : ℕ) where
  V : ℕ → Fin n → ℝ
  H : ℕ → ℕ → ℝ

/-- `m_H(i, j) = v` -/
def setH (H : ℕ → ℕ → ℝ) (i j : ℕ) (v : ℝ) : ℕ → ℕ → ℝ := fun i' j' => if i' = i ∧ j' = j then v else H i' j'

/-- The orthogonalisation loop `ExponentialTimeIntegrator.cpp:129-137`; the state is `(m_H, m_w)`. -/
noncomputable def orthogonalise (V : ℕ → Fin n → ℝ) (j : ℕ) (s : (ℕ → ℕ → ℝ) × (Fin n → ℝ)) : (ℕ → ℕ → ℝ) × (Fin n → ℝ) :=
  (List.range (j + 1)).foldl (fun s i => let h := dot s.2 (V i); (setH s.1 i j h, s.2 - h • V i)) s

/-- The loop body `ExponentialTimeIntegrator.cpp:120-150` -/
noncomputable def arnoldiStep (A : (Fin n → ℝ) →ₗ[ℝ] (Fin n → ℝ)) (s : Arnoldi n) (j : ℕ) : Arnoldi n :=
  let (H, w) := orthogonalise s.V j (s.H, A (s.V j))
  let H := setH H (j + 1) j (l2norm w)
  let V := if l2norm w ≠ 0 then Function.update s.V (j + 1) ((l2norm w)⁻¹ • w) else s.V
  ⟨V, setH H (arnoldiSize + 1) arnoldiSize 1⟩

/-- `ExponentialTimeIntegrator.cpp:100-150` after `beta` has been found to be nonzero -/
noncomputable def arnoldi (A : (Fin n → ℝ) →ₗ[ℝ] (Fin n → ℝ)) (w : Fin n → ℝ) (beta : ℝ) : Arnoldi n :=
  (List.range arnoldiSize).foldl (arnoldiStep A) ⟨Function.update (fun _ => 0) 0 (beta⁻¹ • w), fun _ _ => 0⟩

/-- The square matrices of size `arnoldiSize` -/
abbrev Small := Matrix (Fin 6) (Fin 6) ℝ

/-- `FullMatrix::gauss_jordan`: the inverse of a regular matrix; a singular one makes the routine divide by zero (an assertion in debug
mode). -/
noncomputable def gaussJordan (M : Small) : Except StepError Small :=
  if M.det = 0 then .error .singularMatrix else .ok M⁻¹

/-- `factorial`, `ExponentialTimeIntegrator.cpp:200-207`; the largest argument used, 12, does not overflow 32 bits. -/
def factorial (n : ℕ) : ℝ := (Nat.factorial n : ℝ)

/-- Coefficient `fact`, `ExponentialTimeIntegrator.cpp:277-281`, with `m = taylorSteps = 6` -/
noncomputable def padeCoeff (n : ℕ) : ℝ := factorial (12 - n) * factorial 6 / (factorial 12 * factorial n * factorial (6 - n))

/-- Loop body `ExponentialTimeIntegrator.cpp:275-295`; the state is `(factor, N, D)`. -/
noncomputable def padeStep (base : Small) (s : Small × Small × Small) (n : ℕ) : Small × Small × Small :=
  let aid := s.1 * base
  let scaled := padeCoeff n • aid
  (aid, s.2.1 + scaled, s.2.2 + (if n % 2 ≠ 0 then -scaled else scaled))

/-- `linfty_norm`: the largest row sum of absolute values -/
noncomputable def linftyNorm (M : Small) : ℝ := Finset.univ.sup' Finset.univ_nonempty fun i => ∑ j, |M i j|

/-- The number of squarings, `ExponentialTimeIntegrator.cpp:259-265`: `trunc(log(s)/log(2)) + 2` for `s > 0.5` (the value is never
negative then); for smaller `s` the loop `i = 1; i <= s` is not entered. -/
noncomputable def padeScaling (base : Small) : ℕ :=
  let s := linftyNorm base
  if s > 1 / 2 then (if 0 ≤ Real.log s / Real.log 2 then ⌊Real.log s / Real.log 2⌋ else ⌈Real.log s / Real.log 2⌉).toNat + 2 else 0

/-- `padeApproximation`, `ExponentialTimeIntegrator.cpp:250-308` -/
noncomputable def padeApproximation (base : Small) : Except StepError Small :=
  let s := padeScaling base
  let base := (2 ^ s : ℝ)⁻¹ • base
  let (_, N, D) := [1, 2, 3, 4, 5, 6].foldl (padeStep base) (1, 1, 1)
  match gaussJordan D with
  | .error e => .error e
  | .ok Dinv => .ok ((fun X => X * X)^[s] (Dinv * N))

/-- `phiFunction`, `ExponentialTimeIntegrator.cpp:310-334`; the result is `(phiOne, phiTwo)`. -/
noncomputable def phiFunction (Hm : Small) (h : ℝ) : Except StepError (Small × Small) :=
  match padeApproximation (h • Hm) with
  | .error e => .error e
  | .ok ex =>
    match gaussJordan (h • Hm) with
    | .error e => .error e
    | .ok inv =>
      let phiOne := (ex - 1) * inv
      .ok (phiOne, (phiOne - 1) * inv)

/-- `m_firstColumn`, `ExponentialTimeIntegrator.cpp:165-182` -/
noncomputable def firstColumn (H : ℕ → ℕ → ℝ) (h : ℝ) (phi : Small × Small) (i : ℕ) : ℝ :=
  if hi : i < 6 then phi.1 ⟨i, hi⟩ 0 else H arnoldiSize (arnoldiSize - 1) * h * phi.2 5 0

/-- `ExponentialTimeIntegrator::step`, `ExponentialTimeIntegrator.cpp:63-198`. The division `m_V.column(0) /= beta` by zero is an explicit
error. -/
noncomputable def exponentialStep (A : (Fin n → ℝ) →ₗ[ℝ] (Fin n → ℝ)) (b : Fin n → ℝ) (stored : ℝ) (f : Fin n → ℝ) (t dt : ℝ) :
    Except StepError (StepResult (Fin n → ℝ)) :=
  match prologue stored dt with
  | .error e => .error e
  | .ok (h, dt) =>
    let w := A f + b
    let beta := l2norm w
    if beta = 0 then .error .divisionByZero
    else
      let s := arnoldi A w beta
      match phiFunction (Matrix.of fun i j => s.H i j) h with
      | .error e => .error e
      | .ok phi => .ok ⟨f + (dt * beta) • ∑ i ∈ Finset.range (arnoldiSize + 1), firstColumn s.H h phi i • s.V i, t + dt, h⟩

end Exponential

/-! ## Integrator table -/

/-- `enum TimeIntegratorName`, `P/utilities/BasicNames.h` / `P/utilities/ConfigNames.h` -/
inductive TimeIntegratorName
  | RUNGE_KUTTA_5STAGE | THETA_METHOD | EXPONENTIAL | OTHER
  deriving DecidableEq, Repr

/-- `enum DealIntegratorName` -/
inductive DealIntegratorName
  | FORWARD_EULER | RK_THIRD_ORDER | RK_CLASSIC_FOURTH_ORDER | BACKWARD_EULER | IMPLICIT_MIDPOINT | CRANK_NICOLSON | SDIRK_TWO_STAGES
  | HEUN_EULER | BOGACKI_SHAMPINE | DOPRI | FEHLBERG | CASH_KARP | NONE
  deriving DecidableEq, Repr

open TimeIntegratorName DealIntegratorName

/-- `CFDSolverUtilities::get_integrator_name`, `P/utilities/CFDSolverUtilities.cpp:231-297` -/
def integratorName : TimeIntegratorName → DealIntegratorName → String
  | RUNGE_KUTTA_5STAGE, _ => "RUNGE_KUTTA_5STAGE"
  | THETA_METHOD, _ => "THETA_METHOD"
  | EXPONENTIAL, _ => "EXPONENTIAL"
  | OTHER, FORWARD_EULER => "FORWARD_EULER"
  | OTHER, RK_THIRD_ORDER => "RK_THIRD_ORDER"
  | OTHER, RK_CLASSIC_FOURTH_ORDER => "RK_CLASSIC_FOURTH_ORDER"
  | OTHER, BACKWARD_EULER => "BACKWARD_EULER"
  | OTHER, IMPLICIT_MIDPOINT => "IMPLICIT_MIDPOINT"
  | OTHER, CRANK_NICOLSON => "CRANK_NICOLSON"
  | OTHER, SDIRK_TWO_STAGES => "SDIRK_TWO_STAGES"
  | OTHER, HEUN_EULER => "HEUN_EULER"
  | OTHER, BOGACKI_SHAMPINE => "BOGACKI_SHAMPINE"
  | OTHER, DOPRI => "DOPRI"
  | OTHER, FEHLBERG => "FEHLBERG"
  | OTHER, CASH_KARP => "CASH_KARP"
  | OTHER, NONE => ""

/-- The switch of `CFDSolverUtilities::get_integrator_by_id`, `P/utilities/CFDSolverUtilities.cpp:143-227`: `cur` is the value of the
reference `time_integrator` before the call, kept by the `default` branch, which only logs. -/
def selectById (cur : TimeIntegratorName) (id : ℕ) : TimeIntegratorName × DealIntegratorName :=
  match id with
  | 1 => (RUNGE_KUTTA_5STAGE, NONE)
  | 2 => (THETA_METHOD, NONE)
  | 3 => (EXPONENTIAL, NONE)
  | 4 => (OTHER, FORWARD_EULER)
  | 5 => (OTHER, RK_THIRD_ORDER)
  | 6 => (OTHER, RK_CLASSIC_FOURTH_ORDER)
  | 7 => (OTHER, BACKWARD_EULER)
  | 8 => (OTHER, IMPLICIT_MIDPOINT)
  | 9 => (OTHER, CRANK_NICOLSON)
  | 10 => (OTHER, SDIRK_TWO_STAGES)
  | 11 => (OTHER, HEUN_EULER)
  | 12 => (OTHER, BOGACKI_SHAMPINE)
  | 13 => (OTHER, DOPRI)
  | 14 => (OTHER, FEHLBERG)
  | 15 => (OTHER, CASH_KARP)
  | _ => (cur, NONE)

/-- `CFDSolverUtilities::get_integrator_by_id`, `P/utilities/CFDSolverUtilities.cpp:139-229`: the selected pair and its name -/
def integratorById (cur : TimeIntegratorName) (id : ℕ) : TimeIntegratorName × DealIntegratorName × String :=
  let s := selectById cur id
  (s.1, s.2, integratorName s.1 s.2)

end TimeIntegration

end NATriuM
