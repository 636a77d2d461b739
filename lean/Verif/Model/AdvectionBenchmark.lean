import Mathlib.Analysis.SpecialFunctions.Trigonometric.Arctan
import Verif.Model.TimeIntegration

/-!
# The advection benchmark

Model of `P/benchmarks/AdvectionBenchmark.cpp` (`P` = `src/library/natrium`): the analytic solution, its evaluation at the degrees of
freedom, the time loop in its two variants and the reported errors. Doubles are real numbers. A `while` loop gets a bound on the number of
its iterations; `none` means that the loop has not ended by then. File output inside of the loop is reduced to the list of the times that
are written.
-/

namespace NATriuM

namespace AdvectionBenchmark

open Real TimeIntegration

/-! ## Analytic solution -/

/-- `AdvectionBenchmark.cpp:101-103`: the loop that adds one while the coordinate is negative -/
noncomputable def raise : ℕ → ℝ → Option ℝ
  | 0, x => if x < 0 then none else some x
  | n + 1, x => if x < 0 then raise n (x + 1) else some x

/-- `AdvectionBenchmark.cpp:104-106`: the loop that subtracts one while the coordinate is greater than one -/
noncomputable def lower : ℕ → ℝ → Option ℝ
  | 0, x => if 1 < x then none else some x
  | n + 1, x => if 1 < x then lower n (x - 1) else some x

/-- `AdvectionBenchmark.cpp:107-114`: the profile at the point that has been moved back -/
noncomputable def profile (isSmooth : Bool) (x : ℝ) : ℝ :=
  let h := sin (8 * arctan 1 * x * 1)
  if isSmooth then h else ((if 0 < h then 1 else 0) - (if h < 0 then 1 else 0)) * |h| ^ 2

/-- `analytic_solution`, `AdvectionBenchmark.cpp:92-115`; only the first coordinate of the point is used. Each loop may take `fuel`
iterations. -/
noncomputable def analyticSolution (fuel : ℕ) (time x : ℝ) (isSmooth : Bool) : Option ℝ :=
  match raise fuel (x - time) with
  | none => none
  | some y =>
    match lower fuel y with
    | none => none
    | some z => some (profile isSmooth z)

/-! ## Evaluation at the degrees of freedom -/

/-- What the loop of `getAnalyticSolution` sees of a cell -/
structure Cell where
  /-- `cell->is_locally_owned()` -/
  owned : Bool
  /-- `local_dof_indices` -/
  dofs : List ℕ

/-- The loop body `AdvectionBenchmark.cpp:130-140`: `none` is the failed assertion of lines 135-137 (without assertions `.at` throws). -/
def setDof (localRange : ℕ → Bool) (support : ℕ → Option ℝ) (value : ℝ → ℝ) (v : ℕ → ℝ) (i : ℕ) : Option (ℕ → ℝ) :=
  if localRange i then
    match support i with
    | none => none
    | some x => some (Function.update v i (value x))
  else some v

/-- The body of the loop over the cells, `AdvectionBenchmark.cpp:127-142` -/
def setCell (localRange : ℕ → Bool) (support : ℕ → Option ℝ) (value : ℝ → ℝ) (v : ℕ → ℝ) (c : Cell) : Option (ℕ → ℝ) :=
  if c.owned then c.dofs.foldlM (setDof localRange support value) v else some v

/-- `getAnalyticSolution`, `AdvectionBenchmark.cpp:117-144`: `value x` is `analytic_solution(time, x, is_smooth)`, `support` holds the first
coordinates of the support points. -/
def getAnalyticSolution (localRange : ℕ → Bool) (support : ℕ → Option ℝ) (value : ℝ → ℝ) (cells : List Cell) (v : ℕ → ℝ) :
    Option (ℕ → ℝ) :=
  cells.foldlM (setCell localRange support value) v

/-! ## Time loop -/

variable {E : Type*}

/-- The variables of the time loop, `AdvectionBenchmark.cpp:203-204`, the state vector `f`, the step size stored in the integrator and the
pairs of time and state that the output branch puts into one file -/
structure Loop (E : Type*) where
  t : ℝ
  i : ℕ
  f : E
  stored : ℝ
  written : List (ℝ × E)

/-- How the state is advanced: by the matrix of the semi-Lagrangian operator or by a time integrator; the arguments of an integrator are the
stored step size, the state, `t` and `dt`. -/
inductive Stepper (E : Type*)
  | semiLagrangian (apply : E → E)
  | integrator (step : ℝ → E → ℝ → ℝ → Except StepError (StepResult E))

/-- `AdvectionBenchmark.cpp:222-229`, streaming in the output branch: the integrator's return value is added to `t`. -/
noncomputable def streamOutput (s : Stepper E) (deltaT : ℝ) (l : Loop E) : Except StepError (Loop E) :=
  match s with
  | .semiLagrangian apply => .ok { l with t := l.t + deltaT, f := apply l.f }
  | .integrator step =>
    match step l.stored l.f l.t l.stored with
    | .error e => .error e
    | .ok r => .ok { l with t := l.t + r.t, f := r.f, stored := r.timeStepSize }

/-- `AdvectionBenchmark.cpp:255-262`, streaming in the branch without output: `t` becomes the integrator's return value. -/
noncomputable def streamPlain (s : Stepper E) (deltaT : ℝ) (l : Loop E) : Except StepError (Loop E) :=
  match s with
  | .semiLagrangian apply => .ok { l with t := l.t + deltaT, f := apply l.f }
  | .integrator step =>
    match step l.stored l.f l.t l.stored with
    | .error e => .error e
    | .ok r => .ok { l with t := r.t, f := r.f, stored := r.timeStepSize }

/-- `AdvectionBenchmark.cpp:231-246`: every tenth step `f` is written with the analytic solution at `deltaT * i`. -/
noncomputable def write (deltaT : ℝ) (l : Loop E) : Loop E :=
  if l.i % 10 = 0 then { l with written := l.written ++ [(deltaT * l.i, l.f)] } else l

/-- The loop bodies `AdvectionBenchmark.cpp:219-246` and `:252-263` -/
noncomputable def body (output : Bool) (s : Stepper E) (deltaT : ℝ) (l : Loop E) : Except StepError (Loop E) :=
  let l := { l with i := l.i + 1 }
  if output then
    match streamOutput s deltaT l with
    | .error e => .error e
    | .ok l => .ok (write deltaT l)
  else streamPlain s deltaT l

/-- The loops `AdvectionBenchmark.cpp:218-248` and `:251-264` -/
noncomputable def loop (output : Bool) (s : Stepper E) (deltaT tEnd : ℝ) : ℕ → Loop E → Option (Except StepError (Loop E))
  | 0, l => if l.t < tEnd then none else some (.ok l)
  | n + 1, l =>
    if l.t < tEnd then
      match body output s deltaT l with
      | .error e => some (.error e)
      | .ok l => loop output s deltaT tEnd n l
    else some (.ok l)

/-- The state before the loop, `AdvectionBenchmark.cpp:196-204`: the integrator has been made with the step size `deltaT`. -/
noncomputable def start (deltaT : ℝ) (f : E) : Loop E := ⟨0, 0, f, deltaT, []⟩

/-! ## Result -/

/-- `linfty_norm()` of a vector given by its entries -/
noncomputable def linftyNorm (v : List ℝ) : ℝ := v.foldl (fun m x => max m |x|) 0

/-- `l2_norm()` of a vector given by its entries -/
noncomputable def l2Norm (v : List ℝ) : ℝ := sqrt (v.map fun x => x ^ 2).sum

/-- `AdvectionBenchmark.cpp:272-275`: the entries of the analytic solution minus those of the computed one -/
noncomputable def difference (dofs : List ℕ) (analytic f : ℕ → ℝ) : List ℝ := dofs.map fun i => analytic i + -1 * f i

/-- `AdvectionBenchmark.cpp:272-275`: the pair `normSup`, `norm2` -/
noncomputable def errors (dofs : List ℕ) (analytic f : ℕ → ℝ) : ℝ × ℝ :=
  (linftyNorm (difference dofs analytic f), l2Norm (difference dofs analytic f))

end AdvectionBenchmark

end NATriuM
