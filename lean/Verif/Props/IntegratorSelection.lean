import Verif.Lemmas.IntegratorSelection
import Verif.Props.Config
import Mathlib.Tactic.NormNum
import Mathlib.Tactic.Linarith

/-!
# C94, C95: choice of the time integrator and of the linear solver
-/

namespace NATriuM

namespace IntegratorSelection

open Config

/-! ## C94 -/

/-- **C94** (partial: the combination `OTHER`, `NONE` is excluded) The solver gets the time integrator named in its configuration, with its
parameters. -/
theorem C94_build_partial {K : Type*} (c : Choice K) (dt minDelta maxDelta : K) (h1 : c.timeIntegrator < 4) (h2 : c.dealIntegrator < 13)
    (h3 : ¬(c.timeIntegrator = OTHER ∧ c.dealIntegrator = NONE)) :
    ∃ i, build c dt minDelta maxDelta = some (some i) ∧ Named c dt minDelta maxDelta i := by
  obtain ⟨t, d, l, θ⟩ := c
  simp only at h1 h2 h3
  interval_cases t
  · exact ⟨_, rfl, rfl, rfl⟩
  · exact ⟨_, rfl, rfl, rfl, rfl⟩
  · exact ⟨_, rfl, rfl, rfl⟩
  · interval_cases d
    all_goals first
      | exact absurd ⟨rfl, rfl⟩ h3
      | exact ⟨_, rfl, rfl, rfl, by simp, rfl, rfl⟩
      | exact ⟨_, rfl, rfl, rfl, by simp, rfl, rfl, rfl⟩

example : build (K := ℚ) ⟨OTHER, CRANK_NICOLSON, GMRES, 1 / 2⟩ (1 / 10) 0 1 = some (some (.implicitRK (1 / 10) CRANK_NICOLSON GMRES)) := by
  decide +kernel

/-- **C94** fails: the setters accept a configuration for which no integrator is made and the solver keeps a null pointer. The check
`isConsistent` would reject the configuration, but the solver does not call it. -/
theorem C94_build_fails {K : Type*} (l : ℕ) (θ dt minDelta maxDelta : K) : ∃ h' : Handler,
    exec (.enum .timeIntegrator OTHER) (history []) = (.ok (), h') ∧ (getEnum .timeIntegrator h').1 = .ok OTHER ∧
    (getEnum .dealIntegrator h').1 = .ok NONE ∧ (isConsistent 1 h').1 = .error .configuration ∧
    build ⟨OTHER, NONE, l, θ⟩ dt minDelta maxDelta = some none := by
  have e1 : exec (.enum .timeIntegrator OTHER) initial = (.ok (), initial.put ["Advection", "Time integrator"] (.text "Other")) :=
    plainSet_ok (pt := .selection (EnumParam.allowed .timeIntegrator)) (subs := ["Advection"]) (name := "Time integrator")
      (v := .text "Other") rfl (EnumParam.declared_eq .timeIntegrator)
      ((EnumParam.set_allowed .timeIntegrator (n := OTHER) (s := "Other")) (by decide +kernel))
  have hs : Safe [.enum .timeIntegrator OTHER] := by intro v hv; simp at hv
  have hh : history [.enum .timeIntegrator OTHER] = initial.put ["Advection", "Time integrator"] (.text "Other") := by
    simp only [history, List.foldl_cons, List.foldl_nil, e1]
  have hg := good_history hs
  have vt : (history [.enum .timeIntegrator OTHER]).value ["Advection", "Time integrator"] = some (.text "Other") := by
    rw [hh]
    exact put_value _ _ _ (EnumParam.declared_eq .timeIntegrator)
  have vd : (history [.enum .timeIntegrator OTHER]).value ["Advection", "Deal.II integrator", "Runge Kutta scheme"] = some (.text "None") := by
    rw [hh]
    unfold Handler.value
    rw [put_entries_ne _ _ (by decide)]
    have : (position ["Advection", "Deal.II integrator", "Runge Kutta scheme"]).map Fin.val = some 16 := by decide +kernel
    obtain ⟨j, hj, hj'⟩ := Option.map_eq_some_iff.1 this
    simp [initial, hj, hj', defaults]
  have gt : getEnum .timeIntegrator (history [.enum .timeIntegrator OTHER]) = (.ok OTHER, _) :=
    (getEnum_eq .timeIntegrator hg.path vt).trans (by rfl)
  have gd : getEnum .dealIntegrator (history [.enum .timeIntegrator OTHER]) = (.ok NONE, _) :=
    (getEnum_eq .dealIntegrator hg.path vd).trans (by rfl)
  refine ⟨history [.enum .timeIntegrator OTHER], by rw [hh]; exact e1, by rw [gt], by rw [gd], ?_, rfl⟩
  simp only [isConsistent, bindRes, gt, gd]
  simp

/-- **C94** fails for all schemes of deal.II: a step returns no time, and for a constant right-hand side `b`, for which every Runge-Kutta scheme is
exact, the result is wrong. -/
theorem C94_step_fails {f b dt : ℝ} (hb : b ≠ 0) (hd : 0 < dt) :
    (wrapperStep (K := ℝ) f).2 = none ∧ (wrapperStep (K := ℝ) f).1 ≠ f + dt * b := by
  refine ⟨rfl, fun h => ?_⟩
  have : dt * b = 0 := by simp only [wrapperStep] at h; linarith
  rcases mul_eq_zero.1 this with h | h
  · exact hd.ne' h
  · exact hb h

/-- **C94** The advection benchmark gets the same integrators, with `θ = 1/2`, the default linear solver and step sizes between a tenth of and ten
times the given one; for `OTHER`, `NONE` there is an assertion. -/
theorem C94_benchmark {K : Type*} [Field K] (t d : ℕ) (dt : K) (h1 : t < 4) (h2 : d < 13) :
    (¬(t = OTHER ∧ d = NONE) → ∃ i, makeIntegrator t d dt = some i ∧ Named ⟨t, d, BICGSTAB, 1 / 2⟩ dt (dt / 10) (10 * dt) i) ∧
    (t = OTHER ∧ d = NONE → makeIntegrator t d dt = none) := by
  constructor
  · intro h3
    interval_cases t
    · exact ⟨_, rfl, rfl, rfl⟩
    · exact ⟨_, rfl, rfl, rfl, rfl⟩
    · exact ⟨_, rfl, rfl, rfl⟩
    · interval_cases d
      all_goals first
        | exact absurd ⟨rfl, rfl⟩ h3
        | exact ⟨_, rfl, rfl, rfl, by simp, rfl, rfl⟩
        | exact ⟨_, rfl, rfl, rfl, by simp, rfl, rfl, rfl⟩
  · rintro ⟨rfl, rfl⟩
    rfl

example : makeIntegrator OTHER DOPRI (2 : ℚ) = some (.embeddedRK 2 DOPRI BICGSTAB (some (1 / 5, 20))) := by decide +kernel

/-! ## C95 -/

/-- **C95** The right-hand side handed to the schemes of deal.II is `A f + b`, and the matrix of the implicit ones is `I - τ A`. -/
theorem C95_system {K : Type*} [Field K] {n : ℕ} (A : Matrix (Fin n) (Fin n) K) (tau : K) (b f : Fin n → K) :
    evaluateF A b f = A.mulVec f + b ∧ idMinusTau A tau = 1 - tau • A := by
  refine ⟨?_, idMinusTau_eq A tau⟩
  funext i
  simp [evaluateF, add_comm]

/-- **C95** (partial: `RELAXATION` is excluded) With each linear solver, the result of a solve that does not throw fulfils
`(I - τ A) x = f` up to a residual of `1e-6` times the norm of `f`. -/
theorem C95_solve_partial {n : ℕ} (solve) (hs : Solves (n := n) 1e-6 solve) {solver : ℕ} (h : solver < 8) (hr : solver ≠ RELAXATION)
    (A : Matrix (Fin n) (Fin n) ℝ) (tau : ℝ) (f x : Fin n → ℝ) (hx : evaluateIdMinusTauJInverse solve solver A tau f = some x) :
    norm2 (fun i => f i - (1 - tau • A).mulVec x i) ≤ 1e-6 * norm2 f := by
  rw [evaluateIdMinusTauJInverse, dispatch_eq solve h hr, idMinusTau_eq] at hx
  exact hs _ _ _ _ _ hx

/-- A solver that divides by the entry of a matrix of size one -/
noncomputable def sampleSolve (_ : ℕ) (M : Matrix (Fin 1) (Fin 1) ℝ) (_ f : Fin 1 → ℝ) : Option (Fin 1 → ℝ) :=
  if M 0 0 = 0 then none else some fun _ => f 0 / M 0 0

theorem sampleSolve_solves : Solves 1e-6 sampleSolve := by
  intro s M x f y h
  unfold sampleSolve at h
  split_ifs at h with h0
  simp only [Option.some.injEq] at h
  subst h
  have h1 : (fun i => f i - M.mulVec (fun _ => f 0 / M 0 0) i) = fun _ => 0 := by
    funext i
    have : i = 0 := Subsingleton.elim _ _
    subst this
    simp only [Matrix.mulVec, dotProduct, Fin.sum_univ_one]
    rw [mul_div_cancel₀ _ h0]
    ring
  rw [h1]
  have h2 : 0 ≤ norm2 f := Real.sqrt_nonneg _
  have h3 : norm2 (fun _ : Fin 1 => (0 : ℝ)) = 0 := by simp [norm2]
  rw [h3]
  positivity

/-- A matrix of size one -/
noncomputable def sampleMatrix : Matrix (Fin 1) (Fin 1) ℝ := Matrix.of fun _ _ => -1

example : evaluateIdMinusTauJInverse sampleSolve GMRES sampleMatrix 1 (fun _ => 4) = some fun _ => 2 := by
  rw [evaluateIdMinusTauJInverse, dispatch_eq _ (by decide) (by decide), idMinusTau_eq]
  norm_num [sampleSolve, sampleMatrix]

/-- **C95** fails for the linear solver `RELAXATION`, which the configuration offers: the right-hand side is returned as the solution. -/
theorem C95_solve_fails : ∃ x, evaluateIdMinusTauJInverse sampleSolve RELAXATION sampleMatrix 1 (fun _ => 4) = some x ∧
    ¬norm2 (fun i => (4 : ℝ) - (1 - (1 : ℝ) • sampleMatrix).mulVec x i) ≤
      1e-6 * norm2 (fun _ : Fin 1 => (4 : ℝ)) := by
  refine ⟨fun _ => 4, rfl, ?_⟩
  have h1 : (fun i => (4 : ℝ) - (1 - (1 : ℝ) • sampleMatrix).mulVec (fun _ => 4) i) = fun _ => -4 := by
    funext i
    have : i = 0 := Subsingleton.elim _ _
    subst this
    simp only [Matrix.mulVec, dotProduct, Fin.sum_univ_one]
    norm_num [sampleMatrix]
  rw [h1]
  have h2 : norm2 (fun _ : Fin 1 => (-4 : ℝ)) = 4 := by
    unfold norm2
    rw [Fin.sum_univ_one, show ((-4 : ℝ)) ^ 2 = 4 ^ 2 by norm_num]
    exact Real.sqrt_sq (by norm_num)
  have h3 : norm2 (fun _ : Fin 1 => (4 : ℝ)) = 4 := by
    unfold norm2
    rw [Fin.sum_univ_one]
    exact Real.sqrt_sq (by norm_num)
  rw [h2, h3]
  norm_num

end IntegratorSelection

end NATriuM
