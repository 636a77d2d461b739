import Verif.Lemmas.TimeIntegration
import Mathlib.Analysis.Normed.Module.Basic
import Mathlib.Tactic.IntervalCases

/-!
# Properties of the time integrators: C23, C24, C25, C26, C71

`effective stored dt` is the step size a call uses: `dt`, or the stored one if `dt = 0` (the default argument).
-/

namespace NATriuM

namespace TimeIntegration

section RungeKutta

variable {E : Type*} [AddCommGroup E] [Module ℝ E]

/-- **C23** (main part). The Runge-Kutta step is `f ↦ f + ∑ γ_k h^(k+1) A^k (A f + b)` with five fixed rational numbers `γ_k`, of which the
first four agree with the Taylor coefficients `1/(k+1)!` of the exact flow up to `1e-25` and the fifth does not (so the order is four, not
five as the documentation says). The clock advances by the step size, which is stored. -/
theorem C23_scheme : ∃ γ : Fin 5 → ℚ,
    (∀ k : Fin 5, k ≠ 4 → |γ k - 1 / (Nat.factorial (k + 1) : ℚ)| ≤ 1 / 10 ^ 25) ∧ 1 / 1000 ≤ |γ 4 - 1 / 120| ∧
    ∀ (A : E →ₗ[ℝ] E) (b f : E) (stored t dt : ℝ) (r : StepResult E), rkStep A b stored f t dt = .ok r →
      r.f = f + ∑ k : Fin 5, ((γ k : ℝ) * effective stored dt ^ ((k : ℕ) + 1)) • (A ^ (k : ℕ)) (A f + b) ∧
      r.t = t + effective stored dt ∧ r.timeStepSize = effective stored dt := by
  refine ⟨gamma, gamma_bounds.1, gamma_bounds.2.1, ?_⟩
  intro A b f stored t dt r h
  unfold rkStep at h
  match hp : prologue stored dt, h with
  | .ok (h', d), h =>
    obtain ⟨rfl, rfl⟩ := prologue_ok hp
    have := (Except.ok.inj h).symm
    subst this
    exact ⟨rk_formula A b f _, rfl, rfl⟩
  | .error e, h => cases h

/-- **C23**: a step fails exactly if a new, non-positive step size is given. -/
theorem C23_defined (A : E →ₗ[ℝ] E) (b f : E) (stored t dt : ℝ) :
    (∃ r, rkStep A b stored f t dt = .ok r) ↔ (dt = 0 ∨ dt = stored ∨ 0 < dt) := by
  unfold rkStep prologue
  split_ifs with h1 h2 h3
  · simp [h2]
  · simp [h1.1, h1.2, h2]
  · simp [h3]
  · have : dt = stored := by by_contra hne; exact h1 ⟨h3, hne⟩
    simp [this]

/-- **C23**: steady states stay. -/
theorem C23_steady (A : E →ₗ[ℝ] E) (b f : E) (stored t dt : ℝ) (r : StepResult E) (h : rkStep A b stored f t dt = .ok r)
    (hs : A f + b = 0) : r.f = f := by
  obtain ⟨γ, -, -, hγ⟩ := C23_scheme (E := E)
  rw [(hγ A b f stored t dt r h).1, hs]
  simp

/-- **C23**: a constant right-hand side `b` is integrated to `f + (1 + ε) h b` with a fixed `|ε| ≤ 1e-25` … -/
theorem C23_constant_source_partial : ∃ ε : ℚ, |ε| ≤ 1 / 10 ^ 25 ∧ ∀ (b f : E) (stored t dt : ℝ) (r : StepResult E),
    rkStep (0 : E →ₗ[ℝ] E) b stored f t dt = .ok r → r.f = f + ((1 + (ε : ℝ)) * effective stored dt) • b := by
  obtain ⟨γ, hγ1, -, hγ⟩ := C23_scheme (E := E)
  refine ⟨γ 0 - 1, by simpa using hγ1 0 (by decide), ?_⟩
  intro b f stored t dt r h
  rw [(hγ 0 b f stored t dt r h).1, Fin.sum_univ_five]
  have z : ∀ k : ℕ, k ≠ 0 → ((0 : E →ₗ[ℝ] E) ^ k) ((0 : E →ₗ[ℝ] E) f + b) = 0 := by
    intro k hk; rw [zero_pow hk]; rfl
  rw [z (1 : Fin 5) (by decide), z (2 : Fin 5) (by decide), z (3 : Fin 5) (by decide), z (4 : Fin 5) (by decide)]
  simp

/-- … but not exactly: the coefficients given as quotients of integers do not satisfy the order conditions exactly. -/
theorem C23_constant_source_not_exact : ∃ r, rkStep (0 : ℝ →ₗ[ℝ] ℝ) 1 1 0 0 0 = .ok r ∧ r.f ≠ 1 := by
  have hp : prologue 1 0 = .ok (1, 1) := by unfold prologue; simp
  refine ⟨_, by unfold rkStep; rw [hp], ?_⟩
  simp only
  rw [rk_formula]
  have z : poly (0 : ℝ →ₗ[ℝ] ℝ) 1 ((0 : ℝ →ₗ[ℝ] ℝ) 0 + 1) gamma = (gamma 0 : ℝ) := by
    unfold poly
    rw [Finset.sum_eq_single 0]
    · simp
    · intro k _ hk
      have : (k : ℕ) ≠ 0 := fun h => hk (Fin.ext h)
      rw [zero_pow this]; simp
    · simp
  rw [z, zero_add]
  exact_mod_cast gamma_bounds.2.2

/-- **C23**: the step is affine in the state. -/
theorem C23_affine (A : E →ₗ[ℝ] E) (b f g : E) (stored t dt α : ℝ) (r s q : StepResult E)
    (hf : rkStep A b stored f t dt = .ok r) (hg : rkStep A b stored g t dt = .ok s)
    (hq : rkStep A b stored (α • f + (1 - α) • g) t dt = .ok q) : q.f = α • r.f + (1 - α) • s.f := by
  obtain ⟨γ, -, -, hγ⟩ := C23_scheme (E := E)
  rw [(hγ _ _ _ _ _ _ _ hf).1, (hγ _ _ _ _ _ _ _ hg).1, (hγ _ _ _ _ _ _ _ hq).1]
  have : A (α • f + (1 - α) • g) + b = α • (A f + b) + (1 - α) • (A g + b) := by
    simp only [map_add, map_smul]; module
  rw [this]
  simp only [Fin.sum_univ_five, map_add, map_smul]
  module

/-- a decaying scalar: the hypotheses of `C23_*` are met, and the state does change. -/
example : ∃ r, rkStep (-LinearMap.id : ℝ →ₗ[ℝ] ℝ) 2 (1 / 10) 3 0 0 = .ok r :=
  (C23_defined _ _ _ _ _ _).2 (Or.inl rfl)

example : ∃ r, rkStep (-LinearMap.id : ℝ →ₗ[ℝ] ℝ) 2 (1 / 10) 2 0 (1 / 5) = .ok r ∧ r.f = 2 := by
  obtain ⟨r, hr⟩ := (C23_defined (-LinearMap.id : ℝ →ₗ[ℝ] ℝ) 2 2 (1 / 10) 0 (1 / 5)).2 (Or.inr (Or.inr (by norm_num)))
  exact ⟨r, hr, C23_steady _ _ _ _ _ _ r hr (by simp)⟩

/-- **C71** (Runge-Kutta). A linear functional that the system conserves (`ℓ A = 0`, `ℓ b = 0`) is conserved by the step. -/
theorem C71_rungeKutta (A : E →ₗ[ℝ] E) (b f : E) (stored t dt : ℝ) (r : StepResult E) (h : rkStep A b stored f t dt = .ok r)
    (ℓ : E →ₗ[ℝ] ℝ) (hA : ∀ x, ℓ (A x) = 0) (hb : ℓ b = 0) : ℓ r.f = ℓ f := by
  obtain ⟨γ, -, -, hγ⟩ := C23_scheme (E := E)
  rw [(hγ _ _ _ _ _ _ _ h).1, map_add, map_sum]
  have : ∀ k : ℕ, ℓ ((A ^ k) (A f + b)) = 0 := by
    intro k
    cases k with
    | zero => simp [hA, hb]
    | succ k => rw [pow_succ']; exact hA _
  rw [Finset.sum_eq_zero fun k _ => by rw [map_smul, this, smul_zero], add_zero]

/-- Two cells exchanging mass: total mass is a conserved functional. -/
example : let A : (ℝ × ℝ) →ₗ[ℝ] (ℝ × ℝ) := (LinearMap.snd ℝ ℝ ℝ - LinearMap.fst ℝ ℝ ℝ).prod (LinearMap.fst ℝ ℝ ℝ - LinearMap.snd ℝ ℝ ℝ)
    ∀ x, (LinearMap.fst ℝ ℝ ℝ + LinearMap.snd ℝ ℝ ℝ) (A x) = 0 := by
  intro A x; simp [A]

end RungeKutta

section Theta

variable {E : Type*} [AddCommGroup E] [Module ℝ E]

lemma theta_residual (A : E →ₗ[ℝ] E) (b : E) (θ h : ℝ) (f x : E) :
    thetaMatrix A θ h x - thetaRhs A b θ h f = x - (f + h • ((1 - θ) • (A f + b) + θ • (A x + b))) := by
  simp only [thetaRhs, thetaMatrix, LinearMap.add_apply, LinearMap.smul_apply, LinearMap.id_apply]
  module

lemma thetaStep_ok {solve : (E →ₗ[ℝ] E) → E → E → Option E} {A : E →ₗ[ℝ] E} {b : E} {θ stored : ℝ} {f : E} {t dt : ℝ}
    {r : StepResult E} (h : thetaStep solve A b θ stored f t dt = .ok r) :
    solve (thetaMatrix A θ (effective stored dt)) f (thetaRhs A b θ (effective stored dt) f) = some r.f ∧
      r.t = t + effective stored dt ∧ r.timeStepSize = effective stored dt := by
  unfold thetaStep at h
  match hp : prologue stored dt, h with
  | .ok (h', d), h =>
    obtain ⟨rfl, rfl⟩ := prologue_ok hp
    simp only at h
    match hs : solve (thetaMatrix A θ (effective stored dt)) f (thetaRhs A b θ (effective stored dt) f), h with
    | none, h => cases h
    | some x, h =>
      have := (Except.ok.inj h).symm
      subst this
      exact ⟨rfl, rfl, rfl⟩
  | .error e, h => cases h

/-- **C24**. If the linear solver returns solutions, the result satisfies the theta scheme, and the clock advances by the step. -/
theorem C24_scheme (solve : (E →ₗ[ℝ] E) → E → E → Option E) (hsolve : ∀ M x rhs y, solve M x rhs = some y → M y = rhs)
    (A : E →ₗ[ℝ] E) (b f : E) (θ stored t dt : ℝ) (r : StepResult E) (h : thetaStep solve A b θ stored f t dt = .ok r) :
    r.f = f + effective stored dt • ((1 - θ) • (A f + b) + θ • (A r.f + b)) ∧ r.t = t + effective stored dt ∧
      r.timeStepSize = effective stored dt := by
  obtain ⟨h1, h2, h3⟩ := thetaStep_ok h
  refine ⟨?_, h2, h3⟩
  have := theta_residual A b θ (effective stored dt) f r.f
  rw [hsolve _ _ _ _ h1, sub_self] at this
  exact sub_eq_zero.1 this.symm

/-- **C24**: `θ = 0` is the explicit and `θ = 1` the implicit Euler method. -/
theorem C24_euler (solve : (E →ₗ[ℝ] E) → E → E → Option E) (hsolve : ∀ M x rhs y, solve M x rhs = some y → M y = rhs)
    (A : E →ₗ[ℝ] E) (b f : E) (stored t dt : ℝ) (r s : StepResult E) (h0 : thetaStep solve A b 0 stored f t dt = .ok r)
    (h1 : thetaStep solve A b 1 stored f t dt = .ok s) :
    r.f = f + effective stored dt • (A f + b) ∧ s.f = f + effective stored dt • (A s.f + b) := by
  have e0 := (C24_scheme solve hsolve A b f 0 stored t dt r h0).1
  have e1 := (C24_scheme solve hsolve A b f 1 stored t dt s h1).1
  constructor
  · simpa using e0
  · simpa using e1

/-- **C24**: steady states stay, for every solver that accepts an initial guess which is already a solution (BiCGStab tests the residual of
the initial guess before iterating). -/
theorem C24_steady (solve : (E →ₗ[ℝ] E) → E → E → Option E) (hsolve : ∀ M x rhs, M x = rhs → solve M x rhs = some x)
    (A : E →ₗ[ℝ] E) (b f : E) (θ stored t dt : ℝ) (r : StepResult E) (h : thetaStep solve A b θ stored f t dt = .ok r)
    (hs : A f + b = 0) : r.f = f := by
  obtain ⟨h1, -, -⟩ := thetaStep_ok h
  have hres : thetaMatrix A θ (effective stored dt) f = thetaRhs A b θ (effective stored dt) f := by
    have := theta_residual A b θ (effective stored dt) f f
    rw [hs] at this
    simp only [smul_zero, add_zero, sub_self] at this
    exact sub_eq_zero.1 this
  rw [hsolve _ _ _ hres] at h1
  exact (Option.some.inj h1).symm

/-- **C24** with the tolerance the code really asks for: `‖M x - rhs‖ ≤ 1e-6 ‖rhs‖`. -/
theorem C24_tolerance {E : Type*} [NormedAddCommGroup E] [NormedSpace ℝ E] (solve : (E →ₗ[ℝ] E) → E → E → Option E)
    (hsolve : ∀ M x rhs y, solve M x rhs = some y → ‖M y - rhs‖ ≤ 1 / 10 ^ 6 * ‖rhs‖)
    (A : E →ₗ[ℝ] E) (b f : E) (θ stored t dt : ℝ) (r : StepResult E) (h : thetaStep solve A b θ stored f t dt = .ok r) :
    ‖r.f - (f + effective stored dt • ((1 - θ) • (A f + b) + θ • (A r.f + b)))‖ ≤
      1 / 10 ^ 6 * ‖f + effective stored dt • ((1 - θ) • A f + b)‖ := by
  obtain ⟨h1, -, -⟩ := thetaStep_ok h
  have h2 := hsolve _ _ _ _ h1
  rw [theta_residual] at h2
  have e : thetaRhs A b θ (effective stored dt) f = f + effective stored dt • ((1 - θ) • A f + b) := by
    simp only [thetaRhs, thetaMatrix, LinearMap.add_apply, LinearMap.smul_apply, LinearMap.id_apply]
    module
  rw [e] at h2
  exact h2

/-- **C71** (theta method). -/
theorem C71_theta (solve : (E →ₗ[ℝ] E) → E → E → Option E) (hsolve : ∀ M x rhs y, solve M x rhs = some y → M y = rhs)
    (A : E →ₗ[ℝ] E) (b f : E) (θ stored t dt : ℝ) (r : StepResult E) (h : thetaStep solve A b θ stored f t dt = .ok r)
    (ℓ : E →ₗ[ℝ] ℝ) (hA : ∀ x, ℓ (A x) = 0) (hb : ℓ b = 0) : ℓ r.f = ℓ f := by
  rw [(C24_scheme solve hsolve A b f θ stored t dt r h).1]
  simp [hA, hb]

/-- A solver for scalar systems meeting both contracts, and a step with it. -/
noncomputable def scalarSolve (M : ℝ →ₗ[ℝ] ℝ) (x rhs : ℝ) : Option ℝ := if M x = rhs then some x else if M 1 = 0 then none else some (rhs / M 1)

lemma scalarSolve_spec (M : ℝ →ₗ[ℝ] ℝ) (x rhs y : ℝ) (h : scalarSolve M x rhs = some y) : M y = rhs := by
  unfold scalarSolve at h
  split_ifs at h with h1 h2
  · cases h; exact h1
  · have hy := (Option.some.inj h).symm
    have : M y = y * M 1 := by rw [← smul_eq_mul, ← map_smul, smul_eq_mul, mul_one]
    rw [this, hy]; field_simp

example : ∃ r, thetaStep scalarSolve (-LinearMap.id : ℝ →ₗ[ℝ] ℝ) 2 (1 / 2) 1 4 0 0 = .ok r ∧ r.f = 8 / 3 := by
  have hM : thetaMatrix (-LinearMap.id : ℝ →ₗ[ℝ] ℝ) (1 / 2) 1 1 = 3 / 2 := by
    simp [thetaMatrix]; norm_num
  have hM4 : thetaMatrix (-LinearMap.id : ℝ →ₗ[ℝ] ℝ) (1 / 2) 1 4 = 6 := by
    simp [thetaMatrix]; norm_num
  have hr : thetaRhs (-LinearMap.id : ℝ →ₗ[ℝ] ℝ) 2 (1 / 2) 1 4 = 4 := by
    unfold thetaRhs; rw [hM4]; simp; norm_num
  have hs : scalarSolve (thetaMatrix (-LinearMap.id : ℝ →ₗ[ℝ] ℝ) (1 / 2) 1) 4 (thetaRhs (-LinearMap.id : ℝ →ₗ[ℝ] ℝ) 2 (1 / 2) 1 4) =
      some (8 / 3) := by
    rw [hr]; unfold scalarSolve; rw [hM, hM4]; norm_num
  refine ⟨⟨8 / 3, 0 + 1, 1⟩, ?_, rfl⟩
  have hp : prologue 1 0 = .ok (1, 1) := by unfold prologue; simp
  unfold thetaStep
  rw [hp]
  simp only [hs]

end Theta

section Exponential

variable {n : ℕ}

/-- **C25 fails**: at every steady state the exponential integrator divides by zero. -/
theorem C25_fails (A : (Fin n → ℝ) →ₗ[ℝ] (Fin n → ℝ)) (b f : Fin n → ℝ) (stored t dt : ℝ) (hdt : dt = 0 ∨ dt = stored ∨ 0 < dt)
    (hs : A f + b = 0) : exponentialStep A b stored f t dt = .error .divisionByZero := by
  obtain ⟨h, d, hp⟩ : ∃ h d, prologue stored dt = .ok (h, d) := by
    unfold prologue
    split_ifs with h1 h2 h3
    · exact ⟨_, _, rfl⟩
    · exfalso; rcases hdt with h | h | h
      · exact h1.1 h
      · exact h1.2 h
      · exact h2 h
    · exact ⟨_, _, rfl⟩
    · exact ⟨_, _, rfl⟩
  unfold exponentialStep
  rw [hp, hs]
  simp [l2norm_zero]

/-- **C25 fails** further: if the right-hand side is an eigenvector of the system matrix (e.g. `A = 0`, or a pure decaying mode), the
projected matrix is singular and its inversion fails. So no such state is advanced. -/
theorem C25_eigenvector_fails (A : (Fin n → ℝ) →ₗ[ℝ] (Fin n → ℝ)) (b f : Fin n → ℝ) (stored t dt : ℝ) (lam : ℝ)
    (hA : A (A f + b) = lam • (A f + b)) (r : StepResult (Fin n → ℝ)) : exponentialStep A b stored f t dt ≠ .ok r := by
  intro h
  unfold exponentialStep at h
  match hp : prologue stored dt, h with
  | .error e, h => cases h
  | .ok (h', d), h =>
    simp only at h
    split_ifs at h with hb
    have hw : A f + b ≠ 0 := fun h0 => hb (by rw [h0, l2norm_zero])
    have hcol := arnoldi_zero_column A (A f + b) hw lam hA
    generalize arnoldi A (A f + b) (l2norm (A f + b)) = s at hcol h
    have hdet : (h' • (Matrix.of fun i j => s.H i j : Small)).det = 0 := by
      apply Matrix.det_eq_zero_of_column_eq_zero (1 : Fin 6)
      intro i
      have : s.H i 1 = 0 := hcol i
      simp [this]
    have : ∃ e, phiFunction (Matrix.of fun i j => s.H i j) h' = .error e := by
      unfold phiFunction
      generalize padeApproximation (h' • (Matrix.of fun i j => s.H i j : Small)) = P
      cases P with
      | error e => exact ⟨e, rfl⟩
      | ok ex =>
        have hg : gaussJordan (h' • (Matrix.of fun i j => s.H i j : Small)) = .error .singularMatrix := by
          unfold gaussJordan; rw [if_pos hdet]
        simp only [hg]
        exact ⟨_, rfl⟩
    obtain ⟨e, he⟩ := this
    rw [he] at h
    cases h

/-- a steady state, and a decaying mode -/
example : exponentialStep (-LinearMap.id) (fun _ : Fin 3 => 2) 1 (fun _ => 2) 0 0 = .error .divisionByZero :=
  C25_fails _ _ _ _ _ _ (Or.inl rfl) (by funext i; simp)

example (r) : exponentialStep (-LinearMap.id) (0 : Fin 3 → ℝ) 1 (fun _ => 2) 0 0 ≠ .ok r :=
  C25_eigenvector_fails _ _ _ _ _ _ (-1) (by funext i; simp) r

/-- **C71** (exponential integrator, whenever it does not fail); the clock advances by the step size. -/
theorem C71_exponential (A : (Fin n → ℝ) →ₗ[ℝ] (Fin n → ℝ)) (b f : Fin n → ℝ) (stored t dt : ℝ) (r : StepResult (Fin n → ℝ))
    (h : exponentialStep A b stored f t dt = .ok r) (ℓ : (Fin n → ℝ) →ₗ[ℝ] ℝ) (hA : ∀ x, ℓ (A x) = 0) (hb : ℓ b = 0) :
    ℓ r.f = ℓ f ∧ r.t = t + effective stored dt ∧ r.timeStepSize = effective stored dt := by
  unfold exponentialStep at h
  match hp : prologue stored dt, h with
  | .error e, h => cases h
  | .ok (h', d), h =>
    obtain ⟨rfl, rfl⟩ := prologue_ok hp
    simp only at h
    split_ifs at h with hb0
    have hV := arnoldi_functional ℓ A hA (A f + b) (by simp [hA, hb]) (l2norm (A f + b))
    generalize arnoldi A (A f + b) (l2norm (A f + b)) = s at hV h
    match hphi : phiFunction (Matrix.of fun i j => s.H i j) (effective stored dt), h with
    | .error e, h => cases h
    | .ok phi, h =>
      have := (Except.ok.inj h).symm
      subst this
      refine ⟨?_, rfl, rfl⟩
      simp only [map_add, map_smul, map_sum, hV]
      simp

end Exponential

/-! ## The integrator table -/

/-- the names of the fifteen integrators in the order of the documentation of the option `--integrator` -/
def documentedNames : List String :=
  ["RUNGE_KUTTA_5STAGE", "THETA_METHOD", "EXPONENTIAL", "FORWARD_EULER", "RK_THIRD_ORDER", "RK_CLASSIC_FOURTH_ORDER", "BACKWARD_EULER",
    "IMPLICIT_MIDPOINT", "CRANK_NICOLSON", "SDIRK_TWO_STAGES", "HEUN_EULER", "BOGACKI_SHAMPINE", "DOPRI", "FEHLBERG", "CASH_KARP"]

/-- **C26**: the ids 1..15 select the documented integrators, whatever was selected before; … -/
theorem C26_names_partial (cur : TimeIntegratorName) (id : ℕ) (h1 : 1 ≤ id) (h2 : id ≤ 15) :
    some (integratorById cur id).2.2 = documentedNames[id - 1]? := by
  interval_cases id <;> rfl

/-- … different ids select different integrators; … -/
theorem C26_injective (cur cur' : TimeIntegratorName) (id id' : ℕ) (h1 : 1 ≤ id) (h2 : id ≤ 15) (h1' : 1 ≤ id') (h2' : id' ≤ 15)
    (h : ((integratorById cur id).1, (integratorById cur id).2.1) = ((integratorById cur' id').1, (integratorById cur' id').2.1)) :
    id = id' := by
  interval_cases id <;> interval_cases id' <;> first | rfl | (exfalso; simp [integratorById, selectById] at h)

/-- … the name identifies the selected pair: two settings `(t, d)` with the same nonempty name select the same integrator (the deal.II
integrator is irrelevant unless the time integrator is `OTHER`). -/
theorem C26_name_injective (t t' : TimeIntegratorName) (d d' : DealIntegratorName) (h : integratorName t d = integratorName t' d') :
    t = t' ∧ (t = .OTHER → d = d') := by
  cases t <;> cases t' <;> first
    | (refine ⟨rfl, fun h => ?_⟩; cases h; done)
    | (exfalso; simp [integratorName] at h; done)
    | (exfalso; cases d <;> simp [integratorName] at h; done)
    | (exfalso; cases d' <;> simp [integratorName] at h; done)
    | (cases d <;> cases d' <;> first | exact ⟨rfl, fun _ => rfl⟩ | (exfalso; revert h; decide +kernel))

/-- **C26 fails** for all other ids: the call silently keeps whatever integrator the variable held before. -/
theorem C26_other_ids (cur : TimeIntegratorName) (id : ℕ) (h : id = 0 ∨ 15 < id) :
    integratorById cur id = (cur, .NONE, integratorName cur .NONE) := by
  have hs : selectById cur id = (cur, .NONE) := by
    unfold selectById
    rcases h with rfl | h
    · rfl
    · split <;> first | omega | rfl
  simp [integratorById, hs]

example : (integratorById .THETA_METHOD 0).2.2 = "THETA_METHOD" := rfl
example : (integratorById .OTHER 13).2.2 = "DOPRI" := rfl

end TimeIntegration

end NATriuM
