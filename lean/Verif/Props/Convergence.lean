import Verif.Props.TimeIntegration
import Verif.Lemmas.Convergence
import Mathlib.Analysis.SpecialFunctions.ExpDeriv

/-!
# The order of the time integrators: C132, C133

The system is `y' = A y + b` with a bounded operator `A` on a normed space, as it is after the discretisation in space. `G` is a bound for
the time derivative of the solution.
-/

namespace NATriuM

namespace TimeIntegration

open Set

variable {E : Type*} [NormedAddCommGroup E] [NormedSpace ℝ E]

/-- **C132**. The Runge-Kutta method is of fourth order: after `N` steps of size `h` the vector differs from the solution at the reported
time by a constant times `h ^ 4`, up to a part of the relative size `1e-25` that comes from the rounding of the coefficients in the source.
The constant depends only on the norm of the operator, the final time and the size of the time derivative. -/
theorem C132_order (A : E →L[ℝ] E) (b : E) (y : ℝ → E) (hy : Solves A b y) (h : ℝ) (hh : 0 < h) (N : ℕ) (r : ℕ → StepResult E)
    (hr : Steps (fun stored f t => rkStep (A : E →ₗ[ℝ] E) b stored f t h) N r) (h0 : (r 0).f = y (r 0).t) (G : ℝ)
    (hG : ∀ s ∈ Icc (r 0).t ((r 0).t + N * h), ‖A (y s) + b‖ ≤ G) :
    (r N).t = (r 0).t + N * h ∧
      ‖(r N).f - y (r N).t‖ ≤
        (N * h) * Real.exp ((1 + 1 / 10 ^ 24) * ‖A‖ * (N * h)) * G * (‖A‖ ^ 4 * h ^ 4 / 70 + (1 + ‖A‖ * h) ^ 3 / 10 ^ 25) := by
  have hstep : ∀ stored (f : E) t q, rkStep (A : E →ₗ[ℝ] E) b stored f t h = .ok q →
      q.f = f + poly (A : E →ₗ[ℝ] E) h (A f + b) gamma ∧ q.t = t + h := by
    intro stored f t q hq
    unfold rkStep at hq
    match hp : prologue stored h, hq with
    | .ok (h', d), hq =>
      obtain ⟨rfl, rfl⟩ := prologue_ok hp
      have := (Except.ok.inj hq).symm
      subst this
      refine ⟨?_, by rw [effective_pos stored hh]⟩
      simp only
      rw [rk_formula, effective_pos stored hh]
      rfl
    | .error e, hq => cases hq
  have ht := steps_time hr fun stored f t q hq => (hstep stored f t q hq).2
  refine ⟨ht N le_rfl, ?_⟩
  have hG0 : 0 ≤ G := (norm_nonneg _).trans (hG (r 0).t ⟨le_rfl, by have : 0 ≤ (N : ℝ) * h := by positivity
                                                                    linarith⟩)
  have key : ∀ n < N, ‖(r (n + 1)).f - y (r (n + 1)).t‖ ≤ Real.exp ((1 + 1 / 10 ^ 24) * (‖A‖ * h)) * ‖(r n).f - y (r n).t‖ +
      h * (G * (‖A‖ ^ 4 * h ^ 4 / 70 + (1 + ‖A‖ * h) ^ 3 / 10 ^ 25)) := by
    intro n hn
    obtain ⟨e1, e2⟩ := hstep _ _ _ _ (hr n hn)
    have hl := poly_local A b y (r n).t h G hh.le hy (by
      intro s hs
      refine hG s ⟨?_, ?_⟩
      · have : 0 ≤ (n : ℝ) * h := by positivity
        linarith [hs.1, ht n hn.le]
      · have : ((n : ℝ) + 1) * h ≤ N * h := by
          have : (n : ℝ) + 1 ≤ N := by exact_mod_cast hn
          gcongr
        linarith [hs.2, ht n hn.le])
    have hg := poly_growth A b h hh.le (r n).f (y (r n).t)
    rw [e1, e2]
    have split : (r n).f + poly (A : E →ₗ[ℝ] E) h (A (r n).f + b) gamma - y ((r n).t + h) =
        ((r n).f + poly (A : E →ₗ[ℝ] E) h (A (r n).f + b) gamma - (y (r n).t + poly (A : E →ₗ[ℝ] E) h (A (y (r n).t) + b) gamma)) +
          (y (r n).t + poly (A : E →ₗ[ℝ] E) h (A (y (r n).t) + b) gamma - y ((r n).t + h)) := by abel
    rw [split]
    exact (norm_add_le _ _).trans (add_le_add hg hl)
  have acc := accumulate (fun n => ‖(r n).f - y (r n).t‖) _ _ N (Real.one_le_exp (by positivity)) (by positivity)
    (by simp [h0]) key
  refine acc.trans (le_of_eq ?_)
  rw [← Real.exp_nat_mul]
  have : (N : ℝ) * ((1 + 1 / 10 ^ 24) * (‖A‖ * h)) = (1 + 1 / 10 ^ 24) * ‖A‖ * (N * h) := by ring
  rw [this]
  ring

/-- any number of steps with a positive step size can be made -/
lemma exists_steps (A : E →ₗ[ℝ] E) (b : E) (h : ℝ) (hh : 0 < h) (q : StepResult E) :
    ∃ r : ℕ → StepResult E, r 0 = q ∧ ∀ N, Steps (fun stored f t => rkStep A b stored f t h) N r := by
  have hd : ∀ q : StepResult E, ∃ q', rkStep A b q.timeStepSize q.f q.t h = .ok q' := fun q =>
    (C23_defined A b q.f q.timeStepSize q.t h).2 (Or.inr (Or.inr hh))
  choose next hnext using hd
  exact ⟨fun n => next^[n] q, rfl, fun N n _ => by
    show rkStep A b _ _ _ h = .ok (next^[n + 1] q)
    rw [Function.iterate_succ_apply']
    exact hnext _⟩

/-- the decay `y' = -y`, `y 0 = 1`, from time `0` to `1` with any number of steps: the hypotheses of `C132_order` are met, and the bound
says that the result is `exp (-1)` up to `h ^ 4 / 20` and `1e-23`. -/
example (N : ℕ) (hN : 0 < N) : ∃ r : ℕ → StepResult ℝ,
    Steps (fun stored f t => rkStep ((-ContinuousLinearMap.id ℝ ℝ : ℝ →L[ℝ] ℝ) : ℝ →ₗ[ℝ] ℝ) 0 stored f t (1 / N)) N r ∧
      (r N).t = 1 ∧ |(r N).f - Real.exp (-1)| ≤ Real.exp (1 + 1 / 10 ^ 24) * ((1 / N) ^ 4 / 70 + (1 + 1 / N) ^ 3 / 10 ^ 25) := by
  have hN' : (0 : ℝ) < N := by exact_mod_cast hN
  have hh : (0 : ℝ) < 1 / N := by positivity
  obtain ⟨r, h0, hr⟩ := exists_steps ((-ContinuousLinearMap.id ℝ ℝ : ℝ →L[ℝ] ℝ) : ℝ →ₗ[ℝ] ℝ) 0 (1 / (N : ℝ)) hh ⟨1, 0, 1⟩
  have hA : ‖(-ContinuousLinearMap.id ℝ ℝ : ℝ →L[ℝ] ℝ)‖ = 1 := by rw [norm_neg]; exact ContinuousLinearMap.norm_id
  have hT : (N : ℝ) * (1 / N) = 1 := by field_simp
  have hy : Solves (-ContinuousLinearMap.id ℝ ℝ : ℝ →L[ℝ] ℝ) 0 (fun s => Real.exp (-s)) := by
    intro s
    have := (hasDerivAt_neg s).exp
    simpa using this
  have := C132_order (-ContinuousLinearMap.id ℝ ℝ : ℝ →L[ℝ] ℝ) 0 (fun s => Real.exp (-s)) hy (1 / N) hh N r (hr N) (by simp [h0]) 1 (by
    intro s hs
    have : 0 ≤ s := by simpa [h0] using hs.1
    simpa using this)
  rw [hA, h0, hT] at this
  refine ⟨r, hr N, by simpa using this.1, ?_⟩
  have h2 := this.2
  rw [this.1] at h2
  simpa using h2

/-- **C133**. The theta method is of second order for `θ = 1/2` and of first order otherwise, if the linear systems are solved exactly; if
they are solved up to the relative residual `ε`, each step adds an error of the size `ε` times the right-hand side. -/
theorem C133_order_partial (solve : (E →ₗ[ℝ] E) → E → E → Option E) (ε : ℝ)
    (hsolve : ∀ M x rhs z, solve M x rhs = some z → ‖M z - rhs‖ ≤ ε * ‖rhs‖)
    (A : E →L[ℝ] E) (b : E) (θ : ℝ) (hθ : 0 ≤ θ) (hθ1 : θ ≤ 1) (y : ℝ → E) (hy : Solves A b y) (h : ℝ) (hh : 0 < h)
    (hz : θ * (‖A‖ * h) ≤ 1 / 2) (hε : 0 ≤ ε) (N : ℕ) (r : ℕ → StepResult E)
    (hr : Steps (fun stored f t => thetaStep solve (A : E →ₗ[ℝ] E) b θ stored f t h) N r) (h0 : (r 0).f = y (r 0).t) (G F : ℝ)
    (hG : ∀ s ∈ Icc (r 0).t ((r 0).t + N * h), ‖A (y s) + b‖ ≤ G) (hF0 : 0 ≤ F)
    (hF : ∀ n < N, ‖(r n).f + h • ((1 - θ) • A (r n).f + b)‖ ≤ F) :
    (r N).t = (r 0).t + N * h ∧
      ‖(r N).f - y (r N).t‖ ≤ 2 * Real.exp ((1 + θ) * ‖A‖ * (N * h)) *
        ((N * h) * G * (|1 / 2 - θ| * (‖A‖ * h) + (1 / 6 + θ / 2) * (‖A‖ * h) ^ 2) + N * (ε * F)) := by
  have hstep : ∀ stored (f : E) t q, thetaStep solve (A : E →ₗ[ℝ] E) b θ stored f t h = .ok q →
      ‖q.f - (f + h • ((1 - θ) • (A f + b) + θ • (A q.f + b)))‖ ≤ ε * ‖f + h • ((1 - θ) • A f + b)‖ ∧ q.t = t + h := by
    intro stored f t q hq
    obtain ⟨h1, h2, -⟩ := thetaStep_ok hq
    have h3 := hsolve _ _ _ _ h1
    rw [theta_residual, effective_pos stored hh] at h3
    refine ⟨?_, by rw [h2, effective_pos stored hh]⟩
    have e : thetaRhs (A : E →ₗ[ℝ] E) b θ h f = f + h • ((1 - θ) • A f + b) := by
      simp only [thetaRhs, thetaMatrix, LinearMap.add_apply, LinearMap.smul_apply, LinearMap.id_apply, ContinuousLinearMap.coe_coe]
      module
    rw [e] at h3
    exact h3
  have ht := steps_time hr fun stored f t q hq => (hstep stored f t q hq).2
  refine ⟨ht N le_rfl, ?_⟩
  have hG0 : 0 ≤ G := (norm_nonneg _).trans (hG (r 0).t ⟨le_rfl, by have : 0 ≤ (N : ℝ) * h := by positivity
                                                                    linarith⟩)
  have key : ∀ n < N, ‖(r (n + 1)).f - y (r (n + 1)).t‖ ≤ Real.exp ((1 + θ) * (‖A‖ * h)) * ‖(r n).f - y (r n).t‖ +
      2 * (ε * F + h * (G * (|1 / 2 - θ| * (‖A‖ * h) + (1 / 6 + θ / 2) * (‖A‖ * h) ^ 2))) := by
    intro n hn
    obtain ⟨e1, e2⟩ := hstep _ _ _ _ (hr n hn)
    have hl := theta_local A b y (r n).t h G θ hh.le hθ hy (by
      intro s hs
      refine hG s ⟨?_, ?_⟩
      · have : 0 ≤ (n : ℝ) * h := by positivity
        linarith [hs.1, ht n hn.le]
      · have : ((n : ℝ) + 1) * h ≤ N * h := by
          have : (n : ℝ) + 1 ≤ N := by exact_mod_cast hn
          gcongr
        linarith [hs.2, ht n hn.le])
    rw [← e2] at hl
    have hg := theta_growth A θ h hh.le hθ hθ1 hz ((r n).f - y (r n).t) ((r (n + 1)).f - y (r (n + 1)).t)
      (((r (n + 1)).f - ((r n).f + h • ((1 - θ) • (A (r n).f + b) + θ • (A (r (n + 1)).f + b)))) -
        (y (r (n + 1)).t - (y (r n).t + h • ((1 - θ) • (A (y (r n).t) + b) + θ • (A (y (r (n + 1)).t) + b))))) (by
        simp only [map_sub]
        module)
    refine hg.trans ?_
    gcongr
    refine (norm_sub_le _ _).trans (add_le_add (e1.trans ?_) hl)
    gcongr
    exact hF n hn
  have acc := accumulate (fun n => ‖(r n).f - y (r n).t‖) _ _ N (Real.one_le_exp (by positivity)) (by positivity)
    (by simp [h0]) key
  refine acc.trans (le_of_eq ?_)
  rw [← Real.exp_nat_mul]
  have : (N : ℝ) * ((1 + θ) * (‖A‖ * h)) = (1 + θ) * ‖A‖ * (N * h) := by ring
  rw [this]
  ring

/-- **C133**, what is missing: the error does *not* get small with the step size. The iterative solver stops as soon as the residual is
below `1e-6` of the right-hand side, and it starts with the old vector. For every system and every vector other than zero there is a step
size below which no step changes the vector at all, while the time goes on. -/
theorem C133_stands_still_fails (solve : (E →ₗ[ℝ] E) → E → E → Option E)
    (hsolve : ∀ M x rhs, ‖M x - rhs‖ ≤ 1 / 10 ^ 6 * ‖rhs‖ → solve M x rhs = some x) (A : E →L[ℝ] E) (b : E) (θ : ℝ) (f : E) (hf : f ≠ 0) :
    ∃ h₀ > 0, ∀ h, 0 < h → h ≤ h₀ → ∀ N (r : ℕ → StepResult E), (r 0).f = f →
      Steps (fun stored f t => thetaStep solve (A : E →ₗ[ℝ] E) b θ stored f t h) N r → (r N).f = f ∧ (r N).t = (r 0).t + N * h := by
  have hn : 0 < ‖f‖ := norm_pos_iff.2 hf
  set c := ‖A f + b‖ + ‖(1 - θ) • A f + b‖ with hc
  have hc0 : 0 ≤ c := by positivity
  refine ⟨‖f‖ / (2 * 10 ^ 6 * (c + 1)), by positivity, ?_⟩
  intro h hh hle
  have hsmall : h * ‖A f + b‖ ≤ 1 / 10 ^ 6 * ‖f + h • ((1 - θ) • A f + b)‖ := by
    have h1 : h * (2 * 10 ^ 6 * (c + 1)) ≤ ‖f‖ := by rwa [le_div_iff₀ (by positivity)] at hle
    have h2 : ‖f‖ - h * ‖(1 - θ) • A f + b‖ ≤ ‖f + h • ((1 - θ) • A f + b)‖ := by
      have := norm_sub_norm_le f (-(h • ((1 - θ) • A f + b)))
      rw [norm_neg, norm_smul, Real.norm_eq_abs, abs_of_pos hh, sub_neg_eq_add] at this
      exact this
    have p1 : h * ‖A f + b‖ ≤ h * c := by
      have : ‖A f + b‖ ≤ c := by rw [hc]; linarith [norm_nonneg ((1 - θ) • A f + b)]
      gcongr
    have p2 : h * ‖(1 - θ) • A f + b‖ ≤ h * c := by
      have : ‖(1 - θ) • A f + b‖ ≤ c := by rw [hc]; linarith [norm_nonneg (A f + b)]
      gcongr
    have p3 : 0 ≤ h * c := by positivity
    nlinarith
  have hone : ∀ stored t q, thetaStep solve (A : E →ₗ[ℝ] E) b θ stored f t h = .ok q → q.f = f ∧ q.t = t + h := by
    intro stored t q hq
    obtain ⟨h1, h2, -⟩ := thetaStep_ok hq
    rw [effective_pos stored hh] at h1 h2
    refine ⟨?_, h2⟩
    have hres : ‖thetaMatrix (A : E →ₗ[ℝ] E) θ h f - thetaRhs (A : E →ₗ[ℝ] E) b θ h f‖ ≤
        1 / 10 ^ 6 * ‖thetaRhs (A : E →ₗ[ℝ] E) b θ h f‖ := by
      have e1 : thetaMatrix (A : E →ₗ[ℝ] E) θ h f - thetaRhs (A : E →ₗ[ℝ] E) b θ h f = -(h • (A f + b)) := by
        simp only [thetaRhs, thetaMatrix, LinearMap.add_apply, LinearMap.smul_apply, LinearMap.id_apply, ContinuousLinearMap.coe_coe]
        module
      have e2 : thetaRhs (A : E →ₗ[ℝ] E) b θ h f = f + h • ((1 - θ) • A f + b) := by
        simp only [thetaRhs, thetaMatrix, LinearMap.add_apply, LinearMap.smul_apply, LinearMap.id_apply, ContinuousLinearMap.coe_coe]
        module
      rw [e1, e2, norm_neg, norm_smul, Real.norm_eq_abs, abs_of_pos hh]
      exact hsmall
    rw [hsolve _ _ _ hres] at h1
    exact (Option.some.inj h1).symm
  intro N r h0 hr
  have hall : ∀ n ≤ N, (r n).f = f ∧ (r n).t = (r 0).t + n * h := by
    intro n
    induction n with
    | zero => intro _; exact ⟨h0, by simp⟩
    | succ n ih =>
      intro hn
      obtain ⟨i1, i2⟩ := ih (by omega)
      have hs := hr n (by omega)
      simp only [i1] at hs
      obtain ⟨o1, o2⟩ := hone _ _ _ hs
      refine ⟨o1, ?_⟩
      rw [o2, i2]
      push_cast
      ring
  exact hall N le_rfl

/-- A solver for scalar systems that keeps the initial guess if its residual is small enough, as the one of the library. -/
noncomputable def lazySolve (M : ℝ →ₗ[ℝ] ℝ) (x rhs : ℝ) : Option ℝ :=
  if ‖M x - rhs‖ ≤ 1 / 10 ^ 6 * ‖rhs‖ then some x else if M 1 = 0 then none else some (rhs / M 1)

lemma lazySolve_accepts (M : ℝ →ₗ[ℝ] ℝ) (x rhs : ℝ) (h : ‖M x - rhs‖ ≤ 1 / 10 ^ 6 * ‖rhs‖) : lazySolve M x rhs = some x := if_pos h

lemma lazySolve_residual (M : ℝ →ₗ[ℝ] ℝ) (x rhs z : ℝ) (h : lazySolve M x rhs = some z) : ‖M z - rhs‖ ≤ 1 / 10 ^ 6 * ‖rhs‖ := by
  unfold lazySolve at h
  split_ifs at h with h1 h2
  · cases h; exact h1
  · have e : M (rhs / M 1) = rhs := by
      have : rhs / M 1 = (rhs / M 1) • (1 : ℝ) := by simp
      rw [this, map_smul, smul_eq_mul]
      field_simp
    cases h
    rw [e, sub_self, norm_zero]
    positivity

/-- the decay `y' = -y` with this solver: steps of the implicit Euler method can be made for ever, as the hypotheses of the theorems ask -/
example (h : ℝ) (hh : 0 < h) : ∃ r : ℕ → StepResult ℝ, (r 0).f = 1 ∧ ∀ N,
    Steps (fun stored f t => thetaStep lazySolve ((-ContinuousLinearMap.id ℝ ℝ : ℝ →L[ℝ] ℝ) : ℝ →ₗ[ℝ] ℝ) 0 1 stored f t h) N r := by
  have hd : ∀ q : StepResult ℝ, ∃ q',
      thetaStep lazySolve ((-ContinuousLinearMap.id ℝ ℝ : ℝ →L[ℝ] ℝ) : ℝ →ₗ[ℝ] ℝ) 0 1 q.timeStepSize q.f q.t h = .ok q' := by
    intro q
    obtain ⟨p, hp⟩ : ∃ p, prologue q.timeStepSize h = .ok p := by
      unfold prologue
      by_cases h1 : h = q.timeStepSize
      · exact ⟨(h, h), by rw [← h1]; simp [hh.ne']⟩
      · exact ⟨(h, h), by simp [h1, hh.ne', hh]⟩
    obtain ⟨p1, p2⟩ := p
    obtain ⟨e1, e2⟩ := prologue_ok hp
    have hne : thetaMatrix ((-ContinuousLinearMap.id ℝ ℝ : ℝ →L[ℝ] ℝ) : ℝ →ₗ[ℝ] ℝ) 1 p1 1 ≠ 0 := by
      rw [e1, effective_pos _ hh]
      simp [thetaMatrix]
      positivity
    obtain ⟨x, hx⟩ : ∃ x, lazySolve (thetaMatrix ((-ContinuousLinearMap.id ℝ ℝ : ℝ →L[ℝ] ℝ) : ℝ →ₗ[ℝ] ℝ) 1 p1) q.f
        (thetaRhs ((-ContinuousLinearMap.id ℝ ℝ : ℝ →L[ℝ] ℝ) : ℝ →ₗ[ℝ] ℝ) 0 1 p1 q.f) = some x := by
      unfold lazySolve
      split_ifs
      · exact ⟨_, rfl⟩
      · exact ⟨_, rfl⟩
    refine ⟨⟨x, q.t + p2, p1⟩, ?_⟩
    unfold thetaStep
    rw [hp]
    simp only [hx]
  choose next hnext using hd
  refine ⟨fun n => next^[n] ⟨1, 0, 1⟩, rfl, fun N n _ => ?_⟩
  show thetaStep _ _ _ _ _ _ _ h = .ok (next^[n + 1] _)
  rw [Function.iterate_succ_apply']
  exact hnext _

end TimeIntegration

end NATriuM
