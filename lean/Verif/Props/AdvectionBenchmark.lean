import Verif.Lemmas.AdvectionBenchmark
import Mathlib.Tactic.NormNum

/-!
# C92, C93: the advection benchmark
-/

namespace NATriuM

namespace AdvectionBenchmark

open Real TimeIntegration

/-! ## C92 -/

/-- **C92** The analytic solution is computed for all times and points, negative and large ones included, and is the wave shifted by the
time. -/
theorem C92_solution (t x : ℝ) (b : Bool) : ∃ n, ∀ m ≥ n, analyticSolution m t x b = some (wave b (x - t)) := by
  obtain ⟨n, hn⟩ := exists_nat_ge |x - t|
  exact ⟨n + 1, fun m hm => analyticSolution_eq n hn hm⟩

example : analyticSolution 4 (5 / 2) (1 / 4) true = some (wave true (1 / 4 - 5 / 2)) :=
  analyticSolution_eq 3 (by norm_num) (by norm_num)

/-- **C92** The computed values are a solution of the advection equation with speed one in the first direction, have the period of the
domain, and start with the wave. -/
theorem C92_transport (b : Bool) (u : ℝ → ℝ → ℝ) (hu : ∀ t x, ∃ m, analyticSolution m t x b = some (u t x)) :
    Transported u ∧ (∀ t x, u t (x + 1) = u t x) ∧ ∀ x, u 0 x = wave b x := by
  have h : u = fun t x => wave b (x - t) := by
    funext t x
    obtain ⟨m, hm⟩ := hu t x
    exact analyticSolution_unique hm
  subst h
  refine ⟨transported_wave b, ?_, ?_⟩
  · intro t x
    have : x + 1 - t = x - t + 1 := by ring
    simp only [this, wave_period]
  · intro x
    simp

example : ∃ u : ℝ → ℝ → ℝ, ∀ t x, ∃ m, analyticSolution m t x false = some (u t x) :=
  ⟨fun t x => wave false (x - t), fun t x => by obtain ⟨n, hn⟩ := C92_solution t x false; exact ⟨n, hn n le_rfl⟩⟩

/-- **C92** The vector of the analytic solution holds the value at the support point for each degree of freedom of the cells of this process
that lies in the vector's range; all other entries stay. An error is raised exactly if such a degree of freedom has no support point. -/
theorem C92_dofs (localRange : ℕ → Bool) (support : ℕ → Option ℝ) (value : ℝ → ℝ) (cells : List Cell) (v : ℕ → ℝ) :
    (∀ w, getAnalyticSolution localRange support value cells v = some w →
      ∀ j, (IsSet localRange cells j → ∃ x, support j = some x ∧ w j = value x) ∧ (¬IsSet localRange cells j → w j = v j)) ∧
    (getAnalyticSolution localRange support value cells v = none ↔ ∃ j, IsSet localRange cells j ∧ support j = none) :=
  setCells cells v

example : ∃ w, getAnalyticSolution (fun i => i < 3) (fun i => some (i : ℝ)) (fun x => 2 * x) [⟨true, [0, 2]⟩, ⟨false, [1]⟩, ⟨true, [2, 3]⟩]
    (fun _ => 7) = some w ∧ w 2 = 4 ∧ w 1 = 7 ∧ w 3 = 7 := by
  refine ⟨_, rfl, ?_, ?_, ?_⟩ <;> norm_num [Function.update_apply]

/-! ## C93 -/

/-- **C93** The integrators that can be used return the time at the end of the step and keep their step size. -/
theorem C93_integrators {E : Type*} [AddCommGroup E] [Module ℝ E] (A : E →ₗ[ℝ] E) (b : E)
    (solve : (E →ₗ[ℝ] E) → E → E → Option E) (θ : ℝ) {n : ℕ} (B : (Fin n → ℝ) →ₗ[ℝ] (Fin n → ℝ)) (c : Fin n → ℝ) :
    Clocked (.integrator (rkStep A b)) ∧ Clocked (.integrator (thetaStep solve A b θ)) ∧ Clocked (.integrator (exponentialStep B c)) := by
  have hp : ∀ h : ℝ, prologue h h = .ok (h, h) := by
    intro h
    unfold prologue
    by_cases h0 : h = 0 <;> simp [h0]
  refine ⟨?_, ?_, ?_⟩
  · intro step hs h f t r hr
    cases hs
    simp only [rkStep, hp, Except.ok.injEq] at hr
    subst hr
    exact ⟨rfl, rfl⟩
  · intro step hs h f t r hr
    cases hs
    simp only [thetaStep, hp] at hr
    split at hr
    · simp at hr
    · simp only [Except.ok.injEq] at hr
      subst hr
      exact ⟨rfl, rfl⟩
  · intro step hs h f t r hr
    cases hs
    simp only [exponentialStep, hp] at hr
    split_ifs at hr
    split at hr
    · simp at hr
    · simp only [Except.ok.injEq] at hr
      subst hr
      exact ⟨rfl, rfl⟩

/-- **C93** Without output, the run ends after the least number of steps whose total length is not below the end time, the state has made that
many steps, and the time at which the analytic solution is evaluated is their total length. -/
theorem C93_plain {E : Type*} {s : Stepper E} (hs : Clocked s) {deltaT tEnd : ℝ} {n : ℕ} {f : E} {l : Loop E}
    (h : loop false s deltaT tEnd n (start deltaT f) = some (.ok l)) :
    l.t = l.i * deltaT ∧ Advanced s deltaT f l.i l.f ∧ tEnd ≤ l.t ∧ ∀ k < l.i, (k : ℝ) * deltaT < tEnd := by
  obtain ⟨⟨h1, _, h3, h4⟩, h5⟩ := loop_inv (InvPlain s deltaT tEnd f) (fun _ _ ht hi hb => invPlain_body hs ht hi hb) (invPlain_start f) h
  exact ⟨h1, h3, h5, h4⟩

/-- **C93** A run with the Runge-Kutta method and a positive step ends. -/
theorem C93_plain_ends {E : Type*} [AddCommGroup E] [Module ℝ E] (A : E →ₗ[ℝ] E) (b : E) {deltaT : ℝ} (hd : 0 < deltaT) (tEnd : ℝ)
    (f : E) : ∃ n l, loop false (.integrator (rkStep A b)) deltaT tEnd n (start deltaT f) = some (.ok l) := by
  obtain ⟨n, hn⟩ := exists_nat_ge (tEnd / deltaT)
  refine ⟨n, loop_ends (fun l => l.stored = deltaT) ?_ n rfl ?_⟩
  · intro l hl
    have hp : prologue deltaT deltaT = .ok (deltaT, deltaT) := by simp [prologue, hd.ne']
    simp only [body, streamPlain, Bool.false_eq_true, if_false, rkStep, hl, hp]
    exact ⟨_, rfl, rfl, le_rfl⟩
  · rw [div_le_iff₀ hd] at hn
    simpa [start] using hn

example : ∃ l : Loop ℝ, loop false (.semiLagrangian fun x : ℝ => x / 2) (1 / 4) (2 / 3) 3 (start (1 / 4) 8) = some (.ok l) ∧ l.i = 3 ∧
    l.t = 3 / 4 ∧ l.f = 1 := by
  simp only [loop, start, body, streamPlain]
  norm_num

/-- **C93** With output and the semi-Lagrangian operator the same holds; every tenth step is written together with the analytic solution at
the time reached. -/
theorem C93_output_semiLagrangian {E : Type*} {apply : E → E} {deltaT tEnd : ℝ} {n : ℕ} {f : E} {l : Loop E}
    (h : loop true (.semiLagrangian apply) deltaT tEnd n (start deltaT f) = some (.ok l)) :
    l.t = l.i * deltaT ∧ Advanced (.semiLagrangian apply) deltaT f l.i l.f ∧ tEnd ≤ l.t ∧ (∀ k < l.i, (k : ℝ) * deltaT < tEnd) ∧
      l.written.length = l.i / 10 ∧
      ∀ p ∈ l.written, ∃ k, k % 10 = 0 ∧ 0 < k ∧ k ≤ l.i ∧ p.1 = k * deltaT ∧ Advanced (.semiLagrangian apply) deltaT f k p.2 := by
  obtain ⟨⟨h1, _, h3, h4, h6⟩, h5⟩ := loop_inv (InvOutput (.semiLagrangian apply) deltaT tEnd (fun i => i * deltaT) f)
    (fun _ _ ht hi hb => invOutput_matrix ht hi hb) (invOutput_start (by simp) f) h
  exact ⟨h1, h3, h5, h6, h4⟩

example : ∃ l : Loop ℝ, loop true (.semiLagrangian fun x : ℝ => x + 1) 1 10 10 (start 1 0) = some (.ok l) ∧ l.i = 10 ∧
    l.written = [(10, 10)] := by
  simp only [loop, start, body, streamOutput, write]
  norm_num

/-- **C93** (partial: the time is wrong) With output and a time integrator the files are as they should be and the state has made `i` steps,
but the loop's time is `(2 ^ i - 1) * deltaT`, which ends the run early and is the time at which the analytic solution is evaluated. -/
theorem C93_output_partial {E : Type*} {step} (hs : Clocked (.integrator step : Stepper E)) {deltaT tEnd : ℝ} {n : ℕ} {f : E} {l : Loop E}
    (h : loop true (.integrator step) deltaT tEnd n (start deltaT f) = some (.ok l)) :
    l.t = (2 ^ l.i - 1) * deltaT ∧ Advanced (.integrator step) deltaT f l.i l.f ∧ tEnd ≤ l.t ∧
      (∀ k < l.i, (2 ^ k - 1) * deltaT < tEnd) ∧ l.written.length = l.i / 10 ∧
      ∀ p ∈ l.written, ∃ k, k % 10 = 0 ∧ 0 < k ∧ k ≤ l.i ∧ p.1 = k * deltaT ∧ Advanced (.integrator step) deltaT f k p.2 := by
  obtain ⟨⟨h1, _, h3, h4, h6⟩, h5⟩ := loop_inv (InvOutput (.integrator step) deltaT tEnd (fun i => (2 ^ i - 1) * deltaT) f)
    (fun _ _ ht hi hb => invOutput_integrator hs ht hi hb) (invOutput_start (by simp) f) h
  exact ⟨h1, h3, h5, h6, h4⟩

/-- **C93** fails with output and a time integrator: whenever the run takes more than one step, the time of the comparison is later than the
time the state has reached. -/
theorem C93_output_fails {E : Type*} {step} (hs : Clocked (.integrator step : Stepper E)) {deltaT tEnd : ℝ} (hd : 0 < deltaT)
    (he : deltaT < tEnd) {n : ℕ} {f : E} {l : Loop E} (h : loop true (.integrator step) deltaT tEnd n (start deltaT f) = some (.ok l)) :
    l.i * deltaT < l.t := by
  obtain ⟨h1, -, h3, -, -, -⟩ := C93_output_partial hs h
  have hi : 2 ≤ l.i := by
    by_contra hc
    have : l.i = 0 ∨ l.i = 1 := by omega
    rcases this with h4 | h4 <;> rw [h4] at h1 <;> norm_num at h1 <;> linarith
  have h5 : ∀ k : ℕ, 2 ≤ k → k < 2 ^ k - 1 := by
    intro k hk
    induction k, hk using Nat.le_induction with
    | base => norm_num
    | succ k hk ih => rw [pow_succ]; omega
  have h6 : ((l.i : ℕ) : ℝ) < 2 ^ l.i - 1 := by
    have h7 := h5 l.i hi
    have h8 : l.i + 1 < 2 ^ l.i := by omega
    have h9 : ((l.i + 1 : ℕ) : ℝ) < ((2 ^ l.i : ℕ) : ℝ) := by exact_mod_cast h8
    push_cast at h9
    linarith
  rw [h1]
  exact mul_lt_mul_of_pos_right h6 hd

example : ∃ l : Loop ℝ, loop true (.integrator (rkStep (0 : ℝ →ₗ[ℝ] ℝ) 0)) (1 / 2) 1 2 (start (1 / 2) 5) = some (.ok l) ∧ l.i = 2 ∧
    l.t = 3 / 2 := by
  obtain ⟨F, hF⟩ : ∃ F : ℝ → ℝ, ∀ g t, rkStep (0 : ℝ →ₗ[ℝ] ℝ) 0 (1 / 2) g t (1 / 2) = .ok ⟨F g, t + 1 / 2, 1 / 2⟩ := by
    have hp : prologue (1 / 2) (1 / 2) = .ok (1 / 2, 1 / 2) := by norm_num [prologue]
    exact ⟨_, fun g t => by rw [rkStep, hp]⟩
  simp only [loop, start, body, streamOutput, write, hF]
  norm_num [hF]

/-- **C93** The reported errors: the largest absolute difference over the degrees of freedom (zero if there are none), and the Euclidean
norm, which lies between it and `√n` times it; both vanish exactly if the result equals the analytic solution. -/
theorem C93_errors (dofs : List ℕ) (a f : ℕ → ℝ) :
    (∀ i ∈ dofs, |a i - f i| ≤ (errors dofs a f).1) ∧
    ((errors dofs a f).1 = 0 ∨ ∃ i ∈ dofs, (errors dofs a f).1 = |a i - f i|) ∧
    (errors dofs a f).2 ^ 2 = (dofs.map fun i => (a i - f i) ^ 2).sum ∧
    (errors dofs a f).1 ≤ (errors dofs a f).2 ∧ (errors dofs a f).2 ≤ √dofs.length * (errors dofs a f).1 ∧
    ((errors dofs a f).1 = 0 ↔ ∀ i ∈ dofs, f i = a i) := by
  have hdiff : difference dofs a f = dofs.map fun i => a i - f i := by
    unfold difference
    congr 1
    funext i
    ring
  obtain ⟨h1, h2, h3⟩ := foldl_max_le (v := difference dofs a f) (a := 0)
  have hm : ∀ x ∈ difference dofs a f, |x| ≤ (errors dofs a f).1 := h2
  have hmem : ∀ i ∈ dofs, a i - f i ∈ difference dofs a f := by
    intro i hi
    rw [hdiff]
    exact List.mem_map_of_mem hi
  have hatt : (errors dofs a f).1 = 0 ∨ ∃ i ∈ dofs, (errors dofs a f).1 = |a i - f i| := by
    rcases h3 with h3 | ⟨x, hx, h3⟩
    · exact Or.inl h3
    · rw [hdiff] at hx
      obtain ⟨i, hi, rfl⟩ := List.mem_map.1 hx
      exact Or.inr ⟨i, hi, h3⟩
  have hn0 : 0 ≤ (errors dofs a f).1 := h1
  have hsq : ∀ i ∈ dofs, |a i - f i| ≤ (errors dofs a f).2 := by
    intro i hi
    have := sq_le_sum (hmem i hi)
    exact abs_le_sqrt this
  refine ⟨fun i hi => hm _ (hmem i hi), hatt, ?_, ?_, ?_, ?_, ?_⟩
  · change √_ ^ 2 = _
    rw [sq_sqrt (sum_sq_nonneg _), hdiff, List.map_map]
    rfl
  · rcases hatt with h | ⟨i, hi, h⟩
    · rw [h]; exact sqrt_nonneg _
    · rw [h]; exact hsq i hi
  · have h4 := sum_sq_le hm
    have h5 : (difference dofs a f).length = dofs.length := by simp [difference]
    rw [h5] at h4
    calc (errors dofs a f).2 ≤ √(dofs.length * (errors dofs a f).1 ^ 2) := sqrt_le_sqrt h4
      _ = √dofs.length * (errors dofs a f).1 := by
        rw [sqrt_mul (Nat.cast_nonneg _), sqrt_sq hn0]
  · intro h i hi
    have := hm _ (hmem i hi)
    rw [h] at this
    have := abs_nonpos_iff.1 this
    linarith
  · intro h
    rcases hatt with h6 | ⟨i, hi, h6⟩
    · exact h6
    · rw [h6, h i hi]
      simp

end AdvectionBenchmark

end NATriuM
