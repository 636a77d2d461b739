import Verif.Lemmas.ImplicitConvergence

/-!
# Lemmas: conservation with inexact linear solvers
-/

namespace NATriuM

namespace Solver

variable {σ ε ι : Type*} {D : ℕ} {cfg : RunConfig} {p : Parts σ ε ι D} {start : ℕ} {s0 : Snapshot σ}

/-- What holds after `k` steps, if every streaming step counts. -/
theorem trajectory_counted (J : ℕ → σ → Prop) (hsc : p.scheme = .sedg)
    (hi : ∀ k j s x' dt', runTrajectory cfg p start s0 k = .ok s → J k s.x → p.integrate j s.dt s.x = .ok (x', dt') → J (k + 1) x')
    (hf : cfg.isFiltering = true → ∀ k x, J k x → J k (p.applyFilter x))
    (hc : ∀ k x x', J k x → p.collide x = .ok x' → J k x')
    (hp : ∀ q ∈ p.processors, ∀ k i time x, J k x → J k (q i time x)) (h0 : J 0 s0.x) :
    ∀ k s, runTrajectory cfg p start s0 k = .ok s → J k s.x := by
  have hcol : ∀ k s s', J k s.x → collide p s = .ok s' → J k s'.x := by
    intro k s s' hJ h
    unfold collide at h
    cases hx : p.collide s.x with
    | error e => rw [hx] at h; cases h
    | ok x => rw [hx] at h; cases h; exact hc k _ _ hJ hx
  have hproc : ∀ k i (s : Snapshot σ), J k s.x → J k (applyProcessors p i s).x := by
    intro k i s hJ
    show J k (p.processors.foldl (fun x proc => proc i s.time x) s.x)
    have : ∀ (l : List (ℕ → ℝ → σ → σ)), (∀ q ∈ l, q ∈ p.processors) → ∀ x, J k x → J k (l.foldl (fun x proc => proc i s.time x) x) := by
      intro l
      induction l with
      | nil => intro _ x hx; exact hx
      | cons q l ih =>
        intro hl x hx
        exact ih (fun q' hq' => hl q' (List.mem_cons_of_mem _ hq')) _ (hp q (hl q List.mem_cons_self) k i s.time x hx)
    exact this _ (fun _ h => h) _ hJ
  have hstr : ∀ k j s s', runTrajectory cfg p start s0 k = .ok s → J k s.x → stream p j s = .ok s' → J (k + 1) s'.x := by
    intro k j s s' hr hJ hs
    unfold stream at hs
    rw [hsc] at hs
    simp only at hs
    cases hx : p.integrate j s.dt s.x with
    | error e => rw [hx] at hs; cases hs
    | ok r =>
      obtain ⟨x, d⟩ := r
      rw [hx] at hs
      simp only at hs
      split at hs
      · cases hs; exact hi _ _ _ _ _ hr hJ hx
      · cases hs
  intro k
  induction k with
  | zero => intro s h; exact hcol 0 s0 s h0 h
  | succ k ih =>
    intro s h'
    simp only [runTrajectory, Spec.trajectory] at h'
    cases hk : Spec.trajectory (collide p s0) (advance cfg p start) start k with
    | error e => rw [hk] at h'; cases h'
    | ok s1 =>
      rw [hk] at h'
      have hJ := ih s1 hk
      simp only [advance] at h'
      cases hs : stream p (start + (k + 1) - start) s1 with
      | error e => rw [hs] at h'; cases h'
      | ok s2 =>
        rw [hs] at h'
        have hJ2 : J (k + 1) s2.x := hstr _ _ _ _ hk hJ hs
        have hJ3 : J (k + 1) (filter cfg p (start + (k + 1)) s2).x := by
          unfold filter
          split
          · next hif => exact hf (by simp at hif; exact hif.1) _ _ hJ2
          · exact hJ2
        simp only at h'
        cases hx : collide p (filter cfg p (start + (k + 1)) s2) with
        | error e => rw [hx] at h'; cases h'
        | ok s3 =>
          rw [hx] at h'
          cases h'
          exact hproc _ _ _ (hcol _ _ _ hJ3 hx)

end Solver

namespace SedgSolver

variable {t : StencilType} {n nQ nf nq : ℕ} {C : Type*} [DecidableEq C] [Fintype C] {s : Setup t n nQ nf nq C}

omit [DecidableEq C] in
/-- Sums over the domain are bounded by the size. -/
theorem functional_le (hp : PositiveWeights s) (v : Fin t.Q → ℝ) (f : Block t n C) :
    |functional s v f| ≤ Real.sqrt ((∑ i, v i ^ 2) * volume s) * size s (fun _ => 1) f := by
  have h := abs_inner_le hp (w := fun _ => 1) (fun _ => zero_le_one) (fun i _ => v i) f
  have h1 : inner s (fun _ => 1) (fun i _ => v i) f = functional s v f := by
    show ∑ i, 1 * ∑ c, ∑ k, _ * (v i * f i (c, k)) = ∑ i, v i * ∑ c, ∑ k, _ * f i (c, k)
    refine Finset.sum_congr rfl fun i _ => ?_
    simp only [one_mul, Finset.mul_sum]
    exact Finset.sum_congr rfl fun c _ => Finset.sum_congr rfl fun k _ => by ring
  have h2 : size s (fun _ => 1) (fun i (_ : C × Fin n) => v i) = Real.sqrt ((∑ i, v i ^ 2) * volume s) := by
    unfold size energy volume integral
    rw [Finset.sum_mul]
    congr 1
    refine Finset.sum_congr rfl fun i _ => ?_
    simp only [one_mul, mul_one, Finset.mul_sum]
    exact Finset.sum_congr rfl fun c _ => Finset.sum_congr rfl fun k _ => by ring
  rwa [h1, h2] at h

/-- What a streaming step with an inexact solver adds to a sum that streaming keeps -/
theorem integrate_nearly_keeps (hp : PositiveWeights s) {θ : ℝ} {solve} (hint : s.integrator = .theta θ solve) {ε : Block t n C → ℝ}
    (hε : SolvesWithin s (fun _ => 1) ε) {v : Fin t.Q → ℝ} (hA : ∀ f, functional s v (systemMatrix s f) = 0) (hb : functional s v (systemVector s) = 0)
    {dt d : ℝ} {x x' : C × Fin n → Node ℝ t.D t.Q} (h : integrate s dt x = .ok (x', d)) :
    |functional s v (populations x') - functional s v (populations x)| ≤ Real.sqrt ((∑ i, v i ^ 2) * volume s) *
      ε (TimeIntegration.thetaRhs (systemMatrix s) (systemVector s) θ dt (populations x)) := by
  obtain ⟨r, hr, he⟩ := step_residual hint hε h
  rw [← map_sub, he, map_add, map_smul, map_add, hA, hb, add_zero, smul_zero, zero_add]
  exact (functional_le hp v r).trans (mul_le_mul_of_nonneg_left hr (Real.sqrt_nonneg _))

/-- The same for whole runs -/
theorem trajectory_nearly_keeps {cfg : Solver.RunConfig} {start : ℕ} {s0 : Solver.Snapshot (C × Fin n → Node ℝ t.D t.Q)} (hp : PositiveWeights s) {θ : ℝ} {solve}
    (hint : s.integrator = .theta θ solve) {ε : Block t n C → ℝ} (hε : SolvesWithin s (fun _ => 1) ε) {v : Fin t.Q → ℝ}
    (hA : ∀ f, functional s v (systemMatrix s f) = 0) (hb : functional s v (systemVector s) = 0) (F : (C × Fin n → Node ℝ t.D t.Q) → ℝ)
    (hF : ∀ x, F x = functional s v (populations x)) (hfil : cfg.isFiltering = true → ∀ x, F (applyFilter s x) = F x)
    (hcol : ∀ x x', collide s x = .ok x' → F x' = F x) (hproc : ∀ q ∈ s.processors, ∀ i time x, F (q i time x) = F x) (K : ℕ)
    {y : ℕ → Solver.Snapshot (C × Fin n → Node ℝ t.D t.Q)} (hy : ∀ j ≤ K, Solver.runTrajectory cfg (parts s) start s0 j = .ok (y j)) :
    |F (y K).x - F s0.x| ≤ Real.sqrt ((∑ i, v i ^ 2) * volume s) *
      ∑ j ∈ Finset.range K, ε (TimeIntegration.thetaRhs (systemMatrix s) (systemVector s) θ (y j).dt (populations (y j).x)) := by
  refine Solver.trajectory_counted (cfg := cfg) (start := start) (p := parts s)
    (fun k x => k ≤ K → |F x - F s0.x| ≤ Real.sqrt ((∑ i, v i ^ 2) * volume s) *
      ∑ j ∈ Finset.range k, ε (TimeIntegration.thetaRhs (systemMatrix s) (systemVector s) θ (y j).dt (populations (y j).x))) rfl ?_ ?_ ?_ ?_ (by simp)
    K (y K) (hy K le_rfl) le_rfl
  · intro k _ snap x' dt' hk hx h hle
    have e : snap = y k := by
      have := hk.symm.trans (hy k (by omega))
      cases this
      rfl
    subst e
    have := integrate_nearly_keeps hp hint hε hA hb h
    rw [← hF, ← hF] at this
    have hx := hx (by omega)
    have htri := abs_sub_le (F x') (F (y k).x) (F s0.x)
    rw [Finset.sum_range_succ, mul_add]
    linarith
  · intro hf k x hx hle
    show |F (applyFilter s x) - _| ≤ _
    rw [hfil hf]
    exact hx hle
  · intro k x x' hx h hle
    rw [hcol x x' h]
    exact hx hle
  · intro q hq k i time x hx hle
    rw [hproc q hq]
    exact hx hle

end SedgSolver
end NATriuM
