import Verif.Lemmas.ImplicitConvergence
import Mathlib.Analysis.SpecificLimits.Basic

/-!
# Property C143: implicit streaming converges to exact streaming, with a bound that does not depend on the time

`systemMatrix s (y 0) + systemVector s` is the rate of change of the initial values, and `systemMatrix s` applied once and twice to it its first and second
derivative in time.
-/

namespace NATriuM
namespace SedgSolver

variable {t : StencilType} {n nQ nf nq : ℕ} {C : Type*} [DecidableEq C] [Fintype C] {s : Setup t n nQ nf nq C} {w : Fin t.Q → ℝ}

/-- **C143** For every initial state there is exactly one flow that is streamed exactly in time. -/
theorem C143_exact (s : Setup t n nQ nf nq C) (hs : Sound s) (hP : s.mesh.ByParts) (ht : t.exact = true) (hcen : s.central = false) (hp : PositiveWeights s)
    (f : Block t n C) : ∃ y, Streams s y ∧ y 0 = f ∧ ∀ z, Streams s z → z 0 = f → ∀ τ, 0 ≤ τ → z τ = y τ := by
  let A := LinearMap.toContinuousLinearMap (systemMatrix s)
  let B : Block t n C × ℝ →L[ℝ] Block t n C × ℝ :=
    ((A.comp (ContinuousLinearMap.fst ℝ _ _)) + (ContinuousLinearMap.snd ℝ (Block t n C) ℝ).smulRight (systemVector s)).prod 0
  have hz : ∀ τ, HasDerivAt (fun τ : ℝ => NormedSpace.exp (τ • B) (f, 1)) (B (NormedSpace.exp (τ • B) (f, 1))) τ := fun τ =>
    (ContinuousLinearMap.apply ℝ (Block t n C × ℝ) ((f, 1) : Block t n C × ℝ)).hasFDerivAt.comp_hasDerivAt τ (hasDerivAt_exp_smul_const' B τ)
  have h2 : ∀ τ, (NormedSpace.exp (τ • B) (f, (1 : ℝ))).2 = 1 := fun τ => by
    have hd : ∀ τ, HasDerivAt (fun τ : ℝ => (NormedSpace.exp (τ • B) (f, (1 : ℝ))).2) 0 τ := fun τ =>
      (ContinuousLinearMap.snd ℝ (Block t n C) ℝ).hasFDerivAt.comp_hasDerivAt τ (hz τ)
    have := is_const_of_deriv_eq_zero (fun τ => (hd τ).differentiableAt) (fun τ => (hd τ).deriv) τ 0
    simpa using this
  have hY : Streams s fun τ => (NormedSpace.exp (τ • B) (f, 1)).1 := fun τ => by
    refine ((ContinuousLinearMap.fst ℝ (Block t n C) ℝ).hasFDerivAt.comp_hasDerivAt τ (hz τ)).congr_deriv ?_
    show systemMatrix s (NormedSpace.exp (τ • B) (f, 1)).1 + (NormedSpace.exp (τ • B) (f, (1 : ℝ))).2 • systemVector s = _
    rw [h2, one_smul]
  refine ⟨fun τ => (NormedSpace.exp (τ • B) (f, 1)).1, hY, by simp, ?_⟩
  · intro z hz' h0 τ hτ
    have := C136_exact hs hP ht hcen hp (w := fun _ => 1) ⟨fun _ => zero_le_one, fun _ => rfl⟩ hz' (z := fun τ => (NormedSpace.exp (τ • B) (f, 1)).1) hY hτ
    refine sub_eq_zero.1 (energy_eq_zero hp (w := fun _ => 1) (fun _ => one_pos) (this.trans (le_of_eq ?_)))
    simp only [h0]
    simp [energy, integral]

/-- **C143** The error of a run with the theta method, `1/2 ≤ θ ≤ 1`, is of first order: each step adds at most the square of its size times the size of the
second derivative of the flow at the beginning, and the tolerance of the linear solver. -/
theorem C143_first (hs : Sound s) (hP : s.mesh.ByParts) (ht : t.exact = true) (hcen : s.central = false) (hp : PositiveWeights s)
    (hw : EnergyWeights s w) {θ : ℝ} {solve} (hint : s.integrator = .theta θ solve) (hθ : 1 / 2 ≤ θ) (h1 : θ ≤ 1) {ε : ℝ}
    (hε : SolvesWithin s w fun _ => ε) {dt d : ℕ → ℝ} (hdt : ∀ k, 0 ≤ dt k) {x : ℕ → C × Fin n → Node ℝ t.D t.Q}
    (hx : ∀ k, integrate s (dt k) (x k) = .ok (x (k + 1), d k)) {y : ℝ → Block t n C} (hy : Streams s y) (h0 : y 0 = populations (x 0)) (k : ℕ) :
    size s w (populations (x k) - y (time dt k)) ≤
      k * ε + size s w (systemMatrix s (systemMatrix s (y 0) + systemVector s)) * ∑ j ∈ Finset.range k, dt j ^ 2 := by
  have h := C142_accumulation hs hP ht hcen hp hw hint hθ hε hdt hx (defect_streams y θ dt) k
  have hz : size s w (populations (x 0) - y (time dt 0)) = 0 := by
    rw [show time dt 0 = 0 from Finset.sum_range_zero _, h0, sub_self, size_zero]
  have hsum := Finset.sum_le_sum fun j (_ : j ∈ Finset.range k) =>
    truncation_first hs hP ht hcen hp hw hy (θ := θ) (by linarith) h1 (hdt j) (time_nonneg hdt j)
  rw [hz, zero_add, Finset.sum_add_distrib, Finset.sum_const, Finset.card_range, nsmul_eq_mul] at h
  rw [Finset.mul_sum]
  linarith

/-- **C143** The error of a run with the Crank-Nicolson method is of second order. -/
theorem C143_second (hs : Sound s) (hP : s.mesh.ByParts) (ht : t.exact = true) (hcen : s.central = false) (hp : PositiveWeights s)
    (hw : EnergyWeights s w) {solve} (hint : s.integrator = .theta (1 / 2) solve) {ε : ℝ}
    (hε : SolvesWithin s w fun _ => ε) {dt d : ℕ → ℝ} (hdt : ∀ k, 0 ≤ dt k) {x : ℕ → C × Fin n → Node ℝ t.D t.Q}
    (hx : ∀ k, integrate s (dt k) (x k) = .ok (x (k + 1), d k)) {y : ℝ → Block t n C} (hy : Streams s y) (h0 : y 0 = populations (x 0)) (k : ℕ) :
    size s w (populations (x k) - y (time dt k)) ≤
      k * ε + size s w (systemMatrix s (systemMatrix s (systemMatrix s (y 0) + systemVector s))) / 2 * ∑ j ∈ Finset.range k, dt j ^ 3 := by
  have h := C142_accumulation hs hP ht hcen hp hw hint le_rfl hε hdt hx (defect_streams y (1 / 2) dt) k
  have hz : size s w (populations (x 0) - y (time dt 0)) = 0 := by
    rw [show time dt 0 = 0 from Finset.sum_range_zero _, h0, sub_self, size_zero]
  have hsum := Finset.sum_le_sum fun j (_ : j ∈ Finset.range k) =>
    truncation_second hs hP ht hcen hp hw hy (hdt j) (time_nonneg hdt j)
  rw [hz, zero_add, Finset.sum_add_distrib, Finset.sum_const, Finset.card_range, nsmul_eq_mul] at h
  rw [Finset.mul_sum]
  linarith

/-- **C143** So the results at a given time converge to exact streaming when the number of time steps grows, if the linear systems are solved exactly. -/
theorem C143_limit (hs : Sound s) (hP : s.mesh.ByParts) (ht : t.exact = true) (hcen : s.central = false) (hp : PositiveWeights s)
    (hw : EnergyWeights s w) {θ : ℝ} {solve} (hint : s.integrator = .theta θ solve) (hθ : 1 / 2 ≤ θ) (h1 : θ ≤ 1) (hex : SolvesExactly s)
    {T : ℝ} (hT : 0 ≤ T) {d : ℕ → ℕ → ℝ} {x : ℕ → ℕ → C × Fin n → Node ℝ t.D t.Q}
    (hx : ∀ (N k : ℕ), integrate s (T / (N + 1)) (x N k) = .ok (x N (k + 1), d N k)) {y : ℝ → Block t n C} (hy : Streams s y)
    (h0 : ∀ N, y 0 = populations (x N 0)) :
    Filter.Tendsto (fun N => size s w (populations (x N (N + 1)) - y T)) Filter.atTop (nhds 0) := by
  have hε : SolvesWithin s w fun _ => 0 := fun θ solve h M x rhs y hy => by
    rw [hex θ solve h M x rhs y hy, sub_self, size_zero]
  have hlim : Filter.Tendsto (fun N : ℕ => size s w (systemMatrix s (systemMatrix s (y 0) + systemVector s)) * T ^ 2 * (1 / ((N : ℝ) + 1)))
      Filter.atTop (nhds 0) := by
    simpa using (tendsto_one_div_add_atTop_nhds_zero_nat (𝕜 := ℝ)).const_mul (size s w (systemMatrix s (systemMatrix s (y 0) + systemVector s)) * T ^ 2)
  refine squeeze_zero (fun N => size_nonneg _) (fun N => ?_) hlim
  have hN : (0 : ℝ) < (N : ℝ) + 1 := by positivity
  have h := C143_first hs hP ht hcen hp hw hint hθ h1 hε (dt := fun _ => T / (N + 1)) (fun _ => div_nonneg hT hN.le) (hx N) hy (h0 N) (N + 1)
  have htime : time (fun _ => T / ((N : ℝ) + 1)) (N + 1) = T := by
    simp only [time, Finset.sum_const, Finset.card_range, nsmul_eq_mul]
    push_cast
    field_simp
  rw [htime] at h
  refine h.trans (le_of_eq ?_)
  simp only [Finset.sum_const, Finset.card_range, nsmul_eq_mul]
  push_cast
  field_simp
  ring

/-! ## A channel -/

namespace Sample

/-- A channel with moving walls and a solver with a tolerance: from every initial state, the run with any sizes of the time steps and the exact flow exist. -/
example (u : Fin 2 → ℝ) {ε : ℝ} (hε : 0 ≤ ε) {dt : ℕ → ℝ} (hdt : ∀ k, 0 ≤ dt k) (x0 : Fin 2 × Fin 4 → Node ℝ StencilType.D2Q9.D StencilType.D2Q9.Q) :
    ∃ (x : ℕ → Fin 2 × Fin 4 → Node ℝ StencilType.D2Q9.D StencilType.D2Q9.Q) (d : ℕ → ℝ) (y : ℝ → Block .D2Q9 4 (Fin 2)), x 0 = x0 ∧
      (∀ k, integrate (lazy u ε) (dt k) (x k) = .ok (x (k + 1), d k)) ∧ Streams (lazy u ε) y ∧ y 0 = populations x0 ∧
      ∀ k, size (lazy u ε) (fun _ => 1) (populations (x k) - y (time dt k)) ≤ k * ε +
        size (lazy u ε) (fun _ => 1) (systemMatrix (lazy u ε) (systemMatrix (lazy u ε) (systemMatrix (lazy u ε) (y 0) + systemVector (lazy u ε)))) / 2 *
          ∑ j ∈ Finset.range k, dt j ^ 3 := by
  choose r hr using fun k x => lazy_steps u ε (hdt k) x
  let x : ℕ → Fin 2 × Fin 4 → Node ℝ StencilType.D2Q9.D StencilType.D2Q9.Q := fun k => Nat.rec x0 (fun k y => (r k y).1) k
  have hx : ∀ k, integrate (lazy u ε) (dt k) (x k) = .ok (x (k + 1), (r k (x k)).2) := fun k => hr k (x k)
  obtain ⟨y, hy, h0, -⟩ := C143_exact (lazy u ε) (lazy_sound u ε) (byParts true) rfl rfl (lazy_positive u ε) (populations x0)
  exact ⟨x, _, y, rfl, hx, hy, h0, C143_second (lazy_sound u ε) (byParts true) rfl rfl (lazy_positive u ε)
    (w := fun _ => 1) ⟨fun _ => zero_le_one, fun _ => rfl⟩ rfl (lazy_solves u hε) hdt hx hy h0⟩

/-- With an exact solver, more and more steps lead to the exact flow. -/
example (u : Fin 2 → ℝ) {T : ℝ} (hT : 0 ≤ T) (x0 : Fin 2 × Fin 4 → Node ℝ StencilType.D2Q9.D StencilType.D2Q9.Q) :
    ∃ (x : ℕ → ℕ → Fin 2 × Fin 4 → Node ℝ StencilType.D2Q9.D StencilType.D2Q9.Q) (d : ℕ → ℕ → ℝ) (y : ℝ → Block .D2Q9 4 (Fin 2)), (∀ N, x N 0 = x0) ∧
      (∀ (N k : ℕ), integrate (implicit true u (1 / 2)) (T / (N + 1)) (x N k) = .ok (x N (k + 1), d N k)) ∧ Streams (implicit true u (1 / 2)) y ∧
      y 0 = populations x0 ∧
      Filter.Tendsto (fun N => size (implicit true u (1 / 2)) (fun _ => 1) (populations (x N (N + 1)) - y T)) Filter.atTop (nhds 0) := by
  choose r e hr using fun (N : ℕ) x => implicit_steps true u (dt := T / (N + 1)) (div_nonneg hT (by positivity)) x
  let x : ℕ → ℕ → Fin 2 × Fin 4 → Node ℝ StencilType.D2Q9.D StencilType.D2Q9.Q := fun N k => Nat.rec x0 (fun _ y => r N y) k
  have hx : ∀ (N k : ℕ), integrate (implicit true u (1 / 2)) (T / (N + 1)) (x N k) = .ok (x N (k + 1), e N (x N k)) := fun N k => hr N (x N k)
  obtain ⟨y, hy, h0, -⟩ := C143_exact (implicit true u (1 / 2)) (implicit_sound true u (1 / 2)) (byParts true) rfl rfl (implicit_positive true u (1 / 2)) (populations x0)
  exact ⟨x, _, y, fun _ => rfl, hx, hy, h0, C143_limit (implicit_sound true u (1 / 2)) (byParts true) rfl rfl (implicit_positive true u (1 / 2))
    (w := fun _ => 1) ⟨fun _ => zero_le_one, fun _ => rfl⟩ rfl le_rfl (by norm_num) (implicit_solves true u (1 / 2)) hT hx hy fun _ => h0⟩

end Sample
end SedgSolver
end NATriuM
