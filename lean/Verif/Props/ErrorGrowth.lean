import Verif.Lemmas.ErrorGrowth
import Mathlib.Algebra.Order.BigOperators.Group.Finset

/-!
# Property C142: errors of implicit streaming add up, but do not grow

`size s w f` is the root of the integral of `Σ_i w_i f_i²` over the domain.
-/

namespace NATriuM
namespace SedgSolver

variable {t : StencilType} {n nQ nf nq : ℕ} {C : Type*} [DecidableEq C] [Fintype C] {s : Setup t n nQ nf nq C} {w : Fin t.Q → ℝ}

/-- **C142** The distance between a run, whose linear systems are solved up to `ε`, and any other sequence of values, which fulfils the equation of the
method up to `ρ`, is at most the sum of all these errors: none of them is amplified later, for any sizes of the time steps and on any mesh. -/
theorem C142_accumulation (hs : Sound s) (hP : s.mesh.ByParts) (ht : t.exact = true) (hcen : s.central = false) (hp : PositiveWeights s)
    (hw : EnergyWeights s w) {θ : ℝ} {solve} (hint : s.integrator = .theta θ solve) (hθ : 1 / 2 ≤ θ) {ε : Block t n C → ℝ} (hε : SolvesWithin s w ε)
    {dt d : ℕ → ℝ} (hdt : ∀ k, 0 ≤ dt k) {x : ℕ → C × Fin n → Node ℝ t.D t.Q} (hx : ∀ k, integrate s (dt k) (x k) = .ok (x (k + 1), d k))
    {g ρ : ℕ → Block t n C} (hg : Defect s θ dt g ρ) (k : ℕ) :
    size s w (populations (x k) - g k) ≤ size s w (populations (x 0) - g 0) +
      ∑ j ∈ Finset.range k, (ε (TimeIntegration.thetaRhs (systemMatrix s) (systemVector s) θ (dt j) (populations (x j))) + size s w (ρ j)) := by
  induction k with
  | zero => simp
  | succ k ih =>
    obtain ⟨r, hr, he⟩ := step_residual hint hε (hx k)
    have h := step_disturbed hs hP ht hcen hp hw hθ (hdt k) (e := populations (x k) - g k) (e' := populations (x (k + 1)) - g (k + 1)) (δ := r + -ρ k) (by
      rw [show populations (x (k + 1)) - g (k + 1) - (populations (x k) - g k) = (populations (x (k + 1)) - populations (x k)) - (g (k + 1) - g k) by abel,
        he, hg k]
      simp only [map_add, map_sub, map_smul]
      module)
    have h' := size_add hp hw.nonneg r (-ρ k)
    rw [size_neg] at h'
    rw [Finset.sum_range_succ]
    linarith

/-- **C142** So the run stays as close to the run with an exact linear solver as the sum of the tolerances: after `k` steps with tolerance `ε`, the distance
is at most `k ε`. The run with an exact solver exists and is unique. -/
theorem C142_tolerance (hs : Sound s) (hP : s.mesh.ByParts) (ht : t.exact = true) (hcen : s.central = false) (hp : PositiveWeights s)
    (hw : EnergyWeights s w) {θ : ℝ} {solve} (hint : s.integrator = .theta θ solve) (hθ : 1 / 2 ≤ θ) {ε : ℝ} (hε : SolvesWithin s w fun _ => ε)
    {dt d : ℕ → ℝ} (hdt : ∀ k, 0 ≤ dt k) {x : ℕ → C × Fin n → Node ℝ t.D t.Q} (hx : ∀ k, integrate s (dt k) (x k) = .ok (x (k + 1), d k)) :
    ∃! g : ℕ → Block t n C, g 0 = populations (x 0) ∧ Defect s θ dt g 0 ∧ ∀ k, size s w (populations (x k) - g k) ≤ k * ε := by
  have hsol := fun (k : ℕ) (f : Block t n C) => C136_solvable hs hP ht hcen hp (θ := θ) (by linarith) (hdt k)
    (TimeIntegration.thetaRhs (systemMatrix s) (systemVector s) θ (dt k) f)
  choose next hnext huniq using hsol
  let g : ℕ → Block t n C := fun k => Nat.rec (populations (x 0)) next k
  have hdef : Defect s θ dt g 0 := fun k => by
    rw [Pi.zero_apply, add_zero]
    exact theta_relation (hnext k (g k))
  refine ⟨g, ⟨rfl, hdef, fun k => ?_⟩, ?_⟩
  · have h := C142_accumulation hs hP ht hcen hp hw hint hθ hε hdt hx hdef k
    have h0 : size s w (0 : Block t n C) = 0 := by
      rw [← smul_zero (0 : ℝ)]; unfold size; rw [energy_smul]; simp
    rw [show populations (x 0) - g 0 = 0 from sub_self _] at h
    simpa [h0] using h
  · rintro g' ⟨h0, hd, -⟩
    funext k
    induction k with
    | zero => exact h0
    | succ k ih =>
      refine huniq k (g k) (g' (k + 1)) ?_
      have := hd k
      rw [ih, Pi.zero_apply, add_zero, sub_eq_iff_eq_add] at this
      simp only [TimeIntegration.thetaMatrix, TimeIntegration.thetaRhs, LinearMap.add_apply, LinearMap.smul_apply, LinearMap.id_apply]
      simp only [map_add, map_smul] at this
      rw [← sub_eq_zero] at this ⊢
      rw [← this]
      module

/-! ## A channel -/

namespace Sample

/-- The channel with a solver that keeps its first guess if its residual is small, as iterative solvers do, and else finds the solution -/
noncomputable def lazy (u : Fin 2 → ℝ) (ε : ℝ) : Setup .D2Q9 4 4 4 2 (Fin 2) :=
  open Classical in
  { implicit true u (1 / 2) with
    integrator := .theta (1 / 2) fun M x rhs => if size (implicit true u (1 / 2)) (fun _ => 1) (M x - rhs) ≤ ε then some x else
      if h : ∃ y, M y = rhs then some h.choose else none }

theorem lazy_sound (u : Fin 2 → ℝ) (ε : ℝ) : Sound (lazy u ε) :=
  let h := sound true none
  ⟨h.nodal, h.gradients, h.divergence, h.matching, h.mass, h.nodup, h.complete, h.scaling⟩

theorem lazy_positive (u : Fin 2 → ℝ) (ε : ℝ) : PositiveWeights (lazy u ε) :=
  let h := implicit_positive true u (1 / 2)
  ⟨h.cell, h.face⟩

theorem lazy_solves (u : Fin 2 → ℝ) {ε : ℝ} (hε : 0 ≤ ε) : SolvesWithin (lazy u ε) (fun _ => 1) fun _ => ε := by
  intro θ solve h M x rhs y hy
  simp only [lazy, Integrator.theta.injEq] at h
  obtain ⟨-, rfl⟩ := h
  simp only at hy
  split_ifs at hy with h1 h2
  · cases hy
    exact h1
  · cases hy
    rw [h2.choose_spec, sub_self]
    have : size (lazy u ε) (fun _ => 1) 0 = 0 := by
      rw [← smul_zero (0 : ℝ)]; unfold size; rw [energy_smul]; simp
    rw [this]
    exact hε

theorem lazy_steps (u : Fin 2 → ℝ) (ε : ℝ) {dt : ℝ} (hdt : 0 ≤ dt) (x : Fin 2 × Fin 4 → Node ℝ StencilType.D2Q9.D StencilType.D2Q9.Q) :
    ∃ r, integrate (lazy u ε) dt x = .ok r := by
  obtain ⟨f, hf, -⟩ := C136_solvable (lazy_sound u ε) (byParts true) rfl rfl (lazy_positive u ε)
    (θ := 1 / 2) (by norm_num) hdt (TimeIntegration.thetaRhs (systemMatrix (lazy u ε)) (systemVector (lazy u ε)) (1 / 2) dt (populations x))
  have hpro : TimeIntegration.prologue dt dt = .ok (dt, dt) := by
    by_cases h0 : dt = 0 <;> simp [TimeIntegration.prologue, h0]
  unfold integrate step
  simp only [show (lazy u ε).integrator = .theta (1 / 2) (open Classical in fun M x rhs =>
      if size (implicit true u (1 / 2)) (fun _ => 1) (M x - rhs) ≤ ε then some x else if h : ∃ y, M y = rhs then some h.choose else none) from rfl,
    TimeIntegration.thetaStep, hpro]
  rw [dif_pos ⟨f, hf⟩]
  by_cases h1 : size (implicit true u (1 / 2)) (fun _ => 1) ((TimeIntegration.thetaMatrix (systemMatrix (lazy u ε)) (1 / 2) dt) (populations x) -
      TimeIntegration.thetaRhs (systemMatrix (lazy u ε)) (systemVector (lazy u ε)) (1 / 2) dt (populations x)) ≤ ε
  · rw [if_pos h1]; exact ⟨_, rfl⟩
  · rw [if_neg h1]; exact ⟨_, rfl⟩

/-- From every state there is a run of it through any number of steps of any sizes, with moving walls; it stays close to the exact one. -/
example (u : Fin 2 → ℝ) {ε : ℝ} (hε : 0 ≤ ε) {dt : ℕ → ℝ} (hdt : ∀ k, 0 ≤ dt k) (x0 : Fin 2 × Fin 4 → Node ℝ StencilType.D2Q9.D StencilType.D2Q9.Q) :
    ∃ (x : ℕ → Fin 2 × Fin 4 → Node ℝ StencilType.D2Q9.D StencilType.D2Q9.Q) (d : ℕ → ℝ) (g : ℕ → Block .D2Q9 4 (Fin 2)), x 0 = x0 ∧
      (∀ k, integrate (lazy u ε) (dt k) (x k) = .ok (x (k + 1), d k)) ∧ g 0 = populations x0 ∧ Defect (lazy u ε) (1 / 2) dt g 0 ∧
      ∀ k, size (lazy u ε) (fun _ => 1) (populations (x k) - g k) ≤ k * ε := by
  choose r hr using fun k x => lazy_steps u ε (hdt k) x
  let x : ℕ → Fin 2 × Fin 4 → Node ℝ StencilType.D2Q9.D StencilType.D2Q9.Q := fun k => Nat.rec x0 (fun k y => (r k y).1) k
  have hx : ∀ k, integrate (lazy u ε) (dt k) (x k) = .ok (x (k + 1), (r k (x k)).2) := fun k => hr k (x k)
  obtain ⟨g, ⟨h0, hd, hb⟩, -⟩ := C142_tolerance (lazy_sound u ε) (byParts true) rfl rfl (lazy_positive u ε)
    (w := fun _ => 1) ⟨fun _ => zero_le_one, fun _ => rfl⟩ rfl le_rfl (lazy_solves u hε) hdt hx
  exact ⟨x, _, g, rfl, hx, h0, hd, hb⟩

/-- Every sequence of values fulfils the equation up to some error. -/
example (s : Setup t n nQ nf nq C) (θ : ℝ) (dt : ℕ → ℝ) (g : ℕ → Block t n C) : ∃ ρ, Defect s θ dt g ρ :=
  ⟨fun k => g (k + 1) - g k - dt k • (systemMatrix s (θ • g (k + 1) + (1 - θ) • g k) + systemVector s), fun _ => (add_sub_cancel _ _).symm⟩

end Sample
end SedgSolver
end NATriuM
