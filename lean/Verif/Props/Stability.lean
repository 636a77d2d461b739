import Verif.Lemmas.Stability
import Verif.Props.SedgSolver
import Mathlib.LinearAlgebra.FiniteDimensional.Basic
import Mathlib.Analysis.SpecialFunctions.Exponential
import Mathlib.Topology.Algebra.Module.FiniteDimension

/-!
# Property C136: streaming is stable

`energy s w f` is the integral of `Σ_i w_i f_i²` over the domain.
-/

namespace NATriuM
namespace SedgSolver

variable {t : StencilType} {n nQ nf nq : ℕ} {C : Type*} [DecidableEq C] [Fintype C] {s : Setup t n nQ nf nq C} {w : Fin t.Q → ℝ}

/-- **C136** Distances between two flows do not grow while they are streamed exactly in time: on every mesh, with every finite element and exact
stencil, with periodic boundaries and walls, which may move. -/
theorem C136_exact (hs : Sound s) (hP : s.mesh.ByParts) (ht : t.exact = true) (hcen : s.central = false) (hp : PositiveWeights s)
    (hw : EnergyWeights s w) {y z : ℝ → Block t n C} (hy : ∀ τ, HasDerivAt y (systemMatrix s (y τ) + systemVector s) τ)
    (hz : ∀ τ, HasDerivAt z (systemMatrix s (z τ) + systemVector s) τ) : Antitone fun τ => energy s w (y τ - z τ) := by
  have hd : ∀ τ, HasDerivAt (fun τ => y τ - z τ) (systemMatrix s (y τ - z τ)) τ := fun τ => by
    refine ((hy τ).sub (hz τ)).congr_deriv ?_
    rw [map_sub]; abel
  have he : ∀ τ, HasDerivAt (fun τ => energy s w (y τ - z τ)) (2 * inner s w (y τ - z τ) (systemMatrix s (y τ - z τ))) τ := by
    intro τ
    have hc : ∀ i x, HasDerivAt (fun τ => (y τ - z τ) i x) (systemMatrix s (y τ - z τ) i x) τ := fun i x =>
      (hasDerivAt_pi.1 ((hasDerivAt_pi.1 (hd τ)) i)) x
    have : HasDerivAt (fun τ => energy s w (y τ - z τ)) (∑ i, w i * ∑ c, ∑ k, Sedg.mass s.mesh c k *
        (2 * (y τ - z τ) i (c, k) * systemMatrix s (y τ - z τ) i (c, k))) τ := by
      unfold energy integral
      refine HasDerivAt.fun_sum fun i _ => HasDerivAt.const_mul _ (HasDerivAt.fun_sum fun c _ => HasDerivAt.fun_sum fun k _ => HasDerivAt.const_mul _ ?_)
      refine ((hc i (c, k)).pow 2).congr_deriv ?_
      norm_num
    refine this.congr_deriv ?_
    simp only [inner, integral, Finset.mul_sum]
    exact Finset.sum_congr rfl fun i _ => Finset.sum_congr rfl fun c _ => Finset.sum_congr rfl fun k _ => by ring
  refine antitone_of_deriv_nonpos (fun τ => (he τ).differentiableAt) fun τ => ?_
  rw [(he τ).deriv]
  have := dissipative hs hP ht hcen hp hw (y τ - z τ)
  linarith

/-- **C136** Nor do they in a streaming step of the theta method with `θ ≥ 1/2`, however large the time step. -/
theorem C136_step (hs : Sound s) (hP : s.mesh.ByParts) (ht : t.exact = true) (hcen : s.central = false) (hp : PositiveWeights s)
    (hw : EnergyWeights s w) {θ : ℝ} {solve} (hint : s.integrator = .theta θ solve) (hθ : 1 / 2 ≤ θ) (hex : SolvesExactly s)
    {dt d d' : ℝ} (hdt : 0 ≤ dt) {x y x' y' : C × Fin n → Node ℝ t.D t.Q} (hx : integrate s dt x = .ok (x', d)) (hy : integrate s dt y = .ok (y', d')) :
    energy s w (populations x' - populations y') ≤ energy s w (populations x - populations y) := by
  have key : ∀ {x x' : C × Fin n → Node ℝ t.D t.Q} {d : ℝ}, integrate s dt x = .ok (x', d) → populations x' - populations x =
      dt • (systemMatrix s (θ • populations x' + (1 - θ) • populations x) + systemVector s) := by
    intro x x' d h
    unfold integrate at h
    cases hstep : step s dt (populations x) with
    | error e => rw [hstep] at h; cases h
    | ok r =>
      rw [hstep] at h
      cases h
      rw [populations_set]
      unfold step at hstep
      rw [hint] at hstep
      have hpro : TimeIntegration.prologue dt dt = .ok (dt, dt) := by
        by_cases h0 : dt = 0 <;> simp [TimeIntegration.prologue, h0]
      simp only [TimeIntegration.thetaStep, hpro] at hstep
      cases hsol : solve (TimeIntegration.thetaMatrix (systemMatrix s) θ dt) (populations x)
          (TimeIntegration.thetaRhs (systemMatrix s) (systemVector s) θ dt (populations x)) with
      | none => rw [hsol] at hstep; cases hstep
      | some g =>
        rw [hsol] at hstep
        cases hstep
        exact theta_relation (hex θ solve hint _ _ _ _ hsol)
  refine theta_energy hp hw.nonneg (dissipative hs hP ht hcen hp hw) hθ hdt ?_
  have h1 := key hx
  have h2 := key hy
  rw [show populations x' - populations y' - (populations x - populations y) = (populations x' - populations x) - (populations y' - populations y) by abel,
    h1, h2, ← smul_sub, add_sub_add_right_eq_sub, ← map_sub]
  congr 2
  module

/-- **C136** With walls at rest, or without walls, the energy itself does not grow, in any number of streaming steps of any sizes. -/
theorem C136_bounded (hs : Sound s) (hP : s.mesh.ByParts) (ht : t.exact = true) (hcen : s.central = false) (hp : PositiveWeights s)
    (hr : WallsAtRest s) (hw : EnergyWeights s w) {θ : ℝ} {solve} (hint : s.integrator = .theta θ solve) (hθ : 1 / 2 ≤ θ) (hex : SolvesExactly s)
    {dt d : ℕ → ℝ} (hdt : ∀ k, 0 ≤ dt k) {x : ℕ → C × Fin n → Node ℝ t.D t.Q} (hx : ∀ k, integrate s (dt k) (x k) = .ok (x (k + 1), d k)) (k : ℕ) :
    energy s w (populations (x k)) ≤ energy s w (populations (x 0)) := by
  induction k with
  | zero => exact le_rfl
  | succ k ih =>
    refine le_trans ?_ ih
    have h := hx k
    unfold integrate at h
    cases hstep : step s (dt k) (populations (x k)) with
    | error e => rw [hstep] at h; cases h
    | ok r =>
      rw [hstep] at h
      have h' := (Prod.mk.inj (Except.ok.inj h)).1
      rw [← h', populations_set]
      unfold step at hstep
      rw [hint] at hstep
      have hpro : TimeIntegration.prologue (dt k) (dt k) = .ok (dt k, dt k) := by
        by_cases h0 : dt k = 0 <;> simp [TimeIntegration.prologue, h0]
      simp only [TimeIntegration.thetaStep, hpro] at hstep
      cases hsol : solve (TimeIntegration.thetaMatrix (systemMatrix s) θ (dt k)) (populations (x k))
          (TimeIntegration.thetaRhs (systemMatrix s) (systemVector s) θ (dt k) (populations (x k))) with
      | none => rw [hsol] at hstep; cases hstep
      | some g =>
        rw [hsol] at hstep
        cases hstep
        have hg := theta_relation (hex θ solve hint _ _ _ _ hsol)
        rw [vector_zero hr, add_zero] at hg
        exact theta_energy hp hw.nonneg (dissipative hs hP ht hcen hp hw) hθ (hdt k) hg

/-- **C136** The linear system of every such step has exactly one solution: the step is well defined for every size of the time step and every `θ ≥ 0`. -/
theorem C136_solvable (hs : Sound s) (hP : s.mesh.ByParts) (ht : t.exact = true) (hcen : s.central = false) (hp : PositiveWeights s)
    {θ dt : ℝ} (hθ : 0 ≤ θ) (hdt : 0 ≤ dt) (rhs : Block t n C) : ∃! f, TimeIntegration.thetaMatrix (systemMatrix s) θ dt f = rhs := by
  have hinj : Function.Injective (TimeIntegration.thetaMatrix (systemMatrix s) θ dt) := by
    rw [← LinearMap.ker_eq_bot, LinearMap.ker_eq_bot']
    intro f hf
    simp only [TimeIntegration.thetaMatrix, LinearMap.add_apply, LinearMap.smul_apply, LinearMap.id_apply] at hf
    have hf' : f = (θ * dt) • systemMatrix s f := by
      rw [← sub_eq_zero, ← hf]
      module
    refine energy_eq_zero hp (w := fun _ => 1) (fun _ => one_pos) ?_
    have h := mul_nonpos_of_nonneg_of_nonpos (mul_nonneg hθ hdt) (dissipative hs hP ht hcen hp (w := fun _ => 1) ⟨fun _ => zero_le_one, fun _ => rfl⟩ f)
    rw [← inner_smul, ← hf'] at h
    rwa [energy_eq]
  have hsurj := LinearMap.injective_iff_surjective.1 hinj
  obtain ⟨f, hf⟩ := hsurj rhs
  exact ⟨f, hf, fun g hg => hinj (hg.trans hf.symm)⟩

/-! ## A channel -/

namespace Sample

theorem byParts (walls : Bool) : (mesh walls).ByParts := fun c i j k => by
  fin_cases i <;> fin_cases j <;> fin_cases k <;> simp [mesh, Fin.sum_univ_four, Fin.sum_univ_two] <;> norm_num

/-- The theta method with a solver that finds the solution if there is one -/
noncomputable def implicit (walls : Bool) (u : Fin 2 → ℝ) (θ : ℝ) : Setup .D2Q9 4 4 4 2 (Fin 2) :=
  open Classical in
  { plain walls none with
    wallVelocity := fun _ _ _ => u
    integrator := .theta θ fun M _ rhs => if h : ∃ y, M y = rhs then some h.choose else none }

theorem implicit_sound (walls : Bool) (u : Fin 2 → ℝ) (θ : ℝ) : Sound (implicit walls u θ) :=
  let h := sound walls none
  ⟨h.nodal, h.gradients, h.divergence, h.matching, h.mass, h.nodup, h.complete, h.scaling⟩

theorem implicit_positive (walls : Bool) (u : Fin 2 → ℝ) (θ : ℝ) : PositiveWeights (implicit walls u θ) where
  cell _ _ := by simp [Sedg.mass, implicit, plain, mesh]
  face _ _ _ := by simp [implicit, plain, mesh]

theorem implicit_solves (walls : Bool) (u : Fin 2 → ℝ) (θ : ℝ) : SolvesExactly (implicit walls u θ) := by
  intro θ' solve h M x rhs y hy
  simp only [implicit, Integrator.theta.injEq] at h
  obtain ⟨-, rfl⟩ := h
  simp only at hy
  split_ifs at hy with he
  cases hy
  exact he.choose_spec

/-- Every step of the Crank-Nicolson method succeeds on it, with moving walls and any time step, … -/
theorem implicit_steps (walls : Bool) (u : Fin 2 → ℝ) {dt : ℝ} (hdt : 0 ≤ dt) (x : Fin 2 × Fin 4 → Node ℝ StencilType.D2Q9.D StencilType.D2Q9.Q) :
    ∃ x' d, integrate (implicit walls u (1 / 2)) dt x = .ok (x', d) := by
  obtain ⟨f, hf, -⟩ := C136_solvable (implicit_sound walls u (1 / 2)) (byParts walls) rfl rfl (implicit_positive walls u (1 / 2))
    (θ := 1 / 2) (by norm_num) hdt (TimeIntegration.thetaRhs (systemMatrix (implicit walls u (1 / 2))) (systemVector (implicit walls u (1 / 2))) (1 / 2) dt (populations x))
  have hpro : TimeIntegration.prologue dt dt = .ok (dt, dt) := by
    by_cases h0 : dt = 0 <;> simp [TimeIntegration.prologue, h0]
  unfold integrate step
  simp only [show (implicit walls u (1 / 2)).integrator = .theta (1 / 2) (open Classical in fun M _ rhs => if h : ∃ y, M y = rhs then some h.choose else none) from rfl,
    TimeIntegration.thetaStep, hpro]
  rw [dif_pos ⟨f, hf⟩]
  exact ⟨_, _, rfl⟩

/-- … and two flows come no further apart. -/
example (u : Fin 2 → ℝ) {dt : ℝ} (hdt : 0 ≤ dt) (x y : Fin 2 × Fin 4 → Node ℝ StencilType.D2Q9.D StencilType.D2Q9.Q) : ∃ x' y' d d',
    integrate (implicit true u (1 / 2)) dt x = .ok (x', d) ∧ integrate (implicit true u (1 / 2)) dt y = .ok (y', d') ∧
    energy (implicit true u (1 / 2)) (fun _ => 1) (populations x' - populations y') ≤ energy (implicit true u (1 / 2)) (fun _ => 1) (populations x - populations y) := by
  obtain ⟨x', d, hx⟩ := implicit_steps true u hdt x
  obtain ⟨y', d', hy⟩ := implicit_steps true u hdt y
  exact ⟨x', y', d, d', hx, hy, C136_step (implicit_sound true u (1 / 2)) (byParts true) rfl rfl (implicit_positive true u (1 / 2))
    ⟨fun _ => zero_le_one, fun _ => rfl⟩ rfl le_rfl (implicit_solves true u (1 / 2)) hdt hx hy⟩

/-- With walls at rest, there is an exact solution from every initial state, and the energy decays along it; … -/
example (f0 : Block .D2Q9 4 (Fin 2)) : ∃ y : ℝ → Block .D2Q9 4 (Fin 2), y 0 = f0 ∧
    (∀ τ, HasDerivAt y (systemMatrix (implicit true 0 1) (y τ) + systemVector (implicit true 0 1)) τ) ∧
    Antitone fun τ => energy (implicit true 0 1) (fun _ => 1) (y τ) := by
  have hb : systemVector (implicit true 0 1) = 0 := vector_zero fun _ _ _ _ => rfl
  let A := LinearMap.toContinuousLinearMap (systemMatrix (implicit true 0 1))
  have hy : ∀ τ, HasDerivAt (fun τ : ℝ => NormedSpace.exp (τ • A) f0)
      (systemMatrix (implicit true 0 1) (NormedSpace.exp (τ • A) f0) + systemVector (implicit true 0 1)) τ := fun τ => by
    have h := ((ContinuousLinearMap.apply ℝ (Block .D2Q9 4 (Fin 2)) f0).hasFDerivAt.comp_hasDerivAt τ (hasDerivAt_exp_smul_const' A τ))
    refine h.congr_deriv ?_
    rw [hb, add_zero]
    rfl
  refine ⟨fun τ => NormedSpace.exp (τ • A) f0, by simp, hy, ?_⟩
  have := C136_exact (z := fun _ => 0) (implicit_sound true 0 1) (byParts true) rfl rfl (implicit_positive true 0 1)
    (w := fun _ => 1) ⟨fun _ => zero_le_one, fun _ => rfl⟩ hy (fun τ => by rw [hb, map_zero, add_zero]; exact hasDerivAt_const τ 0)
  simpa using this

/-- With walls at rest, a hundred steps that grow to any size … -/
example (x : ℕ → Fin 2 × Fin 4 → Node ℝ StencilType.D2Q9.D StencilType.D2Q9.Q) (d : ℕ → ℝ)
    (hx : ∀ k : ℕ, integrate (implicit true 0 1) (10 ^ k) (x k) = .ok (x (k + 1), d k)) :
    energy (implicit true 0 1) (fun _ => 1) (populations (x 100)) ≤ energy (implicit true 0 1) (fun _ => 1) (populations (x 0)) :=
  C136_bounded (implicit_sound true 0 1) (byParts true) rfl rfl (implicit_positive true 0 1) (fun _ _ _ _ => rfl)
    ⟨fun _ => zero_le_one, fun _ => rfl⟩ rfl (by norm_num) (implicit_solves true 0 1) (fun k => by positivity) hx 100

end Sample

end SedgSolver
end NATriuM
