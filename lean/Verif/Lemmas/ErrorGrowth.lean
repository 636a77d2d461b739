import Verif.Spec.ErrorGrowth
import Verif.Props.Stability
import Mathlib.Algebra.QuadraticDiscriminant
import Mathlib.Tactic.Module

/-!
# Lemmas: how errors grow
-/

namespace NATriuM
namespace SedgSolver

variable {t : StencilType} {n nQ nf nq : ℕ} {C : Type*} [DecidableEq C] [Fintype C] {s : Setup t n nQ nf nq C} {w : Fin t.Q → ℝ}

omit [DecidableEq C] in
theorem energy_add (f g : Block t n C) : energy s w (f + g) = energy s w f + 2 * inner s w f g + energy s w g := by
  rw [energy_eq, energy_eq, energy_eq, inner_add, inner_comm w (f + g) f, inner_comm w (f + g) g, inner_add, inner_add, inner_comm w g f]
  ring

omit [DecidableEq C] in
theorem energy_smul (a : ℝ) (f : Block t n C) : energy s w (a • f) = a ^ 2 * energy s w f := by
  rw [energy_eq, energy_eq, inner_smul, inner_comm, inner_smul]
  ring

omit [DecidableEq C] in
theorem energy_nonneg (hp : PositiveWeights s) (hw : ∀ i, 0 ≤ w i) (f : Block t n C) : 0 ≤ energy s w f := by
  rw [energy_eq]
  exact inner_self hp hw f

omit [DecidableEq C] in
theorem size_nonneg (f : Block t n C) : 0 ≤ size s w f := Real.sqrt_nonneg _

omit [DecidableEq C] in
theorem size_sq (hp : PositiveWeights s) (hw : ∀ i, 0 ≤ w i) (f : Block t n C) : size s w f ^ 2 = energy s w f := Real.sq_sqrt (energy_nonneg hp hw f)

omit [DecidableEq C] in
/-- The inequality of Cauchy and Schwarz -/
theorem inner_le_size (hp : PositiveWeights s) (hw : ∀ i, 0 ≤ w i) (f g : Block t n C) : inner s w f g ≤ size s w f * size s w g := by
  have h : ∀ a : ℝ, 0 ≤ energy s w g * (a * a) + 2 * inner s w f g * a + energy s w f := fun a => by
    have := energy_nonneg hp hw (f + a • g)
    rw [energy_add, inner_smul, energy_smul] at this
    linarith
  have hd := discrim_le_zero h
  unfold discrim at hd
  refine abs_le_of_sq_le_sq' ?_ (mul_nonneg (size_nonneg f) (size_nonneg g)) |>.2
  rw [mul_pow, size_sq hp hw, size_sq hp hw]
  nlinarith

omit [DecidableEq C] in
theorem size_add (hp : PositiveWeights s) (hw : ∀ i, 0 ≤ w i) (f g : Block t n C) : size s w (f + g) ≤ size s w f + size s w g := by
  refine abs_le_of_sq_le_sq' ?_ (add_nonneg (size_nonneg f) (size_nonneg g)) |>.2
  rw [size_sq hp hw, energy_add, add_sq, size_sq hp hw, size_sq hp hw]
  have := inner_le_size hp hw f g
  nlinarith

omit [DecidableEq C] in
theorem size_neg (f : Block t n C) : size s w (-f) = size s w f := by
  unfold size
  rw [show -f = (-1 : ℝ) • f by module, energy_smul]
  norm_num

omit [DecidableEq C] in
/-- Solving the linear system does not increase sizes. -/
theorem size_of_system (hp : PositiveWeights s) (hw : ∀ i, 0 ≤ w i) {A : Block t n C →ₗ[ℝ] Block t n C} (hA : ∀ f, inner s w f (A f) ≤ 0) {a : ℝ}
    (ha : 0 ≤ a) {v d : Block t n C} (h : v = a • A v + d) : size s w v ≤ size s w d := by
  have h1 : energy s w v = a * inner s w v (A v) + inner s w v d := by
    rw [energy_eq, ← inner_smul, ← inner_add, ← h]
  have h2 := mul_nonpos_of_nonneg_of_nonpos ha (hA v)
  have h3 := inner_le_size hp hw v d
  have h4 := size_sq hp hw v
  by_contra hlt
  have hlt := not_le.1 hlt
  have hpos : 0 < size s w v := (size_nonneg d).trans_lt hlt
  nlinarith [mul_lt_mul_of_pos_left hlt hpos]

/-- One step with a disturbance -/
theorem step_disturbed (hs : Sound s) (hP : s.mesh.ByParts) (ht : t.exact = true) (hcen : s.central = false) (hp : PositiveWeights s)
    (hw : EnergyWeights s w) {θ h : ℝ} (hθ : 1 / 2 ≤ θ) (hh : 0 ≤ h) {e e' δ : Block t n C}
    (he : e' - e = h • systemMatrix s (θ • e' + (1 - θ) • e) + δ) : size s w e' ≤ size s w e + size s w δ := by
  have hA := dissipative hs hP ht hcen hp hw
  obtain ⟨z, hz, -⟩ := C136_solvable hs hP ht hcen hp (θ := θ) (by linarith) hh (TimeIntegration.thetaRhs (systemMatrix s) 0 θ h e)
  have hz' := theta_relation hz
  rw [add_zero] at hz'
  have h1 : size s w z ≤ size s w e := Real.sqrt_le_sqrt (theta_energy hp hw.nonneg hA hθ hh hz')
  have h2 : size s w (e' - z) ≤ size s w δ := by
    refine size_of_system hp hw.nonneg hA (a := h * θ) (mul_nonneg hh (by linarith)) ?_
    have hd : e' - z = (e' - e) - (z - e) := by abel
    refine hd.trans ?_
    rw [he, hz']
    simp only [map_add, map_sub, map_smul]
    module
  calc size s w e' = size s w (z + (e' - z)) := by congr 1; abel
    _ ≤ size s w z + size s w (e' - z) := size_add hp hw.nonneg _ _
    _ ≤ _ := add_le_add h1 h2

/-- What a step of the solver does, with a residual -/
theorem step_residual {θ : ℝ} {solve} (hint : s.integrator = .theta θ solve) {ε : Block t n C → ℝ} (hε : SolvesWithin s w ε) {dt d : ℝ}
    {x x' : C × Fin n → Node ℝ t.D t.Q} (hx : integrate s dt x = .ok (x', d)) :
    ∃ r, size s w r ≤ ε (TimeIntegration.thetaRhs (systemMatrix s) (systemVector s) θ dt (populations x)) ∧ populations x' - populations x =
      dt • (systemMatrix s (θ • populations x' + (1 - θ) • populations x) + systemVector s) + r := by
  unfold integrate at hx
  cases hstep : step s dt (populations x) with
  | error e => rw [hstep] at hx; cases hx
  | ok r =>
    rw [hstep] at hx
    cases hx
    rw [populations_set]
    unfold step at hstep
    rw [hint] at hstep
    have hpro : TimeIntegration.prologue dt dt = .ok (dt, dt) := by
      by_cases h0 : dt = 0 <;> simp [TimeIntegration.prologue, h0]
    simp only [TimeIntegration.thetaStep, hpro] at hstep
    cases hsol : solve (TimeIntegration.thetaMatrix (systemMatrix s) θ dt) (populations x)
        (TimeIntegration.thetaRhs (systemMatrix s) (systemVector s) θ dt (populations x)) with
    | none => rw [hsol] at hstep; cases hstep
    | some g =>
      rw [hsol] at hstep
      cases hstep
      refine ⟨_, hε θ solve hint _ _ _ _ hsol, ?_⟩
      simp only [TimeIntegration.thetaMatrix, TimeIntegration.thetaRhs, LinearMap.add_apply, LinearMap.smul_apply, LinearMap.id_apply, map_add, map_smul]
      module

end SedgSolver
end NATriuM
