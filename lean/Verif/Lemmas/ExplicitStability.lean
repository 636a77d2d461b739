import Verif.Spec.ExplicitStability
import Verif.Props.ImplicitConvergence
import Verif.Props.Convergence
import Mathlib.Analysis.InnerProductSpace.PiL2

/-!
# Lemmas: explicit streaming
-/

namespace NATriuM
namespace SedgSolver

open TimeIntegration

variable {t : StencilType} {n nQ nf nq : ℕ} {C : Type*} [DecidableEq C] [Fintype C] {s : Setup t n nQ nf nq C} {w : Fin t.Q → ℝ}

/-- The values with the factors that turn the energy into the sum of the squares -/
abbrev Scaled (t : StencilType) (n : ℕ) (C : Type*) := EuclideanSpace ℝ (Fin t.Q × C × Fin n)

/-- The factors -/
noncomputable def scale (s : Setup t n nQ nf nq C) (w : Fin t.Q → ℝ) (j : Fin t.Q × C × Fin n) : ℝ := Real.sqrt (w j.1 * Sedg.mass s.mesh j.2.1 j.2.2)

omit [DecidableEq C] [Fintype C] in
theorem scale_pos (hp : PositiveWeights s) (hw : ∀ i, 0 < w i) (j : Fin t.Q × C × Fin n) : 0 < scale s w j :=
  Real.sqrt_pos.2 (mul_pos (hw _) (hp.cell _ _))

/-- Scaling is linear and can be undone. -/
noncomputable def scaled (s : Setup t n nQ nf nq C) (w : Fin t.Q → ℝ) (hp : PositiveWeights s) (hw : ∀ i, 0 < w i) : Block t n C ≃ₗ[ℝ] Scaled t n C where
  toFun f := WithLp.toLp 2 fun j => scale s w j * f j.1 j.2
  invFun g := fun i x => g (i, x) / scale s w (i, x)
  map_add' f g := by ext j; simp [mul_add]
  map_smul' a f := by ext j; simp [mul_left_comm]
  left_inv f := by
    funext i x
    simp [mul_div_cancel_left₀ _ (scale_pos hp hw (i, x)).ne']
  right_inv g := by
    ext j
    simp [mul_div_cancel₀ _ (scale_pos hp hw j).ne']

omit [DecidableEq C] in
theorem norm_scaled (hp : PositiveWeights s) (hw : ∀ i, 0 < w i) (f : Block t n C) : ‖scaled s w hp hw f‖ = size s w f := by
  rw [EuclideanSpace.norm_eq]
  unfold size energy integral
  congr 1
  rw [Fintype.sum_prod_type]
  refine Finset.sum_congr rfl fun i _ => ?_
  rw [Fintype.sum_prod_type, Finset.mul_sum]
  refine Finset.sum_congr rfl fun c _ => ?_
  rw [Finset.mul_sum]
  refine Finset.sum_congr rfl fun k _ => ?_
  show ‖scale s w (i, c, k) * f i (c, k)‖ ^ 2 = _
  rw [Real.norm_eq_abs, sq_abs, mul_pow, scale, Real.sq_sqrt (mul_nonneg (hw i).le (hp.cell c k).le)]
  ring

/-- One step of the Runge-Kutta method from values that follow an equation exactly -/
theorem runge_local (hp : PositiveWeights s) (hw : ∀ i, 0 < w i) {L : ℝ} (hL0 : 0 ≤ L) (hL : RateBound s w L) (b : Block t n C) {y : ℝ → Block t n C}
    (hy : ∀ σ, HasDerivAt y (systemMatrix s (y σ) + b) σ) {τ h G : ℝ} (hh : 0 ≤ h)
    (hG : ∀ σ, τ ≤ σ → size s w (systemMatrix s (y σ) + b) ≤ G) :
    size s w (y τ + poly (systemMatrix s) h (systemMatrix s (y τ) + b) gamma - y (τ + h)) ≤ h * (G * excess (L * h)) := by
  let e := scaled s w hp hw
  let A' : Scaled t n C →ₗ[ℝ] Scaled t n C := e.toLinearMap ∘ₗ systemMatrix s ∘ₗ e.symm.toLinearMap
  let A := LinearMap.toContinuousLinearMap A'
  have hA : ∀ f, A (e f) = e (systemMatrix s f) := fun f => by
    show e (systemMatrix s (e.symm (e f))) = _
    rw [e.symm_apply_apply]
  have hpow : ∀ k f, (A' ^ k) (e f) = e ((systemMatrix s ^ k) f) := fun k f => by
    induction k with
    | zero => rfl
    | succ k ih =>
      rw [pow_succ', pow_succ', Module.End.mul_apply, Module.End.mul_apply, ih]
      exact hA _
  have hnorm : ‖A‖ ≤ L := ContinuousLinearMap.opNorm_le_bound _ hL0 fun g => by
    obtain ⟨f, rfl⟩ := e.surjective g
    rw [hA, norm_scaled, norm_scaled]
    exact hL f
  have hy' : ∀ σ, HasDerivAt (fun σ => e (y σ)) (A (e (y σ)) + e b) σ := fun σ => by
    rw [hA, ← map_add]
    exact (LinearMap.toContinuousLinearMap e.toLinearMap).hasFDerivAt.comp_hasDerivAt σ (hy σ)
  have hloc := poly_local A (e b) (fun σ => e (y σ)) τ h G hh hy' fun σ hσ => by
    rw [hA, ← map_add, norm_scaled]
    exact hG σ hσ.1
  have hG0 : 0 ≤ G := (size_nonneg _).trans (hG τ le_rfl)
  have hpoly : e (y τ) + poly (A : Scaled t n C →ₗ[ℝ] Scaled t n C) h (A (e (y τ)) + e b) gamma - e (y (τ + h)) =
      e (y τ + poly (systemMatrix s) h (systemMatrix s (y τ) + b) gamma - y (τ + h)) := by
    rw [map_sub, map_add, hA, ← map_add]
    unfold poly
    rw [map_sum]
    congr 2
    refine Finset.sum_congr rfl fun k _ => ?_
    rw [map_smul, ← hpow]
    rfl
  rw [hpoly, norm_scaled] at hloc
  refine hloc.trans (mul_le_mul_of_nonneg_left (mul_le_mul_of_nonneg_left ?_ hG0) hh)
  unfold excess
  rw [← mul_pow]
  have : ‖A‖ * h ≤ L * h := mul_le_mul_of_nonneg_right hnorm hh
  have : 0 ≤ ‖A‖ * h := by positivity
  gcongr

omit [Fintype C] in
/-- What a step does -/
theorem runge_step (hint : s.integrator = .rungeKutta5) {dt d : ℝ} {x x' : C × Fin n → Node ℝ t.D t.Q} (hx : integrate s dt x = .ok (x', d)) :
    populations x' = populations x + poly (systemMatrix s) dt (systemMatrix s (populations x) + systemVector s) gamma := by
  unfold integrate at hx
  cases hstep : step s dt (populations x) with
  | error e => rw [hstep] at hx; cases hx
  | ok r =>
    rw [hstep] at hx
    cases hx
    rw [populations_set]
    unfold step at hstep
    rw [hint] at hstep
    have hpro : prologue dt dt = .ok (dt, dt) := by
      by_cases h0 : dt = 0 <;> simp [prologue, h0]
    simp only [rkStep, hpro] at hstep
    cases hstep
    exact rk_formula _ _ _ _

theorem excess_nonneg {z : ℝ} (hz : 0 ≤ z) : 0 ≤ excess z := by unfold excess; positivity

/-- Differences of two flows after a step -/
theorem runge_difference (hs : Sound s) (hP : s.mesh.ByParts) (ht : t.exact = true) (hcen : s.central = false) (hp : PositiveWeights s)
    (hw : EnergyWeights s w) (hpos : ∀ i, 0 < w i) {L : ℝ} (hL0 : 0 ≤ L) (hL : RateBound s w L) {h : ℝ} (hh : 0 ≤ h) (f g : Block t n C) :
    size s w ((f + poly (systemMatrix s) h (systemMatrix s f + systemVector s) gamma) - (g + poly (systemMatrix s) h (systemMatrix s g + systemVector s) gamma)) ≤
      (1 + L * h * excess (L * h)) * size s w (f - g) := by
  obtain ⟨y, hy, hy0, -⟩ := C143_exact s hs hP ht hcen hp f
  obtain ⟨z, hz, hz0, -⟩ := C143_exact s hs hP ht hcen hp g
  have hv : ∀ τ, HasDerivAt (fun τ => y τ - z τ) (systemMatrix s (y τ - z τ)) τ := fun τ =>
    ((hy τ).sub (hz τ)).congr_deriv (by rw [map_sub]; abel)
  have hz' : ∀ τ, HasDerivAt (fun τ => systemMatrix s (y τ - z τ)) (systemMatrix s (systemMatrix s (y τ - z τ))) τ := fun τ => matrix_deriv (hv τ)
  have h1 := size_antitone hs hP ht hcen hp hw hy hv hh
  have h2 := runge_local hp hpos hL0 hL 0 (y := fun τ => y τ - z τ) (fun σ => (hv σ).congr_deriv (add_zero _).symm) (τ := 0) hh
    (G := L * size s w (f - g)) fun σ hσ => by
      rw [add_zero]
      refine (size_antitone hs hP ht hcen hp hw hy hz' hσ).trans ((hL _).trans (le_of_eq ?_))
      simp only [hy0, hz0]
  simp only [hy0, hz0, zero_add, add_zero] at h1 h2
  have hlin : (f + poly (systemMatrix s) h (systemMatrix s f + systemVector s) gamma) - (g + poly (systemMatrix s) h (systemMatrix s g + systemVector s) gamma) =
      (f - g + poly (systemMatrix s) h (systemMatrix s (f - g)) gamma - (y h - z h)) + (y h - z h) := by
    have : poly (systemMatrix s) h (systemMatrix s (f - g)) gamma =
        poly (systemMatrix s) h (systemMatrix s f + systemVector s) gamma - poly (systemMatrix s) h (systemMatrix s g + systemVector s) gamma := by
      unfold poly
      rw [← Finset.sum_sub_distrib]
      refine Finset.sum_congr rfl fun k _ => ?_
      rw [← smul_sub, ← map_sub, map_sub (systemMatrix s) f g]
      congr 2
      abel
    rw [this]
    abel
  rw [hlin]
  refine (size_add hp hw.nonneg _ _).trans ?_
  nlinarith

end SedgSolver
end NATriuM
