import Verif.Spec.ImplicitConvergence
import Verif.Props.ErrorGrowth
import Mathlib.Analysis.Calculus.MeanValue
import Mathlib.Analysis.SpecialFunctions.Exponential
import Mathlib.Topology.Algebra.Module.FiniteDimension

/-!
# Lemmas: convergence of implicit streaming
-/

namespace NATriuM
namespace SedgSolver

/-! ## Functions of one variable -/

theorem increment {f f' : ℝ → ℝ} (hf : ∀ τ, HasDerivAt f (f' τ) τ) {a b M : ℝ} (hab : a ≤ b) (hM : ∀ τ, a ≤ τ → τ ≤ b → |f' τ| ≤ M) :
    |f b - f a| ≤ M * (b - a) := by
  have := norm_image_sub_le_of_norm_deriv_le_segment' (a := a) (b := b) (C := M) (fun x _ => (hf x).hasDerivWithinAt)
    (fun x hx => by rw [Real.norm_eq_abs]; exact hM x hx.1 hx.2.le) b ⟨hab, le_rfl⟩
  rwa [Real.norm_eq_abs] at this

/-- The local error of the theta method -/
theorem local_first {f f' f'' : ℝ → ℝ} (hf : ∀ τ, HasDerivAt f (f' τ) τ) (hf' : ∀ τ, HasDerivAt f' (f'' τ) τ) {a h M θ : ℝ} (hh : 0 ≤ h)
    (h0 : 0 ≤ θ) (h1 : θ ≤ 1) (hM : ∀ τ, a ≤ τ → |f'' τ| ≤ M) :
    |f (a + h) - f a - h * (θ * f' (a + h) + (1 - θ) * f' a)| ≤ M * h ^ 2 := by
  have hM0 : 0 ≤ M := (abs_nonneg _).trans (hM a le_rfl)
  let g : ℝ → ℝ := fun τ => f τ - τ * (θ * f' (a + h) + (1 - θ) * f' a)
  have hg : ∀ τ, HasDerivAt g (f' τ - (θ * f' (a + h) + (1 - θ) * f' a)) τ := fun τ => by
    refine ((hf τ).sub ((hasDerivAt_id τ).mul_const _)).congr_deriv ?_
    ring
  have hb : ∀ τ, a ≤ τ → τ ≤ a + h → |f' τ - (θ * f' (a + h) + (1 - θ) * f' a)| ≤ M * h := by
    intro τ h2 h3
    have e1 := increment hf' h3 (fun σ hσ _ => hM σ (h2.trans hσ))
    have e2 := increment hf' h2 (fun σ hσ _ => hM σ hσ)
    have e1' : |f' (a + h) - f' τ| ≤ M * h := e1.trans (mul_le_mul_of_nonneg_left (by linarith) hM0)
    have e2' : |f' τ - f' a| ≤ M * h := e2.trans (mul_le_mul_of_nonneg_left (by linarith) hM0)
    rw [abs_le] at *
    constructor <;> nlinarith
  have := increment hg (by linarith : a ≤ a + h) hb
  calc _ = |g (a + h) - g a| := by congr 1; simp only [g]; ring
    _ ≤ _ := this
    _ = _ := by ring

/-- The local error of the Crank-Nicolson method -/
theorem local_second {f f' f'' f''' : ℝ → ℝ} (hf : ∀ τ, HasDerivAt f (f' τ) τ) (hf' : ∀ τ, HasDerivAt f' (f'' τ) τ)
    (hf'' : ∀ τ, HasDerivAt f'' (f''' τ) τ) {a h M : ℝ} (hh : 0 ≤ h) (hM : ∀ τ, a ≤ τ → |f''' τ| ≤ M) :
    |f (a + h) - f a - h * (1 / 2 * f' (a + h) + (1 - 1 / 2) * f' a)| ≤ M / 2 * h ^ 3 := by
  have hM0 : 0 ≤ M := (abs_nonneg _).trans (hM a le_rfl)
  let g : ℝ → ℝ := fun τ => f τ - (τ - a) * (1 / 2 * f' τ + (1 - 1 / 2) * f' a)
  have hg : ∀ τ, HasDerivAt g (1 / 2 * (f' τ - f' a - (τ - a) * f'' τ)) τ := fun τ => by
    refine ((hf τ).sub (((hasDerivAt_id τ).sub_const a).mul (((hf' τ).const_mul (1 / 2)).add_const ((1 - 1 / 2) * f' a)))).congr_deriv ?_
    simp only [id]
    ring
  have hb : ∀ τ, a ≤ τ → τ ≤ a + h → |1 / 2 * (f' τ - f' a - (τ - a) * f'' τ)| ≤ M / 2 * h ^ 2 := by
    intro τ h2 h3
    have hk : ∀ σ, HasDerivAt (fun σ => f' σ - σ * f'' τ) (f'' σ - f'' τ) σ := fun σ => by
      refine ((hf' σ).sub ((hasDerivAt_id σ).mul_const _)).congr_deriv ?_
      ring
    have e := increment hk h2 (M := M * h) fun σ h4 h5 => by
      rw [abs_sub_comm]
      exact (increment hf'' h5 (fun ρ hρ _ => hM ρ (h4.trans hρ))).trans (mul_le_mul_of_nonneg_left (by linarith) hM0)
    have e' : |f' τ - f' a - (τ - a) * f'' τ| ≤ M * h * h := by
      calc _ = |f' τ - τ * f'' τ - (f' a - a * f'' τ)| := by congr 1; ring
        _ ≤ M * h * (τ - a) := e
        _ ≤ _ := mul_le_mul_of_nonneg_left (by linarith) (mul_nonneg hM0 hh)
    rw [abs_mul, abs_of_pos (by norm_num : (0 : ℝ) < 1 / 2)]
    nlinarith
  have := increment hg (by linarith : a ≤ a + h) hb
  calc _ = |g (a + h) - g a| := by congr 1; simp only [g]; ring
    _ ≤ _ := this
    _ = _ := by ring

/-! ## Exact streaming -/

variable {t : StencilType} {n nQ nf nq : ℕ} {C : Type*} [DecidableEq C] [Fintype C] {s : Setup t n nQ nf nq C} {w : Fin t.Q → ℝ}

omit [DecidableEq C] in
theorem abs_inner_le (hp : PositiveWeights s) (hw : ∀ i, 0 ≤ w i) (f g : Block t n C) : |inner s w f g| ≤ size s w f * size s w g := by
  refine abs_le.2 ⟨?_, inner_le_size hp hw f g⟩
  have h := inner_le_size hp hw f ((-1 : ℝ) • g)
  rw [inner_smul, neg_one_smul, size_neg] at h
  linarith

omit [DecidableEq C] in
theorem size_le_of_inner (hp : PositiveWeights s) (hw : ∀ i, 0 ≤ w i) {f : Block t n C} {c : ℝ} (hc : 0 ≤ c)
    (h : inner s w f f ≤ size s w f * c) : size s w f ≤ c := by
  have h1 := size_sq hp hw f
  rw [energy_eq, pow_two] at h1
  by_contra hlt
  have hlt := not_le.1 hlt
  have := mul_lt_mul_of_pos_left hlt (hc.trans_lt hlt)
  linarith

/-- The inner product with a fixed block as a linear map -/
noncomputable def pairing (s : Setup t n nQ nf nq C) (w : Fin t.Q → ℝ) (f : Block t n C) : Block t n C →L[ℝ] ℝ :=
  LinearMap.toContinuousLinearMap { toFun := inner s w f, map_add' := inner_add w f, map_smul' := fun a g => inner_smul w a f g }

omit [DecidableEq C] in
theorem pairing_deriv (u : Block t n C) {y : ℝ → Block t n C} {y' : Block t n C} {τ : ℝ} (h : HasDerivAt y y' τ) :
    HasDerivAt (fun τ => inner s w u (y τ)) (inner s w u y') τ :=
  (pairing s w u).hasFDerivAt.comp_hasDerivAt τ h

theorem matrix_deriv {y : ℝ → Block t n C} {y' : Block t n C} {τ : ℝ} (h : HasDerivAt y y' τ) :
    HasDerivAt (fun τ => systemMatrix s (y τ)) (systemMatrix s y') τ :=
  (LinearMap.toContinuousLinearMap (systemMatrix s)).hasFDerivAt.comp_hasDerivAt τ h

/-- Values that are streamed without walls do not grow. -/
theorem size_antitone (hs : Sound s) (hP : s.mesh.ByParts) (ht : t.exact = true) (hcen : s.central = false) (hp : PositiveWeights s)
    (hw : EnergyWeights s w) {y v : ℝ → Block t n C} (hy : Streams s y) (hv : ∀ τ, HasDerivAt v (systemMatrix s (v τ)) τ) {σ τ : ℝ} (h : σ ≤ τ) :
    size s w (v τ) ≤ size s w (v σ) := by
  have := C136_exact hs hP ht hcen hp hw (y := fun τ => y τ + v τ) (z := y)
    (fun τ => ((hy τ).add (hv τ)).congr_deriv (by rw [map_add]; abel)) hy
  have := this h
  simp only [add_sub_cancel_left] at this
  exact Real.sqrt_le_sqrt this

/-- The error with which exactly streamed values fulfil the equation of the theta method -/
noncomputable def truncation (s : Setup t n nQ nf nq C) (θ h : ℝ) (f g : Block t n C) : Block t n C :=
  g - f - h • (systemMatrix s (θ • g + (1 - θ) • f) + systemVector s)

theorem inner_truncation (u : Block t n C) (θ h : ℝ) (f g : Block t n C) : inner s w u (truncation s θ h f g) = inner s w u g - inner s w u f -
    h * (θ * inner s w u (systemMatrix s g + systemVector s) + (1 - θ) * inner s w u (systemMatrix s f + systemVector s)) := by
  have : truncation s θ h f g = g + (-1 : ℝ) • f + (-h) • (θ • (systemMatrix s g + systemVector s) + (1 - θ) • (systemMatrix s f + systemVector s)) := by
    unfold truncation
    simp only [map_add, map_smul]
    module
  rw [this, inner_add, inner_add, inner_smul, inner_smul, inner_add, inner_smul, inner_smul]
  ring

theorem velocity_deriv {y : ℝ → Block t n C} (hy : Streams s y) (τ : ℝ) :
    HasDerivAt (fun τ => systemMatrix s (y τ) + systemVector s) (systemMatrix s (systemMatrix s (y τ) + systemVector s)) τ :=
  (matrix_deriv (hy τ)).add_const _

theorem truncation_first (hs : Sound s) (hP : s.mesh.ByParts) (ht : t.exact = true) (hcen : s.central = false) (hp : PositiveWeights s)
    (hw : EnergyWeights s w) {y : ℝ → Block t n C} (hy : Streams s y) {θ h τ : ℝ} (h0 : 0 ≤ θ) (h1 : θ ≤ 1) (hh : 0 ≤ h) (hτ : 0 ≤ τ) :
    size s w (truncation s θ h (y τ) (y (τ + h))) ≤ size s w (systemMatrix s (systemMatrix s (y 0) + systemVector s)) * h ^ 2 := by
  set u := truncation s θ h (y τ) (y (τ + h)) with hu
  set m := size s w (systemMatrix s (systemMatrix s (y 0) + systemVector s)) with hm
  refine size_le_of_inner hp hw.nonneg (mul_nonneg (size_nonneg _) (sq_nonneg h)) ?_
  have := local_first (M := size s w u * m) (fun σ => pairing_deriv (s := s) (w := w) u (hy σ)) (fun σ => pairing_deriv (s := s) (w := w) u (velocity_deriv hy σ))
    (a := τ) hh h0 h1 fun σ hσ => (abs_inner_le hp hw.nonneg _ _).trans (mul_le_mul_of_nonneg_left
      (size_antitone hs hP ht hcen hp hw hy (v := fun σ => systemMatrix s (systemMatrix s (y σ) + systemVector s)) (fun σ => matrix_deriv (velocity_deriv hy σ))
        (hτ.trans hσ)) (size_nonneg u))
  rw [← inner_truncation, ← hu] at this
  have := (le_abs_self _).trans this
  linarith

theorem truncation_second (hs : Sound s) (hP : s.mesh.ByParts) (ht : t.exact = true) (hcen : s.central = false) (hp : PositiveWeights s)
    (hw : EnergyWeights s w) {y : ℝ → Block t n C} (hy : Streams s y) {h τ : ℝ} (hh : 0 ≤ h) (hτ : 0 ≤ τ) :
    size s w (truncation s (1 / 2) h (y τ) (y (τ + h))) ≤
      size s w (systemMatrix s (systemMatrix s (systemMatrix s (y 0) + systemVector s))) / 2 * h ^ 3 := by
  set u := truncation s (1 / 2) h (y τ) (y (τ + h)) with hu
  set m := size s w (systemMatrix s (systemMatrix s (systemMatrix s (y 0) + systemVector s))) with hm
  have hm0 : 0 ≤ m := size_nonneg _
  refine size_le_of_inner hp hw.nonneg (by positivity) ?_
  have := local_second (M := size s w u * m) (fun σ => pairing_deriv (s := s) (w := w) u (hy σ)) (fun σ => pairing_deriv (s := s) (w := w) u (velocity_deriv hy σ))
    (fun σ => pairing_deriv (s := s) (w := w) u (matrix_deriv (velocity_deriv hy σ)))
    (a := τ) hh fun σ hσ => (abs_inner_le hp hw.nonneg _ _).trans (mul_le_mul_of_nonneg_left
      (size_antitone hs hP ht hcen hp hw hy (v := fun σ => systemMatrix s (systemMatrix s (systemMatrix s (y σ) + systemVector s)))
        (fun σ => matrix_deriv (matrix_deriv (velocity_deriv hy σ))) (hτ.trans hσ)) (size_nonneg u))
  rw [← inner_truncation, ← hu] at this
  have := (le_abs_self _).trans this
  linarith

theorem time_nonneg {dt : ℕ → ℝ} (hdt : ∀ k, 0 ≤ dt k) (k : ℕ) : 0 ≤ time dt k := Finset.sum_nonneg fun j _ => hdt j

theorem time_succ (dt : ℕ → ℝ) (k : ℕ) : time dt (k + 1) = time dt k + dt k := Finset.sum_range_succ _ _

omit [DecidableEq C] in
theorem size_zero : size s w (0 : Block t n C) = 0 := by
  rw [← smul_zero (0 : ℝ)]; unfold size; rw [energy_smul]; simp

omit [Fintype C] in
theorem defect_streams (y : ℝ → Block t n C) (θ : ℝ) (dt : ℕ → ℝ) :
    Defect s θ dt (fun k => y (time dt k)) fun k => truncation s θ (dt k) (y (time dt k)) (y (time dt k + dt k)) := fun k => by
  simp only [time_succ]
  exact (add_sub_cancel _ _).symm

end SedgSolver
end NATriuM
