import Verif.Lemmas.TimeIntegration
import Verif.Spec.Convergence
import Mathlib.Analysis.Calculus.MeanValue
import Mathlib.Analysis.Calculus.Deriv.Pow
import Mathlib.Analysis.Calculus.Deriv.Add
import Mathlib.Analysis.Calculus.Deriv.Shift
import Mathlib.Analysis.SpecialFunctions.Exp
import Mathlib.Analysis.Normed.Operator.Basic
import Mathlib.Tactic.Positivity
import Mathlib.Tactic.GCongr

/-!
# Auxiliary facts for the order of the time integrators
-/

namespace NATriuM

namespace TimeIntegration

open Set

variable {E : Type*} [NormedAddCommGroup E] [NormedSpace ℝ E]

/-- the Taylor polynomial of the increment of a solution -/
noncomputable def taylor (A : E →L[ℝ] E) (g : E) (m : ℕ) (s : ℝ) : E :=
  ∑ k ∈ Finset.range m, (s ^ (k + 1) / (Nat.factorial (k + 1) : ℝ)) • ((A : E →ₗ[ℝ] E) ^ k) g

lemma hasDerivAt_monomial (k : ℕ) (s : ℝ) :
    HasDerivAt (fun s : ℝ => s ^ (k + 1) / (Nat.factorial (k + 1) : ℝ)) (s ^ k / (Nat.factorial k : ℝ)) s := by
  have h := (hasDerivAt_pow (k + 1) s).div_const (Nat.factorial (k + 1) : ℝ)
  refine h.congr_deriv ?_
  rw [Nat.factorial_succ]
  push_cast
  have : (Nat.factorial k : ℝ) ≠ 0 := by positivity
  have : ((k : ℝ) + 1) ≠ 0 := by positivity
  field_simp

lemma hasDerivAt_taylor (A : E →L[ℝ] E) (g : E) (m : ℕ) (s : ℝ) :
    HasDerivAt (taylor A g (m + 1)) (g + A (taylor A g m s)) s := by
  have h : HasDerivAt (fun s : ℝ => ∑ k ∈ Finset.range (m + 1), (s ^ (k + 1) / (Nat.factorial (k + 1) : ℝ)) • ((A : E →ₗ[ℝ] E) ^ k) g)
      (∑ k ∈ Finset.range (m + 1), (s ^ k / (Nat.factorial k : ℝ)) • ((A : E →ₗ[ℝ] E) ^ k) g) s :=
    HasDerivAt.fun_sum fun k _ => (hasDerivAt_monomial k s).smul_const _
  refine HasDerivAt.congr_deriv (f := taylor A g (m + 1)) h ?_
  rw [Finset.sum_range_succ']
  simp only [pow_zero, Nat.factorial_zero, Nat.cast_one, div_one, one_smul, Module.End.one_apply]
  rw [add_comm g, taylor, map_sum]
  congr 1
  refine Finset.sum_congr rfl fun k _ => ?_
  rw [map_smul, pow_succ' (A : E →ₗ[ℝ] E), Module.End.mul_apply]
  rfl

/-- Taylor's theorem for a solution of `y' = A y + b`. -/
lemma taylor_bound (A : E →L[ℝ] E) (b : E) (y : ℝ → E) (t H G : ℝ) (hy : ∀ s, HasDerivAt y (A (y s) + b) s)
    (hG : ∀ s ∈ Icc t (t + H), ‖A (y s) + b‖ ≤ G) (m : ℕ) :
    ∀ s ∈ Icc 0 H, ‖y (t + s) - y t - taylor A (A (y t) + b) m s‖ ≤ ‖A‖ ^ m * G * (s ^ (m + 1) / (Nat.factorial (m + 1) : ℝ)) := by
  have hy' : ∀ s, HasDerivAt (fun s => y (t + s)) (A (y (t + s)) + b) s := fun s => by
    simpa using (hy (t + s)).comp_const_add t s
  have hB : ∀ s : ℝ, HasDerivAt (fun s : ℝ => ‖A‖ ^ m * G * (s ^ (m + 1) / (Nat.factorial (m + 1) : ℝ)))
      (‖A‖ ^ m * G * (s ^ m / (Nat.factorial m : ℝ))) s := fun s => (hasDerivAt_monomial m s).const_mul _
  induction m with
  | zero =>
    have hd : ∀ s, HasDerivAt (fun s => y (t + s) - y t - taylor A (A (y t) + b) 0 s) (A (y (t + s)) + b) s := by
      intro s
      have : (fun s => y (t + s) - y t - taylor A (A (y t) + b) 0 s) = fun s => y (t + s) - y t := by
        funext s; simp [taylor]
      rw [this]
      exact (hy' s).sub_const _
    refine image_norm_le_of_norm_deriv_right_le_deriv_boundary (fun x _ => (hd x).continuousAt.continuousWithinAt)
      (fun x _ => (hd x).hasDerivWithinAt) ?_ hB ?_
    · simp [taylor]
    · intro x hx
      simpa using hG (t + x) ⟨by linarith [hx.1], by linarith [hx.2]⟩
  | succ m ih =>
    have ih := ih fun s => (hasDerivAt_monomial m s).const_mul _
    have hd : ∀ s, HasDerivAt (fun s => y (t + s) - y t - taylor A (A (y t) + b) (m + 1) s)
        (A (y (t + s) - y t - taylor A (A (y t) + b) m s)) s := by
      intro s
      have h := ((hy' s).sub_const (y t)).sub (hasDerivAt_taylor A (A (y t) + b) m s)
      refine h.congr_deriv ?_
      simp only [map_sub]
      abel
    refine image_norm_le_of_norm_deriv_right_le_deriv_boundary (fun x _ => (hd x).continuousAt.continuousWithinAt)
      (fun x _ => (hd x).hasDerivWithinAt) ?_ hB ?_
    · simp [taylor]
    · intro x hx
      refine (A.le_opNorm _).trans ?_
      refine (mul_le_mul_of_nonneg_left (ih x ⟨hx.1, hx.2.le⟩) (norm_nonneg A)).trans (le_of_eq ?_)
      ring

/-- one step from an error `e` to the next: accumulated over `n` steps -/
lemma accumulate (e : ℕ → ℝ) (q d : ℝ) (N : ℕ) (hq : 1 ≤ q) (hd : 0 ≤ d) (h0 : e 0 ≤ 0) (h : ∀ n < N, e (n + 1) ≤ q * e n + d) :
    e N ≤ N * q ^ N * d := by
  induction N with
  | zero => simpa using h0
  | succ N ih =>
    have ih := ih fun n hn => h n (by omega)
    have hN := h N (by omega)
    have : (1 : ℝ) ≤ q ^ (N + 1) := one_le_pow₀ hq
    calc e (N + 1) ≤ q * e N + d := hN
      _ ≤ q * (N * q ^ N * d) + d := by gcongr
      _ = N * q ^ (N + 1) * d + 1 * d := by ring
      _ ≤ N * q ^ (N + 1) * d + q ^ (N + 1) * d := by gcongr
      _ = ((N + 1 : ℕ) : ℝ) * q ^ (N + 1) * d := by push_cast; ring

lemma norm_pow_apply_le (A : E →L[ℝ] E) (k : ℕ) (x : E) : ‖((A : E →ₗ[ℝ] E) ^ k) x‖ ≤ ‖A‖ ^ k * ‖x‖ := by
  induction k with
  | zero => simp
  | succ k ih =>
    rw [pow_succ', Module.End.mul_apply]
    refine (A.le_opNorm _).trans ?_
    refine (mul_le_mul_of_nonneg_left ih (norm_nonneg A)).trans (le_of_eq ?_)
    ring

lemma gamma_growth : ∀ k : Fin 5, |gamma k| ≤ (1 + 1 / 10 ^ 24) ^ ((k : ℕ) + 1) / (Nat.factorial ((k : ℕ) + 1) : ℚ) := by
  decide +kernel

lemma gamma_last : |gamma 4| ≤ 1 / 190 := by decide +kernel

/-- the step of the Runge-Kutta method does not move two states apart by more than the exact flow, but for the rounding of its
coefficients -/
lemma poly_growth (A : E →L[ℝ] E) (b : E) (h : ℝ) (hh : 0 ≤ h) (x y : E) :
    ‖(x + poly (A : E →ₗ[ℝ] E) h (A x + b) gamma) - (y + poly (A : E →ₗ[ℝ] E) h (A y + b) gamma)‖ ≤
      Real.exp ((1 + 1 / 10 ^ 24) * (‖A‖ * h)) * ‖x - y‖ := by
  have e : (x + poly (A : E →ₗ[ℝ] E) h (A x + b) gamma) - (y + poly (A : E →ₗ[ℝ] E) h (A y + b) gamma) =
      (x - y) + ∑ k : Fin 5, ((gamma k : ℝ) * h ^ ((k : ℕ) + 1)) • ((A : E →ₗ[ℝ] E) ^ ((k : ℕ) + 1)) (x - y) := by
    have : ∀ k : ℕ, ((A : E →ₗ[ℝ] E) ^ (k + 1)) (x - y) = ((A : E →ₗ[ℝ] E) ^ k) (A x + b) - ((A : E →ₗ[ℝ] E) ^ k) (A y + b) := by
      intro k
      rw [pow_succ, Module.End.mul_apply, ← map_sub]
      congr 1
      simp
    simp only [poly, this, smul_sub, Finset.sum_sub_distrib]
    abel
  rw [e]
  have hk : ∀ k : Fin 5, ‖((gamma k : ℝ) * h ^ ((k : ℕ) + 1)) • ((A : E →ₗ[ℝ] E) ^ ((k : ℕ) + 1)) (x - y)‖ ≤
      ((1 + 1 / 10 ^ 24) * (‖A‖ * h)) ^ ((k : ℕ) + 1) / (Nat.factorial ((k : ℕ) + 1) : ℝ) * ‖x - y‖ := by
    intro k
    have hg : |(gamma k : ℝ)| ≤ (1 + 1 / 10 ^ 24) ^ ((k : ℕ) + 1) / (Nat.factorial ((k : ℕ) + 1) : ℝ) := by
      have := (Rat.cast_le (K := ℝ)).2 (gamma_growth k)
      push_cast at this
      exact this
    rw [norm_smul, Real.norm_eq_abs, abs_mul, abs_of_nonneg (pow_nonneg hh _)]
    calc |(gamma k : ℝ)| * h ^ ((k : ℕ) + 1) * ‖((A : E →ₗ[ℝ] E) ^ ((k : ℕ) + 1)) (x - y)‖
        ≤ ((1 + 1 / 10 ^ 24) ^ ((k : ℕ) + 1) / (Nat.factorial ((k : ℕ) + 1) : ℝ)) * h ^ ((k : ℕ) + 1) *
            (‖A‖ ^ ((k : ℕ) + 1) * ‖x - y‖) := by
          gcongr
          exact norm_pow_apply_le A _ _
      _ = _ := by rw [mul_pow, mul_pow]; ring
  have hz : 0 ≤ (1 + 1 / 10 ^ 24) * (‖A‖ * h) := by positivity
  have hexp := Real.sum_le_exp_of_nonneg hz 6
  calc ‖(x - y) + ∑ k : Fin 5, ((gamma k : ℝ) * h ^ ((k : ℕ) + 1)) • ((A : E →ₗ[ℝ] E) ^ ((k : ℕ) + 1)) (x - y)‖
      ≤ ‖x - y‖ + ∑ k : Fin 5, ((1 + 1 / 10 ^ 24) * (‖A‖ * h)) ^ ((k : ℕ) + 1) / (Nat.factorial ((k : ℕ) + 1) : ℝ) * ‖x - y‖ :=
        (norm_add_le _ _).trans (add_le_add le_rfl ((norm_sum_le _ _).trans (Finset.sum_le_sum fun k _ => hk k)))
    _ = (∑ k ∈ Finset.range 6, ((1 + 1 / 10 ^ 24) * (‖A‖ * h)) ^ k / (Nat.factorial k : ℝ)) * ‖x - y‖ := by
        generalize (1 + 1 / 10 ^ 24) * (‖A‖ * h) = z
        rw [← Finset.sum_mul, Finset.sum_range_succ', Finset.sum_range]
        simp only [pow_zero, Nat.factorial_zero, Nat.cast_one, div_one]
        ring
    _ ≤ _ := by gcongr

/-- the error of one step of the Runge-Kutta method from a point of a solution -/
lemma poly_local (A : E →L[ℝ] E) (b : E) (y : ℝ → E) (t h G : ℝ) (hh : 0 ≤ h) (hy : ∀ s, HasDerivAt y (A (y s) + b) s)
    (hG : ∀ s ∈ Icc t (t + h), ‖A (y s) + b‖ ≤ G) :
    ‖y t + poly (A : E →ₗ[ℝ] E) h (A (y t) + b) gamma - y (t + h)‖ ≤
      h * (G * (‖A‖ ^ 4 * h ^ 4 / 70 + (1 + ‖A‖ * h) ^ 3 / 10 ^ 25)) := by
  have hT := taylor_bound A b y t h G hy hG 4 h ⟨hh, le_rfl⟩
  have hg : ‖A (y t) + b‖ ≤ G := hG t ⟨le_rfl, by linarith⟩
  have hG0 : 0 ≤ G := (norm_nonneg _).trans hg
  generalize A (y t) + b = g at hT hg
  have e : y t + poly (A : E →ₗ[ℝ] E) h g gamma - y (t + h) =
      (∑ k : Fin 4, (((gamma k.castSucc : ℝ) - 1 / (Nat.factorial ((k : ℕ) + 1) : ℝ)) * h ^ ((k : ℕ) + 1)) • ((A : E →ₗ[ℝ] E) ^ (k : ℕ)) g) +
        ((gamma 4 : ℝ) * h ^ 5) • ((A : E →ₗ[ℝ] E) ^ 4) g - (y (t + h) - y t - taylor A g 4 h) := by
    have h1 : poly (A : E →ₗ[ℝ] E) h g gamma =
        (∑ k : Fin 4, ((gamma k.castSucc : ℝ) * h ^ ((k : ℕ) + 1)) • ((A : E →ₗ[ℝ] E) ^ (k : ℕ)) g) +
          ((gamma 4 : ℝ) * h ^ 5) • ((A : E →ₗ[ℝ] E) ^ 4) g := by
      rw [poly, Fin.sum_univ_castSucc]
      rfl
    have h2 : taylor A g 4 h = ∑ k : Fin 4, (h ^ ((k : ℕ) + 1) / (Nat.factorial ((k : ℕ) + 1) : ℝ)) • ((A : E →ₗ[ℝ] E) ^ (k : ℕ)) g := by
      rw [taylor, Finset.sum_range]
    have h3 : ∀ k : Fin 4, (((gamma k.castSucc : ℝ) - 1 / (Nat.factorial ((k : ℕ) + 1) : ℝ)) * h ^ ((k : ℕ) + 1)) • ((A : E →ₗ[ℝ] E) ^ (k : ℕ)) g =
        ((gamma k.castSucc : ℝ) * h ^ ((k : ℕ) + 1)) • ((A : E →ₗ[ℝ] E) ^ (k : ℕ)) g -
          (h ^ ((k : ℕ) + 1) / (Nat.factorial ((k : ℕ) + 1) : ℝ)) • ((A : E →ₗ[ℝ] E) ^ (k : ℕ)) g := by
      intro k
      rw [← sub_smul]
      congr 1
      ring
    rw [Finset.sum_congr rfl fun k _ => h3 k, Finset.sum_sub_distrib, h1, ← h2]
    abel
  rw [e]
  have hk : ∀ k : Fin 4, ‖(((gamma k.castSucc : ℝ) - 1 / (Nat.factorial ((k : ℕ) + 1) : ℝ)) * h ^ ((k : ℕ) + 1)) • ((A : E →ₗ[ℝ] E) ^ (k : ℕ)) g‖ ≤
      h * (‖A‖ * h) ^ (k : ℕ) * G / 10 ^ 25 := by
    intro k
    have hc : |(gamma k.castSucc : ℝ) - 1 / (Nat.factorial ((k : ℕ) + 1) : ℝ)| ≤ 1 / 10 ^ 25 := by
      have := (Rat.cast_le (K := ℝ)).2 (gamma_bounds.1 k.castSucc (by revert k; decide))
      push_cast at this
      exact this
    rw [norm_smul, Real.norm_eq_abs, abs_mul, abs_of_nonneg (pow_nonneg hh _)]
    calc |(gamma k.castSucc : ℝ) - 1 / (Nat.factorial ((k : ℕ) + 1) : ℝ)| * h ^ ((k : ℕ) + 1) * ‖((A : E →ₗ[ℝ] E) ^ (k : ℕ)) g‖
        ≤ 1 / 10 ^ 25 * h ^ ((k : ℕ) + 1) * (‖A‖ ^ (k : ℕ) * G) := by
          gcongr
          exact (norm_pow_apply_le A _ _).trans (by gcongr)
      _ = _ := by rw [mul_pow]; ring
  have h4 : ‖((gamma 4 : ℝ) * h ^ 5) • ((A : E →ₗ[ℝ] E) ^ 4) g‖ ≤ 1 / 190 * h ^ 5 * (‖A‖ ^ 4 * G) := by
    have hc : |(gamma 4 : ℝ)| ≤ 1 / 190 := by
      have := (Rat.cast_le (K := ℝ)).2 gamma_last
      push_cast at this
      exact this
    rw [norm_smul, Real.norm_eq_abs, abs_mul, abs_of_nonneg (pow_nonneg hh _)]
    gcongr
    exact (norm_pow_apply_le A _ _).trans (by gcongr)
  have hsum : ‖∑ k : Fin 4, (((gamma k.castSucc : ℝ) - 1 / (Nat.factorial ((k : ℕ) + 1) : ℝ)) * h ^ ((k : ℕ) + 1)) • ((A : E →ₗ[ℝ] E) ^ (k : ℕ)) g‖ ≤
      h * (1 + ‖A‖ * h + (‖A‖ * h) ^ 2 + (‖A‖ * h) ^ 3) * G / 10 ^ 25 := by
    refine (norm_sum_le _ _).trans ((Finset.sum_le_sum fun k _ => hk k).trans (le_of_eq ?_))
    rw [Fin.sum_univ_four]
    simp
    ring
  refine (norm_sub_le _ _).trans ((add_le_add ((norm_add_le _ _).trans (add_le_add hsum h4)) hT).trans ?_)
  have hz : 0 ≤ ‖A‖ * h := by positivity
  have hf : ((Nat.factorial (4 + 1) : ℕ) : ℝ) = 120 := by norm_num [Nat.factorial]
  rw [hf]
  have hc : 1 + ‖A‖ * h + (‖A‖ * h) ^ 2 + (‖A‖ * h) ^ 3 ≤ (1 + ‖A‖ * h) ^ 3 := by
    nlinarith [mul_nonneg hz hz]
  have h1 : h * (1 + ‖A‖ * h + (‖A‖ * h) ^ 2 + (‖A‖ * h) ^ 3) * G / 10 ^ 25 ≤ h * (1 + ‖A‖ * h) ^ 3 * G / 10 ^ 25 := by gcongr
  have h2 : 0 ≤ h ^ 5 * ‖A‖ ^ 4 * G := by positivity
  calc _ ≤ h * (1 + ‖A‖ * h) ^ 3 * G / 10 ^ 25 + 1 / 190 * h ^ 5 * (‖A‖ ^ 4 * G) + ‖A‖ ^ 4 * G * (h ^ (4 + 1) / 120) := by gcongr
    _ = h * (1 + ‖A‖ * h) ^ 3 * G / 10 ^ 25 + (1 / 190 + 1 / 120) * (h ^ 5 * ‖A‖ ^ 4 * G) := by ring
    _ ≤ h * (1 + ‖A‖ * h) ^ 3 * G / 10 ^ 25 + 1 / 70 * (h ^ 5 * ‖A‖ ^ 4 * G) := by
        have : (1 / 190 + 1 / 120 : ℝ) ≤ 1 / 70 := by norm_num
        gcongr
    _ = _ := by ring

/-- the defect of a solution in the theta scheme -/
lemma theta_local (A : E →L[ℝ] E) (b : E) (y : ℝ → E) (t h G θ : ℝ) (hh : 0 ≤ h) (hθ : 0 ≤ θ) (hy : ∀ s, HasDerivAt y (A (y s) + b) s)
    (hG : ∀ s ∈ Icc t (t + h), ‖A (y s) + b‖ ≤ G) :
    ‖y (t + h) - (y t + h • ((1 - θ) • (A (y t) + b) + θ • (A (y (t + h)) + b)))‖ ≤
      h * (G * (|1 / 2 - θ| * (‖A‖ * h) + (1 / 6 + θ / 2) * (‖A‖ * h) ^ 2)) := by
  have h1 := taylor_bound A b y t h G hy hG 1 h ⟨hh, le_rfl⟩
  have h2 := taylor_bound A b y t h G hy hG 2 h ⟨hh, le_rfl⟩
  have hg : ‖A (y t) + b‖ ≤ G := hG t ⟨le_rfl, by linarith⟩
  have hG0 : 0 ≤ G := (norm_nonneg _).trans hg
  have e : y (t + h) - (y t + h • ((1 - θ) • (A (y t) + b) + θ • (A (y (t + h)) + b))) =
      ((1 / 2 - θ) * h ^ 2) • A (A (y t) + b) + (y (t + h) - y t - taylor A (A (y t) + b) 2 h) -
        (θ * h) • A (y (t + h) - y t - taylor A (A (y t) + b) 1 h) := by
    have t1 : taylor A (A (y t) + b) 1 h = h • (A (y t) + b) := by simp [taylor]
    have t2 : taylor A (A (y t) + b) 2 h = h • (A (y t) + b) + (h ^ 2 / 2) • A (A (y t) + b) := by
      simp [taylor, Finset.sum_range_succ]
    rw [t1, t2]
    simp only [map_sub, map_add, map_smul]
    module
  rw [e]
  have f2 : ((Nat.factorial (1 + 1) : ℕ) : ℝ) = 2 := by norm_num [Nat.factorial]
  have f3 : ((Nat.factorial (2 + 1) : ℕ) : ℝ) = 6 := by norm_num [Nat.factorial]
  rw [f2] at h1
  rw [f3] at h2
  have a1 : ‖((1 / 2 - θ) * h ^ 2) • A (A (y t) + b)‖ ≤ |1 / 2 - θ| * h ^ 2 * (‖A‖ * G) := by
    rw [norm_smul, Real.norm_eq_abs, abs_mul, abs_of_nonneg (pow_nonneg hh _)]
    gcongr
    exact (A.le_opNorm _).trans (by gcongr)
  have a3 : ‖(θ * h) • A (y (t + h) - y t - taylor A (A (y t) + b) 1 h)‖ ≤ θ * h * (‖A‖ * (‖A‖ ^ 1 * G * (h ^ (1 + 1) / 2))) := by
    rw [norm_smul, Real.norm_eq_abs, abs_of_nonneg (mul_nonneg hθ hh)]
    gcongr
    exact (A.le_opNorm _).trans (by gcongr)
  refine (norm_sub_le _ _).trans ((add_le_add ((norm_add_le _ _).trans (add_le_add a1 h2)) a3).trans (le_of_eq ?_))
  ring

/-- a step of the theta scheme, up to a defect, does not move two states far apart -/
lemma theta_growth (A : E →L[ℝ] E) (θ h : ℝ) (hh : 0 ≤ h) (hθ : 0 ≤ θ) (hθ1 : θ ≤ 1) (hz : θ * (‖A‖ * h) ≤ 1 / 2) (e e' d : E)
    (h' : e' = e + h • ((1 - θ) • A e + θ • A e') + d) :
    ‖e'‖ ≤ Real.exp ((1 + θ) * (‖A‖ * h)) * ‖e‖ + 2 * ‖d‖ := by
  have hL : 0 ≤ ‖A‖ * h := by positivity
  have h1 : ‖e'‖ ≤ ‖e‖ + ((1 - θ) * (‖A‖ * h) * ‖e‖ + θ * (‖A‖ * h) * ‖e'‖) + ‖d‖ := by
    have hθ' : 0 ≤ 1 - θ := by linarith
    calc ‖e'‖ = ‖e + h • ((1 - θ) • A e + θ • A e') + d‖ := by rw [← h']
      _ ≤ ‖e‖ + ‖h • ((1 - θ) • A e + θ • A e')‖ + ‖d‖ := (norm_add_le _ _).trans (add_le_add (norm_add_le _ _) le_rfl)
      _ ≤ ‖e‖ + h * ((1 - θ) * (‖A‖ * ‖e‖) + θ * (‖A‖ * ‖e'‖)) + ‖d‖ := by
          gcongr
          rw [norm_smul, Real.norm_eq_abs, abs_of_nonneg hh]
          gcongr
          refine (norm_add_le _ _).trans ?_
          rw [norm_smul, norm_smul, Real.norm_eq_abs, Real.norm_eq_abs, abs_of_nonneg hθ, abs_of_nonneg hθ']
          gcongr
          · exact A.le_opNorm _
          · exact A.le_opNorm _
      _ = _ := by ring
  have hx : 0 ≤ θ * (‖A‖ * h) := by positivity
  have hx' : 0 ≤ (1 - θ) * (‖A‖ * h) := mul_nonneg (by linarith) hL
  generalize hxd : θ * (‖A‖ * h) = x at *
  generalize hyd : (1 - θ) * (‖A‖ * h) = w at *
  have hE : Real.exp ((1 + θ) * (‖A‖ * h)) = Real.exp w * Real.exp (2 * x) := by
    rw [← Real.exp_add, ← hxd, ← hyd]
    congr 1
    ring
  rw [hE]
  have e1 : 1 + w ≤ Real.exp w := by linarith [Real.add_one_le_exp w]
  have e2 : 1 + 2 * x ≤ Real.exp (2 * x) := by linarith [Real.add_one_le_exp (2 * x)]
  have h2 : (1 - x) * ‖e'‖ ≤ (1 + w) * ‖e‖ + ‖d‖ := by linarith
  have h3 : 1 ≤ (1 + 2 * x) * (1 - x) := by nlinarith
  have hn : 0 ≤ ‖e'‖ := norm_nonneg _
  calc ‖e'‖ = 1 * ‖e'‖ := (one_mul _).symm
    _ ≤ (1 + 2 * x) * (1 - x) * ‖e'‖ := by gcongr
    _ = (1 + 2 * x) * ((1 - x) * ‖e'‖) := by ring
    _ ≤ (1 + 2 * x) * ((1 + w) * ‖e‖ + ‖d‖) := by gcongr
    _ = (1 + w) * (1 + 2 * x) * ‖e‖ + (1 + 2 * x) * ‖d‖ := by ring
    _ ≤ Real.exp w * Real.exp (2 * x) * ‖e‖ + 2 * ‖d‖ := by
        gcongr
        linarith

lemma effective_pos (stored : ℝ) {h : ℝ} (hh : 0 < h) : effective stored h = h := by
  unfold effective; rw [if_neg hh.ne']

omit [NormedAddCommGroup E] [NormedSpace ℝ E] in
/-- the time the steps report -/
lemma steps_time {step : ℝ → E → ℝ → Except StepError (StepResult E)} {h : ℝ} {N : ℕ} {r : ℕ → StepResult E} (hr : Steps step N r)
    (ht : ∀ stored f t q, step stored f t = .ok q → q.t = t + h) (n : ℕ) (hn : n ≤ N) : (r n).t = (r 0).t + n * h := by
  induction n with
  | zero => simp
  | succ n ih =>
    rw [ht _ _ _ _ (hr n (by omega)), ih (by omega)]
    push_cast
    ring

end TimeIntegration

end NATriuM
