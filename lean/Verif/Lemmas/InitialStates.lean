import Verif.Model.InitialStates
import Verif.Spec.InitialStates
import Verif.Lemmas.MeshTransform
import Mathlib.Analysis.Complex.ExponentialBounds

/-!
# Lemmas: initial states
-/

namespace NATriuM

namespace InitialStates

open Real MeshTransform

/-! ## Smoothed jumps -/

theorem profile_eq {l r : ℝ} (h : l ≠ r) (s o x : ℝ) :
    profile l r s o x = (l + r) / 2 + (r - l) / 2 * Real.tanh (s * (x - o)) := by
  have : r - l ≠ 0 := sub_ne_zero.2 h.symm
  unfold profile calcOffsets
  field_simp
  ring

theorem profile_between {l r : ℝ} (h : l ≠ r) (s o x : ℝ) : min l r < profile l r s o x ∧ profile l r s o x < max l r := by
  rw [profile_eq h]
  have h1 := Real.tanh_lt_one (s * (x - o))
  have h2 := Real.neg_one_lt_tanh (s * (x - o))
  rcases lt_or_gt_of_ne h with hl | hl
  · rw [min_eq_left hl.le, max_eq_right hl.le]
    constructor <;> nlinarith
  · rw [min_eq_right hl.le, max_eq_left hl.le]
    constructor <;> nlinarith

theorem profile_pos {l r : ℝ} (h : l ≠ r) (hl : 0 < l) (hr : 0 < r) (s o x : ℝ) : 0 < profile l r s o x :=
  (lt_min hl hr).trans (profile_between h s o x).1

theorem profile_strictAnti {l r s : ℝ} (h : r < l) (hs : 0 < s) (o : ℝ) : StrictAnti (profile l r s o) := by
  intro x y hxy
  rw [profile_eq h.ne', profile_eq h.ne']
  have := tanh_strictMono (show s * (x - o) < s * (y - o) by nlinarith)
  nlinarith

theorem profile_middle {l r : ℝ} (h : l ≠ r) (s o : ℝ) : profile l r s o o = (l + r) / 2 := by
  rw [profile_eq h, sub_self, mul_zero, Real.tanh_zero]; ring

theorem one_sub_tanh_le (z : ℝ) : 1 - Real.tanh z ≤ 2 * exp (-2 * z) := by
  rw [Real.tanh_eq]
  have h1 := Real.exp_pos z
  have h2 := Real.exp_pos (-z)
  have h3 : exp (-2 * z) * exp z = exp (-z) := by rw [← Real.exp_add]; congr 1; ring
  rw [sub_le_iff_le_add, ← sub_le_iff_le_add', le_div_iff₀ (by positivity)]
  nlinarith [mul_pos (Real.exp_pos (-2 * z)) h2]

/-- At the distance `δ` from the jump the value differs from the one on that side by at most `|r - l| e^(-2sδ)`. -/
theorem profile_left {l r s o x δ : ℝ} (h : l ≠ r) (hs : 0 < s) (hx : x ≤ o - δ) :
    |profile l r s o x - l| ≤ |r - l| * exp (-2 * (s * δ)) := by
  rw [profile_eq h, show (l + r) / 2 + (r - l) / 2 * Real.tanh (s * (x - o)) - l =
    (r - l) * ((1 + Real.tanh (s * (x - o))) / 2) by ring, abs_mul]
  refine mul_le_mul_of_nonneg_left ?_ (abs_nonneg _)
  have h2 := Real.neg_one_lt_tanh (s * (x - o))
  rw [abs_of_pos (by linarith)]
  have h3 := tanh_strictMono.monotone (show s * (x - o) ≤ -(s * δ) by nlinarith)
  rw [Real.tanh_neg] at h3
  linarith [one_sub_tanh_le (s * δ)]

theorem profile_right {l r s o x δ : ℝ} (h : l ≠ r) (hs : 0 < s) (hx : o + δ ≤ x) :
    |profile l r s o x - r| ≤ |r - l| * exp (-2 * (s * δ)) := by
  rw [profile_eq h, show (l + r) / 2 + (r - l) / 2 * Real.tanh (s * (x - o)) - r =
    (r - l) * (-((1 - Real.tanh (s * (x - o))) / 2)) by ring, abs_mul, abs_neg]
  refine mul_le_mul_of_nonneg_left ?_ (abs_nonneg _)
  have h2 := Real.tanh_lt_one (s * (x - o))
  rw [abs_of_pos (by linarith)]
  have h3 := tanh_strictMono.monotone (show s * δ ≤ s * (x - o) by nlinarith)
  linarith [one_sub_tanh_le (s * δ)]

/-! ## The vortex -/

namespace ShockVortex

theorem density_ne : densityLeft ≠ densityRight := by norm_num [densityLeft, densityRight]

theorem temperature_ne : temperatureLeft ≠ temperatureRight := by norm_num [temperatureLeft, temperatureRight]

theorem shockSteepness_pos : 0 < shockSteepness := by norm_num [shockSteepness]

theorem vortexFactor_pos {maV : ℝ} (h : maV ^ 2 ≤ 1.8) (r : ℝ) : 0 < vortexFactor maV r := by
  have h1 : exp (1 - r * r) ≤ exp 1 := Real.exp_le_exp.2 (by nlinarith [mul_self_nonneg r])
  have h2 := Real.exp_one_lt_d9
  have h3 := Real.exp_pos (1 - r * r)
  have h4 : maV * maV * exp (1 - r * r) ≤ 1.8 * 2.7182818286 := by
    have : maV * maV ≤ 1.8 := by nlinarith
    exact mul_le_mul this (h1.trans h2.le) h3.le (by norm_num)
  unfold vortexFactor
  rw [show (1.4 - 1) / 2 * maV * maV * exp (1 - r * r) = 0.2 * (maV * maV * exp (1 - r * r)) by ring]
  linarith

theorem temperature_pos {maV : ℝ} (h : maV ^ 2 ≤ 1.8) (x : ℝ × ℝ) : 0 < temperature maV x := by
  have hp := profile_pos temperature_ne (show 0 < temperatureLeft by norm_num [temperatureLeft])
    (show 0 < temperatureRight by norm_num [temperatureRight]) shockSteepness shockPosition x.1
  unfold temperature
  split_ifs
  · exact mul_pos hp (vortexFactor_pos h _)
  · exact hp

theorem radius_centre : radius (32, 12) = 0 := by
  unfold radius rel shockPosition vortexOffset
  rw [show ((32 : ℝ) - (30 + 2)) * (32 - (30 + 2)) + (12 - 12) * (12 - 12) = 0 by norm_num, Real.sqrt_zero]

theorem radius_eq_zero {x : ℝ × ℝ} (h : radius x = 0) : x = (32, 12) := by
  unfold radius rel shockPosition vortexOffset at h
  have h2 := (Real.sqrt_eq_zero (by nlinarith [mul_self_nonneg (x.1 - (30 + 2)), mul_self_nonneg (x.2 - 12)])).1 h
  have h3 : x.1 - (30 + 2) = 0 := by nlinarith [mul_self_nonneg (x.1 - (30 + 2)), mul_self_nonneg (x.2 - 12)]
  have h4 : x.2 - 12 = 0 := by nlinarith [mul_self_nonneg (x.1 - (30 + 2)), mul_self_nonneg (x.2 - 12)]
  exact Prod.ext (by simp only; linarith) (by simp only; linarith)

theorem five_lt_radius {x : ℝ × ℝ} (h : x.1 < 27 ∨ 37 < x.1) : ¬ radius x ≤ 5 := by
  unfold radius rel shockPosition vortexOffset
  rw [not_le, Real.lt_sqrt (by norm_num)]
  rcases h with h | h <;> nlinarith [mul_self_nonneg (x.2 - 12)]

end ShockVortex

/-! ## Sums of waves -/

theorem hasDerivAt_list_sum {ι : Type*} (l : List ι) (f : ι → ℝ → ℝ) (f' : ι → ℝ) (x : ℝ) (h : ∀ i ∈ l, HasDerivAt (f i) (f' i) x) :
    HasDerivAt (fun t => (l.map fun i => f i t).sum) ((l.map f').sum) x := by
  induction l with
  | nil => simpa using hasDerivAt_const x (0 : ℝ)
  | cons i l ih =>
    simp only [List.map_cons, List.sum_cons]
    exact (h i (List.mem_cons_self ..)).add (ih fun j hj => h j (List.mem_cons_of_mem _ hj))

theorem Wave.sine_x (w : Wave) (x y : ℝ) :
    HasDerivAt (fun t => w.sine t y) (2 * π * w.n * cos (2 * π * w.n * x + 2 * π * w.m * y)) x := by
  have h1 : HasDerivAt (fun t : ℝ => 2 * π * w.n * t + 2 * π * w.m * y) (2 * π * w.n) x := by
    simpa using ((hasDerivAt_id x).const_mul (2 * π * w.n)).add_const (2 * π * w.m * y)
  exact h1.sin.congr_deriv (by ring)

theorem Wave.sine_y (w : Wave) (x y : ℝ) :
    HasDerivAt (fun t => w.sine x t) (2 * π * w.m * cos (2 * π * w.n * x + 2 * π * w.m * y)) y := by
  have h1 : HasDerivAt (fun t : ℝ => 2 * π * w.n * x + 2 * π * w.m * t) (2 * π * w.m) y := by
    simpa using ((hasDerivAt_id y).const_mul (2 * π * w.m)).const_add (2 * π * w.n * x)
  exact h1.sin.congr_deriv (by ring)

theorem sum_eq_neg {ι : Type*} (l : List ι) (f g : ι → ℝ) (h : ∀ i ∈ l, f i + g i = 0) : (l.map f).sum + (l.map g).sum = 0 := by
  induction l with
  | nil => simp
  | cons i l ih =>
    simp only [List.map_cons, List.sum_cons]
    have h1 := h i (List.mem_cons_self ..)
    have h2 := ih fun j hj => h j (List.mem_cons_of_mem _ hj)
    linarith

/-! ## The density wave -/

theorem smoothDensity_t (L U t : ℝ) (x : ℝ × ℝ) : HasDerivAt (fun s => smoothDensity L U s x)
    (0.2 * (cos (2 * π * x.1 / L - 2 * π * U * t) * (-(2 * π * U)) * sin (x.2 * (2 * π) / L))) t := by
  have h1 : HasDerivAt (fun s : ℝ => 2 * π * x.1 / L - 2 * π * U * s) (-(2 * π * U)) t := by
    simpa using ((hasDerivAt_id t).const_mul (2 * π * U)).const_sub (2 * π * x.1 / L)
  exact ((h1.sin.mul_const _).const_mul 0.2).const_add 1

theorem smoothDensity_x (L U t : ℝ) (x : ℝ × ℝ) : HasDerivAt (fun s => smoothDensity L U t (s, x.2))
    (0.2 * (cos (2 * π * x.1 / L - 2 * π * U * t) * (2 * π / L) * sin (x.2 * (2 * π) / L))) x.1 := by
  have h1 : HasDerivAt (fun s : ℝ => 2 * π * s / L - 2 * π * U * t) (2 * π / L) x.1 := by
    simpa using (((hasDerivAt_id x.1).const_mul (2 * π)).div_const L).sub_const (2 * π * U * t)
  exact ((h1.sin.mul_const (sin (x.2 * (2 * π) / L))).const_mul 0.2).const_add 1

end InitialStates

end NATriuM
