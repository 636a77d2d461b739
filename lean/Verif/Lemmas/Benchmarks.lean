import Verif.Spec.Benchmarks
import Mathlib.Tactic.Ring
import Mathlib.Tactic.Linarith
import Mathlib.Tactic.LinearCombination
import Mathlib.Tactic.FieldSimp
import Mathlib.Analysis.SpecialFunctions.Trigonometric.Deriv
import Mathlib.Analysis.SpecialFunctions.Trigonometric.DerivHyp
import Mathlib.Analysis.Calculus.MeanValue

/-!
# Lemmas: derivatives of the vortex
-/

namespace NATriuM
namespace Benchmarks

open Real

/-- The vortex with wave number `k`, frequency `w`, rate `a` and mean velocity `U` -/
noncomputable def vu (k w a U : ℝ) (x y t : ℝ) : ℝ := U + sin (k * x - w * t) * cos (k * y) * exp (a * t)
noncomputable def vv (k w a : ℝ) (x y t : ℝ) : ℝ := -cos (k * x - w * t) * sin (k * y) * exp (a * t)
noncomputable def vp (k w b : ℝ) (x y t : ℝ) : ℝ := 1 / 4 * (cos (2 * (k * x - w * t)) + cos (2 * (k * y))) * exp (b * t)

variable (k w a b U x y t : ℝ)

theorem h_phase_x : HasDerivAt (fun s => k * s - w * t) k x := by
  simpa using ((hasDerivAt_id x).const_mul k).sub_const (w * t)
theorem h_phase_t : HasDerivAt (fun s => k * x - w * s) (-w) t := by
  simpa using ((hasDerivAt_id t).const_mul w).const_sub (k * x)
theorem h_lin : HasDerivAt (fun s => k * s) k x := by
  simpa using (hasDerivAt_id x).const_mul k

theorem vu_x : dx (vu k w a U) x y t = k * cos (k * x - w * t) * cos (k * y) * exp (a * t) := by
  refine HasDerivAt.deriv ?_
  unfold vu
  refine HasDerivAt.congr_deriv ((((h_phase_x k w x t).sin.mul_const (cos (k * y))).mul_const (exp (a * t))).const_add U) ?_
  ring
theorem vu_y : dy (vu k w a U) x y t = -k * sin (k * x - w * t) * sin (k * y) * exp (a * t) := by
  refine HasDerivAt.deriv ?_
  unfold vu
  refine HasDerivAt.congr_deriv ((((h_lin k y).cos.const_mul (sin (k * x - w * t))).mul_const (exp (a * t))).const_add U) ?_
  ring
theorem vu_t : dt (vu k w a U) x y t =
    (-w * cos (k * x - w * t) + a * sin (k * x - w * t)) * cos (k * y) * exp (a * t) := by
  refine HasDerivAt.deriv ?_
  unfold vu
  refine HasDerivAt.congr_deriv ((((h_phase_t k w x t).sin.mul_const (cos (k * y))).mul (h_lin a t).exp).const_add U) ?_
  ring
theorem vu_xx : dx (dx (vu k w a U)) x y t = -k ^ 2 * sin (k * x - w * t) * cos (k * y) * exp (a * t) := by
  have h : dx (vu k w a U) = fun x y t => k * cos (k * x - w * t) * cos (k * y) * exp (a * t) := by
    funext x y t; exact vu_x k w a U x y t
  rw [h]
  refine HasDerivAt.deriv ?_
  refine HasDerivAt.congr_deriv ((((h_phase_x k w x t).cos.const_mul k).mul_const (cos (k * y))).mul_const (exp (a * t))) ?_
  ring
theorem vu_yy : dy (dy (vu k w a U)) x y t = -k ^ 2 * sin (k * x - w * t) * cos (k * y) * exp (a * t) := by
  have h : dy (vu k w a U) = fun x y t => -k * sin (k * x - w * t) * sin (k * y) * exp (a * t) := by
    funext x y t; exact vu_y k w a U x y t
  rw [h]
  refine HasDerivAt.deriv ?_
  refine HasDerivAt.congr_deriv (((h_lin k y).sin.const_mul (-k * sin (k * x - w * t))).mul_const (exp (a * t))) ?_
  ring
theorem vv_x : dx (vv k w a) x y t = k * sin (k * x - w * t) * sin (k * y) * exp (a * t) := by
  refine HasDerivAt.deriv ?_
  unfold vv
  refine HasDerivAt.congr_deriv (((h_phase_x k w x t).cos.neg.mul_const (sin (k * y))).mul_const (exp (a * t))) ?_
  ring
theorem vv_y : dy (vv k w a) x y t = -k * cos (k * x - w * t) * cos (k * y) * exp (a * t) := by
  refine HasDerivAt.deriv ?_
  unfold vv
  refine HasDerivAt.congr_deriv (((h_lin k y).sin.const_mul (-cos (k * x - w * t))).mul_const (exp (a * t))) ?_
  ring
theorem vv_t : dt (vv k w a) x y t =
    (-w * sin (k * x - w * t) - a * cos (k * x - w * t)) * sin (k * y) * exp (a * t) := by
  refine HasDerivAt.deriv ?_
  unfold vv
  refine HasDerivAt.congr_deriv (((h_phase_t k w x t).cos.neg.mul_const (sin (k * y))).mul (h_lin a t).exp) ?_
  simp only [Pi.neg_apply]
  ring
theorem vv_xx : dx (dx (vv k w a)) x y t = k ^ 2 * cos (k * x - w * t) * sin (k * y) * exp (a * t) := by
  have h : dx (vv k w a) = fun x y t => k * sin (k * x - w * t) * sin (k * y) * exp (a * t) := by
    funext x y t; exact vv_x k w a x y t
  rw [h]
  refine HasDerivAt.deriv ?_
  refine HasDerivAt.congr_deriv ((((h_phase_x k w x t).sin.const_mul k).mul_const (sin (k * y))).mul_const (exp (a * t))) ?_
  ring
theorem vv_yy : dy (dy (vv k w a)) x y t = k ^ 2 * cos (k * x - w * t) * sin (k * y) * exp (a * t) := by
  have h : dy (vv k w a) = fun x y t => -k * cos (k * x - w * t) * cos (k * y) * exp (a * t) := by
    funext x y t; exact vv_y k w a x y t
  rw [h]
  refine HasDerivAt.deriv ?_
  refine HasDerivAt.congr_deriv (((h_lin k y).cos.const_mul (-k * cos (k * x - w * t))).mul_const (exp (a * t))) ?_
  ring
theorem vp_x : dx (vp k w b) x y t = -k * sin (k * x - w * t) * cos (k * x - w * t) * exp (b * t) := by
  refine HasDerivAt.deriv ?_
  unfold vp
  refine HasDerivAt.congr_deriv (((((h_phase_x k w x t).const_mul 2).cos.add_const (cos (2 * (k * y)))).const_mul (1 / 4)).mul_const (exp (b * t))) ?_
  rw [sin_two_mul]; ring
theorem vp_y : dy (vp k w b) x y t = -k * sin (k * y) * cos (k * y) * exp (b * t) := by
  refine HasDerivAt.deriv ?_
  unfold vp
  refine HasDerivAt.congr_deriv (((((h_lin k y).const_mul 2).cos.const_add (cos (2 * (k * x - w * t)))).const_mul (1 / 4)).mul_const (exp (b * t))) ?_
  rw [sin_two_mul]; ring

theorem vu_smooth : Smooth (vu k w a U) := by intro n; unfold vu; fun_prop
theorem vv_smooth : Smooth (vv k w a) := by intro n; unfold vv; fun_prop
theorem vp_smooth : Smooth (vp k w b) := by intro n; unfold vp; fun_prop

/-- The vortex is a solution if frequency and rates fit to the wave number. -/
theorem v_momentum (ν : ℝ) (hw : w = U * k) (ha : a = -2 * ν * k ^ 2) (hb : b = 2 * a) : Momentum ν (vu k w a U) (vv k w a) (vp k w b) := by
  intro x y t
  rw [vu_t, vu_x, vu_y, vu_xx, vu_yy, vv_t, vv_x, vv_y, vv_xx, vv_yy, vp_x, vp_y]
  have hE : exp (b * t) = exp (a * t) * exp (a * t) := by rw [← exp_add, hb]; ring_nf
  have h1 := sin_sq_add_cos_sq (k * y)
  have h2 := sin_sq_add_cos_sq (k * x - w * t)
  rw [hE]
  unfold vu vv
  constructor
  · linear_combination (-cos (k * x - w * t) * cos (k * y) * exp (a * t)) * hw +
      (sin (k * x - w * t) * cos (k * y) * exp (a * t)) * ha +
      (k * sin (k * x - w * t) * cos (k * x - w * t) * exp (a * t) ^ 2) * h1
  · linear_combination (-sin (k * x - w * t) * sin (k * y) * exp (a * t)) * hw -
      (cos (k * x - w * t) * sin (k * y) * exp (a * t)) * ha +
      (k * sin (k * y) * cos (k * y) * exp (a * t) ^ 2) * h2

theorem TaylorGreen2D.ux_eq (f : TaylorGreen2D) :
    f.ux = vu (2 * π / f.L) f.horizontalVelocity (-2 * f.viscosity * (2 * π / f.L)) f.horizontalVelocity := by
  funext x y t
  unfold TaylorGreen2D.ux vu
  rw [show x * (2 * π) / f.L = 2 * π / f.L * x by ring, show y * (2 * π) / f.L = 2 * π / f.L * y by ring,
    show -2 * f.viscosity * t * (2 * π) / f.L = -2 * f.viscosity * (2 * π / f.L) * t by ring]

theorem TaylorGreen2D.uy_eq (f : TaylorGreen2D) :
    f.uy = vv (2 * π / f.L) f.horizontalVelocity (-2 * f.viscosity * (2 * π / f.L)) := by
  funext x y t
  unfold TaylorGreen2D.uy vv
  rw [show x * (2 * π) / f.L = 2 * π / f.L * x by ring, show y * (2 * π) / f.L = 2 * π / f.L * y by ring,
    show -2 * f.viscosity * t * (2 * π) / f.L = -2 * f.viscosity * (2 * π / f.L) * t by ring]

theorem TaylorGreen2D.p_eq (f : TaylorGreen2D) :
    f.p = vp (2 * π / f.L) f.horizontalVelocity (-4 * f.viscosity * (2 * π / f.L)) := by
  funext x y t
  unfold TaylorGreen2D.p vp
  rw [show x * (2 * π) / f.L = 2 * π / f.L * x by ring, show 2 * y * (2 * π) / f.L = 2 * (2 * π / f.L * y) by ring,
    show -4 * f.viscosity * t * (2 * π) / f.L = -4 * f.viscosity * (2 * π / f.L) * t by ring]

end Benchmarks
end NATriuM
