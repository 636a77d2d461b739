import Verif.Lemmas.Benchmarks
import Mathlib.Analysis.SpecialFunctions.Integrals.Basic
import Mathlib.Analysis.Real.Pi.Bounds
import Mathlib.Tactic.NormNum
import Mathlib.Tactic.Positivity

/-!
# C63: the reference solutions solve the flow equations
-/

namespace NATriuM
namespace Benchmarks

open Real

/-! ## Taylor-Green vortex -/

/-- **C63** The velocity of the two-dimensional vortex is free of divergence, and periodic in the domain, for all parameters. -/
theorem C63_taylorGreen_divergence (f : TaylorGreen2D) : DivergenceFree f.ux f.uy := by
  intro x y t
  rw [f.ux_eq, f.uy_eq, vu_x, vv_y]; ring

theorem C63_taylorGreen_periodic (f : TaylorGreen2D) (hL : f.L ≠ 0) : Periodic2 f.L f.ux ∧ Periodic2 f.L f.uy ∧ Periodic2 f.L f.rho := by
  have e : ∀ z, (z + f.L) * (2 * π) / f.L = z * (2 * π) / f.L + 2 * π := fun z => by field_simp
  have e1 : ∀ z c, (z + f.L) * (2 * π) / f.L - c = z * (2 * π) / f.L - c + 2 * π := fun z c => by rw [e]; ring
  have e2 : ∀ z, 2 * (z + f.L) * (2 * π) / f.L = 2 * z * (2 * π) / f.L + 2 * π + 2 * π := fun z => by field_simp; ring
  have e3 : ∀ z c, 2 * (z * (2 * π) / f.L - c + 2 * π) = 2 * (z * (2 * π) / f.L - c) + 2 * π + 2 * π := fun z c => by ring
  have hp : ∀ x y t, f.p (x + f.L) y t = f.p x y t ∧ f.p x (y + f.L) t = f.p x y t := by
    intro x y t
    unfold TaylorGreen2D.p
    refine ⟨?_, ?_⟩
    · rw [e1, e3, cos_add_two_pi, cos_add_two_pi]
    · rw [e2, cos_add_two_pi, cos_add_two_pi]
  refine ⟨fun x y t => ⟨?_, ?_⟩, fun x y t => ⟨?_, ?_⟩, fun x y t => ⟨?_, ?_⟩⟩
  · unfold TaylorGreen2D.ux; rw [e1, sin_add_two_pi]
  · unfold TaylorGreen2D.ux; rw [e, cos_add_two_pi]
  · unfold TaylorGreen2D.uy; rw [e1, cos_add_two_pi]
  · unfold TaylorGreen2D.uy; rw [e, sin_add_two_pi]
  · unfold TaylorGreen2D.rho; rw [(hp x y t).1]
  · unfold TaylorGreen2D.rho; rw [(hp x y t).2]

/-- **C63** For the default size `L = 2π`, velocity and pressure of the vortex are a solution of the Navier-Stokes equations with the viscosity of the
problem, for every horizontal velocity; the density is that of the pressure. (For other sizes see `C63_taylorGreen_fails`.) -/
theorem C63_taylorGreen_partial (f : TaylorGreen2D) (hL : f.L = 2 * π) :
    Smooth f.ux ∧ Smooth f.uy ∧ Smooth f.p ∧ DivergenceFree f.ux f.uy ∧ Momentum f.viscosity f.ux f.uy f.p ∧
    (f.analyticInit = true → ∀ x y t, f.rho x y t = 1 + f.p x y t / f.cs ^ 2) := by
  have hk : 2 * π / f.L = 1 := by rw [hL]; exact div_self (by positivity)
  refine ⟨?_, ?_, ?_, C63_taylorGreen_divergence f, ?_, ?_⟩
  · rw [f.ux_eq]; exact vu_smooth _ _ _ _
  · rw [f.uy_eq]; exact vv_smooth _ _ _
  · rw [f.p_eq]; exact vp_smooth _ _ _
  · rw [f.ux_eq, f.uy_eq, f.p_eq, hk]
    exact v_momentum _ _ _ _ _ _ (by ring) (by ring) (by ring)
  · intro h x y t
    unfold TaylorGreen2D.rho
    rw [if_pos h, pow_two]

/-- Non-vacuity: the default arguments -/
example : Momentum (1 / 100) (TaylorGreen2D.default (1 / 100)).ux (TaylorGreen2D.default (1 / 100)).uy (TaylorGreen2D.default (1 / 100)).p :=
  (C63_taylorGreen_partial (TaylorGreen2D.default (1 / 100)) rfl).2.2.2.2.1

/-- Two functions with the same derivative differ by a constant. -/
theorem const_of_deriv (g h : ℝ → ℝ) (hg : ∀ x, HasDerivAt g (deriv h x) x) (hh : Differentiable ℝ h) (x : ℝ) : g x - g 0 = h x - h 0 := by
  have hd : ∀ x, HasDerivAt (fun s => g s - h s) 0 x := fun x =>
    HasDerivAt.congr_deriv ((hg x).sub (hh x).hasDerivAt) (sub_self _)
  have := is_const_of_deriv_eq_zero (fun x => (hd x).differentiableAt) (fun x => (hd x).deriv) x 0
  linarith

/-- **C63 (negation)** For sizes other than `2π` the vortex decays with a wrong rate (wave number instead of its square): there is no pressure for which
it solves the Navier-Stokes equations, unless the viscosity is zero. -/
theorem C63_taylorGreen_fails (f : TaylorGreen2D) (hU : f.horizontalVelocity = 0) (hν : f.viscosity ≠ 0) (hL0 : 0 < f.L) (hL : f.L ≠ 2 * π) :
    ¬ ∃ p, Differentiable3 p ∧ Momentum f.viscosity f.ux f.uy p := by
  rintro ⟨p, hp, hm⟩
  rw [f.ux_eq, f.uy_eq, hU] at hm
  set k : ℝ := 2 * π / f.L with hk
  have hk0 : 0 < k := by rw [hk]; positivity
  have hk1 : k ≠ 1 := by
    rw [hk]; intro h; rw [div_eq_one_iff_eq (ne_of_gt hL0)] at h; exact hL h.symm
  set c : ℝ := 2 * f.viscosity * k * (k - 1) with hc
  have hc0 : c ≠ 0 := by
    rw [hc]
    exact mul_ne_zero (mul_ne_zero (mul_ne_zero two_ne_zero hν) (ne_of_gt hk0)) (sub_ne_zero.2 hk1)
  -- the pressure gradient, at time 0
  have hx : ∀ x y, dx p x y 0 = -k * sin (k * x) * cos (k * x) - c * (sin (k * x) * cos (k * y)) := by
    intro x y
    have h := (hm x y 0).1
    rw [vu_t, vu_x, vu_y, vu_xx, vu_yy] at h
    unfold vu vv at h
    simp only [mul_zero, zero_mul, sub_zero, exp_zero, mul_one, neg_zero, zero_add] at h
    have h1 := sin_sq_add_cos_sq (k * y)
    rw [hc]
    linear_combination h + (-k * sin (k * x) * cos (k * x)) * h1
  have hy : ∀ x y, dy p x y 0 = -k * sin (k * y) * cos (k * y) + c * (cos (k * x) * sin (k * y)) := by
    intro x y
    have h := (hm x y 0).2
    rw [vv_t, vv_x, vv_y, vv_xx, vv_yy] at h
    unfold vu vv at h
    simp only [mul_zero, zero_mul, sub_zero, exp_zero, mul_one, neg_zero, zero_add] at h
    have h1 := sin_sq_add_cos_sq (k * x)
    rw [hc]
    linear_combination h + (-k * sin (k * y) * cos (k * y)) * h1
  have hdx : ∀ y x, HasDerivAt (fun s => p s y 0) (dx p x y 0) x := fun y x => (hp x y 0).1.hasDerivAt
  have hdy : ∀ x y, HasDerivAt (fun s => p x s 0) (dy p x y 0) y := fun x y => (hp x y 0).2.1.hasDerivAt
  have hk' := ne_of_gt hk0
  -- integrate along x
  have ix : ∀ y x, p x y 0 - p 0 y 0 = (cos (k * x) ^ 2 / 2 + c / k * (cos (k * x) * cos (k * y))) -
      (cos (k * 0) ^ 2 / 2 + c / k * (cos (k * 0) * cos (k * y))) := by
    intro y x
    have hh : ∀ x, HasDerivAt (fun s => cos (k * s) ^ 2 / 2 + c / k * (cos (k * s) * cos (k * y))) (dx p x y 0) x := by
      intro x
      refine HasDerivAt.congr_deriv ((((h_lin k x).cos.pow 2).div_const 2).add (((h_lin k x).cos.mul_const (cos (k * y))).const_mul (c / k))) ?_
      rw [hx]; field_simp; ring
    exact const_of_deriv (fun s => p s y 0) _ (fun x => by rw [(hh x).deriv]; exact hdx y x) (fun x => (hh x).differentiableAt) x
  have iy : ∀ x y, p x y 0 - p x 0 0 = (cos (k * y) ^ 2 / 2 - c / k * (cos (k * x) * cos (k * y))) -
      (cos (k * 0) ^ 2 / 2 - c / k * (cos (k * x) * cos (k * 0))) := by
    intro x y
    have hh : ∀ y, HasDerivAt (fun s => cos (k * s) ^ 2 / 2 - c / k * (cos (k * x) * cos (k * s))) (dy p x y 0) y := by
      intro y
      refine HasDerivAt.congr_deriv ((((h_lin k y).cos.pow 2).div_const 2).sub (((h_lin k y).cos.const_mul (cos (k * x))).const_mul (c / k))) ?_
      rw [hy]; field_simp; ring
    exact const_of_deriv (fun s => p x s 0) _ (fun y => by rw [(hh y).deriv]; exact hdy x y) (fun y => (hh y).differentiableAt) y
  -- around a square
  have a1 := ix (π / k) (π / k)
  have a2 := iy 0 (π / k)
  have a3 := ix 0 (π / k)
  have a4 := iy (π / k) (π / k)
  have hpi : k * (π / k) = π := by field_simp
  rw [hpi, cos_pi, mul_zero, cos_zero] at a1 a2 a3 a4
  have : c / k = 0 := by linarith
  rcases div_eq_zero_iff.1 this with h | h
  · exact hc0 h
  · exact hk' h

/-- Non-vacuity: the unit square -/
example : ¬ ∃ p, Differentiable3 p ∧ Momentum (1 / 100) (⟨1 / 100, 1, true, 1, 0⟩ : TaylorGreen2D).ux (⟨1 / 100, 1, true, 1, 0⟩ : TaylorGreen2D).uy p :=
  C63_taylorGreen_fails ⟨1 / 100, 1, true, 1, 0⟩ rfl (by norm_num) (by norm_num) (by
    have := pi_gt_three
    show (1 : ℝ) ≠ 2 * π
    intro h; linarith)

/-- **C63** The initial velocity of the three-dimensional vortex is free of divergence, and its initial pressure solves the pressure equation of that velocity
(third argument: z). -/
theorem C63_taylorGreen3D :
    (∀ x y z, dx (fun x y z => taylorGreen3D_u x y z 0) x y z + dy (fun x y z => taylorGreen3D_u x y z 1) x y z +
      dt (fun x y z => taylorGreen3D_u x y z 2) x y z = 0) ∧
    (∀ x y z, dx (dx taylorGreen3D_p) x y z + dy (dy taylorGreen3D_p) x y z + dt (dt taylorGreen3D_p) x y z =
      -(dx (fun x y z => taylorGreen3D_u x y z 0) x y z ^ 2 + dy (fun x y z => taylorGreen3D_u x y z 1) x y z ^ 2 +
        dt (fun x y z => taylorGreen3D_u x y z 2) x y z ^ 2 +
        2 * (dy (fun x y z => taylorGreen3D_u x y z 0) x y z * dx (fun x y z => taylorGreen3D_u x y z 1) x y z) +
        2 * (dt (fun x y z => taylorGreen3D_u x y z 0) x y z * dx (fun x y z => taylorGreen3D_u x y z 2) x y z) +
        2 * (dt (fun x y z => taylorGreen3D_u x y z 1) x y z * dy (fun x y z => taylorGreen3D_u x y z 2) x y z))) := by
  have ux : ∀ x y z, dx (fun x y z => taylorGreen3D_u x y z 0) x y z = cos x * cos y * cos z := fun x y z =>
    HasDerivAt.deriv (((hasDerivAt_sin x).mul_const (cos y)).mul_const (cos z))
  have uy : ∀ x y z, dy (fun x y z => taylorGreen3D_u x y z 0) x y z = -(sin x * sin y * cos z) := fun x y z =>
    HasDerivAt.deriv (HasDerivAt.congr_deriv (((hasDerivAt_cos y).const_mul (sin x)).mul_const (cos z)) (by ring))
  have vx : ∀ x y z, dx (fun x y z => taylorGreen3D_u x y z 1) x y z = sin x * sin y * cos z := fun x y z =>
    HasDerivAt.deriv (HasDerivAt.congr_deriv (((hasDerivAt_cos x).neg.mul_const (sin y)).mul_const (cos z)) (by ring))
  have vy : ∀ x y z, dy (fun x y z => taylorGreen3D_u x y z 1) x y z = -(cos x * cos y * cos z) := fun x y z =>
    HasDerivAt.deriv (HasDerivAt.congr_deriv (((hasDerivAt_sin y).const_mul (-cos x)).mul_const (cos z)) (by ring))
  have wx : ∀ x y z, dx (fun x y z => taylorGreen3D_u x y z 2) x y z = 0 := fun x y z => HasDerivAt.deriv (hasDerivAt_const x (0 : ℝ))
  have wy : ∀ x y z, dy (fun x y z => taylorGreen3D_u x y z 2) x y z = 0 := fun x y z => HasDerivAt.deriv (hasDerivAt_const y (0 : ℝ))
  have wz : ∀ x y z, dt (fun x y z => taylorGreen3D_u x y z 2) x y z = 0 := fun x y z => HasDerivAt.deriv (hasDerivAt_const z (0 : ℝ))
  have c2 : ∀ s : ℝ, HasDerivAt (fun s => cos (2 * s)) (-2 * sin (2 * s)) s := fun s =>
    HasDerivAt.congr_deriv (h_lin 2 s).cos (by ring)
  have s2 : ∀ s : ℝ, HasDerivAt (fun s => sin (2 * s)) (2 * cos (2 * s)) s := fun s =>
    HasDerivAt.congr_deriv (h_lin 2 s).sin (by ring)
  have px : dx taylorGreen3D_p = fun x y z => -1 / 8 * sin (2 * x) * (cos (2 * z) + 2) := by
    funext x y z
    exact HasDerivAt.deriv (HasDerivAt.congr_deriv ((((c2 x).add_const (cos (2 * y))).const_mul (1 / 16)).mul_const (cos (2 * z) + 2)) (by ring))
  have py : dy taylorGreen3D_p = fun x y z => -1 / 8 * sin (2 * y) * (cos (2 * z) + 2) := by
    funext x y z
    exact HasDerivAt.deriv (HasDerivAt.congr_deriv ((((c2 y).const_add (cos (2 * x))).const_mul (1 / 16)).mul_const (cos (2 * z) + 2)) (by ring))
  have pz : dt taylorGreen3D_p = fun x y z => -1 / 8 * (cos (2 * x) + cos (2 * y)) * sin (2 * z) := by
    funext x y z
    exact HasDerivAt.deriv (HasDerivAt.congr_deriv (((c2 z).add_const 2).const_mul (1 / 16 * (cos (2 * x) + cos (2 * y)))) (by ring))
  have pxx : ∀ x y z, dx (dx taylorGreen3D_p) x y z = -1 / 4 * cos (2 * x) * (cos (2 * z) + 2) := fun x y z => by
    rw [px]; exact HasDerivAt.deriv (HasDerivAt.congr_deriv (((s2 x).const_mul (-1 / 8)).mul_const (cos (2 * z) + 2)) (by ring))
  have pyy : ∀ x y z, dy (dy taylorGreen3D_p) x y z = -1 / 4 * cos (2 * y) * (cos (2 * z) + 2) := fun x y z => by
    rw [py]; exact HasDerivAt.deriv (HasDerivAt.congr_deriv (((s2 y).const_mul (-1 / 8)).mul_const (cos (2 * z) + 2)) (by ring))
  have pzz : ∀ x y z, dt (dt taylorGreen3D_p) x y z = -1 / 4 * (cos (2 * x) + cos (2 * y)) * cos (2 * z) := fun x y z => by
    rw [pz]; exact HasDerivAt.deriv (HasDerivAt.congr_deriv ((s2 z).const_mul (-1 / 8 * (cos (2 * x) + cos (2 * y)))) (by ring))
  refine ⟨fun x y z => by rw [ux, vy, wz]; ring, fun x y z => ?_⟩
  rw [pxx, pyy, pzz, ux, uy, vx, vy, wx, wy, wz, cos_two_mul, cos_two_mul, cos_two_mul]
  have h1 := sin_sq_add_cos_sq x
  have h2 := sin_sq_add_cos_sq y
  have h1' : sin x ^ 2 = 1 - cos x ^ 2 := by linarith
  have h2' : sin y ^ 2 = 1 - cos y ^ 2 := by linarith
  have e : sin x * sin y * cos z * (sin x * sin y * cos z) = sin x ^ 2 * sin y ^ 2 * cos z ^ 2 := by ring
  have e' : 2 * (-(sin x * sin y * cos z) * (sin x * sin y * cos z)) = -2 * (sin x ^ 2 * sin y ^ 2 * cos z ^ 2) := by ring
  rw [e', h1', h2']
  ring

/-- **C63** The initial velocity of the shear layer is free of divergence, and periodic in the unit square. -/
theorem C63_shearLayer (u0 kappa perturbation : ℝ) :
    (∀ x y, deriv (fun s => shearLayer_u u0 kappa perturbation s y 0) x + deriv (fun s => shearLayer_u u0 kappa perturbation x s 1) y = 0) ∧
    (∀ y c, shearLayer_u u0 kappa perturbation 1 y c = shearLayer_u u0 kappa perturbation 0 y c) ∧
    (∀ x c, shearLayer_u u0 kappa perturbation x 1 c = shearLayer_u u0 kappa perturbation x 0 c) := by
  have h8 : 8 * arctan 1 = 2 * π := by rw [arctan_one]; ring
  refine ⟨fun x y => ?_, fun y c => ?_, fun x c => ?_⟩
  · simp [shearLayer_u]
  · match c with
    | 0 => rfl
    | 1 =>
      show perturbation * u0 * sin (8 * arctan 1 * (1 + 1 / 4)) = perturbation * u0 * sin (8 * arctan 1 * (0 + 1 / 4))
      rw [h8, show 2 * π * (1 + 1 / 4) = 2 * π * (0 + 1 / 4) + 2 * π by ring, sin_add_two_pi]
  · match c with
    | 0 =>
      simp only [shearLayer_u]
      rw [if_neg (by norm_num), if_pos (by norm_num)]
      norm_num
    | 1 => rfl

/-! ## Flow between plates -/

/-- **C63 (negation)** The reference solution for the flow driven by a force is zero everywhere. It does not move with the bulk velocity, and does not solve
the equation with the force the problem sets, unless that velocity or the viscosity is zero. -/
theorem C63_poiseuille_fails (f : Poiseuille) (hν : f.viscosity ≠ 0) (hu : f.uBulk ≠ 0) (hh : f.height ≠ 0) :
    ¬ ChannelFlow f.viscosity f.force f.height fun y => f.u y 0 := by
  rintro ⟨-, -, -, -, h⟩
  have h0 := h 0
  have hd : deriv (deriv fun y => f.u y 0) (0 : ℝ) = 0 := by
    have : (fun y : ℝ => f.u y 0) = fun _ => 0 := rfl
    rw [this]; simp
  rw [hd, mul_zero, zero_add] at h0
  unfold Poiseuille.force Poiseuille.uMax at h0
  rcases div_eq_zero_iff.1 h0 with h1 | h1
  · rcases mul_eq_zero.1 h1 with h2 | h2
    · rcases mul_eq_zero.1 h2 with h3 | h3
      · norm_num at h3
      · rcases mul_eq_zero.1 h3 with h4 | h4
        · norm_num at h4
        · exact hu h4
    · exact hν h2
  · exact hh (mul_self_eq_zero.1 h1)

/-- **C63** The force of the problem is the right one: the parabola with maximum `uMax` (as in the commented out code) is the flow it drives, and its mean
over the channel is the bulk velocity. -/
theorem C63_poiseuille_force (f : Poiseuille) (hh : f.height ≠ 0) :
    ChannelFlow f.viscosity f.force f.height (fun y => -4 * f.uMax * (y - f.height) * y / (f.height * f.height)) ∧
    (∫ y in (0 : ℝ)..f.height, -4 * f.uMax * (y - f.height) * y / (f.height * f.height)) / f.height = f.uBulk ∧
    (-4 * f.uMax * (f.height / 2 - f.height) * (f.height / 2) / (f.height * f.height)) = f.uMax := by
  have d1 : ∀ y, HasDerivAt (fun y => -4 * f.uMax * (y - f.height) * y / (f.height * f.height))
      (-4 * f.uMax * (2 * y - f.height) / (f.height * f.height)) y := fun y =>
    HasDerivAt.congr_deriv (((((hasDerivAt_id y).sub_const f.height).const_mul (-4 * f.uMax)).mul (hasDerivAt_id y)).div_const _)
      (by simp only [id]; ring)
  have d1' : deriv (fun y => -4 * f.uMax * (y - f.height) * y / (f.height * f.height)) =
      fun y => -4 * f.uMax * (2 * y - f.height) / (f.height * f.height) := funext fun y => (d1 y).deriv
  have d2 : ∀ y, HasDerivAt (fun y => -4 * f.uMax * (2 * y - f.height) / (f.height * f.height))
      (-8 * f.uMax / (f.height * f.height)) y := fun y =>
    HasDerivAt.congr_deriv (((((hasDerivAt_id y).const_mul 2).sub_const f.height).const_mul (-4 * f.uMax)).div_const _) (by ring)
  refine ⟨⟨by simp, by simp, fun y => (d1 y).differentiableAt, ?_, fun y => ?_⟩, ?_, ?_⟩
  · rw [d1']; exact fun y => (d2 y).differentiableAt
  · rw [d1', (d2 y).deriv]; unfold Poiseuille.force; ring
  · have : ∀ y, HasDerivAt (fun y => -4 * f.uMax * (y ^ 3 / 3 - f.height * y ^ 2 / 2) / (f.height * f.height))
        (-4 * f.uMax * (y - f.height) * y / (f.height * f.height)) y := fun y =>
      HasDerivAt.congr_deriv ((((((hasDerivAt_id y).pow 3).div_const 3).sub ((((hasDerivAt_id y).pow 2).const_mul f.height).div_const 2)).const_mul
        (-4 * f.uMax)).div_const _) (by simp only [id]; push_cast; ring)
    rw [intervalIntegral.integral_eq_sub_of_hasDerivAt (fun y _ => this y) (by
      apply Continuous.intervalIntegrable; fun_prop)]
    unfold Poiseuille.uMax
    field_simp
    ring
  · field_simp; ring

example : ¬ ChannelFlow 1 (⟨1, 1, 1⟩ : Poiseuille).force 1 (fun y => (⟨1, 1, 1⟩ : Poiseuille).u y 0) :=
  C63_poiseuille_fails ⟨1, 1, 1⟩ one_ne_zero one_ne_zero one_ne_zero

/-- The steady profile and the first `n` decaying modes -/
noncomputable def couetteModes (f : Couette) (n : ℕ) (y t : ℝ) : ℝ := f.U * y / f.L + ∑ j ∈ Finset.range n, f.increment (1 + j) y t

/-- The number of terms of the loop from term `i` on -/
noncomputable def couetteCount (f : Couette) (t : ℝ) : ℕ → ℕ → ℕ
  | 0, _ => 0
  | fuel + 1, i => if f.expTerm i t < 1 / 10 ^ 20 then 1 else couetteCount f t fuel (i + 1) + 1

theorem couette_loop (f : Couette) (y t : ℝ) (fuel i : ℕ) (sum : ℝ) :
    f.loop y t fuel i sum = sum + ∑ j ∈ Finset.range (couetteCount f t fuel i), f.increment (i + j) y t := by
  induction fuel generalizing i sum with
  | zero => simp [Couette.loop, couetteCount]
  | succ n ih =>
    unfold Couette.loop couetteCount
    by_cases h : f.expTerm i t < 1 / 10 ^ 20
    · rw [if_pos h, if_pos h]; simp
    · rw [if_neg h, if_neg h, ih, Finset.sum_range_succ']
      simp only [add_assoc, add_zero, Nat.add_comm 1]
      rw [add_comm (f.increment i y t)]

theorem couetteCount_le (f : Couette) (t : ℝ) (fuel i : ℕ) : couetteCount f t fuel i ≤ fuel := by
  induction fuel generalizing i with
  | zero => simp [couetteCount]
  | succ n ih =>
    unfold couetteCount
    split
    · omega
    · have := ih (i + 1); omega

theorem couette_u (f : Couette) (y time : ℝ) (ht : ¬ time + f.startTime < 0.00001) :
    f.u y time = couetteModes f (couetteCount f (time + f.startTime) 10000 1) y (time + f.startTime) := by
  unfold Couette.u
  simp only
  rw [if_neg ht, couette_loop]
  rfl

/-- Each term decays and diffuses -/
theorem couette_inc_t (f : Couette) (i : ℕ) (y t : ℝ) :
    HasDerivAt (fun s => f.increment i y s) (-f.viscosity * f.lambda i ^ 2 * f.increment i y t) t := by
  unfold Couette.increment Couette.expTerm
  refine HasDerivAt.congr_deriv (((h_lin (-f.viscosity * f.lambda i * f.lambda i) t).exp.const_mul _).mul_const _) ?_
  ring

noncomputable def couetteInc' (f : Couette) (i : ℕ) (y t : ℝ) : ℝ :=
  (if i % 2 = 0 then 1 else -1) * 2 * f.U / (f.lambda i * f.L) * f.expTerm i t * (f.lambda i * cos (f.lambda i * y))

theorem couette_inc_y (f : Couette) (i : ℕ) (y t : ℝ) : HasDerivAt (fun s => f.increment i s t) (couetteInc' f i y t) y := by
  unfold Couette.increment couetteInc'
  refine HasDerivAt.congr_deriv ((h_lin (f.lambda i) y).sin.const_mul _) ?_
  ring

theorem couette_inc_yy (f : Couette) (i : ℕ) (y t : ℝ) : HasDerivAt (fun s => couetteInc' f i s t) (-f.lambda i ^ 2 * f.increment i y t) y := by
  unfold Couette.increment couetteInc'
  refine HasDerivAt.congr_deriv (((h_lin (f.lambda i) y).cos.const_mul _).const_mul _) ?_
  ring

theorem couetteModes_t (f : Couette) (n : ℕ) (y t : ℝ) :
    HasDerivAt (fun s => couetteModes f n y s) (∑ j ∈ Finset.range n, -f.viscosity * f.lambda (1 + j) ^ 2 * f.increment (1 + j) y t) t := by
  have := HasDerivAt.fun_sum (u := Finset.range n) (fun j _ => couette_inc_t f (1 + j) y t)
  exact this.const_add (f.U * y / f.L)

theorem couetteModes_y (f : Couette) (n : ℕ) (y t : ℝ) :
    HasDerivAt (fun s => couetteModes f n s t) (f.U / f.L + ∑ j ∈ Finset.range n, couetteInc' f (1 + j) y t) y := by
  have := HasDerivAt.fun_sum (u := Finset.range n) (fun j _ => couette_inc_y f (1 + j) y t)
  exact HasDerivAt.congr_deriv ((((hasDerivAt_id y).const_mul f.U).div_const f.L).add this) (by ring)

theorem couetteModes_yy (f : Couette) (n : ℕ) (y t : ℝ) :
    HasDerivAt (deriv fun s => couetteModes f n s t) (∑ j ∈ Finset.range n, -f.lambda (1 + j) ^ 2 * f.increment (1 + j) y t) y := by
  have e : (deriv fun s => couetteModes f n s t) = fun y => f.U / f.L + ∑ j ∈ Finset.range n, couetteInc' f (1 + j) y t :=
    funext fun y => (couetteModes_y f n y t).deriv
  rw [e]
  exact (HasDerivAt.fun_sum (u := Finset.range n) (fun j _ => couette_inc_yy f (1 + j) y t)).const_add _

theorem couetteModes_diffuses (f : Couette) (n : ℕ) (y t : ℝ) : DiffusesAt f.viscosity (couetteModes f n) y t := by
  refine ⟨(couetteModes_t f n y t).differentiableAt, fun s => (couetteModes_y f n s t).differentiableAt,
    (couetteModes_yy f n y t).differentiableAt, ?_⟩
  rw [(couetteModes_t f n y t).deriv, (couetteModes_yy f n y t).deriv, Finset.mul_sum]
  exact Finset.sum_congr rfl fun j _ => by ring

/-- Near a time at which no term is exactly at the threshold, the number of terms does not change. -/
theorem couetteCount_eventually (f : Couette) (t : ℝ) (fuel i : ℕ) (ht : ∀ j, f.expTerm j t ≠ 1 / 10 ^ 20) :
    ∀ᶠ s in nhds t, couetteCount f s fuel i = couetteCount f t fuel i := by
  have hcont : ∀ j, Continuous fun s => f.expTerm j s := fun j => by unfold Couette.expTerm; fun_prop
  induction fuel generalizing i with
  | zero => exact Filter.Eventually.of_forall fun _ => rfl
  | succ n ih =>
    rcases lt_or_gt_of_ne (ht i) with h | h
    · filter_upwards [(hcont i).continuousAt.eventually_lt (continuousAt_const (y := (1 / 10 ^ 20 : ℝ))) h] with s hs
      unfold couetteCount
      rw [if_pos hs, if_pos h]
    · filter_upwards [ih (i + 1), (continuousAt_const (y := (1 / 10 ^ 20 : ℝ))).eventually_lt (hcont i).continuousAt h] with s h1 hs
      unfold couetteCount
      rw [if_neg (not_lt.2 hs.le), if_neg (not_lt.2 (le_of_lt h)), h1]

/-- **C63** The reference solution of the flow between a fixed and a moving plate: at every position and at every time after the start, except the instants at
which the number of terms changes, it solves the diffusion equation. -/
theorem C63_couette_diffuses (f : Couette) (y time : ℝ) (ht : 0.00001 < time + f.startTime)
    (hne : ∀ j, f.expTerm j (time + f.startTime) ≠ 1 / 10 ^ 20) : DiffusesAt f.viscosity f.u y time := by
  set n := couetteCount f (time + f.startTime) 10000 1 with hn
  have hs : Continuous fun s => s + f.startTime := by fun_prop
  have ev : ∀ᶠ s in nhds time, ∀ y, f.u y s = couetteModes f n y (s + f.startTime) := by
    have h1 : ∀ᶠ s in nhds time, couetteCount f (s + f.startTime) 10000 1 = n :=
      hs.continuousAt.eventually (couetteCount_eventually f (time + f.startTime) 10000 1 hne)
    have h2 : ∀ᶠ s in nhds time, (0.00001 : ℝ) < s + f.startTime := continuousAt_const.eventually_lt hs.continuousAt ht
    filter_upwards [h1, h2] with s h1 h2 y
    rw [couette_u f y s (not_lt.2 h2.le), h1]
  have now : (fun s => f.u s time) = fun s => couetteModes f n s (time + f.startTime) := funext fun y => ev.self_of_nhds y
  have evy : (fun s => f.u y s) =ᶠ[nhds time] fun s => couetteModes f n y (s + f.startTime) := by
    filter_upwards [ev] with s h; exact h y
  obtain ⟨-, d2, d3, d4⟩ := couetteModes_diffuses f n y (time + f.startTime)
  have d1 : HasDerivAt (fun s => couetteModes f n y (s + f.startTime)) _ time :=
    HasDerivAt.comp_add_const time f.startTime (couetteModes_t f n y (time + f.startTime))
  refine ⟨(d1.congr_of_eventuallyEq evy).differentiableAt, ?_, ?_, ?_⟩
  · rw [now]; exact d2
  · rw [now]; exact d3
  · rw [now, (d1.congr_of_eventuallyEq evy).deriv, ← d4, (couetteModes_t f n y (time + f.startTime)).deriv]

theorem couette_inc_walls (f : Couette) (hL : f.L ≠ 0) (i : ℕ) (t : ℝ) : f.increment i 0 t = 0 ∧ f.increment i f.L t = 0 := by
  unfold Couette.increment Couette.lambda
  refine ⟨by simp, ?_⟩
  rw [show (i : ℝ) * π / f.L * f.L = i * π by field_simp, sin_nat_mul_pi, mul_zero]

/-- **C63** The reference solution is at rest at the fixed plate, and moves with the moving plate at `y = L`, at all times. -/
theorem C63_couette_walls (f : Couette) (hL : 0.00001 < f.L) (time : ℝ) : f.u 0 time = 0 ∧ f.u (couette2D_plate f) time = f.U := by
  have hL0 : f.L ≠ 0 := by intro h; rw [h] at hL; norm_num at hL
  unfold couette2D_plate
  by_cases ht : time + f.startTime < 0.00001
  · unfold Couette.u
    simp only
    rw [if_pos ht, if_pos ht, if_pos (by linarith), if_neg (by norm_num)]
    exact ⟨rfl, rfl⟩
  · rw [couette_u _ _ _ ht, couette_u _ _ _ ht]
    unfold couetteModes
    refine ⟨?_, ?_⟩
    · rw [Finset.sum_eq_zero fun j _ => (couette_inc_walls f hL0 (1 + j) _).1]; simp
    · rw [Finset.sum_eq_zero fun j _ => (couette_inc_walls f hL0 (1 + j) _).2]; field_simp; ring

/-- **C63** As time goes on, the reference solution approaches the linear profile, for every position. -/
theorem C63_couette_steady (f : Couette) (hν : 0 < f.viscosity) (hL : 0 < f.L) (y : ℝ) :
    Filter.Tendsto (fun time => f.u y time) Filter.atTop (nhds (f.U * y / f.L)) := by
  have hinc : ∀ j, Filter.Tendsto (fun time => |f.increment (1 + j) y (time + f.startTime)|) Filter.atTop (nhds 0) := by
    intro j
    have hl : 0 < f.lambda (1 + j) := by unfold Couette.lambda; positivity
    have h1 : Filter.Tendsto (fun time => -f.viscosity * f.lambda (1 + j) * f.lambda (1 + j) * (time + f.startTime)) Filter.atTop Filter.atBot := by
      refine Filter.Tendsto.const_mul_atTop_of_neg ?_ (Filter.tendsto_atTop_add_const_right _ _ Filter.tendsto_id)
      have := mul_pos (mul_pos hν hl) hl
      linarith
    have h2 := (tendsto_exp_atBot.comp h1)
    have h3 := ((h2.const_mul ((if (1 + j) % 2 = 0 then 1 else -1) * 2 * f.U / (f.lambda (1 + j) * f.L))).mul_const (sin (f.lambda (1 + j) * y))).abs
    simp only [mul_zero, zero_mul, abs_zero] at h3
    exact h3
  have hsum : Filter.Tendsto (fun time => ∑ j ∈ Finset.range 10000, |f.increment (1 + j) y (time + f.startTime)|) Filter.atTop (nhds 0) := by
    have := tendsto_finsetSum (Finset.range 10000) (fun j _ => hinc j)
    simpa using this
  rw [tendsto_iff_dist_tendsto_zero]
  refine squeeze_zero' (Filter.Eventually.of_forall fun _ => dist_nonneg) ?_ hsum
  filter_upwards [Filter.eventually_ge_atTop (0.00001 - f.startTime)] with time ht
  rw [couette_u f y time (by linarith), dist_eq]
  unfold couetteModes
  rw [add_sub_cancel_left]
  refine (Finset.abs_sum_le_sum_abs _ _).trans ?_
  exact Finset.sum_le_sum_of_subset_of_nonneg (Finset.range_mono (couetteCount_le f _ 10000 1)) fun j _ _ => abs_nonneg _

/-- **C63 (negation)** In three dimensions the moving plate is at height 1, whatever `L`; the reference solution takes `L` for the height. Unless `L = 1`, it
does not move with the plate, not even in the long run. -/
theorem C63_couette3D_fails (f : Couette) (hν : 0 < f.viscosity) (hL : 0 < f.L) (hL1 : f.L ≠ 1) (hU : f.U ≠ 0) :
    ∃ T, ∀ time, T ≤ time → f.u (couette3D_plate f) time ≠ f.U := by
  have h := C63_couette_steady f hν hL (couette3D_plate f)
  have hne : f.U * couette3D_plate f / f.L ≠ f.U := by
    unfold couette3D_plate
    rw [mul_one]
    intro h
    rw [div_eq_iff (ne_of_gt hL)] at h
    exact hL1 (mul_left_cancel₀ hU (by rw [← h, mul_one]))
  have := h.eventually_ne hne
  exact Filter.eventually_atTop.1 this

/-- Non-vacuity: a channel of height two. -/
example : ∃ T, ∀ time, T ≤ time → (⟨1, 1, 2, 0⟩ : Couette).u 1 time ≠ 1 :=
  C63_couette3D_fails ⟨1, 1, 2, 0⟩ one_pos two_pos (by norm_num) one_ne_zero

/-- Non-vacuity: without viscosity no term is ever at the threshold; with viscosity, times at which one is are a discrete set. -/
example : DiffusesAt 0 (⟨0, 1, 2, 0⟩ : Couette).u 1 1 :=
  C63_couette_diffuses ⟨0, 1, 2, 0⟩ 1 1 (by norm_num) (by intro j; simp [Couette.expTerm]; norm_num)

end Benchmarks
end NATriuM
