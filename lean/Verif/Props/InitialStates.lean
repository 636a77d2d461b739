import Verif.Lemmas.InitialStates
import Mathlib.Analysis.SpecialFunctions.Integrals.Basic
import Mathlib.Analysis.Real.Pi.Bounds

/-!
# Properties C89, C90 and C91: the initial states of the flow problems
-/

namespace NATriuM

namespace InitialStates

open Real InitialStatesSpec

/-! ## C89: density and temperature are positive numbers at every point -/

/-- Riemann problem: at every point of the plane density and temperature are positive (the branch that returns zero is never taken). -/
theorem C89_riemann (x : ℝ × ℝ) : 0.5 < riemannDensity x ∧ riemannDensity x ≤ 1 ∧ 0.75 < riemannTemperature x ∧ riemannTemperature x ≤ 1.25 := by
  unfold riemannDensity riemannTemperature
  rcases le_or_gt x.1 1 with h1 | h1 <;> rcases le_or_gt x.2 1 with h2 | h2 <;>
    simp [h1, h2, not_lt.2, not_le.2] <;> norm_num

/-- Shock tube: density and temperature stay strictly between the values on both sides, for every length, and fall from left to right. -/
theorem C89_sod (length : ℤ) :
    (∀ x, 1 < sodDensity length x ∧ sodDensity length x < 8 ∧ 1 < sodTemperature length x ∧ sodTemperature length x < 1.25) ∧
      ∀ x y, x.1 < y.1 → sodDensity length y < sodDensity length x ∧ sodTemperature length y < sodTemperature length x := by
  refine ⟨fun x => ?_, fun x y h => ⟨?_, ?_⟩⟩
  · have h1 := profile_between (show (8 : ℝ) ≠ 1 by norm_num) 10000 ((length : ℝ) / 2) x.1
    have h2 := profile_between (show (1.25 : ℝ) ≠ 1 by norm_num) 10000 ((length : ℝ) / 2) x.1
    rw [min_eq_right (by norm_num), max_eq_left (by norm_num)] at h1 h2
    exact ⟨h1.1, h1.2, h2.1, h2.2⟩
  · exact profile_strictAnti (by norm_num) (by norm_num) _ h
  · exact profile_strictAnti (by norm_num) (by norm_num) _ h

example : ((0 : ℝ), (0 : ℝ)).1 < ((1 : ℝ), (0 : ℝ)).1 := by norm_num

/-- Shock and vortex: if the Mach number of the vortex satisfies `Ma² ≤ 1.8`, the temperature is positive everywhere, the density is a
positive number everywhere, and the velocity is a number everywhere but in the centre of the vortex. -/
theorem C89_shockVortex_partial {maV : ℝ} (h : maV ^ 2 ≤ 1.8) (x : ℝ × ℝ) :
    0 < ShockVortex.temperature maV x ∧ (∃ ρ, ShockVortex.density maV x = some ρ ∧ 0 < ρ) ∧
      (x ≠ (32, 12) → ∀ c, (ShockVortex.velocity maV x c).isSome) := by
  refine ⟨ShockVortex.temperature_pos h x, ?_, fun hx c => ?_⟩
  · have hp := profile_pos ShockVortex.density_ne (show 0 < ShockVortex.densityLeft by norm_num [ShockVortex.densityLeft])
      (show 0 < ShockVortex.densityRight by norm_num [ShockVortex.densityRight]) ShockVortex.shockSteepness ShockVortex.shockPosition x.1
    have hv := ShockVortex.vortexFactor_pos h (ShockVortex.radius x)
    unfold ShockVortex.density
    split_ifs with h1 h2
    · exact absurd h2 (not_lt.2 hv.le)
    · exact ⟨_, rfl, mul_pos hp (Real.rpow_pos_of_pos hv _)⟩
    · exact ⟨_, rfl, hp⟩
  · unfold ShockVortex.velocity
    have hT := ShockVortex.temperature_pos h x
    split_ifs with h1 h2
    · rcases h2 with h2 | h2
      · exact absurd (ShockVortex.radius_eq_zero h2) hx
      · exact absurd h2 (not_lt.2 (by positivity))
    · rfl
    · rfl

/-- The driver of the example uses a Mach number of 0.25 (`examples/step-12/svi.cpp:64`). -/
example : (0.25 : ℝ) ^ 2 ≤ 1.8 ∧ ((30, 12) : ℝ × ℝ) ≠ (32, 12) := by
  refine ⟨by norm_num, fun h => ?_⟩
  have : (30 : ℝ) = 32 := congrArg Prod.fst h
  norm_num at this

/-- In the centre of the vortex the velocity is `0 / 0`, for every Mach number; and for a faster vortex (Mach number 2) the temperature in
the centre is negative and the density not a number. -/
theorem C89_shockVortex_fails :
    (∀ maV c, ShockVortex.velocity maV (32, 12) c = none) ∧ ShockVortex.temperature 2 (32, 12) < 0 ∧
      ShockVortex.density 2 (32, 12) = none := by
  have hr := ShockVortex.radius_centre
  have hf : ShockVortex.vortexFactor 2 0 < 0 := by
    have := Real.exp_one_gt_d9
    unfold ShockVortex.vortexFactor
    rw [show (1 : ℝ) - 0 * 0 = 1 by norm_num]
    norm_num
    linarith
  refine ⟨fun maV c => ?_, ?_, ?_⟩
  · unfold ShockVortex.velocity
    rw [hr, if_pos (by norm_num), if_pos (Or.inl rfl)]
  · unfold ShockVortex.temperature
    rw [hr, if_pos (by norm_num)]
    exact mul_neg_of_pos_of_neg (profile_pos ShockVortex.temperature_ne (by norm_num [ShockVortex.temperatureLeft])
      (by norm_num [ShockVortex.temperatureRight]) _ _ _) hf
  · unfold ShockVortex.density
    rw [hr, if_pos (by norm_num), if_pos hf]

/-- Droplet: for an interface of positive width the density lies strictly between those of gas and liquid, is their mean at the radius of
the droplet, and falls with the distance from its centre. -/
theorem C89_droplet_partial {d : Droplet} (hW : 0 < d.W) (hρ : d.rhoG < d.rhoL) :
    (∀ x, ∃ ρ, d.density x = some ρ ∧ d.rhoG < ρ ∧ ρ < d.rhoL) ∧
      (∀ x, d.dist x = d.R0 → d.density x = some ((d.rhoL + d.rhoG) / 2)) ∧
      ∀ x y ρ σ, d.density x = some ρ → d.density y = some σ → d.dist x < d.dist y → σ < ρ := by
  have key (x : ℝ × ℝ) : d.density x = some ((d.rhoL + d.rhoG) / 2 - (d.rhoL - d.rhoG) / 2 * Real.tanh ((d.dist x - d.R0) / d.W)) := by
    unfold Droplet.density
    rw [if_neg hW.ne', Real.tanh_eq_sinh_div_cosh]
    congr 1
    ring
  refine ⟨fun x => ⟨_, key x, ?_, ?_⟩, fun x hx => ?_, fun x y ρ σ h1 h2 h => ?_⟩
  · have := Real.tanh_lt_one ((d.dist x - d.R0) / d.W)
    nlinarith
  · have := Real.neg_one_lt_tanh ((d.dist x - d.R0) / d.W)
    nlinarith
  · rw [key, hx, sub_self, zero_div, Real.tanh_zero]
    congr 1
    ring
  · rw [key] at h1 h2
    injection h1 with h1
    injection h2 with h2
    have := MeshTransform.tanh_strictMono (div_lt_div_of_pos_right (show d.dist x - d.R0 < d.dist y - d.R0 by linarith) hW)
    rw [← h1, ← h2]
    nlinarith

example : (0 : ℝ) < 0.05 ∧ (0.1 : ℝ) < 1 := by norm_num

/-- The checks of the droplet's parameters are commented out: a width of zero, which the constructor accepts, leaves no density. -/
theorem C89_droplet_fails (d : Droplet) (h : d.W = 0) (x : ℝ × ℝ) : d.density x = none := by
  unfold Droplet.density
  rw [if_pos h]

example : (⟨1, 1, 1, 0.1, 0, 0.2⟩ : Droplet).W = 0 := rfl

/-- Density wave: density between 0.8 and 1.2, positive temperature, and the pressure (density times temperature) is the same everywhere, at
every time and for every size. -/
theorem C89_smooth (L U t : ℝ) (x : ℝ × ℝ) :
    0.8 ≤ smoothDensity L U t x ∧ smoothDensity L U t x ≤ 1.2 ∧ 0 < smoothTemperature L U t x ∧
      smoothDensity L U t x * smoothTemperature L U t x = 1 := by
  have hs : |sin (2 * π * x.1 / L - 2 * π * U * t) * sin (x.2 * (2 * π) / L)| ≤ 1 := by
    rw [abs_mul]
    exact mul_le_one₀ (abs_sin_le_one _) (abs_nonneg _) (abs_sin_le_one _)
  have h := abs_le.1 hs
  have h1 : 0.8 ≤ smoothDensity L U t x := by unfold smoothDensity; linarith [h.1]
  have h2 : smoothDensity L U t x ≤ 1.2 := by unfold smoothDensity; linarith [h.2]
  have h3 : 0 < smoothDensity L U t x := by linarith
  refine ⟨h1, h2, one_div_pos.2 h3, ?_⟩
  unfold smoothTemperature
  exact mul_one_div_cancel h3.ne'

/-- Backward facing step: the initial density is zero at every point, because the function for the velocity is registered as density. -/
theorem C89_step_fails (x : ℝ × ℝ) : stepInitialDensity x = 0 := rfl

/-! ## C90: initial states match the boundary conditions -/

/-- Density wave: on the square of size `L` the fields match at the periodic boundaries, at every time. -/
theorem C90_smooth {L : ℝ} (hL : L ≠ 0) (U t : ℝ) :
    MatchesSides (smoothDensity L U t) L L ∧ MatchesSides (smoothTemperature L U t) L L ∧ MatchesSides (smoothVelocity U) L L := by
  have h1 : MatchesSides (smoothDensity L U t) L L := by
    refine ⟨fun y => ?_, fun x => ?_⟩
    · unfold smoothDensity
      simp only
      rw [show 2 * π * L / L - 2 * π * U * t = 2 * π * 0 / L - 2 * π * U * t + 2 * π by field_simp; ring, Real.sin_add_two_pi]
    · unfold smoothDensity
      simp only
      rw [show L * (2 * π) / L = 0 * (2 * π) / L + 2 * π by field_simp; ring, Real.sin_add_two_pi]
  refine ⟨h1, ⟨fun y => ?_, fun x => ?_⟩, fun y => rfl, fun x => rfl⟩
  · unfold smoothTemperature; rw [h1.1]
  · unfold smoothTemperature; rw [h1.2]

example : (2 * π : ℝ) ≠ 0 := by positivity

/-- Droplet: the density matches at the periodic boundaries. -/
theorem C90_droplet (d : Droplet) : MatchesSides d.density d.length d.height := by
  refine ⟨fun y => ?_, fun x => ?_⟩
  · have : d.dist (0, y) = d.dist (d.length, y) := by unfold Droplet.dist; congr 1; ring
    unfold Droplet.density
    rw [this]
  · have : d.dist (x, 0) = d.dist (x, d.height) := by unfold Droplet.dist; congr 1; ring
    unfold Droplet.density
    rw [this]

/-- Shock and vortex: the domain is periodic, but the density left and right differs at every height, for every vortex.  The run starts with
a second jump at the boundary. -/
theorem C90_shockVortex_fails (maV y : ℝ) : ShockVortex.density maV (0, y) ≠ ShockVortex.density maV (60, y) := by
  unfold ShockVortex.density
  rw [if_neg (ShockVortex.five_lt_radius (Or.inl (by norm_num))), if_neg (ShockVortex.five_lt_radius (Or.inr (by norm_num)))]
  intro h
  injection h with h
  have := profile_strictAnti (show ShockVortex.densityRight < ShockVortex.densityLeft by
    norm_num [ShockVortex.densityLeft, ShockVortex.densityRight]) ShockVortex.shockSteepness_pos ShockVortex.shockPosition
    (show (0 : ℝ) < 60 by norm_num)
  simp only at h
  linarith

/-- Decaying turbulence: with whole wave numbers the velocity would match at the periodic boundaries of the unit square. -/
theorem C90_turbulence_partial (ws : List Wave) (hn : ∀ w ∈ ws, ∃ a b : ℤ, w.n = a ∧ w.m = b) :
    MatchesSides (fun p => turbulenceU ws p.1 p.2) 1 1 ∧ MatchesSides (fun p => turbulenceV ws p.1 p.2) 1 1 := by
  have hx (w : Wave) (hw : w ∈ ws) (y : ℝ) : w.sine 0 y = w.sine 1 y := by
    obtain ⟨a, b, ha, hb⟩ := hn w hw
    unfold Wave.sine
    rw [ha, show 2 * π * a * 1 + 2 * π * w.m * y = 2 * π * a * 0 + 2 * π * w.m * y + a * (2 * π) by ring,
      Real.sin_add_int_mul_two_pi]
  have hy (w : Wave) (hw : w ∈ ws) (x : ℝ) : w.sine x 0 = w.sine x 1 := by
    obtain ⟨a, b, ha, hb⟩ := hn w hw
    unfold Wave.sine
    rw [hb, show 2 * π * w.n * x + 2 * π * b * 1 = 2 * π * w.n * x + 2 * π * b * 0 + b * (2 * π) by ring,
      Real.sin_add_int_mul_two_pi]
  refine ⟨⟨fun y => ?_, fun x => ?_⟩, fun y => ?_, fun x => ?_⟩
  · exact congrArg List.sum (List.map_congr_left fun w hw => by simp only [hx w hw])
  · exact congrArg List.sum (List.map_congr_left fun w hw => by simp only [hy w hw])
  · exact congrArg List.sum (List.map_congr_left fun w hw => by simp only [hx w hw])
  · exact congrArg List.sum (List.map_congr_left fun w hw => by simp only [hy w hw])

example : ∀ w ∈ [Wave.mk 3 (-2), Wave.mk 0 5], ∃ a b : ℤ, w.n = a ∧ w.m = b := by
  intro w hw
  simp only [List.mem_cons, List.not_mem_nil, or_false] at hw
  rcases hw with rfl | rfl
  · exact ⟨3, -2, by norm_num, by norm_num⟩
  · exact ⟨0, 5, by norm_num, by norm_num⟩

/-- The wave numbers are drawn from a normal distribution, so they are not whole, and the velocity jumps at the periodic boundary. -/
theorem C90_turbulence_fails :
    ∃ ws : List Wave, (∀ w ∈ ws, w.n * w.n + w.m * w.m ≠ 0) ∧ ¬ MatchesSides (fun p => turbulenceV ws p.1 p.2) 1 1 := by
  refine ⟨[⟨1 / 4, 0⟩], fun w hw => ?_, fun h => ?_⟩
  · rw [List.mem_singleton] at hw
    subst hw
    norm_num
  · have h1 := h.1 0
    simp only [turbulenceV, List.map_cons, List.map_nil, List.sum_cons, List.sum_nil, Wave.sine] at h1
    rw [show 2 * π * (1 / 4) * 1 + 2 * π * 0 * 0 = π / 2 by ring, Real.sin_pi_div_two,
      show 2 * π * (1 / 4) * 0 + 2 * π * 0 * 0 = 0 by ring, Real.sin_zero] at h1
    have hk : sqrt (1 / 4 * (1 / 4) + 0 * 0) = 1 / 4 := by
      rw [show (1 / 4 * (1 / 4) + 0 * 0 : ℝ) = (1 / 4) ^ 2 by norm_num, Real.sqrt_sq (by norm_num)]
    have hpsi : 0 < (⟨1 / 4, 0⟩ : Wave).psi := by
      unfold Wave.psi
      simp only [hk]
      positivity
    have : 0 < (⟨1 / 4, 0⟩ : Wave).psi * 2 * π * (1 / 4) * 1 := by
      have := Real.pi_pos
      positivity
    linarith

/-- Backward facing step: the inflow is zero on both walls and directed into the domain between them. -/
theorem C90_step_inflow {hStep hDomain u : ℝ} (h : hStep < hDomain) (hu : 0 < u) (x : ℝ) :
    stepInflow hStep hDomain u (x, hStep) 0 = some 0 ∧ stepInflow hStep hDomain u (x, hDomain) 0 = some 0 ∧
      ∀ y, hStep < y → y < hDomain → ∃ v, stepInflow hStep hDomain u (x, y) 0 = some v ∧ 0 < v ∧ v ≤ 3 / 2 * u := by
  unfold stepInflow
  simp only [if_neg h.ne']
  refine ⟨?_, ?_, fun y h1 h2 => ⟨_, rfl, ?_, ?_⟩⟩
  · rw [sub_self]; simp
  · rw [sub_self]; simp
  · have hd : 0 < (hDomain - hStep) ^ 2 := by have := sub_pos.2 h; positivity
    have h3 := mul_pos (sub_pos.2 h1) (sub_pos.2 h2)
    have : -u * 1.5 * 4 * (y - hDomain) * (y - hStep) = 6 * u * ((y - hStep) * (hDomain - y)) := by ring
    rw [this]
    positivity
  · have hd : 0 < (hDomain - hStep) ^ 2 := by have := sub_pos.2 h; positivity
    rw [div_le_iff₀ hd]
    nlinarith [mul_nonneg hu.le (sq_nonneg ((y - hStep) - (hDomain - y)))]

example : (0.5 : ℝ) < 1 ∧ (0 : ℝ) < 2 := by norm_num

/-- Lubrication gap: the initial velocity is that of the lower wall on the lower wall, and zero on the upper wall exactly where the gap is
as narrow as `height - amplitude`. -/
theorem C90_lubrication_partial {g : MeshTransform.Lubrication} (hg : g.accepted) {bottom : ℝ} (hb : bottom ≠ 0) (x : ℝ) :
    g.initialVelocity bottom (x, 0) 0 = bottom ∧ (g.initialVelocity bottom (x, g.upper x) 0 = 0 ↔ g.upper x = g.height - g.ampl) := by
  have hd : g.height - g.ampl ≠ 0 := (sub_pos.2 hg).ne'
  unfold MeshTransform.Lubrication.initialVelocity
  refine ⟨by simp, ?_⟩
  simp only [mul_eq_zero, hb, false_or, pow_eq_zero_iff, ne_eq, OfNat.ofNat_ne_zero, not_false_eq_true]
  rw [sub_eq_zero, eq_comm, div_eq_one_iff_eq hd]

example : (⟨1, 0.5, 1, 0, 1⟩ : MeshTransform.Lubrication).accepted ∧ (0.1 : ℝ) ≠ 0 := by
  constructor <;> norm_num [MeshTransform.Lubrication.accepted]

/-- So the fluid does not stick to the upper wall at the start: at the widest point of a gap with `ampl = height / 2` it moves along the
resting wall with four times the velocity of the moving wall. -/
theorem C90_lubrication_fails (bottom h : ℝ) (hh : 0 < h) :
    (⟨h, h / 2, 1, 0, 1⟩ : MeshTransform.Lubrication).accepted ∧
      (⟨h, h / 2, 1, 0, 1⟩ : MeshTransform.Lubrication).initialVelocity bottom
        (0, (⟨h, h / 2, 1, 0, 1⟩ : MeshTransform.Lubrication).upper 0) 0 = 4 * bottom := by
  refine ⟨by show h > h / 2; linarith, ?_⟩
  simp only [MeshTransform.Lubrication.initialVelocity, MeshTransform.Lubrication.upper, mul_zero, zero_div, Real.cos_zero]
  field_simp
  ring

example : (0 : ℝ) < 1 := one_pos

/-- Mixing layer: at the upper and lower boundary (`y = ±π`) the initial velocity has the direction of the prescribed one and is smaller by
less than a tenth, but never equal to it. -/
theorem C90_mixing_partial (x z : ℝ) :
    (0 < mixingBoundary false 0 - mixingVelocity (x, -π, z) 0 ∧ mixingBoundary false 0 - mixingVelocity (x, -π, z) 0 < 1 / 10) ∧
      (0 < mixingVelocity (x, π, z) 0 - mixingBoundary true 0 ∧ mixingVelocity (x, π, z) 0 - mixingBoundary true 0 < 1 / 10) := by
  have h1 := Real.tanh_lt_one (π / 2)
  have h2 : 1 - Real.tanh (π / 2) < 1 / 10 := by
    have h3 := one_sub_tanh_le (π / 2)
    have h4 : exp (-2 * (π / 2)) < 1 / 20 := by
      rw [show -2 * (π / 2) = -π by ring, Real.exp_neg, ← one_div, one_div_lt_one_div (Real.exp_pos _) (by norm_num)]
      have h5 : exp 3 < exp π := Real.exp_lt_exp.2 Real.pi_gt_three
      have h6 : exp 3 = exp 1 ^ 3 := by rw [← Real.exp_nat_mul]; norm_num
      have h7 := Real.exp_one_gt_d9
      have h8 : (2.7182818283 : ℝ) ^ 3 < exp 1 ^ 3 := pow_lt_pow_left₀ h7 (by norm_num) (by norm_num)
      have h9 : (20 : ℝ) < 2.7182818283 ^ 3 := by norm_num
      linarith
    linarith
  simp only [mixingBoundary, mixingVelocity, if_true]
  rw [show - -π / (2 * 1) = π / 2 by ring, show -π / (2 * 1) = -(π / 2) by ring, Real.tanh_neg]
  norm_num
  refine ⟨⟨h1, by linarith⟩, h1, by linarith⟩

/-! ## C91: the states are those of the flow the problem is named after -/

/-- Riemann problem: the four states of the standard configuration (pressures 1, 1, 1 and 0.4, the last up to `3/10000`; velocities 0.7276 in
units of the speed of sound of the stencil), symmetric about the diagonal. -/
theorem C91_riemann (x : ℝ × ℝ) :
    (¬ (1 < x.1 ∧ 1 < x.2) → riemannDensity x * riemannTemperature x = 1) ∧
      (1 < x.1 ∧ 1 < x.2 → |riemannDensity x * riemannTemperature x - 0.4| < 3e-4) ∧
      (riemannDensity (x.2, x.1) = riemannDensity x ∧ riemannTemperature (x.2, x.1) = riemannTemperature x ∧
        riemannVelocity (x.2, x.1) 0 = riemannVelocity x 1) ∧
      (x.1 ≤ 1 ∧ 1 < x.2 → |riemannVelocity x 0 * sqrt 3 - 0.7276| < 1e-4 ∧ riemannVelocity x 1 = 0) ∧
      ((x.1 ≤ 1 ↔ x.2 ≤ 1) → riemannVelocity x = 0) := by
  have hs : |0.42008 * sqrt 3 - 0.7276| < 1e-4 := by
    have h1 : (1.732 : ℝ) < sqrt 3 := by rw [Real.lt_sqrt (by norm_num)]; norm_num
    have h2 : sqrt 3 < (1.7322 : ℝ) := by rw [Real.sqrt_lt' (by norm_num)]; norm_num
    rw [abs_lt]
    constructor <;> linarith
  refine ⟨fun h => ?_, fun h => ?_, ⟨?_, ?_, ?_⟩, fun h => ⟨?_, ?_⟩, fun h => ?_⟩
  · unfold riemannDensity riemannTemperature
    rcases le_or_gt x.1 1 with h1 | h1 <;> rcases le_or_gt x.2 1 with h2 | h2
    · simp [h1, h2]; norm_num
    · simp [h1, h2, not_le.2]
    · simp [h1, h2, not_le.2]
    · exact absurd ⟨h1, h2⟩ h
  · unfold riemannDensity riemannTemperature
    simp [h.1, h.2, not_le.2]
    norm_num [abs_of_pos]
  · unfold riemannDensity
    rcases le_or_gt x.1 1 with h1 | h1 <;> rcases le_or_gt x.2 1 with h2 | h2 <;> simp [h1, h2, not_lt.2, not_le.2]
  · unfold riemannTemperature
    rcases le_or_gt x.1 1 with h1 | h1 <;> rcases le_or_gt x.2 1 with h2 | h2 <;> simp [h1, h2, not_lt.2, not_le.2]
  · unfold riemannVelocity
    simp [and_comm]
  · unfold riemannVelocity
    simp only [h.1, h.2, and_self, if_true]
    exact hs
  · unfold riemannVelocity
    simp only [not_lt.2 h.1, false_and, if_false]
  · funext c
    fin_cases c
    · show riemannVelocity x 0 = 0
      unfold riemannVelocity
      rw [if_neg fun h' => absurd (h.1 h'.1) (not_le.2 h'.2)]
    · show (if x.1 > 1 ∧ x.2 ≤ 1 then 0.42008 else 0 : ℝ) = 0
      rw [if_neg fun h' => absurd (h.2 h'.2) (not_le.2 h'.1)]

/-- Shock tube: at a distance of `1/1000` from the middle the gas is, up to `1.5e-8`, in the two states of Sod's problem: density 8 and
temperature 1.25 left, 1 and 1 right (so the pressures are in the ratio ten to one). -/
theorem C91_sod (length : ℤ) (x : ℝ × ℝ) :
    (x.1 ≤ length / 2 - 1 / 1000 → |sodDensity length x - 8| < 1.5e-8 ∧ |sodTemperature length x - 1.25| < 1.5e-8) ∧
      (length / 2 + 1 / 1000 ≤ x.1 → |sodDensity length x - 1| < 1.5e-8 ∧ |sodTemperature length x - 1| < 1.5e-8) := by
  have he : exp (-2 * (10000 * (1 / 1000))) < 2.1e-9 := by
    rw [show (-2 * (10000 * (1 / 1000)) : ℝ) = -((20 : ℕ) * 1 : ℝ) by norm_num, Real.exp_neg, Real.exp_nat_mul, ← one_div]
    have h1 := Real.exp_one_gt_d9
    have h2 : (2.7182818283 : ℝ) ^ 20 < exp 1 ^ 20 := pow_lt_pow_left₀ h1 (by norm_num) (by norm_num)
    have h3 : 1 / exp 1 ^ 20 < 1 / (2.7182818283 : ℝ) ^ 20 := one_div_lt_one_div_of_lt (by positivity) h2
    refine h3.trans ?_
    norm_num
  refine ⟨fun h => ⟨?_, ?_⟩, fun h => ⟨?_, ?_⟩⟩
  · refine (profile_left (show (8 : ℝ) ≠ 1 by norm_num) (by norm_num) h).trans_lt ?_
    rw [show |(1 : ℝ) - 8| = 7 by norm_num [abs_of_neg]]
    linarith
  · refine (profile_left (show (1.25 : ℝ) ≠ 1 by norm_num) (by norm_num) h).trans_lt ?_
    rw [show |(1 : ℝ) - 1.25| = 0.25 by norm_num [abs_of_neg]]
    linarith
  · refine (profile_right (show (8 : ℝ) ≠ 1 by norm_num) (by norm_num) h).trans_lt ?_
    rw [show |(1 : ℝ) - 8| = 7 by norm_num [abs_of_neg]]
    linarith
  · refine (profile_right (show (1.25 : ℝ) ≠ 1 by norm_num) (by norm_num) h).trans_lt ?_
    rw [show |(1 : ℝ) - 1.25| = 0.25 by norm_num [abs_of_neg]]
    linarith

/-- The state left of the shock in the interaction problem. -/
noncomputable def ShockVortex.left : Gas := ⟨ShockVortex.densityLeft, ShockVortex.velocityLeft, ShockVortex.temperatureLeft⟩

/-- The state right of the shock. -/
noncomputable def ShockVortex.right : Gas := ⟨ShockVortex.densityRight, ShockVortex.velocityRight, ShockVortex.temperatureRight⟩

/-- Shock and vortex: the two states satisfy the Rankine-Hugoniot conditions up to `1e-8`, the gas comes from the right with Mach number 1.2
and leaves with a Mach number below one. -/
theorem C91_shock :
    Gas.Balanced 1e-8 ShockVortex.left ShockVortex.right ∧ ShockVortex.right.mach2 = 1.2 ^ 2 ∧ ShockVortex.left.mach2 < 1 ∧
      ShockVortex.right.u < 0 ∧ ShockVortex.left.u < 0 := by
  have h3 : (0 : ℝ) < sqrt 3 := by positivity
  have s3 : sqrt 3 ^ 2 = (3 : ℝ) := Real.sq_sqrt (by norm_num)
  have tl : sqrt (1.4 * ShockVortex.temperatureLeft) ^ 2 = 1.4 * ShockVortex.temperatureLeft :=
    Real.sq_sqrt (by norm_num [ShockVortex.temperatureLeft])
  have tr : sqrt (1.4 * ShockVortex.temperatureRight) ^ 2 = 1.4 * ShockVortex.temperatureRight :=
    Real.sq_sqrt (by norm_num [ShockVortex.temperatureRight])
  have pl : 0 < sqrt (1.4 * ShockVortex.temperatureLeft) := Real.sqrt_pos.2 (by norm_num [ShockVortex.temperatureLeft])
  have pr : 0 < sqrt (1.4 * ShockVortex.temperatureRight) := Real.sqrt_pos.2 (by norm_num [ShockVortex.temperatureRight])
  have ul : ShockVortex.velocityLeft ^ 2 = ShockVortex.machLeft ^ 2 * (1.4 * ShockVortex.temperatureLeft) / 3 := by
    unfold ShockVortex.velocityLeft
    rw [mul_pow, div_pow, tl, s3]; ring
  have ur : ShockVortex.velocityRight ^ 2 = ShockVortex.machRight ^ 2 * (1.4 * ShockVortex.temperatureRight) / 3 := by
    unfold ShockVortex.velocityRight
    rw [mul_pow, div_pow, tr, s3]; ring
  have nl : ShockVortex.velocityLeft < 0 := by
    unfold ShockVortex.velocityLeft
    have : 0 < ShockVortex.machLeft := by norm_num [ShockVortex.machLeft]
    rw [neg_div, neg_mul]
    exact neg_neg_of_pos (by positivity)
  have nr : ShockVortex.velocityRight < 0 := by
    unfold ShockVortex.velocityRight
    have : 0 < ShockVortex.machRight := by norm_num [ShockVortex.machRight]
    rw [neg_div, neg_mul]
    exact neg_neg_of_pos (by positivity)
  have hur : ShockVortex.velocityRight ≤ -(8 / 10) := by
    have h1 : ShockVortex.velocityRight ^ 2 = 0.672 := by
      rw [ur]; norm_num [ShockVortex.machRight, ShockVortex.temperatureRight]
    nlinarith
  refine ⟨⟨?_, ?_, ?_⟩, ?_, ?_, nr, nl⟩
  · show |ShockVortex.densityLeft * ShockVortex.velocityLeft - ShockVortex.densityRight * ShockVortex.velocityRight| ≤ 1e-8
    set a := ShockVortex.densityLeft * ShockVortex.velocityLeft with ha
    set b := ShockVortex.densityRight * ShockVortex.velocityRight with hb
    have hab : |a ^ 2 - b ^ 2| ≤ 8e-9 := by
      rw [ha, hb, mul_pow, mul_pow, ul, ur, abs_le]
      norm_num [ShockVortex.machRight, ShockVortex.temperatureRight, ShockVortex.machLeft, ShockVortex.temperatureLeft,
        ShockVortex.densityLeft, ShockVortex.densityRight]
    have hbneg : b ≤ -(8 / 10) := by rw [hb]; unfold ShockVortex.densityRight; linarith
    have haneg : a < 0 := mul_neg_of_pos_of_neg (by norm_num [ShockVortex.densityLeft]) nl
    rw [show a ^ 2 - b ^ 2 = (a - b) * (a + b) by ring, abs_mul] at hab
    have hsum : 8 / 10 ≤ |a + b| := by rw [abs_of_neg (by linarith)]; linarith
    have h0 := abs_nonneg (a - b)
    nlinarith
  · show |ShockVortex.densityLeft * ShockVortex.velocityLeft ^ 2 + ShockVortex.densityLeft * ShockVortex.temperatureLeft / 3 -
      (ShockVortex.densityRight * ShockVortex.velocityRight ^ 2 + ShockVortex.densityRight * ShockVortex.temperatureRight / 3)| ≤ 1e-8
    rw [ul, ur, abs_le]
    norm_num [ShockVortex.machRight, ShockVortex.temperatureRight, ShockVortex.machLeft, ShockVortex.temperatureLeft,
      ShockVortex.densityLeft, ShockVortex.densityRight]
  · show |ShockVortex.velocityLeft ^ 2 / 2 + (7 / 5) / (7 / 5 - 1) * (ShockVortex.temperatureLeft / 3) -
      (ShockVortex.velocityRight ^ 2 / 2 + (7 / 5) / (7 / 5 - 1) * (ShockVortex.temperatureRight / 3))| ≤ 1e-8
    rw [ul, ur, abs_le]
    norm_num [ShockVortex.machRight, ShockVortex.temperatureRight, ShockVortex.machLeft, ShockVortex.temperatureLeft]
  · show ShockVortex.velocityRight ^ 2 / (7 / 5 * (ShockVortex.temperatureRight / 3)) = 1.2 ^ 2
    rw [ur]
    norm_num [ShockVortex.machRight, ShockVortex.temperatureRight]
  · show ShockVortex.velocityLeft ^ 2 / (7 / 5 * (ShockVortex.temperatureLeft / 3)) < 1
    rw [ul]
    norm_num [ShockVortex.machLeft, ShockVortex.temperatureLeft]

/-- The vortex: the velocity it adds is perpendicular to the radius and turns in the same sense everywhere, its speed is
`Ma c r e^((1-r²)/2)` with the local speed of sound `c`, and density and temperature satisfy the isentropic relation
`ρ/ρ₀ = (T/T₀)^(1/(γ-1))`. -/
theorem C91_vortex {maV : ℝ} (h : maV ^ 2 ≤ 1.8) {x : ℝ × ℝ} (h5 : ShockVortex.radius x ≤ 5) (hx : x ≠ (32, 12)) :
    (x.1 - 32) * ShockVortex.vortexVelocity maV x 0 + (x.2 - 12) * ShockVortex.vortexVelocity maV x 1 = 0 ∧
      (x.1 - 32) * ShockVortex.vortexVelocity maV x 1 - (x.2 - 12) * ShockVortex.vortexVelocity maV x 0 =
        maV * sqrt (7 / 5 * ShockVortex.temperature maV x / 3) * ShockVortex.radius x ^ 2 *
          exp ((1 - ShockVortex.radius x ^ 2) / 2) ∧
      ∃ ρ, ShockVortex.density maV x = some ρ ∧
        ρ / profile ShockVortex.densityLeft ShockVortex.densityRight ShockVortex.shockSteepness ShockVortex.shockPosition x.1 =
          (ShockVortex.temperature maV x /
            profile ShockVortex.temperatureLeft ShockVortex.temperatureRight ShockVortex.shockSteepness ShockVortex.shockPosition x.1) ^
            (1 / (7 / 5 - 1) : ℝ) := by
  have hr0 : ShockVortex.radius x ≠ 0 := fun h0 => hx (ShockVortex.radius_eq_zero h0)
  have hrel : ShockVortex.rel x = (x.1 - 32, x.2 - 12) := by
    unfold ShockVortex.rel ShockVortex.shockPosition ShockVortex.vortexOffset
    norm_num
  have hr2 : ShockVortex.radius x ^ 2 = (x.1 - 32) ^ 2 + (x.2 - 12) ^ 2 := by
    unfold ShockVortex.radius
    rw [Real.sq_sqrt (by nlinarith [mul_self_nonneg (ShockVortex.rel x).1, mul_self_nonneg (ShockVortex.rel x).2]), hrel]
    ring
  have hT := ShockVortex.temperature_pos h x
  refine ⟨?_, ?_, ?_⟩
  · unfold ShockVortex.vortexVelocity
    simp only [hrel]
    ring
  · have hs : ShockVortex.vortexSpeed maV x = maV * sqrt (7 / 5 * ShockVortex.temperature maV x / 3) := by
      unfold ShockVortex.vortexSpeed
      rw [show (1.4 : ℝ) = 7 / 5 by norm_num, Real.sqrt_div (by positivity)]
      ring
    unfold ShockVortex.vortexVelocity
    simp only [hrel, ← pow_two]
    rw [hs, hr2]
    field_simp
    ring
  · have hv := ShockVortex.vortexFactor_pos h (ShockVortex.radius x)
    have hp := profile_pos ShockVortex.density_ne (show 0 < ShockVortex.densityLeft by norm_num [ShockVortex.densityLeft])
      (show 0 < ShockVortex.densityRight by norm_num [ShockVortex.densityRight]) ShockVortex.shockSteepness ShockVortex.shockPosition x.1
    have hq := profile_pos ShockVortex.temperature_ne (show 0 < ShockVortex.temperatureLeft by norm_num [ShockVortex.temperatureLeft])
      (show 0 < ShockVortex.temperatureRight by norm_num [ShockVortex.temperatureRight]) ShockVortex.shockSteepness
      ShockVortex.shockPosition x.1
    unfold ShockVortex.density
    rw [if_pos h5, if_neg (not_lt.2 hv.le)]
    refine ⟨_, rfl, ?_⟩
    unfold ShockVortex.temperature
    rw [if_pos h5, mul_div_cancel_left₀ _ hp.ne', mul_div_cancel_left₀ _ hq.ne']
    norm_num

example : ShockVortex.radius (33, 12) ≤ 5 ∧ ((33, 12) : ℝ × ℝ) ≠ (32, 12) := by
  refine ⟨?_, fun h => ?_⟩
  · unfold ShockVortex.radius ShockVortex.rel ShockVortex.shockPosition ShockVortex.vortexOffset
    rw [show ((33 : ℝ) - (30 + 2)) * (33 - (30 + 2)) + (12 - 12) * (12 - 12) = 1 by norm_num, Real.sqrt_one]
    norm_num
  · have : (33 : ℝ) = 32 := congrArg Prod.fst h
    norm_num at this

/-- Decaying turbulence: whatever waves are drawn, the initial velocity is free of divergence at every point. -/
theorem C91_turbulence (ws : List Wave) (_h : ∀ w ∈ ws, w.n * w.n + w.m * w.m ≠ 0) (x y : ℝ) :
    ∃ a b, HasDerivAt (fun t => turbulenceU ws t y) a x ∧ HasDerivAt (fun t => turbulenceV ws x t) b y ∧ a + b = 0 := by
  refine ⟨_, _, hasDerivAt_list_sum ws (fun w t => -w.psi * 2 * π * w.m * w.sine t y) _ x fun w _ =>
      (w.sine_x x y).const_mul (-w.psi * 2 * π * w.m),
    hasDerivAt_list_sum ws (fun w t => w.psi * 2 * π * w.n * w.sine x t) _ y fun w _ =>
      (w.sine_y x y).const_mul (w.psi * 2 * π * w.n), sum_eq_neg ws _ _ fun w _ => ?_⟩
  ring

example : ∀ w ∈ [Wave.mk 3.7 (-2.2)], w.n * w.n + w.m * w.m ≠ 0 := by
  intro w hw
  rw [List.mem_singleton] at hw
  subst hw
  norm_num

/-- Density wave on the unit square (the size the driver uses): the reference density is carried along with the velocity of the flow, and at
the end time of the driver it is the initial one again. -/
theorem C91_smooth_partial (U : ℝ) :
    (∀ t x, ∃ a b, HasDerivAt (fun s => smoothDensity 1 U s x) a t ∧ HasDerivAt (fun s => smoothDensity 1 U t (s, x.2)) b x.1 ∧
      a + smoothVelocity U x 0 * b = 0) ∧
    ∀ c, c ≠ 0 → ∃ T, smoothDriverEnd c = some T ∧ ∀ x, smoothDensity 1 (smoothDriverVelocity c) T x =
      smoothDensity 1 (smoothDriverVelocity c) 0 x := by
  refine ⟨fun t x => ⟨_, _, smoothDensity_t 1 U t x, smoothDensity_x 1 U t x, ?_⟩, fun c hc => ?_⟩
  · simp only [smoothVelocity]
    ring
  · refine ⟨1 / c / (sqrt 1.4 / sqrt 3), by unfold smoothDriverEnd; rw [if_neg hc], fun x => ?_⟩
    have h1 : (0 : ℝ) < sqrt 1.4 := by positivity
    have h2 : (0 : ℝ) < sqrt 3 := by positivity
    have : smoothDriverVelocity c * (1 / c / (sqrt 1.4 / sqrt 3)) = 1 := by
      unfold smoothDriverVelocity
      field_simp
    unfold smoothDensity
    rw [show 2 * π * x.1 / 1 - 2 * π * smoothDriverVelocity c * (1 / c / (sqrt 1.4 / sqrt 3)) =
      2 * π * x.1 / 1 - 2 * π * smoothDriverVelocity c * 0 -
        2 * π * (smoothDriverVelocity c * (1 / c / (sqrt 1.4 / sqrt 3))) by ring, this, mul_one, Real.sin_sub_two_pi]

example : (1 : ℝ) ≠ 0 := one_ne_zero

/-- For every other size, in particular for the size `2π` and the velocity 1 that the constructor has as defaults
(`examples/step-13/SmoothDensityPropagation.h:66`), it is not: the wave of the reference solution moves `L` times as fast as the fluid. -/
theorem C91_smooth_fails {L U : ℝ} (hL : 0 < L) (h1 : L ≠ 1) (hU : U ≠ 0) :
    ∃ t x a b, HasDerivAt (fun s => smoothDensity L U s x) a t ∧ HasDerivAt (fun s => smoothDensity L U t (s, x.2)) b x.1 ∧
      a + smoothVelocity U x 0 * b ≠ 0 := by
  refine ⟨0, (0, L / 4), _, _, smoothDensity_t L U 0 (0, L / 4), smoothDensity_x L U 0 (0, L / 4), ?_⟩
  simp only [smoothVelocity]
  rw [show L / 4 * (2 * π) / L = π / 2 by field_simp; ring, Real.sin_pi_div_two,
    show 2 * π * 0 / L - 2 * π * U * 0 = 0 by ring, Real.cos_zero]
  have hpi := Real.pi_pos
  intro h
  have h2 : U * (1 / L - 1) = 0 := by
    have : 0.2 * (1 * -(2 * π * U) * 1) + U * (0.2 * (1 * (2 * π / L) * 1)) = 0.4 * π * (U * (1 / L - 1)) := by ring
    rw [this] at h
    rcases mul_eq_zero.1 h with h | h
    · have : 0 < 0.4 * π := by positivity
      linarith
    · exact h
  rcases mul_eq_zero.1 h2 with h | h
  · exact hU h
  · apply h1
    rw [sub_eq_zero, div_eq_iff hL.ne', one_mul] at h
    exact h.symm

example : (0 : ℝ) < 2 * π ∧ 2 * π ≠ 1 ∧ (1 : ℝ) ≠ 0 := by
  have := Real.pi_gt_three
  exact ⟨by positivity, by linarith, one_ne_zero⟩

/-- Without a velocity on the command line (its default is zero) the end time of the driver is a division by zero. -/
theorem C91_smooth_end_fails : smoothDriverEnd 0 = none := by simp [smoothDriverEnd]

/-- Backward facing step: the mean of the inflow over the height of the inlet is the velocity the problem was given. -/
theorem C91_step_inflow {hStep hDomain u : ℝ} (h : hStep < hDomain) (x : ℝ) :
    ∃ v : ℝ → ℝ, (∀ y, stepInflow hStep hDomain u (x, y) 0 = some (v y)) ∧
      (∫ y in hStep..hDomain, v y) / (hDomain - hStep) = u := by
  refine ⟨fun y => -u * 1.5 * 4 * (y - hDomain) * (y - hStep) / (hDomain - hStep) ^ 2, fun y => ?_, ?_⟩
  · unfold stepInflow
    simp only [if_neg h.ne']
  · have hd : hDomain - hStep ≠ 0 := (sub_pos.2 h).ne'
    have key : ∀ y ∈ Set.uIcc hStep hDomain, HasDerivAt (fun y => -6 * u / (hDomain - hStep) ^ 2 *
        (y ^ 3 / 3 - (hDomain + hStep) * (y ^ 2 / 2) + hDomain * hStep * y))
        (-u * 1.5 * 4 * (y - hDomain) * (y - hStep) / (hDomain - hStep) ^ 2) y := by
      intro y _
      have h3 := (hasDerivAt_pow 3 y).div_const 3
      have h2 := ((hasDerivAt_pow 2 y).div_const 2).const_mul (hDomain + hStep)
      have h1 := (hasDerivAt_id y).const_mul (hDomain * hStep)
      refine (((h3.sub h2).add h1).const_mul (-6 * u / (hDomain - hStep) ^ 2)).congr_deriv ?_
      norm_num
      ring
    rw [intervalIntegral.integral_eq_sub_of_hasDerivAt key (Continuous.intervalIntegrable (by fun_prop) _ _)]
    field_simp
    ring

example : (0.5 : ℝ) < 1 := by norm_num

end InitialStates

end NATriuM
