import Verif.Lemmas.MeshTransform
import Mathlib.Tactic.NormNum

/-!
# Properties C87 and C88: the mesh transformations
-/

namespace NATriuM

namespace MeshTransform

open Real Set MeshTransformSpec

/-! ## C87: the transformed mesh covers the flow domain exactly once -/

/-- Shear layer, Riemann problem, shock tube: for every accepted pair of parameters the transformation carries a domain with integer sides
onto itself, one to one, and keeps the order of the points. -/
theorem C87_wave_domain (L H : ℕ) {tX tY : ℝ} (h : trafoAccepted tX tY) :
    BijOn (wave tX tY) (rectangle L H) (rectangle L H) ∧ KeepsOrder (wave tX tY) (rectangle L H) := by
  obtain ⟨h1, h2, h3, h4⟩ := h
  have mX := waveTrans_strictMono h1 h2
  have mY := waveTrans_strictMono h3 h4
  have zero (t : ℝ) : waveTrans t 0 = 0 := by simpa using waveTrans_nat t 0
  refine ⟨bijOn_rectangle ?_ ?_, keepsOrder_of (Y := fun _ => waveTrans tY) (mX.strictMonoOn _) fun _ _ => mY.strictMonoOn _⟩
  · exact bijOn_of_strictMono mX (waveTrans_continuous _) (by positivity) (zero _) (waveTrans_nat _ _)
  · exact bijOn_of_strictMono mY (waveTrans_continuous _) (by positivity) (zero _) (waveTrans_nat _ _)

example : trafoAccepted 0.5 0.9 := by norm_num [trafoAccepted]

/-- The grid is really refined: for a positive parameter a vertex that is no fixed point moves. -/
example : waveTrans 0.5 (1 / 8) ≠ 1 / 8 := by
  rw [waveTrans_eq, show 4 * π * (1 / 8) = π / 2 by ring, Real.sin_pi_div_two]
  have := Real.pi_pos
  have h : 0 < 0.5 / (4 * π) * 1 := by positivity
  linarith

/-- Interaction of a shock and a vortex: without refinement in the second direction the domain is kept. -/
theorem C87_shock_domain_partial {tX : ℝ} (h0 : 0 ≤ tX) (h1 : tX < 1) :
    BijOn (shock tX 0) (rectangle 60 24) (rectangle 60 24) ∧ KeepsOrder (shock tX 0) (rectangle 60 24) := by
  have mX := shockTrans_strictMono h0 h1
  have mY := shockTrans_strictMono (le_refl (0 : ℝ)) one_pos
  have zero (t : ℝ) : shockTrans t 0 = 0 := by simp [shockTrans]
  refine ⟨bijOn_rectangle ?_ ?_, keepsOrder_of (Y := fun _ => shockTrans 0) (mX.strictMonoOn _) fun _ _ => mY.strictMonoOn _⟩
  · refine bijOn_of_strictMono mX (shockTrans_continuous _) (by norm_num) (zero _) ?_
    have := shockTrans_mul tX 2
    norm_num at this
    exact this
  · refine bijOn_of_strictMono mY (shockTrans_continuous _) (by norm_num) (zero _) ?_
    rw [shockTrans_eq]; simp

example : (0 : ℝ) ≤ 0.9 ∧ (0.9 : ℝ) < 1 := by norm_num

/-- With refinement in the second direction the mesh is larger than the domain, for every accepted parameter: the upper boundary at
`y = 24` moves, because the period of the transformation (30) does not fit the height. -/
theorem C87_shock_domain_fails {tX tY : ℝ} (_ : trafoAccepted tX tY) (hp : 0 < tY) :
    ¬ MapsTo (shock tX tY) (rectangle 60 24) (rectangle 60 24) := by
  intro hm
  have h := hm (x := (0, 24)) ⟨le_refl _, by norm_num, by norm_num, le_refl _⟩
  have h2 : shockTrans tY 24 ≤ 24 := h.2.2.2
  rw [shockTrans_eq] at h2
  have hpi := Real.pi_pos
  have hs : 0 < sin (π / 30 * 24) := Real.sin_pos_of_pos_of_lt_pi (by positivity) (by linarith)
  have : 0 < 30 * tY / π * sin (π / 30 * 24) := by positivity
  linarith

example : trafoAccepted 0 0.5 ∧ (0 : ℝ) < 0.5 := by norm_num [trafoAccepted]

/-- Turbulent channel: if the density parameter is below one in absolute value, the transformation carries the unit cube onto the channel,
one to one, keeps the order of the layers, and refines both walls alike. -/
theorem C87_channel_domain_partial {l h w g : ℝ} (hl : 0 < l) (hh : 0 < h) (hw : 0 < w) (hg : |g| < 1) :
    BijOn (channel l h w g) (box 1 1 1) (box l h w) ∧ StrictMono (channelTrans h g) ∧
      ∀ y, channelTrans h g (1 - y) = h - channelTrans h g y := by
  have lin {c : ℝ} (hc : 0 < c) : BijOn (fun x => c * x) (Icc 0 1) (Icc 0 c) :=
    bijOn_of_strictMono (fun x y hxy => mul_lt_mul_of_pos_left hxy hc) (by fun_prop) zero_le_one (mul_zero _) (mul_one _)
  refine ⟨bijOn_box (lin hl) ?_ (lin hw), channelTrans_strictMono hh hg, fun y => ?_⟩
  · exact bijOn_of_strictMono (channelTrans_strictMono hh hg) (channelTrans_continuous _ _) zero_le_one (channelTrans_zero _ _)
      (channelTrans_one _ _)
  · rw [channelTrans_eq, channelTrans_eq, show 2 * π * (1 - y) = 2 * π - 2 * π * y by ring, Real.sin_two_pi_sub]
    ring

example : |(0.8 : ℝ)| < 1 := by norm_num [abs_of_pos]

/-- A larger density turns cells inside out: vertices leave the channel through the wall.  No check rejects it. -/
theorem C87_channel_domain_fails {l h w : ℝ} (hh : 0 < h) :
    ¬ MapsTo (channel l h w 2) (box 1 1 1) (box l h w) := by
  intro hm
  have h1 := hm (x := (0, 1 / 4, 0)) ⟨le_refl _, by norm_num, by norm_num, by norm_num, le_refl _, by norm_num⟩
  have h2 : 0 ≤ channelTrans h 2 (1 / 4) := h1.2.2.1
  rw [channelTrans_eq, show 2 * π * (1 / 4) = π / 2 by ring, Real.sin_pi_div_two] at h2
  have hpi := Real.pi_pos
  have h4 := Real.pi_lt_four
  have h3 : 1 / 4 + -2 / (2 * π) * 1 < 0 := by
    have : -2 / (2 * π) * 1 = -(1 / π) := by field_simp
    rw [this]
    have : 1 / 4 < 1 / π := one_div_lt_one_div_of_lt hpi h4
    linarith
  have := mul_neg_of_neg_of_pos h3 hh
  linarith

example : (0 : ℝ) < 1 := one_pos

/-- The driver of the turbulent channel does not pass the grid density on: whatever value is requested, the mesh is built with 0.8, and the
value only decides, as a truth value, whether the domain is periodic.  So requesting the density `d` (other than 0.8) never gives it, and
requesting an equidistant grid (`0`) gives a refined channel without periodic boundaries. -/
theorem C87_channel_driver_fails :
    (∀ d, (channelDriver d).gridDensity = 0.8) ∧ (∀ d, d ≠ 0.8 → (channelDriver d).gridDensity ≠ d) ∧
      (channelDriver 0).isPeriodic = false := by
  refine ⟨fun d => rfl, fun d hd h => hd h.symm, ?_⟩
  simp [channelDriver]

example : (channelDriver 0.8).isPeriodic = true ∧ (channelDriver 0.8).gridDensity = 0.8 := by
  refine ⟨?_, rfl⟩
  simp only [channelDriver, decide_eq_true_eq]
  norm_num

/-- Plane Couette flow of unit size: the mesh refined at the walls covers the domain, one to one and in order. -/
theorem C87_couette2D_domain_partial (u : Bool) :
    BijOn (couette2D u) (rectangle 1 1) (rectangle 1 1) ∧ KeepsOrder (couette2D u) (rectangle 1 1) := by
  cases u
  · have : couette2D false = id := by funext p; simp [couette2D]
    rw [this]
    exact ⟨bijOn_id _, fun _ _ _ _ h => h, fun _ _ _ _ h1 h2 => ⟨h1, h2⟩⟩
  · have : couette2D true = fun p : ℝ × ℝ => (id p.1, couette2DTrans p.2) := by funext p; simp [couette2D]
    rw [this]
    refine ⟨bijOn_rectangle (bijOn_id _) ?_, keepsOrder_of (X := id) (Y := fun _ => couette2DTrans) (strictMono_id.strictMonoOn _)
      fun _ _ => couette2DTrans_strictMono.strictMonoOn _⟩
    exact bijOn_of_strictMono couette2DTrans_strictMono couette2DTrans_continuous zero_le_one couette2DTrans_zero couette2DTrans_one

/-- For a size of two or more (the constructor accepts every size) the transformed mesh does not reach the upper wall: the transformation
is written for the unit square. -/
theorem C87_couette2D_domain_fails {L : ℝ} (hL : 2 ≤ L) : ¬ SurjOn (couette2D true) (rectangle L L) (rectangle L L) := by
  intro hs
  obtain ⟨p, _, hp⟩ := hs (a := (0, L)) ⟨le_refl _, by linarith, by linarith, le_refl _⟩
  have h1 : couette2DTrans p.2 = L := by
    have := congrArg Prod.snd hp
    simpa [couette2D] using this
  have h2 := half_lt_tanh_two
  have h3 := Real.tanh_lt_one (4 * (p.2 - 0.5))
  unfold couette2DTrans at h1
  have h4 : Real.tanh (4 * (p.2 - 0.5)) / Real.tanh 2 < 2 := by
    rw [div_lt_iff₀ (by linarith)]; linarith
  linarith

example : (2 : ℝ) ≤ 3 := by norm_num

/-- Couette flow in three dimensions: the transformation drops the third coordinate, so the refined mesh is flat. -/
theorem C87_couette3D_domain_fails {L H W : ℝ} (hL : 0 ≤ L) (hH : 0 ≤ H) (hW : 0 < W) :
    ¬ InjOn (couette3D true) (box L H W) ∧ ∀ p, (couette3D true p).2.2 = 0 := by
  refine ⟨fun hi => ?_, fun p => by simp [couette3D]⟩
  have := hi (x₁ := (0, 0, 0)) (x₂ := (0, 0, W)) ⟨le_refl _, hL, le_refl _, hH, le_refl _, hW.le⟩
    ⟨le_refl _, hL, le_refl _, hH, hW.le, le_refl _⟩ (by simp [couette3D])
  have h2 : (0 : ℝ) = W := congrArg (fun p : ℝ × ℝ × ℝ => p.2.2) this
  linarith

example : (0 : ℝ) ≤ 1 ∧ (0 : ℝ) < 1 := by norm_num

/-- Couette flow in three dimensions, first two coordinates: the mesh keeps its walls at heights 0 and 1 and its order, and without the transformation it is
left as it is.  Missing: the third coordinate, see `C87_couette3D_domain_fails`. -/
theorem C87_couette3D_domain_partial :
    BijOn (fun p : ℝ × ℝ => ((couette3D true (p.1, p.2, 0)).1, (couette3D true (p.1, p.2, 0)).2.1)) (rectangle 1 1) (rectangle 1 1) ∧
    (∀ p q, p.2.1 < q.2.1 → (couette3D true p).2.1 < (couette3D true q).2.1) ∧ couette3D false = id := by
  have h2 := tanh_pos (show (0 : ℝ) < 2 by norm_num)
  have hmono : StrictMono couette3DTrans := fun x y h => (div_lt_div_iff_of_pos_right h2).2 (tanh_strictMono (by linarith))
  have hcont : Continuous couette3DTrans := (continuous_tanh.comp (show Continuous fun y : ℝ => 2 * y by fun_prop)).div_const _
  refine ⟨?_, fun p q h => by simpa [couette3D] using hmono h, by funext p; simp [couette3D]⟩
  have : (fun p : ℝ × ℝ => ((couette3D true (p.1, p.2, 0)).1, (couette3D true (p.1, p.2, 0)).2.1)) = fun p => (id p.1, couette3DTrans p.2) := by
    funext p; simp [couette3D]
  rw [this]
  exact bijOn_rectangle (bijOn_id _) (bijOn_of_strictMono hmono hcont zero_le_one (by simp [couette3DTrans])
    (by rw [couette3DTrans, mul_one]; exact div_self h2.ne'))

example : (couette3D true (0, 1 / 4, 0)).2.1 < (couette3D true (0, 1 / 2, 0)).2.1 := C87_couette3D_domain_partial.2.1 _ _ (by norm_num)

/-- Lubrication gap: if the two amplitudes together stay below the mean height, the transformation carries the rectangle of the mesh onto
the gap below the curved wall, one to one and in order; the wall vertices go to the walls; and the two ends match, as the periodic boundary
needs. -/
theorem C87_lubrication_domain_partial {g : Lubrication} (hL : 0 < g.wavelength) (hh : 0 < g.height)
    (ha : |g.ampl| + |g.roughnessHeight| < g.height) :
    BijOn g.map (rectangle g.wavelength g.height) (gap g.wavelength fun x => g.height + g.ampl * cos (2 * π * x / g.wavelength) +
        g.roughnessHeight * cos (2 * π * g.roughnessLengthRatio * x / g.wavelength)) ∧
      KeepsOrder g.map (rectangle g.wavelength g.height) ∧
      (∀ y, (g.map (g.wavelength, y)).2 = (g.map (0, y)).2) ∧
      ∀ x, (g.map (x, 0)).2 = 0 ∧ (g.map (x, g.height)).2 = g.upper (g.map (x, g.height)).1 := by
  have hup : g.upper = fun x => g.height + g.ampl * cos (2 * π * x / g.wavelength) +
      g.roughnessHeight * cos (2 * π * g.roughnessLengthRatio * x / g.wavelength) := by
    funext x
    unfold Lubrication.upper
    rw [show 2 * π * x / (g.wavelength / g.roughnessLengthRatio) = 2 * π * g.roughnessLengthRatio * x / g.wavelength by
      rw [div_div_eq_mul_div]; ring]
  have hamp : |g.ampl| < g.height := by linarith [abs_nonneg g.roughnessHeight]
  have mX := Lubrication.refineBoundaryX_strictMono hL hh hamp
  rw [← hup]
  refine ⟨?_, ?_, fun y => ?_, fun x => ⟨?_, ?_⟩⟩
  · rw [Lubrication.map_eq]
    refine bijOn_gap (Y := fun x y => g.trans (g.refineBoundaryX x) (g.refineBoundaryY y)) ?_ fun x _ => ?_
    · exact bijOn_of_strictMono mX g.refineBoundaryX_continuous hL.le g.refineBoundaryX_zero (Lubrication.refineBoundaryX_length hL.ne')
    · exact bijOn_of_strictMono (Lubrication.column_strictMono hh ha _) (g.column_continuous _) hh.le (g.column_zero _)
        (Lubrication.column_height hh.ne' _)
  · rw [Lubrication.map_eq]
    exact keepsOrder_of (Y := fun x y => g.trans (g.refineBoundaryX x) (g.refineBoundaryY y)) (mX.strictMonoOn _)
      fun x _ => (Lubrication.column_strictMono hh ha _).strictMonoOn _
  · simp only [Lubrication.map, Lubrication.trans]
    rw [g.refineBoundaryX_zero, Lubrication.refineBoundaryX_length hL.ne', Lubrication.upper_periodic hL.ne']
  · exact g.column_zero _
  · exact Lubrication.column_height hh.ne' _

/-- A gap that meets the hypotheses. -/
noncomputable def sampleGap : Lubrication := ⟨1, 1 / 2, 3, 1 / 4, 5⟩

example : 0 < sampleGap.wavelength ∧ 0 < sampleGap.height ∧ |sampleGap.ampl| + |sampleGap.roughnessHeight| < sampleGap.height := by
  simp only [sampleGap]
  norm_num [abs_of_pos]

/-- The constructor only asks that the height exceeds the amplitude: with roughness, or with a negative amplitude, accepted gaps have their
upper wall below the lower wall. -/
theorem C87_lubrication_domain_fails :
    (∃ g : Lubrication, g.accepted ∧ 0 < g.ampl ∧ 0 < g.wavelength ∧ ∃ p ∈ rectangle g.wavelength g.height, (g.map p).2 < 0) ∧
      ∃ g : Lubrication, g.accepted ∧ g.roughnessHeight = 0 ∧ 0 < g.wavelength ∧
        ∃ p ∈ rectangle g.wavelength g.height, (g.map p).2 < 0 := by
  refine ⟨⟨⟨1, 1 / 2, 1, 1, 1⟩, ?_, ?_, ?_, (1 / 2, 1), ?_, ?_⟩, ⟨⟨1, -2, 1, 0, 1⟩, ?_, rfl, ?_, (0, 1), ?_, ?_⟩⟩
  · norm_num [Lubrication.accepted]
  · norm_num
  · norm_num
  · norm_num [rectangle]
  · have hx : (⟨1, 1 / 2, 1, 1, 1⟩ : Lubrication).refineBoundaryX (1 / 2) = 1 / 2 := by
      simp only [Lubrication.refineBoundaryX]
      rw [show 2 * π * (1 / 2) / 1 = π by ring, Real.sin_pi]; ring
    show (⟨1, 1 / 2, 1, 1, 1⟩ : Lubrication).trans _ _ < 0
    rw [show (⟨1, 1 / 2, 1, 1, 1⟩ : Lubrication).refineBoundaryY 1 = 1 from refineY_self one_ne_zero, hx]
    simp only [Lubrication.trans, Lubrication.upper, Nat.cast_one]
    rw [show 2 * π * (1 / 2) / (1 / 1) = π by ring, show 2 * π * (1 / 2) / 1 = π by ring, Real.cos_pi]
    norm_num
  · norm_num [Lubrication.accepted]
  · norm_num
  · norm_num [rectangle]
  · show (⟨1, -2, 1, 0, 1⟩ : Lubrication).trans _ _ < 0
    rw [show (⟨1, -2, 1, 0, 1⟩ : Lubrication).refineBoundaryY 1 = 1 from refineY_self one_ne_zero, Lubrication.refineBoundaryX_zero]
    simp only [Lubrication.trans, Lubrication.upper, Nat.cast_one, mul_zero, zero_div, Real.cos_zero]
    norm_num

/-- Sinusoidal channel: for an amplitude of at most two that is below the height, the unit square of the mesh is carried onto the channel,
one to one and in order, and the two ends match. -/
theorem C87_sinusoidal_domain_partial {g : Sinusoidal} (hL : 0 < g.wavelength) (ha : |g.ampl| < g.height) (h2 : |g.ampl| ≤ 2) :
    BijOn g.map (rectangle 1 1) (gap g.wavelength fun x => g.height + g.ampl * sin (2 * π * x / g.wavelength)) ∧
      KeepsOrder g.map (rectangle 1 1) ∧ ∀ y, (g.map (1, y)).2 = (g.map (0, y)).2 := by
  have mX := Sinusoidal.refineBoundaryX_strictMono h2
  have mXL : StrictMono fun x => g.wavelength * g.refineBoundaryX x := fun x y h => mul_lt_mul_of_pos_left (mX h) hL
  have mY (x : ℝ) : StrictMono fun y => g.trans x (Sinusoidal.refineBoundaryY y) := fun y y' h =>
    mul_lt_mul_of_pos_right (Sinusoidal.refineBoundaryY_strictMono h) (Sinusoidal.upper_pos ha _)
  have hmap : g.map = fun p : ℝ × ℝ => ((fun x => g.wavelength * g.refineBoundaryX x) p.1,
      (fun x y => g.trans (g.refineBoundaryX x) (Sinusoidal.refineBoundaryY y)) p.1 p.2) := rfl
  refine ⟨?_, ?_, fun y => ?_⟩
  · rw [hmap]
    refine bijOn_gap (X := fun x => g.wavelength * g.refineBoundaryX x)
      (Y := fun x y => g.trans (g.refineBoundaryX x) (Sinusoidal.refineBoundaryY y)) ?_ fun x _ => ?_
    · refine bijOn_of_strictMono mXL (continuous_const.mul g.refineBoundaryX_continuous) zero_le_one ?_ ?_
      · simp only [g.refineBoundaryX_zero, mul_zero]
      · simp only [g.refineBoundaryX_one, mul_one]
    · refine bijOn_of_strictMono (mY _) (Sinusoidal.refineBoundaryY_continuous.mul continuous_const) zero_le_one ?_ ?_
      · simp only [Sinusoidal.trans, Sinusoidal.refineBoundaryY_zero, zero_mul]
      · simp only [Sinusoidal.trans, Sinusoidal.refineBoundaryY_one, one_mul]
        rw [show 2 * π * (g.wavelength * g.refineBoundaryX x) / g.wavelength = 2 * π * g.refineBoundaryX x by
          field_simp]
  · rw [hmap]
    exact keepsOrder_of (X := fun x => g.wavelength * g.refineBoundaryX x)
      (Y := fun x y => g.trans (g.refineBoundaryX x) (Sinusoidal.refineBoundaryY y)) (mXL.strictMonoOn _)
      fun x _ => (mY _).strictMonoOn _
  · simp only [Sinusoidal.map, Sinusoidal.trans]
    rw [g.refineBoundaryX_zero, g.refineBoundaryX_one, mul_one, mul_zero, Real.sin_two_pi, Real.sin_zero]

example : (0 : ℝ) < 3 ∧ |(0.4 : ℝ)| < 1 ∧ |(0.4 : ℝ)| ≤ 2 := by norm_num [abs_of_pos]

/-- For a large amplitude, accepted by the constructor because the channel is higher, the refinement along the channel moves vertices out
of it: the strength of the refinement grows with the amplitude but not with the height. -/
theorem C87_sinusoidal_domain_fails :
    ∃ g : Sinusoidal, g.accepted ∧ 0 < g.ampl ∧ 0 < g.wavelength ∧ ∃ p ∈ rectangle 1 1, (g.map p).1 < 0 := by
  refine ⟨⟨30, 29, 1⟩, ?_, ?_, ?_, (1 / 8, 0), ?_, ?_⟩
  · norm_num [Sinusoidal.accepted]
  · norm_num
  · norm_num
  · norm_num [rectangle]
  · simp only [Sinusoidal.map, Sinusoidal.refineBoundaryX]
    rw [show 4 * π * (1 / 8) = π / 2 by ring, Real.sin_pi_div_two]
    norm_num

/-- Lid-driven cavity: for parameters `0 < a < b < 1` the unit square is carried onto itself, one to one and in order; in particular with
the parameters the example uses. -/
theorem C87_cavity_domain :
    (∀ {ax bx ay byy : ℝ}, 0 < ax → ax < bx → bx < 1 → 0 < ay → ay < byy → byy < 1 →
      BijOn (cavity ax bx ay byy) (rectangle 1 1) (rectangle 1 1) ∧ KeepsOrder (cavity ax bx ay byy) (rectangle 1 1)) ∧
    BijOn cavityUsed (rectangle 1 1) (rectangle 1 1) ∧ KeepsOrder cavityUsed (rectangle 1 1) := by
  have main : ∀ {ax bx ay byy : ℝ}, 0 < ax → ax < bx → bx < 1 → 0 < ay → ay < byy → byy < 1 →
      BijOn (cavity ax bx ay byy) (rectangle 1 1) (rectangle 1 1) ∧ KeepsOrder (cavity ax bx ay byy) (rectangle 1 1) := by
    intro ax bx ay byy h1 h2 h3 h4 h5 h6
    exact ⟨bijOn_rectangle (cavityTrans_bijOn h1 h2 h3) (cavityTrans_bijOn h4 h5 h6),
      keepsOrder_of (Y := fun _ => cavityTrans ay byy) (cavityTrans_strictMonoOn h1 h2 h3) fun _ _ => cavityTrans_strictMonoOn h4 h5 h6⟩
  exact ⟨main, main (by norm_num) (by norm_num) (by norm_num) (by norm_num) (by norm_num) (by norm_num)⟩

/-- The assertions of the cavity (`a > 0`, `b < 1`) do not compare the two parameters: accepted parameters can send a point out of the
cavity. -/
theorem C87_cavity_domain_fails :
    ∃ a b : ℝ, cavityAccepted a b ∧ shiftedSine b - shiftedSine a ≠ 0 ∧ ∃ x ∈ Icc (0 : ℝ) 1, cavityTrans a b x < 0 := by
  have ha : shiftedSine (1 / 2) = 1 / 2 := by
    simp only [shiftedSine]
    rw [show π * (1 / 2) - 0.5 * π = 0 by ring, Real.sin_zero]; norm_num
  have hb : shiftedSine (-1) = 1 := by
    simp only [shiftedSine]
    rw [show π * -1 - 0.5 * π = π / 2 - 2 * π by ring, Real.sin_sub_two_pi, Real.sin_pi_div_two]; norm_num
  have h0 : shiftedSine 0 = 0 := by
    simp only [shiftedSine]
    rw [show π * 0 - 0.5 * π = -(π / 2) by ring, Real.sin_neg, Real.sin_pi_div_two]; norm_num
  refine ⟨1 / 2, -1, ⟨by norm_num, by norm_num⟩, by rw [ha, hb]; norm_num, 1 / 3, ⟨by norm_num, by norm_num⟩, ?_⟩
  simp only [cavityTrans]
  rw [show ((-1 : ℝ) - 1 / 2) * (1 / 3) + 1 / 2 = 0 by norm_num, h0, ha, hb]
  norm_num

/-! ## C88: a problem that calls itself Cartesian keeps axis-parallel cells -/

/-- Shear layer, Riemann problem, shock tube, shock-vortex interaction, Couette flow in the plane, and the cavity call themselves Cartesian
(`ShearLayer2D.h:66-68`, `Riemann2D.h:90-92`, `SodShockTube.h:90-92`, `ShockVortexInteraction.h:91-93`, `CouetteFlow2D.h:54-56`,
`LidDrivenCavity2D.h:40-42`): on every rectangle their transformations carry axis-parallel cells to axis-parallel cells, for all accepted
parameters. -/
theorem C88_cells_partial {L H : ℝ} {tX tY : ℝ} (h : trafoAccepted tX tY) (u : Bool) :
    KeepsCells (wave tX tY) (rectangle L H) ∧ KeepsCells (shock tX tY) (rectangle L H) ∧ KeepsCells (couette2D u) (rectangle L H) ∧
      KeepsCells cavityUsed (rectangle 1 1) := by
  obtain ⟨h1, h2, h3, h4⟩ := h
  refine ⟨?_, ?_, ?_, ?_⟩
  · exact keepsCells_of ((waveTrans_strictMono h1 h2).strictMonoOn _) (waveTrans_continuous _).continuousOn
      ((waveTrans_strictMono h3 h4).strictMonoOn _) (waveTrans_continuous _).continuousOn
  · exact keepsCells_of ((shockTrans_strictMono h1 h2).strictMonoOn _) (shockTrans_continuous _).continuousOn
      ((shockTrans_strictMono h3 h4).strictMonoOn _) (shockTrans_continuous _).continuousOn
  · cases u
    · have : couette2D false = fun p : ℝ × ℝ => (id p.1, id p.2) := by funext p; simp [couette2D]
      rw [this]
      exact keepsCells_of (strictMono_id.strictMonoOn _) continuousOn_id (strictMono_id.strictMonoOn _) continuousOn_id
    · have : couette2D true = fun p : ℝ × ℝ => (id p.1, couette2DTrans p.2) := by funext p; simp [couette2D]
      rw [this]
      exact keepsCells_of (strictMono_id.strictMonoOn _) continuousOn_id (couette2DTrans_strictMono.strictMonoOn _)
        couette2DTrans_continuous.continuousOn
  · exact keepsCells_of (cavityTrans_strictMonoOn (by norm_num) (by norm_num) (by norm_num))
      (cavityTrans_continuous _ _).continuousOn (cavityTrans_strictMonoOn (by norm_num) (by norm_num) (by norm_num))
      (cavityTrans_continuous _ _).continuousOn

example : trafoAccepted 0.3 0.7 := by norm_num [trafoAccepted]

/-- The turbulent channel calls itself Cartesian (`TurbulentChannelFlow3D.h:203-205`): with the density its driver uses it keeps
axis-parallel cells. -/
theorem C88_channel {l h w : ℝ} (hl : 0 < l) (hh : 0 < h) (hw : 0 < w) (d : ℝ) :
    KeepsBoxes (channel l h w (channelDriver d).gridDensity) (box 1 1 1) := by
  have hg : |(channelDriver d).gridDensity| < 1 := by
    show |(0.8 : ℝ)| < 1
    norm_num [abs_of_pos]
  exact keepsBoxes_of _ (X := fun x => l * x) (Z := fun z => w * z) (fun x y hxy => mul_lt_mul_of_pos_left hxy hl) (by fun_prop)
    (channelTrans_strictMono hh hg) (channelTrans_continuous _ _) (fun x y hxy => mul_lt_mul_of_pos_left hxy hw) (by fun_prop)

example : (0 : ℝ) < 1 := one_pos

/-- Couette flow in three dimensions calls itself Cartesian (`CouetteFlow3D.h:56-58`), but its refined cells are flat. -/
theorem C88_couette3D_fails : ¬ KeepsBoxes (couette3D true) (box 1 1 1) := by
  intro hk
  obtain ⟨a, b, c, d, e, g, ha, hc, he, himg⟩ := hk 0 1 0 1 0 1 one_pos one_pos one_pos
    (fun p hp => ⟨hp.1.1, hp.1.2, hp.2.1.1, hp.2.1.2, hp.2.2.1, hp.2.2.2⟩)
  have key (z : ℝ) (hz : z ∈ Icc e g) : z = 0 := by
    have : (a, c, z) ∈ Icc a b ×ˢ Icc c d ×ˢ Icc e g := ⟨⟨le_refl _, ha.le⟩, ⟨le_refl _, hc.le⟩, hz⟩
    rw [← himg] at this
    obtain ⟨q, _, hq⟩ := this
    have h1 : (couette3D true q).2.2 = z := congrArg (fun p : ℝ × ℝ × ℝ => p.2.2) hq
    rw [← h1]
    simp [couette3D]
  have h1 := key e ⟨le_refl _, he.le⟩
  have h2 := key g ⟨he.le, le_refl _⟩
  linarith

/-- The lubrication gap does not call itself Cartesian (`LubricationSine.h:51-53`), and rightly: its cells are not axis-parallel. -/
theorem C88_lubrication_not_cartesian : ∃ g : Lubrication, 0 < g.wavelength ∧ |g.ampl| + |g.roughnessHeight| < g.height ∧
    ¬ KeepsCells g.map (rectangle g.wavelength g.height) := by
  refine ⟨⟨1, 1 / 2, 1, 0, 1⟩, by norm_num, by norm_num [abs_of_pos], fun hk => ?_⟩
  have hX0 := (⟨1, 1 / 2, 1, 0, 1⟩ : Lubrication).refineBoundaryX_zero
  have hXh : (⟨1, 1 / 2, 1, 0, 1⟩ : Lubrication).refineBoundaryX (1 / 2) = 1 / 2 := by
    simp only [Lubrication.refineBoundaryX]
    rw [show 2 * π * (1 / 2) / 1 = π by ring, Real.sin_pi]; ring
  have mX : StrictMono (⟨1, 1 / 2, 1, 0, 1⟩ : Lubrication).refineBoundaryX :=
    Lubrication.refineBoundaryX_strictMono (by norm_num) (by norm_num) (by norm_num [abs_of_pos])
  have hup0 : (⟨1, 1 / 2, 1, 0, 1⟩ : Lubrication).upper 0 = 3 / 2 := by
    simp only [Lubrication.upper, mul_zero, zero_div, Real.cos_zero]; norm_num
  have huph : (⟨1, 1 / 2, 1, 0, 1⟩ : Lubrication).upper (1 / 2) = 1 / 2 := by
    simp only [Lubrication.upper]
    rw [show 2 * π * (1 / 2) / 1 = π by ring, Real.cos_pi]; norm_num
  obtain ⟨a, b, c, d, ha, hc, himg⟩ := hk 0 1 0 1 one_pos one_pos fun p hp => ⟨hp.1.1, hp.1.2, hp.2.1, hp.2.2⟩
  have htop (x : ℝ) : (⟨1, 1 / 2, 1, 0, 1⟩ : Lubrication).map (x, 1) = ((⟨1, 1 / 2, 1, 0, 1⟩ : Lubrication).refineBoundaryX x,
      (⟨1, 1 / 2, 1, 0, 1⟩ : Lubrication).upper ((⟨1, 1 / 2, 1, 0, 1⟩ : Lubrication).refineBoundaryX x)) :=
    Prod.ext rfl (Lubrication.column_height (g := ⟨1, 1 / 2, 1, 0, 1⟩) one_ne_zero _)
  have m0 : ((0 : ℝ), (3 / 2 : ℝ)) ∈ Icc a b ×ˢ Icc c d := by
    rw [← himg]
    exact ⟨(0, 1), ⟨⟨le_refl _, zero_le_one⟩, ⟨zero_le_one, le_refl _⟩⟩, by rw [htop, hX0, hup0]⟩
  have mh : ((1 / 2 : ℝ), (1 / 2 : ℝ)) ∈ Icc a b ×ˢ Icc c d := by
    rw [← himg]
    exact ⟨(1 / 2, 1), ⟨⟨by norm_num, by norm_num⟩, ⟨zero_le_one, le_refl _⟩⟩, by rw [htop, hXh, huph]⟩
  have mc : ((1 / 2 : ℝ), (3 / 2 : ℝ)) ∈ Icc a b ×ˢ Icc c d := ⟨mh.1, m0.2⟩
  rw [← himg] at mc
  obtain ⟨⟨x, y⟩, ⟨_, hy⟩, hq⟩ := mc
  have hx : x = 1 / 2 := by
    apply mX.injective
    rw [hXh]
    exact congrArg Prod.fst hq
  have hle := (Lubrication.column_strictMono (g := ⟨1, 1 / 2, 1, 0, 1⟩) (by norm_num) (by norm_num [abs_of_pos]) (1 / 2)).monotone
    (show y ≤ 1 from hy.2)
  have h1 : (⟨1, 1 / 2, 1, 0, 1⟩ : Lubrication).trans (1 / 2) ((⟨1, 1 / 2, 1, 0, 1⟩ : Lubrication).refineBoundaryY 1) = 1 / 2 := by
    exact (Lubrication.column_height (g := ⟨1, 1 / 2, 1, 0, 1⟩) one_ne_zero _).trans huph
  have h2 : (⟨1, 1 / 2, 1, 0, 1⟩ : Lubrication).trans (1 / 2) ((⟨1, 1 / 2, 1, 0, 1⟩ : Lubrication).refineBoundaryY y) = 3 / 2 := by
    have := congrArg Prod.snd hq
    simp only [Lubrication.map] at this
    rw [hx, hXh] at this
    exact this
  have h3 : (⟨1, 1 / 2, 1, 0, 1⟩ : Lubrication).trans (1 / 2) ((⟨1, 1 / 2, 1, 0, 1⟩ : Lubrication).refineBoundaryY y) ≤
      (⟨1, 1 / 2, 1, 0, 1⟩ : Lubrication).trans (1 / 2) ((⟨1, 1 / 2, 1, 0, 1⟩ : Lubrication).refineBoundaryY 1) := hle
  rw [h1, h2] at h3
  norm_num at h3

end MeshTransform

end NATriuM
