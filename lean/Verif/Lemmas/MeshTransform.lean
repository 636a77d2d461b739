import Verif.Model.MeshTransform
import Verif.Spec.MeshTransform
import Mathlib.Analysis.SpecialFunctions.Trigonometric.Bounds
import Mathlib.Analysis.Real.Pi.Bounds
import Mathlib.Topology.Order.IntermediateValue
import Mathlib.Tactic.FieldSimp
import Mathlib.Tactic.Linarith
import Mathlib.Tactic.Positivity
import Mathlib.Tactic.Ring

/-!
# Lemmas: strictly increasing functions and the maps built of them
-/

namespace NATriuM

namespace MeshTransform

open Real Set MeshTransformSpec

/-! ## Functions of one variable -/

theorem sine_strictMono {c ω : ℝ} (h : |c * ω| < 1) : StrictMono fun y => y + c * sin (ω * y) := by
  intro x y hxy
  have h1 : |sin (ω * x) - sin (ω * y)| ≤ |ω * x - ω * y| := abs_sin_sub_sin_le _ _
  have h2 : |c * (sin (ω * x) - sin (ω * y))| ≤ |c * ω| * (y - x) := by
    rw [abs_mul, abs_mul c, mul_assoc]
    refine mul_le_mul_of_nonneg_left (h1.trans ?_) (abs_nonneg _)
    rw [← mul_sub, abs_mul, abs_sub_comm, abs_of_pos (sub_pos.2 hxy)]
  have h3 : |c * ω| * (y - x) < y - x := by nlinarith [sub_pos.2 hxy]
  have h4 := abs_lt.1 (h2.trans_lt h3)
  show x + c * sin (ω * x) < y + c * sin (ω * y)
  nlinarith [h4.1, h4.2]

theorem tanh_strictMono : StrictMono Real.tanh := by
  intro x y hxy
  rw [Real.tanh_eq_sinh_div_cosh, Real.tanh_eq_sinh_div_cosh, div_lt_div_iff₀ (Real.cosh_pos x) (Real.cosh_pos y)]
  have h : 0 < sinh (y - x) := Real.sinh_pos_iff.2 (sub_pos.2 hxy)
  rw [Real.sinh_sub] at h
  linarith

theorem continuous_tanh : Continuous Real.tanh := by
  have : Real.tanh = fun x => sinh x / cosh x := by funext x; exact Real.tanh_eq_sinh_div_cosh x
  rw [this]
  exact Real.continuous_sinh.div Real.continuous_cosh fun x => (Real.cosh_pos x).ne'

theorem tanh_pos {x : ℝ} (h : 0 < x) : 0 < Real.tanh x := by
  have := tanh_strictMono h
  rwa [Real.tanh_zero] at this

theorem bijOn_Icc {g : ℝ → ℝ} {a b : ℝ} (hm : StrictMonoOn g (Icc a b)) (hc : ContinuousOn g (Icc a b)) (hab : a ≤ b) :
    BijOn g (Icc a b) (Icc (g a) (g b)) := by
  refine ⟨fun x hx => ?_, hm.injOn, intermediate_value_Icc hab hc⟩
  exact ⟨hm.monotoneOn ⟨le_refl a, hab⟩ hx hx.1, hm.monotoneOn hx ⟨hab, le_refl b⟩ hx.2⟩

theorem bijOn_of_strictMono {g : ℝ → ℝ} {a b a' b' : ℝ} (hm : StrictMono g) (hc : Continuous g) (hab : a ≤ b) (ha : g a = a')
    (hb : g b = b') : BijOn g (Icc a b) (Icc a' b') := by
  subst ha hb
  exact bijOn_Icc (hm.strictMonoOn _) hc.continuousOn hab

/-! ## Maps of the plane -/

theorem bijOn_gap {X : ℝ → ℝ} {Y : ℝ → ℝ → ℝ} {L L' H : ℝ} {h : ℝ → ℝ} (hX : BijOn X (Icc 0 L) (Icc 0 L'))
    (hY : ∀ x ∈ Icc 0 L, BijOn (Y x) (Icc 0 H) (Icc 0 (h (X x)))) :
    BijOn (fun p : ℝ × ℝ => (X p.1, Y p.1 p.2)) (rectangle L H) (gap L' h) := by
  refine ⟨?_, ?_, ?_⟩
  · rintro ⟨x, y⟩ ⟨h1, h2, h3, h4⟩
    have hx := hX.mapsTo ⟨h1, h2⟩
    have hy := (hY x ⟨h1, h2⟩).mapsTo ⟨h3, h4⟩
    exact ⟨hx.1, hx.2, hy.1, hy.2⟩
  · rintro ⟨x, y⟩ ⟨h1, h2, h3, h4⟩ ⟨x', y'⟩ ⟨h1', h2', h3', h4'⟩ he
    have hx : x = x' := hX.injOn ⟨h1, h2⟩ ⟨h1', h2'⟩ (congrArg Prod.fst he)
    subst hx
    have hy : y = y' := (hY x ⟨h1, h2⟩).injOn ⟨h3, h4⟩ ⟨h3', h4'⟩ (congrArg Prod.snd he)
    rw [hy]
  · rintro ⟨u, v⟩ ⟨h1, h2, h3, h4⟩
    obtain ⟨x, hx, hxu⟩ := hX.surjOn ⟨h1, h2⟩
    have h4' : v ≤ h (X x) := by
      have : X x = u := hxu
      rw [this]; exact h4
    obtain ⟨y, hy, hyv⟩ := (hY x hx).surjOn ⟨h3, h4'⟩
    exact ⟨(x, y), ⟨hx.1, hx.2, hy.1, hy.2⟩, Prod.ext hxu hyv⟩

theorem bijOn_rectangle {X Y : ℝ → ℝ} {L L' H H' : ℝ} (hX : BijOn X (Icc 0 L) (Icc 0 L')) (hY : BijOn Y (Icc 0 H) (Icc 0 H')) :
    BijOn (fun p : ℝ × ℝ => (X p.1, Y p.2)) (rectangle L H) (rectangle L' H') :=
  bijOn_gap (Y := fun _ => Y) (h := fun _ => H') hX fun _ _ => hY

theorem keepsOrder_of {X : ℝ → ℝ} {Y : ℝ → ℝ → ℝ} {L H : ℝ} (hX : StrictMonoOn X (Icc 0 L))
    (hY : ∀ x ∈ Icc 0 L, StrictMonoOn (Y x) (Icc 0 H)) :
    KeepsOrder (fun p : ℝ × ℝ => (X p.1, Y p.1 p.2)) (rectangle L H) := by
  refine ⟨fun p hp q hq h => hX ⟨hp.1, hp.2.1⟩ ⟨hq.1, hq.2.1⟩ h, fun p hp q hq h1 h2 => ⟨by simp only [h1], ?_⟩⟩
  have := hY p.1 ⟨hp.1, hp.2.1⟩ ⟨hp.2.2.1, hp.2.2.2⟩ ⟨hq.2.2.1, hq.2.2.2⟩ h2
  simpa only [h1] using this

theorem keepsCells_of {X Y : ℝ → ℝ} {L H : ℝ} (hX : StrictMonoOn X (Icc 0 L)) (hXc : ContinuousOn X (Icc 0 L))
    (hY : StrictMonoOn Y (Icc 0 H)) (hYc : ContinuousOn Y (Icc 0 H)) :
    KeepsCells (fun p : ℝ × ℝ => (X p.1, Y p.2)) (rectangle L H) := by
  intro a b c d hab hcd hS
  have h1 : (a, c) ∈ rectangle L H := hS ⟨⟨le_refl a, hab.le⟩, ⟨le_refl c, hcd.le⟩⟩
  have h2 : (b, d) ∈ rectangle L H := hS ⟨⟨hab.le, le_refl b⟩, ⟨hcd.le, le_refl d⟩⟩
  have hsx : Icc a b ⊆ Icc 0 L := Icc_subset_Icc h1.1 h2.2.1
  have hsy : Icc c d ⊆ Icc 0 H := Icc_subset_Icc h1.2.2.1 h2.2.2.2
  have bx := bijOn_Icc (hX.mono hsx) (hXc.mono hsx) hab.le
  have bY := bijOn_Icc (hY.mono hsy) (hYc.mono hsy) hcd.le
  refine ⟨X a, X b, Y c, Y d, hX (hsx ⟨le_refl a, hab.le⟩) (hsx ⟨hab.le, le_refl b⟩) hab,
    hY (hsy ⟨le_refl c, hcd.le⟩) (hsy ⟨hcd.le, le_refl d⟩) hcd, ?_⟩
  rw [← bx.image_eq, ← bY.image_eq, prod_image_image_eq]

theorem bijOn_box {X Y Z : ℝ → ℝ} {L L' H H' W W' : ℝ} (hX : BijOn X (Icc 0 L) (Icc 0 L')) (hY : BijOn Y (Icc 0 H) (Icc 0 H'))
    (hZ : BijOn Z (Icc 0 W) (Icc 0 W')) : BijOn (fun p : ℝ × ℝ × ℝ => (X p.1, Y p.2.1, Z p.2.2)) (box L H W) (box L' H' W') := by
  refine ⟨?_, ?_, ?_⟩
  · rintro ⟨x, y, z⟩ ⟨h1, h2, h3, h4, h5, h6⟩
    have hx := hX.mapsTo ⟨h1, h2⟩
    have hy := hY.mapsTo ⟨h3, h4⟩
    have hz := hZ.mapsTo ⟨h5, h6⟩
    exact ⟨hx.1, hx.2, hy.1, hy.2, hz.1, hz.2⟩
  · rintro ⟨x, y, z⟩ ⟨h1, h2, h3, h4, h5, h6⟩ ⟨x', y', z'⟩ ⟨h1', h2', h3', h4', h5', h6'⟩ he
    have hx : x = x' := hX.injOn ⟨h1, h2⟩ ⟨h1', h2'⟩ (congrArg Prod.fst he)
    have hy : y = y' := hY.injOn ⟨h3, h4⟩ ⟨h3', h4'⟩ (congrArg (fun p => p.2.1) he)
    have hz : z = z' := hZ.injOn ⟨h5, h6⟩ ⟨h5', h6'⟩ (congrArg (fun p => p.2.2) he)
    rw [hx, hy, hz]
  · rintro ⟨u, v, w⟩ ⟨h1, h2, h3, h4, h5, h6⟩
    obtain ⟨x, hx, hxu⟩ := hX.surjOn ⟨h1, h2⟩
    obtain ⟨y, hy, hyv⟩ := hY.surjOn ⟨h3, h4⟩
    obtain ⟨z, hz, hzw⟩ := hZ.surjOn ⟨h5, h6⟩
    exact ⟨(x, y, z), ⟨hx.1, hx.2, hy.1, hy.2, hz.1, hz.2⟩, Prod.ext hxu (Prod.ext hyv hzw)⟩

theorem keepsBoxes_of {X Y Z : ℝ → ℝ} (S : Set (ℝ × ℝ × ℝ)) (hX : StrictMono X) (hXc : Continuous X) (hY : StrictMono Y)
    (hYc : Continuous Y) (hZ : StrictMono Z) (hZc : Continuous Z) :
    KeepsBoxes (fun p : ℝ × ℝ × ℝ => (X p.1, Y p.2.1, Z p.2.2)) S := by
  intro a b c d e g hab hcd heg _
  have bx := bijOn_Icc (hX.strictMonoOn _) hXc.continuousOn hab.le
  have bY := bijOn_Icc (hY.strictMonoOn _) hYc.continuousOn hcd.le
  have bz := bijOn_Icc (hZ.strictMonoOn _) hZc.continuousOn heg.le
  refine ⟨X a, X b, Y c, Y d, Z e, Z g, hX hab, hY hcd, hZ heg, ?_⟩
  rw [← bx.image_eq, ← bY.image_eq, ← bz.image_eq, prod_image_image_eq, prod_image_image_eq]

/-! ## The functions of the model -/

theorem waveTrans_eq (t y : ℝ) : waveTrans t y = y + t / (4 * π) * sin (4 * π * y) := by
  have := Real.pi_pos
  unfold waveTrans
  field_simp
  ring

theorem waveTrans_strictMono {t : ℝ} (h0 : 0 ≤ t) (h1 : t < 1) : StrictMono (waveTrans t) := by
  have hf : waveTrans t = fun y => y + t / (4 * π) * sin (4 * π * y) := funext (waveTrans_eq t)
  rw [hf]
  apply sine_strictMono
  have := Real.pi_pos
  have : t / (4 * π) * (4 * π) = t := by field_simp
  rw [this, abs_of_nonneg h0]
  exact h1

theorem waveTrans_continuous (t : ℝ) : Continuous (waveTrans t) := by
  unfold waveTrans
  fun_prop

theorem waveTrans_nat (t : ℝ) (n : ℕ) : waveTrans t n = n := by
  have h : sin (4 * π * n) = 0 := by
    have := Real.sin_nat_mul_pi (4 * n)
    push_cast at this
    rw [← this]; congr 1; ring
  rw [waveTrans_eq, h]; ring

theorem shockTrans_eq (t y : ℝ) : shockTrans t y = y + 30 * t / π * sin (π / 30 * y) := by
  have := Real.pi_pos
  unfold shockTrans
  field_simp
  ring

theorem shockTrans_strictMono {t : ℝ} (h0 : 0 ≤ t) (h1 : t < 1) : StrictMono (shockTrans t) := by
  have hf : shockTrans t = fun y => y + 30 * t / π * sin (π / 30 * y) := funext (shockTrans_eq t)
  rw [hf]
  apply sine_strictMono
  have := Real.pi_pos
  have : 30 * t / π * (π / 30) = t := by field_simp
  rw [this, abs_of_nonneg h0]
  exact h1

theorem shockTrans_continuous (t : ℝ) : Continuous (shockTrans t) := by
  unfold shockTrans
  fun_prop

theorem shockTrans_mul (t : ℝ) (n : ℕ) : shockTrans t (30 * n) = 30 * n := by
  have h : sin (π / 30 * (30 * n)) = 0 := by
    rw [← Real.sin_nat_mul_pi n]; congr 1; ring
  rw [shockTrans_eq, h]; ring

theorem channelTrans_eq (H g y : ℝ) : channelTrans H g y = (y + -g / (2 * π) * sin (2 * π * y)) * H := by
  unfold channelTrans
  rw [show 2 * y * π = 2 * π * y by ring]
  ring

theorem channelTrans_strictMono {H g : ℝ} (hH : 0 < H) (hg : |g| < 1) : StrictMono (channelTrans H g) := by
  have h1 : StrictMono fun y => y + -g / (2 * π) * sin (2 * π * y) := by
    apply sine_strictMono
    have := Real.pi_pos
    have : -g / (2 * π) * (2 * π) = -g := by field_simp
    rwa [this, abs_neg]
  intro x y hxy
  rw [channelTrans_eq, channelTrans_eq]
  exact mul_lt_mul_of_pos_right (h1 hxy) hH

theorem channelTrans_continuous (H g : ℝ) : Continuous (channelTrans H g) := by
  unfold channelTrans
  fun_prop

theorem channelTrans_zero (H g : ℝ) : channelTrans H g 0 = 0 := by simp [channelTrans]

theorem channelTrans_one (H g : ℝ) : channelTrans H g 1 = H := by
  rw [channelTrans_eq, mul_one, Real.sin_two_pi]; ring

theorem couette2DTrans_strictMono : StrictMono couette2DTrans := by
  intro x y hxy
  have h := tanh_strictMono (show 4 * (x - 0.5) < 4 * (y - 0.5) by linarith)
  have h2 := tanh_pos (show (0 : ℝ) < 2 by norm_num)
  unfold couette2DTrans
  have := div_lt_div_of_pos_right h h2
  linarith

theorem couette2DTrans_continuous : Continuous couette2DTrans := by
  unfold couette2DTrans
  have := continuous_tanh.comp (show Continuous fun y : ℝ => 4 * (y - 0.5) by fun_prop)
  exact ((this.div_const _).div_const _).add continuous_const

theorem couette2DTrans_zero : couette2DTrans 0 = 0 := by
  have h2 := tanh_pos (show (0 : ℝ) < 2 by norm_num)
  unfold couette2DTrans
  rw [show (4 : ℝ) * (0 - 0.5) = -2 by norm_num, Real.tanh_neg, neg_div, div_self h2.ne']
  norm_num

theorem couette2DTrans_one : couette2DTrans 1 = 1 := by
  have h2 := tanh_pos (show (0 : ℝ) < 2 by norm_num)
  unfold couette2DTrans
  rw [show (4 : ℝ) * (1 - 0.5) = 2 by norm_num, div_self h2.ne']
  norm_num

theorem half_lt_tanh_two : 1 / 2 < Real.tanh 2 := by
  have h1 : (2 : ℝ) ≤ exp 2 := by linarith [Real.add_one_le_exp (2 : ℝ)]
  have h2 : exp (-2) ≤ 1 / 2 := by
    rw [Real.exp_neg, inv_eq_one_div]
    exact one_div_le_one_div_of_le (by norm_num) h1
  rw [Real.tanh_eq, lt_div_iff₀ (by positivity)]
  linarith

/-! ## The lubrication gap and the sinusoidal channel -/

theorem refineY_strictMono {H : ℝ} (hH : 0 < H) :
    StrictMono fun y => H * (0.5 + 0.5 * Real.tanh ((y / H - 0.5) * π) / Real.tanh (0.5 * π)) := by
  intro x y hxy
  have hp := Real.pi_pos
  have h1 : (x / H - 0.5) * π < (y / H - 0.5) * π := by
    have := div_lt_div_of_pos_right hxy hH
    exact mul_lt_mul_of_pos_right (by linarith) hp
  have h2 := tanh_strictMono h1
  have h3 : 0 < Real.tanh (0.5 * π) := tanh_pos (by positivity)
  have h4 := div_lt_div_of_pos_right (show 0.5 * Real.tanh ((x / H - 0.5) * π) < 0.5 * Real.tanh ((y / H - 0.5) * π) by linarith) h3
  exact mul_lt_mul_of_pos_left (by linarith) hH

theorem refineY_continuous (H : ℝ) :
    Continuous fun y => H * (0.5 + 0.5 * Real.tanh ((y / H - 0.5) * π) / Real.tanh (0.5 * π)) := by
  have := continuous_tanh.comp (show Continuous fun y : ℝ => (y / H - 0.5) * π by fun_prop)
  exact continuous_const.mul (continuous_const.add ((continuous_const.mul this).div_const _))

theorem refineY_zero (H : ℝ) : H * (0.5 + 0.5 * Real.tanh ((0 / H - 0.5) * π) / Real.tanh (0.5 * π)) = 0 := by
  have hp := Real.pi_pos
  have h3 : 0 < Real.tanh (0.5 * π) := tanh_pos (by positivity)
  rw [zero_div, show ((0 : ℝ) - 0.5) * π = -(0.5 * π) by ring, Real.tanh_neg, mul_neg, neg_div, mul_div_assoc, div_self h3.ne']
  ring

theorem refineY_self {H : ℝ} (hH : H ≠ 0) : H * (0.5 + 0.5 * Real.tanh ((H / H - 0.5) * π) / Real.tanh (0.5 * π)) = H := by
  have hp := Real.pi_pos
  have h3 : 0 < Real.tanh (0.5 * π) := tanh_pos (by positivity)
  rw [div_self hH, show ((1 : ℝ) - 0.5) * π = 0.5 * π by ring, mul_div_assoc, div_self h3.ne']
  ring

namespace Lubrication

theorem refineBoundaryX_eq (g : Lubrication) (x : ℝ) :
    g.refineBoundaryX x = x + g.wavelength * g.ampl / g.height / (2 * π) * sin (2 * π / g.wavelength * x) := by
  unfold refineBoundaryX
  rw [show 2 * π * x / g.wavelength = 2 * π / g.wavelength * x by ring]

theorem refineBoundaryX_strictMono {g : Lubrication} (hL : 0 < g.wavelength) (hh : 0 < g.height) (ha : |g.ampl| < g.height) :
    StrictMono g.refineBoundaryX := by
  have hf : g.refineBoundaryX = fun x => x + g.wavelength * g.ampl / g.height / (2 * π) * sin (2 * π / g.wavelength * x) :=
    funext g.refineBoundaryX_eq
  rw [hf]
  apply sine_strictMono
  have := Real.pi_pos
  have : g.wavelength * g.ampl / g.height / (2 * π) * (2 * π / g.wavelength) = g.ampl / g.height := by field_simp
  rw [this, abs_div, abs_of_pos hh, div_lt_one hh]
  exact ha

theorem refineBoundaryX_continuous (g : Lubrication) : Continuous g.refineBoundaryX := by
  unfold refineBoundaryX
  fun_prop

theorem refineBoundaryX_zero (g : Lubrication) : g.refineBoundaryX 0 = 0 := by simp [refineBoundaryX]

theorem refineBoundaryX_length {g : Lubrication} (hL : g.wavelength ≠ 0) : g.refineBoundaryX g.wavelength = g.wavelength := by
  unfold refineBoundaryX
  rw [mul_div_assoc (2 * π), div_self hL, mul_one, Real.sin_two_pi]; ring

theorem upper_pos {g : Lubrication} (h : |g.ampl| + |g.roughnessHeight| < g.height) (x : ℝ) : 0 < g.upper x := by
  have key : ∀ c t : ℝ, -|c| ≤ c * cos t := by
    intro c t
    have : |c * cos t| ≤ |c| := by
      rw [abs_mul]
      exact mul_le_of_le_one_right (abs_nonneg _) (Real.abs_cos_le_one t)
    exact (abs_le.1 this).1
  have h1 := key g.ampl (2 * π * x / g.wavelength)
  have h2 := key g.roughnessHeight (2 * π * x / (g.wavelength / g.roughnessLengthRatio))
  unfold upper
  linarith

theorem map_eq (g : Lubrication) : g.map = fun p : ℝ × ℝ =>
    (g.refineBoundaryX p.1, (fun x y => g.trans (g.refineBoundaryX x) (g.refineBoundaryY y)) p.1 p.2) := rfl

theorem column_strictMono {g : Lubrication} (hh : 0 < g.height) (h : |g.ampl| + |g.roughnessHeight| < g.height) (x : ℝ) :
    StrictMono fun y => g.trans x (g.refineBoundaryY y) := by
  intro y y' hy
  have h1 : g.refineBoundaryY y < g.refineBoundaryY y' := refineY_strictMono hh hy
  exact mul_lt_mul_of_pos_right (div_lt_div_of_pos_right h1 hh) (upper_pos h x)

theorem column_continuous (g : Lubrication) (x : ℝ) : Continuous fun y => g.trans x (g.refineBoundaryY y) :=
  ((refineY_continuous g.height).div_const _).mul continuous_const

theorem column_zero (g : Lubrication) (x : ℝ) : g.trans x (g.refineBoundaryY 0) = 0 := by
  unfold trans
  rw [show g.refineBoundaryY 0 = 0 from refineY_zero g.height]; simp

theorem column_height {g : Lubrication} (hh : g.height ≠ 0) (x : ℝ) : g.trans x (g.refineBoundaryY g.height) = g.upper x := by
  unfold trans
  rw [show g.refineBoundaryY g.height = g.height from refineY_self hh, div_self hh, one_mul]

theorem upper_periodic {g : Lubrication} (hL : g.wavelength ≠ 0) : g.upper g.wavelength = g.upper 0 := by
  unfold upper
  rw [mul_div_assoc, div_self hL, mul_one, mul_zero, zero_div, zero_div, Real.cos_two_pi, Real.cos_zero]
  rcases Nat.eq_zero_or_pos g.roughnessLengthRatio with h | h
  · simp [h]
  · have hr : (g.roughnessLengthRatio : ℝ) ≠ 0 := by exact_mod_cast h.ne'
    have : 2 * π * g.wavelength / (g.wavelength / g.roughnessLengthRatio) = g.roughnessLengthRatio * (2 * π) := by
      field_simp
    rw [this, Real.cos_nat_mul_two_pi]

end Lubrication

namespace Sinusoidal

theorem refineBoundaryX_eq (g : Sinusoidal) (x : ℝ) : g.refineBoundaryX x = x + -(0.019 * g.ampl / 0.49) * sin (4 * π * x) := by
  unfold refineBoundaryX; ring

theorem refineBoundaryX_strictMono {g : Sinusoidal} (ha : |g.ampl| ≤ 2) : StrictMono g.refineBoundaryX := by
  have hf : g.refineBoundaryX = fun x => x + -(0.019 * g.ampl / 0.49) * sin (4 * π * x) := funext g.refineBoundaryX_eq
  rw [hf]
  apply sine_strictMono
  have hp := Real.pi_pos
  have hp2 := Real.pi_lt_d2
  rw [show -(0.019 * g.ampl / 0.49) * (4 * π) = -(0.019 / 0.49 * (4 * π) * g.ampl) by ring, abs_neg, abs_mul,
    abs_of_pos (show (0 : ℝ) < 0.019 / 0.49 * (4 * π) by positivity)]
  have : 0.019 / 0.49 * (4 * π) < (1 : ℝ) / 2 := by
    have : 4 * π < 12.6 := by linarith
    norm_num
    linarith
  nlinarith [abs_nonneg g.ampl]

theorem refineBoundaryX_continuous (g : Sinusoidal) : Continuous g.refineBoundaryX := by
  unfold refineBoundaryX
  fun_prop

theorem refineBoundaryX_zero (g : Sinusoidal) : g.refineBoundaryX 0 = 0 := by simp [refineBoundaryX]

theorem refineBoundaryX_one (g : Sinusoidal) : g.refineBoundaryX 1 = 1 := by
  unfold refineBoundaryX
  have : sin (4 * π * 1) = 0 := by
    have := Real.sin_nat_mul_pi 4
    push_cast at this
    rw [mul_one]; exact this
  rw [this]; ring

theorem refineBoundaryY_eq (y : ℝ) :
    refineBoundaryY y = 1 * (0.5 + 0.5 * Real.tanh ((y / 1 - 0.5) * π) / Real.tanh (0.5 * π)) := by
  unfold refineBoundaryY
  rw [one_mul, div_one]

theorem refineBoundaryY_strictMono : StrictMono refineBoundaryY := by
  have hf : refineBoundaryY = fun y => 1 * (0.5 + 0.5 * Real.tanh ((y / 1 - 0.5) * π) / Real.tanh (0.5 * π)) := funext refineBoundaryY_eq
  rw [hf]; exact refineY_strictMono one_pos

theorem refineBoundaryY_continuous : Continuous refineBoundaryY := by
  have hf : refineBoundaryY = fun y => 1 * (0.5 + 0.5 * Real.tanh ((y / 1 - 0.5) * π) / Real.tanh (0.5 * π)) := funext refineBoundaryY_eq
  rw [hf]; exact refineY_continuous 1

theorem refineBoundaryY_zero : refineBoundaryY 0 = 0 := by rw [refineBoundaryY_eq]; exact refineY_zero 1

theorem refineBoundaryY_one : refineBoundaryY 1 = 1 := by rw [refineBoundaryY_eq]; exact refineY_self one_ne_zero

theorem upper_pos {g : Sinusoidal} (h : |g.ampl| < g.height) (x : ℝ) : 0 < g.height + g.ampl * sin x := by
  have : |g.ampl * sin x| ≤ |g.ampl| := by
    rw [abs_mul]
    exact mul_le_of_le_one_right (abs_nonneg _) (Real.abs_sin_le_one x)
  linarith [(abs_le.1 this).1]

end Sinusoidal

/-! ## The cavity -/

theorem shiftedSine_strictMonoOn : StrictMonoOn shiftedSine (Icc 0 1) := by
  intro x hx y hy hxy
  have hp := Real.pi_pos
  have h := Real.strictMonoOn_sin (a := π * x - 0.5 * π) (b := π * y - 0.5 * π)
    ⟨by nlinarith [hx.1], by nlinarith [hx.2]⟩ ⟨by nlinarith [hy.1], by nlinarith [hy.2]⟩ (by nlinarith)
  unfold shiftedSine
  linarith

theorem cavityTrans_strictMonoOn {a b : ℝ} (ha : 0 < a) (hab : a < b) (hb : b < 1) : StrictMonoOn (cavityTrans a b) (Icc 0 1) := by
  intro x hx y hy hxy
  have hd : 0 < shiftedSine b - shiftedSine a :=
    sub_pos.2 (shiftedSine_strictMonoOn ⟨ha.le, (hab.trans hb).le⟩ ⟨(ha.trans hab).le, hb.le⟩ hab)
  have h := shiftedSine_strictMonoOn (a := (b - a) * x + a) (b := (b - a) * y + a)
    ⟨by nlinarith [hx.1], by nlinarith [hx.2]⟩ ⟨by nlinarith [hy.1], by nlinarith [hy.2]⟩ (by nlinarith)
  exact div_lt_div_of_pos_right (by linarith) hd

theorem cavityTrans_continuous (a b : ℝ) : Continuous (cavityTrans a b) := by
  unfold cavityTrans shiftedSine
  fun_prop

theorem cavityTrans_zero (a b : ℝ) : cavityTrans a b 0 = 0 := by simp [cavityTrans]

theorem cavityTrans_one {a b : ℝ} (ha : 0 < a) (hab : a < b) (hb : b < 1) : cavityTrans a b 1 = 1 := by
  have hd : 0 < shiftedSine b - shiftedSine a :=
    sub_pos.2 (shiftedSine_strictMonoOn ⟨ha.le, (hab.trans hb).le⟩ ⟨(ha.trans hab).le, hb.le⟩ hab)
  unfold cavityTrans
  rw [mul_one, sub_add_cancel, div_self hd.ne']

theorem cavityTrans_bijOn {a b : ℝ} (ha : 0 < a) (hab : a < b) (hb : b < 1) : BijOn (cavityTrans a b) (Icc 0 1) (Icc 0 1) := by
  have := bijOn_Icc (cavityTrans_strictMonoOn ha hab hb) (cavityTrans_continuous a b).continuousOn zero_le_one
  rwa [cavityTrans_zero, cavityTrans_one ha hab hb] at this

end MeshTransform

end NATriuM
