import Verif.Lemmas.Similarity

/-!
# Lemmas: the collision in other units and along other axes
-/

namespace NATriuM
namespace StencilType.Symmetry

open Finset

variable {t : StencilType} (y : t.Symmetry)

theorem sign_mul_self (a : Fin t.D) : y.sign a * y.sign a = 1 := by
  rcases y.sign_eq a with h | h <;> rw [h] <;> norm_num

theorem populations_perm {β : Type*} (f : Fin t.Q → β) (i : Fin t.Q) : y.populations f (y.perm i) = f i :=
  congrArg f (y.perm.symm_apply_apply i)

theorem eq_populations {β : Type*} {f g : Fin t.Q → β} (h : ∀ i, g (y.perm i) = f i) : g = y.populations f := by
  funext i
  have := h (y.perm.symm i)
  rw [y.perm.apply_symm_apply] at this
  exact this

theorem sum_perm {g g' : Fin t.Q → ℝ} (h : ∀ i, g' (y.perm i) = g i) : ∑ i, g' i = ∑ i, g i := by
  rw [← Equiv.sum_comp y.perm]; exact sum_congr rfl fun i _ => h i

theorem sum_axes {g g' : Fin t.D → ℝ} (h : ∀ a, g' a = g (y.axes a)) : ∑ a, g' a = ∑ a, g a := by
  rw [← Equiv.sum_comp y.axes g]; exact sum_congr rfl fun a _ => h a

theorem eye_axes (a b : Fin t.D) : (eye (y.axes a) (y.axes b) : ℝ) = eye a b := by
  unfold eye
  by_cases h : a = b
  · rw [if_pos h, if_pos (congrArg _ h)]
  · rw [if_neg h, if_neg fun h' => h (y.axes.injective h')]

/-- Where indices agree, the signs cancel. -/
theorem eye_sign (a b : Fin t.D) : (eye a b : ℝ) = y.sign a * y.sign b * eye a b := by
  unfold eye
  split
  · next h => rw [h, y.sign_mul_self, one_mul]
  · rw [mul_zero]

/-- Constant data of the collision in both descriptions -/
structure Data (V : ℝ) (d d' : CollData ℝ t.D t.Q) : Prop where
  e (i : Fin t.Q) (a : Fin t.D) : d'.e (y.perm i) a = y.sign a * d.e i (y.axes a)
  weight (i : Fin t.Q) : d'.weight (y.perm i) = d.weight i
  cs2 : d'.cs2 = d.cs2
  tau : d'.tau = d.tau
  forceType : d'.forceType = d.forceType
  scaling : d'.scaling = V * d.scaling
  force (a : Fin t.D) : d'.dt * d'.forces a = V * (y.sign a * (d.dt * d.forces (y.axes a)))

/-- The macroscopic data -/
def macro' (m : Macro ℝ t.D) : Macro ℝ t.D := { m with u := y.vector m.u }

variable {y} {V : ℝ} {d d' : CollData ℝ t.D t.Q}

theorem Data.ue (h : y.Data V d d') (u : Fin t.D → ℝ) (i : Fin t.Q) : ∑ j, y.vector u j * d'.e (y.perm i) j / d'.cs2 = ∑ j, u j * d.e i j / d.cs2 := by
  refine y.sum_axes fun a => ?_
  rw [h.e, h.cs2, vector]
  linear_combination (u (y.axes a) * d.e i (y.axes a) / d.cs2) * y.sign_mul_self a

theorem Data.uu (h : y.Data V d d') (u : Fin t.D → ℝ) : ∑ j, -(y.vector u j * y.vector u j) / (2 * d'.cs2) = ∑ j, -(u j * u j) / (2 * d.cs2) := by
  refine y.sum_axes fun a => ?_
  rw [h.cs2, vector]
  linear_combination (-(u (y.axes a) * u (y.axes a)) / (2 * d.cs2)) * y.sign_mul_self a

theorem Data.bgk (h : y.Data V d d') (m : Macro ℝ t.D) (i : Fin t.Q) : bgkEquilibrium d' (y.macro' m) (y.perm i) = bgkEquilibrium d m i := by
  unfold bgkEquilibrium
  simp only [macro']
  rw [h.ue, h.uu, h.weight]

theorem Data.quarticBase (h : y.Data V d d') (m : Macro ℝ t.D) (i : Fin t.Q) :
    NATriuM.quarticBase d' (y.macro' m) (y.perm i) = NATriuM.quarticBase d m i := by
  rw [quarticBase_eq, quarticBase_eq, h.bgk, h.weight, h.cs2]
  have : ∑ a, d.weight i * (d'.e (y.perm i) a * d'.e (y.perm i) a) = ∑ a, d.weight i * (d.e i a * d.e i a) := by
    refine y.sum_axes fun a => ?_
    rw [h.e]
    linear_combination (d.weight i * (d.e i (y.axes a) * d.e i (y.axes a))) * y.sign_mul_self a
  rw [this]
  rfl

theorem Data.H3 (h : y.Data V d d') (i : Fin t.Q) (a b c : Fin t.D) : calculateH3 d'.cs2 d'.e (y.perm i) a b c =
    y.sign a * y.sign b * y.sign c * calculateH3 d.cs2 d.e i (y.axes a) (y.axes b) (y.axes c) := by
  unfold calculateH3
  rw [y.eye_axes, y.eye_axes, y.eye_axes, h.e, h.e, h.e, h.cs2]
  have h1 := y.eye_sign a b
  have h2 := y.eye_sign b c
  have h3 := y.eye_sign a c
  linear_combination (-d.cs2 * y.sign a * d.e i (y.axes a)) * h2 + (-d.cs2 * y.sign b * d.e i (y.axes b)) * h3
    + (-d.cs2 * y.sign c * d.e i (y.axes c)) * h1

theorem coeff3 (hcs : d'.cs2 = d.cs2) (m : Macro ℝ t.D) (a b c : Fin t.D) : Init.coeff3 d' (y.macro' m) a b c =
    y.sign a * y.sign b * y.sign c * Init.coeff3 d m (y.axes a) (y.axes b) (y.axes c) := by
  unfold Init.coeff3
  simp only [macro', vector]
  rw [y.eye_axes, y.eye_axes, y.eye_axes, hcs]
  have h1 := y.eye_sign a b
  have h2 := y.eye_sign b c
  have h3 := y.eye_sign a c
  linear_combination (d.cs2 * (m.T - 1) * y.sign a * m.u (y.axes a)) * h2 + (d.cs2 * (m.T - 1) * y.sign b * m.u (y.axes b)) * h3
    + (d.cs2 * (m.T - 1) * y.sign c * m.u (y.axes c)) * h1

theorem eye2_sign (a b c f : Fin t.D) : (eye a b : ℝ) * eye c f = y.sign a * y.sign b * y.sign c * y.sign f * (eye a b * eye c f) := by
  have h1 := y.eye_sign a b
  have h2 := y.eye_sign c f
  calc (eye a b : ℝ) * eye c f = (y.sign a * y.sign b * eye a b) * (y.sign c * y.sign f * eye c f) := by rw [← h1, ← h2]
    _ = _ := by ring

theorem Data.H4 (h : y.Data V d d') (i : Fin t.Q) (a b c f : Fin t.D) : calculateH4 d'.cs2 d'.e (y.perm i) a b c f =
    y.sign a * y.sign b * y.sign c * y.sign f * calculateH4 d.cs2 d.e i (y.axes a) (y.axes b) (y.axes c) (y.axes f) := by
  unfold calculateH4
  simp only [y.eye_axes, h.e, h.cs2]
  have h1 := y.eye_sign a b
  have h2 := y.eye_sign b c
  have h3 := y.eye_sign a c
  have h4 := y.eye_sign a f
  have h5 := y.eye_sign b f
  have h6 := y.eye_sign c f
  have k1 := eye2_sign (y := y) a b c f
  have k2 := eye2_sign (y := y) a c b f
  have k3 := eye2_sign (y := y) a f b c
  generalize d.e i (y.axes a) = ea
  generalize d.e i (y.axes b) = eb
  generalize d.e i (y.axes c) = ec
  generalize d.e i (y.axes f) = ef
  linear_combination (-d.cs2 * (y.sign a * ea) * (y.sign b * eb)) * h6 + (-d.cs2 * (y.sign a * ea) * (y.sign c * ec)) * h5
    + (-d.cs2 * (y.sign a * ea) * (y.sign f * ef)) * h2 + (-d.cs2 * (y.sign b * eb) * (y.sign c * ec)) * h4
    + (-d.cs2 * (y.sign b * eb) * (y.sign f * ef)) * h3 + (-d.cs2 * (y.sign c * ec) * (y.sign f * ef)) * h1
    + d.cs2 * d.cs2 * (k1 + k2 + k3)

theorem coeff4 (hcs : d'.cs2 = d.cs2) (m : Macro ℝ t.D) (a b c f : Fin t.D) : Init.coeff4 d' (y.macro' m) a b c f =
    y.sign a * y.sign b * y.sign c * y.sign f * Init.coeff4 d m (y.axes a) (y.axes b) (y.axes c) (y.axes f) := by
  unfold Init.coeff4
  simp only [macro', vector, y.eye_axes, hcs]
  have h1 := y.eye_sign a b
  have h2 := y.eye_sign b c
  have h3 := y.eye_sign a c
  have h4 := y.eye_sign a f
  have h5 := y.eye_sign b f
  have h6 := y.eye_sign c f
  have k1 := eye2_sign (y := y) a b c f
  have k2 := eye2_sign (y := y) a c b f
  have k3 := eye2_sign (y := y) a f b c
  generalize m.u (y.axes a) = ea
  generalize m.u (y.axes b) = eb
  generalize m.u (y.axes c) = ec
  generalize m.u (y.axes f) = ef
  generalize d.cs2 * (m.T - 1) = T1
  linear_combination (T1 * (y.sign a * ea) * (y.sign b * eb)) * h6 + (T1 * (y.sign a * ea) * (y.sign c * ec)) * h5
    + (T1 * (y.sign a * ea) * (y.sign f * ef)) * h2 + (T1 * (y.sign b * eb) * (y.sign c * ec)) * h4
    + (T1 * (y.sign b * eb) * (y.sign f * ef)) * h3 + (T1 * (y.sign c * ec) * (y.sign f * ef)) * h1
    + T1 * T1 * (k1 + k2 + k3)

theorem Data.calcQuartic (h : y.Data V d d') (m : Macro ℝ t.D) (i : Fin t.Q) :
    Init.calcQuarticEquilibrium (y.macro' m).rho (y.macro' m).u (y.macro' m).T d'.cs2 d'.e d'.weight (y.perm i) =
      Init.calcQuarticEquilibrium m.rho m.u m.T d.cs2 d.e d.weight i := by
  rw [Init.quartic_split d' (y.macro' m), Init.quartic_split d m, h.quarticBase, h.weight]
  have e3 : ∑ a, ∑ b, ∑ c, Init.coeff3 d' (y.macro' m) a b c * calculateH3 d'.cs2 d'.e (y.perm i) a b c =
      ∑ a, ∑ b, ∑ c, Init.coeff3 d m a b c * calculateH3 d.cs2 d.e i a b c := by
    refine y.sum_axes fun a => y.sum_axes fun b => y.sum_axes fun c => ?_
    rw [h.H3, coeff3 h.cs2]
    have ha := y.sign_mul_self a
    have hb := y.sign_mul_self b
    have hc := y.sign_mul_self c
    calc _ = (y.sign a * y.sign a) * (y.sign b * y.sign b) * (y.sign c * y.sign c) * (Init.coeff3 d m (y.axes a) (y.axes b) (y.axes c) *
          calculateH3 d.cs2 d.e i (y.axes a) (y.axes b) (y.axes c)) := by ring
      _ = _ := by rw [ha, hb, hc]; ring
  have e4 : ∑ a, ∑ b, ∑ c, ∑ f, Init.coeff4 d' (y.macro' m) a b c f * calculateH4 d'.cs2 d'.e (y.perm i) a b c f =
      ∑ a, ∑ b, ∑ c, ∑ f, Init.coeff4 d m a b c f * calculateH4 d.cs2 d.e i a b c f := by
    refine y.sum_axes fun a => y.sum_axes fun b => y.sum_axes fun c => y.sum_axes fun f => ?_
    rw [h.H4, coeff4 h.cs2]
    have ha := y.sign_mul_self a
    have hb := y.sign_mul_self b
    have hc := y.sign_mul_self c
    have hf := y.sign_mul_self f
    calc _ = (y.sign a * y.sign a) * (y.sign b * y.sign b) * (y.sign c * y.sign c) * (y.sign f * y.sign f) *
          (Init.coeff4 d m (y.axes a) (y.axes b) (y.axes c) (y.axes f) *
          calculateH4 d.cs2 d.e i (y.axes a) (y.axes b) (y.axes c) (y.axes f)) := by ring
      _ = _ := by rw [ha, hb, hc, hf]; ring
  rw [e3, e4, h.cs2]
  rfl

theorem quartic_eq (t : StencilType) (d : CollData ℝ t.D t.Q) (m : Macro ℝ t.D) (hc : d.cs2 ≠ 0) :
    t.equilibrium .quartic d m = Init.calcQuarticEquilibrium m.rho m.u m.T d.cs2 d.e d.weight := by
  cases t
  case D2Q9 | D2Q19H | D2Q19V | D2Q777 | D2Q25H => exact (Init.calcQuartic2 d m hc).symm
  all_goals exact (Init.calcQuartic3 d m).symm

theorem Data.velocity (h : y.Data V d d') (f : Fin t.Q → ℝ) (rho : ℝ) :
    calculateVelocity d' (y.populations f) rho = y.vector (calculateVelocity d f rho) := by
  funext a
  unfold calculateVelocity vector
  have : ∑ i, d'.e i a * y.populations f i = y.sign a * ∑ i, d.e i (y.axes a) * f i := by
    rw [mul_sum]
    refine y.sum_perm fun i => ?_
    rw [h.e, y.populations_perm]
    ring
  rw [this]
  ring

theorem Data.bgkRelax (h : y.Data V d d') (feq f : Fin t.Q → ℝ) :
    NATriuM.bgkRelax d' (y.populations feq) (y.populations f) = y.populations (NATriuM.bgkRelax d feq f) := by
  refine y.eq_populations fun i => ?_
  unfold NATriuM.bgkRelax
  rw [h.tau, y.populations_perm, y.populations_perm]

theorem Data.pi (h : y.Data V d d') (feq f : Fin t.Q → ℝ) (a b : Fin t.D) :
    regularizedPi d' (y.populations feq) (y.populations f) a b = y.sign a * y.sign b * regularizedPi d feq f (y.axes a) (y.axes b) := by
  unfold regularizedPi
  have key : ∀ g : Fin t.Q → ℝ, ∑ j, y.populations g j * d'.e j a * d'.e j b = y.sign a * y.sign b * ∑ j, g j * d.e j (y.axes a) * d.e j (y.axes b) := by
    intro g
    rw [mul_sum]
    refine y.sum_perm fun i => ?_
    rw [h.e, h.e, y.populations_perm]
    ring
  rw [key, key]
  ring

theorem Data.q (h : y.Data V d d') (i : Fin t.Q) (a b : Fin t.D) :
    regularizedQ d' (y.perm i) a b = y.sign a * y.sign b * regularizedQ d i (y.axes a) (y.axes b) := by
  unfold regularizedQ
  rw [h.e, h.e, h.cs2]
  by_cases hab : a = b
  · rw [if_pos hab, if_pos (congrArg _ hab), hab]
    linear_combination (-d.cs2) * (1 - y.sign b * y.sign b - 1 + 1 : ℝ) * 0 + d.cs2 * (y.sign_mul_self b)
  · rw [if_neg hab, if_neg fun h' => hab (y.axes.injective h')]
    ring

theorem Data.regularizedRelax (h : y.Data V d d') (feq f : Fin t.Q → ℝ) :
    NATriuM.regularizedRelax d' (y.populations feq) (y.populations f) = y.populations (NATriuM.regularizedRelax d feq f) := by
  refine y.eq_populations fun i => ?_
  unfold NATriuM.regularizedRelax
  simp only
  rw [h.tau, y.populations_perm, h.weight, h.cs2]
  congr 2
  refine y.sum_axes fun a => y.sum_axes fun b => ?_
  rw [h.q, h.pi]
  have ha := y.sign_mul_self a
  have hb := y.sign_mul_self b
  calc _ = (y.sign a * y.sign a) * (y.sign b * y.sign b) * (d.weight i / (2 * d.cs2 * d.cs2) * regularizedQ d i (y.axes a) (y.axes b) *
        regularizedPi d feq f (y.axes a) (y.axes b)) := by ring
    _ = _ := by rw [ha, hb]; ring

end StencilType.Symmetry
end NATriuM
