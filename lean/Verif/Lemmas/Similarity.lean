import Verif.Spec.Similarity
import Verif.Lemmas.CollisionStencil
import Verif.Lemmas.Initialisation
import Mathlib.Tactic.Ring
import Mathlib.Tactic.FieldSimp
import Mathlib.Tactic.FinCases

/-!
# Lemmas: the collision and the advection operator in other units and along other axes
-/

namespace NATriuM

theorem D2Q25H.dir_mul (V c : ℝ) (i : Fin 25) (a : Fin 2) : D2Q25H.dir (V * c) i a = V * D2Q25H.dir c i a := by
  unfold D2Q25H.dir
  have h1 : V * c * √(5 - √10) / √3 = V * (c * √(5 - √10) / √3) := by ring
  have h2 : √(5 + √10) * (V * c) / √3 = V * (√(5 + √10) * c / √3) := by ring
  rw [h1, h2]
  generalize c * √(5 - √10) / √3 = x
  generalize √(5 + √10) * c / √3 = y
  fin_cases i <;> fin_cases a <;> first | exact (mul_zero V).symm | rfl | exact (mul_neg V _).symm

theorem D3Q13.dir_mul (V c : ℝ) (i : Fin 13) (a : Fin 3) : D3Q13.dir (V * c) i a = V * D3Q13.dir c i a := by
  unfold D3Q13.dir
  have h1 : V * c * (1 / √3) * √((5 + √5) / 2) = V * (c * (1 / √3) * √((5 + √5) / 2)) := by ring
  have h2 : V * c * (1 / √3) * √((5 - √5) / 2) = V * (c * (1 / √3) * √((5 - √5) / 2)) := by ring
  rw [h1, h2]
  generalize c * (1 / √3) * √((5 + √5) / 2) = x
  generalize c * (1 / √3) * √((5 - √5) / 2) = y
  fin_cases i <;> fin_cases a <;> first | exact (mul_zero V).symm | rfl | exact (mul_neg V _).symm

theorem D3Q21.dir_mul (V c : ℝ) (i : Fin 21) (a : Fin 3) : D3Q21.dir (V * c) i a = V * D3Q21.dir c i a := by
  unfold D3Q21.dir
  have h0 : V * c / (774596669241483 / 10 ^ 15) * (1 / √3) = V * (c / (774596669241483 / 10 ^ 15) * (1 / √3)) := by ring
  rw [h0]
  generalize c / (774596669241483 / 10 ^ 15) * (1 / √3) = s
  have h1 : V * s * (1 + √5) / 2 = V * (s * (1 + √5) / 2) := by ring
  have h2 : V * s * 1 / ((1 + √5) / 2) = V * (s * 1 / ((1 + √5) / 2)) := by ring
  rw [h1, h2]
  generalize s * (1 + √5) / 2 = x
  generalize s * 1 / ((1 + √5) / 2) = y
  fin_cases i <;> fin_cases a <;> first | exact (mul_zero V).symm | rfl | exact (mul_neg V _).symm

namespace StencilType

theorem weight_scale (t : StencilType) (c c' : ℝ) : (t.stencil c).weight = (t.stencil c').weight := by cases t <;> rfl

theorem opp_scale (t : StencilType) (c c' : ℝ) : (t.stencil c).opp = (t.stencil c').opp := by cases t <;> rfl

theorem cs2_scale (t : StencilType) (V c : ℝ) : (t.stencil (V * c)).cs2 = V * V * (t.stencil c).cs2 := by
  cases t <;>
    simp only [stencil, D2Q9.stencil, D3Q19.stencil, D3Q15.stencil, D3Q27.stencil, D2Q25H.stencil, D3Q13.stencil, RD3Q27.stencil, D3Q21.stencil,
      D3Q45.stencil, D3Q77.stencil, D3V27.stencil, D2Q19H.stencil, D2Q19V.stencil, D2Q777.stencil] <;> ring

theorem dir_scale (t : StencilType) (V c : ℝ) (i : Fin t.Q) (a : Fin t.D) : (t.stencil (V * c)).dir i a = V * (t.stencil c).dir i a := by
  cases t
  case D2Q9 => exact (D2Q9.dir_eq _ i a).trans ((mul_assoc _ _ _).trans (congrArg (V * ·) (D2Q9.dir_eq c i a).symm))
  case D3Q19 => exact (D3Q19.dir_eq _ i a).trans ((mul_assoc _ _ _).trans (congrArg (V * ·) (D3Q19.dir_eq c i a).symm))
  case D3Q15 => exact (D3Q15.dir_eq _ i a).trans ((mul_assoc _ _ _).trans (congrArg (V * ·) (D3Q15.dir_eq c i a).symm))
  case D3Q27 => exact (D3Q27.dir_eq _ i a).trans ((mul_assoc _ _ _).trans (congrArg (V * ·) (D3Q27.dir_eq c i a).symm))
  case RD3Q27 => exact (RD3Q27.dir_eq _ i a).trans ((mul_assoc _ _ _).trans (congrArg (V * ·) (RD3Q27.dir_eq c i a).symm))
  case D2Q25H => exact NATriuM.D2Q25H.dir_mul V c i a
  case D3Q13 => exact NATriuM.D3Q13.dir_mul V c i a
  case D3Q21 => exact NATriuM.D3Q21.dir_mul V c i a
  all_goals
    simp only [stencil, D3Q45.stencil, D3Q77.stencil, D3V27.stencil, D2Q19H.stencil, D2Q19V.stencil, D2Q777.stencil]
    ring

end StencilType
end NATriuM
