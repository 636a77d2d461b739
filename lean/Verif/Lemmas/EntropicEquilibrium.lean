import Verif.Model.EntropicEquilibrium
import Verif.Props.LegacyMRT

/-!
# Auxiliary facts on the equilibrium of the KBC model
-/

namespace NATriuM.Legacy

open NATriuM.Spec

/-- the equilibrium the code computes on D3Q15, direction by direction -/
noncomputable def kbcTable15 (p x y z : ℝ) : Fin 15 → ℝ :=
  ![2 / 9 * p, 1 / 9 * p * x, 1 / 9 * p / x, 1 / 9 * p * y, 1 / 9 * p / y, 1 / 9 * p * z, 1 / 9 * p / z, 1 / 72 * p * x * y * z,
    1 / 72 * p / x / y / z, 1 / 72 * p * x * y / z, 1 / 72 * p / x / y * z, 1 / 72 * p * x / y * z, 1 / 72 * p / x * y / z,
    1 / 72 * p * x / y / z, 1 / 72 * p / x * y * z]

lemma pow_plus {c : ℝ} (hc : c ≠ 0) (x : ℝ) : x ^ (c / c) = x := by rw [div_self hc, Real.rpow_one]

lemma pow_minus {c : ℝ} (hc : c ≠ 0) (x : ℝ) : x ^ (-c / c) = x⁻¹ := by
  rw [neg_div, div_self hc, Real.rpow_neg_one]

lemma kbcEquilibrium_D2Q9 {c : ℝ} (hc : c ≠ 0) (u : Fin 2 → ℝ) (rho : ℝ) :
    kbcEquilibrium (D2Q9.stencil c) u rho = kbcFeqD2Q9 rho (u 0 / c) (u 1 / c) := by
  have h2 : List.finRange 2 = [0, 1] := by decide
  funext i
  unfold kbcEquilibrium kbcFeqD2Q9
  rw [h2]
  simp only [List.foldl, D2Q9.stencil]
  generalize kbcRoot (u 0 / c) = r
  generalize kbcRoot (u 1 / c) = s
  generalize kbcPost (u 0 / c) = x
  generalize kbcPost (u 1 / c) = y
  fin_cases i <;> simp [D2Q9.weight, D2Q9.dir, pow_plus hc, pow_minus hc, -mul_eq_mul_right_iff, -mul_eq_mul_left_iff] <;> ring

lemma kbcEquilibrium_D3Q15 {c : ℝ} (hc : c ≠ 0) (u : Fin 3 → ℝ) (rho : ℝ) :
    kbcEquilibrium (D3Q15.stencil c) u rho =
      kbcTable15 (rho * (2 - kbcRoot (u 0 / c)) * (2 - kbcRoot (u 1 / c)) * (2 - kbcRoot (u 2 / c)))
        (kbcPost (u 0 / c)) (kbcPost (u 1 / c)) (kbcPost (u 2 / c)) := by
  have h3 : List.finRange 3 = [0, 1, 2] := by decide
  funext i
  unfold kbcEquilibrium kbcTable15
  rw [h3]
  simp only [List.foldl, D3Q15.stencil]
  generalize kbcRoot (u 0 / c) = r
  generalize kbcRoot (u 1 / c) = s
  generalize kbcRoot (u 2 / c) = t
  generalize kbcPost (u 0 / c) = x
  generalize kbcPost (u 1 / c) = y
  generalize kbcPost (u 2 / c) = z
  fin_cases i <;> simp [D3Q15.weight, D3Q15.dir, pow_plus hc, pow_minus hc, -mul_eq_mul_right_iff, -mul_eq_mul_left_iff] <;> ring

/-- the even and odd sums along one axis: `A` is the share of the particles at rest (times 3/2), `E` and `O` are six times the sums -/
lemma kbc_axis {u : ℝ} (hu : |u| < 1) :
    (2 - kbcRoot u) * (kbcPost u + (kbcPost u)⁻¹) = 6 - 4 * (2 - kbcRoot u) ∧ (2 - kbcRoot u) * (kbcPost u - (kbcPost u)⁻¹) = 6 * u := by
  have e := kbc_even hu
  have o := kbc_odd hu
  simp only [one_div] at e o
  constructor
  · linear_combination 6 * e
  · linear_combination 6 * o

/-- mass and momentum on D3Q15 in terms of the axes -/
lemma kbcTable15_moments (rho a b d x y z : ℝ) :
    mass (kbcTable15 (rho * a * b * d) x y z) =
      rho * (2 / 9 * a * b * d + 1 / 9 * ((a * (x + x⁻¹)) * b * d + a * (b * (y + y⁻¹)) * d + a * b * (d * (z + z⁻¹))) +
        1 / 72 * (a * (x + x⁻¹)) * (b * (y + y⁻¹)) * (d * (z + z⁻¹))) ∧
    lat15 (kbcTable15 (rho * a * b * d) x y z) =
      ![rho * (a * (x - x⁻¹)) * (1 / 9 * b * d + 1 / 72 * (b * (y + y⁻¹)) * (d * (z + z⁻¹))),
        rho * (b * (y - y⁻¹)) * (1 / 9 * a * d + 1 / 72 * (a * (x + x⁻¹)) * (d * (z + z⁻¹))),
        rho * (d * (z - z⁻¹)) * (1 / 9 * a * b + 1 / 72 * (a * (x + x⁻¹)) * (b * (y + y⁻¹)))] := by
  constructor
  · unfold mass
    rw [sum15]
    simp only [kbcTable15]
    simp
    ring
  · funext i
    fin_cases i <;> simp [lat15, kbcTable15] <;> ring

lemma kbcRoot_zero : kbcRoot 0 = 1 := by simp [kbcRoot]

end NATriuM.Legacy
