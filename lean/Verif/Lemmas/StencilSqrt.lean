import Verif.Lemmas.Stencil
import Mathlib.Tactic.Positivity
import Mathlib.Tactic.NormNum.NatSqrt
import Mathlib.Algebra.BigOperators.Fin

/-! # Table lemmas for the stencils with irrational entries (helper lemmas) -/

namespace NATriuM

open Finset NATriuM.Spec

private theorem sq5 : (√5 : ℝ) * √5 = 5 := Real.mul_self_sqrt (by norm_num)
private theorem sq3 : (√3 : ℝ) * √3 = 3 := Real.mul_self_sqrt (by norm_num)
private theorem sq5_lt : (√5 : ℝ) < 5 := by
  rw [Real.sqrt_lt' (by norm_num)]; norm_num
private theorem sqrt5_nonneg : (0 : ℝ) ≤ √5 := Real.sqrt_nonneg 5

/-! ### D3Q13 -/
namespace D3Q13

/-- scaled velocity component -/
noncomputable def p (c : ℝ) : ℝ := c * (1 / √3) * √((5 + √5) / 2)
noncomputable def m (c : ℝ) : ℝ := c * (1 / √3) * √((5 - √5) / 2)

theorem inv3 : (1 / √3 : ℝ) * (1 / √3) = 1 / 3 := by
  rw [div_mul_div_comm, sq3]; norm_num

theorem p2 (c : ℝ) : p c * p c = c * c / 3 * ((5 + √5) / 2) := by
  have h : √((5 + √5) / 2) * √((5 + √5) / 2) = (5 + √5) / 2 :=
    Real.mul_self_sqrt (by have := sqrt5_nonneg; linarith)
  unfold p; linear_combination (c * c * √((5 + √5) / 2) * √((5 + √5) / 2)) * inv3 + c * c / 3 * h

theorem m2 (c : ℝ) : m c * m c = c * c / 3 * ((5 - √5) / 2) := by
  have h : √((5 - √5) / 2) * √((5 - √5) / 2) = (5 - √5) / 2 :=
    Real.mul_self_sqrt (by have := sq5_lt; linarith)
  unfold m; linear_combination (c * c * √((5 - √5) / 2) * √((5 - √5) / 2)) * inv3 + c * c / 3 * h

theorem p2_add_m2 (c : ℝ) : p c ^ 2 + m c ^ 2 = c * c / 3 * 5 := by
  linear_combination p2 c + m2 c

theorem p4_add_m4 (c : ℝ) : p c ^ 4 + m c ^ 4 = (c * c / 3) ^ 2 * 15 := by
  have h1 : p c ^ 4 = (c * c / 3 * ((5 + √5) / 2)) ^ 2 := by rw [← p2]; ring
  have h2 : m c ^ 4 = (c * c / 3 * ((5 - √5) / 2)) ^ 2 := by rw [← m2]; ring
  rw [h1, h2]; linear_combination ((c * c / 3) ^ 2 / 2) * sq5

theorem p2_mul_m2 (c : ℝ) : p c ^ 2 * m c ^ 2 = (c * c / 3) ^ 2 * 5 := by
  have h : p c ^ 2 * m c ^ 2 = (p c * p c) * (m c * m c) := by ring
  rw [h, p2, m2]; linear_combination (-(c * c / 3) ^ 2 / 4) * sq5

theorem row0 (c : ℝ) : dir c 0 = ![0, 0, 0] := rfl
theorem row1 (c : ℝ) : dir c 1 = ![0, m c, p c] := rfl
theorem row2 (c : ℝ) : dir c 2 = ![0, -m c, -p c] := rfl
theorem row3 (c : ℝ) : dir c 3 = ![0, -m c, p c] := rfl
theorem row4 (c : ℝ) : dir c 4 = ![0, m c, -p c] := rfl
theorem row5 (c : ℝ) : dir c 5 = ![m c, p c, 0] := rfl
theorem row6 (c : ℝ) : dir c 6 = ![-m c, -p c, 0] := rfl
theorem row7 (c : ℝ) : dir c 7 = ![-m c, p c, 0] := rfl
theorem row8 (c : ℝ) : dir c 8 = ![m c, -p c, 0] := rfl
theorem row9 (c : ℝ) : dir c 9 = ![p c, 0, m c] := rfl
theorem row10 (c : ℝ) : dir c 10 = ![-p c, 0, -m c] := rfl
theorem row11 (c : ℝ) : dir c 11 = ![-p c, 0, m c] := rfl
theorem row12 (c : ℝ) : dir c 12 = ![p c, 0, -m c] := rfl

theorem w0 : weight 0 = 2 / 5 := rfl
theorem wi (i : Fin 12) : weight i.succ = 1 / 20 := by fin_cases i <;> rfl

theorem sumw (g : Fin 13 → ℝ) : ∑ i, weight i * g i = 2 / 5 * g 0 + 1 / 20 * (g 1 + g 2 + g 3 + g 4 + g 5 + g 6 + g 7
    + g 8 + g 9 + g 10 + g 11 + g 12) := by
  rw [Fin.sum_univ_succ, w0]
  simp only [wi]
  rw [← Finset.mul_sum]
  congr 2
  simp only [Fin.sum_univ_castSucc, Fin.sum_univ_zero, zero_add]; rfl

theorem opposite (c : ℝ) : OppositeTable (stencil c).weight (stencil c).dir (stencil c).opp := by
  refine ⟨fun i a => ?_, fun i => ?_, show ∀ i, opp (opp i) = i by decide +kernel⟩
  · fin_cases i <;> fin_cases a <;> first | exact neg_zero.symm | rfl | exact (neg_neg _).symm
  · fin_cases i <;> rfl

theorem iso5 (c : ℝ) : Iso5 (stencil c).weight (stencil c).dir (stencil c).cs2 where
  m0 := by
    have := sumw (fun _ => 1)
    simp only [mul_one] at this
    change ∑ i, weight i = 1
    rw [this]; norm_num
  m1 := m1_of_opp (opposite c)
  m2 a b := by
    change ∑ i, weight i * (dir c i a * dir c i b) = c * c / 3 * δ a b
    rw [sumw]
    simp only [row0, row1, row2, row3, row4, row5, row6, row7, row8, row9, row10, row11, row12]
    have h := p2_add_m2 c
    fin_cases a <;> fin_cases b <;> simp [δ] <;> first | ring1 | linear_combination (1 / 5) * h
  m3 := m3_of_opp (opposite c)
  m4 a b d f := by
    change ∑ i, weight i * (dir c i a * dir c i b * dir c i d * dir c i f) = (c * c / 3) ^ 2 * _
    rw [sumw]
    simp only [row0, row1, row2, row3, row4, row5, row6, row7, row8, row9, row10, row11, row12]
    have h := p4_add_m4 c
    have h' := p2_mul_m2 c
    fin_cases a <;> fin_cases b <;> fin_cases d <;> fin_cases f <;> simp [δ] <;>
      first | ring1 | linear_combination (1 / 5) * h' | linear_combination (1 / 5) * h
  m5 := m5_of_opp (opposite c)

end D3Q13

/-! ### D3Q21 -/
namespace D3Q21

/-- the literal `0.774596669241483` of `D3Q21.cpp`, an approximation of `√0.6` -/
noncomputable def lit : ℝ := 774596669241483 / 10 ^ 15
noncomputable def s (c : ℝ) : ℝ := c / lit * (1 / √3)
noncomputable def phi (c : ℝ) : ℝ := s c * (1 + √5) / 2
noncomputable def inphi (c : ℝ) : ℝ := s c * 1 / ((1 + √5) / 2)

theorem inphi_eq (c : ℝ) : inphi c = s c * ((√5 - 1) / 2) := by
  have h : (1 + √5 : ℝ) ≠ 0 := by have := sqrt5_nonneg; positivity
  unfold inphi; field_simp; linear_combination (-s c) * sq5

/-- The ratio between the actual second moment and the speed of sound squared the stencil reports. -/
noncomputable def kappa : ℝ := 3 / 5 / lit ^ 2

theorem s2 (c : ℝ) : s c ^ 2 * (3 / 5) = kappa * (c * c / 3) := by
  unfold s kappa
  have h : (1 / √3 : ℝ) * (1 / √3) = 1 / 3 := D3Q13.inv3
  linear_combination (c / lit) ^ 2 * (3 / 5) * h

theorem phi2_add (c : ℝ) : phi c ^ 2 + inphi c ^ 2 = 3 * s c ^ 2 := by
  rw [inphi_eq]; unfold phi; linear_combination s c ^ 2 / 2 * sq5

theorem phi2_mul (c : ℝ) : phi c ^ 2 * inphi c ^ 2 = s c ^ 4 := by
  have h : phi c * inphi c = s c ^ 2 := by
    rw [inphi_eq]; unfold phi; linear_combination s c ^ 2 / 4 * sq5
  rw [← mul_pow, h]; ring

theorem phi4_add (c : ℝ) : phi c ^ 4 + inphi c ^ 4 = 7 * s c ^ 4 := by
  have h : phi c ^ 4 + inphi c ^ 4 = (phi c ^ 2 + inphi c ^ 2) ^ 2 - 2 * (phi c ^ 2 * inphi c ^ 2) := by ring
  rw [h, phi2_add, phi2_mul]; ring

theorem row0 (c : ℝ) : dir c 0 = ![0, 0, 0] := rfl
theorem row1 (c : ℝ) : dir c 1 = ![s c, s c, s c] := rfl
theorem row2 (c : ℝ) : dir c 2 = ![-s c, -s c, -s c] := rfl
theorem row3 (c : ℝ) : dir c 3 = ![-s c, s c, s c] := rfl
theorem row4 (c : ℝ) : dir c 4 = ![s c, -s c, -s c] := rfl
theorem row5 (c : ℝ) : dir c 5 = ![s c, -s c, s c] := rfl
theorem row6 (c : ℝ) : dir c 6 = ![-s c, s c, -s c] := rfl
theorem row7 (c : ℝ) : dir c 7 = ![s c, s c, -s c] := rfl
theorem row8 (c : ℝ) : dir c 8 = ![-s c, -s c, s c] := rfl
theorem row9 (c : ℝ) : dir c 9 = ![0, phi c, inphi c] := rfl
theorem row10 (c : ℝ) : dir c 10 = ![0, -phi c, -inphi c] := rfl
theorem row11 (c : ℝ) : dir c 11 = ![0, -phi c, inphi c] := rfl
theorem row12 (c : ℝ) : dir c 12 = ![0, phi c, -inphi c] := rfl
theorem row13 (c : ℝ) : dir c 13 = ![inphi c, 0, phi c] := rfl
theorem row14 (c : ℝ) : dir c 14 = ![-inphi c, 0, -phi c] := rfl
theorem row15 (c : ℝ) : dir c 15 = ![-inphi c, 0, phi c] := rfl
theorem row16 (c : ℝ) : dir c 16 = ![inphi c, 0, -phi c] := rfl
theorem row17 (c : ℝ) : dir c 17 = ![phi c, inphi c, 0] := rfl
theorem row18 (c : ℝ) : dir c 18 = ![-phi c, -inphi c, 0] := rfl
theorem row19 (c : ℝ) : dir c 19 = ![-phi c, inphi c, 0] := rfl
theorem row20 (c : ℝ) : dir c 20 = ![phi c, -inphi c, 0] := rfl

theorem w0 : weight 0 = 2 / 5 := rfl
theorem wi (i : Fin 20) : weight i.succ = 3 / 100 := by fin_cases i <;> rfl

theorem sumw (g : Fin 21 → ℝ) : ∑ i, weight i * g i = 2 / 5 * g 0 + 3 / 100 * (g 1 + g 2 + g 3 + g 4 + g 5 + g 6 + g 7 + g 8 + g 9 + g 10 + g 11 + g 12 + g 13 + g 14 + g 15 + g 16 + g 17 + g 18 + g 19 + g 20) := by
  rw [Fin.sum_univ_succ, w0]
  simp only [wi]
  rw [← Finset.mul_sum]
  congr 2
  simp only [Fin.sum_univ_castSucc, Fin.sum_univ_zero, zero_add]; rfl

theorem opposite (c : ℝ) : OppositeTable (stencil c).weight (stencil c).dir (stencil c).opp := by
  refine ⟨fun i a => ?_, fun i => ?_, show ∀ i, opp (opp i) = i by decide +kernel⟩
  · fin_cases i <;> fin_cases a <;> first | exact neg_zero.symm | rfl | exact (neg_neg _).symm
  · fin_cases i <;> rfl

theorem iso5 (c : ℝ) : Iso5 (stencil c).weight (stencil c).dir (kappa * (stencil c).cs2) where
  m0 := by
    have := sumw (fun _ => 1)
    simp only [mul_one] at this
    change ∑ i, weight i = 1
    rw [this]; norm_num
  m1 := m1_of_opp (opposite c)
  m2 a b := by
    change ∑ i, weight i * (dir c i a * dir c i b) = kappa * (c * c / 3) * δ a b
    rw [sumw, ← s2]
    simp only [row0, row1, row2, row3, row4, row5, row6, row7, row8, row9, row10, row11, row12, row13, row14, row15, row16, row17, row18, row19, row20]
    have h := phi2_add c
    fin_cases a <;> fin_cases b <;> simp [δ] <;> first | ring1 | linear_combination (3 / 25) * h
  m3 := m3_of_opp (opposite c)
  m4 a b d f := by
    change ∑ i, weight i * (dir c i a * dir c i b * dir c i d * dir c i f) = (kappa * (c * c / 3)) ^ 2 * _
    rw [sumw, ← s2]
    simp only [row0, row1, row2, row3, row4, row5, row6, row7, row8, row9, row10, row11, row12, row13, row14, row15, row16, row17, row18, row19, row20]
    have h := phi4_add c
    have h' := phi2_mul c
    fin_cases a <;> fin_cases b <;> fin_cases d <;> fin_cases f <;> simp [δ] <;>
      first | ring1 | linear_combination (3 / 25) * h' | linear_combination (3 / 25) * h
  m5 := m5_of_opp (opposite c)

theorem kappa_close : |kappa - 1| ≤ 2 / 10 ^ 15 := by
  rw [abs_le]; unfold kappa lit; constructor <;> norm_num

end D3Q21

/-! ### D2Q25H -/
namespace D2Q25H

noncomputable def w_0 : ℝ := let r : ℝ := (√5 - √2) / √3; (-3 - 3 * r * r * r * r + 54 * r * r) / (75 * r * r)
noncomputable def w_m : ℝ :=
  let r : ℝ := (√5 - √2) / √3; (9 * r * r * r * r - 6 - 27 * r * r) / (300 * r * r * (r * r - 1))
noncomputable def w_n : ℝ :=
  let r : ℝ := (√5 - √2) / √3; (9 - 6 * r * r * r * r - 27 * r * r) / (300 * (1 - r * r))
noncomputable def cm (c : ℝ) : ℝ := c * √(5 - √10) / √3
noncomputable def cn (c : ℝ) : ℝ := √(5 + √10) * c / √3

theorem sq10 : (√10 : ℝ) * √10 = 10 := Real.mul_self_sqrt (by norm_num)
theorem sq2 : (√2 : ℝ) * √2 = 2 := Real.mul_self_sqrt (by norm_num)
theorem s52 : (√5 : ℝ) * √2 = √10 := by rw [← Real.sqrt_mul (by norm_num)]; norm_num
theorem s10_lt : (√10 : ℝ) < 7 / 2 := by rw [Real.sqrt_lt' (by norm_num)]; norm_num
theorem s10_gt : 3 < (√10 : ℝ) := by rw [Real.lt_sqrt (by norm_num)]; norm_num

theorem r2 : ((√5 - √2) / √3 : ℝ) * ((√5 - √2) / √3) = (7 - 2 * √10) / 3 := by
  rw [div_mul_div_comm, sq3]
  linear_combination (1 / 3) * sq5 + (1 / 3) * sq2 - (2 / 3) * s52

theorem w_0_eq : w_0 = 8 / 15 := by
  have h1 := s10_lt
  have hr := r2
  unfold w_0
  generalize (√5 - √2) / √3 = r at *
  have hne : r * r ≠ 0 := by rw [hr]; linarith
  have h4 : r * r * (r * r) = (89 - 28 * √10) / 9 := by rw [hr]; linear_combination (4 / 9) * sq10
  change (-3 - 3 * r * r * r * r + 54 * r * r) / (75 * r * r) = _
  rw [div_eq_iff (by rw [mul_assoc]; exact mul_ne_zero (by norm_num) hne)]
  linear_combination (-3) * h4 + 14 * hr

theorem w_m_eq : w_m = (7 + 2 * √10) / 60 := by
  have h1 := s10_lt
  have h2 := s10_gt
  have hr := r2
  unfold w_m
  generalize (√5 - √2) / √3 = r at *
  have hne : r * r ≠ 0 := by rw [hr]; linarith
  have hne' : r * r - 1 ≠ 0 := by rw [hr]; linarith
  have h4 : r * r * (r * r) = (89 - 28 * √10) / 9 := by rw [hr]; linear_combination (4 / 9) * sq10
  change (9 * r * r * r * r - 6 - 27 * r * r) / (300 * r * r * (r * r - 1)) = _
  rw [div_eq_iff (mul_ne_zero (by rw [mul_assoc]; exact mul_ne_zero (by norm_num) hne) hne')]
  have h5 : 300 * r * r * (r * r - 1) = 300 * (r * r * (r * r) - r * r) := by ring
  have h6 : 9 * r * r * r * r - 6 - 27 * r * r = 9 * (r * r * (r * r)) - 6 - 27 * (r * r) := by ring
  rw [h5, h6, h4, hr]
  linear_combination (220 / 9) * sq10

theorem w_n_eq : w_n = (7 - 2 * √10) / 60 := by
  have h1 := s10_lt
  have h2 := s10_gt
  have hr := r2
  unfold w_n
  generalize (√5 - √2) / √3 = r at *
  have hne' : 1 - r * r ≠ 0 := by rw [hr]; linarith
  have h4 : r * r * (r * r) = (89 - 28 * √10) / 9 := by rw [hr]; linear_combination (4 / 9) * sq10
  change (9 - 6 * r * r * r * r - 27 * r * r) / (300 * (1 - r * r)) = _
  rw [div_eq_iff (mul_ne_zero (by norm_num) hne')]
  have h6 : 9 - 6 * r * r * r * r - 27 * r * r = 9 - 6 * (r * r * (r * r)) - 27 * (r * r) := by ring
  rw [h6, h4, hr]
  linear_combination (20 / 3) * sq10

theorem cm2 (c : ℝ) : cm c ^ 2 = c * c / 3 * (5 - √10) := by
  have h : √(5 - √10) * √(5 - √10) = 5 - √10 := Real.mul_self_sqrt (by have := s10_lt; linarith)
  have h3 : (√3 : ℝ) ^ 2 = 3 := by rw [pow_two]; exact sq3
  unfold cm
  rw [div_pow, h3]; linear_combination c * c / 3 * h

theorem cn2 (c : ℝ) : cn c ^ 2 = c * c / 3 * (5 + √10) := by
  have h : √(5 + √10) * √(5 + √10) = 5 + √10 := Real.mul_self_sqrt (by have := s10_gt; linarith)
  have h3 : (√3 : ℝ) ^ 2 = 3 := by rw [pow_two]; exact sq3
  unfold cn
  rw [div_pow, h3]; linear_combination c * c / 3 * h

/-- one-dimensional moments of the five-point Gauss-Hermite rule -/
noncomputable def M (c : ℝ) (p : ℕ) : ℝ :=
  w_0 * 0 ^ p + w_m * (cm c ^ p + (-cm c) ^ p) + w_n * (cn c ^ p + (-cn c) ^ p)

theorem M0 (c : ℝ) : M c 0 = 1 := by
  unfold M; rw [w_0_eq, w_m_eq, w_n_eq]; ring

theorem M2 (c : ℝ) : M c 2 = c * c / 3 := by
  unfold M; rw [neg_sq, neg_sq, cm2, cn2, w_0_eq, w_m_eq, w_n_eq]; linear_combination (-(c * c / 3) / 30 * 4) * sq10

theorem M4 (c : ℝ) : M c 4 = 3 * (c * c / 3) ^ 2 := by
  have h1 : cm c ^ 4 = (c * c / 3 * (5 - √10)) ^ 2 := by rw [← cm2]; ring
  have h2 : cn c ^ 4 = (c * c / 3 * (5 + √10)) ^ 2 := by rw [← cn2]; ring
  have h3 : M c 4 = 2 * w_m * cm c ^ 4 + 2 * w_n * cn c ^ 4 := by unfold M; ring
  rw [h3, h1, h2, w_m_eq, w_n_eq]; linear_combination (-(c * c / 3) ^ 2 * (26 / 30)) * sq10

theorem M6 (c : ℝ) : M c 6 = 15 * (c * c / 3) ^ 3 := by
  have h1 : cm c ^ 6 = (c * c / 3 * (5 - √10)) ^ 3 := by rw [← cm2]; ring
  have h2 : cn c ^ 6 = (c * c / 3 * (5 + √10)) ^ 3 := by rw [← cn2]; ring
  have h3 : M c 6 = 2 * w_m * cm c ^ 6 + 2 * w_n * cn c ^ 6 := by unfold M; ring
  rw [h3, h1, h2, w_m_eq, w_n_eq]
  linear_combination ((c * c / 3) ^ 3 * (-(90 / 30) - (4 / 30) * (√10 * √10 + 10))) * sq10

theorem M_odd (c : ℝ) (k : ℕ) : M c (2 * k + 1) = 0 := by
  unfold M
  rw [Odd.neg_pow ⟨k, rfl⟩, Odd.neg_pow ⟨k, rfl⟩]; simp

theorem row0 (c : ℝ) : dir c 0 = ![0, 0] := rfl
theorem row1 (c : ℝ) : dir c 1 = ![cm c, 0] := rfl
theorem row2 (c : ℝ) : dir c 2 = ![0, cm c] := rfl
theorem row3 (c : ℝ) : dir c 3 = ![-cm c, 0] := rfl
theorem row4 (c : ℝ) : dir c 4 = ![0, -cm c] := rfl
theorem row5 (c : ℝ) : dir c 5 = ![cm c, cm c] := rfl
theorem row6 (c : ℝ) : dir c 6 = ![-cm c, cm c] := rfl
theorem row7 (c : ℝ) : dir c 7 = ![-cm c, -cm c] := rfl
theorem row8 (c : ℝ) : dir c 8 = ![cm c, -cm c] := rfl
theorem row9 (c : ℝ) : dir c 9 = ![cn c, 0] := rfl
theorem row10 (c : ℝ) : dir c 10 = ![0, cn c] := rfl
theorem row11 (c : ℝ) : dir c 11 = ![-cn c, 0] := rfl
theorem row12 (c : ℝ) : dir c 12 = ![0, -cn c] := rfl
theorem row13 (c : ℝ) : dir c 13 = ![cn c, cn c] := rfl
theorem row14 (c : ℝ) : dir c 14 = ![-cn c, cn c] := rfl
theorem row15 (c : ℝ) : dir c 15 = ![-cn c, -cn c] := rfl
theorem row16 (c : ℝ) : dir c 16 = ![cn c, -cn c] := rfl
theorem row17 (c : ℝ) : dir c 17 = ![cm c, cn c] := rfl
theorem row18 (c : ℝ) : dir c 18 = ![cm c, -cn c] := rfl
theorem row19 (c : ℝ) : dir c 19 = ![-cm c, -cn c] := rfl
theorem row20 (c : ℝ) : dir c 20 = ![-cm c, cn c] := rfl
theorem row21 (c : ℝ) : dir c 21 = ![cn c, cm c] := rfl
theorem row22 (c : ℝ) : dir c 22 = ![cn c, -cm c] := rfl
theorem row23 (c : ℝ) : dir c 23 = ![-cn c, -cm c] := rfl
theorem row24 (c : ℝ) : dir c 24 = ![-cn c, cm c] := rfl
theorem wt0 : weight 0 = w_0 * w_0 := rfl
theorem wt1 : weight 1 = w_0 * w_m := rfl
theorem wt2 : weight 2 = w_0 * w_m := rfl
theorem wt3 : weight 3 = w_0 * w_m := rfl
theorem wt4 : weight 4 = w_0 * w_m := rfl
theorem wt5 : weight 5 = w_m * w_m := rfl
theorem wt6 : weight 6 = w_m * w_m := rfl
theorem wt7 : weight 7 = w_m * w_m := rfl
theorem wt8 : weight 8 = w_m * w_m := rfl
theorem wt9 : weight 9 = w_0 * w_n := rfl
theorem wt10 : weight 10 = w_0 * w_n := rfl
theorem wt11 : weight 11 = w_0 * w_n := rfl
theorem wt12 : weight 12 = w_0 * w_n := rfl
theorem wt13 : weight 13 = w_n * w_n := rfl
theorem wt14 : weight 14 = w_n * w_n := rfl
theorem wt15 : weight 15 = w_n * w_n := rfl
theorem wt16 : weight 16 = w_n * w_n := rfl
theorem wt17 : weight 17 = w_m * w_n := rfl
theorem wt18 : weight 18 = w_m * w_n := rfl
theorem wt19 : weight 19 = w_m * w_n := rfl
theorem wt20 : weight 20 = w_m * w_n := rfl
theorem wt21 : weight 21 = w_m * w_n := rfl
theorem wt22 : weight 22 = w_m * w_n := rfl
theorem wt23 : weight 23 = w_m * w_n := rfl
theorem wt24 : weight 24 = w_m * w_n := rfl

theorem sum25 (f : Fin 25 → ℝ) : ∑ i, f i = f 0 + f 1 + f 2 + f 3 + f 4 + f 5 + f 6 + f 7 + f 8 + f 9 + f 10 + f 11 + f 12 + f 13 + f 14 + f 15 + f 16 + f 17 + f 18 + f 19 + f 20 + f 21 + f 22 + f 23 + f 24 := by
  simp only [Fin.sum_univ_castSucc, Fin.sum_univ_zero, zero_add]; rfl

/-- the two-dimensional moments factorise -/
theorem moment (c : ℝ) (p q : ℕ) : ∑ i, weight i * (dir c i 0 ^ p * dir c i 1 ^ q) = M c p * M c q := by
  rw [sum25]
  simp only [row0, row1, row2, row3, row4, row5, row6, row7, row8, row9, row10, row11, row12, row13, row14, row15, row16, row17, row18, row19, row20, row21, row22, row23, row24,
    wt0, wt1, wt2, wt3, wt4, wt5, wt6, wt7, wt8, wt9, wt10, wt11, wt12, wt13, wt14, wt15, wt16, wt17, wt18, wt19, wt20, wt21, wt22, wt23, wt24, Matrix.cons_val_zero, Matrix.cons_val_one]
  unfold M
  ring

theorem opposite (c : ℝ) : OppositeTable (stencil c).weight (stencil c).dir (stencil c).opp := by
  refine ⟨fun i a => ?_, fun i => ?_, show ∀ i, opp (opp i) = i by decide +kernel⟩
  · fin_cases i <;> fin_cases a <;> first | exact neg_zero.symm | rfl | exact (neg_neg _).symm
  · fin_cases i <;> rfl

theorem sum_eq_moment (c : ℝ) (g : Fin 25 → ℝ) (p q : ℕ) (h : ∀ i, g i = dir c i 0 ^ p * dir c i 1 ^ q) :
    ∑ i, (stencil c).weight i * g i = M c p * M c q := by
  rw [← moment]; exact Finset.sum_congr rfl fun i _ => by rw [h]; rfl

theorem M1 (c : ℝ) : M c 1 = 0 := M_odd c 0
theorem M3 (c : ℝ) : M c 3 = 0 := M_odd c 1
theorem M5 (c : ℝ) : M c 5 = 0 := M_odd c 2

theorem iso6 (c : ℝ) : Iso6 (stencil c).weight (stencil c).dir (stencil c).cs2 where
  m0 := by
    have := sum_eq_moment c (fun _ => 1) 0 0 (fun i => by simp)
    simpa [M0] using this
  m1 := m1_of_opp (opposite c)
  m2 a b := by
    change _ = c * c / 3 * _
    fin_cases a <;> fin_cases b
    · rw [sum_eq_moment c _ 2 0 fun i => by simp only [stencil]; simp; ring]; simp [δ, M0, M2]
    · rw [sum_eq_moment c _ 1 1 fun i => by simp only [stencil]; simp]; simp [δ, M1]
    · rw [sum_eq_moment c _ 1 1 fun i => by simp only [stencil]; simp; ring]; simp [δ, M1]
    · rw [sum_eq_moment c _ 0 2 fun i => by simp only [stencil]; simp; ring]; simp [δ, M0, M2]
  m3 := m3_of_opp (opposite c)
  m4 a b d f := by
    change _ = (c * c / 3) ^ 2 * _
    fin_cases a <;> fin_cases b <;> fin_cases d <;> fin_cases f <;>
    first
    | rw [sum_eq_moment c _ 4 0 fun i => by simp only [stencil, Fin.zero_eta, Fin.mk_one]; ring1]; simp [δ, M0, M4]; try ring1
    | rw [sum_eq_moment c _ 3 1 fun i => by simp only [stencil, Fin.zero_eta, Fin.mk_one]; ring1]; simp [δ, M1, M3]
    | rw [sum_eq_moment c _ 2 2 fun i => by simp only [stencil, Fin.zero_eta, Fin.mk_one]; ring1]; simp [δ, M2]; try ring1
    | rw [sum_eq_moment c _ 1 3 fun i => by simp only [stencil, Fin.zero_eta, Fin.mk_one]; ring1]; simp [δ, M1, M3]
    | rw [sum_eq_moment c _ 0 4 fun i => by simp only [stencil, Fin.mk_one]; ring1]; simp [δ, M0, M4]; try ring1
  m5 := m5_of_opp (opposite c)
  m6 a b d f g h := by
    change _ = (c * c / 3) ^ 3 * _
    unfold δ6
    fin_cases a <;> fin_cases b <;> fin_cases d <;> fin_cases f <;> fin_cases g <;> fin_cases h <;>
    first
    | rw [sum_eq_moment c _ 6 0 fun i => by simp only [stencil, Fin.zero_eta, Fin.mk_one]; ring1]; simp [δ, M0, M6]; try ring1
    | rw [sum_eq_moment c _ 5 1 fun i => by simp only [stencil, Fin.zero_eta, Fin.mk_one]; ring1]; simp [δ, M1, M5]
    | rw [sum_eq_moment c _ 4 2 fun i => by simp only [stencil, Fin.zero_eta, Fin.mk_one]; ring1]; simp [δ, M2, M4]; try ring1
    | rw [sum_eq_moment c _ 3 3 fun i => by simp only [stencil, Fin.zero_eta, Fin.mk_one]; ring1]; simp [δ, M3]
    | rw [sum_eq_moment c _ 2 4 fun i => by simp only [stencil, Fin.zero_eta, Fin.mk_one]; ring1]; simp [δ, M2, M4]; try ring1
    | rw [sum_eq_moment c _ 1 5 fun i => by simp only [stencil, Fin.zero_eta, Fin.mk_one]; ring1]; simp [δ, M1, M5]
    | rw [sum_eq_moment c _ 0 6 fun i => by simp only [stencil, Fin.mk_one]; ring1]; simp [δ, M0, M6]; try ring1

end D2Q25H

end NATriuM
