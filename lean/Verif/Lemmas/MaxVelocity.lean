import Verif.Lemmas.StencilTables
import Verif.Lemmas.StencilSqrt
import Verif.Lemmas.StencilDecimalTables
import Verif.Lemmas.StencilD2Q777
import Verif.Model.StencilType

/-! # Speed bounds (helper lemmas) -/

namespace NATriuM

open Finset

theorem le_mul_sqrt {s c : ℝ} {k : ℝ} (hc : 0 ≤ c) (h : s ≤ k * c ^ 2) : √s ≤ c * √k := by
  rw [show c * √k = √(k * c ^ 2) by rw [mul_comm k, Real.sqrt_mul (sq_nonneg c), Real.sqrt_sq hc]]
  exact Real.sqrt_le_sqrt h

theorem mul_sqrt_lt {s c : ℝ} {k : ℝ} (hc : 0 ≤ c) (hk : 0 ≤ k) (h : k * c ^ 2 < s) : c * √k < √s := by
  rw [show c * √k = √(k * c ^ 2) by rw [mul_comm k, Real.sqrt_mul (sq_nonneg c), Real.sqrt_sq hc]]
  exact Real.sqrt_lt_sqrt (by positivity) h

/-- squared speed of a table of velocities `c * table` -/
theorem speed_le_of_table {D Q : ℕ} {e : Fin Q → Fin D → ℝ} {c : ℝ} (eq : Fin Q → Fin D → ℚ)
    (he : ∀ i a, e i a = c * (eq i a : ℝ)) (k : ℚ) (h : ∀ i, ∑ a, eq i a ^ 2 ≤ k) (i : Fin Q) :
    ∑ a, e i a ^ 2 ≤ (k : ℝ) * c ^ 2 := by
  have h1 : ∑ a, e i a ^ 2 = ((∑ a, eq i a ^ 2 : ℚ) : ℝ) * c ^ 2 := by
    push_cast
    rw [Finset.sum_mul]
    exact Finset.sum_congr rfl fun a _ => by rw [he]; ring
  rw [h1]
  exact mul_le_mul_of_nonneg_right (by exact_mod_cast h i) (sq_nonneg c)

theorem speed_gt_of_table {D Q : ℕ} {e : Fin Q → Fin D → ℝ} {c : ℝ} (hc : 0 < c) (eq : Fin Q → Fin D → ℚ)
    (he : ∀ i a, e i a = c * (eq i a : ℝ)) (k : ℚ) (i : Fin Q) (h : k < ∑ a, eq i a ^ 2) :
    (k : ℝ) * c ^ 2 < ∑ a, e i a ^ 2 := by
  have h1 : ∑ a, e i a ^ 2 = ((∑ a, eq i a ^ 2 : ℚ) : ℝ) * c ^ 2 := by
    push_cast
    rw [Finset.sum_mul]
    exact Finset.sum_congr rfl fun a _ => by rw [he]; ring
  rw [h1]
  exact mul_lt_mul_of_pos_right (by exact_mod_cast h) (by positivity)

theorem speed_gt_of_table3 {D Q : ℕ} {e : Fin Q → Fin D → ℝ} {c : ℝ} (hc : 0 < c) (eq : Fin Q → Fin D → ℚ)
    (he : ∀ i a, e i a = c * (eq i a : ℝ) / √3) (i : Fin Q) (h : 6 < ∑ a, eq i a ^ 2) :
    2 * c ^ 2 < ∑ a, e i a ^ 2 := by
  have h1 : ∑ a, e i a ^ 2 = ((∑ a, eq i a ^ 2 : ℚ) : ℝ) * (c ^ 2 / 3) := by
    push_cast
    rw [Finset.sum_mul]
    exact Finset.sum_congr rfl fun a _ => by
      rw [he, div_pow, Real.sq_sqrt (by norm_num)]; ring
  rw [h1]
  have h2 : ((6 : ℚ) : ℝ) < ((∑ a, eq i a ^ 2 : ℚ) : ℝ) := by exact_mod_cast h
  have h3 : 0 < c ^ 2 := by positivity
  push_cast at h2 ⊢
  nlinarith

namespace D3Q13
theorem speed_le (c : ℝ) (i : Fin 13) : ∑ a, dir c i a ^ 2 ≤ 2 * c ^ 2 := by
  have h := p2_add_m2 c
  have hc := sq_nonneg c
  rw [Fin.sum_univ_three]
  have key : ∀ x y z : ℝ, x ^ 2 + y ^ 2 + z ^ 2 = p c ^ 2 + m c ^ 2 ∨ x ^ 2 + y ^ 2 + z ^ 2 = 0 →
      x ^ 2 + y ^ 2 + z ^ 2 ≤ 2 * c ^ 2 := by
    rintro x y z (h' | h')
    · nlinarith
    · nlinarith
  apply key
  fin_cases i
  · right; change (0 : ℝ) ^ 2 + 0 ^ 2 + 0 ^ 2 = 0; norm_num
  all_goals left
  · change (0 : ℝ) ^ 2 + (m c) ^ 2 + (p c) ^ 2 = _; ring
  · change (0 : ℝ) ^ 2 + (-m c) ^ 2 + (-p c) ^ 2 = _; ring
  · change (0 : ℝ) ^ 2 + (-m c) ^ 2 + (p c) ^ 2 = _; ring
  · change (0 : ℝ) ^ 2 + (m c) ^ 2 + (-p c) ^ 2 = _; ring
  · change (m c) ^ 2 + (p c) ^ 2 + (0 : ℝ) ^ 2 = _; ring
  · change (-m c) ^ 2 + (-p c) ^ 2 + (0 : ℝ) ^ 2 = _; ring
  · change (-m c) ^ 2 + (p c) ^ 2 + (0 : ℝ) ^ 2 = _; ring
  · change (m c) ^ 2 + (-p c) ^ 2 + (0 : ℝ) ^ 2 = _; ring
  · change (p c) ^ 2 + (0 : ℝ) ^ 2 + (m c) ^ 2 = _; ring
  · change (-p c) ^ 2 + (0 : ℝ) ^ 2 + (-m c) ^ 2 = _; ring
  · change (-p c) ^ 2 + (0 : ℝ) ^ 2 + (m c) ^ 2 = _; ring
  · change (p c) ^ 2 + (0 : ℝ) ^ 2 + (-m c) ^ 2 = _; ring
end D3Q13

namespace D3Q21
theorem s2_le (c : ℝ) : 3 * s c ^ 2 ≤ 2 * c ^ 2 := by
  have h := s2 c
  have hk := (abs_le.mp kappa_close).2
  have hc := sq_nonneg c
  nlinarith

theorem speed_le (c : ℝ) (i : Fin 21) : ∑ a, dir c i a ^ 2 ≤ 2 * c ^ 2 := by
  have h := phi2_add c
  have hs := s2_le c
  have hc := sq_nonneg c
  rw [Fin.sum_univ_three]
  have key : ∀ x y z : ℝ, x ^ 2 + y ^ 2 + z ^ 2 = phi c ^ 2 + inphi c ^ 2 ∨ x ^ 2 + y ^ 2 + z ^ 2 = 3 * s c ^ 2 ∨
      x ^ 2 + y ^ 2 + z ^ 2 = 0 → x ^ 2 + y ^ 2 + z ^ 2 ≤ 2 * c ^ 2 := by
    rintro x y z (h' | h' | h')
    · linarith
    · linarith
    · nlinarith
  apply key
  have e1 : ∀ x y z : ℝ, (x = s c ∨ x = -s c) → (y = s c ∨ y = -s c) → (z = s c ∨ z = -s c) →
      x ^ 2 + y ^ 2 + z ^ 2 = 3 * s c ^ 2 := by
    rintro x y z (rfl | rfl) (rfl | rfl) (rfl | rfl) <;> ring
  have e2 : ∀ x y : ℝ, (x = phi c ∨ x = -phi c) → (y = inphi c ∨ y = -inphi c) →
      x ^ 2 + y ^ 2 = phi c ^ 2 + inphi c ^ 2 := by
    rintro x y (rfl | rfl) (rfl | rfl) <;> ring
  have e3 : ∀ x y z : ℝ, x = 0 → (y = phi c ∨ y = -phi c) → (z = inphi c ∨ z = -inphi c) →
      x ^ 2 + y ^ 2 + z ^ 2 = phi c ^ 2 + inphi c ^ 2 := by
    intro x y z h1 h2 h3; rw [h1, add_assoc, e2 y z h2 h3]; ring
  have e4 : ∀ x y z : ℝ, y = 0 → (z = phi c ∨ z = -phi c) → (x = inphi c ∨ x = -inphi c) →
      x ^ 2 + y ^ 2 + z ^ 2 = phi c ^ 2 + inphi c ^ 2 := by
    intro x y z h1 h2 h3; rw [h1, ← e2 z x h2 h3]; ring
  have e5 : ∀ x y z : ℝ, z = 0 → (x = phi c ∨ x = -phi c) → (y = inphi c ∨ y = -inphi c) →
      x ^ 2 + y ^ 2 + z ^ 2 = phi c ^ 2 + inphi c ^ 2 := by
    intro x y z h1 h2 h3; rw [h1, ← e2 x y h2 h3]; ring
  fin_cases i
  · right; right; change (0 : ℝ) ^ 2 + 0 ^ 2 + 0 ^ 2 = 0; norm_num
  iterate 8
    · right; left
      exact e1 _ _ _ (by first | exact Or.inl rfl | exact Or.inr rfl) (by first | exact Or.inl rfl | exact Or.inr rfl)
        (by first | exact Or.inl rfl | exact Or.inr rfl)
  iterate 4
    · left
      exact e3 _ _ _ rfl (by first | exact Or.inl rfl | exact Or.inr rfl) (by first | exact Or.inl rfl | exact Or.inr rfl)
  iterate 4
    · left
      exact e4 _ _ _ rfl (by first | exact Or.inl rfl | exact Or.inr rfl) (by first | exact Or.inl rfl | exact Or.inr rfl)
  iterate 4
    · left
      exact e5 _ _ _ rfl (by first | exact Or.inl rfl | exact Or.inr rfl) (by first | exact Or.inl rfl | exact Or.inr rfl)
end D3Q21

end NATriuM
