import Verif.Lemmas.Stencil
import Verif.Model.StencilsDecimal
import Mathlib.Tactic.Positivity
import Mathlib.Tactic.Linarith
import Mathlib.Algebra.BigOperators.Fin

/-! # Moments of the stencils given by decimal literals (helper lemmas) -/

namespace NATriuM

open Finset NATriuM.Spec

theorem δ6_cast {D : ℕ} (a b c d f g : Fin D) : ((δ6 a b c d f g : ℚ) : ℝ) = δ6 a b c d f g := by
  unfold δ6; push_cast [δ_cast]; rfl

variable {D Q : ℕ}

/-- Transfer of approximate isotropy from a rational table, velocities `c * table / √3`. -/
theorem approx_of_table {w : Fin Q → ℝ} {e : Fin Q → Fin D → ℝ} {o : Fin Q → Fin Q} (c : ℝ)
    (wq : Fin Q → ℚ) (eq : Fin Q → Fin D → ℚ) (ε : ℚ) (hε : 0 ≤ ε)
    (hw : ∀ i, w i = (wq i : ℝ)) (he : ∀ i a, e i a = c * (eq i a : ℝ) / √3)
    (hop : OppositeTable wq eq o)
    (h0 : |∑ i, wq i - 1| ≤ ε) (h2 : ∀ a b, |∑ i, wq i * (eq i a * eq i b) - δ a b| ≤ ε)
    (h4 : ∀ a b c d, |∑ i, wq i * (eq i a * eq i b * eq i c * eq i d)
      - (δ a b * δ c d + δ a c * δ b d + δ a d * δ b c)| ≤ ε)
    (h6 : ∀ a b c d f g, |∑ i, wq i * (eq i a * eq i b * eq i c * eq i d * eq i f * eq i g) - δ6 a b c d f g| ≤ ε) :
    OppositeTable w e o ∧ ApproxIso6 w e (c * c / 3) c (ε : ℝ) := by
  have hop' : OppositeTable w e o :=
    ⟨fun i a => by rw [he, he, hop.reverses]; push_cast; ring, fun i => by rw [hw, hw, hop.same_weight],
      hop.involutive⟩
  have hεR : (0 : ℝ) ≤ ε := by exact_mod_cast hε
  have s3 : (1 / √3 : ℝ) * (1 / √3) = 1 / 3 := by
    rw [div_mul_div_comm, Real.mul_self_sqrt (by norm_num)]; norm_num
  have he' : ∀ i a, e i a = c * (1 / √3) * (eq i a : ℝ) := fun i a => by rw [he]; ring
  have bound : ∀ (x : ℝ) (k : ℕ), |x| ≤ (ε : ℝ) → |(c ^ 2) ^ k * (1 / 3) ^ k * x| ≤ ε * |c| ^ (2 * k) := by
    intro x k hx
    rw [abs_mul, abs_mul, abs_pow, abs_pow, abs_pow, ← pow_mul]
    have h3 : |(1 / 3 : ℝ)| ^ k ≤ 1 := pow_le_one₀ (abs_nonneg _) (by rw [abs_of_pos] <;> norm_num)
    have h4 : |(1 / 3 : ℝ)| ^ k * |x| ≤ 1 * ε := mul_le_mul h3 hx (abs_nonneg _) zero_le_one
    calc |c| ^ (2 * k) * |(1 / 3 : ℝ)| ^ k * |x| = |c| ^ (2 * k) * (|(1 / 3 : ℝ)| ^ k * |x|) := by ring
      _ ≤ |c| ^ (2 * k) * (1 * ε) := by gcongr
      _ = ε * |c| ^ (2 * k) := by ring
  refine ⟨hop', ?_⟩
  constructor
  · constructor
    · simp only [hw]
      exact_mod_cast h0
    · intro a; rw [m1_of_opp hop']; simp; positivity
    · intro a b
      have h := bound _ 1 (by exact_mod_cast (h2 a b) : |(((∑ i, wq i * (eq i a * eq i b) - δ a b : ℚ)) : ℝ)| ≤ ε)
      refine le_of_eq_of_le (congrArg _ ?_) h
      push_cast [δ_cast]
      rw [mul_sub, Finset.mul_sum]
      congr 1
      · exact Finset.sum_congr rfl fun i _ => by
          rw [hw, he', he']; linear_combination (c * c * wq i * eq i a * eq i b) * s3
      · ring
    · intro a b d; rw [m3_of_opp hop']; simp; positivity
    · intro a b d f
      have h := bound _ 2 (by exact_mod_cast (h4 a b d f) : |(((∑ i, wq i * (eq i a * eq i b * eq i d * eq i f) -
        (δ a b * δ d f + δ a d * δ b f + δ a f * δ b d) : ℚ)) : ℝ)| ≤ ε)
      refine le_of_eq_of_le (congrArg _ ?_) h
      push_cast [δ_cast]
      rw [mul_sub, Finset.mul_sum]
      congr 1
      · exact Finset.sum_congr rfl fun i _ => by
          rw [hw, he', he', he', he']
          linear_combination (c ^ 4 * wq i * eq i a * eq i b * eq i d * eq i f * ((1 / √3) * (1 / √3) + 1 / 3)) * s3
      · ring
  · intro a b d f g; rw [m5_of_opp hop']; simp; positivity
  · intro a b d f g h'
    have h := bound _ 3 (by exact_mod_cast (h6 a b d f g h') :
      |(((∑ i, wq i * (eq i a * eq i b * eq i d * eq i f * eq i g * eq i h') - δ6 a b d f g h' : ℚ)) : ℝ)| ≤ ε)
    refine le_of_eq_of_le (congrArg _ ?_) h
    push_cast [δ_cast, δ6_cast]
    rw [mul_sub, Finset.mul_sum]
    congr 1
    · exact Finset.sum_congr rfl fun i _ => by
        rw [hw, he', he', he', he', he', he']
        linear_combination (c ^ 6 * wq i * eq i a * eq i b * eq i d * eq i f * eq i g * eq i h' *
          (((1 / √3) * (1 / √3)) ^ 2 + (1 / √3) * (1 / √3) * (1 / 3) + 1 / 9)) * s3
    · ring

/-! ### Checking the moments by exponents, in one pass over the table -/

/-- monomial moment of a table -/
def mom (l : List (ℚ × (Fin D → ℚ))) (n : Fin D → ℕ) : ℚ := (l.map fun p => p.1 * ∏ k, p.2 k ^ n k).sum

/-- moments of order at most six of the standard Gaussian -/
def gauss1 : ℕ → ℚ
  | 0 => 1
  | 2 => 1
  | 4 => 3
  | 6 => 15
  | _ => 0

def gauss (n : Fin D → ℕ) : ℚ := ∏ k, gauss1 (n k)

theorem sum_table (wt : List ℚ) (dt : List (Fin D → ℚ)) (hw : wt.length = Q) (hd : dt.length = Q)
    (g : (Fin D → ℚ) → ℚ) :
    ∑ i : Fin Q, wt.getD i 0 * g (dt.getD i 0) = ((wt.zip dt).map fun p => p.1 * g p.2).sum := by
  subst hw
  induction wt generalizing dt with
  | nil => simp
  | cons x xs ih =>
    cases dt with
    | nil => simp at hd
    | cons y ys =>
      simp only [List.length_cons, Nat.add_right_cancel_iff] at hd
      have := ih ys hd
      rw [List.length_cons, Fin.sum_univ_succ]
      simpa using this

/-- indicator -/
def ind (a k : Fin D) : ℕ := if a = k then 1 else 0

theorem eq_prod_ind (e : Fin D → ℚ) (a : Fin D) : e a = ∏ k, e k ^ ind a k := by
  simp [ind, Finset.prod_ite_eq, pow_ite]

theorem checks_of_exponents (wt : List ℚ) (dt : List (Fin D → ℚ)) (hw : wt.length = Q)
    (hd : dt.length = Q) (ε : ℚ)
    (h : ∀ n : Fin D → Fin 7, ∑ k, (n k : ℕ) = 0 ∨ ∑ k, (n k : ℕ) = 2 ∨ ∑ k, (n k : ℕ) = 4 ∨ ∑ k, (n k : ℕ) = 6 →
      |mom (wt.zip dt) (fun k => n k) - gauss (fun k => n k)| ≤ ε)
    (g2 : ∀ a b : Fin D, δ a b = gauss (fun k => ind a k + ind b k))
    (g4 : ∀ a b c d : Fin D, δ a b * δ c d + δ a c * δ b d + δ a d * δ b c
      = gauss (fun k => ind a k + ind b k + ind c k + ind d k))
    (g6 : ∀ a b c d f g : Fin D, δ6 a b c d f g
      = gauss (fun k => ind a k + ind b k + ind c k + ind d k + ind f k + ind g k)) :
    let wq : Fin Q → ℚ := fun i => wt.getD i 0
    let eq : Fin Q → Fin D → ℚ := fun i => dt.getD i 0
    |∑ i, wq i - 1| ≤ ε ∧ (∀ a b, |∑ i, wq i * (eq i a * eq i b) - δ a b| ≤ ε) ∧
    (∀ a b c d, |∑ i, wq i * (eq i a * eq i b * eq i c * eq i d)
      - (δ a b * δ c d + δ a c * δ b d + δ a d * δ b c)| ≤ ε) ∧
    (∀ a b c d f g, |∑ i, wq i * (eq i a * eq i b * eq i c * eq i d * eq i f * eq i g) - δ6 a b c d f g| ≤ ε) := by
  have hi : ∀ a k : Fin D, ind a k ≤ 1 := fun a k => by unfold ind; split <;> simp
  have hs : ∀ a : Fin D, ∑ k, ind a k = 1 := fun a => by simp [ind]
  intro wq eq
  have key : ∀ (n : Fin D → ℕ) (G : ℚ) (f : Fin Q → ℚ), (∀ k, n k < 7) →
      (∑ k, n k = 0 ∨ ∑ k, n k = 2 ∨ ∑ k, n k = 4 ∨ ∑ k, n k = 6) → G = gauss n →
      (∀ i, f i = ∏ k, eq i k ^ n k) → |∑ i, wq i * f i - G| ≤ ε := by
    intro n G f hn hsum hG hf
    have := h (fun k => ⟨n k, hn k⟩) hsum
    rw [hG]
    have h' : ∑ i, wq i * f i = mom (wt.zip dt) n := by
      unfold mom
      rw [← sum_table wt dt hw hd (fun e => ∏ k, e k ^ n k)]
      exact Finset.sum_congr rfl fun i _ => by rw [hf]
    rw [h']; exact this
  refine ⟨?_, fun a b => ?_, fun a b c d => ?_, fun a b c d f g => ?_⟩
  · have := key (fun _ => 0) 1 (fun _ => 1) (fun _ => by norm_num) (by simp) (by simp [gauss, gauss1]) (fun i => by simp)
    simpa using this
  · refine key (fun k => ind a k + ind b k) _ _ (fun k => ?_) ?_ (g2 a b) (fun i => ?_)
    · have := hi a k; have := hi b k; omega
    · simp [Finset.sum_add_distrib, hs]
    · rw [eq_prod_ind (eq i) a, eq_prod_ind (eq i) b]; simp only [pow_add, Finset.prod_mul_distrib]
  · refine key (fun k => ind a k + ind b k + ind c k + ind d k) _ _ (fun k => ?_) ?_ (g4 a b c d) (fun i => ?_)
    · have := hi a k; have := hi b k; have := hi c k; have := hi d k; omega
    · simp [Finset.sum_add_distrib, hs]
    · rw [eq_prod_ind (eq i) a, eq_prod_ind (eq i) b, eq_prod_ind (eq i) c, eq_prod_ind (eq i) d]
      simp only [pow_add, Finset.prod_mul_distrib]
  · refine key (fun k => ind a k + ind b k + ind c k + ind d k + ind f k + ind g k) _ _ (fun k => ?_) ?_
      (g6 a b c d f g) (fun i => ?_)
    · have := hi a k; have := hi b k; have := hi c k; have := hi d k; have := hi f k; have := hi g k; omega
    · simp [Finset.sum_add_distrib, hs]
    · rw [eq_prod_ind (eq i) a, eq_prod_ind (eq i) b, eq_prod_ind (eq i) c, eq_prod_ind (eq i) d,
        eq_prod_ind (eq i) f, eq_prod_ind (eq i) g]
      simp only [pow_add, Finset.prod_mul_distrib]

theorem g2_3 : ∀ a b : Fin 3, (δ a b : ℚ) = gauss (fun k => ind a k + ind b k) := by decide +kernel
theorem g4_3 : ∀ a b c d : Fin 3, (δ a b * δ c d + δ a c * δ b d + δ a d * δ b c : ℚ)
    = gauss (fun k => ind a k + ind b k + ind c k + ind d k) := by decide +kernel
theorem g6_3 : ∀ a b c d f g : Fin 3, (δ6 a b c d f g : ℚ)
    = gauss (fun k => ind a k + ind b k + ind c k + ind d k + ind f k + ind g k) := by decide +kernel
theorem g2_2 : ∀ a b : Fin 2, (δ a b : ℚ) = gauss (fun k => ind a k + ind b k) := by decide +kernel
theorem g4_2 : ∀ a b c d : Fin 2, (δ a b * δ c d + δ a c * δ b d + δ a d * δ b c : ℚ)
    = gauss (fun k => ind a k + ind b k + ind c k + ind d k) := by decide +kernel
theorem g6_2 : ∀ a b c d f g : Fin 2, (δ6 a b c d f g : ℚ)
    = gauss (fun k => ind a k + ind b k + ind c k + ind d k + ind f k + ind g k) := by decide +kernel

end NATriuM
