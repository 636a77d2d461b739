import Verif.Model.TimeIntegration
import Mathlib.Tactic.Module
import Mathlib.Tactic.FieldSimp
import Mathlib.Tactic.NormNum
import Mathlib.Tactic.Linarith
import Mathlib.Algebra.BigOperators.Fin

namespace NATriuM

namespace TimeIntegration

/-- The step size a call of `step` uses. -/
noncomputable def effective (stored dt : ℝ) : ℝ := if dt = 0 then stored else dt

lemma prologue_ok {stored dt h d : ℝ} (hp : prologue stored dt = .ok (h, d)) : h = effective stored dt ∧ d = effective stored dt := by
  unfold prologue at hp
  unfold effective
  split_ifs at hp with h1 h2 h3
  · cases hp; simp [h1.1]
  · cases hp; simp [h3]
  · cases hp
    have : dt = stored := by
      by_contra hne
      exact h1 ⟨h3, hne⟩
    simp [this]

section RK

variable {E : Type*} [AddCommGroup E] [Module ℝ E]

/-- `∑ c_k h^(k+1) A^k w` -/
noncomputable def poly (A : E →ₗ[ℝ] E) (h : ℝ) (w : E) (c : Fin 5 → ℚ) : E := ∑ k : Fin 5, ((c k : ℝ) * h ^ ((k : ℕ) + 1)) • (A ^ (k : ℕ)) w

/-- the effect of a stage on the coefficients -/
def coeffStage (s : (Fin 5 → ℚ) × (Fin 5 → ℚ)) (i : Fin 5) : (Fin 5 → ℚ) × (Fin 5 → ℚ) :=
  let q : Fin 5 → ℚ := fun k => rkA i * s.2 k + Fin.cases 1 (fun k' : Fin 4 => s.1 k'.castSucc) k
  (fun k => s.1 k + rkB i * q k, q)

lemma rkB_ne (i : Fin 5) : (rkB i : ℝ) ≠ 0 := by
  have : rkB i ≠ 0 := by revert i; decide +kernel
  exact_mod_cast this

lemma rkStage_poly (A : E →ₗ[ℝ] E) (b f : E) (h : ℝ) (p q : Fin 5 → ℚ) (hp : p 4 = 0) (i : Fin 5) :
    rkStage A b h (f + poly A h (A f + b) p, poly A h (A f + b) q) i =
      (f + poly A h (A f + b) (coeffStage (p, q) i).1, poly A h (A f + b) (coeffStage (p, q) i).2) := by
  have key : (rkA i : ℝ) • poly A h (A f + b) q + h • (A (f + poly A h (A f + b) p) + b) =
      poly A h (A f + b) (coeffStage (p, q) i).2 := by
    unfold poly coeffStage
    generalize rkA i = a
    have e : A (f + ∑ k : Fin 5, ((p k : ℝ) * h ^ ((k : ℕ) + 1)) • (A ^ (k : ℕ)) (A f + b)) + b =
        (A f + b) + A (∑ k : Fin 5, ((p k : ℝ) * h ^ ((k : ℕ) + 1)) • (A ^ (k : ℕ)) (A f + b)) := by
      rw [map_add]; abel
    rw [e]
    generalize A f + b = w
    simp only [Fin.sum_univ_five, map_add, map_smul]
    have h4 : (p 4 : ℝ) = 0 := by rw [hp]; simp
    have c1 : ((1 : Fin 5) : ℕ) = 1 := rfl
    have c2 : ((2 : Fin 5) : ℕ) = 2 := rfl
    have c3 : ((3 : Fin 5) : ℕ) = 3 := rfl
    have c4 : ((4 : Fin 5) : ℕ) = 4 := rfl
    have c0 : ((0 : Fin 5) : ℕ) = 0 := rfl
    have e0 : (Fin.cases (1 : ℚ) (fun k' : Fin 4 => p k'.castSucc) (0 : Fin 5) : ℚ) = 1 := rfl
    have e1 : (Fin.cases (1 : ℚ) (fun k' : Fin 4 => p k'.castSucc) (1 : Fin 5) : ℚ) = p 0 := rfl
    have e2 : (Fin.cases (1 : ℚ) (fun k' : Fin 4 => p k'.castSucc) (2 : Fin 5) : ℚ) = p 1 := rfl
    have e3 : (Fin.cases (1 : ℚ) (fun k' : Fin 4 => p k'.castSucc) (3 : Fin 5) : ℚ) = p 2 := rfl
    have e4 : (Fin.cases (1 : ℚ) (fun k' : Fin 4 => p k'.castSucc) (4 : Fin 5) : ℚ) = p 3 := rfl
    have a0 : A ((A ^ 0) w) = (A ^ 1) w := by simp
    have a1 : A ((A ^ 1) w) = (A ^ 2) w := by rw [pow_succ' A 1]; rfl
    have a2 : A ((A ^ 2) w) = (A ^ 3) w := by rw [pow_succ' A 2]; rfl
    have a3 : A ((A ^ 3) w) = (A ^ 4) w := by rw [pow_succ' A 3]; rfl
    simp only [c0, c1, c2, c3, c4, e0, e1, e2, e3, e4, a0, a1, a2, a3, h4]
    have aw : (A ^ 0) w = w := by simp
    rw [aw]
    push_cast
    module
  unfold rkStage
  simp only [key]
  rw [inv_smul_smul₀ (rkB_ne i)]
  have : (coeffStage (p, q) i).1 = fun k => p k + rkB i * (coeffStage (p, q) i).2 k := rfl
  rw [this]
  generalize (coeffStage (p, q) i).2 = q'
  unfold poly
  congr 1
  simp only [Finset.smul_sum, add_assoc, ← Finset.sum_add_distrib]
  congr 1
  refine Finset.sum_congr rfl fun k _ => ?_
  push_cast
  module

/-- the coefficients after all stages -/
def gamma : Fin 5 → ℚ := ([1, 2, 3, 4].foldl coeffStage (fun k => if k = 0 then rkB 0 else 0, fun k => if k = 0 then 1 else 0)).1

lemma rkFirst_poly (A : E →ₗ[ℝ] E) (b f : E) (h : ℝ) : rkFirst A b h f =
    (f + poly A h (A f + b) (fun k => if k = 0 then rkB 0 else 0), poly A h (A f + b) (fun k => if k = 0 then 1 else 0)) := by
  unfold rkFirst
  simp only
  rw [inv_smul_smul₀ (rkB_ne 0)]
  unfold poly
  generalize rkB 0 = B
  have hk : ∀ k : Fin 5, k ≠ 0 → k = 0 → False := fun k h1 h2 => h1 h2
  rw [Finset.sum_eq_single 0, Finset.sum_eq_single 0]
  · simp [smul_smul]
  · intro k _ hk; simp [hk]
  · simp
  · intro k _ hk; simp [hk]
  · simp

lemma rk_formula (A : E →ₗ[ℝ] E) (b f : E) (h : ℝ) :
    ([1, 2, 3, 4].foldl (rkStage A b h) (rkFirst A b h f)).1 = f + poly A h (A f + b) gamma := by
  rw [rkFirst_poly]
  unfold gamma
  simp only [List.foldl_cons, List.foldl_nil]
  rw [rkStage_poly _ _ _ _ _ _ (by decide +kernel)]
  rw [rkStage_poly _ _ _ _ _ _ (by decide +kernel)]
  rw [rkStage_poly _ _ _ _ _ _ (by decide +kernel)]
  rw [rkStage_poly _ _ _ _ _ _ (by decide +kernel)]

lemma gamma_bounds : (∀ k : Fin 5, k ≠ 4 → |gamma k - 1 / (Nat.factorial (k + 1) : ℚ)| ≤ 1 / 10 ^ 25) ∧
    1 / 1000 ≤ |gamma 4 - 1 / 120| ∧ gamma 0 ≠ 1 := by
  decide +kernel

end RK

section Exponential

variable {n : ℕ}

lemma dot_zero_left (y : Fin n → ℝ) : dot 0 y = 0 := by simp [dot]

lemma l2norm_zero : l2norm (0 : Fin n → ℝ) = 0 := by simp [l2norm, dot_zero_left]

lemma dot_self_nonneg (x : Fin n → ℝ) : 0 ≤ dot x x := Finset.sum_nonneg fun k _ => mul_self_nonneg (x k)

lemma l2norm_eq_zero {x : Fin n → ℝ} : l2norm x = 0 ↔ x = 0 := by
  constructor
  · intro h
    have h1 : dot x x = 0 := (Real.sqrt_eq_zero (dot_self_nonneg x)).1 h
    have h2 := (Finset.sum_eq_zero_iff_of_nonneg (s := Finset.univ) (f := fun k => x k * x k) fun k _ => mul_self_nonneg (x k)).1 h1
    funext k
    exact mul_self_eq_zero.1 (h2 k (Finset.mem_univ k))
  · rintro rfl; exact l2norm_zero

lemma l2norm_sq (x : Fin n → ℝ) : l2norm x * l2norm x = dot x x := Real.mul_self_sqrt (dot_self_nonneg x)

lemma dot_smul (c d : ℝ) (x y : Fin n → ℝ) : dot (c • x) (d • y) = c * d * dot x y := by
  simp only [dot, Finset.mul_sum, Pi.smul_apply, smul_eq_mul]
  exact Finset.sum_congr rfl fun k _ => by ring

lemma dot_smul_left (c : ℝ) (x y : Fin n → ℝ) : dot (c • x) y = c * dot x y := by
  have := dot_smul c 1 x y
  simpa using this

/-- the orthogonalisation subtracts multiples of the columns -/
lemma orthogonalise_functional (ℓ : (Fin n → ℝ) →ₗ[ℝ] ℝ) (V : ℕ → Fin n → ℝ) (hV : ∀ j, ℓ (V j) = 0) (l : List ℕ) (j : ℕ)
    (s : (ℕ → ℕ → ℝ) × (Fin n → ℝ)) :
    ℓ ((l.foldl (fun s i => let h := dot s.2 (V i); (setH s.1 i j h, s.2 - h • V i)) s).2) = ℓ s.2 := by
  induction l generalizing s with
  | nil => rfl
  | cons i l ih => rw [List.foldl_cons, ih]; simp [hV]

lemma arnoldiStep_functional (ℓ : (Fin n → ℝ) →ₗ[ℝ] ℝ) (A : (Fin n → ℝ) →ₗ[ℝ] (Fin n → ℝ)) (hA : ∀ x, ℓ (A x) = 0) (s : Arnoldi n)
    (hV : ∀ j, ℓ (s.V j) = 0) (j : ℕ) : ∀ k, ℓ ((arnoldiStep A s j).V k) = 0 := by
  have h1 : ℓ (orthogonalise s.V j (s.H, A (s.V j))).2 = 0 := by
    unfold orthogonalise
    rw [orthogonalise_functional ℓ s.V hV]
    exact hA _
  intro k
  unfold arnoldiStep
  simp only
  split_ifs with h0
  · by_cases hk : k = j + 1
    · subst hk; simp [h1]
    · simp [Function.update_of_ne hk, hV]
  · exact hV k

lemma arnoldi_functional (ℓ : (Fin n → ℝ) →ₗ[ℝ] ℝ) (A : (Fin n → ℝ) →ₗ[ℝ] (Fin n → ℝ)) (hA : ∀ x, ℓ (A x) = 0) (w : Fin n → ℝ)
    (hw : ℓ w = 0) (beta : ℝ) : ∀ k, ℓ ((arnoldi A w beta).V k) = 0 := by
  unfold arnoldi
  have h0 : ∀ k, ℓ ((⟨Function.update (fun _ => 0) 0 (beta⁻¹ • w), fun _ _ => 0⟩ : Arnoldi n).V k) = 0 := by
    intro k
    by_cases hk : k = 0
    · subst hk; simp [hw]
    · simp [Function.update_of_ne hk]
  generalize (⟨Function.update (fun _ => 0) 0 (beta⁻¹ • w), fun _ _ => 0⟩ : Arnoldi n) = s at h0
  generalize List.range arnoldiSize = l
  induction l generalizing s with
  | nil => exact h0
  | cons j l ih => rw [List.foldl_cons]; exact ih _ (arnoldiStep_functional ℓ A hA s h0 j)

/-- a step of the Arnoldi process leaves the other columns of `H` alone -/
lemma orthogonalise_H (V : ℕ → Fin n → ℝ) (j : ℕ) (l : List ℕ) (s : (ℕ → ℕ → ℝ) × (Fin n → ℝ)) (i' j' : ℕ) (hj : j' ≠ j) :
    (l.foldl (fun s i => let h := dot s.2 (V i); (setH s.1 i j h, s.2 - h • V i)) s).1 i' j' = s.1 i' j' := by
  induction l generalizing s with
  | nil => rfl
  | cons i l ih => rw [List.foldl_cons, ih]; simp [setH, hj]

lemma arnoldiStep_H (A : (Fin n → ℝ) →ₗ[ℝ] (Fin n → ℝ)) (s : Arnoldi n) (j i' j' : ℕ) (hj : j' ≠ j) (h6 : j' ≠ 6) :
    (arnoldiStep A s j).H i' j' = s.H i' j' := by
  unfold arnoldiStep orthogonalise
  have h1 := orthogonalise_H s.V j (List.range (j + 1)) (s.H, A (s.V j)) i' j' hj
  simp only at h1 ⊢
  unfold setH at h1 ⊢
  simp only [arnoldiSize, hj, h6, and_false, if_false]
  exact h1

lemma arnoldi_zero_column (A : (Fin n → ℝ) →ₗ[ℝ] (Fin n → ℝ)) (w : Fin n → ℝ) (hw : w ≠ 0) (lam : ℝ) (hA : A w = lam • w) (i : ℕ) :
    (arnoldi A w (l2norm w)).H i 1 = 0 := by
  have hb : l2norm w ≠ 0 := fun h => hw (l2norm_eq_zero.1 h)
  have h11 : (l2norm w)⁻¹ * (l2norm w)⁻¹ * dot w w = 1 := by
    rw [← l2norm_sq]; field_simp
  unfold arnoldi
  have hr : List.range arnoldiSize = [0, 1, 2, 3, 4, 5] := rfl
  rw [hr]
  simp only [List.foldl_cons, List.foldl_nil]
  rw [arnoldiStep_H _ _ _ _ _ (by decide) (by decide), arnoldiStep_H _ _ _ _ _ (by decide) (by decide),
    arnoldiStep_H _ _ _ _ _ (by decide) (by decide), arnoldiStep_H _ _ _ _ _ (by decide) (by decide)]
  set s0 : Arnoldi n := ⟨Function.update (fun _ => 0) 0 ((l2norm w)⁻¹ • w), fun _ _ => 0⟩ with hs0
  have o0 : (orthogonalise s0.V 0 (s0.H, A (s0.V 0))).2 = 0 := by
    have hr1 : List.range (0 + 1) = [0] := rfl
    unfold orthogonalise
    rw [hr1]
    simp only [List.foldl_cons, List.foldl_nil]
    have e : s0.V 0 = (l2norm w)⁻¹ • w := by simp [hs0]
    rw [e, map_smul, hA, smul_comm, dot_smul_left, dot_smul, h11, mul_one, sub_self]
  have hV1 : (arnoldiStep A s0 0).V 1 = 0 := by
    unfold arnoldiStep
    simp only [o0, l2norm_zero, ne_eq, not_true_eq_false, if_false]
    simp [hs0]
  have hH : ∀ i', (arnoldiStep A s0 0).H i' 1 = 0 := by
    intro i'
    rw [arnoldiStep_H _ _ _ _ _ (by decide) (by decide)]
  generalize arnoldiStep A s0 0 = s1 at hV1 hH
  unfold arnoldiStep orthogonalise
  rw [hV1, map_zero]
  have hr2 : List.range (1 + 1) = [0, 1] := rfl
  rw [hr2]
  simp only [List.foldl_cons, List.foldl_nil, dot_zero_left, zero_smul, sub_zero, l2norm_zero]
  unfold setH
  simp only [arnoldiSize, and_false, and_true, if_false, hH, ite_self, show (1 : ℕ) ≠ 6 from by decide]

end Exponential

end TimeIntegration

end NATriuM
