import Verif.Model.MomentBasis
import Verif.Lemmas.StencilTables
import Mathlib.LinearAlgebra.Matrix.ToLin
import Mathlib.LinearAlgebra.Matrix.NonsingularInverse
import Mathlib.LinearAlgebra.Matrix.FiniteDimensional
import Mathlib.LinearAlgebra.Matrix.DotProduct
import Mathlib.LinearAlgebra.Matrix.Determinant.Basic

/-! # Invertibility of the moment bases (helper lemmas) -/

namespace NATriuM

open Finset

variable {K : Type*} [Field K]

/-- A matrix over `ℚ` with an explicit left inverse stays injective over any field of characteristic zero. -/
theorem cast_injective [CharZero K] {Q : ℕ} (W M : Matrix (Fin Q) (Fin Q) ℚ) (h : ∀ i j, ∑ k, W i k * M k j = if i = j then 1 else 0)
    (v : Fin Q → K) (hv : ∀ i, ∑ α, (M i α : K) * v α = 0) : v = 0 := by
  funext j
  have h1 : ∑ i, (W j i : K) * ∑ α, (M i α : K) * v α = 0 := by simp [hv]
  have h2 : ∑ i, (W j i : K) * ∑ α, (M i α : K) * v α = ∑ α, ((∑ i, W j i * M i α : ℚ) : K) * v α := by
    simp only [Finset.mul_sum]
    rw [Finset.sum_comm]
    refine Finset.sum_congr rfl fun α _ => ?_
    push_cast
    rw [Finset.sum_mul]
    exact Finset.sum_congr rfl fun i _ => by ring
  rw [h2] at h1
  simpa [h, apply_ite (Rat.cast : ℚ → K)] using h1

namespace D2Q9

/-- explicit inverse of the moment basis at scaling 1 -/
def inverse1 : Matrix (Fin 9) (Fin 9) ℚ := Matrix.of fun i j => (([
  [1/9, -1/9, 1/9, 0, 0, 0, 0, 0, 0],
  [1/9, -1/36, -1/18, 1/6, -1/6, 0, 0, 1/4, 0],
  [1/9, -1/36, -1/18, 0, 0, 1/6, -1/6, -1/4, 0],
  [1/9, -1/36, -1/18, -1/6, 1/6, 0, 0, 1/4, 0],
  [1/9, -1/36, -1/18, 0, 0, -1/6, 1/6, -1/4, 0],
  [1/9, 1/18, 1/36, 1/6, 1/12, 1/6, 1/12, 0, 1/4],
  [1/9, 1/18, 1/36, -1/6, -1/12, 1/6, 1/12, 0, -1/4],
  [1/9, 1/18, 1/36, -1/6, -1/12, -1/6, -1/12, 0, 1/4],
  [1/9, 1/18, 1/36, 1/6, 1/12, -1/6, -1/12, 0, -1/4]] : List (List ℚ)).getD i []).getD j 0

theorem inverse1_mul : ∀ i j, ∑ k, inverse1 i k * (momentBasis (1 : ℚ)) k j = if i = j then 1 else 0 := by
  decide +kernel

theorem row_cast [CharZero K] (i α) : momentRow (fun a => ((dir 1 α a : ℚ) : K)) i = ((momentBasis (1 : ℚ) i α : ℚ) : K) := by
  change _ = ((momentRow (dir (1 : ℚ) α) i : ℚ) : K)
  generalize dir (1 : ℚ) α = e
  fin_cases i <;> simp [momentRow]

theorem scale0 (c : K) (e : Fin 2 → K) :
    momentRow (fun a => c * e a) 0 = c ^ 0 * momentRow e 0 := by
  simp only [momentRow]; simp; try ring

theorem scale1 [CharZero K] (c : K) (e : Fin 2 → K) :
    momentRow (fun a => c * e a) 1 = c ^ 2 * momentRow e 1 + (4 * c ^ 2 - 4) * momentRow e 0 := by
  simp only [momentRow]; simp; try ring

theorem scale2 [CharZero K] (c : K) (e : Fin 2 → K) :
    momentRow (fun a => c * e a) 2 = c ^ 4 * momentRow e 2 + (7 / 2 * (c ^ 4 - c ^ 2)) * momentRow e 1 + (14 * (c ^ 4 - c ^ 2) + 4 - 4 * c ^ 4) * momentRow e 0 := by
  simp only [momentRow]; simp; try ring

theorem scale3 (c : K) (e : Fin 2 → K) :
    momentRow (fun a => c * e a) 3 = c ^ 1 * momentRow e 3 := by
  simp only [momentRow]; simp; try ring

theorem scale4 [CharZero K] (c : K) (e : Fin 2 → K) :
    momentRow (fun a => c * e a) 4 = c ^ 3 * momentRow e 4 + (5 * (c ^ 3 - c)) * momentRow e 3 := by
  simp only [momentRow]; simp; try ring

theorem scale5 (c : K) (e : Fin 2 → K) :
    momentRow (fun a => c * e a) 5 = c ^ 1 * momentRow e 5 := by
  simp only [momentRow]; simp; try ring

theorem scale6 [CharZero K] (c : K) (e : Fin 2 → K) :
    momentRow (fun a => c * e a) 6 = c ^ 3 * momentRow e 6 + (5 * (c ^ 3 - c)) * momentRow e 5 := by
  simp only [momentRow]; simp; try ring

theorem scale7 (c : K) (e : Fin 2 → K) :
    momentRow (fun a => c * e a) 7 = c ^ 2 * momentRow e 7 := by
  simp only [momentRow]; simp; try ring

theorem scale8 (c : K) (e : Fin 2 → K) :
    momentRow (fun a => c * e a) 8 = c ^ 2 * momentRow e 8 := by
  simp only [momentRow]; simp; try ring

theorem kernel_trivial [CharZero K] {c : K} (hc : c ≠ 0) (v : Fin 9 → K)
    (hv : ∀ i, ∑ α, momentBasis c i α * v α = 0) : v = 0 := by
  have hv' : ∀ i, ∑ α, momentRow (fun a => c * ((dir 1 α a : ℚ) : K)) i * v α = 0 := by
    intro i; rw [← hv i]
    refine Finset.sum_congr rfl fun α _ => ?_
    have : (fun a => c * ((dir 1 α a : ℚ) : K)) = dir c α := by funext a; exact (dir_eq c α a).symm
    rw [this]; rfl
  let L : Fin 9 → K := fun i => ∑ α, momentRow (fun a => ((dir 1 α a : ℚ) : K)) i * v α
  have s0 : L 0 = 0 := by
    have h := hv' 0
    simp only [scale0 c, mul_assoc, ← Finset.mul_sum] at h
    have h' : c ^ 0 * L 0 = 0 := by simpa only [L, mul_assoc] using h
    exact (mul_eq_zero.mp h').resolve_left (pow_ne_zero _ hc)
  have s3 : L 3 = 0 := by
    have h := hv' 3
    simp only [scale3 c, mul_assoc, ← Finset.mul_sum] at h
    have h' : c ^ 1 * L 3 = 0 := by simpa only [L, mul_assoc] using h
    exact (mul_eq_zero.mp h').resolve_left (pow_ne_zero _ hc)
  have s5 : L 5 = 0 := by
    have h := hv' 5
    simp only [scale5 c, mul_assoc, ← Finset.mul_sum] at h
    have h' : c ^ 1 * L 5 = 0 := by simpa only [L, mul_assoc] using h
    exact (mul_eq_zero.mp h').resolve_left (pow_ne_zero _ hc)
  have s7 : L 7 = 0 := by
    have h := hv' 7
    simp only [scale7 c, mul_assoc, ← Finset.mul_sum] at h
    have h' : c ^ 2 * L 7 = 0 := by simpa only [L, mul_assoc] using h
    exact (mul_eq_zero.mp h').resolve_left (pow_ne_zero _ hc)
  have s8 : L 8 = 0 := by
    have h := hv' 8
    simp only [scale8 c, mul_assoc, ← Finset.mul_sum] at h
    have h' : c ^ 2 * L 8 = 0 := by simpa only [L, mul_assoc] using h
    exact (mul_eq_zero.mp h').resolve_left (pow_ne_zero _ hc)
  have s1 : L 1 = 0 := by
    have h := hv' 1
    simp only [scale1 c, add_mul, Finset.sum_add_distrib, mul_assoc, ← Finset.mul_sum] at h
    have h' : c ^ 2 * L 1 + (4 * c ^ 2 - 4) * L 0 = 0 := by simpa only [L, mul_assoc] using h
    simp only [s0, mul_zero, add_zero] at h'
    exact (mul_eq_zero.mp h').resolve_left (pow_ne_zero _ hc)
  have s4 : L 4 = 0 := by
    have h := hv' 4
    simp only [scale4 c, add_mul, Finset.sum_add_distrib, mul_assoc, ← Finset.mul_sum] at h
    have h' : c ^ 3 * L 4 + (5 * (c ^ 3 - c)) * L 3 = 0 := by simpa only [L, mul_assoc] using h
    simp only [s3, mul_zero, add_zero] at h'
    exact (mul_eq_zero.mp h').resolve_left (pow_ne_zero _ hc)
  have s6 : L 6 = 0 := by
    have h := hv' 6
    simp only [scale6 c, add_mul, Finset.sum_add_distrib, mul_assoc, ← Finset.mul_sum] at h
    have h' : c ^ 3 * L 6 + (5 * (c ^ 3 - c)) * L 5 = 0 := by simpa only [L, mul_assoc] using h
    simp only [s5, mul_zero, add_zero] at h'
    exact (mul_eq_zero.mp h').resolve_left (pow_ne_zero _ hc)
  have s2 : L 2 = 0 := by
    have h := hv' 2
    simp only [scale2 c, add_mul, Finset.sum_add_distrib, mul_assoc, ← Finset.mul_sum] at h
    have h' : c ^ 4 * L 2 + (7 / 2 * (c ^ 4 - c ^ 2)) * L 1 + (14 * (c ^ 4 - c ^ 2) + 4 - 4 * c ^ 4) * L 0 = 0 := by simpa only [L, mul_assoc] using h
    simp only [s1, s0, mul_zero, add_zero] at h'
    exact (mul_eq_zero.mp h').resolve_left (pow_ne_zero _ hc)
  refine cast_injective inverse1 (momentBasis 1) inverse1_mul v fun i => ?_
  have : L i = 0 := by
    fin_cases i
    exacts [s0, s1, s2, s3, s4, s5, s6, s7, s8]
  rw [← this]
  exact Finset.sum_congr rfl fun α _ => by rw [row_cast]

end D2Q9

namespace D3Q15

/-- explicit inverse of the moment basis at scaling 1 -/
def inverse1 : Matrix (Fin 15) (Fin 15) ℚ := Matrix.of fun i j => (([
  [1/15, -1/9, 2/45, 0, 0, 0, 0, 0, 0, 0, 0, 0, 0, 0, 0],
  [1/15, -1/18, -1/90, 1/10, -1/10, 0, 0, 0, 0, 1/6, 0, 0, 0, 0, 0],
  [1/15, -1/18, -1/90, -1/10, 1/10, 0, 0, 0, 0, 1/6, 0, 0, 0, 0, 0],
  [1/15, -1/18, -1/90, 0, 0, 1/10, -1/10, 0, 0, -1/12, 1/4, 0, 0, 0, 0],
  [1/15, -1/18, -1/90, 0, 0, -1/10, 1/10, 0, 0, -1/12, 1/4, 0, 0, 0, 0],
  [1/15, -1/18, -1/90, 0, 0, 0, 0, 1/10, -1/10, -1/12, -1/4, 0, 0, 0, 0],
  [1/15, -1/18, -1/90, 0, 0, 0, 0, -1/10, 1/10, -1/12, -1/4, 0, 0, 0, 0],
  [1/15, 1/18, 1/360, 1/10, 1/40, 1/10, 1/40, 1/10, 1/40, 0, 0, 1/8, 1/8, 1/8, 1/8],
  [1/15, 1/18, 1/360, -1/10, -1/40, -1/10, -1/40, -1/10, -1/40, 0, 0, 1/8, 1/8, 1/8, -1/8],
  [1/15, 1/18, 1/360, 1/10, 1/40, 1/10, 1/40, -1/10, -1/40, 0, 0, 1/8, -1/8, -1/8, -1/8],
  [1/15, 1/18, 1/360, -1/10, -1/40, -1/10, -1/40, 1/10, 1/40, 0, 0, 1/8, -1/8, -1/8, 1/8],
  [1/15, 1/18, 1/360, 1/10, 1/40, -1/10, -1/40, 1/10, 1/40, 0, 0, -1/8, -1/8, 1/8, -1/8],
  [1/15, 1/18, 1/360, -1/10, -1/40, 1/10, 1/40, -1/10, -1/40, 0, 0, -1/8, -1/8, 1/8, 1/8],
  [1/15, 1/18, 1/360, 1/10, 1/40, -1/10, -1/40, -1/10, -1/40, 0, 0, -1/8, 1/8, -1/8, 1/8],
  [1/15, 1/18, 1/360, -1/10, -1/40, 1/10, 1/40, 1/10, 1/40, 0, 0, -1/8, 1/8, -1/8, -1/8]] : List (List ℚ)).getD i []).getD j 0

theorem inverse1_mul : ∀ i j, ∑ k, inverse1 i k * (momentBasis (1 : ℚ)) k j = if i = j then 1 else 0 := by
  decide +kernel

theorem row_cast [CharZero K] (i α) : momentRow (fun a => ((dir 1 α a : ℚ) : K)) i = ((momentBasis (1 : ℚ) i α : ℚ) : K) := by
  change _ = ((momentRow (dir (1 : ℚ) α) i : ℚ) : K)
  generalize dir (1 : ℚ) α = e
  fin_cases i <;> simp [momentRow]

theorem scale0 (c : K) (e : Fin 3 → K) :
    momentRow (fun a => c * e a) 0 = c ^ 0 * momentRow e 0 := by
  simp only [momentRow]; simp; try ring

theorem scale1 [CharZero K] (c : K) (e : Fin 3 → K) :
    momentRow (fun a => c * e a) 1 = c ^ 2 * momentRow e 1 + (2 * c ^ 2 - 2) * momentRow e 0 := by
  simp only [momentRow]; simp; try ring

theorem scale2 [CharZero K] (c : K) (e : Fin 3 → K) :
    momentRow (fun a => c * e a) 2 = c ^ 4 * momentRow e 2 + (55 / 2 * (c ^ 4 - c ^ 2)) * momentRow e 1 + (55 * (c ^ 4 - c ^ 2) + 16 - 16 * c ^ 4) * momentRow e 0 := by
  simp only [momentRow]; simp; try ring

theorem scale3 (c : K) (e : Fin 3 → K) :
    momentRow (fun a => c * e a) 3 = c ^ 1 * momentRow e 3 := by
  simp only [momentRow]; simp; try ring

theorem scale4 [CharZero K] (c : K) (e : Fin 3 → K) :
    momentRow (fun a => c * e a) 4 = c ^ 3 * momentRow e 4 + (13 / 2 * (c ^ 3 - c)) * momentRow e 3 := by
  simp only [momentRow]; simp; try ring

theorem scale5 (c : K) (e : Fin 3 → K) :
    momentRow (fun a => c * e a) 5 = c ^ 1 * momentRow e 5 := by
  simp only [momentRow]; simp; try ring

theorem scale6 [CharZero K] (c : K) (e : Fin 3 → K) :
    momentRow (fun a => c * e a) 6 = c ^ 3 * momentRow e 6 + (13 / 2 * (c ^ 3 - c)) * momentRow e 5 := by
  simp only [momentRow]; simp; try ring

theorem scale7 (c : K) (e : Fin 3 → K) :
    momentRow (fun a => c * e a) 7 = c ^ 1 * momentRow e 7 := by
  simp only [momentRow]; simp; try ring

theorem scale8 [CharZero K] (c : K) (e : Fin 3 → K) :
    momentRow (fun a => c * e a) 8 = c ^ 3 * momentRow e 8 + (13 / 2 * (c ^ 3 - c)) * momentRow e 7 := by
  simp only [momentRow]; simp; try ring

theorem scale9 (c : K) (e : Fin 3 → K) :
    momentRow (fun a => c * e a) 9 = c ^ 2 * momentRow e 9 := by
  simp only [momentRow]; simp; try ring

theorem scale10 (c : K) (e : Fin 3 → K) :
    momentRow (fun a => c * e a) 10 = c ^ 2 * momentRow e 10 := by
  simp only [momentRow]; simp; try ring

theorem scale11 (c : K) (e : Fin 3 → K) :
    momentRow (fun a => c * e a) 11 = c ^ 2 * momentRow e 11 := by
  simp only [momentRow]; simp; try ring

theorem scale12 (c : K) (e : Fin 3 → K) :
    momentRow (fun a => c * e a) 12 = c ^ 2 * momentRow e 12 := by
  simp only [momentRow]; simp; try ring

theorem scale13 (c : K) (e : Fin 3 → K) :
    momentRow (fun a => c * e a) 13 = c ^ 2 * momentRow e 13 := by
  simp only [momentRow]; simp; try ring

theorem scale14 (c : K) (e : Fin 3 → K) :
    momentRow (fun a => c * e a) 14 = c ^ 3 * momentRow e 14 := by
  simp only [momentRow]; simp; try ring

theorem kernel_trivial [CharZero K] {c : K} (hc : c ≠ 0) (v : Fin 15 → K)
    (hv : ∀ i, ∑ α, momentBasis c i α * v α = 0) : v = 0 := by
  have hv' : ∀ i, ∑ α, momentRow (fun a => c * ((dir 1 α a : ℚ) : K)) i * v α = 0 := by
    intro i; rw [← hv i]
    refine Finset.sum_congr rfl fun α _ => ?_
    have : (fun a => c * ((dir 1 α a : ℚ) : K)) = dir c α := by funext a; exact (dir_eq c α a).symm
    rw [this]; rfl
  let L : Fin 15 → K := fun i => ∑ α, momentRow (fun a => ((dir 1 α a : ℚ) : K)) i * v α
  have s0 : L 0 = 0 := by
    have h := hv' 0
    simp only [scale0 c, mul_assoc, ← Finset.mul_sum] at h
    have h' : c ^ 0 * L 0 = 0 := by simpa only [L, mul_assoc] using h
    exact (mul_eq_zero.mp h').resolve_left (pow_ne_zero _ hc)
  have s3 : L 3 = 0 := by
    have h := hv' 3
    simp only [scale3 c, mul_assoc, ← Finset.mul_sum] at h
    have h' : c ^ 1 * L 3 = 0 := by simpa only [L, mul_assoc] using h
    exact (mul_eq_zero.mp h').resolve_left (pow_ne_zero _ hc)
  have s5 : L 5 = 0 := by
    have h := hv' 5
    simp only [scale5 c, mul_assoc, ← Finset.mul_sum] at h
    have h' : c ^ 1 * L 5 = 0 := by simpa only [L, mul_assoc] using h
    exact (mul_eq_zero.mp h').resolve_left (pow_ne_zero _ hc)
  have s7 : L 7 = 0 := by
    have h := hv' 7
    simp only [scale7 c, mul_assoc, ← Finset.mul_sum] at h
    have h' : c ^ 1 * L 7 = 0 := by simpa only [L, mul_assoc] using h
    exact (mul_eq_zero.mp h').resolve_left (pow_ne_zero _ hc)
  have s9 : L 9 = 0 := by
    have h := hv' 9
    simp only [scale9 c, mul_assoc, ← Finset.mul_sum] at h
    have h' : c ^ 2 * L 9 = 0 := by simpa only [L, mul_assoc] using h
    exact (mul_eq_zero.mp h').resolve_left (pow_ne_zero _ hc)
  have s10 : L 10 = 0 := by
    have h := hv' 10
    simp only [scale10 c, mul_assoc, ← Finset.mul_sum] at h
    have h' : c ^ 2 * L 10 = 0 := by simpa only [L, mul_assoc] using h
    exact (mul_eq_zero.mp h').resolve_left (pow_ne_zero _ hc)
  have s11 : L 11 = 0 := by
    have h := hv' 11
    simp only [scale11 c, mul_assoc, ← Finset.mul_sum] at h
    have h' : c ^ 2 * L 11 = 0 := by simpa only [L, mul_assoc] using h
    exact (mul_eq_zero.mp h').resolve_left (pow_ne_zero _ hc)
  have s12 : L 12 = 0 := by
    have h := hv' 12
    simp only [scale12 c, mul_assoc, ← Finset.mul_sum] at h
    have h' : c ^ 2 * L 12 = 0 := by simpa only [L, mul_assoc] using h
    exact (mul_eq_zero.mp h').resolve_left (pow_ne_zero _ hc)
  have s13 : L 13 = 0 := by
    have h := hv' 13
    simp only [scale13 c, mul_assoc, ← Finset.mul_sum] at h
    have h' : c ^ 2 * L 13 = 0 := by simpa only [L, mul_assoc] using h
    exact (mul_eq_zero.mp h').resolve_left (pow_ne_zero _ hc)
  have s14 : L 14 = 0 := by
    have h := hv' 14
    simp only [scale14 c, mul_assoc, ← Finset.mul_sum] at h
    have h' : c ^ 3 * L 14 = 0 := by simpa only [L, mul_assoc] using h
    exact (mul_eq_zero.mp h').resolve_left (pow_ne_zero _ hc)
  have s1 : L 1 = 0 := by
    have h := hv' 1
    simp only [scale1 c, add_mul, Finset.sum_add_distrib, mul_assoc, ← Finset.mul_sum] at h
    have h' : c ^ 2 * L 1 + (2 * c ^ 2 - 2) * L 0 = 0 := by simpa only [L, mul_assoc] using h
    simp only [s0, mul_zero, add_zero] at h'
    exact (mul_eq_zero.mp h').resolve_left (pow_ne_zero _ hc)
  have s4 : L 4 = 0 := by
    have h := hv' 4
    simp only [scale4 c, add_mul, Finset.sum_add_distrib, mul_assoc, ← Finset.mul_sum] at h
    have h' : c ^ 3 * L 4 + (13 / 2 * (c ^ 3 - c)) * L 3 = 0 := by simpa only [L, mul_assoc] using h
    simp only [s3, mul_zero, add_zero] at h'
    exact (mul_eq_zero.mp h').resolve_left (pow_ne_zero _ hc)
  have s6 : L 6 = 0 := by
    have h := hv' 6
    simp only [scale6 c, add_mul, Finset.sum_add_distrib, mul_assoc, ← Finset.mul_sum] at h
    have h' : c ^ 3 * L 6 + (13 / 2 * (c ^ 3 - c)) * L 5 = 0 := by simpa only [L, mul_assoc] using h
    simp only [s5, mul_zero, add_zero] at h'
    exact (mul_eq_zero.mp h').resolve_left (pow_ne_zero _ hc)
  have s8 : L 8 = 0 := by
    have h := hv' 8
    simp only [scale8 c, add_mul, Finset.sum_add_distrib, mul_assoc, ← Finset.mul_sum] at h
    have h' : c ^ 3 * L 8 + (13 / 2 * (c ^ 3 - c)) * L 7 = 0 := by simpa only [L, mul_assoc] using h
    simp only [s7, mul_zero, add_zero] at h'
    exact (mul_eq_zero.mp h').resolve_left (pow_ne_zero _ hc)
  have s2 : L 2 = 0 := by
    have h := hv' 2
    simp only [scale2 c, add_mul, Finset.sum_add_distrib, mul_assoc, ← Finset.mul_sum] at h
    have h' : c ^ 4 * L 2 + (55 / 2 * (c ^ 4 - c ^ 2)) * L 1 + (55 * (c ^ 4 - c ^ 2) + 16 - 16 * c ^ 4) * L 0 = 0 := by simpa only [L, mul_assoc] using h
    simp only [s1, s0, mul_zero, add_zero] at h'
    exact (mul_eq_zero.mp h').resolve_left (pow_ne_zero _ hc)
  refine cast_injective inverse1 (momentBasis 1) inverse1_mul v fun i => ?_
  have : L i = 0 := by
    fin_cases i
    exacts [s0, s1, s2, s3, s4, s5, s6, s7, s8, s9, s10, s11, s12, s13, s14]
  rw [← this]
  exact Finset.sum_congr rfl fun α _ => by rw [row_cast]

end D3Q15

namespace D3Q19

/-- explicit inverse of the moment basis at scaling 1 -/
def inverse1 : Matrix (Fin 19) (Fin 19) ℚ := Matrix.of fun i j => (([
  [1/19, -5/399, 1/21, 0, 0, 0, 0, 0, 0, 0, 0, 0, 0, 0, 0, 0, 0, 0, 0],
  [1/19, -11/2394, -1/63, 1/10, -1/10, 0, 0, 0, 0, 7/54, -1/54, 0, 0, 0, 0, 0, 0, 0, 0],
  [1/19, -11/2394, -1/63, 0, 0, 0, 0, 1/10, -1/10, -7/108, 1/108, -7/36, 1/36, 0, 0, 0, 0, 0, 0],
  [1/19, -11/2394, -1/63, -1/10, 1/10, 0, 0, 0, 0, 7/54, -1/54, 0, 0, 0, 0, 0, 0, 0, 0],
  [1/19, -11/2394, -1/63, 0, 0, 0, 0, -1/10, 1/10, -7/108, 1/108, -7/36, 1/36, 0, 0, 0, 0, 0, 0],
  [1/19, -11/2394, -1/63, 0, 0, -1/10, 1/10, 0, 0, -7/108, 1/108, 7/36, -1/36, 0, 0, 0, 0, 0, 0],
  [1/19, -11/2394, -1/63, 0, 0, 1/10, -1/10, 0, 0, -7/108, 1/108, 7/36, -1/36, 0, 0, 0, 0, 0, 0],
  [1/19, 4/1197, 1/252, 1/10, 1/40, 0, 0, 1/10, 1/40, 1/108, 1/216, -1/36, -1/72, 0, 0, 1/4, -1/8, 0, 1/8],
  [1/19, 4/1197, 1/252, -1/10, -1/40, 0, 0, 1/10, 1/40, 1/108, 1/216, -1/36, -1/72, 0, 0, -1/4, 1/8, 0, 1/8],
  [1/19, 4/1197, 1/252, -1/10, -1/40, 0, 0, -1/10, -1/40, 1/108, 1/216, -1/36, -1/72, 0, 0, 1/4, 1/8, 0, -1/8],
  [1/19, 4/1197, 1/252, 1/10, 1/40, 0, 0, -1/10, -1/40, 1/108, 1/216, -1/36, -1/72, 0, 0, -1/4, -1/8, 0, -1/8],
  [1/19, 4/1197, 1/252, 1/10, 1/40, -1/10, -1/40, 0, 0, 1/108, 1/216, 1/36, 1/72, -1/4, 0, 0, 1/8, 1/8, 0],
  [1/19, 4/1197, 1/252, 1/10, 1/40, 1/10, 1/40, 0, 0, 1/108, 1/216, 1/36, 1/72, 1/4, 0, 0, 1/8, -1/8, 0],
  [1/19, 4/1197, 1/252, -1/10, -1/40, 1/10, 1/40, 0, 0, 1/108, 1/216, 1/36, 1/72, -1/4, 0, 0, -1/8, -1/8, 0],
  [1/19, 4/1197, 1/252, -1/10, -1/40, -1/10, -1/40, 0, 0, 1/108, 1/216, 1/36, 1/72, 1/4, 0, 0, -1/8, 1/8, 0],
  [1/19, 4/1197, 1/252, 0, 0, -1/10, -1/40, 1/10, 1/40, -1/54, -1/108, 0, 0, 0, -1/4, 0, 0, -1/8, -1/8],
  [1/19, 4/1197, 1/252, 0, 0, 1/10, 1/40, 1/10, 1/40, -1/54, -1/108, 0, 0, 0, 1/4, 0, 0, 1/8, -1/8],
  [1/19, 4/1197, 1/252, 0, 0, 1/10, 1/40, -1/10, -1/40, -1/54, -1/108, 0, 0, 0, -1/4, 0, 0, 1/8, 1/8],
  [1/19, 4/1197, 1/252, 0, 0, -1/10, -1/40, -1/10, -1/40, -1/54, -1/108, 0, 0, 0, 1/4, 0, 0, -1/8, 1/8]] : List (List ℚ)).getD i []).getD j 0

theorem inverse1_mul : ∀ i j, ∑ k, inverse1 i k * (momentBasis (1 : ℚ)) k j = if i = j then 1 else 0 := by
  decide +kernel

theorem row_cast [CharZero K] (i α) : momentRow (fun a => ((dir 1 α a : ℚ) : K)) i = ((momentBasis (1 : ℚ) i α : ℚ) : K) := by
  change _ = ((momentRow (dir (1 : ℚ) α) i : ℚ) : K)
  generalize dir (1 : ℚ) α = e
  fin_cases i <;> simp [momentRow]

theorem scale0 (c : K) (e : Fin 3 → K) :
    momentRow (fun a => c * e a) 0 = c ^ 0 * momentRow e 0 := by
  simp only [momentRow]; simp; try ring

theorem scale1 (c : K) (e : Fin 3 → K) :
    momentRow (fun a => c * e a) 1 = c ^ 2 * momentRow e 1 + (30 * c ^ 2 - 30) * momentRow e 0 := by
  simp only [momentRow]; simp; try ring

theorem scale2 [CharZero K] (c : K) (e : Fin 3 → K) :
    momentRow (fun a => c * e a) 2 = c ^ 4 * momentRow e 2 + (53 / 38 * (c ^ 4 - c ^ 2)) * momentRow e 1 + (795 / 19 * (c ^ 4 - c ^ 2) + 12 - 12 * c ^ 4) * momentRow e 0 := by
  simp only [momentRow]; simp; try ring

theorem scale3 (c : K) (e : Fin 3 → K) :
    momentRow (fun a => c * e a) 3 = c ^ 1 * momentRow e 3 := by
  simp only [momentRow]; simp; try ring

theorem scale4 (c : K) (e : Fin 3 → K) :
    momentRow (fun a => c * e a) 4 = c ^ 3 * momentRow e 4 + (9 * (c ^ 3 - c)) * momentRow e 3 := by
  simp only [momentRow]; simp; try ring

theorem scale5 (c : K) (e : Fin 3 → K) :
    momentRow (fun a => c * e a) 5 = c ^ 1 * momentRow e 5 := by
  simp only [momentRow]; simp; try ring

theorem scale6 (c : K) (e : Fin 3 → K) :
    momentRow (fun a => c * e a) 6 = c ^ 3 * momentRow e 6 + (9 * (c ^ 3 - c)) * momentRow e 5 := by
  simp only [momentRow]; simp; try ring

theorem scale7 (c : K) (e : Fin 3 → K) :
    momentRow (fun a => c * e a) 7 = c ^ 1 * momentRow e 7 := by
  simp only [momentRow]; simp; try ring

theorem scale8 (c : K) (e : Fin 3 → K) :
    momentRow (fun a => c * e a) 8 = c ^ 3 * momentRow e 8 + (9 * (c ^ 3 - c)) * momentRow e 7 := by
  simp only [momentRow]; simp; try ring

theorem scale9 (c : K) (e : Fin 3 → K) :
    momentRow (fun a => c * e a) 9 = c ^ 2 * momentRow e 9 := by
  simp only [momentRow]; simp; try ring

theorem scale10 (c : K) (e : Fin 3 → K) :
    momentRow (fun a => c * e a) 10 = c ^ 6 * momentRow e 10 + (5 * (c ^ 6 - c ^ 2)) * momentRow e 9 := by
  simp only [momentRow]; simp; try ring

theorem scale11 (c : K) (e : Fin 3 → K) :
    momentRow (fun a => c * e a) 11 = c ^ 2 * momentRow e 11 := by
  simp only [momentRow]; simp; try ring

theorem scale12 (c : K) (e : Fin 3 → K) :
    momentRow (fun a => c * e a) 12 = c ^ 6 * momentRow e 12 + (5 * (c ^ 6 - c ^ 2)) * momentRow e 11 := by
  simp only [momentRow]; simp; try ring

theorem scale13 (c : K) (e : Fin 3 → K) :
    momentRow (fun a => c * e a) 13 = c ^ 2 * momentRow e 13 := by
  simp only [momentRow]; simp; try ring

theorem scale14 (c : K) (e : Fin 3 → K) :
    momentRow (fun a => c * e a) 14 = c ^ 2 * momentRow e 14 := by
  simp only [momentRow]; simp; try ring

theorem scale15 (c : K) (e : Fin 3 → K) :
    momentRow (fun a => c * e a) 15 = c ^ 2 * momentRow e 15 := by
  simp only [momentRow]; simp; try ring

theorem scale16 (c : K) (e : Fin 3 → K) :
    momentRow (fun a => c * e a) 16 = c ^ 3 * momentRow e 16 := by
  simp only [momentRow]; simp; try ring

theorem scale17 (c : K) (e : Fin 3 → K) :
    momentRow (fun a => c * e a) 17 = c ^ 3 * momentRow e 17 := by
  simp only [momentRow]; simp; try ring

theorem scale18 (c : K) (e : Fin 3 → K) :
    momentRow (fun a => c * e a) 18 = c ^ 3 * momentRow e 18 := by
  simp only [momentRow]; simp; try ring

theorem kernel_trivial [CharZero K] {c : K} (hc : c ≠ 0) (v : Fin 19 → K)
    (hv : ∀ i, ∑ α, momentBasis c i α * v α = 0) : v = 0 := by
  have hv' : ∀ i, ∑ α, momentRow (fun a => c * ((dir 1 α a : ℚ) : K)) i * v α = 0 := by
    intro i; rw [← hv i]
    refine Finset.sum_congr rfl fun α _ => ?_
    have : (fun a => c * ((dir 1 α a : ℚ) : K)) = dir c α := by funext a; exact (dir_eq c α a).symm
    rw [this]; rfl
  let L : Fin 19 → K := fun i => ∑ α, momentRow (fun a => ((dir 1 α a : ℚ) : K)) i * v α
  have s0 : L 0 = 0 := by
    have h := hv' 0
    simp only [scale0 c, mul_assoc, ← Finset.mul_sum] at h
    have h' : c ^ 0 * L 0 = 0 := by simpa only [L, mul_assoc] using h
    exact (mul_eq_zero.mp h').resolve_left (pow_ne_zero _ hc)
  have s3 : L 3 = 0 := by
    have h := hv' 3
    simp only [scale3 c, mul_assoc, ← Finset.mul_sum] at h
    have h' : c ^ 1 * L 3 = 0 := by simpa only [L, mul_assoc] using h
    exact (mul_eq_zero.mp h').resolve_left (pow_ne_zero _ hc)
  have s5 : L 5 = 0 := by
    have h := hv' 5
    simp only [scale5 c, mul_assoc, ← Finset.mul_sum] at h
    have h' : c ^ 1 * L 5 = 0 := by simpa only [L, mul_assoc] using h
    exact (mul_eq_zero.mp h').resolve_left (pow_ne_zero _ hc)
  have s7 : L 7 = 0 := by
    have h := hv' 7
    simp only [scale7 c, mul_assoc, ← Finset.mul_sum] at h
    have h' : c ^ 1 * L 7 = 0 := by simpa only [L, mul_assoc] using h
    exact (mul_eq_zero.mp h').resolve_left (pow_ne_zero _ hc)
  have s9 : L 9 = 0 := by
    have h := hv' 9
    simp only [scale9 c, mul_assoc, ← Finset.mul_sum] at h
    have h' : c ^ 2 * L 9 = 0 := by simpa only [L, mul_assoc] using h
    exact (mul_eq_zero.mp h').resolve_left (pow_ne_zero _ hc)
  have s11 : L 11 = 0 := by
    have h := hv' 11
    simp only [scale11 c, mul_assoc, ← Finset.mul_sum] at h
    have h' : c ^ 2 * L 11 = 0 := by simpa only [L, mul_assoc] using h
    exact (mul_eq_zero.mp h').resolve_left (pow_ne_zero _ hc)
  have s13 : L 13 = 0 := by
    have h := hv' 13
    simp only [scale13 c, mul_assoc, ← Finset.mul_sum] at h
    have h' : c ^ 2 * L 13 = 0 := by simpa only [L, mul_assoc] using h
    exact (mul_eq_zero.mp h').resolve_left (pow_ne_zero _ hc)
  have s14 : L 14 = 0 := by
    have h := hv' 14
    simp only [scale14 c, mul_assoc, ← Finset.mul_sum] at h
    have h' : c ^ 2 * L 14 = 0 := by simpa only [L, mul_assoc] using h
    exact (mul_eq_zero.mp h').resolve_left (pow_ne_zero _ hc)
  have s15 : L 15 = 0 := by
    have h := hv' 15
    simp only [scale15 c, mul_assoc, ← Finset.mul_sum] at h
    have h' : c ^ 2 * L 15 = 0 := by simpa only [L, mul_assoc] using h
    exact (mul_eq_zero.mp h').resolve_left (pow_ne_zero _ hc)
  have s16 : L 16 = 0 := by
    have h := hv' 16
    simp only [scale16 c, mul_assoc, ← Finset.mul_sum] at h
    have h' : c ^ 3 * L 16 = 0 := by simpa only [L, mul_assoc] using h
    exact (mul_eq_zero.mp h').resolve_left (pow_ne_zero _ hc)
  have s17 : L 17 = 0 := by
    have h := hv' 17
    simp only [scale17 c, mul_assoc, ← Finset.mul_sum] at h
    have h' : c ^ 3 * L 17 = 0 := by simpa only [L, mul_assoc] using h
    exact (mul_eq_zero.mp h').resolve_left (pow_ne_zero _ hc)
  have s18 : L 18 = 0 := by
    have h := hv' 18
    simp only [scale18 c, mul_assoc, ← Finset.mul_sum] at h
    have h' : c ^ 3 * L 18 = 0 := by simpa only [L, mul_assoc] using h
    exact (mul_eq_zero.mp h').resolve_left (pow_ne_zero _ hc)
  have s1 : L 1 = 0 := by
    have h := hv' 1
    simp only [scale1 c, add_mul, Finset.sum_add_distrib, mul_assoc, ← Finset.mul_sum] at h
    have h' : c ^ 2 * L 1 + (30 * c ^ 2 - 30) * L 0 = 0 := by simpa only [L, mul_assoc] using h
    simp only [s0, mul_zero, add_zero] at h'
    exact (mul_eq_zero.mp h').resolve_left (pow_ne_zero _ hc)
  have s4 : L 4 = 0 := by
    have h := hv' 4
    simp only [scale4 c, add_mul, Finset.sum_add_distrib, mul_assoc, ← Finset.mul_sum] at h
    have h' : c ^ 3 * L 4 + (9 * (c ^ 3 - c)) * L 3 = 0 := by simpa only [L, mul_assoc] using h
    simp only [s3, mul_zero, add_zero] at h'
    exact (mul_eq_zero.mp h').resolve_left (pow_ne_zero _ hc)
  have s6 : L 6 = 0 := by
    have h := hv' 6
    simp only [scale6 c, add_mul, Finset.sum_add_distrib, mul_assoc, ← Finset.mul_sum] at h
    have h' : c ^ 3 * L 6 + (9 * (c ^ 3 - c)) * L 5 = 0 := by simpa only [L, mul_assoc] using h
    simp only [s5, mul_zero, add_zero] at h'
    exact (mul_eq_zero.mp h').resolve_left (pow_ne_zero _ hc)
  have s8 : L 8 = 0 := by
    have h := hv' 8
    simp only [scale8 c, add_mul, Finset.sum_add_distrib, mul_assoc, ← Finset.mul_sum] at h
    have h' : c ^ 3 * L 8 + (9 * (c ^ 3 - c)) * L 7 = 0 := by simpa only [L, mul_assoc] using h
    simp only [s7, mul_zero, add_zero] at h'
    exact (mul_eq_zero.mp h').resolve_left (pow_ne_zero _ hc)
  have s10 : L 10 = 0 := by
    have h := hv' 10
    simp only [scale10 c, add_mul, Finset.sum_add_distrib, mul_assoc, ← Finset.mul_sum] at h
    have h' : c ^ 6 * L 10 + (5 * (c ^ 6 - c ^ 2)) * L 9 = 0 := by simpa only [L, mul_assoc] using h
    simp only [s9, mul_zero, add_zero] at h'
    exact (mul_eq_zero.mp h').resolve_left (pow_ne_zero _ hc)
  have s12 : L 12 = 0 := by
    have h := hv' 12
    simp only [scale12 c, add_mul, Finset.sum_add_distrib, mul_assoc, ← Finset.mul_sum] at h
    have h' : c ^ 6 * L 12 + (5 * (c ^ 6 - c ^ 2)) * L 11 = 0 := by simpa only [L, mul_assoc] using h
    simp only [s11, mul_zero, add_zero] at h'
    exact (mul_eq_zero.mp h').resolve_left (pow_ne_zero _ hc)
  have s2 : L 2 = 0 := by
    have h := hv' 2
    simp only [scale2 c, add_mul, Finset.sum_add_distrib, mul_assoc, ← Finset.mul_sum] at h
    have h' : c ^ 4 * L 2 + (53 / 38 * (c ^ 4 - c ^ 2)) * L 1 + (795 / 19 * (c ^ 4 - c ^ 2) + 12 - 12 * c ^ 4) * L 0 = 0 := by simpa only [L, mul_assoc] using h
    simp only [s1, s0, mul_zero, add_zero] at h'
    exact (mul_eq_zero.mp h').resolve_left (pow_ne_zero _ hc)
  refine cast_injective inverse1 (momentBasis 1) inverse1_mul v fun i => ?_
  have : L i = 0 := by
    fin_cases i
    exacts [s0, s1, s2, s3, s4, s5, s6, s7, s8, s9, s10, s11, s12, s13, s14, s15, s16, s17, s18]
  rw [← this]
  exact Finset.sum_congr rfl fun α _ => by rw [row_cast]

end D3Q19

namespace D3Q27

/-- explicit inverse of the moment basis at scaling 1 -/
def inverse1 : Matrix (Fin 27) (Fin 27) ℚ := Matrix.of fun i j => (([
  [1, 0, 0, 0, -11/6, 0, 0, 0, 0, 0, 0, 0, 0, 0, 0, 0, 2/3, -1/27, 0, 0, 0, 0, 0, 0, 0, 0, 0],
  [0, 3/2, 0, 0, 1/2, 1/3, 0, 0, 0, 0, -5/12, 0, 0, 1/18, 0, 0, -5/18, 1/54, -1/6, 0, 0, 0, 0, 0, 0, 0, 0],
  [0, -3/2, 0, 0, 1/2, 1/3, 0, 0, 0, 0, 5/12, 0, 0, -1/18, 0, 0, -5/18, 1/54, -1/6, 0, 0, 0, 0, 0, 0, 0, 0],
  [0, 0, 3/2, 0, 1/2, -1/6, 1/2, 0, 0, 0, 0, -5/12, 0, 0, 1/18, 0, -5/18, 1/54, 1/12, -1/4, 0, 0, 0, 0, 0, 0, 0],
  [0, 0, -3/2, 0, 1/2, -1/6, 1/2, 0, 0, 0, 0, 5/12, 0, 0, -1/18, 0, -5/18, 1/54, 1/12, -1/4, 0, 0, 0, 0, 0, 0, 0],
  [0, 0, 0, 3/2, 1/2, -1/6, -1/2, 0, 0, 0, 0, 0, -5/12, 0, 0, 1/18, -5/18, 1/54, 1/12, 1/4, 0, 0, 0, 0, 0, 0, 0],
  [0, 0, 0, -3/2, 1/2, -1/6, -1/2, 0, 0, 0, 0, 0, 5/12, 0, 0, -1/18, -5/18, 1/54, 1/12, 1/4, 0, 0, 0, 0, 0, 0, 0],
  [0, 0, -3/8, -3/8, -1/8, 1/12, 0, 0, 3/4, 0, 0, 1/6, 1/6, 0, -1/36, -1/36, 1/9, -1/108, -1/12, 0, 0, -1/4, 0, 0, 1/8, -1/8, 0],
  [0, 0, 3/8, 3/8, -1/8, 1/12, 0, 0, 3/4, 0, 0, -1/6, -1/6, 0, 1/36, 1/36, 1/9, -1/108, -1/12, 0, 0, -1/4, 0, 0, -1/8, 1/8, 0],
  [0, 0, -3/8, 3/8, -1/8, 1/12, 0, 0, -3/4, 0, 0, 1/6, -1/6, 0, -1/36, 1/36, 1/9, -1/108, -1/12, 0, 0, 1/4, 0, 0, 1/8, 1/8, 0],
  [0, 0, 3/8, -3/8, -1/8, 1/12, 0, 0, -3/4, 0, 0, -1/6, 1/6, 0, 1/36, -1/36, 1/9, -1/108, -1/12, 0, 0, 1/4, 0, 0, -1/8, -1/8, 0],
  [0, -3/8, 0, -3/8, -1/8, -1/24, 1/8, 0, 0, 3/4, 1/6, 0, 1/6, -1/36, 0, -1/36, 1/9, -1/108, 1/24, -1/8, 0, 0, -1/4, -1/8, 0, 1/8, 0],
  [0, 3/8, 0, 3/8, -1/8, -1/24, 1/8, 0, 0, 3/4, -1/6, 0, -1/6, 1/36, 0, 1/36, 1/9, -1/108, 1/24, -1/8, 0, 0, -1/4, 1/8, 0, -1/8, 0],
  [0, -3/8, 0, 3/8, -1/8, -1/24, 1/8, 0, 0, -3/4, 1/6, 0, -1/6, -1/36, 0, 1/36, 1/9, -1/108, 1/24, -1/8, 0, 0, 1/4, -1/8, 0, -1/8, 0],
  [0, 3/8, 0, -3/8, -1/8, -1/24, 1/8, 0, 0, -3/4, -1/6, 0, 1/6, 1/36, 0, -1/36, 1/9, -1/108, 1/24, -1/8, 0, 0, 1/4, 1/8, 0, 1/8, 0],
  [0, -3/8, -3/8, 0, -1/8, -1/24, -1/8, 3/4, 0, 0, 1/6, 1/6, 0, -1/36, -1/36, 0, 1/9, -1/108, 1/24, 1/8, -1/4, 0, 0, 1/8, -1/8, 0, 0],
  [0, 3/8, 3/8, 0, -1/8, -1/24, -1/8, 3/4, 0, 0, -1/6, -1/6, 0, 1/36, 1/36, 0, 1/9, -1/108, 1/24, 1/8, -1/4, 0, 0, -1/8, 1/8, 0, 0],
  [0, -3/8, 3/8, 0, -1/8, -1/24, -1/8, -3/4, 0, 0, 1/6, -1/6, 0, -1/36, 1/36, 0, 1/9, -1/108, 1/24, 1/8, 1/4, 0, 0, 1/8, 1/8, 0, 0],
  [0, 3/8, -3/8, 0, -1/8, -1/24, -1/8, -3/4, 0, 0, -1/6, 1/6, 0, 1/36, -1/36, 0, 1/9, -1/108, 1/24, 1/8, 1/4, 0, 0, -1/8, -1/8, 0, 0],
  [0, 1/8, 1/8, 1/8, 1/24, 0, 0, -1/4, -1/4, -1/4, -1/16, -1/16, -1/16, 1/72, 1/72, 1/72, -1/24, 1/216, 0, 0, 1/8, 1/8, 1/8, 0, 0, 0, 1/8],
  [0, -1/8, -1/8, -1/8, 1/24, 0, 0, -1/4, -1/4, -1/4, 1/16, 1/16, 1/16, -1/72, -1/72, -1/72, -1/24, 1/216, 0, 0, 1/8, 1/8, 1/8, 0, 0, 0, -1/8],
  [0, 1/8, 1/8, -1/8, 1/24, 0, 0, -1/4, 1/4, 1/4, -1/16, -1/16, 1/16, 1/72, 1/72, -1/72, -1/24, 1/216, 0, 0, 1/8, -1/8, -1/8, 0, 0, 0, -1/8],
  [0, -1/8, -1/8, 1/8, 1/24, 0, 0, -1/4, 1/4, 1/4, 1/16, 1/16, -1/16, -1/72, -1/72, 1/72, -1/24, 1/216, 0, 0, 1/8, -1/8, -1/8, 0, 0, 0, 1/8],
  [0, 1/8, -1/8, 1/8, 1/24, 0, 0, 1/4, 1/4, -1/4, -1/16, 1/16, -1/16, 1/72, -1/72, 1/72, -1/24, 1/216, 0, 0, -1/8, -1/8, 1/8, 0, 0, 0, -1/8],
  [0, -1/8, 1/8, -1/8, 1/24, 0, 0, 1/4, 1/4, -1/4, 1/16, -1/16, 1/16, -1/72, 1/72, -1/72, -1/24, 1/216, 0, 0, -1/8, -1/8, 1/8, 0, 0, 0, 1/8],
  [0, 1/8, -1/8, -1/8, 1/24, 0, 0, 1/4, -1/4, 1/4, -1/16, 1/16, 1/16, 1/72, -1/72, -1/72, -1/24, 1/216, 0, 0, -1/8, 1/8, -1/8, 0, 0, 0, 1/8],
  [0, -1/8, 1/8, 1/8, 1/24, 0, 0, 1/4, -1/4, 1/4, 1/16, -1/16, -1/16, -1/72, 1/72, 1/72, -1/24, 1/216, 0, 0, -1/8, 1/8, -1/8, 0, 0, 0, -1/8]] : List (List ℚ)).getD i []).getD j 0

theorem inverse1_mul : ∀ i j, ∑ k, inverse1 i k * (momentBasis (1 : ℚ)) k j = if i = j then 1 else 0 := by
  decide +kernel

theorem row_cast [CharZero K] (i α) : momentRow (fun a => ((dir 1 α a : ℚ) : K)) i = ((momentBasis (1 : ℚ) i α : ℚ) : K) := by
  change _ = ((momentRow (dir (1 : ℚ) α) i : ℚ) : K)
  generalize dir (1 : ℚ) α = e
  fin_cases i <;> simp [momentRow]

theorem scale0 (c : K) (e : Fin 3 → K) :
    momentRow (fun a => c * e a) 0 = c ^ 0 * momentRow e 0 := by
  simp only [momentRow]; simp; try ring

theorem scale1 (c : K) (e : Fin 3 → K) :
    momentRow (fun a => c * e a) 1 = c ^ 1 * momentRow e 1 := by
  simp only [momentRow]; simp; try ring

theorem scale2 (c : K) (e : Fin 3 → K) :
    momentRow (fun a => c * e a) 2 = c ^ 1 * momentRow e 2 := by
  simp only [momentRow]; simp; try ring

theorem scale3 (c : K) (e : Fin 3 → K) :
    momentRow (fun a => c * e a) 3 = c ^ 1 * momentRow e 3 := by
  simp only [momentRow]; simp; try ring

theorem scale4 (c : K) (e : Fin 3 → K) :
    momentRow (fun a => c * e a) 4 = c ^ 2 * momentRow e 4 := by
  simp only [momentRow]; simp; try ring

theorem scale5 (c : K) (e : Fin 3 → K) :
    momentRow (fun a => c * e a) 5 = c ^ 2 * momentRow e 5 := by
  simp only [momentRow]; simp; try ring

theorem scale6 (c : K) (e : Fin 3 → K) :
    momentRow (fun a => c * e a) 6 = c ^ 2 * momentRow e 6 := by
  simp only [momentRow]; simp; try ring

theorem scale7 (c : K) (e : Fin 3 → K) :
    momentRow (fun a => c * e a) 7 = c ^ 2 * momentRow e 7 := by
  simp only [momentRow]; simp; try ring

theorem scale8 (c : K) (e : Fin 3 → K) :
    momentRow (fun a => c * e a) 8 = c ^ 2 * momentRow e 8 := by
  simp only [momentRow]; simp; try ring

theorem scale9 (c : K) (e : Fin 3 → K) :
    momentRow (fun a => c * e a) 9 = c ^ 2 * momentRow e 9 := by
  simp only [momentRow]; simp; try ring

theorem scale10 (c : K) (e : Fin 3 → K) :
    momentRow (fun a => c * e a) 10 = c ^ 3 * momentRow e 10 := by
  simp only [momentRow]; simp; try ring

theorem scale11 (c : K) (e : Fin 3 → K) :
    momentRow (fun a => c * e a) 11 = c ^ 3 * momentRow e 11 := by
  simp only [momentRow]; simp; try ring

theorem scale12 (c : K) (e : Fin 3 → K) :
    momentRow (fun a => c * e a) 12 = c ^ 3 * momentRow e 12 := by
  simp only [momentRow]; simp; try ring

theorem scale13 (c : K) (e : Fin 3 → K) :
    momentRow (fun a => c * e a) 13 = c ^ 5 * momentRow e 13 := by
  simp only [momentRow]; simp; try ring

theorem scale14 (c : K) (e : Fin 3 → K) :
    momentRow (fun a => c * e a) 14 = c ^ 5 * momentRow e 14 := by
  simp only [momentRow]; simp; try ring

theorem scale15 (c : K) (e : Fin 3 → K) :
    momentRow (fun a => c * e a) 15 = c ^ 5 * momentRow e 15 := by
  simp only [momentRow]; simp; try ring

theorem scale16 (c : K) (e : Fin 3 → K) :
    momentRow (fun a => c * e a) 16 = c ^ 4 * momentRow e 16 := by
  simp only [momentRow]; simp; try ring

theorem scale17 (c : K) (e : Fin 3 → K) :
    momentRow (fun a => c * e a) 17 = c ^ 6 * momentRow e 17 := by
  simp only [momentRow]; simp; try ring

theorem scale18 (c : K) (e : Fin 3 → K) :
    momentRow (fun a => c * e a) 18 = c ^ 4 * momentRow e 18 := by
  simp only [momentRow]; simp; try ring

theorem scale19 (c : K) (e : Fin 3 → K) :
    momentRow (fun a => c * e a) 19 = c ^ 4 * momentRow e 19 := by
  simp only [momentRow]; simp; try ring

theorem scale20 (c : K) (e : Fin 3 → K) :
    momentRow (fun a => c * e a) 20 = c ^ 4 * momentRow e 20 := by
  simp only [momentRow]; simp; try ring

theorem scale21 (c : K) (e : Fin 3 → K) :
    momentRow (fun a => c * e a) 21 = c ^ 4 * momentRow e 21 := by
  simp only [momentRow]; simp; try ring

theorem scale22 (c : K) (e : Fin 3 → K) :
    momentRow (fun a => c * e a) 22 = c ^ 4 * momentRow e 22 := by
  simp only [momentRow]; simp; try ring

theorem scale23 (c : K) (e : Fin 3 → K) :
    momentRow (fun a => c * e a) 23 = c ^ 3 * momentRow e 23 := by
  simp only [momentRow]; simp; try ring

theorem scale24 (c : K) (e : Fin 3 → K) :
    momentRow (fun a => c * e a) 24 = c ^ 3 * momentRow e 24 := by
  simp only [momentRow]; simp; try ring

theorem scale25 (c : K) (e : Fin 3 → K) :
    momentRow (fun a => c * e a) 25 = c ^ 3 * momentRow e 25 := by
  simp only [momentRow]; simp; try ring

theorem scale26 (c : K) (e : Fin 3 → K) :
    momentRow (fun a => c * e a) 26 = c ^ 3 * momentRow e 26 := by
  simp only [momentRow]; simp; try ring

theorem kernel_trivial [CharZero K] {c : K} (hc : c ≠ 0) (v : Fin 27 → K)
    (hv : ∀ i, ∑ α, momentBasis c i α * v α = 0) : v = 0 := by
  have hv' : ∀ i, ∑ α, momentRow (fun a => c * ((dir 1 α a : ℚ) : K)) i * v α = 0 := by
    intro i; rw [← hv i]
    refine Finset.sum_congr rfl fun α _ => ?_
    have : (fun a => c * ((dir 1 α a : ℚ) : K)) = dir c α := by funext a; exact (dir_eq c α a).symm
    rw [this]; rfl
  let L : Fin 27 → K := fun i => ∑ α, momentRow (fun a => ((dir 1 α a : ℚ) : K)) i * v α
  have s0 : L 0 = 0 := by
    have h := hv' 0
    simp only [scale0 c, mul_assoc, ← Finset.mul_sum] at h
    have h' : c ^ 0 * L 0 = 0 := by simpa only [L, mul_assoc] using h
    exact (mul_eq_zero.mp h').resolve_left (pow_ne_zero _ hc)
  have s1 : L 1 = 0 := by
    have h := hv' 1
    simp only [scale1 c, mul_assoc, ← Finset.mul_sum] at h
    have h' : c ^ 1 * L 1 = 0 := by simpa only [L, mul_assoc] using h
    exact (mul_eq_zero.mp h').resolve_left (pow_ne_zero _ hc)
  have s2 : L 2 = 0 := by
    have h := hv' 2
    simp only [scale2 c, mul_assoc, ← Finset.mul_sum] at h
    have h' : c ^ 1 * L 2 = 0 := by simpa only [L, mul_assoc] using h
    exact (mul_eq_zero.mp h').resolve_left (pow_ne_zero _ hc)
  have s3 : L 3 = 0 := by
    have h := hv' 3
    simp only [scale3 c, mul_assoc, ← Finset.mul_sum] at h
    have h' : c ^ 1 * L 3 = 0 := by simpa only [L, mul_assoc] using h
    exact (mul_eq_zero.mp h').resolve_left (pow_ne_zero _ hc)
  have s4 : L 4 = 0 := by
    have h := hv' 4
    simp only [scale4 c, mul_assoc, ← Finset.mul_sum] at h
    have h' : c ^ 2 * L 4 = 0 := by simpa only [L, mul_assoc] using h
    exact (mul_eq_zero.mp h').resolve_left (pow_ne_zero _ hc)
  have s5 : L 5 = 0 := by
    have h := hv' 5
    simp only [scale5 c, mul_assoc, ← Finset.mul_sum] at h
    have h' : c ^ 2 * L 5 = 0 := by simpa only [L, mul_assoc] using h
    exact (mul_eq_zero.mp h').resolve_left (pow_ne_zero _ hc)
  have s6 : L 6 = 0 := by
    have h := hv' 6
    simp only [scale6 c, mul_assoc, ← Finset.mul_sum] at h
    have h' : c ^ 2 * L 6 = 0 := by simpa only [L, mul_assoc] using h
    exact (mul_eq_zero.mp h').resolve_left (pow_ne_zero _ hc)
  have s7 : L 7 = 0 := by
    have h := hv' 7
    simp only [scale7 c, mul_assoc, ← Finset.mul_sum] at h
    have h' : c ^ 2 * L 7 = 0 := by simpa only [L, mul_assoc] using h
    exact (mul_eq_zero.mp h').resolve_left (pow_ne_zero _ hc)
  have s8 : L 8 = 0 := by
    have h := hv' 8
    simp only [scale8 c, mul_assoc, ← Finset.mul_sum] at h
    have h' : c ^ 2 * L 8 = 0 := by simpa only [L, mul_assoc] using h
    exact (mul_eq_zero.mp h').resolve_left (pow_ne_zero _ hc)
  have s9 : L 9 = 0 := by
    have h := hv' 9
    simp only [scale9 c, mul_assoc, ← Finset.mul_sum] at h
    have h' : c ^ 2 * L 9 = 0 := by simpa only [L, mul_assoc] using h
    exact (mul_eq_zero.mp h').resolve_left (pow_ne_zero _ hc)
  have s10 : L 10 = 0 := by
    have h := hv' 10
    simp only [scale10 c, mul_assoc, ← Finset.mul_sum] at h
    have h' : c ^ 3 * L 10 = 0 := by simpa only [L, mul_assoc] using h
    exact (mul_eq_zero.mp h').resolve_left (pow_ne_zero _ hc)
  have s11 : L 11 = 0 := by
    have h := hv' 11
    simp only [scale11 c, mul_assoc, ← Finset.mul_sum] at h
    have h' : c ^ 3 * L 11 = 0 := by simpa only [L, mul_assoc] using h
    exact (mul_eq_zero.mp h').resolve_left (pow_ne_zero _ hc)
  have s12 : L 12 = 0 := by
    have h := hv' 12
    simp only [scale12 c, mul_assoc, ← Finset.mul_sum] at h
    have h' : c ^ 3 * L 12 = 0 := by simpa only [L, mul_assoc] using h
    exact (mul_eq_zero.mp h').resolve_left (pow_ne_zero _ hc)
  have s23 : L 23 = 0 := by
    have h := hv' 23
    simp only [scale23 c, mul_assoc, ← Finset.mul_sum] at h
    have h' : c ^ 3 * L 23 = 0 := by simpa only [L, mul_assoc] using h
    exact (mul_eq_zero.mp h').resolve_left (pow_ne_zero _ hc)
  have s24 : L 24 = 0 := by
    have h := hv' 24
    simp only [scale24 c, mul_assoc, ← Finset.mul_sum] at h
    have h' : c ^ 3 * L 24 = 0 := by simpa only [L, mul_assoc] using h
    exact (mul_eq_zero.mp h').resolve_left (pow_ne_zero _ hc)
  have s25 : L 25 = 0 := by
    have h := hv' 25
    simp only [scale25 c, mul_assoc, ← Finset.mul_sum] at h
    have h' : c ^ 3 * L 25 = 0 := by simpa only [L, mul_assoc] using h
    exact (mul_eq_zero.mp h').resolve_left (pow_ne_zero _ hc)
  have s26 : L 26 = 0 := by
    have h := hv' 26
    simp only [scale26 c, mul_assoc, ← Finset.mul_sum] at h
    have h' : c ^ 3 * L 26 = 0 := by simpa only [L, mul_assoc] using h
    exact (mul_eq_zero.mp h').resolve_left (pow_ne_zero _ hc)
  have s16 : L 16 = 0 := by
    have h := hv' 16
    simp only [scale16 c, mul_assoc, ← Finset.mul_sum] at h
    have h' : c ^ 4 * L 16 = 0 := by simpa only [L, mul_assoc] using h
    exact (mul_eq_zero.mp h').resolve_left (pow_ne_zero _ hc)
  have s18 : L 18 = 0 := by
    have h := hv' 18
    simp only [scale18 c, mul_assoc, ← Finset.mul_sum] at h
    have h' : c ^ 4 * L 18 = 0 := by simpa only [L, mul_assoc] using h
    exact (mul_eq_zero.mp h').resolve_left (pow_ne_zero _ hc)
  have s19 : L 19 = 0 := by
    have h := hv' 19
    simp only [scale19 c, mul_assoc, ← Finset.mul_sum] at h
    have h' : c ^ 4 * L 19 = 0 := by simpa only [L, mul_assoc] using h
    exact (mul_eq_zero.mp h').resolve_left (pow_ne_zero _ hc)
  have s20 : L 20 = 0 := by
    have h := hv' 20
    simp only [scale20 c, mul_assoc, ← Finset.mul_sum] at h
    have h' : c ^ 4 * L 20 = 0 := by simpa only [L, mul_assoc] using h
    exact (mul_eq_zero.mp h').resolve_left (pow_ne_zero _ hc)
  have s21 : L 21 = 0 := by
    have h := hv' 21
    simp only [scale21 c, mul_assoc, ← Finset.mul_sum] at h
    have h' : c ^ 4 * L 21 = 0 := by simpa only [L, mul_assoc] using h
    exact (mul_eq_zero.mp h').resolve_left (pow_ne_zero _ hc)
  have s22 : L 22 = 0 := by
    have h := hv' 22
    simp only [scale22 c, mul_assoc, ← Finset.mul_sum] at h
    have h' : c ^ 4 * L 22 = 0 := by simpa only [L, mul_assoc] using h
    exact (mul_eq_zero.mp h').resolve_left (pow_ne_zero _ hc)
  have s13 : L 13 = 0 := by
    have h := hv' 13
    simp only [scale13 c, mul_assoc, ← Finset.mul_sum] at h
    have h' : c ^ 5 * L 13 = 0 := by simpa only [L, mul_assoc] using h
    exact (mul_eq_zero.mp h').resolve_left (pow_ne_zero _ hc)
  have s14 : L 14 = 0 := by
    have h := hv' 14
    simp only [scale14 c, mul_assoc, ← Finset.mul_sum] at h
    have h' : c ^ 5 * L 14 = 0 := by simpa only [L, mul_assoc] using h
    exact (mul_eq_zero.mp h').resolve_left (pow_ne_zero _ hc)
  have s15 : L 15 = 0 := by
    have h := hv' 15
    simp only [scale15 c, mul_assoc, ← Finset.mul_sum] at h
    have h' : c ^ 5 * L 15 = 0 := by simpa only [L, mul_assoc] using h
    exact (mul_eq_zero.mp h').resolve_left (pow_ne_zero _ hc)
  have s17 : L 17 = 0 := by
    have h := hv' 17
    simp only [scale17 c, mul_assoc, ← Finset.mul_sum] at h
    have h' : c ^ 6 * L 17 = 0 := by simpa only [L, mul_assoc] using h
    exact (mul_eq_zero.mp h').resolve_left (pow_ne_zero _ hc)
  refine cast_injective inverse1 (momentBasis 1) inverse1_mul v fun i => ?_
  have : L i = 0 := by
    fin_cases i
    exacts [s0, s1, s2, s3, s4, s5, s6, s7, s8, s9, s10, s11, s12, s13, s14, s15, s16, s17, s18, s19, s20, s21, s22, s23, s24, s25, s26]
  rw [← this]
  exact Finset.sum_congr rfl fun α _ => by rw [row_cast]

end D3Q27

end NATriuM
