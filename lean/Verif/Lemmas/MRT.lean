import Verif.Lemmas.Collision
import Verif.Lemmas.StencilTables
import Mathlib.Algebra.BigOperators.Fin

/-! # Helper lemmas: MRT matrices, unrolled formulas -/

namespace NATriuM

open Finset NATriuM.Spec

section mrt

variable {K : Type*} [Field K] {D Q : ℕ}

/-- Two matrices are inverse to each other. -/
structure InversePair (M T : Fin Q → Fin Q → K) : Prop where
  left : ∀ i j, ∑ k, T i k * M k j = if i = j then 1 else 0
  right : ∀ i j, ∑ k, M i k * T k j = if i = j then 1 else 0

theorem inversePair_of_table [CharZero K] (M T : Fin Q → Fin Q → ℚ) (h : InversePair M T) :
    InversePair (MRT.ofTable M : Fin Q → Fin Q → K) (MRT.ofTable T) where
  left i j := by
    have := congrArg (Rat.cast : ℚ → K) (h.left i j)
    push_cast at this
    exact this.trans (by split <;> simp)
  right i j := by
    have := congrArg (Rat.cast : ℚ → K) (h.right i j)
    push_cast at this
    exact this.trans (by split <;> simp)

theorem mvp_mvp (A B : Fin Q → Fin Q → K) (hAB : ∀ i j, ∑ k, A i k * B k j = if i = j then 1 else 0) (x : Fin Q → K) :
    matrixVectorProduct A (matrixVectorProduct B x) = x := by
  funext i
  unfold matrixVectorProduct
  simp only [Finset.mul_sum]
  rw [Finset.sum_comm]
  have : ∀ j, ∑ k, A i k * (B k j * x j) = (if i = j then 1 else 0) * x j := fun j => by
    rw [← hAB i j, Finset.sum_mul]; exact Finset.sum_congr rfl fun k _ => by ring
  simp [this]

/-- The moments after an MRT relaxation. -/
theorem mrtRelax_moment {M T : Fin Q → Fin Q → K} (h : InversePair M T) (omega : Fin Q → K) (d : CollData K D Q)
    (feq f : Fin Q → K) (k : Fin Q) :
    matrixVectorProduct M (mrtRelax M T omega d feq f) k
      = matrixVectorProduct M f k - omega k * (matrixVectorProduct M f k - matrixVectorProduct M feq k) := by
  unfold mrtRelax
  rw [mvp_mvp M T h.right]

theorem mrtRelax_fixed {M T : Fin Q → Fin Q → K} (h : InversePair M T) (omega : Fin Q → K) (d : CollData K D Q)
    (f : Fin Q → K) : mrtRelax M T omega d f f = f := by
  unfold mrtRelax
  simp only [sub_self, mul_zero, sub_zero]
  exact mvp_mvp T M h.left f

end mrt

namespace MRT

theorem dellar_inverse : InversePair dellarM dellarT where
  left := by decide +kernel
  right := by decide +kernel

theorem lallemand_inverse : InversePair lallemandM lallemandT where
  left := by decide +kernel
  right := by decide +kernel

theorem dHumieres_inverse : InversePair dHumieresM dHumieresT where
  left := by decide +kernel
  right := by decide +kernel

end MRT

section unrolled

variable {K : Type*} [Field K]

theorem bgkD2Q9_eq (d : CollData K 2 9) (hw : d.weight = D2Q9.weight) (he : d.e = D2Q9.dir 1) (m : Macro K 2) :
    bgkEquilibriumD2Q9 d m = bgkEquilibrium d m := by
  funext i
  unfold bgkEquilibrium
  simp only [hw, he, Fin.sum_univ_two]
  generalize hx : m.u 0 = x, hy : m.u 1 = y, hr : m.rho = r
  fin_cases i
  · change 4 / 9 * m.rho * (1 + -(m.u 0 * m.u 0 + m.u 1 * m.u 1) / (2 * d.cs2))
      = 4 / 9 * r * (1 + (x * 0 / d.cs2 + y * 0 / d.cs2) * (1 + 1 / 2 * (x * 0 / d.cs2 + y * 0 / d.cs2)) + (-(x * x) / (2 * d.cs2) + -(y * y) / (2 * d.cs2)))
    rw [hx, hy, hr]; ring
  · change 1 / 9 * m.rho * (1 + (1 / d.cs2 * m.u 0) * (1 + 1 / 2 * (1 / d.cs2 * m.u 0)) + -(m.u 0 * m.u 0 + m.u 1 * m.u 1) / (2 * d.cs2))
      = 1 / 9 * r * (1 + (x * 1 / d.cs2 + y * 0 / d.cs2) * (1 + 1 / 2 * (x * 1 / d.cs2 + y * 0 / d.cs2)) + (-(x * x) / (2 * d.cs2) + -(y * y) / (2 * d.cs2)))
    rw [hx, hy, hr]; ring
  · change 1 / 9 * m.rho * (1 + (1 / d.cs2 * m.u 1) * (1 + 1 / 2 * (1 / d.cs2 * m.u 1)) + -(m.u 0 * m.u 0 + m.u 1 * m.u 1) / (2 * d.cs2))
      = 1 / 9 * r * (1 + (x * 0 / d.cs2 + y * 1 / d.cs2) * (1 + 1 / 2 * (x * 0 / d.cs2 + y * 1 / d.cs2)) + (-(x * x) / (2 * d.cs2) + -(y * y) / (2 * d.cs2)))
    rw [hx, hy, hr]; ring
  · change 1 / 9 * m.rho * (1 - (1 / d.cs2 * m.u 0) * (1 - 1 / 2 * (1 / d.cs2 * m.u 0)) + -(m.u 0 * m.u 0 + m.u 1 * m.u 1) / (2 * d.cs2))
      = 1 / 9 * r * (1 + (x * -1 / d.cs2 + y * 0 / d.cs2) * (1 + 1 / 2 * (x * -1 / d.cs2 + y * 0 / d.cs2)) + (-(x * x) / (2 * d.cs2) + -(y * y) / (2 * d.cs2)))
    rw [hx, hy, hr]; ring
  · change 1 / 9 * m.rho * (1 - (1 / d.cs2 * m.u 1) * (1 - 1 / 2 * (1 / d.cs2 * m.u 1)) + -(m.u 0 * m.u 0 + m.u 1 * m.u 1) / (2 * d.cs2))
      = 1 / 9 * r * (1 + (x * 0 / d.cs2 + y * -1 / d.cs2) * (1 + 1 / 2 * (x * 0 / d.cs2 + y * -1 / d.cs2)) + (-(x * x) / (2 * d.cs2) + -(y * y) / (2 * d.cs2)))
    rw [hx, hy, hr]; ring
  · change 1 / 36 * m.rho * (1 + (1 / d.cs2 * (m.u 0 + m.u 1)) * (1 + 1 / 2 * (1 / d.cs2 * (m.u 0 + m.u 1))) + -(m.u 0 * m.u 0 + m.u 1 * m.u 1) / (2 * d.cs2))
      = 1 / 36 * r * (1 + (x * 1 / d.cs2 + y * 1 / d.cs2) * (1 + 1 / 2 * (x * 1 / d.cs2 + y * 1 / d.cs2)) + (-(x * x) / (2 * d.cs2) + -(y * y) / (2 * d.cs2)))
    rw [hx, hy, hr]; ring
  · change 1 / 36 * m.rho * (1 + (1 / d.cs2 * (-m.u 0 + m.u 1)) * (1 + 1 / 2 * (1 / d.cs2 * (-m.u 0 + m.u 1))) + -(m.u 0 * m.u 0 + m.u 1 * m.u 1) / (2 * d.cs2))
      = 1 / 36 * r * (1 + (x * -1 / d.cs2 + y * 1 / d.cs2) * (1 + 1 / 2 * (x * -1 / d.cs2 + y * 1 / d.cs2)) + (-(x * x) / (2 * d.cs2) + -(y * y) / (2 * d.cs2)))
    rw [hx, hy, hr]; ring
  · change 1 / 36 * m.rho * (1 - (1 / d.cs2 * (m.u 0 + m.u 1)) * (1 - 1 / 2 * (1 / d.cs2 * (m.u 0 + m.u 1))) + -(m.u 0 * m.u 0 + m.u 1 * m.u 1) / (2 * d.cs2))
      = 1 / 36 * r * (1 + (x * -1 / d.cs2 + y * -1 / d.cs2) * (1 + 1 / 2 * (x * -1 / d.cs2 + y * -1 / d.cs2)) + (-(x * x) / (2 * d.cs2) + -(y * y) / (2 * d.cs2)))
    rw [hx, hy, hr]; ring
  · change 1 / 36 * m.rho * (1 - (1 / d.cs2 * (-m.u 0 + m.u 1)) * (1 - 1 / 2 * (1 / d.cs2 * (-m.u 0 + m.u 1))) + -(m.u 0 * m.u 0 + m.u 1 * m.u 1) / (2 * d.cs2))
      = 1 / 36 * r * (1 + (x * 1 / d.cs2 + y * -1 / d.cs2) * (1 + 1 / 2 * (x * 1 / d.cs2 + y * -1 / d.cs2)) + (-(x * x) / (2 * d.cs2) + -(y * y) / (2 * d.cs2)))
    rw [hx, hy, hr]; ring

theorem velocityD2Q9_eq (d : CollData K 2 9) (he : d.e = D2Q9.dir 1) (f : Fin 9 → K) (rho : K) :
    calculateVelocityD2Q9 f rho = calculateVelocity d f rho := by
  funext a
  unfold calculateVelocity
  rw [he]
  fin_cases a
  · simp only [Fin.sum_univ_castSucc, Fin.sum_univ_zero]
    change 1 / rho * (f 1 + f 5 + f 8 - f 3 - f 6 - f 7)
      = (0 + 0 * f 0 + 1 * f 1 + 0 * f 2 + -1 * f 3 + 0 * f 4 + 1 * f 5 + -1 * f 6 + -1 * f 7 + 1 * f 8) * 1 / rho
    ring
  · simp only [Fin.sum_univ_castSucc, Fin.sum_univ_zero]
    change 1 / rho * (f 2 + f 5 + f 6 - f 4 - f 7 - f 8)
      = (0 + 0 * f 0 + 0 * f 1 + 1 * f 2 + 0 * f 3 + -1 * f 4 + 1 * f 5 + 1 * f 6 + -1 * f 7 + -1 * f 8) * 1 / rho
    ring

theorem velocityD3Q19_eq (d : CollData K 3 19) (he : d.e = D3Q19.dir 1) (f : Fin 19 → K) (rho : K) :
    calculateVelocityD3Q19 f rho = calculateVelocity d f rho := by
  funext a
  unfold calculateVelocity
  rw [he]
  fin_cases a
  · simp only [Fin.sum_univ_castSucc, Fin.sum_univ_zero]
    change 1 / rho * (f 1 - f 3 + f 7 - f 8 - f 9 + f 10 + f 11 + f 12 - f 13 - f 14)
      = (0 + 0 * f 0 + 1 * f 1 + 0 * f 2 + -1 * f 3 + 0 * f 4 + 0 * f 5 + 0 * f 6 + 1 * f 7 + -1 * f 8 + -1 * f 9 + 1 * f 10 + 1 * f 11 + 1 * f 12 + -1 * f 13 + -1 * f 14 + 0 * f 15 + 0 * f 16 + 0 * f 17 + 0 * f 18) * 1 / rho
    ring
  · simp only [Fin.sum_univ_castSucc, Fin.sum_univ_zero]
    change 1 / rho * (-f 5 + f 6 - f 11 + f 12 + f 13 - f 14 - f 15 + f 16 + f 17 - f 18)
      = (0 + 0 * f 0 + 0 * f 1 + 0 * f 2 + 0 * f 3 + 0 * f 4 + -1 * f 5 + 1 * f 6 + 0 * f 7 + 0 * f 8 + 0 * f 9 + 0 * f 10 + -1 * f 11 + 1 * f 12 + 1 * f 13 + -1 * f 14 + -1 * f 15 + 1 * f 16 + 1 * f 17 + -1 * f 18) * 1 / rho
    ring
  · simp only [Fin.sum_univ_castSucc, Fin.sum_univ_zero]
    change 1 / rho * (f 2 - f 4 + f 7 + f 8 - f 9 - f 10 + f 15 + f 16 - f 17 - f 18)
      = (0 + 0 * f 0 + 0 * f 1 + 1 * f 2 + 0 * f 3 + -1 * f 4 + 0 * f 5 + 0 * f 6 + 1 * f 7 + 1 * f 8 + -1 * f 9 + -1 * f 10 + 0 * f 11 + 0 * f 12 + 0 * f 13 + 0 * f 14 + 1 * f 15 + 1 * f 16 + -1 * f 17 + -1 * f 18) * 1 / rho
    ring


/-- unit velocities of the data record -/
theorem unit_dir_of_table {D Q : ℕ} {e : K → Fin Q → Fin D → K} {eq : Fin Q → Fin D → ℚ}
    (he : ∀ c i a, e c i a = c * ((eq i a : ℚ) : K)) {c : K} (hc : c ≠ 0) : (fun i a => e c i a / c) = e 1 := by
  funext i a
  rw [he c, he 1]; field_simp

end unrolled

/-! ## Conserved rows of the moment matrices -/

section rows

variable {K : Type*} [Field K] {D Q : ℕ}

/-- Row `k0` of the moment matrix is the mass, row `kj a` the momentum in direction `a`. -/
structure ConservedRows (M : Fin Q → Fin Q → K) (e : Fin Q → Fin D → K) (k0 : Fin Q) (kj : Fin D → Fin Q) : Prop where
  mass : ∀ j, M k0 j = 1
  momentum : ∀ a j, M (kj a) j = e j a

theorem conservedRows_mass {M : Fin Q → Fin Q → K} {e : Fin Q → Fin D → K} {k0 kj} (h : ConservedRows M e k0 kj)
    (f : Fin Q → K) : matrixVectorProduct M f k0 = mass f := by
  unfold matrixVectorProduct mass; simp only [h.mass, one_mul]

theorem conservedRows_momentum {M : Fin Q → Fin Q → K} {e : Fin Q → Fin D → K} {k0 kj} (h : ConservedRows M e k0 kj)
    (f : Fin Q → K) (a : Fin D) : matrixVectorProduct M f (kj a) = momentum e f a := by
  unfold matrixVectorProduct momentum
  exact Finset.sum_congr rfl fun j _ => by rw [h.momentum]; ring

theorem conservedRows_of_table {M : Fin Q → Fin Q → ℚ} {eq : Fin Q → Fin D → ℚ} {e : Fin Q → Fin D → K} {k0 kj}
    (he : ∀ i a, e i a = (eq i a : K)) (h : ConservedRows M eq k0 kj) :
    ConservedRows (MRT.ofTable M : Fin Q → Fin Q → K) e k0 kj where
  mass j := by unfold MRT.ofTable; rw [h.mass]; simp
  momentum a j := by unfold MRT.ofTable; rw [h.momentum, he]

end rows

namespace MRT

theorem dellar_rows : ConservedRows dellarM (D2Q9.dir 1) 0 ![1, 2] :=
  ⟨by decide +kernel, by decide +kernel⟩

theorem lallemand_rows : ConservedRows lallemandM (D2Q9.dir 1) 0 ![1, 2] :=
  ⟨by decide +kernel, by decide +kernel⟩

theorem dHumieres_rows : ConservedRows dHumieresM (D3Q19.dir 1) 0 ![3, 5, 7] :=
  ⟨by decide +kernel, by decide +kernel⟩

end MRT

end NATriuM
