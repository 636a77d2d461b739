import Verif.Props.Equilibria

/-! # Helper lemmas: stress relaxation of the MRT collision, fixed points, forces -/

namespace NATriuM

open Finset NATriuM.Spec

section

variable {K : Type*} [Field K] {D Q : ℕ}

/-- `e_a e_b` as a combination of rows of the moment matrix -/
structure StressRows (M : Fin Q → Fin Q → K) (e : Fin Q → Fin D → K) (C : Fin D → Fin D → Fin Q → K) : Prop where
  expand : ∀ a b j, e j a * e j b = ∑ k, C a b k * M k j

theorem flux_of_moments {M : Fin Q → Fin Q → K} {e : Fin Q → Fin D → K} {C} (h : StressRows M e C) (f : Fin Q → K) (a b : Fin D) :
    momentumFlux e f a b = ∑ k, C a b k * matrixVectorProduct M f k := by
  unfold momentumFlux matrixVectorProduct
  simp only [Finset.mul_sum]
  rw [Finset.sum_comm]
  refine Finset.sum_congr rfl fun j _ => ?_
  rw [h.expand, Finset.mul_sum]
  exact Finset.sum_congr rfl fun k _ => by ring

/-- If every moment that enters the stress either relaxes with rate `w` or agrees with its equilibrium, the stress relaxes with rate `w`. -/
theorem mrt_flux {d : CollData K D Q} {M T : Fin Q → Fin Q → K} (hi : InversePair M T) {C} (h : StressRows M d.e C) (omega : Fin Q → K)
    (feq f : Fin Q → K) (w : K) (a b : Fin D)
    (hw : ∀ k, C a b k ≠ 0 → omega k = w ∨ matrixVectorProduct M f k = matrixVectorProduct M feq k) :
    momentumFlux d.e (mrtRelax M T omega d feq f) a b
      = momentumFlux d.e f a b - w * (momentumFlux d.e f a b - momentumFlux d.e feq a b) := by
  rw [flux_of_moments h, flux_of_moments h, flux_of_moments h, ← Finset.sum_sub_distrib, Finset.mul_sum, ← Finset.sum_sub_distrib]
  refine Finset.sum_congr rfl fun k _ => ?_
  rw [mrtRelax_moment hi]
  by_cases hC : C a b k = 0
  · rw [hC]; ring
  · rcases hw k hC with e | e
    · rw [e]; ring
    · rw [e]; ring

/-- The same for any combination of moments. -/
theorem mrt_comb {d : CollData K D Q} {M T : Fin Q → Fin Q → K} (hi : InversePair M T) (omega : Fin Q → K) (C : Fin Q → K)
    (feq f : Fin Q → K) (w : K) (hw : ∀ k, C k ≠ 0 → omega k = w ∨ matrixVectorProduct M f k = matrixVectorProduct M feq k) :
    (∑ k, C k * matrixVectorProduct M (mrtRelax M T omega d feq f) k) - ∑ k, C k * matrixVectorProduct M feq k
      = (1 - w) * ((∑ k, C k * matrixVectorProduct M f k) - ∑ k, C k * matrixVectorProduct M feq k) := by
  rw [← Finset.sum_sub_distrib, ← Finset.sum_sub_distrib, Finset.mul_sum]
  refine Finset.sum_congr rfl fun k _ => ?_
  rw [mrtRelax_moment hi]
  by_cases hC : C k = 0
  · rw [hC]; ring
  · rcases hw k hC with e | e
    · rw [e]; ring
    · rw [e]; ring

theorem stressRows_of_table {M : Fin Q → Fin Q → ℚ} {eq : Fin Q → Fin D → ℚ} {e : Fin Q → Fin D → K} [CharZero K] {C : Fin D → Fin D → Fin Q → ℚ}
    (he : ∀ i a, e i a = (eq i a : K)) (h : StressRows M eq C) :
    StressRows (MRT.ofTable M : Fin Q → Fin Q → K) e fun a b k => (C a b k : K) where
  expand a b j := by
    have := congrArg (Rat.cast : ℚ → K) (h.expand a b j)
    push_cast at this
    rw [he, he, this]; rfl

end

namespace MRT

/-- coefficients of the stress in the Dellar basis -/
def dellarC : Fin 2 → Fin 2 → Fin 9 → ℚ
  | 0, 0 => ![1 / 3, 0, 0, 2 / 9, 0, 0, 0, 0, 0]
  | 1, 1 => ![1 / 3, 0, 0, 0, 0, 2 / 9, 0, 0, 0]
  | _, _ => ![0, 0, 0, 0, 1 / 9, 0, 0, 0, 0]

theorem dellar_stress : StressRows dellarM (D2Q9.dir 1) dellarC := ⟨by decide +kernel⟩

/-- coefficients of the stress in the Lallemand basis -/
def lallemandC : Fin 2 → Fin 2 → Fin 9 → ℚ
  | 0, 0 => ![2 / 3, 0, 0, 1 / 2, 0, 1 / 6, 0, 0, 0]
  | 1, 1 => ![2 / 3, 0, 0, -1 / 2, 0, 1 / 6, 0, 0, 0]
  | _, _ => ![0, 0, 0, 0, 1, 0, 0, 0, 0]

theorem lallemand_stress : StressRows lallemandM (D2Q9.dir 1) lallemandC := ⟨by decide +kernel⟩

/-- coefficients of the stress in the basis of d'Humières -/
def dHumieresC : Fin 3 → Fin 3 → Fin 19 → ℚ
  | 0, 0 => ![10 / 19, 1 / 57, 0, 0, 0, 0, 0, 0, 0, 1 / 3, 0, 0, 0, 0, 0, 0, 0, 0, 0]
  | 1, 1 => ![10 / 19, 1 / 57, 0, 0, 0, 0, 0, 0, 0, -1 / 6, 0, 1 / 2, 0, 0, 0, 0, 0, 0, 0]
  | 2, 2 => ![10 / 19, 1 / 57, 0, 0, 0, 0, 0, 0, 0, -1 / 6, 0, -1 / 2, 0, 0, 0, 0, 0, 0, 0]
  | 0, 1 => ![0, 0, 0, 0, 0, 0, 0, 0, 0, 0, 0, 0, 0, 1, 0, 0, 0, 0, 0]
  | 1, 0 => ![0, 0, 0, 0, 0, 0, 0, 0, 0, 0, 0, 0, 0, 1, 0, 0, 0, 0, 0]
  | 1, 2 => ![0, 0, 0, 0, 0, 0, 0, 0, 0, 0, 0, 0, 0, 0, 1, 0, 0, 0, 0]
  | 2, 1 => ![0, 0, 0, 0, 0, 0, 0, 0, 0, 0, 0, 0, 0, 0, 1, 0, 0, 0, 0]
  | _, _ => ![0, 0, 0, 0, 0, 0, 0, 0, 0, 0, 0, 0, 0, 0, 0, 1, 0, 0, 0]

theorem dHumieres_stress : StressRows dHumieresM (D3Q19.dir 1) dHumieresC := ⟨by decide +kernel⟩

end MRT

end NATriuM
