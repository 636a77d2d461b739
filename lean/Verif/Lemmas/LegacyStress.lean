import Verif.Lemmas.Legacy
import Verif.Model.LegacyMRT
import Verif.Spec.LegacyStress
import Verif.Spec.Legacy

/-!
# Second moments of the hand-unrolled equilibria
-/

namespace NATriuM.Legacy

open Finset Spec

variable {K : Type*} [Field K] {D Q : ℕ}

/-- second moments in lattice units, D2Q9 -/
def flux9 (f : Fin 9 → K) : Fin 2 → Fin 2 → K := fun a b =>
  if a = b then (if a = 0 then f 1 + f 3 else f 2 + f 4) + f 5 + f 6 + f 7 + f 8 else f 5 - f 6 + f 7 - f 8

theorem momentumFlux9 (c : K) (f : Fin 9 → K) (a b : Fin 2) : momentumFlux (D2Q9.stencil c).dir f a b = c * c * flux9 f a b := by
  unfold momentumFlux
  rw [sum9]
  fin_cases a <;> fin_cases b
  · show f 0 * (0 * 0) + f 1 * (c * c) + f 2 * (0 * 0) + f 3 * (-c * -c) + f 4 * (0 * 0) + f 5 * (c * c) + f 6 * (-c * -c) + f 7 * (-c * -c) +
      f 8 * (c * c) = c * c * (f 1 + f 3 + f 5 + f 6 + f 7 + f 8)
    ring
  · show f 0 * (0 * 0) + f 1 * (c * 0) + f 2 * (0 * c) + f 3 * (-c * 0) + f 4 * (0 * -c) + f 5 * (c * c) + f 6 * (-c * c) + f 7 * (-c * -c) +
      f 8 * (c * -c) = c * c * (f 5 - f 6 + f 7 - f 8)
    ring
  · show f 0 * (0 * 0) + f 1 * (0 * c) + f 2 * (c * 0) + f 3 * (0 * -c) + f 4 * (-c * 0) + f 5 * (c * c) + f 6 * (c * -c) + f 7 * (-c * -c) +
      f 8 * (-c * c) = c * c * (f 5 - f 6 + f 7 - f 8)
    ring
  · show f 0 * (0 * 0) + f 1 * (0 * 0) + f 2 * (c * c) + f 3 * (0 * 0) + f 4 * (-c * -c) + f 5 * (c * c) + f 6 * (c * c) + f 7 * (-c * -c) +
      f 8 * (-c * -c) = c * c * (f 2 + f 4 + f 5 + f 6 + f 7 + f 8)
    ring

theorem pi9 (f : Fin 9 → K) (a b : Fin 2) : piD2Q9 f a b = flux9 f a b := by
  fin_cases a <;> fin_cases b <;> rfl

theorem flux_relax (e : Fin Q → Fin D → K) (f g : Fin Q → K) (w : K) (a b : Fin D) :
    momentumFlux e (fun i => f i + w * (f i - g i)) a b =
      momentumFlux e f a b + w * (momentumFlux e f a b - momentumFlux e g a b) := by
  unfold momentumFlux
  rw [← sum_sub_distrib, mul_sum, ← sum_add_distrib]
  exact sum_congr rfl fun i _ => by ring

variable [CharZero K]

/-- the stress of the terms common to the equilibria on D2Q9 -/
theorem terms9_flux (c g w p s : K) (u : Fin 2 → K) (a b : Fin 2) :
    momentumFlux (D2Q9.stencil c).dir (termsD2Q9 g (4 / 9 * w) (1 / 9 * w) (1 / 36 * w) p s u) a b =
      c * c * w / 3 * ((1 + s + g * p * p * (u 0 * u 0 + u 1 * u 1) / 3) * δ a b + 2 / 3 * g * p * p * (u a * u b)) := by
  rw [momentumFlux9]
  fin_cases a <;> fin_cases b <;> simp [flux9, termsD2Q9, plus, minus, δ] <;> field_simp <;> ring

theorem feq9_flux (c rho : K) (hc : c ≠ 0) (u : Fin 2 → K) (a b : Fin 2) :
    momentumFlux (D2Q9.stencil c).dir (feqD2Q9 (D2Q9.stencil c) rho u) a b = rho * ((D2Q9.stencil c).cs2 * δ a b + u a * u b) := by
  unfold feqD2Q9
  rw [terms9_flux]
  simp only [D2Q9.stencil]
  field_simp
  ring

/-- the unrolled equilibrium on D3Q19 is the generic one -/
theorem feq19_eq (c rho : K) (hc : c ≠ 0) (u : Fin 3 → K) : feqD3Q19 (D3Q19.stencil c) rho u = equilibrium (D3Q19.stencil c) u rho := by
  funext i
  fin_cases i <;>
    simp [feqD3Q19, equilibrium, plus, minus, D3Q19.stencil, Fin.sum_univ_three, D3Q19.dir, D3Q19.weight, -mul_eq_mul_left_iff,
      -mul_eq_mul_right_iff] <;> field_simp <;> ring

/-- the unrolled equilibrium on D3Q15 is the generic one -/
theorem feq15_eq (c rho : K) (hc : c ≠ 0) (u : Fin 3 → K) : feqD3Q15 (D3Q15.stencil c) rho u = equilibrium (D3Q15.stencil c) u rho := by
  funext i
  fin_cases i <;>
    simp [feqD3Q15, termsD3Q15, equilibrium, plus, minus, D3Q15.stencil, Fin.sum_univ_three, D3Q15.dir, D3Q15.weight, -mul_eq_mul_left_iff,
      -mul_eq_mul_right_iff] <;> field_simp <;> ring

theorem equilibrium_flux (S : Stencil K D Q) (h : Spec.Iso4 S.weight S.dir S.cs2) (hc : S.cs2 ≠ 0)
    (h0 : ∀ i, i.val = 0 → ∀ a, S.dir i a = 0) (u : Fin D → K) (rho : K) (a b : Fin D) :
    Spec.momentumFlux S.dir (equilibrium S u rho) a b = rho * (S.cs2 * δ a b + u a * u b) := by
  rw [equilibrium_eq S h0]; exact bgk_flux (d := dataOf S) h hc _ a b

theorem regFi1_flux (S : Stencil K D Q) (h : Spec.Iso4 S.weight S.dir S.cs2) (hc : S.cs2 ≠ 0) (P : Fin D → Fin D → K)
    (hP : ∀ a b, P a b = P b a) (a b : Fin D) : momentumFlux S.dir (regFi1 S P) a b = P a b := by
  rw [momentumFlux, regFi1_moment S P fun i => S.dir i a * S.dir i b]
  have h4 : ∀ p q, ∑ i, S.weight i * (S.dir i p * S.dir i q * (S.dir i a * S.dir i b))
      = S.cs2 ^ 2 * (δ p q * δ a b + δ p a * δ q b + δ p b * δ q a) := fun p q => by
    rw [← h.m4 p q a b]; exact Finset.sum_congr rfl fun i _ => by ring
  simp only [h4, h.m2]
  have h5 : ∀ p q : Fin D, P p q / (2 * S.cs2 * S.cs2) *
      (S.cs2 ^ 2 * (δ p q * δ a b + δ p a * δ q b + δ p b * δ q a) - S.cs2 * δ p q * (S.cs2 * δ a b))
      = 1 / 2 * (P p q * δ q b) * δ p a + 1 / 2 * (P p q * δ q a) * δ p b := fun p q => by field_simp; ring
  simp only [h5, Finset.sum_add_distrib, ← Finset.sum_mul, ← Finset.mul_sum, sum_δ]
  rw [hP b a]
  ring

/-! ## Relaxation towards an equilibrium -/

omit [CharZero K] in
/-- a collision that conserves mass and momentum and turns the flux into `F'` changes the viscous stress to the difference of `F'` and the ideal flux -/
theorem viscous_of_conserves {e : Fin Q → Fin D → K} {f f' : Fin Q → K} (hC : Conserves e f f') (cs2 : K) (a b : Fin D) :
    viscousStress e cs2 f' a b = momentumFlux e f' a b - idealFlux cs2 (mass f) (momentum e f) a b := by
  unfold viscousStress idealFlux
  rw [hC.mass, hC.momentum, hC.momentum]

omit [CharZero K] in
theorem ideal_eq (cs2 rho : K) (hr : rho ≠ 0) (u j : Fin D → K) (hu : ∀ a, rho * u a = j a) (a b : Fin D) :
    idealFlux cs2 rho j a b = rho * (cs2 * δ a b + u a * u b) := by
  unfold idealFlux
  rw [← hu, ← hu]; field_simp

omit [CharZero K] in
theorem relax_stress {e : Fin Q → Fin D → K} {f g : Fin Q → K} {w cs2 : K} {u : Fin D → K} (hr : mass f ≠ 0)
    (hC : Conserves e f fun i => f i + w * (f i - g i)) (hu : ∀ a, mass f * u a = momentum e f a)
    (hg : ∀ a b, momentumFlux e g a b = mass f * (cs2 * δ a b + u a * u b)) :
    StressRelaxes e cs2 (-w) f fun i => f i + w * (f i - g i) := by
  intro a b
  rw [viscous_of_conserves hC, flux_relax, viscousStress, ideal_eq cs2 _ hr u _ hu, hg]
  ring

/-! ## The KBC update -/

/-- the value of `gamma` in the KBC update -/
def kbcGamma [LinearOrder K] (tau : K) (f feq k s seq : Fin Q → K) : K :=
  let deltaS : Fin Q → K := fun i => s i - seq i
  let deltaH : Fin Q → K := fun i => f i - k i - s i - (feq i - k i - seq i)
  let sumS := ∑ i, deltaS i * deltaH i / feq i
  let sumH := ∑ i, deltaH i * deltaH i / feq i
  if sumH < 1 / 10 ^ 16 then 2 else 1 / kbcBeta tau - (2 - 1 / kbcBeta tau) * (sumS / sumH)

omit [CharZero K] in
theorem kbcUpdate_flux [LinearOrder K] (e : Fin Q → Fin D → K) (tau : K) (f feq k s seq : Fin Q → K) (a b : Fin D) :
    momentumFlux e (kbcUpdate tau f feq k s seq) a b = momentumFlux e f a b
      - kbcBeta tau * (2 * (momentumFlux e s a b - momentumFlux e seq a b)
        + kbcGamma tau f feq k s seq * (momentumFlux e f a b - momentumFlux e feq a b - (momentumFlux e s a b - momentumFlux e seq a b))) := by
  unfold kbcUpdate
  dsimp only
  change momentumFlux e (fun i => f i - kbcBeta tau * (2 * (s i - seq i) + kbcGamma tau f feq k s seq *
    (f i - k i - s i - (feq i - k i - seq i)))) a b = _
  generalize kbcGamma tau f feq k s seq = g
  unfold momentumFlux
  simp only [← sum_sub_distrib, mul_sum, ← sum_add_distrib]
  exact sum_congr rfl fun i _ => by ring

/-! ## Shear parts -/

theorem kbcShear9_flux (c rho : K) (hr : rho ≠ 0) (f : Fin 9 → K) (a b : Fin 2) :
    momentumFlux (D2Q9.stencil c).dir (kbcShearD2Q9 rho f) a b = momentumFlux (D2Q9.stencil c).dir f a b := by
  rw [momentumFlux9, momentumFlux9]
  congr 1
  fin_cases a <;> fin_cases b <;> simp [flux9, kbcShearD2Q9] <;> field_simp <;> ring

theorem central_flux (c rho ux uy T N Pi : K) (a b : Fin 2) :
    momentumFlux (D2Q9.stencil c).dir (centralShearOf rho ux uy T N Pi) a b =
      c * c * rho * (if a = b then (if a = 0 then 1 / 2 * (T + N) else 1 / 2 * (T - N)) else Pi) := by
  rw [momentumFlux9]
  fin_cases a <;> fin_cases b <;> simp [flux9, centralShearOf] <;> ring

end NATriuM.Legacy
