import Verif.Model.LegacyBGK
import Verif.Spec.Collision
import Verif.Lemmas.Collision
import Verif.Lemmas.StencilTables
import Mathlib.Algebra.BigOperators.Fin
import Mathlib.Tactic.Ring
import Mathlib.Tactic.FieldSimp
import Mathlib.Tactic.FinCases
import Mathlib.Tactic.LinearCombination
import Mathlib.Tactic.Positivity

/-!
# Moments of the hand-unrolled equilibria and source terms
-/

namespace NATriuM.Legacy

open Finset

variable {K : Type*} [Field K]

theorem sum9 (f : Fin 9 → K) : ∑ i, f i = f 0 + f 1 + f 2 + f 3 + f 4 + f 5 + f 6 + f 7 + f 8 := by
  simp only [Fin.sum_univ_castSucc, Fin.sum_univ_zero, zero_add]; rfl

theorem sum15 (f : Fin 15 → K) : ∑ i, f i = f 0 + f 1 + f 2 + f 3 + f 4 + f 5 + f 6 + f 7 + f 8 + f 9 + f 10 + f 11 + f 12 + f 13 + f 14 := by
  simp only [Fin.sum_univ_castSucc, Fin.sum_univ_zero, zero_add]; rfl

theorem sum19 (f : Fin 19 → K) : ∑ i, f i = f 0 + f 1 + f 2 + f 3 + f 4 + f 5 + f 6 + f 7 + f 8 + f 9 + f 10 + f 11 + f 12 + f 13 + f 14 +
    f 15 + f 16 + f 17 + f 18 := by
  simp only [Fin.sum_univ_castSucc, Fin.sum_univ_zero, zero_add]; rfl

/-- the momentum in lattice units, as the code sums it up -/
def lat9 (f : Fin 9 → K) : Fin 2 → K := ![f 1 + f 5 + f 8 - f 3 - f 6 - f 7, f 2 + f 5 + f 6 - f 4 - f 7 - f 8]

/-- the momentum in lattice units, as the code sums it up -/
def lat15 (f : Fin 15 → K) : Fin 3 → K :=
  ![f 1 - f 2 + f 7 - f 8 + f 9 - f 10 + f 11 - f 12 + f 13 - f 14,
    f 3 - f 4 + f 7 - f 8 + f 9 - f 10 - f 11 + f 12 - f 13 + f 14,
    f 5 - f 6 + f 7 - f 8 - f 9 + f 10 + f 11 - f 12 - f 13 + f 14]

/-- the momentum in lattice units, as the code sums it up -/
def lat19 (f : Fin 19 → K) : Fin 3 → K :=
  ![f 1 - f 3 + f 7 - f 8 - f 9 + f 10 + f 11 + f 12 - f 13 - f 14,
    -f 5 + f 6 - f 11 + f 12 + f 13 - f 14 - f 15 + f 16 + f 17 - f 18,
    f 2 - f 4 + f 7 + f 8 - f 9 - f 10 + f 15 + f 16 - f 17 - f 18]

theorem momentum9 (c : K) (f : Fin 9 → K) (a : Fin 2) : Spec.momentum (D2Q9.stencil c).dir f a = c * lat9 f a := by
  unfold Spec.momentum
  rw [sum9]
  fin_cases a
  · show f 0 * 0 + f 1 * c + f 2 * 0 + f 3 * -c + f 4 * 0 + f 5 * c + f 6 * -c + f 7 * -c + f 8 * c =
      c * (f 1 + f 5 + f 8 - f 3 - f 6 - f 7)
    ring
  · show f 0 * 0 + f 1 * 0 + f 2 * c + f 3 * 0 + f 4 * -c + f 5 * c + f 6 * c + f 7 * -c + f 8 * -c =
      c * (f 2 + f 5 + f 6 - f 4 - f 7 - f 8)
    ring

theorem momentum15 (c : K) (f : Fin 15 → K) (a : Fin 3) : Spec.momentum (D3Q15.stencil c).dir f a = c * lat15 f a := by
  unfold Spec.momentum
  rw [sum15]
  fin_cases a
  · show f 0 * 0 + f 1 * c + f 2 * -c + f 3 * 0 + f 4 * 0 + f 5 * 0 + f 6 * 0 + f 7 * c + f 8 * -c + f 9 * c + f 10 * -c + f 11 * c +
      f 12 * -c + f 13 * c + f 14 * -c = c * (f 1 - f 2 + f 7 - f 8 + f 9 - f 10 + f 11 - f 12 + f 13 - f 14)
    ring
  · show f 0 * 0 + f 1 * 0 + f 2 * 0 + f 3 * c + f 4 * -c + f 5 * 0 + f 6 * 0 + f 7 * c + f 8 * -c + f 9 * c + f 10 * -c + f 11 * -c +
      f 12 * c + f 13 * -c + f 14 * c = c * (f 3 - f 4 + f 7 - f 8 + f 9 - f 10 - f 11 + f 12 - f 13 + f 14)
    ring
  · show f 0 * 0 + f 1 * 0 + f 2 * 0 + f 3 * 0 + f 4 * 0 + f 5 * c + f 6 * -c + f 7 * c + f 8 * -c + f 9 * -c + f 10 * c + f 11 * c +
      f 12 * -c + f 13 * -c + f 14 * c = c * (f 5 - f 6 + f 7 - f 8 - f 9 + f 10 + f 11 - f 12 - f 13 + f 14)
    ring

theorem momentum19 (c : K) (f : Fin 19 → K) (a : Fin 3) : Spec.momentum (D3Q19.stencil c).dir f a = c * lat19 f a := by
  unfold Spec.momentum
  rw [sum19]
  fin_cases a
  · show f 0 * 0 + f 1 * c + f 2 * 0 + f 3 * -c + f 4 * 0 + f 5 * 0 + f 6 * 0 + f 7 * c + f 8 * -c + f 9 * -c + f 10 * c + f 11 * c +
      f 12 * c + f 13 * -c + f 14 * -c + f 15 * 0 + f 16 * 0 + f 17 * 0 + f 18 * 0 =
      c * (f 1 - f 3 + f 7 - f 8 - f 9 + f 10 + f 11 + f 12 - f 13 - f 14)
    ring
  · show f 0 * 0 + f 1 * 0 + f 2 * 0 + f 3 * 0 + f 4 * 0 + f 5 * -c + f 6 * c + f 7 * 0 + f 8 * 0 + f 9 * 0 + f 10 * 0 + f 11 * -c +
      f 12 * c + f 13 * c + f 14 * -c + f 15 * -c + f 16 * c + f 17 * c + f 18 * -c =
      c * (-f 5 + f 6 - f 11 + f 12 + f 13 - f 14 - f 15 + f 16 + f 17 - f 18)
    ring
  · show f 0 * 0 + f 1 * 0 + f 2 * c + f 3 * 0 + f 4 * -c + f 5 * 0 + f 6 * 0 + f 7 * c + f 8 * c + f 9 * -c + f 10 * -c + f 11 * 0 +
      f 12 * 0 + f 13 * 0 + f 14 * 0 + f 15 * c + f 16 * c + f 17 * -c + f 18 * -c =
      c * (f 2 - f 4 + f 7 + f 8 - f 9 - f 10 + f 15 + f 16 - f 17 - f 18)
    ring

/-! ## Linearity -/

variable {D Q : ℕ}

theorem mass_relax (f g s : Fin Q → K) (w : K) :
    Spec.mass (fun i => f i + w * (f i - g i) + s i) = Spec.mass f + w * (Spec.mass f - Spec.mass g) + Spec.mass s := by
  unfold Spec.mass
  rw [sum_add_distrib, sum_add_distrib, ← mul_sum, sum_sub_distrib]

theorem momentum_relax (e : Fin Q → Fin D → K) (f g s : Fin Q → K) (w : K) (a : Fin D) :
    Spec.momentum e (fun i => f i + w * (f i - g i) + s i) a =
      Spec.momentum e f a + w * (Spec.momentum e f a - Spec.momentum e g a) + Spec.momentum e s a := by
  unfold Spec.momentum
  rw [← sum_sub_distrib, mul_sum, ← sum_add_distrib, ← sum_add_distrib]
  exact sum_congr rfl fun i _ => by ring

theorem mass_relax0 (f g : Fin Q → K) (w : K) :
    Spec.mass (fun i => f i + w * (f i - g i)) = Spec.mass f + w * (Spec.mass f - Spec.mass g) := by
  have := mass_relax f g (fun _ => 0) w
  simpa [Spec.mass] using this

theorem momentum_relax0 (e : Fin Q → Fin D → K) (f g : Fin Q → K) (w : K) (a : Fin D) :
    Spec.momentum e (fun i => f i + w * (f i - g i)) a =
      Spec.momentum e f a + w * (Spec.momentum e f a - Spec.momentum e g a) := by
  have := momentum_relax e f g (fun _ => 0) w a
  simpa [Spec.momentum] using this

/-! ## Velocities -/

theorem velocity9 (c rho : K) (hr : rho ≠ 0) (f : Fin 9 → K) (a : Fin 2) :
    rho * velocityD2Q9 c rho f a = Spec.momentum (D2Q9.stencil c).dir f a := by
  rw [momentum9]
  fin_cases a <;> simp [velocityD2Q9, lat9] <;> field_simp

theorem velocity15 (c rho : K) (hr : rho ≠ 0) (f : Fin 15 → K) (a : Fin 3) :
    rho * velocityD3Q15 c rho f a = Spec.momentum (D3Q15.stencil c).dir f a := by
  rw [momentum15]
  fin_cases a <;> simp [velocityD3Q15, lat15] <;> field_simp

theorem velocity19 (c rho : K) (hr : rho ≠ 0) (f : Fin 19 → K) (a : Fin 3) :
    rho * velocityD3Q19 c rho f a = Spec.momentum (D3Q19.stencil c).dir f a := by
  rw [momentum19]
  fin_cases a <;> simp [velocityD3Q19, lat19] <;> field_simp

/-! ## Equilibria -/

variable [CharZero K]

theorem terms9_mass (g w p s : K) (u : Fin 2 → K) :
    Spec.mass (termsD2Q9 g (4 / 9 * w) (1 / 9 * w) (1 / 36 * w) p s u) = w * (1 + s + g * p * p * (u 0 * u 0 + u 1 * u 1) / 3) := by
  unfold Spec.mass
  rw [sum9]
  simp only [termsD2Q9, plus, minus]
  show 4 / 9 * w * (1 + s) + _ + _ + _ + _ + _ + _ + _ + _ = _
  simp
  field_simp
  ring

theorem terms9_momentum (c g w p s : K) (u : Fin 2 → K) (a : Fin 2) :
    Spec.momentum (D2Q9.stencil c).dir (termsD2Q9 g (4 / 9 * w) (1 / 9 * w) (1 / 36 * w) p s u) a = c * p * (w * u a) / 3 := by
  rw [momentum9]
  fin_cases a <;> simp [lat9, termsD2Q9, plus, minus] <;> field_simp <;> ring

theorem feq9_mass (c rho : K) (hc : c ≠ 0) (u : Fin 2 → K) : Spec.mass (feqD2Q9 (D2Q9.stencil c) rho u) = rho := by
  unfold feqD2Q9
  rw [terms9_mass]
  simp only [D2Q9.stencil]
  field_simp
  ring

theorem feq9_momentum (c rho : K) (hc : c ≠ 0) (u : Fin 2 → K) (a : Fin 2) :
    Spec.momentum (D2Q9.stencil c).dir (feqD2Q9 (D2Q9.stencil c) rho u) a = rho * u a := by
  unfold feqD2Q9
  rw [terms9_momentum]
  simp only [D2Q9.stencil]
  field_simp

theorem feq19_mass (c rho : K) (hc : c ≠ 0) (u : Fin 3 → K) : Spec.mass (feqD3Q19 (D3Q19.stencil c) rho u) = rho := by
  unfold Spec.mass
  rw [sum19]
  simp [feqD3Q19, plus, minus, D3Q19.stencil]
  field_simp
  ring

theorem feq19_momentum (c rho : K) (hc : c ≠ 0) (u : Fin 3 → K) (a : Fin 3) :
    Spec.momentum (D3Q19.stencil c).dir (feqD3Q19 (D3Q19.stencil c) rho u) a = rho * u a := by
  rw [momentum19]
  fin_cases a <;> simp [feqD3Q19, lat19, plus, minus, D3Q19.stencil] <;> field_simp <;> ring

theorem terms15_mass (p s rho : K) (u : Fin 3 → K) :
    Spec.mass (termsD3Q15 p s rho u) = rho * (1 + s + p * p * (u 0 * u 0 + u 1 * u 1 + u 2 * u 2) / 6) := by
  unfold Spec.mass
  rw [sum15]
  simp [termsD3Q15, plus, minus]
  field_simp
  ring

theorem terms15_momentum (c p s rho : K) (u : Fin 3 → K) (a : Fin 3) :
    Spec.momentum (D3Q15.stencil c).dir (termsD3Q15 p s rho u) a = c * p * (rho * u a) / 3 := by
  rw [momentum15]
  fin_cases a <;> simp [termsD3Q15, lat15, plus, minus] <;> field_simp <;> ring

theorem feq15_mass (c rho : K) (hc : c ≠ 0) (u : Fin 3 → K) : Spec.mass (feqD3Q15 (D3Q15.stencil c) rho u) = rho := by
  unfold feqD3Q15
  rw [terms15_mass]
  simp only [D3Q15.stencil]
  field_simp
  ring

theorem feq15_momentum (c rho : K) (hc : c ≠ 0) (u : Fin 3 → K) (a : Fin 3) :
    Spec.momentum (D3Q15.stencil c).dir (feqD3Q15 (D3Q15.stencil c) rho u) a = rho * u a := by
  unfold feqD3Q15
  rw [terms15_momentum]
  simp only [D3Q15.stencil]
  field_simp

/-! ## Source terms -/

theorem exact_mass (c rho dt : K) (hc : c ≠ 0) (hr : rho ≠ 0) (F u : Fin 2 → K) :
    Spec.mass (exactDifferenceSourceD2Q9 F u rho dt ((D2Q9.stencil c).scaling / (D2Q9.stencil c).cs2)) =
      (1 / c - 1) * (3 / (2 * c)) * rho *
        ∑ a, ((u a + F a * dt / rho) * (u a + F a * dt / rho) - u a * u a) := by
  unfold exactDifferenceSourceD2Q9
  have : ∀ f g : Fin 9 → K, Spec.mass (fun i => f i - g i) = Spec.mass f - Spec.mass g := fun f g => by
    unfold Spec.mass; rw [sum_sub_distrib]
  rw [this, terms9_mass, terms9_mass]
  simp only [D2Q9.stencil, Fin.sum_univ_two]
  field_simp
  ring

theorem exact_momentum (c rho dt : K) (hc : c ≠ 0) (hr : rho ≠ 0) (F u : Fin 2 → K) (a : Fin 2) :
    Spec.momentum (D2Q9.stencil c).dir (exactDifferenceSourceD2Q9 F u rho dt ((D2Q9.stencil c).scaling / (D2Q9.stencil c).cs2)) a =
      dt * F a := by
  unfold exactDifferenceSourceD2Q9
  have : ∀ f g : Fin 9 → K, Spec.momentum (D2Q9.stencil c).dir (fun i => f i - g i) a =
      Spec.momentum (D2Q9.stencil c).dir f a - Spec.momentum (D2Q9.stencil c).dir g a := fun f g => by
    unfold Spec.momentum; rw [← sum_sub_distrib]; exact sum_congr rfl fun i _ => by ring
  rw [this, terms9_momentum, terms9_momentum]
  simp only [D2Q9.stencil]
  field_simp
  ring

theorem guo_mass (c omega dt : K) (hc : c ≠ 0) (F u : Fin 2 → K) :
    Spec.mass (guoSourceD2Q9 F u omega ((D2Q9.stencil c).scaling / (D2Q9.stencil c).cs2) dt) =
      (1 / c - 1) * (3 / c) * (dt * (1 - omega / 2)) * ∑ a, u a * F a := by
  unfold Spec.mass
  rw [sum9]
  simp [guoSourceD2Q9, guoTerm, D2Q9.stencil, Fin.sum_univ_two]
  field_simp
  ring

theorem guo_momentum (c omega dt : K) (hc : c ≠ 0) (F u : Fin 2 → K) (a : Fin 2) :
    Spec.momentum (D2Q9.stencil c).dir (guoSourceD2Q9 F u omega ((D2Q9.stencil c).scaling / (D2Q9.stencil c).cs2) dt) a =
      dt * (1 - omega / 2) * F a := by
  rw [momentum9]
  fin_cases a <;> simp [lat9, guoSourceD2Q9, guoTerm, D2Q9.stencil] <;> field_simp <;> ring

/-! ## The generic equilibrium -/

/-- the data of the newer collision code that belongs to a stencil object -/
def dataOf (S : Stencil K D Q) : CollData K D Q where
  e := S.dir
  weight := S.weight
  cs2 := S.cs2
  scaling := 1
  tau := 1
  dt := 1
  gammaSteadyState := 1
  forceType := .noForcing
  forces := fun _ => 0

omit [CharZero K] in
theorem equilibrium_eq (S : Stencil K D Q) (h0 : ∀ i, i.val = 0 → ∀ a, S.dir i a = 0) (u : Fin D → K) (rho : K) :
    equilibrium S u rho = bgkEquilibrium (dataOf S) { rho := rho, u := u, T := 1 } := by
  funext i
  unfold equilibrium bgkEquilibrium dataOf
  simp only [← Finset.sum_div, ← Finset.sum_neg_distrib]
  split
  · next h => simp [h0 i h]
  · rfl

theorem equilibrium_mass (S : Stencil K D Q) (h : Spec.Iso4 S.weight S.dir S.cs2) (hc : S.cs2 ≠ 0)
    (h0 : ∀ i, i.val = 0 → ∀ a, S.dir i a = 0) (u : Fin D → K) (rho : K) : Spec.mass (equilibrium S u rho) = rho := by
  rw [equilibrium_eq S h0]; exact (bgk_conservative (d := dataOf S) h hc).mass _

theorem equilibrium_momentum (S : Stencil K D Q) (h : Spec.Iso4 S.weight S.dir S.cs2) (hc : S.cs2 ≠ 0)
    (h0 : ∀ i, i.val = 0 → ∀ a, S.dir i a = 0) (u : Fin D → K) (rho : K) (a : Fin D) :
    Spec.momentum S.dir (equilibrium S u rho) a = rho * u a := by
  rw [equilibrium_eq S h0]; exact (bgk_conservative (d := dataOf S) h hc).momentum _ a

omit [CharZero K] in
/-- the steady state equilibrium is a mean of the standard one and one that is linear in the velocity -/
theorem equilibriumSteady_eq (gamma : K) (S : Stencil K D Q) (u : Fin D → K) (rho : K)
    (h0 : ∀ i, i.val = 0 → ∀ a, S.dir i a = 0) (i : Fin Q) :
    equilibriumSteady gamma S u rho i = 1 / gamma * equilibrium S u rho i +
      (1 - 1 / gamma) * (S.weight i * rho + (∑ a, u a * (S.weight i * S.dir i a)) * (rho / S.cs2)) := by
  have : ∑ a, u a * (S.weight i * S.dir i a) = S.weight i * ∑ a, u a * S.dir i a := by
    rw [mul_sum]; exact sum_congr rfl fun a _ => by ring
  rw [this]
  unfold equilibriumSteady equilibrium
  split
  · next h => simp [h0 i h]; ring
  · simp only [div_eq_mul_inv]; ring

theorem equilibriumSteady_mass (gamma : K) (S : Stencil K D Q) (h : Spec.Iso4 S.weight S.dir S.cs2) (hc : S.cs2 ≠ 0)
    (h0 : ∀ i, i.val = 0 → ∀ a, S.dir i a = 0) (u : Fin D → K) (rho : K) : Spec.mass (equilibriumSteady gamma S u rho) = rho := by
  have h1 := equilibrium_mass S h hc h0 u rho
  unfold Spec.mass at h1 ⊢
  simp only [equilibriumSteady_eq gamma S u rho h0]
  rw [sum_add_distrib, ← mul_sum, ← mul_sum, sum_add_distrib, ← sum_mul, ← sum_mul, sum_comm, h1, h.m0]
  simp only [← mul_sum, h.m1]
  simp; ring

theorem equilibriumSteady_momentum (gamma : K) (S : Stencil K D Q) (h : Spec.Iso4 S.weight S.dir S.cs2) (hc : S.cs2 ≠ 0)
    (h0 : ∀ i, i.val = 0 → ∀ a, S.dir i a = 0) (u : Fin D → K) (rho : K) (a : Fin D) :
    Spec.momentum S.dir (equilibriumSteady gamma S u rho) a = rho * u a := by
  have h1 := equilibrium_momentum S h hc h0 u rho a
  unfold Spec.momentum at h1 ⊢
  simp only [equilibriumSteady_eq gamma S u rho h0]
  have e : ∀ i, (1 / gamma * equilibrium S u rho i +
      (1 - 1 / gamma) * (S.weight i * rho + (∑ b, u b * (S.weight i * S.dir i b)) * (rho / S.cs2))) * S.dir i a =
      1 / gamma * (equilibrium S u rho i * S.dir i a) + (1 - 1 / gamma) * rho * (S.weight i * S.dir i a) +
      (1 - 1 / gamma) * (rho / S.cs2) * ∑ b, u b * (S.weight i * (S.dir i b * S.dir i a)) := by
    intro i
    have : ∑ b, u b * (S.weight i * (S.dir i b * S.dir i a)) = (∑ b, u b * (S.weight i * S.dir i b)) * S.dir i a := by
      rw [sum_mul]; exact sum_congr rfl fun b _ => by ring
    rw [this]; ring
  simp only [e]
  rw [sum_add_distrib, sum_add_distrib, ← mul_sum, ← mul_sum, ← mul_sum, h1, h.m1, sum_comm]
  simp only [← mul_sum, h.m2, Spec.δ]
  simp; field_simp; ring

/-! ## The regularised part -/

omit [CharZero K] in
theorem regFi1_moment (S : Stencil K D Q) (P : Fin D → Fin D → K) (g : Fin Q → K) :
    ∑ i, regFi1 S P i * g i = ∑ b, ∑ c, P b c / (2 * S.cs2 * S.cs2) *
      (∑ i, S.weight i * (S.dir i b * S.dir i c * g i) - S.cs2 * Spec.δ b c * ∑ i, S.weight i * g i) := by
  unfold regFi1
  simp only [sum_mul]
  rw [sum_comm]
  refine sum_congr rfl fun b _ => ?_
  rw [sum_comm]
  refine sum_congr rfl fun c _ => ?_
  rw [mul_sum, ← sum_sub_distrib, mul_sum]
  refine sum_congr rfl fun i _ => ?_
  unfold regQ Spec.δ
  split <;> ring

omit [CharZero K] in
theorem regFi1_mass (S : Stencil K D Q) (h : Spec.Iso4 S.weight S.dir S.cs2) (P : Fin D → Fin D → K) :
    Spec.mass (regFi1 S P) = 0 := by
  have := regFi1_moment S P fun _ => 1
  simp only [mul_one, h.m2, h.m0, sub_self, mul_zero, sum_const_zero] at this
  exact this

omit [CharZero K] in
theorem regFi1_momentum (S : Stencil K D Q) (h : Spec.Iso4 S.weight S.dir S.cs2) (P : Fin D → Fin D → K) (a : Fin D) :
    Spec.momentum S.dir (regFi1 S P) a = 0 := by
  rw [Spec.momentum, regFi1_moment]
  simp only [h.m3, h.m1, sub_self, mul_zero, sum_const_zero]

end NATriuM.Legacy
