import Verif.Lemmas.Stencil
import Verif.Spec.Collision
import Verif.Model.Collision
import Mathlib.Algebra.BigOperators.Field

/-! # Helper lemmas: moments of polynomial equilibria -/

namespace NATriuM

open Finset NATriuM.Spec

variable {K : Type*} [Field K] {D Q : ℕ}

theorem eye_eq (a b : Fin D) : (eye a b : K) = δ a b := rfl

theorem δ_comm (a b : Fin D) : (δ a b : K) = δ b a := by unfold δ; simp only [eq_comm]

@[simp] theorem δ_self (a : Fin D) : (δ a a : K) = 1 := by simp [δ]

theorem sum_δ (x : Fin D → K) (b : Fin D) : ∑ a, x a * δ a b = x b := by simp [δ]

theorem sum_δ' (x : Fin D → K) (b : Fin D) : ∑ a, x a * δ b a = x b := by simp [δ]

/-- the scalar product with a velocity, divided by `cs2`, as the code computes it -/
def ue (u : Fin D → K) (e : Fin Q → Fin D → K) (cs2 : K) (i : Fin Q) : K := ∑ j, u j * e i j / cs2

theorem sum_ue (w : Fin Q → K) (e : Fin Q → Fin D → K) (cs2 : K) (u : Fin D → K) (g : Fin Q → K) :
    ∑ i, w i * (ue u e cs2 i * g i) = ∑ a, u a / cs2 * ∑ i, w i * (e i a * g i) := by
  simp only [ue, Finset.mul_sum, Finset.sum_mul]
  rw [Finset.sum_comm]
  exact Finset.sum_congr rfl fun a _ => Finset.sum_congr rfl fun i _ => by ring

theorem sum_ue2 (w : Fin Q → K) (e : Fin Q → Fin D → K) (cs2 : K) (u : Fin D → K) (g : Fin Q → K) :
    ∑ i, w i * (ue u e cs2 i * ue u e cs2 i * g i)
      = ∑ a, u a / cs2 * ∑ b, u b / cs2 * ∑ i, w i * (e i a * e i b * g i) := by
  simp only [mul_assoc]
  rw [sum_ue w e cs2 u fun i => ue u e cs2 i * g i]
  refine Finset.sum_congr rfl fun a _ => ?_
  congr 1
  have := sum_ue (fun i => w i * e i a) e cs2 u g
  simp only [mul_assoc] at this
  rw [this]

section moments

variable {w : Fin Q → K} {e : Fin Q → Fin D → K} {cs2 : K}

theorem E_ue_1 (h : Iso2 w e cs2) (u : Fin D → K) : ∑ i, w i * ue u e cs2 i = 0 := by
  have := sum_ue w e cs2 u fun _ => 1
  simp only [mul_one, h.m1, mul_zero, Finset.sum_const_zero] at this
  exact this

theorem E_ue2_1 (h : Iso2 w e cs2) (hc : cs2 ≠ 0) (u : Fin D → K) :
    ∑ i, w i * (ue u e cs2 i * ue u e cs2 i) = (∑ a, u a * u a) / cs2 := by
  have := sum_ue2 w e cs2 u fun _ => 1
  simp only [mul_one, h.m2] at this
  rw [this, Finset.sum_div]
  refine Finset.sum_congr rfl fun a _ => ?_
  have h2 : ∑ b, u b / cs2 * (cs2 * δ a b) = u a := by
    rw [← sum_δ' u a]
    exact Finset.sum_congr rfl fun b _ => by field_simp
  rw [h2]; field_simp

theorem E_ue_e (h : Iso2 w e cs2) (hc : cs2 ≠ 0) (u : Fin D → K) (c : Fin D) :
    ∑ i, w i * (ue u e cs2 i * e i c) = u c := by
  rw [sum_ue w e cs2 u fun i => e i c]
  simp only [h.m2]
  rw [← sum_δ u c]
  exact Finset.sum_congr rfl fun b _ => by field_simp

theorem E_ue2_e (h : Iso4 w e cs2) (u : Fin D → K) (c : Fin D) :
    ∑ i, w i * (ue u e cs2 i * ue u e cs2 i * e i c) = 0 := by
  rw [sum_ue2 w e cs2 u fun i => e i c]
  simp only [h.m3, mul_zero, Finset.sum_const_zero]

theorem E_ue_ee (h : Iso4 w e cs2) (u : Fin D → K) (c d : Fin D) :
    ∑ i, w i * (ue u e cs2 i * (e i c * e i d)) = 0 := by
  rw [sum_ue w e cs2 u fun i => e i c * e i d]
  simp only [← mul_assoc]
  have : ∀ a, ∑ i, w i * e i a * e i c * e i d = 0 := fun a => by
    rw [← h.m3 a c d]; exact Finset.sum_congr rfl fun i _ => by ring
  simp only [this, mul_zero, Finset.sum_const_zero]

theorem E_ue2_ee (h : Iso4 w e cs2) (hc : cs2 ≠ 0) (u : Fin D → K) (c d : Fin D) :
    ∑ i, w i * (ue u e cs2 i * ue u e cs2 i * (e i c * e i d)) = (∑ a, u a * u a) * δ c d + 2 * (u c * u d) := by
  rw [sum_ue2 w e cs2 u fun i => e i c * e i d]
  have : ∀ a b, ∑ i, w i * (e i a * e i b * (e i c * e i d))
      = cs2 ^ 2 * (δ a b * δ c d + δ a c * δ b d + δ a d * δ b c) := fun a b => by
    rw [← h.m4 a b c d]; exact Finset.sum_congr rfl fun i _ => by ring
  simp only [this]
  have h2 : ∀ a, u a / cs2 * ∑ b, u b / cs2 * (cs2 ^ 2 * (δ a b * δ c d + δ a c * δ b d + δ a d * δ b c))
      = u a * u a * δ c d + u a * δ a c * u d + u a * δ a d * u c := fun a => by
    have h3 : ∑ b, u b / cs2 * (cs2 ^ 2 * (δ a b * δ c d + δ a c * δ b d + δ a d * δ b c))
        = cs2 * (∑ b, u b * δ a b) * δ c d + cs2 * δ a c * (∑ b, u b * δ b d) + cs2 * δ a d * ∑ b, u b * δ b c := by
      simp only [Finset.mul_sum, Finset.sum_mul]
      rw [← Finset.sum_add_distrib, ← Finset.sum_add_distrib]
      exact Finset.sum_congr rfl fun b _ => by field_simp
    rw [h3, sum_δ', sum_δ, sum_δ]; field_simp
  simp only [h2]
  rw [Finset.sum_add_distrib, Finset.sum_add_distrib, ← Finset.sum_mul, ← Finset.sum_mul, ← Finset.sum_mul, sum_δ, sum_δ]
  ring

/-- A second-order polynomial equilibrium with free coefficients. -/
def poly2 (w : Fin Q → K) (e : Fin Q → Fin D → K) (cs2 : K) (u : Fin D → K) (α β κ : K) (i : Fin Q) : K :=
  w i * (α + β * ue u e cs2 i + κ * (ue u e cs2 i * ue u e cs2 i))

theorem poly2_moment (u : Fin D → K) (α β κ : K) (g : Fin Q → K) :
    ∑ i, poly2 w e cs2 u α β κ i * g i
      = α * (∑ i, w i * g i) + β * (∑ i, w i * (ue u e cs2 i * g i))
        + κ * ∑ i, w i * (ue u e cs2 i * ue u e cs2 i * g i) := by
  simp only [Finset.mul_sum]
  rw [← Finset.sum_add_distrib, ← Finset.sum_add_distrib]
  exact Finset.sum_congr rfl fun i _ => by unfold poly2; ring

theorem poly2_mass (h : Iso2 w e cs2) (hc : cs2 ≠ 0) (u : Fin D → K) (α β κ : K) :
    mass (poly2 w e cs2 u α β κ) = α + κ * ((∑ a, u a * u a) / cs2) := by
  have := poly2_moment (w := w) (e := e) (cs2 := cs2) u α β κ fun _ => 1
  simp only [mul_one, h.m0, E_ue_1 h, E_ue2_1 h hc] at this
  rw [mass, this]; ring

theorem poly2_momentum (h : Iso4 w e cs2) (hc : cs2 ≠ 0) (u : Fin D → K) (α β κ : K) (a : Fin D) :
    momentum e (poly2 w e cs2 u α β κ) a = β * u a := by
  rw [momentum, poly2_moment u α β κ fun i => e i a, h.m1, E_ue_e h.toIso2 hc, E_ue2_e h]; ring

theorem poly2_flux (h : Iso4 w e cs2) (hc : cs2 ≠ 0) (u : Fin D → K) (α β κ : K) (a b : Fin D) :
    momentumFlux e (poly2 w e cs2 u α β κ) a b
      = (α * cs2 + κ * (∑ a, u a * u a)) * δ a b + 2 * κ * (u a * u b) := by
  rw [momentumFlux, poly2_moment u α β κ fun i => e i a * e i b, h.m2, E_ue_ee h, E_ue2_ee h hc]; ring

end moments

/-! ## The equilibria of the code as second-order polynomials -/

theorem sum_uu (u : Fin D → K) (cs2 : K) : ∑ j, -(u j * u j) / (2 * cs2) = -(∑ j, u j * u j) / (2 * cs2) := by
  rw [← Finset.sum_div, Finset.sum_neg_distrib]

theorem bgkEquilibrium_eq (d : CollData K D Q) (m : Macro K D) :
    bgkEquilibrium d m = poly2 d.weight d.e d.cs2 m.u (m.rho * (1 - (∑ j, m.u j * m.u j) / (2 * d.cs2))) m.rho
      (m.rho * (1 / 2)) := by
  funext i
  simp only [bgkEquilibrium, poly2, sum_uu]
  rw [show ∑ j, m.u j * d.e i j / d.cs2 = ue m.u d.e d.cs2 i from rfl]
  ring

theorem steadyStateEquilibrium_eq (d : CollData K D Q) (m : Macro K D) :
    steadyStateEquilibrium d m = poly2 d.weight d.e d.cs2 m.u
      (m.rho * (1 - (∑ j, m.u j * m.u j) / (2 * d.cs2) / d.gammaSteadyState)) m.rho
      (m.rho * (1 / 2) / d.gammaSteadyState) := by
  funext i
  simp only [steadyStateEquilibrium, poly2, sum_uu]
  rw [show ∑ j, m.u j * d.e i j / d.cs2 = ue m.u d.e d.cs2 i from rfl]
  ring

theorem incompressibleEquilibrium_eq (d : CollData K D Q) (m : Macro K D) :
    incompressibleEquilibrium d m = poly2 d.weight d.e d.cs2 m.u (m.rho - (∑ j, m.u j * m.u j) / (2 * d.cs2)) 1
      (1 / 2) := by
  funext i
  simp only [incompressibleEquilibrium, poly2, sum_uu]
  rw [show ∑ j, m.u j * d.e i j / d.cs2 = ue m.u d.e d.cs2 i from rfl]
  ring

end NATriuM
