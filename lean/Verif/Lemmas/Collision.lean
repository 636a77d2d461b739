import Verif.Lemmas.Quartic
import Verif.Model.CollisionSelection

/-! # Helper lemmas about the collision of one node and about the sweep -/

namespace NATriuM

open Finset NATriuM.Spec

section units

variable {K : Type*} [Field K] {D Q : ℕ} {w : Fin Q → K} {v : Fin Q → Fin D → K} {cs2 s : K}

theorem Iso2.unit (h : Iso2 w v cs2) (hs : s ≠ 0) : Iso2 w (fun i a => v i a / s) (cs2 / (s * s)) where
  m0 := h.m0
  m1 a := by
    have : ∑ i, w i * (v i a / s) = (∑ i, w i * v i a) / s := by
      rw [Finset.sum_div]; exact Finset.sum_congr rfl fun i _ => by ring
    rw [this, h.m1]; simp
  m2 a b := by
    have : ∑ i, w i * (v i a / s * (v i b / s)) = (∑ i, w i * (v i a * v i b)) / (s * s) := by
      rw [Finset.sum_div]; exact Finset.sum_congr rfl fun i _ => by field_simp
    rw [this, h.m2]; field_simp

theorem Iso4.unit (h : Iso4 w v cs2) (hs : s ≠ 0) : Iso4 w (fun i a => v i a / s) (cs2 / (s * s)) where
  toIso2 := Iso2.unit h.toIso2 hs
  m3 a b c := by
    have : ∑ i, w i * (v i a / s * (v i b / s) * (v i c / s)) = (∑ i, w i * (v i a * v i b * v i c)) / s ^ 3 := by
      rw [Finset.sum_div]; exact Finset.sum_congr rfl fun i _ => by field_simp
    rw [this, h.m3]; simp
  m4 a b c d := by
    have : ∑ i, w i * (v i a / s * (v i b / s) * (v i c / s) * (v i d / s))
        = (∑ i, w i * (v i a * v i b * v i c * v i d)) / s ^ 4 := by
      rw [Finset.sum_div]; exact Finset.sum_congr rfl fun i _ => by field_simp
    rw [this, h.m4]; field_simp

theorem Iso5.unit (h : Iso5 w v cs2) (hs : s ≠ 0) : Iso5 w (fun i a => v i a / s) (cs2 / (s * s)) where
  toIso4 := Iso4.unit h.toIso4 hs
  m5 a b c d f := by
    have : ∑ i, w i * (v i a / s * (v i b / s) * (v i c / s) * (v i d / s) * (v i f / s))
        = (∑ i, w i * (v i a * v i b * v i c * v i d * v i f)) / s ^ 5 := by
      rw [Finset.sum_div]; exact Finset.sum_congr rfl fun i _ => by field_simp
    rw [this, h.m5]; simp

theorem Iso6.unit (h : Iso6 w v cs2) (hs : s ≠ 0) : Iso6 w (fun i a => v i a / s) (cs2 / (s * s)) where
  toIso5 := Iso5.unit h.toIso5 hs
  m6 a b c d f g := by
    have : ∑ i, w i * (v i a / s * (v i b / s) * (v i c / s) * (v i d / s) * (v i f / s) * (v i g / s))
        = (∑ i, w i * (v i a * v i b * v i c * v i d * v i f * v i g)) / s ^ 6 := by
      rw [Finset.sum_div]; exact Finset.sum_congr rfl fun i _ => by field_simp
    rw [this, h.m6]; field_simp

end units

section node

variable {K : Type*} [Field K] {D Q : ℕ}

/-- An equilibrium that carries the density and momentum it is given. -/
structure Conservative (eq : Equilibrium K D Q) (d : CollData K D Q) : Prop where
  mass : ∀ m, mass (eq d m) = m.rho
  momentum : ∀ m a, momentum d.e (eq d m) a = m.rho * m.u a

theorem bgk_conservative [CharZero K] {d : CollData K D Q} (h : Iso4 d.weight d.e d.cs2) (hc : d.cs2 ≠ 0) :
    Conservative bgkEquilibrium d where
  mass m := by rw [bgkEquilibrium_eq, poly2_mass h.toIso2 hc]; field_simp; ring
  momentum m a := by rw [bgkEquilibrium_eq, poly2_momentum h hc]

theorem quartic2_mass_momentum [CharZero K] {d : CollData K 2 Q} (h : Iso5 d.weight d.e d.cs2) (hc : d.cs2 ≠ 0) :
    Conservative quarticEquilibrium2 d where
  mass m := by
    have h1 := quartic2_moment d m (fun _ => 1) (E_H3_1 h.toIso4) (E_H4_1 h.toIso4)
    rw [quarticBase_moment, temp_mass h.toIso2] at h1
    simp only [mul_one, mul_zero, add_zero] at h1
    exact h1.trans ((bgk_conservative h.toIso4 hc).mass m)
  momentum m a := by
    have h1 := quartic2_moment d m (fun i => d.e i a) (E_H3_e h.toIso4 a) (E_H4_e h a)
    rw [quarticBase_moment, temp_momentum h.toIso4] at h1
    simp only [mul_zero, add_zero] at h1
    exact h1.trans ((bgk_conservative h.toIso4 hc).momentum m a)

theorem quartic3_mass_momentum [CharZero K] {d : CollData K 3 Q} (h : Iso5 d.weight d.e d.cs2) (hc : d.cs2 ≠ 0) :
    Conservative quarticEquilibrium3 d where
  mass m := by
    have h1 := quartic3_moment d m (fun _ => 1) (E_H3_1 h.toIso4) (E_H4_1 h.toIso4)
    rw [quarticBase_moment, temp_mass h.toIso2] at h1
    simp only [mul_one, mul_zero, add_zero] at h1
    exact h1.trans ((bgk_conservative h.toIso4 hc).mass m)
  momentum m a := by
    have h1 := quartic3_moment d m (fun i => d.e i a) (E_H3_e h.toIso4 a) (E_H4_e h a)
    rw [quarticBase_moment, temp_momentum h.toIso4] at h1
    simp only [mul_zero, add_zero] at h1
    exact h1.trans ((bgk_conservative h.toIso4 hc).momentum m a)

theorem bgk_flux [CharZero K] {d : CollData K D Q} (h : Iso4 d.weight d.e d.cs2) (hc : d.cs2 ≠ 0) (m : Macro K D) (a b : Fin D) :
    momentumFlux d.e (bgkEquilibrium d m) a b = m.rho * (d.cs2 * δ a b + m.u a * m.u b) := by
  rw [bgkEquilibrium_eq, poly2_flux h hc]; field_simp; ring

theorem quartic2_flux [CharZero K] {d : CollData K 2 Q} (h : Iso6 d.weight d.e d.cs2) (hc : d.cs2 ≠ 0) (m : Macro K 2)
    (a b : Fin 2) :
    momentumFlux d.e (quarticEquilibrium2 d m) a b = m.rho * (d.cs2 * m.T * δ a b + m.u a * m.u b) := by
  have h1 := quartic2_moment d m (fun i => d.e i a * d.e i b) (E_H3_ee h.toIso5 a b) (E_H4_ee h a b)
  rw [quarticBase_moment, temp_flux h.toIso4] at h1
  have h2 := bgk_flux h.toIso4 hc m a b
  rw [momentumFlux] at h2 ⊢
  rw [h1, h2]; field_simp; ring

theorem quartic3_flux [CharZero K] {d : CollData K 3 Q} (h : Iso6 d.weight d.e d.cs2) (hc : d.cs2 ≠ 0) (m : Macro K 3)
    (a b : Fin 3) :
    momentumFlux d.e (quarticEquilibrium3 d m) a b = m.rho * (d.cs2 * m.T * δ a b + m.u a * m.u b) := by
  have h1 := quartic3_moment d m (fun i => d.e i a * d.e i b) (E_H3_ee h.toIso5 a b) (E_H4_ee h a b)
  rw [quarticBase_moment, temp_flux h.toIso4] at h1
  have h2 := bgk_flux h.toIso4 hc m a b
  rw [momentumFlux] at h2 ⊢
  rw [h1, h2]; field_simp; ring

/-! ## Linearity of the moments -/

theorem mass_lin (f g : Fin Q → K) (s : K) : mass (fun i => f i + s * g i) = mass f + s * mass g := by
  simp only [mass, Finset.sum_add_distrib, Finset.mul_sum]

theorem momentum_lin (e : Fin Q → Fin D → K) (f g : Fin Q → K) (s : K) (a : Fin D) :
    momentum e (fun i => f i + s * g i) a = momentum e f a + s * momentum e g a := by
  simp only [momentum, Finset.mul_sum, ← Finset.sum_add_distrib]
  exact Finset.sum_congr rfl fun i _ => by ring

theorem flux_lin (e : Fin Q → Fin D → K) (f g : Fin Q → K) (s : K) (a b : Fin D) :
    momentumFlux e (fun i => f i + s * g i) a b = momentumFlux e f a b + s * momentumFlux e g a b := by
  simp only [momentumFlux, Finset.mul_sum, ← Finset.sum_add_distrib]
  exact Finset.sum_congr rfl fun i _ => by ring

theorem bgkRelax_eq (d : CollData K D Q) (feq f : Fin Q → K) :
    bgkRelax d feq f = fun i => (fun i => f i + -(1 / d.tau) * f i) i + 1 / d.tau * feq i := by
  funext i; unfold bgkRelax; ring

theorem bgkRelax_mass (d : CollData K D Q) (feq f : Fin Q → K) :
    mass (bgkRelax d feq f) = mass f + 1 / d.tau * (mass feq - mass f) := by
  rw [bgkRelax_eq, mass_lin, mass_lin]; ring

theorem bgkRelax_momentum (d : CollData K D Q) (feq f : Fin Q → K) (a : Fin D) :
    momentum d.e (bgkRelax d feq f) a = momentum d.e f a + 1 / d.tau * (momentum d.e feq a - momentum d.e f a) := by
  rw [bgkRelax_eq, momentum_lin, momentum_lin]; ring

/-! ## The regularized collision -/

/-- the vector `fi1` of `Regularized::relax` -/
def fi1 (d : CollData K D Q) (P : Fin D → Fin D → K) (i : Fin Q) : K :=
  ∑ b, ∑ c, d.weight i / (2 * d.cs2 * d.cs2) * regularizedQ d i b c * P b c

theorem regularizedRelax_eq (d : CollData K D Q) (feq f : Fin Q → K) :
    regularizedRelax d feq f = fun i => feq i + (1 - 1 / d.tau) * fi1 d (regularizedPi d feq f) i := rfl

theorem regularizedQ_eq (d : CollData K D Q) (i : Fin Q) (b c : Fin D) :
    regularizedQ d i b c = d.e i b * d.e i c - d.cs2 * δ b c := by
  unfold regularizedQ δ; split <;> simp

theorem fi1_moment (d : CollData K D Q) (P : Fin D → Fin D → K) (g : Fin Q → K) :
    ∑ i, fi1 d P i * g i = ∑ b, ∑ c, P b c / (2 * d.cs2 * d.cs2) *
      ((∑ i, d.weight i * (d.e i b * d.e i c * g i)) - d.cs2 * δ b c * ∑ i, d.weight i * g i) := by
  have : ∀ i, fi1 d P i * g i = ∑ b, ∑ c, P b c / (2 * d.cs2 * d.cs2) *
      (d.weight i * (d.e i b * d.e i c * g i) - d.cs2 * δ b c * (d.weight i * g i)) := fun i => by
    unfold fi1
    rw [Finset.sum_mul]
    refine Finset.sum_congr rfl fun b _ => ?_
    rw [Finset.sum_mul]
    refine Finset.sum_congr rfl fun c _ => ?_
    rw [regularizedQ_eq]; ring
  simp only [this]
  rw [Finset.sum_comm]
  refine Finset.sum_congr rfl fun b _ => ?_
  rw [Finset.sum_comm]
  refine Finset.sum_congr rfl fun c _ => ?_
  rw [← Finset.mul_sum, Finset.sum_sub_distrib, ← Finset.mul_sum]

theorem fi1_mass {d : CollData K D Q} (h : Iso4 d.weight d.e d.cs2) (P : Fin D → Fin D → K) : mass (fi1 d P) = 0 := by
  have := fi1_moment d P fun _ => 1
  simp only [mul_one, h.m2, h.m0, sub_self, mul_zero, Finset.sum_const_zero] at this
  exact this

theorem fi1_momentum {d : CollData K D Q} (h : Iso4 d.weight d.e d.cs2) (P : Fin D → Fin D → K) (a : Fin D) :
    momentum d.e (fi1 d P) a = 0 := by
  rw [momentum, fi1_moment d P fun i => d.e i a]
  simp only [h.m3, h.m1, sub_self, mul_zero, Finset.sum_const_zero]

theorem fi1_flux [CharZero K] {d : CollData K D Q} (h : Iso4 d.weight d.e d.cs2) (hc : d.cs2 ≠ 0) (P : Fin D → Fin D → K)
    (hP : ∀ a b, P a b = P b a) (a b : Fin D) : momentumFlux d.e (fi1 d P) a b = P a b := by
  rw [momentumFlux, fi1_moment d P fun i => d.e i a * d.e i b]
  have h4 : ∀ p q, ∑ i, d.weight i * (d.e i p * d.e i q * (d.e i a * d.e i b))
      = d.cs2 ^ 2 * (δ p q * δ a b + δ p a * δ q b + δ p b * δ q a) := fun p q => by
    rw [← h.m4 p q a b]; exact Finset.sum_congr rfl fun i _ => by ring
  simp only [h4, h.m2]
  have h5 : ∀ p q : Fin D, P p q / (2 * d.cs2 * d.cs2) *
      (d.cs2 ^ 2 * (δ p q * δ a b + δ p a * δ q b + δ p b * δ q a) - d.cs2 * δ p q * (d.cs2 * δ a b))
      = 1 / 2 * (P p q * δ q b) * δ p a + 1 / 2 * (P p q * δ q a) * δ p b := fun p q => by field_simp; ring
  simp only [h5, Finset.sum_add_distrib, ← Finset.sum_mul, ← Finset.mul_sum, sum_δ]
  rw [hP b a]
  ring

theorem regularizedPi_eq (d : CollData K D Q) (feq f : Fin Q → K) (a b : Fin D) :
    regularizedPi d feq f a b = momentumFlux d.e f a b - momentumFlux d.e feq a b := by
  unfold regularizedPi momentumFlux; congr 1 <;> exact Finset.sum_congr rfl fun i _ => by ring

theorem flux_symm (e : Fin Q → Fin D → K) (f : Fin Q → K) (a b : Fin D) : momentumFlux e f a b = momentumFlux e f b a :=
  Finset.sum_congr rfl fun i _ => by ring

theorem regularized_mass {d : CollData K D Q} (h : Iso4 d.weight d.e d.cs2) (feq f : Fin Q → K) :
    mass (regularizedRelax d feq f) = mass feq := by
  rw [regularizedRelax_eq, mass_lin, fi1_mass h]; ring

theorem regularized_momentum {d : CollData K D Q} (h : Iso4 d.weight d.e d.cs2) (feq f : Fin Q → K) (a : Fin D) :
    momentum d.e (regularizedRelax d feq f) a = momentum d.e feq a := by
  rw [regularizedRelax_eq, momentum_lin, fi1_momentum h]; ring

theorem regularized_flux [CharZero K] {d : CollData K D Q} (h : Iso4 d.weight d.e d.cs2) (hc : d.cs2 ≠ 0)
    (feq f : Fin Q → K) (a b : Fin D) :
    momentumFlux d.e (regularizedRelax d feq f) a b
      = momentumFlux d.e feq a b + (1 - 1 / d.tau) * (momentumFlux d.e f a b - momentumFlux d.e feq a b) := by
  rw [regularizedRelax_eq, flux_lin, fi1_flux h hc _ fun a b => by
    rw [regularizedPi_eq, regularizedPi_eq, flux_symm d.e f, flux_symm d.e feq], regularizedPi_eq]

end node

end NATriuM
