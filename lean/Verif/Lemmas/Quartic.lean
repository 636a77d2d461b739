import Verif.Lemmas.Equilibria

/-! # Helper lemmas: moments of the fourth-order equilibrium -/

namespace NATriuM

open Finset NATriuM.Spec

variable {K : Type*} [Field K] {D Q : ℕ} {w : Fin Q → K} {e : Fin Q → Fin D → K} {cs2 : K}

/-- Linear combinations of weighted sums. -/
theorem H3_moment (g : Fin Q → K) (a b c : Fin D) :
    ∑ i, w i * (calculateH3 cs2 e i a b c * g i)
      = (∑ i, w i * (e i a * e i b * e i c * g i))
        - cs2 * (δ b c * (∑ i, w i * (e i a * g i)) + δ a c * (∑ i, w i * (e i b * g i))
          + δ a b * ∑ i, w i * (e i c * g i)) := by
  simp only [Finset.mul_sum]
  rw [← Finset.sum_add_distrib, ← Finset.sum_add_distrib, Finset.mul_sum, ← Finset.sum_sub_distrib]
  exact Finset.sum_congr rfl fun i _ => by unfold calculateH3; simp only [eye_eq]; ring

theorem H4_moment (g : Fin Q → K) (a b c d : Fin D) :
    ∑ i, w i * (calculateH4 cs2 e i a b c d * g i)
      = (∑ i, w i * (e i a * e i b * e i c * e i d * g i))
        - cs2 * (δ c d * (∑ i, w i * (e i a * e i b * g i)) + δ b d * (∑ i, w i * (e i a * e i c * g i))
          + δ b c * (∑ i, w i * (e i a * e i d * g i)) + δ a d * (∑ i, w i * (e i b * e i c * g i))
          + δ a c * (∑ i, w i * (e i b * e i d * g i)) + δ a b * ∑ i, w i * (e i c * e i d * g i))
        + cs2 * cs2 * (δ a b * δ c d + δ a c * δ b d + δ a d * δ b c) * ∑ i, w i * g i := by
  simp only [Finset.mul_sum]
  simp only [← Finset.sum_add_distrib]
  rw [Finset.mul_sum, ← Finset.sum_sub_distrib, ← Finset.sum_add_distrib]
  exact Finset.sum_congr rfl fun i _ => by unfold calculateH4; simp only [eye_eq]; ring

theorem E_H3_1 (h : Iso4 w e cs2) (a b c : Fin D) : ∑ i, w i * (calculateH3 cs2 e i a b c * 1) = 0 := by
  rw [H3_moment]; simp only [mul_one, h.m3, h.m1]; ring

theorem E_H3_e (h : Iso4 w e cs2) (f : Fin D) (a b c : Fin D) :
    ∑ i, w i * (calculateH3 cs2 e i a b c * e i f) = 0 := by
  rw [H3_moment]; simp only [h.m4, h.m2]; ring

theorem E_H3_ee (h : Iso5 w e cs2) (f g : Fin D) (a b c : Fin D) :
    ∑ i, w i * (calculateH3 cs2 e i a b c * (e i f * e i g)) = 0 := by
  rw [H3_moment]; simp only [← mul_assoc]
  have h5 : ∑ i, w i * e i a * e i b * e i c * e i f * e i g = 0 := by
    rw [← h.m5 a b c f g]; exact Finset.sum_congr rfl fun i _ => by ring
  have h3 : ∀ a, ∑ i, w i * e i a * e i f * e i g = 0 := fun a => by
    rw [← h.m3 a f g]; exact Finset.sum_congr rfl fun i _ => by ring
  rw [h5, h3, h3, h3]; ring

theorem E_H4_1 (h : Iso4 w e cs2) (a b c d : Fin D) : ∑ i, w i * (calculateH4 cs2 e i a b c d * 1) = 0 := by
  rw [H4_moment]; simp only [mul_one, h.m4, h.m2, h.m0]; ring

theorem E_H4_e (h : Iso5 w e cs2) (f : Fin D) (a b c d : Fin D) :
    ∑ i, w i * (calculateH4 cs2 e i a b c d * e i f) = 0 := by
  rw [H4_moment]; simp only [h.m5, h.m3, h.m1]; ring

theorem E_H4_ee (h : Iso6 w e cs2) (f g : Fin D) (a b c d : Fin D) :
    ∑ i, w i * (calculateH4 cs2 e i a b c d * (e i f * e i g)) = 0 := by
  rw [H4_moment]
  have h6 : ∑ i, w i * (e i a * e i b * e i c * e i d * (e i f * e i g)) = cs2 ^ 3 * δ6 a b c d f g := by
    rw [← h.m6 a b c d f g]; exact Finset.sum_congr rfl fun i _ => by ring
  have h4 : ∀ a b, ∑ i, w i * (e i a * e i b * (e i f * e i g))
      = cs2 ^ 2 * (δ a b * δ f g + δ a f * δ b g + δ a g * δ b f) := fun a b => by
    rw [← h.m4 a b f g]; exact Finset.sum_congr rfl fun i _ => by ring
  rw [h6, h4, h4, h4, h4, h4, h4, h.m2]
  unfold δ6; ring

/-! ## The quartic polynomial -/

theorem quarticBase_eq (d : CollData K D Q) (m : Macro K D) (i : Fin Q) :
    quarticBase d m i = bgkEquilibrium d m i
      + m.rho * (m.T - 1) / (2 * d.cs2) * ((∑ a, d.weight i * (d.e i a * d.e i a)) - d.cs2 * D * d.weight i) := by
  unfold quarticBase bgkEquilibrium
  have : ∀ a : Fin D, ∑ b, m.rho * d.weight i / (2 * d.cs2) *
      ((m.T - 1) * eye a b * d.e i a * d.e i b - d.cs2 * eye a b * (m.T - 1))
      = m.rho * (m.T - 1) / (2 * d.cs2) * (d.weight i * (d.e i a * d.e i a) - d.cs2 * d.weight i) := fun a => by
    rw [Finset.sum_eq_single a]
    · simp only [eye, if_true]; ring
    · intro b _ hb; simp [eye, hb.symm]
    · intro h; exact absurd (Finset.mem_univ a) h
  simp only [this]
  rw [← Finset.mul_sum, Finset.sum_sub_distrib, Finset.sum_const, Finset.card_univ, Fintype.card_fin, nsmul_eq_mul]
  ring

theorem quarticBase_moment (d : CollData K D Q) (m : Macro K D) (g : Fin Q → K) :
    ∑ i, quarticBase d m i * g i = (∑ i, bgkEquilibrium d m i * g i)
      + m.rho * (m.T - 1) / (2 * d.cs2) * ((∑ a, ∑ i, d.weight i * (d.e i a * d.e i a * g i))
        - d.cs2 * D * ∑ i, d.weight i * g i) := by
  rw [Finset.sum_comm (s := univ) (t := univ) (f := fun a i => d.weight i * (d.e i a * d.e i a * g i))]
  rw [Finset.mul_sum, ← Finset.sum_sub_distrib, Finset.mul_sum, ← Finset.sum_add_distrib]
  refine Finset.sum_congr rfl fun i _ => ?_
  rw [quarticBase_eq]
  have : ∑ a, d.weight i * (d.e i a * d.e i a * g i) = (∑ a, d.weight i * (d.e i a * d.e i a)) * g i := by
    rw [Finset.sum_mul]; exact Finset.sum_congr rfl fun a _ => by ring
  rw [this]; ring

theorem quartic2_moment (d : CollData K 2 Q) (m : Macro K 2) (g : Fin Q → K)
    (h3 : ∀ a b c, ∑ i, d.weight i * (calculateH3 d.cs2 d.e i a b c * g i) = 0)
    (h4 : ∀ a b c f, ∑ i, d.weight i * (calculateH4 d.cs2 d.e i a b c f * g i) = 0) :
    ∑ i, quarticEquilibrium2 d m i * g i = ∑ i, quarticBase d m i * g i := by
  rw [← sub_eq_zero, ← Finset.sum_sub_distrib]
  set p := m.rho / (6 * d.cs2 * d.cs2 * d.cs2) with hp
  set q := m.rho / (24 * d.cs2 * d.cs2 * d.cs2 * d.cs2) with hq
  set T1 := d.cs2 * (m.T - 1) with hT
  have key : ∀ i, quarticEquilibrium2 d m i * g i - quarticBase d m i * g i =
      p * (m.u 0 * m.u 0 * m.u 0 + T1 * (m.u 0 + m.u 0 + m.u 0)) * (d.weight i * (calculateH3 d.cs2 d.e i 0 0 0 * g i))
      + p * 3 * (m.u 0 * m.u 0 * m.u 1 + T1 * m.u 1) * (d.weight i * (calculateH3 d.cs2 d.e i 0 0 1 * g i))
      + p * 3 * (m.u 0 * m.u 1 * m.u 1 + T1 * m.u 0) * (d.weight i * (calculateH3 d.cs2 d.e i 0 1 1 * g i))
      + p * (m.u 1 * m.u 1 * m.u 1 + T1 * (m.u 1 + m.u 1 + m.u 1)) * (d.weight i * (calculateH3 d.cs2 d.e i 1 1 1 * g i))
      + q * (m.u 0 * m.u 0 * m.u 0 * m.u 0 + T1 * m.u 0 * m.u 0 * 6 + T1 * T1 * 3)
        * (d.weight i * (calculateH4 d.cs2 d.e i 0 0 0 0 * g i))
      + q * (m.u 1 * m.u 1 * m.u 1 * m.u 1 + T1 * m.u 1 * m.u 1 * 6 + T1 * T1 * 3)
        * (d.weight i * (calculateH4 d.cs2 d.e i 1 1 1 1 * g i))
      + q * 6 * (m.u 0 * m.u 0 * m.u 1 * m.u 1 + T1 * (m.u 0 * m.u 0 + m.u 1 * m.u 1) + T1 * T1)
        * (d.weight i * (calculateH4 d.cs2 d.e i 0 0 1 1 * g i))
      + q * 4 * (m.u 0 * m.u 1 * m.u 1 * m.u 1 + T1 * (m.u 0 * m.u 1 * 3))
        * (d.weight i * (calculateH4 d.cs2 d.e i 0 1 1 1 * g i))
      + q * 4 * (m.u 0 * m.u 0 * m.u 0 * m.u 1 + T1 * (m.u 0 * m.u 1 * 3))
        * (d.weight i * (calculateH4 d.cs2 d.e i 0 0 0 1 * g i)) := by
    intro i
    have e1 : d.weight i * m.rho / (6 * d.cs2 * d.cs2 * d.cs2) = d.weight i * p := by rw [hp]; ring
    have e2 : d.weight i * m.rho / (24 * d.cs2 * d.cs2 * d.cs2 * d.cs2) = d.weight i * q := by rw [hq]; ring
    simp only [quarticEquilibrium2, ← hT, e1, e2]
    generalize p = p, q = q, T1 = T1, quarticBase d m i = B
    ring
  simp only [key, Finset.sum_add_distrib, ← Finset.mul_sum, h3, h4, mul_zero, add_zero]

set_option maxHeartbeats 1000000 in
theorem quartic3_moment (d : CollData K 3 Q) (m : Macro K 3) (g : Fin Q → K)
    (h3 : ∀ a b c, ∑ i, d.weight i * (calculateH3 d.cs2 d.e i a b c * g i) = 0)
    (h4 : ∀ a b c f, ∑ i, d.weight i * (calculateH4 d.cs2 d.e i a b c f * g i) = 0) :
    ∑ i, quarticEquilibrium3 d m i * g i = ∑ i, quarticBase d m i * g i := by
  rw [← sub_eq_zero, ← Finset.sum_sub_distrib]
  have key : ∀ p q a1 a2 a3 a4 a5 a6 a7 a8 a9 a10 b1 b2 b3 b4 b5 b6 b7 b8 b9 b10 b11 b12 b13 b14 b15 : K,
      (∀ i, quarticEquilibrium3 d m i - quarticBase d m i =
        d.weight i * p * (a1 * calculateH3 d.cs2 d.e i 0 0 0 + 3 * (a2 * calculateH3 d.cs2 d.e i 0 0 1
          + a3 * calculateH3 d.cs2 d.e i 0 1 1) + a4 * calculateH3 d.cs2 d.e i 1 1 1)
        + d.weight i * p * (a5 * calculateH3 d.cs2 d.e i 2 2 2 + 3 * (a6 * calculateH3 d.cs2 d.e i 0 0 2
          + a7 * calculateH3 d.cs2 d.e i 0 2 2 + a8 * calculateH3 d.cs2 d.e i 1 2 2 + a9 * calculateH3 d.cs2 d.e i 1 1 2)
          + 6 * a10 * calculateH3 d.cs2 d.e i 0 1 2)
        + d.weight i * q * (calculateH4 d.cs2 d.e i 0 0 0 0 * b1 + calculateH4 d.cs2 d.e i 1 1 1 1 * b2
          + 6 * calculateH4 d.cs2 d.e i 0 0 1 1 * b3 + 4 * calculateH4 d.cs2 d.e i 0 1 1 1 * b4
          + 4 * calculateH4 d.cs2 d.e i 0 0 0 1 * b5)
        + d.weight i * q * (calculateH4 d.cs2 d.e i 2 2 2 2 * b6
          + 4 * (calculateH4 d.cs2 d.e i 0 2 2 2 * b7 + calculateH4 d.cs2 d.e i 1 2 2 2 * b8
            + calculateH4 d.cs2 d.e i 0 0 0 2 * b9 + calculateH4 d.cs2 d.e i 1 1 1 2 * b10)
          + 6 * (calculateH4 d.cs2 d.e i 0 0 2 2 * b11 + calculateH4 d.cs2 d.e i 1 1 2 2 * b12)
          + 12 * (calculateH4 d.cs2 d.e i 0 0 1 2 * b13 + calculateH4 d.cs2 d.e i 0 1 1 2 * b14
            + calculateH4 d.cs2 d.e i 0 1 2 2 * b15))) →
      ∑ i, (quarticEquilibrium3 d m i * g i - quarticBase d m i * g i) = 0 := by
    intro p q a1 a2 a3 a4 a5 a6 a7 a8 a9 a10 b1 b2 b3 b4 b5 b6 b7 b8 b9 b10 b11 b12 b13 b14 b15 H
    have H2 : ∀ i, quarticEquilibrium3 d m i * g i - quarticBase d m i * g i =
        p * a1 * (d.weight i * (calculateH3 d.cs2 d.e i 0 0 0 * g i))
        + p * 3 * a2 * (d.weight i * (calculateH3 d.cs2 d.e i 0 0 1 * g i))
        + p * 3 * a3 * (d.weight i * (calculateH3 d.cs2 d.e i 0 1 1 * g i))
        + p * a4 * (d.weight i * (calculateH3 d.cs2 d.e i 1 1 1 * g i))
        + p * a5 * (d.weight i * (calculateH3 d.cs2 d.e i 2 2 2 * g i))
        + p * 3 * a6 * (d.weight i * (calculateH3 d.cs2 d.e i 0 0 2 * g i))
        + p * 3 * a7 * (d.weight i * (calculateH3 d.cs2 d.e i 0 2 2 * g i))
        + p * 3 * a8 * (d.weight i * (calculateH3 d.cs2 d.e i 1 2 2 * g i))
        + p * 3 * a9 * (d.weight i * (calculateH3 d.cs2 d.e i 1 1 2 * g i))
        + p * 6 * a10 * (d.weight i * (calculateH3 d.cs2 d.e i 0 1 2 * g i))
        + q * b1 * (d.weight i * (calculateH4 d.cs2 d.e i 0 0 0 0 * g i))
        + q * b2 * (d.weight i * (calculateH4 d.cs2 d.e i 1 1 1 1 * g i))
        + q * 6 * b3 * (d.weight i * (calculateH4 d.cs2 d.e i 0 0 1 1 * g i))
        + q * 4 * b4 * (d.weight i * (calculateH4 d.cs2 d.e i 0 1 1 1 * g i))
        + q * 4 * b5 * (d.weight i * (calculateH4 d.cs2 d.e i 0 0 0 1 * g i))
        + q * b6 * (d.weight i * (calculateH4 d.cs2 d.e i 2 2 2 2 * g i))
        + q * 4 * b7 * (d.weight i * (calculateH4 d.cs2 d.e i 0 2 2 2 * g i))
        + q * 4 * b8 * (d.weight i * (calculateH4 d.cs2 d.e i 1 2 2 2 * g i))
        + q * 4 * b9 * (d.weight i * (calculateH4 d.cs2 d.e i 0 0 0 2 * g i))
        + q * 4 * b10 * (d.weight i * (calculateH4 d.cs2 d.e i 1 1 1 2 * g i))
        + q * 6 * b11 * (d.weight i * (calculateH4 d.cs2 d.e i 0 0 2 2 * g i))
        + q * 6 * b12 * (d.weight i * (calculateH4 d.cs2 d.e i 1 1 2 2 * g i))
        + q * 12 * b13 * (d.weight i * (calculateH4 d.cs2 d.e i 0 0 1 2 * g i))
        + q * 12 * b14 * (d.weight i * (calculateH4 d.cs2 d.e i 0 1 1 2 * g i))
        + q * 12 * b15 * (d.weight i * (calculateH4 d.cs2 d.e i 0 1 2 2 * g i)) := by
      intro i
      rw [← sub_mul, H i]; ring
    simp only [H2, Finset.sum_add_distrib, ← Finset.mul_sum, h3, h4, mul_zero, add_zero]
  refine key (m.rho / (6 * d.cs2 * d.cs2 * d.cs2)) (m.rho / (24 * d.cs2 * d.cs2 * d.cs2 * d.cs2))
    (m.u 0 * m.u 0 * m.u 0 + d.cs2 * (m.T - 1) * (m.u 0 + m.u 0 + m.u 0))
    (m.u 0 * m.u 0 * m.u 1 + d.cs2 * (m.T - 1) * m.u 1)
    (m.u 0 * m.u 1 * m.u 1 + d.cs2 * (m.T - 1) * m.u 0)
    (m.u 1 * m.u 1 * m.u 1 + d.cs2 * (m.T - 1) * (m.u 1 + m.u 1 + m.u 1))
    (m.u 2 * m.u 2 * m.u 2 + d.cs2 * (m.T - 1) * (m.u 2 + m.u 2 + m.u 2))
    (m.u 0 * m.u 0 * m.u 2 + d.cs2 * (m.T - 1) * m.u 2)
    (m.u 0 * m.u 2 * m.u 2 + d.cs2 * (m.T - 1) * m.u 0)
    (m.u 1 * m.u 2 * m.u 2 + d.cs2 * (m.T - 1) * m.u 1)
    (m.u 1 * m.u 1 * m.u 2 + d.cs2 * (m.T - 1) * m.u 2)
    (m.u 0 * m.u 1 * m.u 2)
    (m.u 0 * m.u 0 * m.u 0 * m.u 0 + d.cs2 * (m.T - 1) * m.u 0 * m.u 0 * 6 + d.cs2 * (m.T - 1) * (d.cs2 * (m.T - 1)) * 3)
    (m.u 1 * m.u 1 * m.u 1 * m.u 1 + d.cs2 * (m.T - 1) * m.u 1 * m.u 1 * 6 + d.cs2 * (m.T - 1) * (d.cs2 * (m.T - 1)) * 3)
    (m.u 0 * m.u 0 * m.u 1 * m.u 1 + d.cs2 * (m.T - 1) * (m.u 0 * m.u 0 + m.u 1 * m.u 1) + d.cs2 * (m.T - 1) * (d.cs2 * (m.T - 1)))
    (m.u 0 * m.u 1 * m.u 1 * m.u 1 + d.cs2 * (m.T - 1) * (m.u 0 * m.u 1 * 3))
    (m.u 0 * m.u 0 * m.u 0 * m.u 1 + d.cs2 * (m.T - 1) * (m.u 0 * m.u 1 * 3))
    (m.u 2 * m.u 2 * m.u 2 * m.u 2 + d.cs2 * (m.T - 1) * m.u 2 * m.u 2 * 6 + d.cs2 * (m.T - 1) * (d.cs2 * (m.T - 1)) * 3)
    (m.u 0 * m.u 2 * m.u 2 * m.u 2 + d.cs2 * (m.T - 1) * (m.u 0 * m.u 2 * 3))
    (m.u 1 * m.u 2 * m.u 2 * m.u 2 + d.cs2 * (m.T - 1) * (m.u 1 * m.u 2 * 3))
    (m.u 0 * m.u 0 * m.u 0 * m.u 2 + d.cs2 * (m.T - 1) * (m.u 0 * m.u 2 * 3))
    (m.u 1 * m.u 1 * m.u 1 * m.u 2 + d.cs2 * (m.T - 1) * (m.u 1 * m.u 2 * 3))
    (m.u 0 * m.u 0 * m.u 2 * m.u 2 + d.cs2 * (m.T - 1) * (m.u 0 * m.u 0 + m.u 2 * m.u 2) + d.cs2 * (m.T - 1) * (d.cs2 * (m.T - 1)))
    (m.u 1 * m.u 1 * m.u 2 * m.u 2 + d.cs2 * (m.T - 1) * (m.u 1 * m.u 1 + m.u 2 * m.u 2) + d.cs2 * (m.T - 1) * (d.cs2 * (m.T - 1)))
    (m.u 0 * m.u 0 * m.u 1 * m.u 2 + d.cs2 * (m.T - 1) * (m.u 1 * m.u 2))
    (m.u 0 * m.u 1 * m.u 1 * m.u 2 + d.cs2 * (m.T - 1) * (m.u 0 * m.u 2))
    (m.u 0 * m.u 1 * m.u 2 * m.u 2 + d.cs2 * (m.T - 1) * (m.u 0 * m.u 1)) fun i => ?_
  unfold quarticEquilibrium3
  rw [← mul_div_assoc, ← mul_div_assoc]
  simp only [add_sub_right_comm, sub_self, zero_add]

/-! ## Moments -/

theorem temp_mass (h : Iso2 w e cs2) :
    (∑ a, ∑ i, w i * (e i a * e i a * 1)) - cs2 * D * ∑ i, w i * 1 = 0 := by
  simp only [mul_one, h.m2, h.m0, δ_self, Finset.sum_const, Finset.card_univ, Fintype.card_fin, nsmul_eq_mul]
  ring

theorem temp_momentum (h : Iso4 w e cs2) (c : Fin D) :
    (∑ a, ∑ i, w i * (e i a * e i a * e i c)) - cs2 * D * ∑ i, w i * e i c = 0 := by
  simp only [h.m3, h.m1, Finset.sum_const_zero]; ring

theorem temp_flux (h : Iso4 w e cs2) (c d : Fin D) :
    (∑ a, ∑ i, w i * (e i a * e i a * (e i c * e i d))) - cs2 * D * ∑ i, w i * (e i c * e i d)
      = 2 * cs2 ^ 2 * δ c d := by
  have h4 : ∀ a, ∑ i, w i * (e i a * e i a * (e i c * e i d))
      = cs2 ^ 2 * (δ c d + 2 * (δ c a * δ a d)) := fun a => by
    have := h.m4 a a c d
    simp only [← mul_assoc] at this ⊢
    rw [this, δ_self, δ_comm a c]; ring
  simp only [h4, h.m2, ← Finset.mul_sum, Finset.sum_add_distrib, Finset.sum_const, Finset.card_univ, Fintype.card_fin,
    nsmul_eq_mul]
  rw [sum_δ (fun a => δ c a) d]; ring

end NATriuM
