import Verif.Spec.Stencil
import Verif.Model.Stencils
import Mathlib.Tactic.Ring
import Mathlib.Tactic.FieldSimp
import Mathlib.Tactic.LinearCombination
import Mathlib.Tactic.NormNum
import Mathlib.Tactic.FinCases
import Mathlib.Data.Rat.Cast.CharZero
import Mathlib.Data.Rat.BigOperators

/-! # Helper lemmas about isotropy -/

namespace NATriuM

open Finset NATriuM.Spec

variable {K : Type*} [Field K] [CharZero K] {D Q : ℕ}

omit [CharZero K] in
theorem δ_cast (a b : Fin D) : ((δ a b : ℚ) : K) = δ a b := by unfold δ; split <;> simp

/-- An odd function has vanishing weighted sum if there is a table of opposite directions. -/
theorem odd_sum_zero {w : Fin Q → K} {e : Fin Q → Fin D → K} {o : Fin Q → Fin Q} (h : OppositeTable w e o)
    (g : Fin Q → K) (hg : ∀ i, g (o i) = -g i) : ∑ i, w i * g i = 0 := by
  have hb : Function.Bijective o := Function.Involutive.bijective h.involutive
  have h1 : ∑ i, w i * g i = ∑ i, w (o i) * g (o i) :=
    (Function.Bijective.sum_comp hb (fun i => w i * g i)).symm
  have h2 : ∑ i, w (o i) * g (o i) = -∑ i, w i * g i := by
    rw [← Finset.sum_neg_distrib]
    exact Finset.sum_congr rfl fun i _ => by rw [h.same_weight, hg]; ring
  rw [h2] at h1
  have h3 : (2 : K) * ∑ i, w i * g i = 0 := by linear_combination h1
  exact (mul_eq_zero.mp h3).resolve_left two_ne_zero

theorem m1_of_opp {w : Fin Q → K} {e : Fin Q → Fin D → K} {o : Fin Q → Fin Q} (h : OppositeTable w e o) (a : Fin D) :
    ∑ i, w i * e i a = 0 := odd_sum_zero h _ fun i => h.reverses i a

theorem m3_of_opp {w : Fin Q → K} {e : Fin Q → Fin D → K} {o : Fin Q → Fin Q} (h : OppositeTable w e o) (a b c : Fin D) :
    ∑ i, w i * (e i a * e i b * e i c) = 0 := odd_sum_zero h _ fun i => by simp only [h.reverses]; ring

theorem m5_of_opp {w : Fin Q → K} {e : Fin Q → Fin D → K} {o : Fin Q → Fin Q} (h : OppositeTable w e o)
    (a b c d f : Fin D) : ∑ i, w i * (e i a * e i b * e i c * e i d * e i f) = 0 :=
  odd_sum_zero h _ fun i => by simp only [h.reverses]; ring

/-- Transfer of the even moments from a rational table. -/
theorem iso5_of_table {w : Fin Q → K} {e : Fin Q → Fin D → K} {o : Fin Q → Fin Q} {cs2 : K} (c : K)
    (wq : Fin Q → ℚ) (eq : Fin Q → Fin D → ℚ) (sq : ℚ)
    (hw : ∀ i, w i = (wq i : K)) (he : ∀ i a, e i a = c * (eq i a : K)) (hs : cs2 = c * c * (sq : K))
    (ho : OppositeTable w e o)
    (h0 : ∑ i, wq i = 1) (h2 : ∀ a b, ∑ i, wq i * (eq i a * eq i b) = sq * δ a b)
    (h4 : ∀ a b c d, ∑ i, wq i * (eq i a * eq i b * eq i c * eq i d)
      = sq ^ 2 * (δ a b * δ c d + δ a c * δ b d + δ a d * δ b c)) : Iso5 w e cs2 where
  m0 := by simp only [hw]; rw [← Rat.cast_sum, h0]; simp
  m1 := m1_of_opp ho
  m2 a b := by
    have := congrArg (Rat.cast : ℚ → K) (h2 a b)
    push_cast [δ_cast] at this
    rw [hs, mul_assoc (c * c), ← this, Finset.mul_sum]
    exact Finset.sum_congr rfl fun i _ => by rw [hw, he, he]; ring
  m3 := m3_of_opp ho
  m4 a b d f := by
    have := congrArg (Rat.cast : ℚ → K) (h4 a b d f)
    push_cast [δ_cast] at this
    have h : cs2 ^ 2 = (c * c) ^ 2 * (sq : K) ^ 2 := by rw [hs]; ring
    rw [h, mul_assoc ((c * c) ^ 2), ← this, Finset.mul_sum]
    exact Finset.sum_congr rfl fun i _ => by rw [hw, he, he, he, he]; ring
  m5 := m5_of_opp ho

omit [CharZero K] in
theorem opposite_of_table {w : Fin Q → K} {e : Fin Q → Fin D → K} {o : Fin Q → Fin Q} (c : K)
    (wq : Fin Q → ℚ) (eq : Fin Q → Fin D → ℚ)
    (hw : ∀ i, w i = (wq i : K)) (he : ∀ i a, e i a = c * (eq i a : K))
    (h : OppositeTable wq eq o) : OppositeTable w e o where
  reverses i a := by rw [he, he, h.reverses]; push_cast; ring
  same_weight i := by rw [hw, hw, h.same_weight]
  involutive := h.involutive

end NATriuM
