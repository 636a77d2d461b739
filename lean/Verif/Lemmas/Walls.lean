import Verif.Model.Walls
import Verif.Spec.Walls
import Verif.Lemmas.Compressible
import Mathlib.Algebra.Order.Field.Basic

/-! # Helper lemmas about walls -/

namespace NATriuM.Walls

open Finset NATriuM.Spec

section

variable {K : Type*} [Field K] {D Q : ℕ}

/-! ## sums over opposite directions -/

/-- Reindexing by the opposite direction. -/
theorem sum_opp {w : Fin Q → K} {e : Fin Q → Fin D → K} {o : Fin Q → Fin Q} (h : OppositeTable w e o) (F : Fin Q → K) :
    ∑ i, F (o i) = ∑ i, F i :=
  Equiv.sum_comp (⟨o, o, h.involutive, h.involutive⟩ : Fin Q ≃ Fin Q) F

theorem dot_opp {w : Fin Q → K} {e : Fin Q → Fin D → K} {o : Fin Q → Fin Q} (h : OppositeTable w e o) (x : Fin D → K) (i : Fin Q) :
    ∑ a, x a * e (o i) a = -∑ a, x a * e i a := by
  simp only [h.reverses, mul_neg, Finset.sum_neg_distrib]

/-- An even function that vanishes where `s` does: half of its sum lies on the positive side of `s`. -/
theorem sum_half [LinearOrder K] [IsStrictOrderedRing K] {w : Fin Q → K} {e : Fin Q → Fin D → K} {o : Fin Q → Fin Q}
    (h : OppositeTable w e o) (s G : Fin Q → K) (hs : ∀ i, s (o i) = -s i) (hG : ∀ i, G (o i) = G i) (h0 : ∀ i, s i = 0 → G i = 0) :
    2 * ∑ i, (if s i < 0 then G i else 0) = ∑ i, G i := by
  have h1 : ∑ i, (if s i < 0 then G i else 0) = ∑ i, (if 0 < s i then G i else 0) := by
    rw [← sum_opp h]
    refine Finset.sum_congr rfl fun i _ => ?_
    rw [hs, hG]; simp only [Left.neg_neg_iff]
  rw [two_mul]
  nth_rw 2 [h1]
  rw [← Finset.sum_add_distrib]
  refine Finset.sum_congr rfl fun i _ => ?_
  rcases lt_trichotomy (s i) 0 with hl | he | hg
  · rw [if_pos hl, if_neg (not_lt.mpr hl.le), add_zero]
  · rw [if_neg (by rw [he]; exact lt_irrefl _), if_neg (by rw [he]; exact lt_irrefl _), h0 i he, add_zero]
  · rw [if_neg (not_lt.mpr hg.le), if_pos hg, zero_add]

/-- `∑ w (n·e) (u·e) = cs² n·u` -/
theorem sum_dot_dot {w : Fin Q → K} {e : Fin Q → Fin D → K} {cs2 : K} (h : Iso2 w e cs2) (n u : Fin D → K) :
    ∑ i, w i * ((∑ a, n a * e i a) * ∑ a, u a * e i a) = cs2 * ∑ a, n a * u a := by
  have : ∀ i, w i * ((∑ a, n a * e i a) * ∑ a, u a * e i a) = ∑ a, ∑ b, n a * u b * (w i * (e i a * e i b)) := fun i => by
    rw [Finset.sum_mul_sum, Finset.mul_sum]
    refine Finset.sum_congr rfl fun a _ => ?_
    rw [Finset.mul_sum]
    exact Finset.sum_congr rfl fun b _ => by ring
  simp only [this]
  rw [Finset.sum_comm, Finset.mul_sum]
  refine Finset.sum_congr rfl fun a _ => ?_
  rw [Finset.sum_comm]
  simp only [← Finset.mul_sum, h.m2]
  have : ∀ b : Fin D, n a * u b * (cs2 * δ a b) = (n a * cs2) * (u b * δ a b) := fun b => by ring
  simp only [this, ← Finset.mul_sum, sum_δ']; ring

/-! ## temperatures -/

theorem wallData_iso {S : Stencil K D Q} (h : Iso6 S.weight S.dir S.cs2) (hs : S.scaling ≠ 0) :
    Iso6 (wallData S).weight (wallData S).e (wallData S).cs2 := NATriuM.Iso6.unit h hs

theorem temperature_scale (S : Stencil K D Q) (hs : S.scaling ≠ 0) (hc : S.cs2 ≠ 0) (gamma : K) (f g : Fin Q → K) :
    temperature S.dir S.cs2 gamma f g = temperature (wallData S).e (wallData S).cs2 gamma f g := by
  have he : ∀ i a, (wallData S).e i a = S.dir i a / S.scaling := fun _ _ => rfl
  unfold temperature
  rw [totalEnergy_scale he hs hc]
  simp only [momentum_scale he hs]
  congr 2
  change _ = totalEnergy (wallData S).e (S.cs2 / (S.scaling * S.scaling)) f g - _ / (_ * (S.cs2 / (S.scaling * S.scaling)))
  have : ∑ a, S.scaling * momentum (wallData S).e f a * (S.scaling * momentum (wallData S).e f a)
      = S.scaling * S.scaling * ∑ a, momentum (wallData S).e f a * momentum (wallData S).e f a := by
    rw [Finset.mul_sum]; exact Finset.sum_congr rfl fun a _ => by ring
  rw [this]
  congr 1
  by_cases hm : mass f = 0
  · simp [hm]
  · field_simp

theorem translational_scale (S : Stencil K D Q) (hs : S.scaling ≠ 0) (f : Fin Q → K) :
    translationalTemperature S.dir S.cs2 f = translationalTemperature (wallData S).e (wallData S).cs2 f := by
  have he : ∀ i a, (wallData S).e i a = S.dir i a / S.scaling := fun _ _ => rfl
  unfold translationalTemperature
  simp only [momentum_scale he hs, flux_scale he hs]
  have h1 : ∑ a, S.scaling * momentum (wallData S).e f a * (S.scaling * momentum (wallData S).e f a)
      = S.scaling * S.scaling * ∑ a, momentum (wallData S).e f a * momentum (wallData S).e f a := by
    rw [Finset.mul_sum]; exact Finset.sum_congr rfl fun a _ => by ring
  rw [h1, ← Finset.mul_sum]
  change _ = _ / (_ * _ * (S.cs2 / (S.scaling * S.scaling)))
  by_cases hc : S.cs2 = 0
  · simp [hc]
  by_cases hm : mass f = 0
  · simp [hm]
  by_cases hD : (D : K) = 0
  · simp [hD]
  field_simp

/-- The temperature the code computes is the temperature of the specification. -/
theorem calculateTemperature_spec [CharZero K] (d : CollData K D Q) (gamma : K) (hg : gamma - 1 ≠ 0) (hc : d.cs2 ≠ 0) (f g : Fin Q → K)
    (hm : mass f ≠ 0) :
    calculateTemperature d gamma f g (calculateVelocity d f (mass f)) (mass f) = temperature d.e d.cs2 gamma f g := by
  have h1 : ∀ a, momentum d.e f a = mass f * calculateVelocity d f (mass f) a := fun a => by
    unfold calculateVelocity momentum
    rw [show ∑ i, d.e i a * f i = ∑ i, f i * d.e i a from Finset.sum_congr rfl fun i _ => mul_comm _ _]
    field_simp
  have := temperature_energy (d := d) (f := f) (g := g) (gamma := gamma) rfl hm h1 hg hc rfl
  unfold temperature
  rw [this]
  simp only [h1]
  rw [show ∑ a, mass f * calculateVelocity d f (mass f) a * (mass f * calculateVelocity d f (mass f) a)
      = mass f * mass f * ∑ a, calculateVelocity d f (mass f) a * calculateVelocity d f (mass f) a by
    rw [Finset.mul_sum]; exact Finset.sum_congr rfl fun a _ => by ring]
  field_simp
  ring

/-! ## the equilibrium boundary -/

/-- data with the particle velocities of the stencil as they are -/
def plainData (S : Stencil K D Q) : CollData K D Q where
  e := S.dir
  weight := S.weight
  cs2 := S.cs2
  scaling := 1
  tau := 0
  dt := 0
  gammaSteadyState := 1
  forceType := .noForcing
  forces := fun _ => 0

theorem slEquilibrium_eq (S : Stencil K D Q) (T : K) (u : Fin D → K) : ∃ (A : Fin D → Fin D → Fin D → K)
    (B : Fin D → Fin D → Fin D → Fin D → K), ∀ i, slEquilibrium S T u i = quarticBase (plainData S) ⟨1, u, T⟩ i
      + ∑ a, ∑ b, ∑ c, (A a b c * (S.weight i * calculateH3 S.cs2 S.dir i a b c)
        + ∑ d, B a b c d * (S.weight i * calculateH4 S.cs2 S.dir i a b c d)) := by
  refine ⟨fun a b c => 1 / (6 * S.cs2 * S.cs2 * S.cs2)
        * (u a * u b * u c + S.cs2 * (T - 1) * (eye a b * u c + eye b c * u a + eye a c * u b)),
      fun a b c d => 1 / (24 * S.cs2 * S.cs2 * S.cs2 * S.cs2) * (u a * u b * u c * u d
          + S.cs2 * (T - 1) * (u a * u b * eye c d + u a * u c * eye b d + u a * u d * eye b c + u b * u c * eye a d + u b * u d * eye a c
              + u c * u d * eye a b
            + S.cs2 * (T - 1) * (eye a b * eye c d + eye a c * eye b d + eye a d * eye b c))), fun i => ?_⟩
  unfold slEquilibrium quarticBase plainData
  dsimp only
  refine Eq.trans ?_ (add_assoc _ _ _).symm
  congr 1
  rw [← Finset.sum_add_distrib]
  refine Finset.sum_congr rfl fun a _ => ?_
  rw [← Finset.sum_add_distrib]
  refine Finset.sum_congr rfl fun b _ => ?_
  congr 1
  refine Finset.sum_congr rfl fun c _ => ?_
  congr 1
  · unfold calculateH3; ring
  · refine Finset.sum_congr rfl fun d _ => ?_
    unfold calculateH4; ring

theorem slEquilibrium_moment (S : Stencil K D Q) (T : K) (u : Fin D → K) (g : Fin Q → K)
    (h3 : ∀ a b c, ∑ i, S.weight i * (calculateH3 S.cs2 S.dir i a b c * g i) = 0)
    (h4 : ∀ a b c f, ∑ i, S.weight i * (calculateH4 S.cs2 S.dir i a b c f * g i) = 0) :
    ∑ i, slEquilibrium S T u i * g i = ∑ i, quarticBase (plainData S) ⟨1, u, T⟩ i * g i := by
  obtain ⟨A, B, h⟩ := slEquilibrium_eq S T u
  have h' : ∀ i, slEquilibrium S T u i * g i = quarticBase (plainData S) ⟨1, u, T⟩ i * g i
      + ∑ a, ∑ b, ∑ c, (A a b c * (S.weight i * calculateH3 S.cs2 S.dir i a b c) * g i
        + ∑ d, B a b c d * (S.weight i * calculateH4 S.cs2 S.dir i a b c d) * g i) := fun i => by
    rw [h, add_mul]
    simp only [Finset.sum_mul, add_mul]
  simp only [h']
  rw [Finset.sum_add_distrib, add_eq_left, Finset.sum_comm]
  refine Finset.sum_eq_zero fun a _ => ?_
  rw [Finset.sum_comm]
  refine Finset.sum_eq_zero fun b _ => ?_
  rw [Finset.sum_comm]
  refine Finset.sum_eq_zero fun c _ => ?_
  rw [Finset.sum_add_distrib]
  have e3 : ∑ i, A a b c * (S.weight i * calculateH3 S.cs2 S.dir i a b c) * g i = 0 := by
    have := h3 a b c
    rw [← mul_eq_zero_of_right (A a b c) this, Finset.mul_sum]
    exact Finset.sum_congr rfl fun i _ => by ring
  rw [e3, zero_add, Finset.sum_comm]
  refine Finset.sum_eq_zero fun d _ => ?_
  rw [← mul_eq_zero_of_right (B a b c d) (h4 a b c d), Finset.mul_sum]
  exact Finset.sum_congr rfl fun i _ => by ring

end

end NATriuM.Walls
