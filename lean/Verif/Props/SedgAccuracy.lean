import Verif.Spec.SedgAccuracy
import Verif.Props.Sedg
import Mathlib.Algebra.MvPolynomial.Degrees
import Mathlib.Algebra.BigOperators.Ring.Finset
import Mathlib.Algebra.BigOperators.Field
import Mathlib.Tactic.FieldSimp
import Mathlib.Tactic.FinCases

/-!
# Property C128: the discontinuous Galerkin operator differentiates polynomials exactly
-/

namespace NATriuM
namespace Sedg

section

variable {K : Type*} [Field K] [LinearOrder K] {d n nQ nf nq : ℕ} {C : Type*}

theorem degree_linear_pow {p e : ℕ} (he : e ≤ p) (o s : K) :
    ((Polynomial.C o + Polynomial.C s * Polynomial.X) ^ e).degree < ((Finset.univ : Finset (Fin (p + 1))).card : WithBot ℕ) := by
  rw [Finset.card_univ, Fintype.card_fin]
  have h3 : (Polynomial.C o + Polynomial.C s * Polynomial.X).natDegree ≤ 1 := by
    rw [add_comm]; exact Polynomial.natDegree_linear_le
  have h4 : ((Polynomial.C o + Polynomial.C s * Polynomial.X) ^ e).natDegree ≤ e := by
    refine Polynomial.natDegree_pow_le.trans ?_
    calc e * _ ≤ e * 1 := Nat.mul_le_mul_left _ h3
      _ = e := Nat.mul_one _
  refine lt_of_le_of_lt Polynomial.degree_le_natDegree ?_
  exact_mod_cast lt_of_le_of_lt (h4.trans he) (Nat.lt_succ_self p)

/-- Interpolation of a power of a linear polynomial, and of its derivative -/
theorem basis_sum {p e : ℕ} (v : Fin (p + 1) → K) (hv : Function.Injective v) (he : e ≤ p) (o s x : K) :
    ∑ j, (Lagrange.basis Finset.univ v j).eval x * (o + s * v j) ^ e = (o + s * x) ^ e ∧
    ∑ j, (Polynomial.derivative (Lagrange.basis Finset.univ v j)).eval x * (o + s * v j) ^ e = e * (o + s * x) ^ (e - 1) * s := by
  have h := Lagrange.eq_interpolate (v := v) hv.injOn (degree_linear_pow he o s)
  rw [Lagrange.interpolate_apply] at h
  simp only [Polynomial.eval_mul, Polynomial.eval_C, Polynomial.eval_pow, Polynomial.eval_add, Polynomial.eval_X] at h
  constructor
  · have := congrArg (Polynomial.eval x) h
    rw [Polynomial.eval_finset_sum] at this
    simp only [Polynomial.eval_mul, Polynomial.eval_C, Polynomial.eval_pow, Polynomial.eval_add, Polynomial.eval_X, ← Polynomial.C_mul, ← Polynomial.C_add, ← Polynomial.C_pow] at this
    rw [this]
    exact Finset.sum_congr rfl fun j _ => mul_comm _ _
  · have := congrArg (fun P => Polynomial.eval x (Polynomial.derivative P)) h
    simp only [Polynomial.derivative_sum, Polynomial.eval_finset_sum, Polynomial.derivative_pow, Polynomial.derivative_add, Polynomial.derivative_C,
      Polynomial.derivative_mul, Polynomial.derivative_X, Polynomial.eval_mul, Polynomial.eval_C, Polynomial.eval_pow, Polynomial.eval_add,
      Polynomial.eval_X, zero_mul, zero_add, mul_one, Polynomial.eval_natCast] at this
    rw [this]
    exact Finset.sum_congr rfl fun j _ => mul_comm _ _

/-- **C128** The gradients of tensor product elements give the exact derivatives of polynomials in the support points. -/
theorem C128_gradient (m : Mesh K d n nQ nf nq C) (p : ℕ) (v : Fin (p + 1) → K) (number : Fin n ≃ (Fin d → Fin (p + 1)))
    (corner size : C → Fin d → K) (hT : m.Tensor p v number corner size) (G : MvPolynomial (Fin d) K) (hG : ∀ a, G.degreeOf a ≤ p) (c : C)
    (i : Fin n) (k : Fin d) : ∑ j, m.grad c j (m.toQ i) k * MvPolynomial.eval (supportPoint v number corner size c j) G =
      MvPolynomial.eval (supportPoint v number corner size c i) (MvPolynomial.pderiv k G) := by
  classical
  have hmono : ∀ e : Fin d →₀ ℕ, (∀ a, e a ≤ p) → ∑ j, m.grad c j (m.toQ i) k * ∏ a, supportPoint v number corner size c j a ^ e a =
      ∏ a, if a = k then (e a : K) * supportPoint v number corner size c i a ^ (e a - 1) else supportPoint v number corner size c i a ^ e a := by
    intro e he
    have hf : ∀ a, (if a = k then (e a : K) * supportPoint v number corner size c i a ^ (e a - 1) else supportPoint v number corner size c i a ^ e a) =
        ∑ l, (if a = k then (Polynomial.derivative (Lagrange.basis Finset.univ v l)).eval (v (number i a)) / size c a
          else (Lagrange.basis Finset.univ v l).eval (v (number i a))) * (corner c a + size c a * v l) ^ e a := by
      intro a
      obtain ⟨h1, h2⟩ := basis_sum v hT.points (he a) (corner c a) (size c a) (v (number i a))
      by_cases ha : a = k
      · simp only [if_pos ha]
        have hs := hT.size_ne c a
        rw [show ∑ l, (Polynomial.derivative (Lagrange.basis Finset.univ v l)).eval (v (number i a)) / size c a * (corner c a + size c a * v l) ^ e a =
          (∑ l, (Polynomial.derivative (Lagrange.basis Finset.univ v l)).eval (v (number i a)) * (corner c a + size c a * v l) ^ e a) / size c a from by
            rw [Finset.sum_div]
            exact Finset.sum_congr rfl fun l _ => by ring]
        rw [h2]
        unfold supportPoint
        field_simp
      · simp only [if_neg ha]
        exact h1.symm
    rw [Finset.prod_congr rfl fun a _ => hf a, Finset.prod_univ_sum, Fintype.piFinset_univ]
    rw [← Equiv.sum_comp number]
    refine Finset.sum_congr rfl fun j _ => ?_
    rw [hT.grad, ← Finset.prod_mul_distrib]
    rfl
  rw [Finset.sum_congr rfl fun j _ => by rw [MvPolynomial.eval_eq', Finset.mul_sum], Finset.sum_comm]
  conv_rhs => rw [G.as_sum, map_sum, map_sum]
  refine Finset.sum_congr rfl fun e he => ?_
  have hle : ∀ a, e a ≤ p := fun a => (MvPolynomial.degreeOf_le_iff.1 (hG a)) e he
  rw [MvPolynomial.pderiv_monomial, MvPolynomial.eval_monomial, Finsupp.prod_fintype _ _ fun a => pow_zero _]
  have := hmono e hle
  rw [show ∑ j, m.grad c j (m.toQ i) k * (MvPolynomial.coeff e G * ∏ a, supportPoint v number corner size c j a ^ e a) =
    MvPolynomial.coeff e G * ∑ j, m.grad c j (m.toQ i) k * ∏ a, supportPoint v number corner size c j a ^ e a from by
      rw [Finset.mul_sum]
      exact Finset.sum_congr rfl fun j _ => by ring]
  rw [this, mul_assoc]
  congr 1
  rw [← Finset.mul_prod_erase Finset.univ _ (Finset.mem_univ k), if_pos rfl, ← Finset.mul_prod_erase Finset.univ (fun a => supportPoint v number corner size c i a ^ ((e - Finsupp.single k 1 : Fin d →₀ ℕ) a)) (Finset.mem_univ k), mul_assoc]
  congr 2
  · simp
  · refine Finset.prod_congr rfl fun a ha => ?_
    have ha : a ≠ k := (Finset.mem_erase.1 ha).1
    rw [if_neg ha, Finsupp.coe_tsub, Pi.sub_apply, Finsupp.single_eq_of_ne ha, Nat.sub_zero]

end

variable {K : Type*} [Field K] [LinearOrder K] {d n nQ nf nq : ℕ} {C : Type*} [DecidableEq C]

/-- **C128** With the upwind flux, at a continuous state each distribution changes at the rate `-e · ∇u` of the finite element function, in
every degree of freedom: the fluxes through faces contribute nothing. -/
theorem C128_continuous (m : Mesh K d n nQ nf nq C) (hn : m.Nodal) (hm : ∀ c i, mass m c i ≠ 0) (e : Fin d → K) (cells : List C) (hc : cells.Nodup)
    (u : C × Fin n → K) (hu : m.Continuous u) (c : C) (h : c ∈ cells) (i : Fin n) :
    rate (reassemble m false e cells) u (c, i) = - ∑ k, e k * ∑ j, m.grad c j (m.toQ i) k * u (c, j) := by
  rw [rate_cell m false e cells hc c h]
  have h2 : faceSum m false e u c (fun k => if k = i then 1 else 0) = 0 := by
    unfold faceSum
    refine Finset.sum_eq_zero fun f _ => ?_
    cases hf : m.neighbor c f with
    | none => rfl
    | some y =>
      refine Finset.sum_eq_zero fun q _ => ?_
      rw [cellEntry, neighborEntry, hu c f y.1 y.2 hf q]
      simp only [Bool.false_eq_true, if_false]
      split_ifs <;> ring
  rw [h2, add_zero]
  have hM := hm c i
  rw [mass_nodal m hn] at hM
  unfold system derivative inverseMass
  rw [mass_nodal m hn, hn c i]
  simp only [Finset.mul_sum, Finset.sum_mul]
  rw [Finset.sum_comm, ← Finset.sum_neg_distrib]
  refine Finset.sum_congr rfl fun k _ => ?_
  rw [← Finset.sum_neg_distrib]
  refine Finset.sum_congr rfl fun j _ => ?_
  field_simp

/-- **C128** For tensor product elements on boxes: if the state is a continuous piecewise polynomial, of degree up to that of the element in each
coordinate, each distribution changes at the exact rate `-e · ∇G`, in every degree of freedom.  `G c` is the polynomial in cell `c`. -/
theorem C128_exact (m : Mesh K d n nQ nf nq C) (hn : m.Nodal) (hm : ∀ c i, mass m c i ≠ 0) (p : ℕ) (v : Fin (p + 1) → K)
    (number : Fin n ≃ (Fin d → Fin (p + 1))) (corner size : C → Fin d → K) (hT : m.Tensor p v number corner size) (e : Fin d → K) (cells : List C)
    (hc : cells.Nodup) (G : C → MvPolynomial (Fin d) K) (hG : ∀ c a, (G c).degreeOf a ≤ p)
    (hu : m.Continuous fun x => MvPolynomial.eval (supportPoint v number corner size x.1 x.2) (G x.1)) (c : C) (h : c ∈ cells) (i : Fin n) :
    rate (reassemble m false e cells) (fun x => MvPolynomial.eval (supportPoint v number corner size x.1 x.2) (G x.1)) (c, i) =
      - ∑ k, e k * MvPolynomial.eval (supportPoint v number corner size c i) (MvPolynomial.pderiv k (G c)) := by
  rw [C128_continuous m hn hm e cells hc _ hu c h i]
  congr 1
  exact Finset.sum_congr rfl fun k _ => by rw [C128_gradient m p v number corner size hT (G c) (hG c) c i k]

/-! ### A case that meets the hypotheses -/

namespace Sample

/-- The corners of the unit square, numbered like the degrees of freedom -/
def corners : Fin 4 ≃ (Fin 2 → Fin (1 + 1)) where
  toFun i := ![Fin.ofNat 2 (i.val % 2), Fin.ofNat 2 (i.val / 2)]
  invFun k := ⟨(k 0).val + 2 * (k 1).val, by have := (k 0).isLt; have := (k 1).isLt; omega⟩
  left_inv := by decide
  right_inv := by decide

theorem squares_tensor : squares.Tensor 1 ![0, 1] corners (fun c => ![(c.1.val : ℚ), c.2.val]) (fun _ _ => 1) where
  points := by
    intro a b h
    fin_cases a <;> fin_cases b <;> simp_all
  size_ne _ _ := one_ne_zero
  grad c j i k := by
    have h0 : ∀ x : ℚ, (Lagrange.basis Finset.univ ![(0 : ℚ), 1] 0).eval x = 1 - x ∧ (Lagrange.basis Finset.univ ![(0 : ℚ), 1] 1).eval x = x ∧
        (Polynomial.derivative (Lagrange.basis Finset.univ ![(0 : ℚ), 1] 0)).eval x = -1 ∧
        (Polynomial.derivative (Lagrange.basis Finset.univ ![(0 : ℚ), 1] 1)).eval x = 1 := by
      intro x
      rw [show (Finset.univ : Finset (Fin 2)) = {0, 1} from rfl, Lagrange.basis_pair_left (by decide), Lagrange.basis_pair_right (by decide)]
      simp [Lagrange.basisDivisor]
    have hb : ∀ (l : Fin (1 + 1)) (x : ℚ), (Lagrange.basis Finset.univ ![(0 : ℚ), 1] l).eval x = if l = 0 then 1 - x else x := by
      intro l x
      rcases (by decide : ∀ l : Fin (1 + 1), l = 0 ∨ l = 1) l with rfl | rfl
      · exact (h0 x).1
      · exact (h0 x).2.1
    have hd : ∀ (l : Fin (1 + 1)) (x : ℚ), (Polynomial.derivative (Lagrange.basis Finset.univ ![(0 : ℚ), 1] l)).eval x = if l = 0 then -1 else 1 := by
      intro l x
      rcases (by decide : ∀ l : Fin (1 + 1), l = 0 ∨ l = 1) l with rfl | rfl
      · exact (h0 x).2.2.1
      · exact (h0 x).2.2.2
    simp only [hb, hd]
    revert c j i k
    decide +kernel

/-- A continuous function with period 3 in the first direction: it rises, stays, and falls -/
noncomputable def tent (c : Fin 3 × Fin 3) : MvPolynomial (Fin 2) ℚ :=
  if c.1 = 0 then MvPolynomial.X 0 else if c.1 = 1 then 1 else 3 - MvPolynomial.X 0

theorem tent_eval (c : Fin 3 × Fin 3) (x : Fin 2 → ℚ) :
    MvPolynomial.eval x (tent c) = if c.1 = 0 then x 0 else if c.1 = 1 then 1 else 3 - x 0 := by
  unfold tent
  split_ifs
  · simp
  · simp
  · rw [map_sub, MvPolynomial.eval_X, map_ofNat]

theorem tent_degree (c : Fin 3 × Fin 3) (a : Fin 2) : (tent c).degreeOf a ≤ 1 := by
  have hX : (MvPolynomial.X 0 : MvPolynomial (Fin 2) ℚ).degreeOf a ≤ 1 := by
    rw [MvPolynomial.degreeOf_X]; split_ifs <;> omega
  unfold tent
  split_ifs
  · exact hX
  · rw [MvPolynomial.degreeOf_one]; omega
  · refine (MvPolynomial.degreeOf_sub_le _ _ _).trans (max_le ?_ hX)
    rw [show (3 : MvPolynomial (Fin 2) ℚ) = MvPolynomial.C 3 from (map_ofNat MvPolynomial.C 3).symm, MvPolynomial.degreeOf_C]; omega

theorem tent_continuous : squares.Continuous fun x =>
    MvPolynomial.eval (supportPoint ![0, 1] corners (fun c => ![(c.1.val : ℚ), c.2.val]) (fun _ _ => 1) x.1 x.2) (tent x.1) := by
  intro c f c' f' h q
  simp only [tent_eval, supportPoint]
  have : ∀ c f, ∀ y, squares.neighbor c f = some y → ∀ q,
      (if y.1.1 = 0 then ![(y.1.1.val : ℚ), y.1.2.val] 0 + 1 * ![(0 : ℚ), 1] (corners (squares.faceDof y.2 q) 0) else
        if y.1.1 = 1 then 1 else 3 - (![(y.1.1.val : ℚ), y.1.2.val] 0 + 1 * ![(0 : ℚ), 1] (corners (squares.faceDof y.2 q) 0))) =
      (if c.1 = 0 then ![(c.1.val : ℚ), c.2.val] 0 + 1 * ![(0 : ℚ), 1] (corners (squares.faceDof f q) 0) else
        if c.1 = 1 then 1 else 3 - (![(c.1.val : ℚ), c.2.val] 0 + 1 * ![(0 : ℚ), 1] (corners (squares.faceDof f q) 0))) := by decide +kernel
  exact this c f (c', f') h q

/-- `C128_exact`: in direction `(2, 1)` the tent falls at the rate 2 where it rises. -/
example (i : Fin 4) : rate (reassemble squares false ![2, 1] cells) (fun x =>
    MvPolynomial.eval (supportPoint ![0, 1] corners (fun c => ![(c.1.val : ℚ), c.2.val]) (fun _ _ => 1) x.1 x.2) (tent x.1)) ((0, 1), i) = -2 := by
  rw [C128_exact squares (by unfold Mesh.Nodal; decide +kernel) (by decide +kernel) 1 _ corners _ _ squares_tensor ![2, 1] cells (by decide +kernel) tent
    tent_degree tent_continuous (0, 1) (by decide +kernel) i]
  simp [tent]

end Sample

end Sedg
end NATriuM
