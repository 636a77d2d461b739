import Verif.Spec.Accuracy
import Verif.Lemmas.PathTracking
import Mathlib.Tactic.Ring
import Mathlib.Tactic.Positivity
import Mathlib.Tactic.NormNum
import Mathlib.Algebra.MvPolynomial.Degrees
import Mathlib.Algebra.BigOperators.Ring.Finset

/-!
# Lemmas on interpolation
-/

namespace NATriuM
namespace Paths

section

variable {K : Type*} [Field K] [LinearOrder K] {m : ℕ} {C : Type*}

theorem zipIdx_sum_mul {A : Type*} (l : List A) (n : ℕ) (w : ℕ → K) (g : A → K) (G : ℕ → K)
    (hG : ∀ k x, l[k]? = some x → g x = G (n + k)) :
    ((l.zipIdx n).map fun x => w x.2 * g x.1).sum = ∑ k ∈ Finset.range l.length, w (n + k) * G (n + k) := by
  induction l generalizing n with
  | nil => rfl
  | cons x l ih =>
    rw [List.zipIdx_cons, List.map_cons, List.sum_cons, ih (n + 1) fun k y hy => by
      rw [hG (k + 1) y (by simpa using hy), show n + 1 + k = n + (k + 1) by omega], List.length_cons, Finset.sum_range_succ']
    have := hG 0 x rfl
    simp only [Nat.add_zero] at this ⊢
    rw [this, add_comm]
    congr 1
    exact Finset.sum_congr rfl fun k _ => by rw [show n + 1 + k = n + (k + 1) by omega]

theorem interpolated_samples (mesh : Mesh K m C) (cell : C) (h : Fin (m + 2) → K) (g : (Fin (m + 2) → K) → K) (f : ℕ → K)
    (hf : mesh.Samples g f) : interpolated mesh cell h f =
      ∑ k ∈ Finset.range (mesh.dofs cell).length,
        (if |mesh.shape k h| < 1 / 10 ^ 10 then 0 else mesh.shape k h) * g (mesh.supportPoint cell k) := by
  have := zipIdx_sum_mul (mesh.dofs cell) 0 (fun k => if |mesh.shape k h| < 1 / 10 ^ 10 then 0 else mesh.shape k h) f
    (fun k => g (mesh.supportPoint cell k)) (fun k j hj => by rw [hf cell k j hj, Nat.zero_add])
  simp only [zero_add] at this
  exact this

theorem snap_self [IsStrictOrderedRing K] {y : K} (h : y = 0 ∨ y = 1 ∨ (1 / 10 ^ 10 ≤ |y| ∧ 1 / 10 ^ 10 ≤ |y - 1|)) : snap y = y := by
  unfold snap roundOff
  rcases h with rfl | rfl | ⟨h1, h2⟩
  · norm_num
  · norm_num
  · have h1 : ¬ |y| < 1 / 10 ^ 10 := not_lt.2 h1
    have h2 : ¬ |y - 1| < 1 / 10 ^ 10 := not_lt.2 h2
    rw [if_neg h1, if_neg h2]

theorem interpolated_exact [IsStrictOrderedRing K] (mesh : Mesh K m C) (p : Tracker K (m + 2) C) (hp : mesh.Exact p) (g : (Fin (m + 2) → K) → K) (f : ℕ → K)
    (hg : mesh.Represents g) (hf : mesh.Samples g f) (x : Fin (m + 2) → K) (hx : unitDeparture mesh p = .ok x) :
    interpolated mesh p.currentCell x f = g p.departurePoint := by
  obtain ⟨hc, y, hy, _⟩ := unitDeparture_ok mesh p x hx
  obtain ⟨h1, h2, h3⟩ := hp y hy
  have hxe : x = y := by
    unfold unitDeparture at hx
    rw [hy] at hx
    dsimp only at hx
    split_ifs at hx
    cases hx
    exact funext fun a => snap_self (h1 a)
  subst hxe
  rw [interpolated_samples mesh _ x g f hf, ← h3, ← hg p.currentCell x hc]
  refine Finset.sum_congr rfl fun k hk => ?_
  split_ifs with hs
  · rcases h2 k (Finset.mem_range.1 hk) with hz | hz
    · rw [hz]
    · exact absurd hs (not_lt.2 hz)
  · rfl

theorem tensor_monomial (mesh : Mesh K m C) (p : ℕ) (v : Fin (p + 1) → K) (number : (Fin (m + 2) → Fin (p + 1)) → ℕ)
    (corner size : C → Fin (m + 2) → K) (hT : mesh.Tensor p v number corner size) (cell : C) (h : Fin (m + 2) → K)
    (d : Fin (m + 2) → ℕ) (hd : ∀ a, d a ≤ p) :
    ∑ k ∈ Finset.range (mesh.dofs cell).length, mesh.shape k h * ∏ a, mesh.supportPoint cell k a ^ d a =
      ∏ a, (mesh.mapping cell).toReal h a ^ d a := by
  classical
  have hb := hT.numbers cell
  have h1 : ∑ k ∈ Finset.range (mesh.dofs cell).length, mesh.shape k h * ∏ a, mesh.supportPoint cell k a ^ d a =
      ∑ k : Fin (m + 2) → Fin (p + 1), mesh.shape (number k) h * ∏ a, mesh.supportPoint cell (number k) a ^ d a := by
    symm
    refine Finset.sum_nbij number (fun k _ => ?_) (fun k _ l _ e => hb.injOn (Set.mem_univ k) (Set.mem_univ l) e) (fun k hk => ?_) fun k _ => rfl
    · exact Finset.mem_coe.1 (hb.mapsTo (Set.mem_univ k))
    · obtain ⟨l, _, hl⟩ := hb.surjOn hk
      exact ⟨l, Finset.mem_coe.2 (Finset.mem_univ l), hl⟩
  rw [h1]
  have h2 : ∀ a, ∑ j : Fin (p + 1), (Lagrange.basis Finset.univ v j).eval (h a) * (corner cell a + size cell a * v j) ^ d a =
      (corner cell a + size cell a * h a) ^ d a := by
    intro a
    have hdeg : ((Polynomial.C (corner cell a) + Polynomial.C (size cell a) * Polynomial.X) ^ d a).degree < ((Finset.univ : Finset (Fin (p + 1))).card : WithBot ℕ) := by
      rw [Finset.card_univ, Fintype.card_fin]
      have h3 : (Polynomial.C (corner cell a) + Polynomial.C (size cell a) * Polynomial.X).natDegree ≤ 1 := by
        rw [add_comm]; exact Polynomial.natDegree_linear_le
      have h4 : ((Polynomial.C (corner cell a) + Polynomial.C (size cell a) * Polynomial.X) ^ d a).natDegree ≤ d a := by
        refine Polynomial.natDegree_pow_le.trans ?_
        calc d a * _ ≤ d a * 1 := Nat.mul_le_mul_left _ h3
          _ = d a := Nat.mul_one _
      refine lt_of_le_of_lt Polynomial.degree_le_natDegree ?_
      exact_mod_cast lt_of_le_of_lt (h4.trans (hd a)) (Nat.lt_succ_self p)
    have := congrArg (Polynomial.eval (h a)) (Lagrange.eq_interpolate (v := v) hT.points.injOn hdeg)
    rw [Lagrange.interpolate_apply, Polynomial.eval_finset_sum] at this
    simp only [Polynomial.eval_mul, Polynomial.eval_C, Polynomial.eval_pow, Polynomial.eval_add, Polynomial.eval_X] at this
    rw [this]
    exact Finset.sum_congr rfl fun j _ => mul_comm _ _
  rw [Finset.prod_congr rfl fun a _ => by rw [hT.real cell h a, ← h2 a], Finset.prod_univ_sum, Fintype.piFinset_univ]
  refine Finset.sum_congr rfl fun k _ => ?_
  rw [hT.shape, ← Finset.prod_mul_distrib]
  exact Finset.prod_congr rfl fun a _ => by rw [hT.support]

end

end Paths
end NATriuM
