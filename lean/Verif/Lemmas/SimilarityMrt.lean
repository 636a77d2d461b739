import Verif.Lemmas.Similarity
import Verif.Lemmas.CollisionStencil
import Mathlib.Data.Fintype.Perm

/-!
# Lemmas: symmetries of lattices and of the relaxation with multiple relaxation times
-/

namespace NATriuM
namespace StencilType.Symmetry

open Finset

/-! ## Invariants of pairs of directions -/

/-- What exchanges of axes and reflections leave unchanged -/
def invariants {D Q : ℕ} (e : Fin Q → Fin D → ℚ) (i j : Fin Q) : ℚ × ℚ × ℚ × ℚ :=
  (∑ a, e i a * e j a, ∑ a, (e i a * e j a) * (e i a * e j a), ∑ a, e i a * e i a, ∑ a, e j a * e j a)

/-- The part of the product of the two transformations that belongs to the moments with label `g` -/
def projector {Q G : ℕ} (T M : Fin Q → Fin Q → ℚ) (label : Fin Q → Fin G) (g : Fin G) (i j : Fin Q) : ℚ :=
  ∑ k, if label k = g then T i k * M k j else 0

/-- It depends on the invariants only. -/
def Isotropic {D Q G : ℕ} (e : Fin Q → Fin D → ℚ) (T M : Fin Q → Fin Q → ℚ) (label : Fin Q → Fin G) (reps : List (Fin Q × Fin Q)) : Prop :=
  ∀ g i j, (reps.find? fun r => invariants e r.1 r.2 = invariants e i j).map (fun r => projector T M label g r.1 r.2) = some (projector T M label g i j)

instance {D Q G : ℕ} (e : Fin Q → Fin D → ℚ) (T M : Fin Q → Fin Q → ℚ) (label : Fin Q → Fin G) (reps : List (Fin Q × Fin Q)) :
    Decidable (Isotropic e T M label reps) := by unfold Isotropic; infer_instance

theorem projector_perm {D Q G : ℕ} {e : Fin Q → Fin D → ℚ} {T M : Fin Q → Fin Q → ℚ} {label : Fin Q → Fin G} {reps : List (Fin Q × Fin Q)}
    (h : Isotropic e T M label reps) {i j i' j' : Fin Q} (hi : invariants e i' j' = invariants e i j) (g : Fin G) :
    projector T M label g i' j' = projector T M label g i j := by
  have h1 := h g i j
  have h2 := h g i' j'
  rw [hi, h1] at h2
  exact (Option.some.inj h2).symm

variable {t : StencilType} (y : t.Symmetry)

theorem invariants_perm {e : Fin t.Q → Fin t.D → ℚ} (he : ∀ i a, (t.stencil 1).dir i a = ((e i a : ℚ) : ℝ)) (i j : Fin t.Q) :
    invariants e (y.perm i) (y.perm j) = invariants e i j := by
  have hd : ∀ i a, ((e (y.perm i) a : ℚ) : ℝ) = y.sign a * ((e i (y.axes a) : ℚ) : ℝ) := fun i a => by
    rw [← he, ← he, y.dir]
  have hs : ∀ a, y.sign a * y.sign a = 1 := fun a => by rcases y.sign_eq a with h | h <;> rw [h] <;> norm_num
  have hsum : ∀ g g' : Fin t.D → ℝ, (∀ a, g' a = g (y.axes a)) → ∑ a, g' a = ∑ a, g a := fun g g' h => by
    rw [← Equiv.sum_comp y.axes g]; exact sum_congr rfl fun a _ => h a
  have dot : ∀ i j, ∑ a, e (y.perm i) a * e (y.perm j) a = ∑ a, e i a * e j a := fun i j => by
    have : ((∑ a, e (y.perm i) a * e (y.perm j) a : ℚ) : ℝ) = ((∑ a, e i a * e j a : ℚ) : ℝ) := by
      push_cast
      refine hsum _ _ fun a => ?_
      rw [hd, hd]
      linear_combination ((e i (y.axes a) : ℝ) * (e j (y.axes a) : ℝ)) * hs a
    exact_mod_cast this
  have sq : ∑ a, (e (y.perm i) a * e (y.perm j) a) * (e (y.perm i) a * e (y.perm j) a) = ∑ a, (e i a * e j a) * (e i a * e j a) := by
    have : ((∑ a, (e (y.perm i) a * e (y.perm j) a) * (e (y.perm i) a * e (y.perm j) a) : ℚ) : ℝ) = ((∑ a, (e i a * e j a) * (e i a * e j a) : ℚ) : ℝ) := by
      push_cast
      refine hsum _ _ fun a => ?_
      rw [hd, hd]
      linear_combination ((e i (y.axes a) : ℝ) * (e j (y.axes a) : ℝ)) ^ 2 * (y.sign a * y.sign a + 1) * hs a
    exact_mod_cast this
  unfold invariants
  rw [dot, dot, dot, sq]

/-- A relaxation whose rates depend on the label only -/
theorem mrtRelax_symmetric {G : ℕ} {e : Fin t.Q → Fin t.D → ℚ} (he : ∀ i a, (t.stencil 1).dir i a = ((e i a : ℚ) : ℝ))
    {T M : Fin t.Q → Fin t.Q → ℚ} {label : Fin t.Q → Fin G} {reps : List (Fin t.Q × Fin t.Q)} (h : Isotropic e T M label reps) (v : Fin G → ℝ)
    (omega : Fin t.Q → ℝ) (ho : ∀ k, omega k = v (label k)) (d d' : CollData ℝ t.D t.Q) (feq f : Fin t.Q → ℝ) :
    mrtRelax (MRT.ofTable M) (MRT.ofTable T) omega d' (y.populations feq) (y.populations f) =
      y.populations (mrtRelax (MRT.ofTable M) (MRT.ofTable T) omega d feq f) := by
  -- the relaxation in terms of the projectors
  have key : ∀ (d : CollData ℝ t.D t.Q) feq f i, mrtRelax (MRT.ofTable M) (MRT.ofTable T) omega d feq f i =
      ∑ g, ∑ j, ((projector T M label g i j : ℚ) : ℝ) * (f j - v g * (f j - feq j)) := by
    intro d feq f i
    have e1 : ∀ g, ∑ j, ((projector T M label g i j : ℚ) : ℝ) * (f j - v g * (f j - feq j)) =
        ∑ k, if label k = g then (T i k : ℝ) * ∑ j, (M k j : ℝ) * (f j - v g * (f j - feq j)) else 0 := by
      intro g
      unfold projector
      push_cast
      simp only [sum_mul]
      rw [sum_comm]
      refine sum_congr rfl fun k _ => ?_
      split
      · rw [mul_sum]; exact sum_congr rfl fun j _ => by push_cast; ring
      · simp
    simp only [e1]
    rw [sum_comm]
    simp only [sum_ite_eq, mem_univ, if_true]
    unfold mrtRelax matrixVectorProduct MRT.ofTable
    refine sum_congr rfl fun k _ => ?_
    congr 1
    simp only
    rw [ho k, ← sum_sub_distrib, mul_sum, ← sum_sub_distrib]
    exact sum_congr rfl fun j _ => by ring
  have hp : ∀ i, mrtRelax (MRT.ofTable M) (MRT.ofTable T) omega d' (y.populations feq) (y.populations f) (y.perm i) =
      mrtRelax (MRT.ofTable M) (MRT.ofTable T) omega d feq f i := by
    intro i
    rw [key, key]
    refine sum_congr rfl fun g _ => ?_
    rw [← Equiv.sum_comp y.perm]
    refine sum_congr rfl fun j _ => ?_
    rw [projector_perm h (y.invariants_perm he i j) g]
    have hf : ∀ f : Fin t.Q → ℝ, y.populations f (y.perm j) = f j := fun f => congrArg f (y.perm.symm_apply_apply j)
    rw [hf, hf]
  funext i
  have := hp (y.perm.symm i)
  rw [y.perm.apply_symm_apply] at this
  exact this

/-! ## Which symmetries a lattice has -/

/-- Lattices with directions in a table: every symmetry of the table is one of the lattice. -/
theorem exists_of_table (t : StencilType) {e : Fin t.Q → Fin t.D → ℚ} {w : Fin t.Q → ℚ} (he : ∀ c i a, (t.stencil c).dir i a = c * ((e i a : ℚ) : ℝ))
    (hw : ∀ c i, (t.stencil c).weight i = ((w i : ℚ) : ℝ)) (hinj : ∀ i j, e i = e j → i = j) (hrest : ∀ i, i.val = 0 ↔ e i = 0)
    (axes : Equiv.Perm (Fin t.D)) (flip : Fin t.D → Bool)
    (h : ∀ i, ∃ j, w j = w i ∧ ∀ a, e j a = (if flip a then -1 else 1) * e i (axes a)) :
    ∃ y : t.Symmetry, y.axes = axes ∧ y.sign = fun a => if flip a then -1 else 1 := by
  choose π hπw hπ using h
  have hs : ∀ a, (if flip a then -1 else 1 : ℚ) * (if flip a then -1 else 1) = 1 := fun a => by cases flip a <;> norm_num
  have hback : ∀ i a, e i (axes a) = (if flip a then -1 else 1) * e (π i) a := fun i a => by
    rw [hπ, ← mul_assoc, hs, one_mul]
  have hπi : Function.Injective π := fun i j hij => hinj i j (funext fun a => by
    have h1 := hback i (axes.symm a)
    have h2 := hback j (axes.symm a)
    rw [axes.apply_symm_apply] at h1 h2
    rw [h1, h2, hij])
  have hcast : ∀ a, (((if flip a then -1 else 1 : ℚ)) : ℝ) = if flip a then -1 else 1 := fun a => by cases flip a <;> norm_num
  have hopp : ∀ i, e ((t.stencil 1).opp i) = -e i := fun i => by
    funext a
    have := (C01_opposite t 1).reverses i a
    rw [he, he] at this
    have h' : ((e ((t.stencil 1).opp i) a : ℚ) : ℝ) = ((-e i a : ℚ) : ℝ) := by push_cast; linarith
    exact_mod_cast h'
  refine ⟨{ axes := axes, sign := fun a => if flip a then -1 else 1, perm := Equiv.ofBijective π (Finite.injective_iff_bijective.mp hπi),
            sign_eq := fun a => ?_, dir := fun c i a => ?_, weight := fun c i => ?_, opp := fun c i => ?_, rest := fun i => ?_ }, rfl, rfl⟩
  · cases flip a
    · exact Or.inl rfl
    · exact Or.inr rfl
  · show (t.stencil c).dir (π i) a = _
    rw [he, he, hπ, Rat.cast_mul, hcast]
    ring
  · show (t.stencil c).weight (π i) = _
    rw [hw, hw, hπw]
  · show (t.stencil c).opp (π i) = π ((t.stencil c).opp i)
    rw [t.opp_scale c 1]
    refine hinj _ _ (funext fun a => ?_)
    rw [hopp, Pi.neg_apply, hπ, hπ, hopp, Pi.neg_apply]
    ring
  · show (π i).val = 0 ↔ _
    rw [hrest, hrest]
    constructor
    · intro h0
      funext a
      have h1 := hback i (axes.symm a)
      rw [axes.apply_symm_apply, h0, Pi.zero_apply, mul_zero] at h1
      exact h1
    · intro h0
      funext a
      rw [hπ, h0, Pi.zero_apply, mul_zero]
      rfl

end StencilType.Symmetry

/-! ## The tables -/

namespace MRT

open StencilType.Symmetry

/-- Representatives of the pairs of directions -/
def reps9 : List (Fin 9 × Fin 9) :=
  [(0, 0), (0, 1), (0, 5), (1, 0), (1, 1), (1, 2), (1, 3), (1, 5), (1, 6), (5, 0), (5, 1), (5, 3), (5, 5), (5, 6), (5, 7)]

def reps19 : List (Fin 19 × Fin 19) :=
  [(0, 0), (0, 1), (0, 7), (1, 0), (1, 1), (1, 2), (1, 3), (1, 7), (1, 8), (1, 15), (7, 0), (7, 1), (7, 3), (7, 5), (7, 7), (7, 8), (7, 9), (7, 11), (7, 13)]

theorem dellar_isotropic : Isotropic (D2Q9.dir (1 : ℚ)) dellarT dellarM (![0, 1, 1, 2, 3, 2, 4, 5, 5] : Fin 9 → Fin 6) reps9 := by decide +kernel

theorem lallemand_isotropic : Isotropic (D2Q9.dir (1 : ℚ)) lallemandT lallemandM (![0, 1, 1, 2, 3, 4, 5, 5, 6] : Fin 9 → Fin 7) reps9 := by decide +kernel

theorem dHumieres_isotropic : Isotropic (D3Q19.dir (1 : ℚ)) dHumieresT dHumieresM
    (![0, 1, 2, 3, 4, 3, 4, 3, 4, 5, 6, 5, 6, 7, 7, 7, 8, 8, 8] : Fin 19 → Fin 9) reps19 := by decide +kernel

end MRT

namespace StencilType.Symmetry

theorem D2Q9_table : ∀ (axes : Equiv.Perm (Fin 2)) (flip : Fin 2 → Bool) (i : Fin 9), ∃ j, NATriuM.D2Q9.weight (K := ℚ) j = NATriuM.D2Q9.weight i ∧
    ∀ a, NATriuM.D2Q9.dir (1 : ℚ) j a = (if flip a then -1 else 1) * NATriuM.D2Q9.dir (1 : ℚ) i (axes a) := by decide +kernel

theorem D3Q15_table : ∀ (axes : Equiv.Perm (Fin 3)) (flip : Fin 3 → Bool) (i : Fin 15), ∃ j, NATriuM.D3Q15.weight (K := ℚ) j = NATriuM.D3Q15.weight i ∧
    ∀ a, NATriuM.D3Q15.dir (1 : ℚ) j a = (if flip a then -1 else 1) * NATriuM.D3Q15.dir (1 : ℚ) i (axes a) := by decide +kernel

theorem D3Q19_table : ∀ (axes : Equiv.Perm (Fin 3)) (flip : Fin 3 → Bool) (i : Fin 19), ∃ j, NATriuM.D3Q19.weight (K := ℚ) j = NATriuM.D3Q19.weight i ∧
    ∀ a, NATriuM.D3Q19.dir (1 : ℚ) j a = (if flip a then -1 else 1) * NATriuM.D3Q19.dir (1 : ℚ) i (axes a) := by decide +kernel

theorem D3Q27_table : ∀ (axes : Equiv.Perm (Fin 3)) (flip : Fin 3 → Bool) (i : Fin 27), ∃ j, NATriuM.D3Q27.weight (K := ℚ) j = NATriuM.D3Q27.weight i ∧
    ∀ a, NATriuM.D3Q27.dir (1 : ℚ) j a = (if flip a then -1 else 1) * NATriuM.D3Q27.dir (1 : ℚ) i (axes a) := by decide +kernel

theorem RD3Q27_table : ∀ (axes : Equiv.Perm (Fin 3)) (flip : Fin 3 → Bool) (i : Fin 27), ∃ j, NATriuM.RD3Q27.weight (K := ℚ) j = NATriuM.RD3Q27.weight i ∧
    ∀ a, NATriuM.RD3Q27.dir (1 : ℚ) j a = (if flip a then -1 else 1) * NATriuM.RD3Q27.dir (1 : ℚ) i (axes a) := by decide +kernel

theorem D2Q9_injective : ∀ i j : Fin 9, NATriuM.D2Q9.dir (1 : ℚ) i = NATriuM.D2Q9.dir 1 j → i = j := by decide +kernel

theorem D2Q9_rest : ∀ i : Fin 9, i.val = 0 ↔ NATriuM.D2Q9.dir (1 : ℚ) i = 0 := by decide +kernel

theorem D3Q15_injective : ∀ i j : Fin 15, NATriuM.D3Q15.dir (1 : ℚ) i = NATriuM.D3Q15.dir 1 j → i = j := by decide +kernel

theorem D3Q15_rest : ∀ i : Fin 15, i.val = 0 ↔ NATriuM.D3Q15.dir (1 : ℚ) i = 0 := by decide +kernel

theorem D3Q19_injective : ∀ i j : Fin 19, NATriuM.D3Q19.dir (1 : ℚ) i = NATriuM.D3Q19.dir 1 j → i = j := by decide +kernel

theorem D3Q19_rest : ∀ i : Fin 19, i.val = 0 ↔ NATriuM.D3Q19.dir (1 : ℚ) i = 0 := by decide +kernel

theorem D3Q27_injective : ∀ i j : Fin 27, NATriuM.D3Q27.dir (1 : ℚ) i = NATriuM.D3Q27.dir 1 j → i = j := by decide +kernel

theorem D3Q27_rest : ∀ i : Fin 27, i.val = 0 ↔ NATriuM.D3Q27.dir (1 : ℚ) i = 0 := by decide +kernel

theorem RD3Q27_injective : ∀ i j : Fin 27, NATriuM.RD3Q27.dir (1 : ℚ) i = NATriuM.RD3Q27.dir 1 j → i = j := by decide +kernel

theorem RD3Q27_rest : ∀ i : Fin 27, i.val = 0 ↔ NATriuM.RD3Q27.dir (1 : ℚ) i = 0 := by decide +kernel

/-- Relaxation towards zero with the rates 1/2, and 1 for moment 8 -/
theorem onlyN_zero {M T : Fin 9 → Fin 9 → ℚ} {d : CollData ℝ 2 9} (h : InversePair (MRT.ofTable M : Fin 9 → Fin 9 → ℝ) (MRT.ofTable T)) (f : Fin 9 → ℝ)
    (i : Fin 9) : mrtRelax (MRT.ofTable M) (MRT.ofTable T) (Function.update (fun _ => 1 / 2) 8 1) d 0 f i =
      1 / 2 * (f i - (T i 8 : ℝ) * ∑ j, (M 8 j : ℝ) * f j) := by
  have hf : ∑ k, (MRT.ofTable T i k : ℝ) * matrixVectorProduct (MRT.ofTable M) f k = f i := by
    unfold matrixVectorProduct
    simp only [Finset.mul_sum]
    rw [Finset.sum_comm]
    simp only [← mul_assoc, ← Finset.sum_mul, h.left, ite_mul, one_mul, zero_mul, Finset.sum_ite_eq, Finset.mem_univ, if_true]
  have h0 : ∀ k, matrixVectorProduct (MRT.ofTable M : Fin 9 → Fin 9 → ℝ) 0 k = 0 := fun k => by simp [matrixVectorProduct]
  have hk : ∀ k : Fin 9, (MRT.ofTable T i k : ℝ) * (matrixVectorProduct (MRT.ofTable M) f k -
      Function.update (fun _ => (1 / 2 : ℝ)) 8 1 k * (matrixVectorProduct (MRT.ofTable M) f k - matrixVectorProduct (MRT.ofTable M) 0 k)) =
      1 / 2 * (MRT.ofTable T i k * matrixVectorProduct (MRT.ofTable M) f k) -
        if k = 8 then 1 / 2 * (MRT.ofTable T i 8 * matrixVectorProduct (MRT.ofTable M) f 8) else 0 := by
    intro k
    rw [h0]
    by_cases h8 : k = 8
    · subst h8
      rw [Function.update_self, if_pos rfl]
      ring
    · rw [Function.update_of_ne h8, if_neg h8]
      ring
  show ∑ k, (MRT.ofTable T i k : ℝ) * (matrixVectorProduct (MRT.ofTable M) f k -
      Function.update (fun _ => (1 / 2 : ℝ)) 8 1 k * (matrixVectorProduct (MRT.ofTable M) f k - matrixVectorProduct (MRT.ofTable M) 0 k)) = _
  rw [Finset.sum_congr rfl fun k _ => hk k, Finset.sum_sub_distrib, ← Finset.mul_sum, hf, Finset.sum_ite_eq', if_pos (Finset.mem_univ _), ← mul_sub]
  rfl

end StencilType.Symmetry
end NATriuM
