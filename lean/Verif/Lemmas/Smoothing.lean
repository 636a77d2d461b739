import Verif.Spec.Smoothing
import Mathlib.Tactic.Ring
import Mathlib.Tactic.Linarith
import Mathlib.Tactic.Positivity

/-!
# Lemmas about filters
-/

namespace NATriuM
namespace Smoothing

theorem runMax_eq (a b : ℕ) : runMax a b = max a b := by
  unfold runMax; split <;> omega

section Projection
variable {n nq : ℕ}

theorem invert_eq {A B : Matrix (Fin n) (Fin n) ℝ} (h : invert A = some B) : B * A = 1 ∧ A * B = 1 := by
  unfold invert at h
  split at h
  · rename_i hd
    cases h
    have hu : IsUnit A.det := isUnit_iff_ne_zero.2 hd
    exact ⟨Matrix.nonsing_inv_mul A hu, Matrix.mul_nonsing_inv A hu⟩
  · cases h

theorem projections_eq {w : Fin nq → ℝ} {phi psi : Fin n → Fin nq → ℝ} {T F : Matrix (Fin n) (Fin n) ℝ}
    (h : projections w phi psi = some (T, F)) :
    (∃ Gi, Gi * quadLegendre w psi = 1 ∧ T = Gi * quadSource w phi psi) ∧ F * T = 1 ∧ T * F = 1 := by
  unfold projections at h
  cases h1 : invert (quadLegendre w psi) with
  | none => simp [h1] at h
  | some Gi =>
    simp only [h1] at h
    cases h2 : invert (Gi * quadSource w phi psi) with
    | none => simp [h2] at h
    | some F' =>
      simp only [h2, Option.some.injEq, Prod.mk.injEq] at h
      obtain ⟨rfl, rfl⟩ := h
      exact ⟨⟨Gi, (invert_eq h1).1, rfl⟩, invert_eq h2⟩

/-- If both expansions have the same values in the quadrature points, the matrix finds the coefficients of the modes. -/
theorem toModes_eq {w : Fin nq → ℝ} {phi psi : Fin n → Fin nq → ℝ} {T F : Matrix (Fin n) (Fin n) ℝ}
    (h : projections w phi psi = some (T, F)) (u m : Fin n → ℝ) (hum : ∀ q, ∑ i, u i * phi i q = ∑ k, m k * psi k q) :
    T.mulVec u = m := by
  obtain ⟨⟨Gi, hG, hT⟩, -⟩ := projections_eq h
  have h1 : (quadSource w phi psi).mulVec u = (quadLegendre w psi).mulVec m := by
    funext k
    simp only [Matrix.mulVec, dotProduct, quadSource, quadLegendre, Finset.sum_mul]
    rw [Finset.sum_comm]
    conv_rhs => rw [Finset.sum_comm]
    refine Finset.sum_congr rfl fun q _ => ?_
    have h2 := congrArg (fun x => w q * psi k q * x) (hum q)
    simp only [Finset.mul_sum] at h2
    refine Eq.trans (Finset.sum_congr rfl fun i _ => ?_) (h2.trans (Finset.sum_congr rfl fun i _ => ?_)) <;> ring
  rw [hT, ← Matrix.mulVec_mulVec, h1, Matrix.mulVec_mulVec, hG, Matrix.one_mulVec]

theorem toModes_filterCell {w : Fin nq → ℝ} {phi psi : Fin n → Fin nq → ℝ} {T F : Matrix (Fin n) (Fin n) ℝ}
    (h : projections w phi psi = some (T, F)) (factor u : Fin n → ℝ) :
    T.mulVec (filterCell T F factor u) = fun i => factor i * T.mulVec u i := by
  obtain ⟨-, -, hTF⟩ := projections_eq h
  unfold filterCell
  rw [Matrix.mulVec_mulVec, hTF, Matrix.one_mulVec]

variable {D : Type*} [DecidableEq D]

theorem foldl_update_of_notMem (dof : Fin n → D) (v : Fin n → ℝ) (l : List (Fin n)) (u : D → ℝ) (d : D) (hd : ∀ i ∈ l, dof i ≠ d) :
    l.foldl (fun u i => Function.update u (dof i) (v i)) u d = u d := by
  induction l generalizing u with
  | nil => rfl
  | cons a l ih =>
    rw [List.foldl_cons, ih _ fun i hi => hd i (List.mem_cons_of_mem _ hi),
      Function.update_of_ne (Ne.symm (hd a List.mem_cons_self))]

theorem foldl_update_of_mem (dof : Fin n → D) (hdof : Function.Injective dof) (v : Fin n → ℝ) (l : List (Fin n)) (u : D → ℝ)
    (i : Fin n) (hi : i ∈ l) : l.foldl (fun u i => Function.update u (dof i) (v i)) u (dof i) = v i := by
  induction l generalizing u with
  | nil => simp at hi
  | cons a l ih =>
    rw [List.foldl_cons]
    by_cases h : i ∈ l
    · exact ih _ h
    · have : i = a := (List.mem_cons.1 hi).resolve_right h
      subst this
      rw [foldl_update_of_notMem _ _ _ _ _ fun j hj hji => h (by rw [← hdof hji]; exact hj), Function.update_self]

theorem writeCell_other (dof : Fin n → D) (v : Fin n → ℝ) (u : D → ℝ) (d : D) (hd : ∀ i, dof i ≠ d) : writeCell dof v u d = u d :=
  foldl_update_of_notMem _ _ _ _ _ fun i _ => hd i

theorem writeCell_own (dof : Fin n → D) (hdof : Function.Injective dof) (v : Fin n → ℝ) (u : D → ℝ) (i : Fin n) :
    writeCell dof v u (dof i) = v i := foldl_update_of_mem _ hdof _ _ _ _ (List.mem_finRange i)

variable {C : Type*}

theorem applyFilter_other (T F : Matrix (Fin n) (Fin n) ℝ) (factor : Fin n → ℝ) (dof : C → Fin n → D) (cells : List C) (u : D → ℝ) (d : D)
    (hd : ∀ c ∈ cells, ∀ i, dof c i ≠ d) : applyFilter T F factor dof cells u d = u d := by
  unfold applyFilter
  induction cells generalizing u with
  | nil => rfl
  | cons a l ih =>
    rw [List.foldl_cons, ih _ fun c hc => hd c (List.mem_cons_of_mem _ hc), writeCell_other _ _ _ _ (hd a List.mem_cons_self)]

theorem applyFilter_own (T F : Matrix (Fin n) (Fin n) ℝ) (factor : Fin n → ℝ) (dof : C → Fin n → D)
    (hdof : ∀ c c' i i', dof c i = dof c' i' → c = c' ∧ i = i') (cells : List C) (hc : cells.Nodup) (u : D → ℝ) (c : C) (h : c ∈ cells)
    (i : Fin n) : applyFilter T F factor dof cells u (dof c i) = filterCell T F factor (fun i => u (dof c i)) i := by
  induction cells generalizing u with
  | nil => simp at h
  | cons a l ih =>
    have ha : a ∉ l := (List.nodup_cons.1 hc).1
    have step : applyFilter T F factor dof (a :: l) u = applyFilter T F factor dof l
        (writeCell (dof a) (filterCell T F factor fun i => u (dof a i)) u) := rfl
    rw [step]
    by_cases hca : c = a
    · subst hca
      rw [applyFilter_other _ _ _ _ _ _ _ fun c' hc' j hj => ha (by rw [← (hdof _ _ _ _ hj).1]; exact hc'),
        writeCell_own _ fun j j' hj => (hdof _ _ _ _ hj).2]
    · rw [ih (List.nodup_cons.1 hc).2 _ ((List.mem_cons.1 h).resolve_left hca)]
      congr 1
      funext j
      exact writeCell_other _ _ _ _ fun j' hj => hca ((hdof _ _ _ _ hj).1).symm

end Projection

end Smoothing
end NATriuM
