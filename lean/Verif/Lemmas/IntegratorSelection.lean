import Verif.Spec.IntegratorSelection
import Mathlib.Tactic.Ring
import Mathlib.Tactic.IntervalCases

namespace NATriuM

namespace IntegratorSelection

open Config

theorem foldl_addOne {K : Type*} [Field K] {n : ℕ} (l : List (Fin n)) (hl : l.Nodup) (M : Matrix (Fin n) (Fin n) K) (r c : Fin n) :
    l.foldl addOne M r c = M r c + if r = c ∧ r ∈ l then 1 else 0 := by
  induction l generalizing M with
  | nil => simp
  | cons a l ih =>
    rw [List.nodup_cons] at hl
    simp only [List.foldl_cons]
    rw [ih hl.2]
    simp only [addOne, Matrix.of_apply]
    by_cases h : r = c
    · subst h
      by_cases h1 : r = a
      · subst h1
        simp [hl.1]
      · simp [h1]
    · have : ¬(r = a ∧ c = a) := by rintro ⟨h1, h2⟩; exact h (h1.trans h2.symm)
      simp [h, this]

theorem idMinusTau_eq {K : Type*} [Field K] {n : ℕ} (A : Matrix (Fin n) (Fin n) K) (tau : K) : idMinusTau A tau = 1 - tau • A := by
  ext r c
  rw [idMinusTau, foldl_addOne _ (List.nodup_finRange n)]
  simp only [List.mem_finRange, and_true, Matrix.of_apply, Matrix.sub_apply, Matrix.smul_apply, smul_eq_mul, Matrix.one_apply]
  split_ifs <;> ring

theorem dispatch_eq {V M : Type*} (solve : ℕ → M → V → V → Option V) {solver : ℕ} (h : solver < 8) (hr : solver ≠ RELAXATION) (A : M) (f : V) :
    dispatch solve solver A f = solve solver A f f := by
  interval_cases solver <;> first | rfl | exact absurd rfl hr

end IntegratorSelection

end NATriuM
