import Verif.Spec.SlMaximum
import Verif.Lemmas.SlSolver

/-!
# Lemmas: finite elements without overshoots
-/

namespace NATriuM
namespace SlSolver

variable {t : StencilType} {K : Type*} [Field K] [LinearOrder K] [IsStrictOrderedRing K] {m n N : ℕ} {C : Type*} {s : Setup t K m n N C}

theorem multiply_mono (hs : Sound s) (hp : NonnegativeShapes s.mesh) {f g : Walls.Store ℝ t.Q (Fin N)} (h : ∀ i y, f i y ≤ g i y) (i : Fin t.Q)
    (y : Fin N) : multiply s f i y ≤ multiply s g i y := by
  have hby : ∀ b z, byNumber f b z ≤ byNumber g b z := by
    intro b z
    unfold byNumber
    split_ifs
    · exact h _ _
    · exact le_rfl
    · exact le_rfl
  unfold multiply
  by_cases hi0 : i.val = 0
  · rw [hi0]
    exact hby 0 y
  have h0 : 0 < i.val := Nat.pos_of_ne_zero hi0
  obtain ⟨ho, cell, hcell, hy⟩ := hs.everywhere y
  obtain ⟨path, e, hnew, hfol, hok, hperm⟩ := Paths.entries_of_fill hs.assembled hcell y.val i.val hy ho h0 (by rw [hs.number]; exact i.isLt)
  rw [multiply_row (s := s) (byNumber f) i.val y.val h0 hperm, multiply_row (s := s) (byNumber g) i.val y.val h0 hperm]
  refine List.sum_le_sum fun x hx => mul_le_mul_of_nonneg_left (hby _ _) ?_
  have hv : 0 ≤ x.value := by
    cases e with
    | dropped p => cases hx
    | expired p =>
      simp only [Paths.Ended.entries, List.mem_singleton] at hx
      subst hx
      exact zero_le_one
    | found p =>
      obtain ⟨es, hes⟩ := hok
      simp only [Paths.Ended.entries, hes] at hx
      unfold Paths.foundEntries at hes
      cases hu : Paths.unitDeparture s.mesh p with
      | error e => rw [hu] at hes; cases hes
      | ok u =>
        rw [hu] at hes
        cases hes
        obtain ⟨dof, hdof, hd⟩ := List.mem_filterMap.1 hx
        split_ifs at hd
        cases hd
        exact hp _ _ (Paths.unitDeparture_ok s.mesh p u hu).1
  have := hs.embedding.monotone hv
  rwa [map_zero] at this

omit [LinearOrder K] [IsStrictOrderedRing K] in
theorem advect_f (hw : WallsAtRest s) (time : ℝ) (x : Fin N → Node ℝ t.D t.Q) (i : Fin t.Q) (y : Fin N) :
    (advect s time x y).f i = multiply s (populations x) i y := by
  unfold advect
  rw [applyBoundaryConditions_rest hw]
  rfl

/-- The matrix applied to rational numbers -/
theorem stream_cast (es : List (Paths.Entry ℚ)) (g : ℕ → ℕ → ℚ) (b i : ℕ) :
    Paths.stream (es.map fun e => (⟨e.blockRow, e.blockColumn, e.row, e.column, (e.value : ℝ)⟩ : Paths.Entry ℝ)) (fun b i => (g b i : ℝ)) b i =
      ((Paths.stream es g b i : ℚ) : ℝ) := by
  cases b with
  | zero => rfl
  | succ a =>
    simp only [Paths.stream, Paths.vmult, List.filter_map, List.map_map, Rat.cast_list_sum]
    refine congrArg List.sum (List.map_congr_left fun e _ => ?_)
    simp

end SlSolver
end NATriuM
