import Verif.Spec.Rounding
import Verif.Lemmas.SlMaximum

/-!
# Lemmas: rounding errors
-/

namespace NATriuM
namespace SlSolver

variable {t : StencilType} {K : Type*} [Field K] [LinearOrder K] [IsStrictOrderedRing K] {m n N : ℕ} {C : Type*} {s : Setup t K m n N C}

omit [LinearOrder K] [IsStrictOrderedRing K] in
theorem multiply_add (s : Setup t K m n N C) (f g : Walls.Store ℝ t.Q (Fin N)) (i : Fin t.Q) (y : Fin N) :
    multiply s (fun i y => f i y + g i y) i y = multiply s f i y + multiply s g i y := by
  have hb : byNumber (fun i y => f i y + g i y) = fun b z => byNumber f b z + byNumber g b z := by
    funext b z
    unfold byNumber
    split_ifs <;> simp
  unfold multiply
  rw [hb]
  cases i.val with
  | zero => rfl
  | succ a =>
    simp only [Paths.stream, Paths.vmult, mul_add]
    exact List.sum_map_add

/-- Nonnegative rows that add up to one do not increase the largest difference. -/
theorem multiply_contracts (hs : Sound s) (hsm : NoSmallWeights s) (hp : NonnegativeShapes s.mesh) {f g : Walls.Store ℝ t.Q (Fin N)} {B : ℝ}
    (h : Close B f g) : Close B (multiply s f) (multiply s g) := by
  intro i y
  have hB := multiply_uniform hs hsm (fun _ => B) (.inr fun _ => rfl) (fun _ _ => B) fun _ _ => rfl
  have key : ∀ f g : Walls.Store ℝ t.Q (Fin N), (∀ i y, |f i y - g i y| ≤ B) → multiply s f i y ≤ multiply s g i y + B := by
    intro f g h
    have h1 := multiply_mono hs hp (f := f) (g := fun i y => g i y + B) (fun i y => by linarith [(abs_le.1 (h i y)).2]) i y
    rwa [multiply_add s g (fun _ _ => B), hB] at h1
  refine abs_le.2 ⟨?_, ?_⟩
  · linarith [key g f fun i y => by rw [abs_sub_comm]; exact h i y]
  · linarith [key f g h]

omit [LinearOrder K] [IsStrictOrderedRing K] in
theorem boundaries_keep_close (hw : WallsKeepClose s) (time : ℝ) {B : ℝ} {old old' new new' : Walls.Store ℝ t.Q (Fin N)} (ho : Close B old old')
    (hn : Close B new new') : Close B (applyBoundaryConditions s time old new) (applyBoundaryConditions s time old' new') := by
  unfold applyBoundaryConditions
  have : ∀ l : List _, (∀ hit ∈ l, hit ∈ s.assembly.hits) → ∀ new new', Close B new new' →
      Close B (l.foldl (fun f hit => s.applyHit time hit old f) new) (l.foldl (fun f hit => s.applyHit time hit old' f) new') := by
    intro l
    induction l with
    | nil => intro _ _ _ h; exact h
    | cons hit l ih =>
      intro hl new new' h
      exact ih (fun h hh => hl h (List.mem_cons_of_mem _ hh)) _ _ (hw hit (hl hit List.mem_cons_self) time B _ _ _ _ ho h)
  exact this _ (fun _ h => h) _ _ hn

/-- A streaming step does not amplify differences. -/
theorem advect_keeps_close (hs : Sound s) (hsm : NoSmallWeights s) (hw : WallsKeepClose s) (hp : NonnegativeShapes s.mesh) (time : ℝ) {B : ℝ}
    {x z : Fin N → Node ℝ t.D t.Q} (h : Close B (populations x) (populations z)) : Close B (populations (advect s time x)) (populations (advect s time z)) :=
  boundaries_keep_close hw time h (multiply_contracts hs hsm hp h)

end SlSolver
end NATriuM
