import Verif.Lemmas.SlMaximum
import Verif.Props.SlSolver

/-!
# Property C141: streaming without overshoots
-/

namespace NATriuM
namespace SlSolver

variable {t : StencilType} {K : Type*} [Field K] [LinearOrder K] [IsStrictOrderedRing K] {m n N : ℕ} {C : Type*} {s : Setup t K m n N C}

/-- **C141** With shape functions that are not negative, streaming makes no new extreme values, in any number of steps: populations stay between the
bounds they have had in the beginning.  The bounds may be other ones for each direction; if there are walls, those of opposite directions are equal. -/
theorem C141_maximum_partial (hs : Sound s) (hsm : NoSmallWeights s) (hw : WallsAtRest s) (hp : NonnegativeShapes s.mesh) {L U : Fin t.Q → ℝ}
    (hLU : (s.mesh.NoBounceBack ∧ s.mesh.NoDoNothing) ∨ ∀ i, L ((t.stencil s.c).opp i) = L i ∧ U ((t.stencil s.c).opp i) = U i) {time : ℕ → ℝ}
    {x : ℕ → Fin N → Node ℝ t.D t.Q} (hx : ∀ k, x (k + 1) = advect s (time k) (x k)) (h0 : ∀ i y, L i ≤ (x 0 y).f i ∧ (x 0 y).f i ≤ U i) (k : ℕ) :
    ∀ i y, L i ≤ (x k y).f i ∧ (x k y).f i ≤ U i := by
  induction k with
  | zero => exact h0
  | succ k ih =>
    intro i y
    rw [hx, advect_f hw]
    have hL := multiply_uniform hs hsm L (hLU.imp id fun h i => (h i).1) (fun i _ => L i) fun _ _ => rfl
    have hU := multiply_uniform hs hsm U (hLU.imp id fun h i => (h i).2) (fun i _ => U i) fun _ _ => rfl
    constructor
    · have := multiply_mono hs hp (f := fun i _ => L i) (g := populations (x k)) (fun i y => (ih i y).1) i y
      rwa [hL] at this
    · have := multiply_mono hs hp (f := populations (x k)) (g := fun i _ => U i) (fun i y => (ih i y).2) i y
      rwa [hU] at this

/-- **C141** Populations that are not negative stay so, also if small weights are left out; and if there are more than `1e-10` resting particles in each
node, the densities after streaming are above the threshold of the collision. -/
theorem C141_positive (hs : Sound s) (hw : WallsAtRest s) (hp : NonnegativeShapes s.mesh) (time : ℝ) (x : Fin N → Node ℝ t.D t.Q)
    (h0 : ∀ i y, 0 ≤ (x y).f i) :
    (∀ i y, 0 ≤ (advect s time x y).f i) ∧
    ∀ y, (∀ i : Fin t.Q, i.val = 0 → 1 / 10 ^ 10 < (x y).f i) → 1 / 10 ^ 10 < Spec.mass (advect s time x y).f := by
  have key : ∀ i y, 0 ≤ (advect s time x y).f i := by
    intro i y
    rw [advect_f hw]
    refine le_of_eq_of_le ?_ (multiply_mono hs hp (f := fun _ _ => 0) (g := populations x) (fun i y => h0 i y) i y)
    have hb : ∀ b z, byNumber (t := t) (N := N) (fun _ _ => 0) b z = 0 := by
      intro b z
      unfold byNumber
      split_ifs <;> rfl
    unfold multiply
    cases i.val with
    | zero => exact (hb 0 y).symm
    | succ a =>
      refine (List.sum_eq_zero fun v hv => ?_).symm
      obtain ⟨e, _, rfl⟩ := List.mem_map.1 hv
      simp only [hb, mul_zero]
  refine ⟨key, fun y hy => ?_⟩
  have hQ : 0 < t.Q := by cases t <;> decide
  have hf : (advect s time x y).f ⟨0, hQ⟩ = (x y).f ⟨0, hQ⟩ := by
    rw [advect_f hw]
    exact byNumber_val (populations x) ⟨0, hQ⟩ y
  refine lt_of_lt_of_le (hy ⟨0, hQ⟩ rfl) (hf ▸ ?_)
  exact Finset.single_le_sum (f := (advect s time x y).f) (fun i _ => key i y) (Finset.mem_univ _)

/-! ## Linear and quadratic elements -/

namespace Sample

theorem linear_nonnegative (left right) : NonnegativeShapes (mesh 1 left right) := by
  intro h k hh
  show 0 ≤ lagrange 1 _ (h 0) * lagrange 1 _ (h 1)
  have key : ∀ j : ℕ, ∀ a : Fin 2, 0 ≤ lagrange 1 j (h a) := by
    intro j a
    have := hh a
    unfold lagrange
    rw [if_pos rfl]
    split_ifs
    · linarith [this.2]
    · exact this.1
  exact mul_nonneg (key _ 0) (key _ 1)

/-- `C141_maximum_partial`: bounds in a box with walls -/
example (x : Fin 9 → Node ℝ 2 9) (h0 : ∀ i y, 0 ≤ (x y).f i ∧ (x y).f i ≤ 1) (k : ℕ) (i : Fin 9) (y : Fin 9) :
    0 ≤ ((advect (solver 1 (walls 1) (1 / 4) none) 0)^[k] x y).f i ∧ ((advect (solver 1 (walls 1) (1 / 4) none) 0)^[k] x y).f i ≤ 1 :=
  C141_maximum_partial sound_walls (noSmallWeights _ _ _ _ (by decide +kernel)) (rest _ _ _ _) (linear_nonnegative _ _) (L := fun _ => 0) (U := fun _ => 1)
    (.inr fun _ => ⟨rfl, rfl⟩) (time := fun _ => 0) (x := fun k => (advect (solver 1 (walls 1) (1 / 4) none) 0)^[k] x)
    (fun k => Function.iterate_succ_apply' _ _ _) h0 k i y

/-- `C141_positive`: a fluid at rest -/
example (y : Fin 9) : 1 / 10 ^ 10 < Spec.mass (advect (solver 1 (walls 1) (1 / 4) none) 0 (fun _ => ⟨fun _ => 1, 0, 0⟩) y).f :=
  (C141_positive sound_walls (rest _ _ _ _) (linear_nonnegative _ _) 0 (fun _ => ⟨fun _ => 1, 0, 0⟩) fun _ _ => zero_le_one).2 y
    fun _ _ => by norm_num

/-- A population of one in a single node -/
def spike (b y : ℕ) : ℚ := if b < 9 ∧ y = 2 then 1 else 0

/-- **C141** (finding) With quadratic elements streaming makes negative populations out of populations between zero and one. -/
theorem C141_quadratic_fails : ∃ x : Fin 25 → Node ℝ 2 9, (∀ i y, 0 ≤ (x y).f i ∧ (x y).f i ≤ 1) ∧
    ∃ i y, (advect (solver 2 (periodic 2) (1 / 4) none) 0 x y).f i < 0 := by
  refine ⟨fun y => ⟨fun i => (spike i y : ℝ), 0, 0⟩, fun i y => ?_, ?_⟩
  · simp only [spike]
    split_ifs <;> norm_num
  · have : ∃ i : Fin 9, ∃ y : Fin 25, Paths.stream (assembly (periodic 2) (1 / 4)).entries spike i y < 0 := by decide +kernel
    obtain ⟨i, y, h⟩ := this
    refine ⟨i, y, ?_⟩
    refine lt_of_eq_of_lt (advect_f (s := solver 2 (periodic 2) (1 / 4) none) (rest _ _ _ _) 0 _ i y) ?_
    have hb : byNumber (t := .D2Q9) (N := 25) (populations fun y => ⟨fun i => (spike i y : ℝ), 0, 0⟩) = fun b z => (spike b z : ℝ) := by
      funext b z
      unfold byNumber
      split_ifs with h1 h2
      · rfl
      · simp only [spike]
        rw [if_neg (by omega), Rat.cast_zero]
      · simp only [spike]
        rw [if_neg (by intro h; exact h1 h.1), Rat.cast_zero]
    unfold multiply
    refine lt_of_eq_of_lt (congrArg (fun f => Paths.stream _ f i.val y.val) hb) ?_
    refine lt_of_eq_of_lt (stream_cast _ spike i.val y.val) ?_
    exact_mod_cast h

end Sample

end SlSolver
end NATriuM
