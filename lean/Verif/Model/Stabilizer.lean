import Verif.Model.StencilType

/-!
# The pseudo-entropic stabilizer

`P/dataprocessors/PseudoEntropicStabilizer.cpp`.  The matrices are transcribed entry by entry.
-/

namespace NATriuM

open Finset

namespace Stabilizer

/-- numerators `n`, `P/dataprocessors/PseudoEntropicStabilizer.cpp:26-30` -/
def n : Fin 9 → Fin 9 → ℚ :=
  ![![8, 2, 2, 2, 2, -4, -4, -4, -4],
    ![1, 13, -1, 1, -1, 5, -1, -1, 5],
    ![1, -1, 13, -1, 1, 5, 5, -1, -1],
    ![1, 1, -1, 13, -1, -1, 5, 5, -1],
    ![1, -1, 1, -1, 13, -1, -1, 5, 5],
    ![-1, 5, 5, -1, -1, 5, -1, 2, -1],
    ![-1, -1, 5, 5, -1, -1, 5, -1, 2],
    ![-1, -1, -1, 5, 5, 2, -1, 5, -1],
    ![-1, 5, -1, -1, 5, -1, 2, -1, 5]]

/-- denominators `d`, `P/dataprocessors/PseudoEntropicStabilizer.cpp:32-38` -/
def d : Fin 9 → Fin 9 → ℚ :=
  ![![9, 9, 9, 9, 9, 9, 9, 9, 9],
    ![18, 18, 9, 18, 9, 9, 9, 9, 9],
    ![18, 9, 18, 9, 18, 9, 9, 9, 9],
    ![18, 18, 9, 18, 9, 9, 9, 9, 9],
    ![18, 9, 18, 9, 18, 9, 9, 9, 9],
    ![36, 36, 36, 36, 36, 9, 9, 9, 9],
    ![36, 36, 36, 36, 36, 9, 9, 9, 9],
    ![36, 36, 36, 36, 36, 9, 9, 9, 9],
    ![36, 36, 36, 36, 36, 9, 9, 9, 9]]

/-- `nd_d2q9_with_e`, `P/dataprocessors/PseudoEntropicStabilizer.cpp:39-50` -/
def withE : Fin 9 → Fin 9 → ℚ :=
  ![![4 / 9, 4 / 9, 4 / 9, 4 / 9, 4 / 9, 4 / 9, 4 / 9, 4 / 9, 4 / 9],
    ![1 / 9, 25 / 36, -5 / 36, 1 / 36, -5 / 36, 4 / 9, -2 / 9, -2 / 9, 4 / 9],
    ![1 / 9, -5 / 36, 25 / 36, -5 / 36, 1 / 36, 4 / 9, 4 / 9, -2 / 9, -2 / 9],
    ![1 / 9, 1 / 36, -5 / 36, 25 / 36, -5 / 36, -2 / 9, 4 / 9, 4 / 9, -2 / 9],
    ![1 / 9, -5 / 36, 1 / 36, -5 / 36, 25 / 36, -2 / 9, -2 / 9, 4 / 9, 4 / 9],
    ![1 / 36, 1 / 9, 1 / 9, -1 / 18, -1 / 18, 4 / 9, -2 / 9, 1 / 9, -2 / 9],
    ![1 / 36, -1 / 18, 1 / 9, 1 / 9, -1 / 18, -2 / 9, 4 / 9, -2 / 9, 1 / 9],
    ![1 / 36, -1 / 18, -1 / 18, 1 / 9, 1 / 9, 1 / 9, -2 / 9, 4 / 9, -2 / 9],
    ![1 / 36, 1 / 9, -1 / 18, -1 / 18, 1 / 9, -2 / 9, 1 / 9, -2 / 9, 4 / 9]]

/-- `nd_d3q19`, `P/dataprocessors/PseudoEntropicStabilizer.cpp:52-114` -/
def d3q19 : Fin 19 → Fin 19 → ℚ :=
  ![![5 / 6, 1 / 3, 1 / 3, 1 / 3, 1 / 3, 1 / 3, 1 / 3, -1 / 6, -1 / 6, -1 / 6, -1 / 6, -1 / 6, -1 / 6, -1 / 6, -1 / 6, -1 / 6, -1 / 6, -1 / 6, -1 / 6],
    ![1 / 18, 7 / 18, -1 / 36, 1 / 18, -1 / 36, -1 / 36, -1 / 36, 11 / 36, -1 / 36, -1 / 36, 11 / 36, 11 / 36, 11 / 36, -1 / 36, -1 / 36, -1 / 9, -1 / 9, -1 / 9, -1 / 9],
    ![1 / 18, -1 / 36, 7 / 18, -1 / 36, 1 / 18, -1 / 36, -1 / 36, 11 / 36, 11 / 36, -1 / 36, -1 / 36, -1 / 9, -1 / 9, -1 / 9, -1 / 9, 11 / 36, 11 / 36, -1 / 36, -1 / 36],
    ![1 / 18, 1 / 18, -1 / 36, 7 / 18, -1 / 36, -1 / 36, -1 / 36, -1 / 36, 11 / 36, 11 / 36, -1 / 36, -1 / 36, -1 / 36, 11 / 36, 11 / 36, -1 / 9, -1 / 9, -1 / 9, -1 / 9],
    ![1 / 18, -1 / 36, 1 / 18, -1 / 36, 7 / 18, -1 / 36, -1 / 36, -1 / 36, -1 / 36, 11 / 36, 11 / 36, -1 / 9, -1 / 9, -1 / 9, -1 / 9, -1 / 36, -1 / 36, 11 / 36, 11 / 36],
    ![1 / 18, -1 / 36, -1 / 36, -1 / 36, -1 / 36, 7 / 18, 1 / 18, -1 / 9, -1 / 9, -1 / 9, -1 / 9, 11 / 36, -1 / 36, -1 / 36, 11 / 36, 11 / 36, -1 / 36, -1 / 36, 11 / 36],
    ![1 / 18, -1 / 36, -1 / 36, -1 / 36, -1 / 36, 1 / 18, 7 / 18, -1 / 9, -1 / 9, -1 / 9, -1 / 9, -1 / 36, 11 / 36, 11 / 36, -1 / 36, -1 / 36, 11 / 36, 11 / 36, -1 / 36],
    ![-1 / 72, 11 / 72, 11 / 72, -1 / 72, -1 / 72, -1 / 18, -1 / 18, 41 / 72, -7 / 72, 17 / 72, -7 / 72, 1 / 9, 1 / 9, -1 / 18, -1 / 18, 1 / 9, 1 / 9, -1 / 18, -1 / 18],
    ![-1 / 72, -1 / 72, 11 / 72, 11 / 72, -1 / 72, -1 / 18, -1 / 18, -7 / 72, 41 / 72, -7 / 72, 17 / 72, -1 / 18, -1 / 18, 1 / 9, 1 / 9, 1 / 9, 1 / 9, -1 / 18, -1 / 18],
    ![-1 / 72, -1 / 72, -1 / 72, 11 / 72, 11 / 72, -1 / 18, -1 / 18, 17 / 72, -7 / 72, 41 / 72, -7 / 72, -1 / 18, -1 / 18, 1 / 9, 1 / 9, -1 / 18, -1 / 18, 1 / 9, 1 / 9],
    ![-1 / 72, 11 / 72, -1 / 72, -1 / 72, 11 / 72, -1 / 18, -1 / 18, -7 / 72, 17 / 72, -7 / 72, 41 / 72, 1 / 9, 1 / 9, -1 / 18, -1 / 18, -1 / 18, -1 / 18, 1 / 9, 1 / 9],
    ![-1 / 72, 11 / 72, -1 / 18, -1 / 72, -1 / 18, 11 / 72, -1 / 72, 1 / 9, -1 / 18, -1 / 18, 1 / 9, 41 / 72, -7 / 72, 17 / 72, -7 / 72, 1 / 9, -1 / 18, -1 / 18, 1 / 9],
    ![-1 / 72, 11 / 72, -1 / 18, -1 / 72, -1 / 18, -1 / 72, 11 / 72, 1 / 9, -1 / 18, -1 / 18, 1 / 9, -7 / 72, 41 / 72, -7 / 72, 17 / 72, -1 / 18, 1 / 9, 1 / 9, -1 / 18],
    ![-1 / 72, -1 / 72, -1 / 18, 11 / 72, -1 / 18, -1 / 72, 11 / 72, -1 / 18, 1 / 9, 1 / 9, -1 / 18, 17 / 72, -7 / 72, 41 / 72, -7 / 72, -1 / 18, 1 / 9, 1 / 9, -1 / 18],
    ![-1 / 72, -1 / 72, -1 / 18, 11 / 72, -1 / 18, 11 / 72, -1 / 72, -1 / 18, 1 / 9, 1 / 9, -1 / 18, -7 / 72, 17 / 72, -7 / 72, 41 / 72, 1 / 9, -1 / 18, -1 / 18, 1 / 9],
    ![-1 / 72, -1 / 18, 11 / 72, -1 / 18, -1 / 72, 11 / 72, -1 / 72, 1 / 9, 1 / 9, -1 / 18, -1 / 18, 1 / 9, -1 / 18, -1 / 18, 1 / 9, 41 / 72, -7 / 72, 17 / 72, -7 / 72],
    ![-1 / 72, -1 / 18, 11 / 72, -1 / 18, -1 / 72, -1 / 72, 11 / 72, 1 / 9, 1 / 9, -1 / 18, -1 / 18, -1 / 18, 1 / 9, 1 / 9, -1 / 18, -7 / 72, 41 / 72, -7 / 72, 17 / 72],
    ![-1 / 72, -1 / 18, -1 / 72, -1 / 18, 11 / 72, -1 / 72, 11 / 72, -1 / 18, -1 / 18, 1 / 9, 1 / 9, -1 / 18, 1 / 9, 1 / 9, -1 / 18, 17 / 72, -7 / 72, 41 / 72, -7 / 72],
    ![-1 / 72, -1 / 18, -1 / 72, -1 / 18, 11 / 72, 11 / 72, -1 / 72, -1 / 18, -1 / 18, 1 / 9, 1 / 9, 1 / 9, -1 / 18, -1 / 18, 1 / 9, -7 / 72, 17 / 72, -7 / 72, 41 / 72]]

/-- The double loop of `apply_d2q9_with_e`/`apply_d3q19` (`:203-208`, `:253-258`), of `apply_d2q9` (`:148-153`) and of `applyStabilizer` (`:294-314`): the local copy
`f_i` is multiplied with the matrix. -/
noncomputable def multiply {Q : ℕ} (M : Fin Q → Fin Q → ℚ) (f : Fin Q → ℝ) : Fin Q → ℝ := fun i => ∑ j, (M i j : ℝ) * f j

/-- The matrix used for a stencil, `PseudoEntropicStabilizer::apply`, `:270-289`; for the remaining stencils nothing is done. -/
def matrix : (t : StencilType) → Bool → Option (Fin t.Q → Fin t.Q → ℚ)
  | .D2Q9, true => some withE
  | .D2Q9, false => some fun i j => n i j / d i j
  | .D3Q19, _ => some d3q19
  | _, _ => none

/-- `PseudoEntropicStabilizer::apply`, `:116-289`: the loop over the locally owned nodes. -/
noncomputable def apply {ι : Type*} [DecidableEq ι] (t : StencilType) (e : Bool) (owned : List ι) (f : ι → Fin t.Q → ℝ) : ι → Fin t.Q → ℝ :=
  match matrix t e with
  | none => f
  | some M => owned.foldl (fun f i => Function.update f i (multiply M (f i))) f

end Stabilizer

end NATriuM
