import Verif.Lemmas.StencilDecimal

/-! # Approximate isotropy of the stencils given by decimal literals (helper lemmas) -/

namespace NATriuM

open Finset NATriuM.Spec

namespace D3V27

theorem opposite_rat : OppositeTable (fun i : Fin 27 => weightTable.getD i 0) (fun i => dirTable.getD i 0)
    (fun i => oppTable.getD i 0) :=
  ⟨by decide +kernel, by decide +kernel, by decide +kernel⟩

theorem exponents_ok : ∀ n : Fin 3 → Fin 7,
    ∑ k, (n k : ℕ) = 0 ∨ ∑ k, (n k : ℕ) = 2 ∨ ∑ k, (n k : ℕ) = 4 ∨ ∑ k, (n k : ℕ) = 6 →
      |mom (weightTable.zip dirTable) (fun k => n k) - gauss (fun k => n k)| ≤ 1e-13 := by
  decide +kernel

theorem opposite_and_approx (c : ℝ) : OppositeTable (stencil c).weight (stencil c).dir (stencil c).opp ∧
    ApproxIso6 (stencil c).weight (stencil c).dir (stencil c).cs2 c ((1e-13 : ℚ) : ℝ) := by
  obtain ⟨h0, h2, h4, h6⟩ := checks_of_exponents weightTable dirTable (by rfl) (by rfl) 1e-13 exponents_ok g2_3 g4_3 g6_3
  exact approx_of_table c _ _ 1e-13 (by norm_num) (fun _ => rfl) (fun _ _ => rfl) opposite_rat h0 h2 h4 h6

end D3V27

namespace D2Q19H

/-- the components of the velocities after the swap in lines 101-102 -/
def swapped : List (Fin 2 → ℚ) := dirTable.map fun r => ![r 1, r 0]

theorem swapped_eq : ∀ (i : Fin 19) (a : Fin 2),
    ![dirTable.getD i 0 1, dirTable.getD i 0 0] a = swapped.getD i 0 a := by decide +kernel

theorem opposite_rat : OppositeTable (fun i : Fin 19 => weightTable.getD i 0) (fun i => swapped.getD i 0)
    (fun i => oppTable.getD i 0) :=
  ⟨by decide +kernel, by decide +kernel, by decide +kernel⟩

theorem exponents_ok : ∀ n : Fin 2 → Fin 7,
    ∑ k, (n k : ℕ) = 0 ∨ ∑ k, (n k : ℕ) = 2 ∨ ∑ k, (n k : ℕ) = 4 ∨ ∑ k, (n k : ℕ) = 6 →
      |mom (weightTable.zip swapped) (fun k => n k) - gauss (fun k => n k)| ≤ 1e-13 := by
  decide +kernel

theorem opposite_and_approx (c : ℝ) : OppositeTable (stencil c).weight (stencil c).dir (stencil c).opp ∧
    ApproxIso6 (stencil c).weight (stencil c).dir (stencil c).cs2 c ((1e-13 : ℚ) : ℝ) := by
  obtain ⟨h0, h2, h4, h6⟩ := checks_of_exponents weightTable swapped (by rfl) (by rfl) 1e-13 exponents_ok g2_2 g4_2 g6_2
  exact approx_of_table c _ _ 1e-13 (by norm_num) (fun _ => rfl) (fun i a => by rw [← swapped_eq]; rfl) opposite_rat h0 h2 h4 h6

end D2Q19H

namespace D2Q19V

theorem opposite_rat : OppositeTable (fun i : Fin 19 => weightTable.getD i 0) (fun i => dirTable.getD i 0)
    (fun i => oppTable.getD i 0) :=
  ⟨by decide +kernel, by decide +kernel, by decide +kernel⟩

theorem exponents_ok : ∀ n : Fin 2 → Fin 7,
    ∑ k, (n k : ℕ) = 0 ∨ ∑ k, (n k : ℕ) = 2 ∨ ∑ k, (n k : ℕ) = 4 ∨ ∑ k, (n k : ℕ) = 6 →
      |mom (weightTable.zip dirTable) (fun k => n k) - gauss (fun k => n k)| ≤ 1e-13 := by
  decide +kernel

theorem opposite_and_approx (c : ℝ) : OppositeTable (stencil c).weight (stencil c).dir (stencil c).opp ∧
    ApproxIso6 (stencil c).weight (stencil c).dir (stencil c).cs2 c ((1e-13 : ℚ) : ℝ) := by
  obtain ⟨h0, h2, h4, h6⟩ := checks_of_exponents weightTable dirTable (by rfl) (by rfl) 1e-13 exponents_ok g2_2 g4_2 g6_2
  exact approx_of_table c _ _ 1e-13 (by norm_num) (fun _ => rfl) (fun _ _ => rfl) opposite_rat h0 h2 h4 h6

end D2Q19V

namespace D3Q45

theorem opposite_rat : OppositeTable (fun i : Fin 45 => weightTable.getD i 0) (fun i => dirTable.getD i 0)
    (fun i => oppTable.getD i 0) :=
  ⟨by decide +kernel, by decide +kernel, by decide +kernel⟩

theorem exponents_ok : ∀ n : Fin 3 → Fin 7,
    ∑ k, (n k : ℕ) = 0 ∨ ∑ k, (n k : ℕ) = 2 ∨ ∑ k, (n k : ℕ) = 4 ∨ ∑ k, (n k : ℕ) = 6 →
      |mom (weightTable.zip dirTable) (fun k => n k) - gauss (fun k => n k)| ≤ 1e-13 := by
  decide +kernel

theorem opposite_and_approx (c : ℝ) : OppositeTable (stencil c).weight (stencil c).dir (stencil c).opp ∧
    ApproxIso6 (stencil c).weight (stencil c).dir (stencil c).cs2 c ((1e-13 : ℚ) : ℝ) := by
  obtain ⟨h0, h2, h4, h6⟩ := checks_of_exponents weightTable dirTable (by rfl) (by rfl) 1e-13 exponents_ok g2_3 g4_3 g6_3
  exact approx_of_table c _ _ 1e-13 (by norm_num) (fun _ => rfl) (fun _ _ => rfl) opposite_rat h0 h2 h4 h6

end D3Q45

namespace D3Q77

theorem opposite_rat : OppositeTable (fun i : Fin 77 => weightTable.getD i 0) (fun i => dirTable.getD i 0)
    (fun i => oppTable.getD i 0) :=
  ⟨by decide +kernel, by decide +kernel, by decide +kernel⟩

theorem exponents_ok : ∀ n : Fin 3 → Fin 7,
    ∑ k, (n k : ℕ) = 0 ∨ ∑ k, (n k : ℕ) = 2 ∨ ∑ k, (n k : ℕ) = 4 ∨ ∑ k, (n k : ℕ) = 6 →
      |mom (weightTable.zip dirTable) (fun k => n k) - gauss (fun k => n k)| ≤ 1e-12 := by
  decide +kernel

theorem opposite_and_approx (c : ℝ) : OppositeTable (stencil c).weight (stencil c).dir (stencil c).opp ∧
    ApproxIso6 (stencil c).weight (stencil c).dir (stencil c).cs2 c ((1e-12 : ℚ) : ℝ) := by
  obtain ⟨h0, h2, h4, h6⟩ := checks_of_exponents weightTable dirTable (by rfl) (by rfl) 1e-12 exponents_ok g2_3 g4_3 g6_3
  exact approx_of_table c _ _ 1e-12 (by norm_num) (fun _ => rfl) (fun _ _ => rfl) opposite_rat h0 h2 h4 h6

end D3Q77

end NATriuM
