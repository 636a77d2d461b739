import Verif.Lemmas.Stencil

/-! # Table lemmas for the stencils with rational entries (helper lemmas) -/

namespace NATriuM

open Finset NATriuM.Spec

variable {K : Type*} [Field K]

private theorem l0 (c : K) : (0 : K) = c * ((0 : ℚ) : K) := by simp
private theorem lP (c : K) : c = c * ((1 : ℚ) : K) := by simp
private theorem lN (c : K) : -c = c * ((-1 : ℚ) : K) := by simp
private theorem lh (c : K) [CharZero K] : c / 2 = c * ((1 / 2 : ℚ) : K) := by push_cast; ring
private theorem lhN (c : K) [CharZero K] : -(c / 2) = c * ((-(1 / 2) : ℚ) : K) := by push_cast; ring


namespace D2Q9

theorem dir_eq (c : K) (i a) : dir c i a = c * ((dir 1 i a : ℚ) : K) := by
  fin_cases i <;> fin_cases a <;> first | exact l0 c | exact lP c | exact lN c

theorem weight_eq [CharZero K] (i) : weight i = ((weight i : ℚ) : K) := by
  fin_cases i <;> simp [weight]

theorem opposite_rat : OppositeTable (weight (K := ℚ)) (dir 1) opp :=
  ⟨by decide +kernel, by decide +kernel, by decide +kernel⟩

theorem opposite [CharZero K] (c : K) : OppositeTable (stencil c).weight (stencil c).dir (stencil c).opp :=
  opposite_of_table c _ _ weight_eq (dir_eq c) opposite_rat

theorem iso5 [CharZero K] (c : K) : Iso5 (stencil c).weight (stencil c).dir (stencil c).cs2 :=
  iso5_of_table c weight (dir 1) (1 / 3) weight_eq (dir_eq c) (by simp only [stencil]; push_cast; ring) (opposite c)
    (by decide +kernel) (by decide +kernel) (by decide +kernel)

end D2Q9

namespace D3Q15

theorem dir_eq (c : K) (i a) : dir c i a = c * ((dir 1 i a : ℚ) : K) := by
  fin_cases i <;> fin_cases a <;> first | exact l0 c | exact lP c | exact lN c

theorem weight_eq [CharZero K] (i) : weight i = ((weight i : ℚ) : K) := by
  fin_cases i <;> simp [weight]

theorem opposite_rat : OppositeTable (weight (K := ℚ)) (dir 1) opp :=
  ⟨by decide +kernel, by decide +kernel, by decide +kernel⟩

theorem opposite [CharZero K] (c : K) : OppositeTable (stencil c).weight (stencil c).dir (stencil c).opp :=
  opposite_of_table c _ _ weight_eq (dir_eq c) opposite_rat

theorem iso5 [CharZero K] (c : K) : Iso5 (stencil c).weight (stencil c).dir (stencil c).cs2 :=
  iso5_of_table c weight (dir 1) (1 / 3) weight_eq (dir_eq c) (by simp only [stencil]; push_cast; ring) (opposite c)
    (by decide +kernel) (by decide +kernel) (by decide +kernel)

end D3Q15

namespace D3Q19

theorem dir_eq (c : K) (i a) : dir c i a = c * ((dir 1 i a : ℚ) : K) := by
  fin_cases i <;> fin_cases a <;> first | exact l0 c | exact lP c | exact lN c

theorem weight_eq [CharZero K] (i) : weight i = ((weight i : ℚ) : K) := by
  fin_cases i <;> simp [weight]

theorem opposite_rat : OppositeTable (weight (K := ℚ)) (dir 1) opp :=
  ⟨by decide +kernel, by decide +kernel, by decide +kernel⟩

theorem opposite [CharZero K] (c : K) : OppositeTable (stencil c).weight (stencil c).dir (stencil c).opp :=
  opposite_of_table c _ _ weight_eq (dir_eq c) opposite_rat

theorem iso5 [CharZero K] (c : K) : Iso5 (stencil c).weight (stencil c).dir (stencil c).cs2 :=
  iso5_of_table c weight (dir 1) (1 / 3) weight_eq (dir_eq c) (by simp only [stencil]; push_cast; ring) (opposite c)
    (by decide +kernel) (by decide +kernel) (by decide +kernel)

end D3Q19

namespace D3Q27

theorem dir_eq (c : K) (i a) : dir c i a = c * ((dir 1 i a : ℚ) : K) := by
  fin_cases i <;> fin_cases a <;> first | exact l0 c | exact lP c | exact lN c

theorem weight_eq [CharZero K] (i) : weight i = ((weight i : ℚ) : K) := by
  fin_cases i <;> simp [weight]

theorem opposite_rat : OppositeTable (weight (K := ℚ)) (dir 1) opp :=
  ⟨by decide +kernel, by decide +kernel, by decide +kernel⟩

theorem opposite [CharZero K] (c : K) : OppositeTable (stencil c).weight (stencil c).dir (stencil c).opp :=
  opposite_of_table c _ _ weight_eq (dir_eq c) opposite_rat

theorem iso5 [CharZero K] (c : K) : Iso5 (stencil c).weight (stencil c).dir (stencil c).cs2 :=
  iso5_of_table c weight (dir 1) (1 / 3) weight_eq (dir_eq c) (by simp only [stencil]; push_cast; ring) (opposite c)
    (by decide +kernel) (by decide +kernel) (by decide +kernel)

end D3Q27

namespace RD3Q27

theorem dir_eq [CharZero K] (c : K) (i a) : dir c i a = c * ((dir 1 i a : ℚ) : K) := by
  fin_cases i <;> fin_cases a <;> first | exact l0 c | exact lP c | exact lN c | exact lh c | exact lhN c

theorem weight_eq [CharZero K] (i) : weight i = ((weight i : ℚ) : K) := by
  fin_cases i <;> simp [weight]

theorem opposite_rat : OppositeTable (weight (K := ℚ)) (dir 1) opp :=
  ⟨by decide +kernel, by decide +kernel, by decide +kernel⟩

theorem opposite [CharZero K] (c : K) : OppositeTable (stencil c).weight (stencil c).dir (stencil c).opp :=
  opposite_of_table c _ _ weight_eq (dir_eq c) opposite_rat

theorem iso5 [CharZero K] (c : K) : Iso5 (stencil c).weight (stencil c).dir (stencil c).cs2 :=
  iso5_of_table c weight (dir 1) (1 / 5) weight_eq (dir_eq c) (by simp only [stencil]; push_cast; ring) (opposite c)
    (by decide +kernel) (by decide +kernel) (by decide +kernel)

end RD3Q27

end NATriuM
