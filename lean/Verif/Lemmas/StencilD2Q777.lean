import Verif.Lemmas.StencilDecimal
import Verif.Model.StencilD2Q777
import Mathlib.Data.List.GetD

/-! # Approximate isotropy of the stencils given by decimal literals (helper lemmas) -/

namespace NATriuM

open Finset NATriuM.Spec

theorem getD_flatten {α : Type*} (n : ℕ) (hn : 0 < n) (d : α) : ∀ (bs : List (List α)) (last : List α),
    (∀ b ∈ bs, b.length = n) → last.length ≤ n → ∀ i,
    ((bs ++ [last]).flatten).getD i d = ((bs ++ [last]).getD (i / n) []).getD (i % n) d
  | [], last, _, hl, i => by
    by_cases h : i < n
    · simp [Nat.div_eq_of_lt h, Nat.mod_eq_of_lt h]
    · have h1 : n ≤ i := not_lt.mp h
      have h2 : 1 ≤ i / n := (Nat.one_le_div_iff hn).mpr h1
      rw [List.getD_eq_default _ _ (by simpa using hl.trans h1), List.nil_append,
        List.getD_eq_default [last] _ (by simpa using h2)]
      simp
  | b :: bs, last, hb, hl, i => by
    have hbl : b.length = n := hb b (by simp)
    by_cases h : i < n
    · rw [Nat.div_eq_of_lt h, Nat.mod_eq_of_lt h]
      simp only [List.cons_append, List.flatten_cons, List.getD_cons_zero]
      rw [List.getD_append _ _ _ _ (by omega)]
    · have h1 : n ≤ i := not_lt.mp h
      simp only [List.cons_append, List.flatten_cons]
      rw [List.getD_append_right _ _ _ _ (by omega), hbl,
        getD_flatten n hn d bs last (fun x hx => hb x (List.mem_cons_of_mem _ hx)) hl (i - n)]
      obtain ⟨k, rfl⟩ := Nat.exists_eq_add_of_le h1
      simp [Nat.add_div_left _ hn, Nat.add_mod_left]

namespace D2Q777

theorem weight_get (i : ℕ) : weightTable.getD i 0 = (weightBlocks.getD (i / 28) []).getD (i % 28) 0 :=
  getD_flatten 28 (by norm_num) 0 _ _ (by decide +kernel) (by decide +kernel) i

theorem dir_get (i : ℕ) : dirTable.getD i 0 = (dirBlocks.getD (i / 28) []).getD (i % 28) 0 :=
  getD_flatten 28 (by norm_num) 0 _ _ (fun b hb => by
    have h : ∀ n ∈ ((dirBlocks.dropLast).map List.length), n = 28 := by decide +kernel
    exact h _ (List.mem_map_of_mem hb)) (by decide +kernel) i

theorem opp_get (i : ℕ) : oppTable.getD i 0 = (oppBlocks.getD (i / 28) []).getD (i % 28) 0 :=
  getD_flatten 28 (by norm_num) 0 _ _ (by decide +kernel) (by decide +kernel) i

attribute [local irreducible] weightTable dirTable oppTable weightBlocks dirBlocks oppBlocks

theorem lenw : weightTable.length = 777 := by decide +kernel

theorem lend : dirTable.length = 777 := by decide +kernel

theorem opp_dir' : ∀ (i : Fin 777) (a : Fin 2),
    let j := (oppBlocks.getD (i.val / 28) []).getD (i.val % 28) 0
    (dirBlocks.getD (j.val / 28) []).getD (j.val % 28) 0 a = -(dirBlocks.getD (i.val / 28) []).getD (i.val % 28) 0 a := by
  decide +kernel

theorem opp_weight' : ∀ i : Fin 777,
    let j := (oppBlocks.getD (i.val / 28) []).getD (i.val % 28) 0
    (weightBlocks.getD (j.val / 28) []).getD (j.val % 28) 0 = (weightBlocks.getD (i.val / 28) []).getD (i.val % 28) 0 := by
  decide +kernel

theorem opp_opp' : ∀ i : Fin 777,
    let j := (oppBlocks.getD (i.val / 28) []).getD (i.val % 28) 0
    (oppBlocks.getD (j.val / 28) []).getD (j.val % 28) 0 = i := by
  decide +kernel

theorem opp_dir (i : Fin 777) (a : Fin 2) :
    dirTable.getD (oppTable.getD i 0).val 0 a = -dirTable.getD i.val 0 a := by
  rw [dir_get, dir_get, opp_get]; exact opp_dir' i a

theorem opp_weight (i : Fin 777) : weightTable.getD (oppTable.getD i 0).val 0 = weightTable.getD i.val 0 := by
  rw [weight_get, weight_get, opp_get]; exact opp_weight' i

theorem opp_opp (i : Fin 777) : oppTable.getD (oppTable.getD i 0).val 0 = i := by
  rw [opp_get, opp_get]; exact opp_opp' i

theorem opposite_rat : OppositeTable (fun i : Fin 777 => weightTable.getD i 0) (fun i => dirTable.getD i 0)
    (fun i => oppTable.getD i 0) :=
  ⟨opp_dir, opp_weight, opp_opp⟩

theorem exponents_ok : ∀ n : Fin 2 → Fin 7,
    ∑ k, (n k : ℕ) = 0 ∨ ∑ k, (n k : ℕ) = 2 ∨ ∑ k, (n k : ℕ) = 4 ∨ ∑ k, (n k : ℕ) = 6 →
      |mom (weightTable.zip dirTable) (fun k => n k) - gauss (fun k => n k)| ≤ 1e-4 := by
  decide +kernel

theorem opposite_and_approx (c : ℝ) : OppositeTable (stencil c).weight (stencil c).dir (stencil c).opp ∧
    ApproxIso6 (stencil c).weight (stencil c).dir (stencil c).cs2 c ((1e-4 : ℚ) : ℝ) := by
  obtain ⟨h0, h2, h4, h6⟩ := checks_of_exponents weightTable dirTable lenw lend 1e-4 exponents_ok g2_2 g4_2 g6_2
  exact approx_of_table c _ _ 1e-4 (by norm_num) (fun _ => rfl) (fun _ _ => rfl) opposite_rat h0 h2 h4 h6

end D2Q777

end NATriuM
