import Verif.Lemmas.Neighborhood
import Mathlib.Data.Fin.VecNotation
import Mathlib.Tactic.FinCases
import Mathlib.Tactic.IntervalCases
import Mathlib.Logic.Equiv.Fin.Basic
import Mathlib.Data.Fintype.BigOperators
import Mathlib.Algebra.BigOperators.Group.Finset.Sigma

/-!
# Property C55: the cells around a cell
-/

namespace NATriuM
namespace Cells

variable {C : Type*} [DecidableEq C] [Fintype C] {faces : ℕ}

/-- **C55** The search ends after at most as many passes as there are cells. -/
theorem C55_ends (mesh : Mesh C faces) (cell : C) (shells extra : ℕ) :
    (visitCells mesh shells (Fintype.card C + 1 + extra) 0 [(cell, fun _ => 0)]).map Prod.fst = getNeighborhood mesh cell shells := by
  rw [visitCells_more mesh shells (cell, fun _ => 0) _ _ _ _ (by omega) (Inv.init _ _ trivial)]; rfl

/-- **C55** No cell is listed twice, and the cell itself is in the list. -/
theorem C55_once (mesh : Mesh C faces) (cell : C) (shells : ℕ) :
    (getNeighborhood mesh cell shells).Nodup ∧ cell ∈ getNeighborhood mesh cell shells := by
  obtain ⟨h1, h2, _⟩ := hoodOf_spec mesh cell shells (fun _ => True) trivial fun _ _ _ _ => trivial
  exact ⟨h1, List.mem_map.2 ⟨_, h2, rfl⟩⟩

/-- **C55** (partial: there are more cells in the list, see below) Every cell at face distance at most `shells`, also across periodic
boundaries and into refined cells, is in the list. -/
theorem C55_complete_partial (mesh : Mesh C faces) (cell : C) (shells k : ℕ) (hk : k ≤ shells) (e : C) (he : mesh.Within cell k e) :
    e ∈ getNeighborhood mesh cell shells := by
  obtain ⟨_, h2, _, h4⟩ := hoodOf_spec mesh cell shells (fun _ => True) trivial fun _ _ _ _ => trivial
  suffices ∃ z ∈ hoodOf mesh cell shells, z.1 = e ∧ rank z ≤ k by
    obtain ⟨z, hz, rfl, _⟩ := this
    exact List.mem_map.2 ⟨z, hz, rfl⟩
  induction k generalizing e with
  | zero =>
    refine ⟨_, h2, Eq.symm he, ?_⟩
    simp [rank]
  | succ k ih =>
    rcases he with he | ⟨b, i, hb, hi⟩
    · obtain ⟨z, hz, h, hr⟩ := ih (by omega) e he
      exact ⟨z, hz, h, by omega⟩
    · obtain ⟨z, hz, rfl, hr⟩ := ih (by omega) b hb
      have hv : z.2 i ≤ rank z := Finset.single_le_sum (f := z.2) (fun _ _ => Nat.zero_le _) (Finset.mem_univ i)
      obtain ⟨w, hw, h, hr'⟩ := h4 z hz (e, increment z.2 i) ((mem_cellSuccs mesh shells z _).2 ⟨i, by omega, hi, rfl⟩)
      exact ⟨w, hw, h, by omega⟩

/-- **C55** Every cell in the list can be reached on a way that crosses faces of each index at most `shells` times. -/
theorem C55_sound (mesh : Mesh C faces) (cell : C) (shells : ℕ) (e : C) (he : e ∈ getNeighborhood mesh cell shells) :
    ∃ v, mesh.Way cell v e ∧ ∀ i, v i ≤ shells := by
  obtain ⟨_, _, h3, _⟩ := hoodOf_spec mesh cell shells (fun x => mesh.Way cell x.2 x.1 ∧ ∀ i, x.2 i ≤ shells) ⟨.start, by simp⟩
    (by
      rintro x ⟨hw, hv⟩ y hy
      obtain ⟨i, hi, ha, hy2⟩ := (mem_cellSuccs mesh shells x y).1 hy
      have hinc : y.2 = fun j => if j = i then x.2 j + 1 else x.2 j := by
        rw [hy2]; funext j; simp only [increment, Function.update_apply]
        split_ifs with hj
        · rw [hj]
        · rfl
      refine ⟨by rw [hinc]; exact .step _ _ _ i hw ha, fun j => ?_⟩
      rw [hinc]; dsimp only
      split_ifs with hj
      · subst hj; omega
      · exact hv j)
  obtain ⟨z, hz, rfl⟩ := List.mem_map.1 he
  exact ⟨z.2, h3 z hz⟩

/-- **C55** In a regular mesh the list consists of exactly the cells at most `shells` cells away along each axis. -/
theorem C55_regular {d : ℕ} (mesh : Mesh C (d * 2)) (pos : C → Fin d → ℤ) (hreg : mesh.Regular pos) (cell : C) (shells : ℕ) (e : C) :
    e ∈ getNeighborhood mesh cell shells ↔ ∀ a, |pos e a - pos cell a| ≤ shells := by
  let lo : Fin d → Fin (d * 2) := fun a => finProdFinEquiv (a, 0)
  let up : Fin d → Fin (d * 2) := fun a => finProdFinEquiv (a, 1)
  have hlo : ∀ a, (lo a : ℕ) = 2 * a := fun a => by simp [lo]
  have hup : ∀ a, (up a : ℕ) = 2 * a + 1 := fun a => by simp [up]; omega
  let R : C × (Fin (d * 2) → ℕ) → Prop := fun x =>
    (∀ a, pos x.1 a - pos cell a = (x.2 (up a) : ℤ) - x.2 (lo a)) ∧ ∀ i, x.2 i ≤ shells
  obtain ⟨_, h2, h3, h4⟩ := hoodOf_spec mesh cell shells R ⟨by simp, by simp⟩ (by
    rintro x ⟨hx, hv⟩ y hy
    obtain ⟨i, hi, ha, hy2⟩ := (mem_cellSuccs mesh shells x y).1 hy
    have hp := (hreg.neighbor _ _ _).1 ha
    refine ⟨fun a => ?_, fun j => ?_⟩
    · have hpa := congrFun hp a
      have hxa := hx a
      rw [hy2]
      simp only [increment, Function.update_apply, Fin.ext_iff, hlo, hup]
      by_cases h0 : (i : ℕ) = 2 * a
      · have hi' : i = lo a := Fin.ext (by rw [h0, hlo])
        rw [if_pos h0] at hpa
        rw [if_neg (by omega), if_pos h0.symm, hi']; push_cast; omega
      · by_cases h1 : (i : ℕ) = 2 * a + 1
        · have hi' : i = up a := Fin.ext (by rw [h1, hup])
          rw [if_neg h0, if_pos h1] at hpa
          rw [if_pos h1.symm, if_neg (by omega), hi']; push_cast; omega
        · rw [if_neg h0, if_neg h1] at hpa
          rw [if_neg (by omega), if_neg (by omega)]; omega
    · rw [hy2]
      simp only [increment, Function.update_apply]
      split_ifs with hj
      · omega
      · exact hv j)
  constructor
  · intro he a
    obtain ⟨z, hz, rfl⟩ := List.mem_map.1 he
    obtain ⟨h5, h6⟩ := h3 z hz
    have hu := h6 (up a)
    have hl := h6 (lo a)
    rw [h5 a, abs_le]; omega
  · intro he
    suffices ∀ (k : ℕ) (e : C), (∀ a, |pos e a - pos cell a| ≤ shells) → ∑ a, (pos e a - pos cell a).natAbs = k →
        ∃ z ∈ hoodOf mesh cell shells, z.1 = e ∧ rank z ≤ k by
      obtain ⟨z, hz, rfl, _⟩ := this _ e he rfl
      exact List.mem_map.2 ⟨z, hz, rfl⟩
    intro k
    induction k with
    | zero =>
      intro e _ hsum
      have : pos e = pos cell := by
        funext a
        have := (Finset.sum_eq_zero_iff.1 hsum) a (Finset.mem_univ a)
        omega
      refine ⟨_, h2, (hreg.injective this).symm, by simp [rank]⟩
    | succ k ih =>
      intro e he hsum
      obtain ⟨a, ha⟩ : ∃ a, pos e a ≠ pos cell a := by
        by_contra hc
        push Not at hc
        rw [Finset.sum_eq_zero (fun a _ => by rw [hc a]; simp)] at hsum
        omega
      -- one step back towards the cell
      let δ : ℤ := if pos cell a < pos e a then 1 else -1
      let x : Fin d → ℤ := Function.update (pos e) a (pos e a - δ)
      have hxa : x a = pos e a - δ := by simp [x]
      have hxb : ∀ b, b ≠ a → x b = pos e b := fun b hb => by simp [x, hb]
      obtain ⟨b, hb⟩ := hreg.box cell e x fun c => by
        by_cases hc : c = a
        · subst hc; rw [hxa]; simp only [δ]; split_ifs <;> omega
        · rw [hxb c hc]; omega
      have hbox : ∀ c, |pos b c - pos cell c| ≤ shells := fun c => by
        have := he c
        rw [hb]
        by_cases hc : c = a
        · subst hc; rw [hxa]; rw [abs_le] at this ⊢; simp only [δ]; split_ifs <;> omega
        · rw [hxb c hc]; exact this
      have hbsum : ∑ c, (pos b c - pos cell c).natAbs = k := by
        have h7 : (pos e a - pos cell a).natAbs = (pos b a - pos cell a).natAbs + 1 := by
          rw [hb, hxa]; simp only [δ]; split_ifs <;> omega
        have h8 : ∑ c ∈ Finset.univ.erase a, (pos b c - pos cell c).natAbs = ∑ c ∈ Finset.univ.erase a, (pos e c - pos cell c).natAbs :=
          Finset.sum_congr rfl fun c hc => by rw [hb, hxb c (Finset.ne_of_mem_erase hc)]
        rw [← Finset.add_sum_erase _ _ (Finset.mem_univ a)] at hsum ⊢
        omega
      obtain ⟨z, hz, rfl, hr⟩ := ih b hbox hbsum
      obtain ⟨h5, h6⟩ := h3 z hz
      -- the counters of this cell are those of a shortest way
      have hsplit : rank z = ∑ c, (z.2 (lo c) + z.2 (up c)) := by
        rw [rank, ← Equiv.sum_comp finProdFinEquiv, Fintype.sum_prod_type]
        exact Finset.sum_congr rfl fun c _ => by rw [Fin.sum_univ_two]
      have hle : ∀ c ∈ Finset.univ, (pos z.1 c - pos cell c).natAbs ≤ z.2 (lo c) + z.2 (up c) := fun c _ => by
        rw [h5 c]; omega
      have heq : ∑ c, (pos z.1 c - pos cell c).natAbs = ∑ c, (z.2 (lo c) + z.2 (up c)) := by
        apply le_antisymm (Finset.sum_le_sum hle)
        rw [← hsplit, hbsum]; exact hr
      have hca := (Finset.sum_eq_sum_iff_of_le hle).1 heq a (Finset.mem_univ a)
      have hea := he a
      have hba : pos z.1 a = pos e a - δ := by rw [hb, hxa]
      -- the step forward
      let i : Fin (d * 2) := if pos cell a < pos e a then up a else lo a
      have hi : z.2 i < shells := by
        rw [abs_le] at hea
        simp only [i, δ] at hba ⊢
        split_ifs at hba ⊢ with hlt <;> omega
      have hadj : mesh.Adjacent i z.1 e := by
        rw [hreg.neighbor]
        funext c
        have hiv : (i : ℕ) = if pos cell a < pos e a then 2 * (a : ℕ) + 1 else 2 * a := by
          simp only [i]; split_ifs
          · exact hup a
          · exact hlo a
        by_cases hc : c = a
        · subst hc
          rw [hba, hiv]; simp only [δ]
          by_cases hlt : pos cell c < pos e c
          · simp only [hlt, if_true]; rw [if_neg (by omega)]; omega
          · simp only [hlt, if_false, if_true]; omega
        · have hne : (c : ℕ) ≠ a := fun h => hc (Fin.ext h)
          have : pos z.1 c = pos e c := by rw [hb, hxb c hc]
          rw [this, hiv, if_neg (by split_ifs <;> omega), if_neg (by split_ifs <;> omega), add_zero]
      obtain ⟨w, hw, h, hr'⟩ := h4 z hz (e, increment z.2 i) ((mem_cellSuccs mesh shells z _).2 ⟨i, hi, hadj, rfl⟩)
      exact ⟨w, hw, h, by omega⟩

/-- **C55** A cell that the search for a point returns contains the point and can be reached from the first cell; if none is returned, no cell
that can be reached contains the point. -/
theorem C55_search (mesh : Mesh C faces) (pointInside : C → Bool) (cell : C) :
    (∀ e, search mesh pointInside cell = some e → pointInside e = true ∧ ∃ k, mesh.Within cell k e) ∧
    (search mesh pointInside cell = none → ∀ k e, mesh.Within cell k e → pointInside e = false) := by
  have h := searchCells_spec mesh pointInside (fun e => ∃ k, mesh.Within cell k e)
    (fun x ⟨k, hx⟩ y hy => by
      obtain ⟨i, hi⟩ := (mem_searchSuccs mesh x y).1 hy
      exact ⟨k + 1, Or.inr ⟨x, i, hx, hi⟩⟩)
    cell (Fintype.card C + 1) 0 [cell] (by omega) (Inv.init _ _ ⟨0, rfl⟩) (by intro k x hk; omega)
  constructor
  · intro e he
    rw [show searchCells mesh pointInside (Fintype.card C + 1) 0 [cell] = some e from he] at h
    exact h
  · intro he
    rw [show searchCells mesh pointInside (Fintype.card C + 1) 0 [cell] = none from he] at h
    obtain ⟨hood, h1, h2, h3⟩ := h
    have key : ∀ k e, mesh.Within cell k e → e ∈ hood := by
      intro k
      induction k with
      | zero => intro e he; rw [show e = cell from he]; exact h1
      | succ k ih =>
        rintro e (he | ⟨b, i, hb, hi⟩)
        · exact ih e he
        · exact h3 b (ih b hb) i e hi
    exact fun k e hw => h2 e (key k e hw)

/-! ### A concrete mesh: three times three cells -/

/-- Cells are numbered row by row. -/
def grid : Mesh (Fin 9) (2 * 2) where
  face c i :=
    if i = 0 then (if c.val % 3 = 0 then .boundary else .interior (.active (c - 1)))
    else if i = 1 then (if c.val % 3 = 2 then .boundary else .interior (.active (c + 1)))
    else if i = 2 then (if c.val < 3 then .boundary else .interior (.active (c - 3)))
    else (if c.val ≥ 6 then .boundary else .interior (.active (c + 3)))

/-- Coordinates of the cells -/
def gridPos (c : Fin 9) : Fin 2 → ℤ := ![((c.val % 3 : ℕ) : ℤ), ((c.val / 3 : ℕ) : ℤ)]

/-- **C55** fails as stated: with one shell, the cell at the opposite corner of a corner cell is in the list, although its face distance is 2. -/
theorem C55_exact_fails : 4 ∈ getNeighborhood grid 0 1 ∧ ¬ grid.Within 0 1 4 ∧ grid.Within 0 2 4 := by
  have hadj : ∀ i c e, grid.Adjacent i c e ↔ e ∈ (grid.getNeighbor c i).cells := adjacent_iff grid
  refine ⟨by decide +kernel, ?_, ?_⟩
  · rintro (h | ⟨b, i, hb, hi⟩)
    · exact absurd (show (4 : Fin 9) = 0 from h) (by decide)
    · rw [show b = 0 from hb, hadj] at hi
      revert hi; revert i; decide +kernel
  · refine Or.inr ⟨1, 3, Or.inr ⟨0, 1, rfl, ?_⟩, ?_⟩
    · rw [hadj]; decide +kernel
    · rw [hadj]; decide +kernel

/-- This mesh is regular. -/
example : grid.Regular gridPos where
  injective := by decide +kernel
  neighbor c e i := by
    rw [adjacent_iff]
    have : ∀ c e : Fin 9, ∀ i : Fin (2 * 2), e ∈ (grid.getNeighbor c i).cells ↔
      ∀ a : Fin 2, gridPos e a = gridPos c a + (if (i : ℕ) = 2 * a then -1 else if (i : ℕ) = 2 * a + 1 then 1 else 0) := by decide +kernel
    rw [this, funext_iff]
  box c e x hx := by
    have hr : ∀ c : Fin 9, ∀ a : Fin 2, 0 ≤ gridPos c a ∧ gridPos c a ≤ 2 := by decide +kernel
    have h0 := hx 0
    have h1 := hx 1
    have hc0 := hr c 0; have hc1 := hr c 1; have he0 := hr e 0; have he1 := hr e 1
    obtain ⟨u, hu⟩ := Int.eq_ofNat_of_zero_le (show 0 ≤ x 0 by omega)
    obtain ⟨v, hv⟩ := Int.eq_ofNat_of_zero_le (show 0 ≤ x 1 by omega)
    have hu2 : u ≤ 2 := by omega
    have hv2 : v ≤ 2 := by omega
    refine ⟨⟨3 * v + u, by omega⟩, funext fun a => ?_⟩
    fin_cases a
    · show ((((3 * v + u) % 3 : ℕ)) : ℤ) = x 0
      omega
    · show ((((3 * v + u) / 3 : ℕ)) : ℤ) = x 1
      omega

/-- The neighbourhood of the cell in the middle, and of a corner -/
example : getNeighborhood grid 4 1 = [4, 3, 5, 1, 7, 0, 6, 2, 8] ∧ getNeighborhood grid 0 1 = [0, 1, 3, 4] := by decide +kernel

/-- Two cells with periodic boundaries at both ends of the first axis -/
def ring : Mesh (Fin 2) (1 * 2) where
  face c i := if c = 0 ∧ i = 0 ∨ c = 1 ∧ i = 1 then .periodic (.active (1 - c)) else .interior (.active (1 - c))

example : getNeighborhood ring 0 1 = [0, 1] ∧ search ring (fun c => c = 1) 0 = some 1 ∧ search ring (fun _ => false) 0 = none := by decide +kernel

end Cells
end NATriuM
