import Verif.Lemmas.BoundaryHit
import Mathlib.Algebra.Field.Rat
import Mathlib.Algebra.Order.Ring.Rat
import Mathlib.Data.Fin.VecNotation
import Mathlib.Tactic.NormNum

/-!
# Property C48: boundary hits
-/

namespace NATriuM
namespace Hits

variable {K : Type*} [Field K] [LinearOrder K] {d : ℕ} {α : Type*}

/-- **C48** (partial: hits are not grouped by points, see below) However the map is arranged, the number of stored hits is the number of calls,
every hit is stored exactly once, and its boundary condition is evaluated exactly once, for the cell where it occurred. -/
theorem C48_once_partial (shapes : ℕ → List (Entry K d α) → Tree (Entry K d α)) (hsh : ∀ n, IsShape (shapes n)) (hs : List (Hit K d α)) :
    (history shapes hs).nHits = hs.length ∧
    (stored (history shapes hs)).Perm hs ∧
    ((history shapes hs).calls.map fun c => c.2.2).Perm hs ∧
    ∀ c ∈ (history shapes hs).calls, c.1 = c.2.2.cell := by
  have h := history_stored shapes hsh hs
  refine ⟨by rw [nHits_eq, h.length_eq], h, by rwa [calls_hits], ?_⟩
  obtain ⟨⟨_, hw⟩, _⟩ := foldl_wellFormed shapes hsh hs.zipIdx [] ⟨by simp, by simp⟩
  intro c hc
  simp only [HitList.calls, List.mem_flatMap, List.mem_map] at hc
  obtain ⟨a, ha, e, he, x, hx, rfl⟩ := hc
  exact (hw a ha e he x hx).symm

/-- **C48** There is one list for each cell with hits. -/
theorem C48_cells (shapes : ℕ → List (Entry K d α) → Tree (Entry K d α)) (hsh : ∀ n, IsShape (shapes n)) (hs : List (Hit K d α)) :
    ((history shapes hs).map Prod.fst).Nodup ∧ ∀ c, c ∈ (history shapes hs).map Prod.fst ↔ ∃ h ∈ hs, h.cell = c := by
  obtain ⟨⟨h1, _⟩, h2⟩ := foldl_wellFormed shapes hsh hs.zipIdx [] ⟨by simp, by simp⟩
  refine ⟨h1, fun c => ?_⟩
  have : (hs.zipIdx.map fun h => h.1.cell) = hs.map Hit.cell := by
    rw [← List.zipIdx_map_fst 0 hs, List.map_map, List.zipIdx_map_fst]; rfl
  rw [history, h2, this]
  simp

/-- **C48** fails: however the map is arranged, all hits of a cell end in one entry, with the point of the first hit, if their points are
different (at least 1e-10 apart). -/
theorem C48_different_points_fails (shapes : ℕ → List (Entry K d α) → Tree (Entry K d α)) (hsh : ∀ n, IsShape (shapes n))
    (c : ℕ) (h : Hit K d α) (hs : List (Hit K d α)) (hc : ∀ x ∈ h :: hs, x.cell = c) (hf : ∀ x ∈ hs, ¬ Near h.point x.point) :
    history shapes (h :: hs) = [(c, [⟨h.point, h :: hs⟩])] := by
  have key : ∀ (hs : List (Hit K d α × ℕ)) (l : List (Hit K d α)), (∀ x ∈ hs, x.1.cell = c) → (∀ x ∈ hs, ¬ Near h.point x.1.point) →
      hs.foldl (fun (m : HitList K d α) h => m.addHit (shapes h.2) h.1) [(c, [⟨h.point, l⟩])] = [(c, [⟨h.point, l ++ hs.map Prod.fst⟩])] := by
    intro hs
    induction hs with
    | nil => intro l _ _; simp
    | cons x hs ih =>
      intro l h1 h2
      have hx : c = x.1.cell := (h1 x List.mem_cons_self).symm
      rw [List.foldl_cons, HitList.addHit, if_pos hx, addToCell_far _ (hsh _) _ _ (h2 x List.mem_cons_self),
        ih _ (fun y hy => h1 y (List.mem_cons_of_mem _ hy)) fun y hy => h2 y (List.mem_cons_of_mem _ hy)]
      simp
  have h0 : addToCell (shapes 0) [] h = [⟨h.point, [h]⟩] := by
    have ht : shapes 0 [] = .leaf := by
      have := hsh 0 []
      cases hs0 : shapes 0 [] with
      | leaf => rfl
      | node l x r => rw [hs0] at this; simp [Tree.toList] at this
    simp [addToCell, find, insert, ht, Tree.descend, Tree.toList, push]
  have hmem : ∀ x ∈ hs.zipIdx 1, x.1 ∈ hs := fun x hx => by
    have := List.mem_map_of_mem (f := Prod.fst) hx
    rwa [List.zipIdx_map_fst] at this
  rw [history, List.zipIdx_cons, List.foldl_cons]
  simp only [HitList.addHit, h0]
  rw [hc h List.mem_cons_self, zero_add, key _ _ (fun x hx => hc _ (List.mem_cons_of_mem _ (hmem x hx))) fun x hx => hf _ (hmem x hx),
    List.zipIdx_map_fst]
  rfl

/-- **C48** fails: however the map is arranged, hits at the same point are in different entries. -/
theorem C48_same_point_fails [IsStrictOrderedRing K] (shapes : ℕ → List (Entry K d α) → Tree (Entry K d α)) (hsh : ∀ n, IsShape (shapes n))
    (c : ℕ) (p : Fin d → K) (hs : List (Hit K d α)) (hc : ∀ x ∈ hs, x.cell = c ∧ x.point = p) (hne : hs ≠ []) :
    history shapes hs = [(c, (hs.map fun h => ⟨p, [h]⟩).reverse)] := by
  have key : ∀ (hs : List (Hit K d α × ℕ)) (l : List (Entry K d α)), (∀ e ∈ l, e.point = p) → (∀ x ∈ hs, x.1.cell = c ∧ x.1.point = p) →
      hs.foldl (fun (m : HitList K d α) h => m.addHit (shapes h.2) h.1) [(c, l)] = [(c, (hs.map fun h => (⟨p, [h.1]⟩ : Entry K d α)).reverse ++ l)] := by
    intro hs
    induction hs with
    | nil => intro l _ _; simp
    | cons x hs ih =>
      intro l h1 h2
      obtain ⟨hx, hp⟩ := h2 x List.mem_cons_self
      rw [List.foldl_cons, HitList.addHit, if_pos hx.symm, addToCell_same _ (hsh _) _ _ (fun e he => (h1 e he).trans hp.symm), hp,
        ih _ (by simpa using h1) fun y hy => h2 y (List.mem_cons_of_mem _ hy)]
      simp
  cases hs with
  | nil => exact absurd rfl hne
  | cons h hs =>
    obtain ⟨h1, h2⟩ := hc h List.mem_cons_self
    have h0 : addToCell (shapes 0) [] h = [⟨p, [h]⟩] := by rw [addToCell_same _ (hsh 0) [] h (by simp), h2]
    have hmem : ∀ x ∈ hs.zipIdx 1, x.1 ∈ hs := fun x hx => by
      have := List.mem_map_of_mem (f := Prod.fst) hx
      rwa [List.zipIdx_map_fst] at this
    rw [history, List.zipIdx_cons, List.foldl_cons]
    simp only [HitList.addHit, h0]
    rw [h1, zero_add, key _ _ (by simp) fun x hx => hc _ (List.mem_cons_of_mem _ (hmem x hx))]
    have : ((hs.zipIdx 1).map fun h => (⟨p, [h.1]⟩ : Entry K d α)) = hs.map fun h => ⟨p, [h]⟩ := by
      conv_rhs => rw [← List.zipIdx_map_fst 1 hs, List.map_map]
      rfl
    rw [this]
    simp

/-- A list as a tree without left branches. -/
def chain {β : Type*} : List β → Tree β
  | [] => .leaf
  | x :: l => .node .leaf x (chain l)

omit [Field K] [LinearOrder K] in
theorem chain_isShape : IsShape (K := K) (d := d) (α := α) chain := by
  intro l
  induction l with
  | nil => rfl
  | cons x l ih => simp [chain, Tree.toList, ih]

/-- Non-vacuity: shapes exist; two hits at different ends of a wall, and two at the same point. -/
example : (∀ _ : ℕ, IsShape (K := ℚ) (d := 2) (α := ℕ) chain) ∧ ¬ Near ![0, (0 : ℚ)] ![1, 0] ∧
    history (fun _ => chain) [(⟨0, ![0, (0 : ℚ)], 7⟩ : Hit ℚ 2 ℕ), ⟨0, ![1, 0], 8⟩] =
      [(0, [⟨![0, 0], [⟨0, ![0, 0], 7⟩, ⟨0, ![1, 0], 8⟩]⟩])] ∧
    history (fun _ => chain) [(⟨0, ![0, (0 : ℚ)], 7⟩ : Hit ℚ 2 ℕ), ⟨0, ![0, 0], 8⟩] =
      [(0, [⟨![0, 0], [⟨0, ![0, 0], 8⟩]⟩, ⟨![0, 0], [⟨0, ![0, 0], 7⟩]⟩])] := by
  have hn : ¬ Near ![0, (0 : ℚ)] ![1, 0] := by simp only [Near, Fin.sum_univ_two]; norm_num
  refine ⟨fun _ => chain_isShape, hn, ?_, ?_⟩
  · exact C48_different_points_fails _ (fun _ => chain_isShape) 0 _ _ (by simp) (by simpa using hn)
  · exact C48_same_point_fails _ (fun _ => chain_isShape) 0 ![0, 0] _ (by simp) (by simp)

end Hits
end NATriuM
