import Verif.Spec.Neighborhood
import Mathlib.Data.List.Nodup
import Mathlib.Data.Fintype.List
import Mathlib.Algebra.BigOperators.Fin
import Mathlib.Algebra.Order.BigOperators.Group.Finset
import Mathlib.Tactic.Linarith

/-!
# Lemmas on breadth-first search
-/

namespace NATriuM
namespace Cells

section Search

variable {X C : Type*} [DecidableEq C] (key : X → C)

/-- Append an element unless its key is there -/
def add (hood : List X) (y : X) : List X := if key y ∈ hood.map key then hood else hood ++ [y]

theorem foldl_add (ys hood : List X) : ∃ t, ys.foldl (add key) hood = hood ++ t ∧ (∀ z ∈ t, z ∈ ys) ∧
    ((hood.map key).Nodup → ((hood ++ t).map key).Nodup) ∧ ∀ y ∈ ys, key y ∈ (hood ++ t).map key := by
  induction ys generalizing hood with
  | nil => exact ⟨[], by simp, by simp, by simp, by simp⟩
  | cons y ys ih =>
    obtain ⟨t, h1, h2, h3, h4⟩ := ih (add key hood y)
    by_cases hy : key y ∈ hood.map key
    · have ha : add key hood y = hood := if_pos hy
      rw [ha] at h1 h3 h4
      refine ⟨t, by rw [List.foldl_cons, ha, h1], fun z hz => List.mem_cons_of_mem _ (h2 z hz), h3, fun z hz => ?_⟩
      rcases List.mem_cons.1 hz with rfl | hz
      · rw [List.map_append]; exact List.mem_append_left _ hy
      · exact h4 z hz
    · have ha : add key hood y = hood ++ [y] := if_neg hy
      rw [ha, List.append_assoc] at h1 h3 h4
      refine ⟨[y] ++ t, by rw [List.foldl_cons, ha, h1], fun z hz => ?_, fun hn => ?_, fun z hz => ?_⟩
      · rcases List.mem_append.1 hz with hz | hz
        · rw [List.mem_singleton.1 hz]; exact List.mem_cons_self
        · exact List.mem_cons_of_mem _ (h2 z hz)
      · apply h3
        rw [List.map_append, List.map_singleton]
        exact List.nodup_append.2 ⟨hn, List.nodup_singleton _, fun a ha b hb => by
          rw [List.mem_singleton.1 hb]; rintro rfl; exact hy ha⟩
      · rcases List.mem_cons.1 hz with rfl | hz
        · simp
        · exact h4 z hz

variable (succs : X → List X)

/-- What holds when the loop is about to look at element `c` -/
structure Inv (R : X → Prop) (s : X) (c : ℕ) (hood : List X) : Prop where
  nodup : (hood.map key).Nodup
  start : s ∈ hood
  reach : ∀ x ∈ hood, R x
  closed : ∀ k x, k < c → hood[k]? = some x → ∀ y ∈ succs x, key y ∈ hood.map key
  le : c ≤ hood.length

/-- What holds of the distances then -/
structure InvRank (rank : X → ℕ) (c : ℕ) (hood : List X) : Prop where
  sorted : hood.Pairwise fun x y => rank x ≤ rank y
  bound : ∀ z, hood[c]? = some z → ∀ x ∈ hood, rank x ≤ rank z + 1
  closed : ∀ k x, k < c → hood[k]? = some x → ∀ y ∈ succs x, ∃ z ∈ hood, key z = key y ∧ rank z ≤ rank x + 1

theorem Inv.init {R : X → Prop} {s : X} (hs : R s) : Inv key succs R s 0 [s] where
  nodup := by simp
  start := by simp
  reach := by simpa using hs
  closed := fun k x hk => by omega
  le := by simp

theorem Inv.next {R : X → Prop} {s x : X} {c : ℕ} {hood : List X} (hi : Inv key succs R s c hood) (hR : ∀ x, R x → ∀ y ∈ succs x, R y)
    (hx : hood[c]? = some x) : Inv key succs R s (c + 1) ((succs x).foldl (add key) hood) := by
  obtain ⟨t, h1, h2, h3, h4⟩ := foldl_add key (succs x) hood
  have hxm : x ∈ hood := List.mem_of_getElem? hx
  have hc : c < hood.length := (List.getElem?_eq_some_iff.1 hx).1
  rw [h1]
  refine ⟨h3 hi.nodup, List.mem_append_left _ hi.start, fun z hz => ?_, fun k z hk hz y hy => ?_, ?_⟩
  · rcases List.mem_append.1 hz with hz | hz
    · exact hi.reach z hz
    · exact hR x (hi.reach x hxm) z (h2 z hz)
  · rw [List.getElem?_append_left (by omega)] at hz
    rcases Nat.lt_succ_iff_lt_or_eq.1 hk with hk | rfl
    · rw [List.map_append]; exact List.mem_append_left _ (hi.closed k z hk hz y hy)
    · rw [hx] at hz; cases hz; exact h4 y hy
  · rw [List.length_append]; omega

theorem InvRank.init {rank : X → ℕ} {s : X} : InvRank key succs rank 0 [s] where
  sorted := by simp
  bound := fun z hz x hx => by
    simp only [List.getElem?_cons_zero, Option.some.injEq] at hz
    rw [List.mem_singleton.1 hx, hz]; omega
  closed := fun k x hk => by omega

theorem InvRank.next {rank : X → ℕ} {x : X} {c : ℕ} {hood : List X} (hi : InvRank key succs rank c hood)
    (hr : ∀ x, ∀ y ∈ succs x, rank y = rank x + 1) (hx : hood[c]? = some x) :
    InvRank key succs rank (c + 1) ((succs x).foldl (add key) hood) := by
  obtain ⟨t, h1, h2, h3, h4⟩ := foldl_add key (succs x) hood
  have hc : c < hood.length := (List.getElem?_eq_some_iff.1 hx).1
  rw [h1]
  have hb : ∀ z ∈ hood ++ t, rank z ≤ rank x + 1 := fun z hz => by
    rcases List.mem_append.1 hz with hz | hz
    · exact hi.bound x hx z hz
    · rw [hr x z (h2 z hz)]
  have hs : (hood ++ t).Pairwise fun x y => rank x ≤ rank y := by
    refine List.pairwise_append.2 ⟨hi.sorted, ?_, fun a ha b hb' => ?_⟩
    · exact List.pairwise_of_forall_mem_list fun a ha b hb' => by rw [hr x a (h2 a ha), hr x b (h2 b hb')]
    · rw [hr x b (h2 b hb')]; exact hi.bound x hx a ha
  refine ⟨hs, fun z hz y hy => ?_, fun k z hk hz y hy => ?_⟩
  · have hxz : rank x ≤ rank z := by
      have hx' : (hood ++ t)[c]? = some x := by rw [List.getElem?_append_left hc, hx]
      obtain ⟨l1, e1⟩ := List.getElem?_eq_some_iff.1 hx'
      obtain ⟨l2, e2⟩ := List.getElem?_eq_some_iff.1 hz
      have := List.pairwise_iff_getElem.1 hs c (c + 1) l1 l2 (by omega)
      rwa [e1, e2] at this
    have := hb y hy
    omega
  · rw [List.getElem?_append_left (by omega)] at hz
    rcases Nat.lt_succ_iff_lt_or_eq.1 hk with hk | rfl
    · obtain ⟨w, hw, h⟩ := hi.closed k z hk hz y hy
      exact ⟨w, List.mem_append_left _ hw, h⟩
    · rw [hx] at hz; cases hz
      obtain ⟨w, hw, he⟩ := List.mem_map.1 (h4 y hy)
      exact ⟨w, hw, he, hb w hw⟩

theorem length_le_card [Fintype C] {hood : List X} (h : (hood.map key).Nodup) : hood.length ≤ Fintype.card C := by
  have := h.length_le_card
  simpa using this

end Search

variable {C : Type*} [DecidableEq C] {faces : ℕ}

/-- The cells in a neighbour -/
def Neighbor.cells : Neighbor C → List C
  | .nothing => []
  | .artificial => []
  | .active n => [n]
  | .refined l => l

omit [DecidableEq C] in
theorem adjacent_iff (mesh : Mesh C faces) (i : Fin faces) (c e : C) : mesh.Adjacent i c e ↔ e ∈ (mesh.getNeighbor c i).cells := by
  have key : ∀ n : Neighbor C, (n = .active e ∨ ∃ l, n = .refined l ∧ e ∈ l) ↔ e ∈ n.cells := by
    intro n
    cases n with
    | nothing => simp [Neighbor.cells]
    | artificial => simp [Neighbor.cells]
    | active x => simp [Neighbor.cells, eq_comm]
    | refined l => simp [Neighbor.cells]
  unfold Mesh.Adjacent Mesh.getNeighbor
  cases h : mesh.face c i with
  | interior n => simp [key]
  | periodic n => simp [key]
  | boundary => simp [Neighbor.cells]

theorem inHood_iff {V : Type*} (c : C) (hood : List (C × V)) : inHood c hood = true ↔ c ∈ hood.map Prod.fst := by
  simp only [inHood, List.any_eq_true, decide_eq_true_eq, List.mem_map]
  exact exists_congr fun x => and_congr_right fun _ => eq_comm

/-- What a cell of the list contributes at a face -/
def faceSuccs (mesh : Mesh C faces) (shells : ℕ) (x : C × (Fin faces → ℕ)) (i : Fin faces) : List (C × (Fin faces → ℕ)) :=
  if x.2 i ≥ shells then [] else (mesh.getNeighbor x.1 i).cells.map fun n => (n, increment x.2 i)

/-- What a cell of the list contributes -/
def cellSuccs (mesh : Mesh C faces) (shells : ℕ) (x : C × (Fin faces → ℕ)) : List (C × (Fin faces → ℕ)) :=
  (List.finRange faces).flatMap (faceSuccs mesh shells x)

theorem add_fst {V : Type*} (hood : List (C × V)) (n : C) (v : V) :
    (if inHood n hood = true then hood else hood ++ [(n, v)]) = add Prod.fst hood (n, v) := by
  simp only [add, inHood_iff]

theorem visitFace_eq (mesh : Mesh C faces) (shells : ℕ) (x : C × (Fin faces → ℕ)) (hood : Hood C faces) (i : Fin faces) :
    visitFace mesh shells x hood i = (faceSuccs mesh shells x i).foldl (add Prod.fst) hood := by
  unfold visitFace faceSuccs
  by_cases h : x.2 i ≥ shells
  · simp [h]
  · simp only [h, if_false]
    cases mesh.getNeighbor x.1 i with
    | nothing => simp [Neighbor.cells]
    | artificial => simp [Neighbor.cells]
    | active n => simp only [Neighbor.cells, List.map_cons, List.map_nil, List.foldl_cons, List.foldl_nil, add_fst]
    | refined l => simp only [Neighbor.cells, List.foldl_map, add_fst]

theorem visit_eq (mesh : Mesh C faces) (shells : ℕ) (x : C × (Fin faces → ℕ)) (hood : Hood C faces) :
    (List.finRange faces).foldl (visitFace mesh shells x) hood = (cellSuccs mesh shells x).foldl (add Prod.fst) hood := by
  unfold cellSuccs
  rw [List.foldl_flatMap]
  congr 1
  funext h i
  exact visitFace_eq mesh shells x h i

omit [DecidableEq C] in
theorem mem_cellSuccs (mesh : Mesh C faces) (shells : ℕ) (x y : C × (Fin faces → ℕ)) :
    y ∈ cellSuccs mesh shells x ↔ ∃ i, x.2 i < shells ∧ mesh.Adjacent i x.1 y.1 ∧ y.2 = increment x.2 i := by
  simp only [cellSuccs, List.mem_flatMap, List.mem_finRange, true_and, faceSuccs]
  refine exists_congr fun i => ?_
  by_cases h : x.2 i ≥ shells
  · simp [h]
  · simp only [h, if_false, List.mem_map, adjacent_iff]
    constructor
    · rintro ⟨n, hn, rfl⟩; exact ⟨not_le.1 h, hn, rfl⟩
    · rintro ⟨_, hn, h2⟩; exact ⟨y.1, hn, by rw [← h2]⟩

/-- The number of faces crossed -/
def rank (x : C × (Fin faces → ℕ)) : ℕ := ∑ i, x.2 i

omit [DecidableEq C] in
theorem sum_increment (v : Fin faces → ℕ) (i : Fin faces) : ∑ j, increment v i j = ∑ j, v j + 1 := by
  unfold increment
  rw [Finset.sum_update_of_mem (Finset.mem_univ i), ← Finset.add_sum_erase Finset.univ v (Finset.mem_univ i), Finset.sdiff_singleton_eq_erase]
  omega

theorem rank_succs (mesh : Mesh C faces) (shells : ℕ) (x y : C × (Fin faces → ℕ)) (hy : y ∈ cellSuccs mesh shells x) : rank y = rank x + 1 := by
  obtain ⟨i, _, _, h⟩ := (mem_cellSuccs mesh shells x y).1 hy
  rw [rank, h, sum_increment]; rfl

/-- What holds at the end of the loop -/
theorem visitCells_inv [Fintype C] (mesh : Mesh C faces) (shells : ℕ) (R : C × (Fin faces → ℕ) → Prop)
    (hR : ∀ x, R x → ∀ y ∈ cellSuccs mesh shells x, R y) (s : C × (Fin faces → ℕ)) (fuel c : ℕ) (hood : Hood C faces)
    (hf : Fintype.card C < fuel + c) (hi : Inv Prod.fst (cellSuccs mesh shells) R s c hood)
    (hr : InvRank Prod.fst (cellSuccs mesh shells) rank c hood) :
    ∃ c', (visitCells mesh shells fuel c hood).length ≤ c' ∧ Inv Prod.fst (cellSuccs mesh shells) R s c' (visitCells mesh shells fuel c hood) ∧
      InvRank Prod.fst (cellSuccs mesh shells) rank c' (visitCells mesh shells fuel c hood) := by
  induction fuel generalizing c hood with
  | zero =>
    have h1 := length_le_card Prod.fst hi.nodup
    have h2 := hi.le
    omega
  | succ fuel ih =>
    rw [visitCells]
    cases hx : hood[c]? with
    | none =>
      exact ⟨c, List.getElem?_eq_none_iff.1 hx, hi, hr⟩
    | some x =>
      simp only [visit_eq]
      exact ih (c + 1) _ (by omega) (hi.next _ _ hR hx) (hr.next _ _ (rank_succs mesh shells) hx)

/-- More passes than there are cells change nothing. -/
theorem visitCells_more [Fintype C] (mesh : Mesh C faces) (shells : ℕ) (s : C × (Fin faces → ℕ)) (fuel extra c : ℕ) (hood : Hood C faces)
    (hf : Fintype.card C < fuel + c) (hi : Inv Prod.fst (cellSuccs mesh shells) (fun _ => True) s c hood) :
    visitCells mesh shells (fuel + extra) c hood = visitCells mesh shells fuel c hood := by
  induction fuel generalizing c hood with
  | zero =>
    have h1 := length_le_card Prod.fst hi.nodup
    have h2 := hi.le
    omega
  | succ fuel ih =>
    rw [show fuel + 1 + extra = (fuel + extra) + 1 by omega, visitCells, visitCells]
    cases hx : hood[c]? with
    | none => rfl
    | some x =>
      simp only [visit_eq]
      exact ih (c + 1) _ (by omega) (hi.next _ _ (fun _ _ _ _ => trivial) hx)

/-- The whole list, with its counters -/
def hoodOf [Fintype C] (mesh : Mesh C faces) (cell : C) (shells : ℕ) : Hood C faces :=
  visitCells mesh shells (Fintype.card C + 1) 0 [(cell, fun _ => 0)]

theorem hoodOf_spec [Fintype C] (mesh : Mesh C faces) (cell : C) (shells : ℕ) (R : C × (Fin faces → ℕ) → Prop) (h0 : R (cell, fun _ => 0))
    (hR : ∀ x, R x → ∀ y ∈ cellSuccs mesh shells x, R y) :
    ((hoodOf mesh cell shells).map Prod.fst).Nodup ∧ (cell, fun _ => 0) ∈ hoodOf mesh cell shells ∧ (∀ x ∈ hoodOf mesh cell shells, R x) ∧
    ∀ x ∈ hoodOf mesh cell shells, ∀ y ∈ cellSuccs mesh shells x, ∃ z ∈ hoodOf mesh cell shells, z.1 = y.1 ∧ rank z ≤ rank x + 1 := by
  obtain ⟨c, hc, hi, hr⟩ := visitCells_inv mesh shells R hR (cell, fun _ => 0) (Fintype.card C + 1) 0 [(cell, fun _ => 0)]
    (by omega) (Inv.init _ _ h0) (InvRank.init _ _)
  refine ⟨hi.nodup, hi.start, hi.reach, fun x hx y hy => ?_⟩
  obtain ⟨k, hk⟩ := List.mem_iff_getElem?.1 hx
  exact hr.closed k x (lt_of_lt_of_le (List.getElem?_eq_some_iff.1 hk).1 hc) hk y hy

/-- The cells found by the search at a face -/
theorem searchFace_eq (mesh : Mesh C faces) (x : C) (hood : List C) (i : Fin faces) :
    searchFace mesh x hood i = (mesh.getNeighbor x i).cells.foldl (add id) hood := by
  have ha : ∀ (h : List C) (n : C), (if n ∈ h then h else h ++ [n]) = add id h n := fun h n => by simp [add]
  unfold searchFace
  cases mesh.getNeighbor x i with
  | nothing => simp [Neighbor.cells]
  | artificial => simp [Neighbor.cells]
  | active n => simp only [Neighbor.cells, List.foldl_cons, List.foldl_nil, ha]
  | refined l => simp only [Neighbor.cells, ha]

/-- All cells found by the search at a cell -/
def searchSuccs (mesh : Mesh C faces) (x : C) : List C := (List.finRange faces).flatMap fun i => (mesh.getNeighbor x i).cells

theorem search_eq (mesh : Mesh C faces) (x : C) (hood : List C) :
    (List.finRange faces).foldl (searchFace mesh x) hood = (searchSuccs mesh x).foldl (add id) hood := by
  unfold searchSuccs
  rw [List.foldl_flatMap]
  congr 1
  funext h i
  exact searchFace_eq mesh x h i

omit [DecidableEq C] in
theorem mem_searchSuccs (mesh : Mesh C faces) (x y : C) : y ∈ searchSuccs mesh x ↔ ∃ i, mesh.Adjacent i x y := by
  simp [searchSuccs, adjacent_iff]

theorem searchCells_spec [Fintype C] (mesh : Mesh C faces) (pointInside : C → Bool) (R : C → Prop)
    (hR : ∀ x, R x → ∀ y ∈ searchSuccs mesh x, R y) (s : C) (fuel c : ℕ) (hood : List C)
    (hf : Fintype.card C < fuel + c) (hi : Inv id (searchSuccs mesh) R s c hood) (hp : ∀ k x, k < c → hood[k]? = some x → pointInside x = false) :
    match searchCells mesh pointInside fuel c hood with
    | some x => pointInside x = true ∧ R x
    | none => ∃ hood : List C, s ∈ hood ∧ (∀ x ∈ hood, pointInside x = false) ∧ ∀ x ∈ hood, ∀ i y, mesh.Adjacent i x y → y ∈ hood := by
  induction fuel generalizing c hood with
  | zero =>
    have h1 := length_le_card id hi.nodup
    have h2 := hi.le
    omega
  | succ fuel ih =>
    rw [searchCells]
    cases hx : hood[c]? with
    | none =>
      have hlen := List.getElem?_eq_none_iff.1 hx
      refine ⟨hood, hi.start, fun x hxm => ?_, fun x hxm i y hy => ?_⟩
      · obtain ⟨k, hk⟩ := List.mem_iff_getElem?.1 hxm
        exact hp k x (lt_of_lt_of_le (List.getElem?_eq_some_iff.1 hk).1 hlen) hk
      · obtain ⟨k, hk⟩ := List.mem_iff_getElem?.1 hxm
        have := hi.closed k x (lt_of_lt_of_le (List.getElem?_eq_some_iff.1 hk).1 hlen) hk y ((mem_searchSuccs mesh x y).2 ⟨i, hy⟩)
        simpa using this
    | some x =>
      dsimp only
      by_cases hin : pointInside x = true
      · rw [if_pos hin]
        exact ⟨hin, hi.reach x (List.mem_of_getElem? hx)⟩
      · rw [if_neg hin, search_eq]
        refine ih (c + 1) _ (by omega) (hi.next _ _ hR hx) fun k z hk hz => ?_
        obtain ⟨t, h1, _⟩ := foldl_add id (searchSuccs mesh x) hood
        have hc : c < hood.length := (List.getElem?_eq_some_iff.1 hx).1
        rw [h1, List.getElem?_append_left (by omega)] at hz
        rcases Nat.lt_succ_iff_lt_or_eq.1 hk with hk | rfl
        · exact hp k z hk hz
        · rw [hx] at hz; cases hz; simpa using hin

end Cells
end NATriuM
