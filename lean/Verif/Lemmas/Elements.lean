import Verif.Spec.Elements
import Mathlib.Tactic.Ring
import Mathlib.Tactic.Linarith
import Mathlib.Tactic.NormNum
import Mathlib.Tactic.FieldSimp
import Mathlib.Tactic.Positivity

/-!
# Lemmas about finite elements and distances of degrees of freedom
-/

namespace NATriuM
namespace Elements

theorem nearest_le (x : ℝ) : ∀ (rest : List ℝ) (m : ℝ), nearest x rest m ≤ m ∧ ∀ y ∈ rest, nearest x rest m ≤ |x - y|
  | [], m => ⟨le_refl _, by simp⟩
  | y :: rest, m => by
    have h := nearest_le x rest (if |x - y| < m then |x - y| else m)
    have e : nearest x (y :: rest) m = nearest x rest (if |x - y| < m then |x - y| else m) := rfl
    rw [e]
    have hm : (if |x - y| < m then |x - y| else m) ≤ m := by split <;> linarith
    have hy : (if |x - y| < m then |x - y| else m) ≤ |x - y| := by split <;> linarith
    refine ⟨h.1.trans hm, fun z hz => ?_⟩
    rcases List.mem_cons.1 hz with rfl | hz
    · exact h.1.trans hy
    · exact h.2 z hz

theorem nearest_attained (x : ℝ) : ∀ (rest : List ℝ) (m : ℝ), nearest x rest m = m ∨ ∃ y ∈ rest, nearest x rest m = |x - y|
  | [], m => Or.inl rfl
  | y :: rest, m => by
    have e : nearest x (y :: rest) m = nearest x rest (if |x - y| < m then |x - y| else m) := rfl
    rw [e]
    rcases nearest_attained x rest (if |x - y| < m then |x - y| else m) with h | ⟨z, hz, h⟩
    · by_cases hlt : |x - y| < m
      · exact Or.inr ⟨y, List.mem_cons_self, by rw [h, if_pos hlt]⟩
      · exact Or.inl (by rw [h, if_neg hlt])
    · exact Or.inr ⟨z, List.mem_cons_of_mem _ hz, h⟩

theorem minimumPairs_le : ∀ (l : List ℝ) (m : ℝ), minimumPairs l m ≤ m
  | [], _ => le_refl _
  | x :: rest, m => (minimumPairs_le rest _).trans (nearest_le x rest m).1

/-- The loops find a lower bound of all distances. -/
theorem minimumPairs_pairwise : ∀ (l : List ℝ) (m : ℝ), l.Pairwise fun x y => minimumPairs l m ≤ |x - y|
  | [], _ => List.Pairwise.nil
  | x :: rest, m => by
    refine List.Pairwise.cons (fun y hy => ?_) (minimumPairs_pairwise rest _)
    exact (minimumPairs_le rest _).trans ((nearest_le x rest m).2 y hy)

/-- The bound is the start value or a distance. -/
theorem minimumPairs_attained : ∀ (l : List ℝ) (m : ℝ),
    minimumPairs l m = m ∨ ∃ i j : ℕ, i < j ∧ j < l.length ∧ minimumPairs l m = |l.getD i 0 - l.getD j 0|
  | [], _ => Or.inl rfl
  | x :: rest, m => by
    rcases minimumPairs_attained rest (nearest x rest m) with h | ⟨i, j, hij, hj, h⟩
    · rcases nearest_attained x rest m with h' | ⟨y, hy, h'⟩
      · exact Or.inl (h.trans h')
      · obtain ⟨j, hj, rfl⟩ := List.mem_iff_getElem.1 hy
        refine Or.inr ⟨0, j + 1, Nat.succ_pos _, by simpa using hj, ?_⟩
        have e : minimumPairs (x :: rest) m = minimumPairs rest (nearest x rest m) := rfl
        rw [e, h, h']
        simp [List.getElem?_eq_getElem hj]
    · refine Or.inr ⟨i + 1, j + 1, by omega, by simpa using hj, ?_⟩
      have e : minimumPairs (x :: rest) m = minimumPairs rest (nearest x rest m) := rfl
      rw [e, h]
      simp

theorem minimumPairs_nonneg (l : List ℝ) (m : ℝ) (hm : 0 ≤ m) : 0 ≤ minimumPairs l m := by
  rcases minimumPairs_attained l m with h | ⟨i, j, _, _, h⟩
  · rw [h]; exact hm
  · rw [h]; exact abs_nonneg _

section points

variable {D : Dealii} (hD : D.Sound) {order : ℕ} (ho : 1 ≤ order)

include hD ho in
theorem points_get (i : Fin (order + 1)) : ∃ h : i.val < (D.gaussLobatto (order + 1)).length,
    D.points order i = (D.gaussLobatto (order + 1))[i.val] := by
  have hl := hD.length (order + 1) (by omega)
  refine ⟨by rw [hl]; exact i.2, ?_⟩
  rw [Dealii.points, List.getD_eq_getElem?_getD, List.getElem?_eq_getElem (by rw [hl]; exact i.2), Option.getD_some]

include hD ho in
theorem points_strictMono : StrictMono (D.points order) := by
  intro i j hij
  obtain ⟨hi, ei⟩ := points_get hD ho i
  obtain ⟨hj, ej⟩ := points_get hD ho j
  rw [ei, ej]
  exact List.pairwise_iff_getElem.1 (hD.increasing (order + 1) (by omega)) _ _ hi hj hij

include hD ho in
theorem points_first : D.points order 0 = 0 := by
  obtain ⟨h, e⟩ := points_get hD ho 0
  rw [e]
  have := hD.first (order + 1) (by omega)
  rw [List.head?_eq_getElem?, List.getElem?_eq_getElem (show 0 < _ from h)] at this
  exact Option.some.inj this

include hD ho in
theorem points_last : D.points order (Fin.last order) = 1 := by
  obtain ⟨h, e⟩ := points_get hD ho (Fin.last order)
  rw [e]
  have hl := hD.length (order + 1) (by omega)
  have := hD.last (order + 1) (by omega)
  rw [List.getLast?_eq_getElem?, hl, List.getElem?_eq_getElem (by rw [hl]; omega)] at this
  exact Option.some.inj this

include hD ho in
theorem points_mem (i : Fin (order + 1)) : 0 ≤ D.points order i ∧ D.points order i ≤ 1 := by
  have hm := (points_strictMono hD ho).monotone
  refine ⟨?_, ?_⟩
  · rw [← points_first hD ho]; exact hm (Fin.zero_le i)
  · rw [← points_last hD ho]; exact hm (Fin.le_last i)

/-- The least distance of two points -/
noncomputable def gap (D : Dealii) (order : ℕ) : ℝ := minimumPairs (D.gaussLobatto (order + 1)) 10000

include hD ho in
theorem gap_le {i j : Fin (order + 1)} (hij : i ≠ j) : gap D order ≤ |D.points order i - D.points order j| := by
  have key : ∀ i j : Fin (order + 1), i < j → gap D order ≤ |D.points order i - D.points order j| := by
    intro i j h
    obtain ⟨hi, ei⟩ := points_get hD ho i
    obtain ⟨hj, ej⟩ := points_get hD ho j
    rw [ei, ej]
    exact List.pairwise_iff_getElem.1 (minimumPairs_pairwise _ 10000) _ _ hi hj h
  rcases lt_or_gt_of_ne hij with h | h
  · exact key i j h
  · rw [abs_sub_comm]; exact key j i h

include hD ho in
theorem gap_attained : ∃ i j : Fin (order + 1), i < j ∧ gap D order = |D.points order i - D.points order j| := by
  have hl := hD.length (order + 1) (by omega)
  rcases minimumPairs_attained (D.gaussLobatto (order + 1)) 10000 with h | ⟨i, j, hij, hj, h⟩
  · exfalso
    have h1 := gap_le hD ho (i := 0) (j := Fin.last order) (by intro e; have := congrArg Fin.val e; simp at this; omega)
    rw [points_first hD ho, points_last hD ho, gap, h] at h1
    norm_num at h1
  · rw [hl] at hj
    exact ⟨⟨i, by omega⟩, ⟨j, hj⟩, hij, h⟩

include hD ho in
theorem gap_pos : 0 < gap D order := by
  obtain ⟨i, j, hij, h⟩ := gap_attained hD ho
  rw [h, abs_pos]
  have := points_strictMono hD ho hij
  intro e
  linarith

end points

section cells

variable {d : ℕ}

theorem coordinate_le_distance (x y : Fin d → ℝ) (b : Fin d) : |x b - y b| ≤ distance x y := by
  rw [distance, ← Real.sqrt_sq_eq_abs]
  exact Real.sqrt_le_sqrt (Finset.single_le_sum (f := fun b => (x b - y b) ^ 2) (fun _ _ => sq_nonneg _) (Finset.mem_univ b))

theorem distance_one (x y : Fin d → ℝ) (b : Fin d) (h : ∀ a, a ≠ b → x a = y a) : distance x y = |x b - y b| := by
  rw [distance, Finset.sum_eq_single b, Real.sqrt_sq_eq_abs]
  · intro a _ ha; rw [h a ha]; ring
  · intro hb; exact absurd (Finset.mem_univ b) hb

theorem box_map {c : Cell d} (hc : c.IsBox) (x : Fin d → ℝ) (b : Fin d) : c.map x b = c.origin b + x b * c.edge b b := by
  rw [Cell.map, Finset.sum_eq_single b]
  · intro a _ ha; rw [hc.2 a b ha, mul_zero]
  · intro hb; exact absurd (Finset.mem_univ b) hb

theorem vertexDistances_finite (c : Cell d) : c.vertexDistances.Finite := by
  refine (Set.finite_range fun vw : (Fin d → Bool) × (Fin d → Bool) =>
    distance (c.map fun a => if vw.1 a then 1 else 0) (c.map fun a => if vw.2 a then 1 else 0)).subset ?_
  rintro r ⟨v, w, _, rfl⟩
  exact ⟨(v, w), rfl⟩

theorem edge_mem {c : Cell d} (hc : c.IsBox) (a : Fin d) : c.edge a a ∈ c.vertexDistances := by
  refine ⟨fun b => decide (b = a), fun _ => false, fun e => by simpa using congrFun e a, ?_⟩
  rw [distance_one _ _ a]
  · rw [box_map hc, box_map hc]
    simp [abs_of_pos (hc.1 a)]
  · intro b hb
    rw [box_map hc, box_map hc]
    simp [hb]

theorem seen_le {c : Cell d} (hc : c.IsBox) (a : Fin d) : sInf c.vertexDistances ≤ c.edge a a :=
  csInf_le (vertexDistances_finite c).bddBelow (edge_mem hc a)

/-- The least distance of the vertices of a box is one of its edges. -/
theorem seen_eq {c : Cell d} (hc : c.IsBox) (hd : 0 < d) : ∃ a, sInf c.vertexDistances = c.edge a a := by
  obtain ⟨v, w, hvw, h⟩ := Set.Nonempty.csInf_mem ⟨_, edge_mem hc ⟨0, hd⟩⟩ (vertexDistances_finite c)
  obtain ⟨a, ha⟩ := Function.ne_iff.1 hvw
  refine ⟨a, le_antisymm (seen_le hc a) ?_⟩
  rw [h]
  refine le_trans ?_ (coordinate_le_distance _ _ a)
  rw [box_map hc, box_map hc]
  rcases hv : v a with _ | _ <;> rcases hw : w a with _ | _ <;> simp_all [abs_of_pos (hc.1 a)]

theorem localMin_le_start : ∀ (cells : List MeshCell) (m : ℝ),
    cells.foldl (fun m cell => if cell.owned then (if cell.minDist < m then cell.minDist else m) else m) m ≤ m
  | [], _ => le_refl _
  | c :: cells, m => by
    refine (localMin_le_start cells _).trans ?_
    show (if c.owned = true then if c.minDist < m then c.minDist else m else m) ≤ m
    split
    · split <;> linarith
    · exact le_refl _

theorem localMin_attained : ∀ (cells : List MeshCell) (m : ℝ),
    cells.foldl (fun m cell => if cell.owned then (if cell.minDist < m then cell.minDist else m) else m) m = m ∨
    ∃ c ∈ cells, c.owned = true ∧
      cells.foldl (fun m cell => if cell.owned then (if cell.minDist < m then cell.minDist else m) else m) m = c.minDist
  | [], _ => Or.inl rfl
  | c :: cells, m => by
    rw [List.foldl_cons]
    rcases localMin_attained cells (if c.owned then (if c.minDist < m then c.minDist else m) else m) with h | ⟨x, hx, ho, h⟩
    · rw [h]
      by_cases ho : c.owned = true
      · by_cases hlt : c.minDist < m
        · exact Or.inr ⟨c, List.mem_cons_self, ho, by rw [if_pos ho, if_pos hlt]⟩
        · exact Or.inl (by rw [if_pos ho, if_neg hlt])
      · exact Or.inl (by rw [if_neg ho])
    · exact Or.inr ⟨x, List.mem_cons_of_mem _ hx, ho, h⟩

theorem foldMin_attained (f : List MeshCell → ℝ) : ∀ (ps : List (List MeshCell)) (m : ℝ),
    ps.foldl (fun m cells => min m (f cells)) m = m ∨ ∃ p ∈ ps, ps.foldl (fun m cells => min m (f cells)) m = f p
  | [], _ => Or.inl rfl
  | p :: ps, m => by
    rw [List.foldl_cons]
    rcases foldMin_attained f ps (min m (f p)) with h | ⟨x, hx, h⟩
    · rw [h]
      rcases min_choice m (f p) with h' | h'
      · exact Or.inl h'
      · exact Or.inr ⟨p, List.mem_cons_self, h'⟩
    · exact Or.inr ⟨x, List.mem_cons_of_mem _ hx, h⟩

/-- The minimum over all processes is the start value of the loops or the distance in a cell of its process. -/
theorem vertexDistance_attained (p0 : List MeshCell) (ps : List (List MeshCell)) :
    getMinimumVertexDistance p0 ps = 100000000000 ∨
    ∃ p ∈ p0 :: ps, ∃ c ∈ p, c.owned = true ∧ getMinimumVertexDistance p0 ps = c.minDist := by
  have key : ∃ p ∈ p0 :: ps, getMinimumVertexDistance p0 ps = localMinDistance p := by
    rcases foldMin_attained localMinDistance ps (localMinDistance p0) with h | ⟨p, hp, h⟩
    · exact ⟨p0, List.mem_cons_self, h⟩
    · exact ⟨p, List.mem_cons_of_mem _ hp, h⟩
  obtain ⟨p, hp, h⟩ := key
  rcases localMin_attained p 100000000000 with h' | ⟨c, hc, ho, h'⟩
  · exact Or.inl (h.trans h')
  · exact Or.inr ⟨p, hp, c, hc, ho, h.trans h'⟩

end cells

end Elements
end NATriuM
