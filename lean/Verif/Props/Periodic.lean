import Verif.Lemmas.Periodic
import Mathlib.Tactic.Abel
import Mathlib.Algebra.Field.Rat
import Mathlib.Algebra.Order.Ring.Rat
import Mathlib.Tactic.NormNum
import Mathlib.Tactic.FinCases
import Mathlib.Data.Fintype.Basic

/-!
# Property C44: periodic boundaries
-/

namespace NATriuM
namespace Periodic

variable {K : Type*} {d : ℕ} (childOnFace : Orientation → ℕ → ℕ → ℕ)

/-- **C44** (partial: cells that touch the boundary with one face only, see `C44_one_cell_fails`) The neighbour across a periodic boundary is the
opposite cell with the opposite face, in both directions, so that crossing twice leads back. -/
theorem C44_opposite_partial (pairs : List (CoarsePair K d)) (hone : OneFacePerCell childOnFace pairs) (q : FacePair K d)
    (h : OppositeIn childOnFace pairs q) :
    opposite (makeMap childOnFace pairs) q.cell0.id = .ok (q.cell1, q.face1) ∧
    opposite (makeMap childOnFace pairs) q.cell1.id = .ok (q.cell0, q.face0) := by
  obtain ⟨h1, h2⟩ := makeMap_lookup childOnFace pairs hone q h
  have hne : makeMap childOnFace pairs ≠ [] := by intro hc; rw [hc] at h1; simp at h1
  simp [opposite, hne, h1, h2, hone.1 q h]

/-- **C44** All other cells are rejected. -/
theorem C44_other (pairs : List (CoarsePair K d)) (k : ℕ) (h : ∀ q, OppositeIn childOnFace pairs q → k ≠ q.cell0.id ∧ k ≠ q.cell1.id) :
    opposite (makeMap childOnFace pairs) k = .error .notPossible := by
  have : (makeMap childOnFace pairs).lookup k = none := by
    cases hl : (makeMap childOnFace pairs).lookup k with
    | none => rfl
    | some v =>
      obtain ⟨h1, h2⟩ := makeMap_sound childOnFace pairs k v hl
      have := h v h1
      tauto
  simp [opposite, this]

variable [Field K]

/-- **C44** (partial, as above) Coordinates are shifted by the vector between the two faces, and shifted back on the way back. -/
theorem C44_coordinates_partial (pairs : List (CoarsePair K d)) (hone : OneFacePerCell childOnFace pairs) (q : FacePair K d)
    (h : OppositeIn childOnFace pairs q) (v : Fin d → K) (hv : ShiftedBy q v) (x : Fin d → K) :
    coordinatesAcross (makeMap childOnFace pairs) x q.cell0.id = some (x + v) ∧
    coordinatesAcross (makeMap childOnFace pairs) x q.cell1.id = some (x - v) := by
  obtain ⟨h1, h2⟩ := makeMap_lookup childOnFace pairs hone q h
  have h3 : offset q = - v := by
    rw [offset, hv 0 (by unfold childrenPerFace; split_ifs <;> omega)]
    abel
  simp [coordinatesAcross, h1, h2, hone.1 q h, h3, sub_eq_add_neg]

/-- **C44** (partial, as above) Going there and back is the identity, whatever the geometry. -/
theorem C44_roundtrip_partial (pairs : List (CoarsePair K d)) (hone : OneFacePerCell childOnFace pairs) (q : FacePair K d)
    (h : OppositeIn childOnFace pairs q) (x : Fin d → K) :
    ((coordinatesAcross (makeMap childOnFace pairs) x q.cell0.id).bind fun y => coordinatesAcross (makeMap childOnFace pairs) y q.cell1.id) = some x ∧
    ((coordinatesAcross (makeMap childOnFace pairs) x q.cell1.id).bind fun y => coordinatesAcross (makeMap childOnFace pairs) y q.cell0.id) = some x := by
  obtain ⟨h1, h2⟩ := makeMap_lookup childOnFace pairs hone q h
  simp [coordinatesAcross, h1, h2, hone.1 q h]

/-- **C44** Equal boundary ids and refined meshes are rejected; a face belongs to the boundary exactly if it has one of its ids. -/
theorem C44_construction (id1 id2 n f : ℕ) : (constructorChecks id1 id2 n = .ok () ↔ id1 ≠ id2 ∧ n ≤ 1) ∧
    (isFaceInBoundary id1 id2 f = true ↔ f = id1 ∨ f = id2) := by
  constructor
  · unfold constructorChecks; split_ifs <;> simp <;> omega
  · unfold isFaceInBoundary; split_ifs <;> simp_all

/-! ## Examples -/

/-- A rectangle between `x0` and `x1`, and 0 and 1: faces 0, 1 are left and right, 2, 3 bottom and top. -/
def rect (id : ℕ) (x0 x1 y0 y1 : ℚ) : Leaf ℚ 2 where
  id := id
  artificial := false
  vertex := fun f v => match f, v with
    | 0, 0 => ![x0, y0] | 0, _ => ![x0, y1] | 1, 0 => ![x1, y0] | 1, _ => ![x1, y1]
    | 2, 0 => ![x0, y0] | 2, _ => ![x1, y0] | _, 0 => ![x0, y1] | _, _ => ![x1, y1]

/-- The standard orientation -/
def standard : Orientation := ⟨true, false, false⟩

/-- The children at a face in two dimensions: deal.II numbers them lexicographically. -/
def childOnFace2 : Orientation → ℕ → ℕ → ℕ := fun _ f i => match f, i with
  | 0, 0 => 0 | 0, _ => 2 | 1, 0 => 1 | 1, _ => 3 | 2, 0 => 0 | 2, _ => 1 | _, 0 => 2 | _, _ => 3

/-- Two coarse cells next to each other, left and right face periodic, both refined once. -/
def samplePairs : List (CoarsePair ℚ 2) := [{
  cell0 := .refined fun i => .active (rect i (if i % 2 = 0 then 0 else 1/2) (if i % 2 = 0 then 1/2 else 1) (if i < 2 then 0 else 1/2) (if i < 2 then 1/2 else 1))
  cell1 := .refined fun i => .active (rect (10 + i) (if i % 2 = 0 then 1 else 3/2) (if i % 2 = 0 then 3/2 else 2) (if i < 2 then 0 else 1/2) (if i < 2 then 1/2 else 1))
  face0 := 0
  face1 := 1
  orientation := standard }]

theorem sample_opposite (q : FacePair ℚ 2) (h : OppositeIn childOnFace2 samplePairs q) :
    q = ⟨rect 0 0 (1/2) 0 (1/2), rect 11 (3/2) 2 0 (1/2), 0, 1, standard⟩ ∨
    q = ⟨rect 2 0 (1/2) (1/2) 1, rect 13 (3/2) 2 (1/2) 1, 0, 1, standard⟩ := by
  obtain ⟨p, hp, h1, h2, h3, h4, -⟩ := h
  obtain ⟨c0, c1, f0, f1, o⟩ := q
  simp only [samplePairs, List.mem_singleton] at hp
  subst hp
  simp only at h2 h3 h4
  subst h2 h3 h4
  cases h1 with
  | child ch1 ch2 i a b hi h =>
    have hi2 : i < 2 := hi
    rcases i with _ | _ | i
    · cases h; left; simp [otherSubface, childOnFace2, lookupTable2, standard]; exact ⟨rfl, rfl⟩
    · cases h; right; simp [otherSubface, childOnFace2, lookupTable2, standard]; exact ⟨rfl, rfl⟩
    · omega

/-- Non-vacuity: the hypotheses of the theorems above hold for this mesh, with a shift by the width of the domain. -/
example : OneFacePerCell childOnFace2 samplePairs ∧
    (∃ q, OppositeIn childOnFace2 samplePairs q ∧ q.cell0.id = 2 ∧ q.cell1.id = 13 ∧ ShiftedBy q ![2, 0]) := by
  refine ⟨⟨fun q h => ?_, fun q r hq hr h => ?_⟩, ?_⟩
  · rcases sample_opposite q h with rfl | rfl <;> simp [rect]
  · rcases sample_opposite q hq with rfl | rfl <;> rcases sample_opposite r hr with rfl | rfl <;> first | rfl | simp [rect] at h
  · refine ⟨⟨rect 2 0 (1/2) (1/2) 1, rect 13 (3/2) 2 (1/2) 1, 0, 1, standard⟩, ⟨_, List.mem_singleton_self _, ?_, rfl, rfl, rfl, rfl, rfl⟩, rfl, rfl, ?_⟩
    · have := Opposite.child (childOnFace := childOnFace2) (f1 := 0) (f2 := 1) (o := standard)
        (fun i => .active (rect i (if i % 2 = 0 then 0 else 1/2) (if i % 2 = 0 then 1/2 else 1) (if i < 2 then 0 else 1/2) (if i < 2 then 1/2 else 1)))
        (fun i => .active (rect (10 + i) (if i % 2 = 0 then 1 else 3/2) (if i % 2 = 0 then 3/2 else 2) (if i < 2 then 0 else 1/2) (if i < 2 then 1/2 else 1)))
        1 _ _ (by decide) (.active (d := 2) _ _)
      simpa [otherSubface, childOnFace2, lookupTable2, standard] using this
    · intro i hi
      have hi2 : i < 2 := hi
      rcases i with _ | _ | i
      · funext a; fin_cases a <;> norm_num [rect, vertexMap, standard]
      · funext a; fin_cases a <;> norm_num [rect, vertexMap, standard]
      · omega

/-- **C44** fails on a mesh with one cell between the two faces: leaving through the second face leads to the second face again, and the
coordinates are shifted away from the domain instead of back. -/
theorem C44_one_cell_fails :
    let m := makeMap childOnFace2 [⟨.active (rect 0 0 1 0 1), .active (rect 0 0 1 0 1), 0, 1, standard⟩]
    (opposite m 0).map Prod.snd = .ok 1 ∧
    ((coordinatesAcross m ![1, 1/2] 0).map fun x => x 0) = some 2 := by
  refine ⟨rfl, ?_⟩
  norm_num [makeMap, makeMapPair, CellMap.insert, coordinatesAcross, rect, offset, vertexMap, standard]

/-- **C44** fails on meshes with different refinement at the two faces: nothing is reported when the map is made, the cells are left out. -/
theorem C44_levels_fails (f1 f2 : ℕ) (o : Orientation) (a : Leaf ℚ 2) (ch : ℕ → Cell ℚ 2) (m : CellMap ℚ 2) :
    makeMapPair childOnFace2 f1 f2 o (.refined ch) (.active a) m = m ∧ makeMapPair childOnFace2 f1 f2 o (.active a) (.refined ch) m = m ∧
    opposite (makeMap childOnFace2 [⟨.refined ch, .active a, f1, f2, o⟩]) a.id = .error .notPossible := by
  refine ⟨by simp [makeMapPair], by simp [makeMapPair], ?_⟩
  simp [makeMap, makeMapPair, opposite]

end Periodic
end NATriuM
