import Verif.Lemmas.FaceCrossing
import Mathlib.Data.Fin.VecNotation
import Mathlib.Algebra.Field.Rat
import Mathlib.Algebra.Order.Ring.Rat

/-!
# Property C52: the first crossed face of a cell
-/

namespace NATriuM
namespace Paths

variable {K : Type*} [Field K] [LinearOrder K] [IsStrictOrderedRing K]

/-- **C52** Let `pi` and `po` be the two points on the unit cell, with coordinates within 1e-10 of the faces moved to the faces.  If the first
point is in the cell, no assertion fails.  If the second point is in the cell, too, no crossing is reported; otherwise the reported face is the
one through which the segment leaves the cell, and the reported point is on that face, in the cell, less than 1e-10 (in each coordinate) away
from where the segment leaves, and mapped to the real cell. -/
theorem C52_first_face {m : ℕ} (hm : m ≤ 1) (cell : CellMapping K (m + 2)) (inside outside pi po : Fin (m + 2) → K)
    (hi : cell.toUnit inside = some pi) (ho : cell.toUnit outside = some po) (hc : InCell fun a => snap (pi a)) :
    (InCell (fun a => snap (po a)) → faceCrossedFirst cell inside outside = .ok none) ∧
    (¬ InCell (fun a => snap (po a)) → ∃ c, faceCrossedFirst cell inside outside = .ok (some c) ∧
      LeavesThrough c.face c.lambda (fun a => snap (pi a)) (fun a => snap (po a)) ∧
      OnFace c.face c.unit ∧ InCell c.unit ∧
      (∀ a, |c.unit a - along (fun a => snap (pi a)) (fun a => snap (po a)) c.lambda a| < 1 / 10 ^ 10) ∧
      c.boundary = cell.toReal c.unit) := by
  obtain ⟨b, hb, S, hS, hB⟩ := crossedFace_best hm (q := fun a => snap (po a)) hc
  match b, hb, hB with
  | none, hb, hB =>
    refine ⟨fun _ => ?_, fun h => absurd (fun a => hB a (hS a)) h⟩
    simp only [faceCrossedFirst, hi, ho, hb]
  | some (f, l), hb, hB =>
    have hl := best_leaves hS hc hB
    have hf := exitPoint_onFace hl.2.2.2.1
    constructor
    · intro h
      obtain ⟨_, _, _, a, _, h3⟩ := hB
      have := h a
      rcases h3 with ⟨_, hq, _⟩ | ⟨_, hq, _⟩
      · exact absurd this.1 (not_le.2 hq)
      · exact absurd this.2 (not_le.2 hq)
    · intro _
      let h : Fin (m + 2) → K := exitPoint (fun a => snap (pi a)) (fun a => snap (po a)) l
      refine ⟨⟨f, l, h, cell.toReal h, childFromPoint h⟩, ?_, hl, hf, ?_, ?_, rfl⟩
      · simp only [faceCrossedFirst, hi, ho, hb, onFace_product hf, if_true]
        rfl
      · intro a
        show 0 ≤ h a ∧ h a ≤ 1
        rw [show h a = _ from exitPoint_along _ _ _ a]
        exact snap_mem (hl.2.2.1 l hl.1 le_rfl a)
      · intro a
        show |h a - _| < _
        rw [show h a = _ from exitPoint_along _ _ _ a]
        exact snap_near _

/-- **C52** Elimination of round-off errors moves no coordinate by 1e-10 or more, and keeps points in the cell. -/
theorem C52_rounding (x : K) : |snap x - x| < 1 / 10 ^ 10 ∧ (0 ≤ x ∧ x ≤ 1 → 0 ≤ snap x ∧ snap x ≤ 1) := ⟨snap_near x, snap_mem⟩

/-- **C52** Mappings that are not affine apart, the reported point is on the segment between the two real points: for a mapping that keeps
segments, if no round-off errors are eliminated. -/
theorem C52_real_segment {m : ℕ} (hm : m ≤ 1) (cell : CellMapping K (m + 2)) (inside outside pi po : Fin (m + 2) → K)
    (hi : cell.toUnit inside = some pi) (ho : cell.toUnit outside = some po) (hc : InCell pi)
    (hri : cell.toReal pi = inside) (hro : cell.toReal po = outside)
    (hA : ∀ p q t, cell.toReal (along p q t) = along (cell.toReal p) (cell.toReal q) t)
    (hsi : ∀ a, snap (pi a) = pi a) (hso : ∀ a, snap (po a) = po a) (c : Crossing K (m + 2))
    (hr : faceCrossedFirst cell inside outside = .ok (some c)) (hsc : ∀ a, snap (along pi po c.lambda a) = along pi po c.lambda a) :
    0 ≤ c.lambda ∧ c.lambda ≤ 1 ∧ c.boundary = along inside outside c.lambda := by
  have hpi : (fun a => snap (pi a)) = pi := funext hsi
  have hpo : (fun a => snap (po a)) = po := funext hso
  obtain ⟨b, hb, S, hS, hB⟩ := crossedFace_best hm (q := po) hc
  match b, hb, hB with
  | none, hb, hB =>
    simp only [faceCrossedFirst, hi, ho, hpi, hpo, hb] at hr
    cases hr
  | some (f, l), hb, hB =>
    simp only [faceCrossedFirst, hi, ho, hpi, hpo, hb] at hr
    have hl := best_leaves hS hc hB
    rw [if_pos (onFace_product (exitPoint_onFace hl.2.2.2.1))] at hr
    cases hr
    refine ⟨hl.1, hl.2.1, ?_⟩
    show cell.toReal (exitPoint pi po l) = _
    rw [show exitPoint pi po l = along pi po l from funext fun a => by rw [exitPoint_along]; exact hsc a, hA, hri, hro]

/-- **C52** (partial: only for a first point off the planes of all faces) The fallback for mappings that cannot be inverted: no crossing is
reported if the second point is on the same side of all faces as the first; otherwise the segment stays on this side of all faces up to the
reported point, which is on the reported face, and is on the other side afterwards. -/
theorem C52_planes_partial {d : ℕ} (faces : List (FacePlane K d)) (inside outside : Fin d → K)
    (hi : ∀ f ∈ faces, side f.point f.normal inside ≠ 0) :
    ((∀ f ∈ faces, 0 ≤ side f.point f.normal outside * side f.point f.normal inside) →
      faceCrossedFirstWithoutMapping faces inside outside = none) ∧
    ((∃ f ∈ faces, side f.point f.normal outside * side f.point f.normal inside < 0) →
      ∃ i f l p, faceCrossedFirstWithoutMapping faces inside outside = some (i, l, p) ∧ faces[i]? = some f ∧ 0 < l ∧ l < 1 ∧
        p = along inside outside l ∧ side f.point f.normal p = 0 ∧
        (∀ g ∈ faces, ∀ s, 0 ≤ s → s ≤ l → 0 ≤ side g.point g.normal (along inside outside s) * side g.point g.normal inside) ∧
        ∀ s, l < s → s ≤ 1 → side f.point f.normal (along inside outside s) * side f.point f.normal inside < 0) := by
  have hb := planes_best inside outside faces.zipIdx [] (0, 1) ⟨le_rfl, by simp, Or.inl rfl⟩
  rw [List.nil_append] at hb
  unfold faceCrossedFirstWithoutMapping
  set best := faces.zipIdx.foldl (planeStep inside outside) (0, 1)
  obtain ⟨h1, h2, h3⟩ := hb
  have mem : ∀ f ∈ faces.zipIdx, f.1 ∈ faces := fun f hf => by
    obtain ⟨f, i⟩ := f
    exact List.fst_mem_of_mem_zipIdx hf
  constructor
  · intro h
    rcases h3 with h3 | ⟨h0, f, hf, _, hne, hl⟩
    · simp only [h3, if_true]
    · by_cases hb1 : best.2 = 1
      · simp only [hb1, if_true]
      · rw [planeLambda] at hl
        have := (plane_separates (hi _ (mem f hf)) hne (by rw [hl]; exact h0) (by rw [hl]; exact lt_of_le_of_ne h1 hb1)).2
        exact absurd (h _ (mem f hf)) (not_le.2 this)
  · rintro ⟨f, hf, hlt⟩
    obtain ⟨j, hfj⟩ := List.mem_iff_getElem?.1 hf
    obtain ⟨hne, hp0, hp1⟩ := plane_between hlt
    have hb1 : best.2 < 1 := (h2 (f, j) (List.mk_mem_zipIdx_iff_getElem?.2 hfj) hne hp0.le).trans_lt hp1
    rcases h3 with h3 | ⟨h0, g, hg, hgi, hgne, hgl⟩
    · exact absurd h3 hb1.ne
    rw [planeLambda] at hgl
    obtain ⟨hgp, hgs⟩ := plane_separates (hi _ (mem g hg)) hgne (by rw [hgl]; exact h0) (by rw [hgl]; exact hb1)
    have he := plane_eq hgne
    rw [hgl] at he hgp
    refine ⟨best.1, g.1, best.2, _, if_neg hb1.ne, ?_, hgp, hb1, funext fun a => by rw [along, mul_comm], ?_, ?_, ?_⟩
    · rw [← hgi]; exact List.mk_mem_zipIdx_iff_getElem?.1 hg
    · have : (fun a => inside a + (outside a - inside a) * best.2) = along inside outside best.2 := funext fun a => by rw [along, mul_comm]
      rw [this, side_along]; exact he
    · intro k hk s hs0 hs
      obtain ⟨jk, hjk⟩ := List.mem_iff_getElem?.1 hk
      rw [side_along]
      refine plane_stays hs0 hs hb1.le fun hsep => ?_
      obtain ⟨hkne, hk0, _⟩ := plane_between hsep
      exact h2 (k, jk) (List.mk_mem_zipIdx_iff_getElem?.2 hjk) hkne hk0.le
    · intro s hs _
      rw [side_along]
      set si := side g.1.point g.1.normal inside
      set so := side g.1.point g.1.normal outside
      have h4 : 0 < si * si - so * si := by nlinarith [mul_self_nonneg si]
      have h5 : si * si = best.2 * (si * si - so * si) := by linear_combination si * he
      nlinarith [mul_pos (sub_pos.2 hs) h4]

/-- The faces of the unit square, as deal.II numbers them -/
def unitSquare : List (FacePlane ℚ 2) :=
  [⟨![0, 0], normalVector2 ![0, 0] ![0, 1]⟩, ⟨![1, 0], normalVector2 ![1, 0] ![1, 1]⟩,
   ⟨![0, 0], normalVector2 ![0, 0] ![1, 0]⟩, ⟨![0, 1], normalVector2 ![0, 1] ![1, 1]⟩]

/-- **C52** fails for the fallback: a point on a face from which the path goes into the cell is reported to cross this face at once.  After a
crossing, the current point is always on a face. -/
theorem C52_planes_fails :
    ∃ inside outside, InCell inside ∧ (∀ s, 0 < s → s ≤ 1 → ∀ a, 0 < along inside outside s a ∧ along inside outside s a < 1) ∧
      faceCrossedFirstWithoutMapping unitSquare inside outside = some (0, 0, inside) := by
  refine ⟨![0, 1 / 2], ![1 / 2, 1 / 2], ?_, ?_, ?_⟩
  · intro a; fin_cases a <;> norm_num
  · intro s h0 h1 a
    fin_cases a
    · constructor
      · simp [along]; linarith
      · simp [along]; linarith
    · simp [along]; norm_num
  · have : (unitSquare.zipIdx.foldl (planeStep ![0, 1 / 2] ![1 / 2, 1 / 2]) (0, 1)) = (0, 0) := by decide +kernel
    unfold faceCrossedFirstWithoutMapping
    simp only [this]
    norm_num

/-! ### The hypotheses can be met -/

/-- A square cell with lower left corner at (2, 4) and edges of length 2 -/
def squareCell : CellMapping ℚ 2 where
  toUnit p := some fun a => (p a - ![2, 4] a) / 2
  toReal h := fun a => ![2, 4] a + 2 * h a

/-- A path that leaves this cell through its upper face (number 3), although its end is beyond the right face, too -/
example : ∃ c, faceCrossedFirst squareCell ![3, 5] ![5, 8] = .ok (some c) ∧ c.face = 3 ∧ c.boundary = ![11 / 3, 6] := by
  have h : (faceCrossedFirst squareCell ![3, 5] ![5, 8]).toOption.map (fun c => c.map fun c => (c.face, c.boundary 0, c.boundary 1, c.child))
      = some (some (3, 11 / 3, 6, 3)) := by decide +kernel
  cases hf : faceCrossedFirst squareCell ![3, 5] ![5, 8] with
  | error e => rw [hf] at h; cases h
  | ok r => cases r with
    | none => rw [hf] at h; cases h
    | some c =>
      rw [hf] at h
      simp only [Except.toOption, Option.map_some, Option.some.injEq, Prod.mk.injEq] at h
      refine ⟨c, rfl, h.1, funext fun a => ?_⟩
      fin_cases a
      · exact h.2.1
      · exact h.2.2.1

/-- The hypotheses of `C52_first_face` for this path -/
example : squareCell.toUnit ![3, 5] = some (fun a => (![3, 5] a - ![2, 4] a) / 2) ∧ InCell (fun a => snap ((![3, 5] a - ![2, 4] a) / 2 : ℚ)) ∧
    ¬ InCell (fun a => snap ((![5, 8] a - ![2, 4] a) / 2 : ℚ)) := by
  refine ⟨rfl, ?_, ?_⟩
  · have : ∀ a : Fin 2, (0 : ℚ) ≤ snap ((![3, 5] a - ![2, 4] a) / 2) ∧ snap ((![3, 5] a - ![2, 4] a) / 2) ≤ (1 : ℚ) := by decide +kernel
    exact this
  · intro h
    have : ¬ snap ((![5, 8] (0 : Fin 2) - ![2, 4] 0) / 2) ≤ (1 : ℚ) := by decide +kernel
    exact this (h 0).2

/-- The mapping of this cell keeps segments, as `C52_real_segment` demands. -/
example (p q : Fin 2 → ℚ) (t : ℚ) : squareCell.toReal (along p q t) = along (squareCell.toReal p) (squareCell.toReal q) t := by
  funext a; simp only [squareCell, along]; ring

/-- The fallback from the middle of a square to the right -/
example : faceCrossedFirstWithoutMapping unitSquare ![1 / 2, 1 / 2] ![5 / 2, 1 / 2] = some (1, 1 / 4, ![1, 1 / 2]) ∧
    ∀ f ∈ unitSquare, side f.point f.normal ![1 / 2, 1 / 2] ≠ 0 := by
  refine ⟨?_, by decide +kernel⟩
  have : (unitSquare.zipIdx.foldl (planeStep ![1 / 2, 1 / 2] ![5 / 2, 1 / 2]) (0, 1)) = (1, 1 / 4) := by decide +kernel
  unfold faceCrossedFirstWithoutMapping
  simp only [this]
  norm_num
  funext a; fin_cases a <;> norm_num

end Paths
end NATriuM
