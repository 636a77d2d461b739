import Verif.Spec.Sedg
import Mathlib.Tactic.Ring
import Mathlib.Tactic.LinearCombination
import Mathlib.Tactic.FieldSimp
import Mathlib.Algebra.BigOperators.Ring.Finset

/-!
# Lemmas on the discontinuous Galerkin operator
-/

namespace NATriuM
namespace Sedg

variable {K : Type*} [Field K] [LinearOrder K] {d n nQ nf nq : ℕ} {C : Type*}

omit [LinearOrder K] in
theorem sum_flatMap_finRange {α : Type*} (p : ℕ) (g : Fin p → List α) (w : α → K) :
    (((List.finRange p).flatMap g).map w).sum = ∑ i, ((g i).map w).sum := by
  rw [Fin.sum_univ_def]
  generalize List.finRange p = l
  induction l with
  | nil => rfl
  | cons a l ih => rw [List.flatMap_cons, List.map_append, List.sum_append, ih, List.map_cons, List.sum_cons]

/-- All entries of a cell are in its rows. -/
theorem cellEntries_row (m : Mesh K d n nQ nf nq C) (central : Bool) (e : Fin d → K) (c : C) (x : Entry K n C)
    (hx : x ∈ cellEntries m central e c) : x.row.1 = c := by
  rcases List.mem_append.1 hx with hx | hx
  · obtain ⟨j, _, hx⟩ := List.mem_flatMap.1 hx
    obtain ⟨k, _, rfl⟩ := List.mem_map.1 hx
    rfl
  · obtain ⟨f, _, hx⟩ := List.mem_flatMap.1 hx
    cases hn : m.neighbor c f with
    | none => rw [hn] at hx; cases hx
    | some y =>
      obtain ⟨c', f'⟩ := y
      rw [hn] at hx
      obtain ⟨q, _, hx⟩ := List.mem_flatMap.1 hx
      simp only [List.mem_cons, List.not_mem_nil, or_false] at hx
      rcases hx with rfl | rfl <;> rfl

omit [LinearOrder K] in
/-- A weighted sum over the rows of a cell is a sum over the entries. -/
theorem sum_rate [DecidableEq C] (entries : List (Entry K n C)) (u : C × Fin n → K) (c : C) (w : Fin n → K) :
    ∑ i, w i * rate entries u (c, i) = ((entries.filter fun x => x.row.1 = c).map fun x => w x.row.2 * (x.value * u x.column)).sum := by
  induction entries with
  | nil => simp [rate]
  | cons x l ih =>
    have h : ∀ i, w i * rate (x :: l) u (c, i) = (if x.row = (c, i) then w i * (x.value * u x.column) else 0) + w i * rate l u (c, i) := by
      intro i
      unfold rate
      by_cases hx : x.row = (c, i)
      · rw [List.filter_cons_of_pos (by simpa using hx), if_pos hx, List.map_cons, List.sum_cons, mul_add]
      · rw [List.filter_cons_of_neg (by simpa using hx), if_neg hx, zero_add]
    rw [Finset.sum_congr rfl fun i _ => h i, Finset.sum_add_distrib, ih]
    by_cases hc : x.row.1 = c
    · rw [List.filter_cons_of_pos (by simpa using hc), List.map_cons, List.sum_cons]
      congr 1
      rw [Finset.sum_eq_single x.row.2 (fun i _ hi => if_neg fun h => hi (by rw [h])) (fun h => absurd (Finset.mem_univ _) h)]
      rw [if_pos (by rw [← hc])]
    · rw [List.filter_cons_of_neg (by simpa using hc)]
      rw [Finset.sum_eq_zero fun i _ => if_neg fun h => hc (by rw [h]), zero_add]

/-- Only the entries of its own cell matter for a row. -/
theorem reassemble_cell [DecidableEq C] (m : Mesh K d n nQ nf nq C) (central : Bool) (e : Fin d → K) (cells : List C) (hc : cells.Nodup) (c : C)
    (h : c ∈ cells) : (reassemble m central e cells).filter (fun x => x.row.1 = c) = cellEntries m central e c := by
  unfold reassemble
  induction cells with
  | nil => cases h
  | cons a l ih =>
    rw [List.nodup_cons] at hc
    rw [List.flatMap_cons, List.filter_append]
    rcases List.mem_cons.1 h with rfl | h
    · rw [List.filter_eq_self.2 fun x hx => by simpa using cellEntries_row m central e _ x hx, List.filter_eq_nil_iff.2, List.append_nil]
      intro x hx
      obtain ⟨b, hb, hx⟩ := List.mem_flatMap.1 hx
      rw [cellEntries_row m central e b x hx]
      simp only [decide_eq_true_eq]
      rintro rfl
      exact hc.1 hb
    · rw [ih hc.2 h, List.filter_eq_nil_iff.2, List.nil_append]
      intro x hx
      rw [cellEntries_row m central e a x hx]
      simp only [decide_eq_true_eq]
      rintro rfl
      exact hc.1 h

/-- The contribution of the interior faces to a weighted sum of rates -/
def faceSum (m : Mesh K d n nQ nf nq C) (central : Bool) (e : Fin d → K) (u : C × Fin n → K) (c : C) (w : Fin n → K) : K :=
  ∑ f, match m.neighbor c f with
    | some (c', f') => ∑ q, w (m.faceDof f q) * inverseMass m c (m.faceDof f q) *
      (cellEntry central (m.faceJxw c f q * exn m e c f q) (exn m e c f q) * u (c, m.faceDof f q) +
        neighborEntry central (m.faceJxw c f q * exn m e c f q) (exn m e c f q) * u (c', m.faceDof f' q))
    | none => 0

theorem sum_rate_cell [DecidableEq C] (m : Mesh K d n nQ nf nq C) (central : Bool) (e : Fin d → K) (cells : List C) (hc : cells.Nodup) (c : C)
    (h : c ∈ cells) (u : C × Fin n → K) (w : Fin n → K) :
    ∑ i, w i * rate (reassemble m central e cells) u (c, i) =
      ∑ i, ∑ j, w i * (system m e c i j * inverseMass m c i * u (c, j)) + faceSum m central e u c w := by
  rw [sum_rate, reassemble_cell m central e cells hc c h, cellEntries, List.map_append, List.sum_append]
  congr 1
  · rw [stiffnessEntries, sum_flatMap_finRange]
    refine Finset.sum_congr rfl fun i _ => ?_
    rw [List.map_map, ← Fin.sum_univ_def]
    rfl
  · rw [faceEntries, sum_flatMap_finRange, faceSum]
    refine Finset.sum_congr rfl fun f _ => ?_
    cases m.neighbor c f with
    | none => rfl
    | some y =>
      obtain ⟨c', f'⟩ := y
      show ((internalFaceEntries m central e c f c' f').map _).sum = _
      rw [internalFaceEntries, sum_flatMap_finRange]
      refine Finset.sum_congr rfl fun q _ => ?_
      simp only [List.map_cons, List.map_nil, List.sum_cons, List.sum_nil, add_zero]
      ring

/-- A single row -/
theorem rate_cell [DecidableEq C] (m : Mesh K d n nQ nf nq C) (central : Bool) (e : Fin d → K) (cells : List C) (hc : cells.Nodup) (c : C)
    (h : c ∈ cells) (u : C × Fin n → K) (i : Fin n) :
    rate (reassemble m central e cells) u (c, i) =
      ∑ j, system m e c i j * inverseMass m c i * u (c, j) + faceSum m central e u c (fun k => if k = i then 1 else 0) := by
  have := sum_rate_cell m central e cells hc c h u fun k => if k = i then 1 else 0
  rw [Finset.sum_eq_single i (fun k _ hk => by rw [if_neg hk, zero_mul]) (fun h => absurd (Finset.mem_univ _) h)] at this
  rw [if_pos rfl, one_mul] at this
  rw [this]
  congr 1
  rw [Finset.sum_eq_single i (fun k _ hk => Finset.sum_eq_zero fun j _ => by rw [if_neg hk, zero_mul]) (fun h => absurd (Finset.mem_univ _) h)]
  exact Finset.sum_congr rfl fun j _ => by rw [if_pos rfl, one_mul]

omit [LinearOrder K] in
theorem system_row_sum (m : Mesh K d n nQ nf nq C) (hg : m.GradientsCancel) (e : Fin d → K) (c : C) (i : Fin n) : ∑ j, system m e c i j = 0 := by
  unfold system derivative
  rw [Finset.sum_comm]
  refine Finset.sum_eq_zero fun k _ => ?_
  rw [← Finset.mul_sum, ← Finset.sum_mul, hg, zero_mul, mul_zero]

omit [LinearOrder K] in
theorem mass_nodal (m : Mesh K d n nQ nf nq C) (hm : m.Nodal) (c : C) (i : Fin n) : mass m c i = m.jxw c (m.toQ i) := by
  rw [mass, hm, one_mul, one_mul]

omit [LinearOrder K] in
/-- A sum over the face points that belong to one of the degrees of freedom -/
theorem face_pick (m : Mesh K d n nQ nf nq C) (g : Fin n → K) (h : Fin nf → Fin nq → K) :
    ∑ j, (∑ f, ∑ q, if m.faceDof f q = j then h f q else 0) * g j = ∑ f, ∑ q, h f q * g (m.faceDof f q) := by
  simp only [Finset.sum_mul]
  rw [Finset.sum_comm]
  refine Finset.sum_congr rfl fun f _ => ?_
  rw [Finset.sum_comm]
  refine Finset.sum_congr rfl fun q _ => ?_
  rw [Finset.sum_eq_single (m.faceDof f q) (fun j _ hj => by rw [if_neg (Ne.symm hj), zero_mul]) (fun h => absurd (Finset.mem_univ _) h), if_pos rfl]

omit [LinearOrder K] in
/-- The stiffness part of the change of mass -/
theorem stiffness_mass (m : Mesh K d n nQ nf nq C) (hn : m.Nodal) (hD : m.Divergence) (hm : ∀ c i, mass m c i ≠ 0) (e : Fin d → K) (c : C)
    (u : C × Fin n → K) : ∑ i, ∑ j, mass m c i * (system m e c i j * inverseMass m c i * u (c, j)) =
      - ∑ f, ∑ q, m.faceJxw c f q * exn m e c f q * u (c, m.faceDof f q) := by
  have h1 : ∀ i j, mass m c i * (system m e c i j * inverseMass m c i * u (c, j)) = ∑ k, - e k * (m.jxw c (m.toQ i) * m.grad c j (m.toQ i) k) * u (c, j) := by
    intro i j
    rw [inverseMass, show mass m c i * (system m e c i j * (1 / mass m c i) * u (c, j)) = system m e c i j * u (c, j) by
      have := hm c i
      field_simp]
    rw [system, Finset.sum_mul]
    refine Finset.sum_congr rfl fun k _ => ?_
    rw [derivative, hn, one_mul, mul_comm (m.grad c j (m.toQ i) k)]
  rw [Finset.sum_congr rfl fun i _ => Finset.sum_congr rfl fun j _ => h1 i j]
  rw [Finset.sum_comm]
  have h2 : ∀ j, ∑ i, ∑ k, - e k * (m.jxw c (m.toQ i) * m.grad c j (m.toQ i) k) * u (c, j) =
      (∑ f, ∑ q, if m.faceDof f q = j then - (m.faceJxw c f q * exn m e c f q) else 0) * u (c, j) := by
    intro j
    rw [Finset.sum_comm, Finset.sum_congr rfl fun k _ => (Finset.sum_mul _ _ _).symm, ← Finset.sum_mul]
    congr 1
    rw [Finset.sum_congr rfl fun k _ => (Finset.mul_sum _ _ _).symm, Finset.sum_congr rfl fun k _ => by rw [hD c j k]]
    simp only [Finset.mul_sum]
    rw [Finset.sum_comm]
    refine Finset.sum_congr rfl fun f _ => ?_
    rw [Finset.sum_comm]
    refine Finset.sum_congr rfl fun q _ => ?_
    by_cases hq : m.faceDof f q = j
    · simp only [if_pos hq, exn]
      rw [Finset.mul_sum, ← Finset.sum_neg_distrib]
      exact Finset.sum_congr rfl fun k _ => by ring
    · simp only [if_neg hq, mul_zero, Finset.sum_const_zero]
  rw [Finset.sum_congr rfl fun j _ => h2 j, face_pick m (fun j => u (c, j)) fun f q => - (m.faceJxw c f q * exn m e c f q)]
  rw [← Finset.sum_neg_distrib]
  refine Finset.sum_congr rfl fun f _ => ?_
  rw [← Finset.sum_neg_distrib]
  exact Finset.sum_congr rfl fun q _ => by ring

omit [LinearOrder K] in
/-- The stiffness part of the change of energy -/
theorem stiffness_energy (m : Mesh K d n nQ nf nq C) (hn : m.Nodal) (hP : m.ByParts) (hm : ∀ c i, mass m c i ≠ 0) (e : Fin d → K) (c : C)
    (u : C × Fin n → K) : 2 * ∑ i, ∑ j, u (c, i) * mass m c i * (system m e c i j * inverseMass m c i * u (c, j)) =
      - ∑ f, ∑ q, m.faceJxw c f q * exn m e c f q * (u (c, m.faceDof f q) * u (c, m.faceDof f q)) := by
  have h1 : ∀ i j, u (c, i) * mass m c i * (system m e c i j * inverseMass m c i * u (c, j)) =
      ∑ k, - e k * (m.jxw c (m.toQ i) * m.grad c j (m.toQ i) k) * (u (c, i) * u (c, j)) := by
    intro i j
    rw [inverseMass, show u (c, i) * mass m c i * (system m e c i j * (1 / mass m c i) * u (c, j)) = system m e c i j * (u (c, i) * u (c, j)) by
      have := hm c i
      field_simp]
    rw [system, Finset.sum_mul]
    refine Finset.sum_congr rfl fun k _ => ?_
    rw [derivative, hn, one_mul, mul_comm (m.grad c j (m.toQ i) k)]
  rw [Finset.sum_congr rfl fun i _ => Finset.sum_congr rfl fun j _ => h1 i j, two_mul]
  conv_lhs => arg 2; rw [Finset.sum_comm]
  rw [← Finset.sum_add_distrib]
  have h2 : ∀ i, (∑ j, ∑ k, - e k * (m.jxw c (m.toQ i) * m.grad c j (m.toQ i) k) * (u (c, i) * u (c, j))) +
      (∑ j, ∑ k, - e k * (m.jxw c (m.toQ j) * m.grad c i (m.toQ j) k) * (u (c, j) * u (c, i))) =
      (∑ f, ∑ q, if m.faceDof f q = i then - (m.faceJxw c f q * exn m e c f q) else 0) * (u (c, i) * u (c, i)) := by
    intro i
    rw [← Finset.sum_add_distrib]
    have h3 : ∀ j, (∑ k, - e k * (m.jxw c (m.toQ i) * m.grad c j (m.toQ i) k) * (u (c, i) * u (c, j))) +
        (∑ k, - e k * (m.jxw c (m.toQ j) * m.grad c i (m.toQ j) k) * (u (c, j) * u (c, i))) =
        if i = j then ∑ k, - e k * (∑ f, ∑ q, if m.faceDof f q = i then m.faceJxw c f q * m.normal c f q k else 0) * (u (c, i) * u (c, i)) else 0 := by
      intro j
      rw [← Finset.sum_add_distrib]
      by_cases hij : i = j
      · rw [if_pos hij]
        refine Finset.sum_congr rfl fun k _ => ?_
        have := hP c i j k
        rw [if_pos hij] at this
        rw [← this, hij]
        ring
      · rw [if_neg hij]
        refine Finset.sum_eq_zero fun k _ => ?_
        have := hP c i j k
        rw [if_neg hij] at this
        linear_combination (- e k * (u (c, i) * u (c, j))) * this
    rw [Finset.sum_congr rfl fun j _ => h3 j, Finset.sum_ite_eq, if_pos (Finset.mem_univ i), ← Finset.sum_mul]
    congr 1
    simp only [Finset.mul_sum]
    rw [Finset.sum_comm]
    refine Finset.sum_congr rfl fun f _ => ?_
    rw [Finset.sum_comm]
    refine Finset.sum_congr rfl fun q _ => ?_
    by_cases hq : m.faceDof f q = i
    · simp only [if_pos hq, exn]
      rw [Finset.mul_sum, ← Finset.sum_neg_distrib]
      exact Finset.sum_congr rfl fun k _ => by ring
    · simp only [if_neg hq, mul_zero, Finset.sum_const_zero]
  rw [Finset.sum_congr rfl fun i _ => h2 i, face_pick m (fun j => u (c, j) * u (c, j)) fun f q => - (m.faceJxw c f q * exn m e c f q)]
  rw [← Finset.sum_neg_distrib]
  refine Finset.sum_congr rfl fun f _ => ?_
  rw [← Finset.sum_neg_distrib]
  exact Finset.sum_congr rfl fun q _ => by ring

end Sedg
end NATriuM
