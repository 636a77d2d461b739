import Verif.Lemmas.Sedg
import Mathlib.Algebra.Order.BigOperators.Group.Finset
import Mathlib.Algebra.Field.Rat
import Mathlib.Algebra.Order.Ring.Rat
import Mathlib.Data.Fin.VecNotation
import Mathlib.Data.Fintype.Prod
import Mathlib.Tactic.Linarith
import Mathlib.Tactic.NormNum
import Mathlib.Tactic.Positivity

/-!
# Properties C56 and C76: the discontinuous Galerkin advection operator
-/

namespace NATriuM
namespace Sedg

variable {K : Type*} [Field K] [LinearOrder K] {d n nQ nf nq : ℕ} {C : Type*} [DecidableEq C]

/-- **C56** With the upwind flux, uniform states do not change. -/
theorem C56_uniform_partial (m : Mesh K d n nQ nf nq C) (hg : m.GradientsCancel) (e : Fin d → K) (cells : List C) (hc : cells.Nodup) (c : C)
    (h : c ∈ cells) (i : Fin n) (v : K) : rate (reassemble m false e cells) (fun _ => v) (c, i) = 0 := by
  rw [rate_cell m false e cells hc c h]
  have h1 : ∑ j, system m e c i j * inverseMass m c i * v = 0 := by
    rw [← Finset.sum_mul, ← Finset.sum_mul, system_row_sum m hg, zero_mul, zero_mul]
  have h2 : faceSum m false e (fun _ => v) c (fun k => if k = i then 1 else 0) = 0 := by
    unfold faceSum
    refine Finset.sum_eq_zero fun f _ => ?_
    cases m.neighbor c f with
    | none => rfl
    | some y =>
      refine Finset.sum_eq_zero fun q _ => ?_
      rw [cellEntry, neighborEntry]
      simp only [Bool.false_eq_true, if_false]
      split_ifs <;> ring
  rw [h1, h2, add_zero]

/-- **C56** With the upwind flux, the amount in a cell all of whose faces have neighbours changes by what is transported through its faces, and
by nothing else. -/
theorem C56_cell_partial (m : Mesh K d n nQ nf nq C) (hn : m.Nodal) (hD : m.Divergence) (hm : ∀ c i, mass m c i ≠ 0) (e : Fin d → K)
    (cells : List C) (hc : cells.Nodup) (c : C) (h : c ∈ cells) (nb : Fin nf → C × Fin nf) (hnb : ∀ f, m.neighbor c f = some (nb f))
    (u : C × Fin n → K) : ∑ i, mass m c i * rate (reassemble m false e cells) u (c, i) =
      - ∑ f, ∑ q, upwindFlux m e u c f (nb f).1 (nb f).2 q := by
  rw [sum_rate_cell m false e cells hc c h, stiffness_mass m hn hD hm, faceSum, ← Finset.sum_neg_distrib, ← Finset.sum_neg_distrib,
    ← Finset.sum_add_distrib]
  refine Finset.sum_congr rfl fun f _ => ?_
  rw [hnb f]
  dsimp only
  rw [← Finset.sum_neg_distrib, ← Finset.sum_neg_distrib, ← Finset.sum_add_distrib]
  refine Finset.sum_congr rfl fun q _ => ?_
  have hM := hm c (m.faceDof f q)
  rw [inverseMass, mul_one_div_cancel hM, one_mul, cellEntry, neighborEntry, upwindFlux]
  simp only [Bool.false_eq_true, if_false]
  show _ = - (m.faceJxw c f q * exn m e c f q * if exn m e c f q < 0 then _ else _)
  split_ifs <;> ring

/-- The flux seen from the two sides of a face -/
theorem upwindFlux_opposite [IsStrictOrderedRing K] (m : Mesh K d n nQ nf nq C) (hM : m.Matching) (e : Fin d → K) (u : C × Fin n → K) (c c' : C)
    (f f' : Fin nf) (hnb : m.neighbor c f = some (c', f')) (q : Fin nq) : upwindFlux m e u c' f' c f q = - upwindFlux m e u c f c' f' q := by
  obtain ⟨_, hq⟩ := hM c f c' f' hnb
  have hx : ∑ k, m.normal c' f' q k * e k = - ∑ k, m.normal c f q k * e k := by
    rw [← Finset.sum_neg_distrib]
    exact Finset.sum_congr rfl fun k _ => by rw [(hq q).2 k]; ring
  unfold upwindFlux
  rw [hx, (hq q).1]
  generalize (∑ k, m.normal c f q k * e k) = x
  rcases lt_trichotomy x 0 with h | h | h
  · rw [if_neg (by linarith), if_pos h]; ring
  · rw [h]; ring
  · rw [if_pos (by linarith), if_neg (by linarith)]; ring

/-- **C56** What leaves a cell through a face enters the neighbour. -/
theorem C56_exchange [IsStrictOrderedRing K] (m : Mesh K d n nQ nf nq C) (hM : m.Matching) (e : Fin d → K) (u : C × Fin n → K) (c c' : C)
    (f f' : Fin nf) (hnb : m.neighbor c f = some (c', f')) :
    ∑ q, upwindFlux m e u c' f' c f q = - ∑ q, upwindFlux m e u c f c' f' q := by
  rw [← Finset.sum_neg_distrib]
  exact Finset.sum_congr rfl fun q _ => upwindFlux_opposite m hM e u c c' f f' hnb q

/-- A sum of terms that cancel in pairs -/
theorem sum_pairs [IsStrictOrderedRing K] {β : Type*} [Fintype β] (s : β → β) (hs : ∀ b, s (s b) = b) (g : β → K) : 2 * ∑ b, g b = ∑ b, (g b + g (s b)) := by
  rw [Finset.sum_add_distrib, two_mul]
  congr 1
  exact (Equiv.sum_comp (Function.Involutive.toPerm s hs) g).symm

/-- **C56** With the upwind flux, on a mesh in which every face has a neighbour, the total amount does not change. -/
theorem C56_conservation [IsStrictOrderedRing K] [Fintype C] (m : Mesh K d n nQ nf nq C) (hn : m.Nodal) (hD : m.Divergence)
    (hm : ∀ c i, mass m c i ≠ 0) (hM : m.Matching) (hall : ∀ c f, (m.neighbor c f).isSome) (e : Fin d → K) (cells : List C) (hc : cells.Nodup)
    (hcells : ∀ c, c ∈ cells) (u : C × Fin n → K) : ∑ c, ∑ i, mass m c i * rate (reassemble m false e cells) u (c, i) = 0 := by
  choose nb hnb using fun (x : C × Fin nf) => Option.isSome_iff_exists.1 (hall x.1 x.2)
  have h1 : ∀ c, ∑ i, mass m c i * rate (reassemble m false e cells) u (c, i) =
      ∑ f, - ∑ q, upwindFlux m e u c f (nb (c, f)).1 (nb (c, f)).2 q := fun c => by
    rw [C56_cell_partial m hn hD hm e cells hc c (hcells c) (fun f => nb (c, f)) (fun f => hnb (c, f)) u, Finset.sum_neg_distrib]
  rw [Finset.sum_congr rfl fun c _ => h1 c, ← Fintype.sum_prod_type']
  have hinv : ∀ x, nb (nb x) = x := fun x => by
    have := (hM x.1 x.2 (nb x).1 (nb x).2 (hnb x)).1
    have h2 := hnb (nb x)
    rw [this] at h2
    exact (Option.some.inj h2).symm
  have h2 := sum_pairs nb hinv fun x : C × Fin nf => - ∑ q, upwindFlux m e u x.1 x.2 (nb x).1 (nb x).2 q
  have h3 : ∀ x : C × Fin nf, - ∑ q, upwindFlux m e u x.1 x.2 (nb x).1 (nb x).2 q +
      - ∑ q, upwindFlux m e u (nb x).1 (nb x).2 (nb (nb x)).1 (nb (nb x)).2 q = 0 := fun x => by
    rw [hinv x, C56_exchange m hM e u x.1 (nb x).1 x.2 (nb x).2 (hnb x)]; ring
  rw [Finset.sum_eq_zero fun x _ => h3 x] at h2
  have h20 : (2 : K) ≠ 0 := two_ne_zero
  exact (mul_eq_zero.1 h2).resolve_left h20

/-- **C76** With the upwind flux, on a mesh in which every face has a neighbour, the energy, the integral of the square, never increases: its
rate of change is minus the sum of the squared jumps, times speed and area, over all faces (each taken twice, from both sides, and halved). -/
theorem C76_energy [IsStrictOrderedRing K] [Fintype C] (m : Mesh K d n nQ nf nq C) (hn : m.Nodal) (hP : m.ByParts)
    (hm : ∀ c i, mass m c i ≠ 0) (hM : m.Matching) (hJ : ∀ c f q, 0 ≤ m.faceJxw c f q) (nb : C × Fin nf → C × Fin nf)
    (hnb : ∀ x, m.neighbor x.1 x.2 = some (nb x)) (e : Fin d → K) (cells : List C) (hc : cells.Nodup)
    (hcells : ∀ c, c ∈ cells) (u : C × Fin n → K) :
    2 * ∑ c, ∑ i, mass m c i * (u (c, i) * rate (reassemble m false e cells) u (c, i)) =
      - (1 / 2 * ∑ x : C × Fin nf, ∑ q, m.faceJxw x.1 x.2 q * |∑ k, m.normal x.1 x.2 q k * e k| *
        (u (x.1, m.faceDof x.2 q) - u ((nb x).1, m.faceDof (nb x).2 q)) ^ 2) ∧
    2 * ∑ c, ∑ i, mass m c i * (u (c, i) * rate (reassemble m false e cells) u (c, i)) ≤ 0 := by
  have key : 2 * ∑ c, ∑ i, mass m c i * (u (c, i) * rate (reassemble m false e cells) u (c, i)) =
      - (1 / 2 * ∑ x : C × Fin nf, ∑ q, m.faceJxw x.1 x.2 q * |∑ k, m.normal x.1 x.2 q k * e k| *
        (u (x.1, m.faceDof x.2 q) - u ((nb x).1, m.faceDof (nb x).2 q)) ^ 2) := by
    have h1 : ∀ c, 2 * ∑ i, mass m c i * (u (c, i) * rate (reassemble m false e cells) u (c, i)) =
        ∑ f, ∑ q, (- (m.faceJxw c f q * exn m e c f q * (u (c, m.faceDof f q) * u (c, m.faceDof f q))) + 2 * (u (c, m.faceDof f q) *
          (if exn m e c f q < 0 then m.faceJxw c f q * exn m e c f q * (u (c, m.faceDof f q) - u ((nb (c, f)).1, m.faceDof (nb (c, f)).2 q)) else 0))) := by
      intro c
      have h2 := sum_rate_cell m false e cells hc c (hcells c) u fun i => u (c, i) * mass m c i
      rw [show ∑ i, mass m c i * (u (c, i) * rate (reassemble m false e cells) u (c, i)) =
        ∑ i, u (c, i) * mass m c i * rate (reassemble m false e cells) u (c, i) from Finset.sum_congr rfl fun i _ => by ring]
      rw [h2, mul_add, stiffness_energy m hn hP hm, faceSum, Finset.mul_sum, ← Finset.sum_neg_distrib, ← Finset.sum_add_distrib]
      refine Finset.sum_congr rfl fun f _ => ?_
      rw [hnb (c, f)]
      dsimp only
      rw [← Finset.sum_neg_distrib, Finset.mul_sum, ← Finset.sum_add_distrib]
      refine Finset.sum_congr rfl fun q _ => ?_
      have hM := hm c (m.faceDof f q)
      rw [inverseMass, show u (c, m.faceDof f q) * mass m c (m.faceDof f q) * (1 / mass m c (m.faceDof f q)) = u (c, m.faceDof f q) by field_simp,
        cellEntry, neighborEntry]
      simp only [Bool.false_eq_true, if_false]
      split_ifs <;> ring
    rw [Finset.mul_sum, Finset.sum_congr rfl fun c _ => h1 c, ← Fintype.sum_prod_type']
    have hinv : ∀ x, nb (nb x) = x := fun x => by
      have := (hM x.1 x.2 (nb x).1 (nb x).2 (hnb x)).1
      have h2 := hnb (nb x)
      rw [this] at h2
      exact (Option.some.inj h2).symm
    have h20 : (2 : K) ≠ 0 := two_ne_zero
    refine mul_left_cancel₀ h20 ?_
    rw [sum_pairs nb hinv fun x : C × Fin nf => ∑ q, (- (m.faceJxw x.1 x.2 q * exn m e x.1 x.2 q * (u (x.1, m.faceDof x.2 q) * u (x.1, m.faceDof x.2 q))) +
      2 * (u (x.1, m.faceDof x.2 q) * (if exn m e x.1 x.2 q < 0 then m.faceJxw x.1 x.2 q * exn m e x.1 x.2 q *
        (u (x.1, m.faceDof x.2 q) - u ((nb (x.1, x.2)).1, m.faceDof (nb (x.1, x.2)).2 q)) else 0)))]
    rw [show 2 * -(1 / 2 * ∑ x : C × Fin nf, ∑ q, m.faceJxw x.1 x.2 q * |∑ k, m.normal x.1 x.2 q k * e k| *
        (u (x.1, m.faceDof x.2 q) - u ((nb x).1, m.faceDof (nb x).2 q)) ^ 2) = - ∑ x : C × Fin nf, ∑ q, m.faceJxw x.1 x.2 q *
        |∑ k, m.normal x.1 x.2 q k * e k| * (u (x.1, m.faceDof x.2 q) - u ((nb x).1, m.faceDof (nb x).2 q)) ^ 2 by ring]
    rw [← Finset.sum_neg_distrib]
    refine Finset.sum_congr rfl fun x _ => ?_
    rw [← Finset.sum_neg_distrib, ← Finset.sum_add_distrib]
    refine Finset.sum_congr rfl fun q _ => ?_
    obtain ⟨_, hq⟩ := hM x.1 x.2 (nb x).1 (nb x).2 (hnb x)
    have hx : exn m e (nb x).1 (nb x).2 q = - exn m e x.1 x.2 q := by
      unfold exn
      rw [← Finset.sum_neg_distrib]
      exact Finset.sum_congr rfl fun k _ => by rw [(hq q).2 k]; ring
    rw [show nb ((nb x).1, (nb x).2) = x from hinv x, show nb (x.1, x.2) = nb x from rfl, hx, (hq q).1]
    show _ = - (_ * |exn m e x.1 x.2 q| * _)
    generalize exn m e x.1 x.2 q = y
    rcases lt_trichotomy y 0 with h | h | h
    · rw [if_pos h, if_neg (by linarith), abs_of_neg h]; ring
    · rw [h]; simp
    · rw [if_neg (by linarith), if_pos (by linarith), abs_of_pos h]; ring
  refine ⟨key, ?_⟩
  rw [key, neg_nonpos]
  refine mul_nonneg (by positivity) (Finset.sum_nonneg fun x _ => Finset.sum_nonneg fun q _ => ?_)
  exact mul_nonneg (mul_nonneg (hJ _ _ _) (abs_nonneg _)) (sq_nonneg _)

/-- **C56** (finding) With the central flux, a uniform state changes at each degree of freedom on a face, unless the inflow and outflow of its
face points cancel: the entry for the neighbour has the wrong sign. -/
theorem C56_central_rate (m : Mesh K d n nQ nf nq C) [IsStrictOrderedRing K] (hg : m.GradientsCancel) (e : Fin d → K) (cells : List C)
    (hc : cells.Nodup) (c : C) (h : c ∈ cells) (hall : ∀ f, (m.neighbor c f).isSome) (i : Fin n) (v : K) :
    rate (reassemble m true e cells) (fun _ => v) (c, i) =
      v * inverseMass m c i * ∑ f, ∑ q, if m.faceDof f q = i then m.faceJxw c f q * exn m e c f q else 0 := by
  rw [rate_cell m true e cells hc c h]
  have h1 : ∑ j, system m e c i j * inverseMass m c i * v = 0 := by
    rw [← Finset.sum_mul, ← Finset.sum_mul, system_row_sum m hg, zero_mul, zero_mul]
  rw [h1, zero_add, faceSum, Finset.mul_sum]
  refine Finset.sum_congr rfl fun f _ => ?_
  obtain ⟨⟨c', f'⟩, hy⟩ := Option.isSome_iff_exists.1 (hall f)
  rw [hy]
  dsimp only
  rw [Finset.mul_sum]
  refine Finset.sum_congr rfl fun q _ => ?_
  rw [cellEntry, neighborEntry]
  simp only [if_true]
  by_cases hq : m.faceDof f q = i
  · rw [if_pos hq, if_pos hq, hq]; ring
  · rw [if_neg hq, if_neg hq]; ring

/-- **C56** (finding) The constructor without the choice of a flux selects the central flux for every time step but zero, and sets the time step to zero. -/
theorem C56_constructor_fails (deltaT : K) (h : deltaT ≠ 0) : shortConstructor deltaT = (true, 0) := by
  simp [shortConstructor, h]

/-- **C56** The maps between degrees of freedom and quadrature points are right for shape functions that are one in one point and zero in the
others. -/
theorem C56_maps [IsStrictOrderedRing K] {n p : ℕ} (value : Fin n → Fin p → K) (s : Fin n → Fin p) (h : ∀ i q, value i q = if q = s i then 1 else 0) :
    celldofsToQ value = some ((List.finRange n).map fun i => (i, s i)) := by
  have hp : ∀ i, pointsOf (value i) = some [s i] := by
    intro i
    have hf : (List.finRange p).filter (fun q => 1 / 10 ^ 10 < value i q) = [s i] := by
      have : (fun q => decide ((1 : K) / 10 ^ 10 < value i q)) = fun q => decide (q = s i) := by
        funext q
        rw [h]
        by_cases hq : q = s i
        · rw [if_pos hq]; simp only [hq, decide_true, decide_eq_true_eq]; norm_num
        · rw [if_neg hq]
          simp only [hq, decide_false, decide_eq_false_iff_not, not_lt]; positivity
      rw [this]
      rw [List.filter_eq, List.count_eq_one_of_mem (List.nodup_finRange p) (List.mem_finRange _)]; rfl
    simp only [pointsOf, hf]
    rw [if_pos]
    intro q hq
    rw [List.mem_singleton.1 hq, h, if_pos rfl, sub_self, abs_zero]
    positivity
  unfold celldofsToQ
  simp only [hp]
  exact List.mapM_pure (m := Option)

/-- **C56** The same for the points of a face: point `q` belongs to degree of freedom `t q`. -/
theorem C56_face_map [IsStrictOrderedRing K] {n p : ℕ} (value : Fin n → Fin p → K) (t : Fin p → Fin n) (ht : Function.Injective t)
    (h : ∀ i q, value i q = if t q = i then 1 else 0) : ∃ l, qToFacedofs value = some l ∧ ∀ q i, (q, i) ∈ l ↔ i = t q := by
  have hp : ∀ i, pointsOf (value i) = some ((List.finRange p).filter fun q => t q = i) := by
    intro i
    have hf : (fun q => decide ((1 : K) / 10 ^ 10 < value i q)) = fun q => decide (t q = i) := by
      funext q
      rw [h]
      by_cases hq : t q = i
      · rw [if_pos hq]; simp only [hq, decide_true, decide_eq_true_eq]; norm_num
      · rw [if_neg hq]
        simp only [hq, decide_false, decide_eq_false_iff_not, not_lt]; positivity
    simp only [pointsOf, hf]
    rw [if_pos]
    intro q hq
    have := (List.mem_filter.1 hq).2
    rw [h, if_pos (by simpa using this), sub_self, abs_zero]
    positivity
  have hcase : ∀ i, ((List.finRange p).filter fun q => t q = i) = [] ∨ ∃ q, t q = i ∧ ((List.finRange p).filter fun q => t q = i) = [q] := by
    intro i
    by_cases hi : ∃ q, t q = i
    · obtain ⟨q, rfl⟩ := hi
      refine Or.inr ⟨q, rfl, ?_⟩
      have : (fun q' => decide (t q' = t q)) = fun q' => decide (q' = q) := by
        funext q'
        simp only [ht.eq_iff]
      rw [this, List.filter_eq, List.count_eq_one_of_mem (List.nodup_finRange p) (List.mem_finRange _)]; rfl
    · refine Or.inl (List.filter_eq_nil_iff.2 fun q _ hq => hi ⟨q, by simpa using hq⟩)
  let L : List (Fin p × Fin n) := (List.finRange n).flatMap fun i => ((List.finRange p).filter fun q => t q = i).map fun q => (q, i)
  have hmem : ∀ q i, (q, i) ∈ L ↔ i = t q := by
    intro q i
    simp only [L, List.mem_flatMap, List.mem_map, List.mem_filter, List.mem_finRange, true_and, decide_eq_true_eq, Prod.mk.injEq]
    constructor
    · rintro ⟨j, q', h1, rfl, rfl⟩; exact h1.symm
    · rintro rfl; exact ⟨t q, q, rfl, rfl, rfl⟩
  have hnd : (L.map Prod.fst).Nodup := by
    simp only [L, List.map_flatMap, List.map_map]
    rw [List.nodup_flatMap]
    refine ⟨fun i _ => ?_, ?_⟩
    · rw [show (Prod.fst ∘ fun q : Fin p => (q, i)) = id from rfl, List.map_id]
      exact (List.nodup_finRange p).filter _
    · refine (List.nodup_finRange n).imp fun {a b} hab => ?_
      intro q h1 h2
      simp only [List.mem_map, List.mem_filter, List.mem_finRange, true_and, decide_eq_true_eq, Function.comp] at h1 h2
      obtain ⟨q1, h1, rfl⟩ := h1
      obtain ⟨q2, h2, h3⟩ := h2
      rw [h3] at h2
      exact hab (h1.symm.trans h2)
  have hfold : ∀ (l acc : List (Fin p × Fin n)), ((acc ++ l).map Prod.fst).Nodup →
      l.foldl (fun acc x => if x.1 ∈ acc.map Prod.fst then acc else acc ++ [x]) acc = acc ++ l := by
    intro l
    induction l with
    | nil => intro acc _; simp
    | cons x l ih =>
      intro acc hacc
      rw [List.foldl_cons, if_neg]
      · rw [ih (acc ++ [x]) (by simpa using hacc)]; simp
      · intro hx
        rw [List.map_append, List.nodup_append] at hacc
        exact hacc.2.2 _ hx x.1 (by simp) rfl
  have hlen : L.length = p := by
    rw [← List.length_map (f := Prod.fst)]
    have hperm : (L.map Prod.fst).Perm (List.finRange p) := by
      rw [List.perm_ext_iff_of_nodup hnd (List.nodup_finRange p)]
      intro q
      simp only [List.mem_finRange, iff_true]
      exact List.mem_map.2 ⟨(q, t q), (hmem q (t q)).2 rfl, rfl⟩
    rw [hperm.length_eq, List.length_finRange]
  refine ⟨L, ?_, hmem⟩
  unfold qToFacedofs
  have hmapM : (List.finRange n).mapM (facePairs value) = some ((List.finRange n).map fun i => ((List.finRange p).filter fun q => t q = i).map fun q => (q, i)) := by
    rw [← show _ = some ((List.finRange n).map fun i => ((List.finRange p).filter fun q => t q = i).map fun q => (q, i)) from
      List.mapM_pure (m := Option)]
    congr 1
    funext i
    rw [facePairs, hp i]
    rcases hcase i with h0 | ⟨q, _, h1⟩
    · rw [h0]; rfl
    · rw [h1]; rfl
  simp only [hmapM]
  rw [show ((List.finRange n).map fun i => ((List.finRange p).filter fun q => t q = i).map fun q => (q, i)).flatten = L from by
    simp only [L, List.flatMap]]
  rw [hfold L [] (by simpa using hnd), List.nil_append, if_pos hlen]

/-! ### A mesh that meets the hypotheses -/

namespace Sample

/-- Nine unit squares, periodic, bilinear shape functions, quadrature in the corners -/
def squares : Mesh ℚ 2 4 4 4 2 (Fin 3 × Fin 3) where
  value _ i q := if i = q then 1 else 0
  grad _ j q k :=
    let sx := if j.val % 2 = 1 then 1 else -1
    let sy := if j.val / 2 = 1 then 1 else -1
    if k = 0 then (if j.val / 2 = q.val / 2 then sx else 0) else (if j.val % 2 = q.val % 2 then sy else 0)
  jxw _ _ := 1 / 4
  toQ i := i
  faceDof f q := ![![0, 2], ![1, 3], ![0, 1], ![2, 3]] f q
  faceJxw _ _ _ := 1 / 2
  normal _ f _ := ![![-1, 0], ![1, 0], ![0, -1], ![0, 1]] f
  neighbor c f := some (![((c.1 - 1, c.2), 1), ((c.1 + 1, c.2), 0), ((c.1, c.2 - 1), 3), ((c.1, c.2 + 1), 2)] f)

def cells : List (Fin 3 × Fin 3) := (List.finRange 3).flatMap fun a => (List.finRange 3).map fun b => (a, b)

example : squares.GradientsCancel := by unfold Mesh.GradientsCancel; decide +kernel
example : squares.Nodal := by unfold Mesh.Nodal; decide +kernel
example : squares.Divergence := by unfold Mesh.Divergence; decide +kernel
example : squares.ByParts := by unfold Mesh.ByParts; decide +kernel
example : squares.Matching := by
  have : ∀ c f, ∀ y : (Fin 3 × Fin 3) × Fin 4, squares.neighbor c f = some y →
      squares.neighbor y.1 y.2 = some (c, f) ∧ ∀ q, squares.faceJxw y.1 y.2 q = squares.faceJxw c f q ∧ ∀ k, squares.normal y.1 y.2 q k = - squares.normal c f q k := by
    decide +kernel
  exact fun c f c' f' h => this c f (c', f') h
example : (∀ c i, mass squares c i ≠ 0) ∧ (∀ c f, (squares.neighbor c f).isSome) ∧ cells.Nodup ∧ ∀ c, c ∈ cells := by decide +kernel

/-- A non-uniform state has fluxes, and loses energy -/
example : rate (reassemble squares false ![1, 2] cells) (fun x => (x.1.1.val : ℚ)) ((0, 0), 0) ≠ 0 := by decide +kernel

/-- The maps of the sample are those computed from its shape functions. -/
example : celldofsToQ (squares.value (0, 0)) = some [(0, 0), (1, 1), (2, 2), (3, 3)] := by decide +kernel

/-- **C56** (finding) With the central flux, a uniform state changes on the sample mesh. -/
theorem C56_central_fails : rate (reassemble squares true ![1, 0] cells) (fun _ => 1) ((0, 0), 0) = -2 := by decide +kernel

end Sample

end Sedg
end NATriuM
