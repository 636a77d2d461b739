import Verif.Model.Utilities
import Mathlib.Algebra.BigOperators.Fin

/-!
# C59, C60, C61, C72: utilities
-/

namespace NATriuM

namespace MathUtil

/-! ## C59 -/

/-- **C59** (what holds). The tolerant comparison is a strict partial order. -/
theorem C59_partialOrder_partial (ε : ℝ) (hε : 0 ≤ ε) :
    (∀ x, ownDoubleLess ε x x = false) ∧ (∀ x y, ownDoubleLess ε x y = true → ownDoubleLess ε y x = false) ∧
      ∀ x y z, ownDoubleLess ε x y = true → ownDoubleLess ε y z = true → ownDoubleLess ε x z = true := by
  have key : ∀ x y, ownDoubleLess ε x y = true ↔ ε < y - x := by
    intro x y
    unfold ownDoubleLess
    simp only [Bool.and_eq_true, decide_eq_true_eq]
    constructor
    · rintro ⟨h1, h2⟩
      rw [abs_of_neg (by linarith)] at h1
      linarith
    · intro h
      refine ⟨?_, by linarith⟩
      rw [abs_of_neg (by linarith)]; linarith
  refine ⟨fun x => ?_, fun x y h => ?_, fun x y z h1 h2 => ?_⟩
  · rw [← Bool.not_eq_true, key]; linarith
  · rw [key] at h; rw [← Bool.not_eq_true, key]; linarith
  · rw [key] at *; linarith

/-- **C59 fails**: for every positive tolerance the equivalence induced by the comparison is not transitive, so it is not a strict weak
ordering as `std::map` requires. -/
theorem C59_fails (ε : ℝ) (hε : 0 < ε) : ∃ x y z : ℝ,
    (ownDoubleLess ε x y = false ∧ ownDoubleLess ε y x = false) ∧ (ownDoubleLess ε y z = false ∧ ownDoubleLess ε z y = false) ∧
      ownDoubleLess ε x z = true := by
  refine ⟨0, ε, 2 * ε, ⟨?_, ?_⟩, ⟨?_, ?_⟩, ?_⟩
  · simp [ownDoubleLess, abs_of_pos hε]
  · simp [ownDoubleLess, abs_of_pos hε]
  · have : ε - 2 * ε = -ε := by ring
    simp [ownDoubleLess, this, abs_of_pos hε]
  · have : 2 * ε - ε = ε := by ring
    simp [ownDoubleLess, this, abs_of_pos hε]
  · have : |0 - 2 * ε| = 2 * ε := by rw [zero_sub, abs_neg, abs_of_pos (by linarith)]
    simp only [ownDoubleLess, this]
    simp only [Bool.and_eq_true, decide_eq_true_eq]
    constructor <;> linarith

/-- **C59** (the use the code makes of it): on keys that are either closer than `ε` to or further than `2ε` from each other (grid lines) the
comparison is a strict weak ordering, i.e. incomparability is transitive as well. -/
theorem C59_separated_partial (ε : ℝ) (hε : 0 ≤ ε) (S : Set ℝ) (hS : ∀ x ∈ S, ∀ y ∈ S, |x - y| ≤ ε ∨ 2 * ε < |x - y|) :
    ∀ x ∈ S, ∀ y ∈ S, ∀ z ∈ S, (ownDoubleLess ε x y = false ∧ ownDoubleLess ε y x = false) →
      (ownDoubleLess ε y z = false ∧ ownDoubleLess ε z y = false) → (ownDoubleLess ε x z = false ∧ ownDoubleLess ε z x = false) := by
  have key : ∀ x y, (ownDoubleLess ε x y = false ∧ ownDoubleLess ε y x = false) ↔ |x - y| ≤ ε := by
    intro x y
    unfold ownDoubleLess
    rw [abs_sub_comm y x]
    simp only [Bool.and_eq_false_iff, decide_eq_false_iff_not, not_lt]
    constructor
    · rintro ⟨h1, h2⟩
      rcases h1 with h1 | h1
      · exact h1
      · rcases h2 with h2 | h2
        · exact h2
        · have : x = y := le_antisymm h2 h1
          simp [this, hε]
    · intro h; exact ⟨Or.inl h, Or.inl h⟩
  intro x hx y hy z hz h1 h2
  rw [key] at *
  rcases hS x hx z hz with h | h
  · exact h
  · have : |x - z| ≤ |x - y| + |y - z| := abs_sub_le x y z
    linarith

example : ∀ x ∈ ({0, 1} : Set ℝ), ∀ y ∈ ({0, 1} : Set ℝ), |x - y| ≤ (1e-6 : ℝ) ∨ 2 * (1e-6 : ℝ) < |x - y| := by
  rintro x (rfl | rfl) y (rfl | rfl) <;> norm_num

/-! ## C60 -/

/-- **C60** (what the function computes). For nonzero vectors and a nonzero threshold the result is whether the angle between them is below
the angle whose cosine is `cos(threshold/PI*180)`; without threshold, whether it is below `arccos 0.99`. -/
theorem C60_isAngleSmall_partial (v w : EuclideanSpace ℝ (Fin 2)) (hv : v ≠ 0) (hw : w ≠ 0) (t : ℝ) :
    isAngleSmall v w t = true ↔
      InnerProductGeometry.angle v w < Real.arccos (if t = 0 then 0.99 else Real.cos (t / PI * 180)) := by
  have h0 : ‖v‖ * ‖w‖ ≠ 0 := mul_ne_zero (norm_ne_zero_iff.2 hv) (norm_ne_zero_iff.2 hw)
  have hcos : inner ℝ v w / (‖v‖ * ‖w‖) = Real.cos (InnerProductGeometry.angle v w) := (InnerProductGeometry.cos_angle v w).symm
  have hmem : InnerProductGeometry.angle v w ∈ Set.Icc 0 Real.pi :=
    ⟨InnerProductGeometry.angle_nonneg v w, InnerProductGeometry.angle_le_pi v w⟩
  have key : ∀ c : ℝ, -1 ≤ c → c ≤ 1 →
      (Real.cos (InnerProductGeometry.angle v w) > c ↔ InnerProductGeometry.angle v w < Real.arccos c) := by
    intro c h1 h2
    have hc : Real.cos (Real.arccos c) = c := Real.cos_arccos h1 h2
    have hm2 : Real.arccos c ∈ Set.Icc 0 Real.pi := ⟨Real.arccos_nonneg c, Real.arccos_le_pi c⟩
    conv_lhs => rw [← hc]
    exact Real.strictAntiOn_cos.lt_iff_gt hm2 hmem
  unfold isAngleSmall
  rw [if_neg h0, hcos]
  by_cases ht : t = 0
  · rw [if_pos ht, if_pos ht, decide_eq_true_eq]
    exact key _ (by norm_num) (by norm_num)
  · rw [if_neg ht, if_neg ht, decide_eq_true_eq]
    exact key _ (Real.neg_one_le_cos _) (Real.cos_le_one _)

/-- **C60 fails**: degrees are converted to radians with the reciprocal factor. There is a positive threshold for which no pair of vectors,
not even identical ones, has a "small" angle, … -/
theorem C60_never_small : ∃ t : ℝ, 0 < t ∧ t < 1 ∧ ∀ v w, isAngleSmall v w t = false := by
  have hPI : 0 < PI := by unfold PI; norm_num
  have hPI4 : PI < 4 := by unfold PI; norm_num
  have hpi := Real.pi_pos
  have hpi4 := Real.pi_le_four
  refine ⟨2 * Real.pi * PI / 180, by positivity, ?_, fun v w => ?_⟩
  · have : Real.pi * PI < 4 * 4 + 1 := by nlinarith
    linarith
  · by_contra h
    rw [Bool.not_eq_false] at h
    have hne : ‖v‖ * ‖w‖ ≠ 0 := by
      intro h0; unfold isAngleSmall at h; rw [if_pos h0] at h; exact absurd h (by simp)
    have hv : v ≠ 0 := by rintro rfl; simp at hne
    have hw : w ≠ 0 := by rintro rfl; simp at hne
    rw [C60_isAngleSmall_partial v w hv hw] at h
    have ht : 2 * Real.pi * PI / 180 ≠ 0 := by positivity
    rw [if_neg ht] at h
    have : 2 * Real.pi * PI / 180 / PI * 180 = 2 * Real.pi := by field_simp
    rw [this, Real.cos_two_pi, Real.arccos_one] at h
    exact absurd h (not_lt.2 (InnerProductGeometry.angle_nonneg v w))

/-- … and a threshold below one degree for which perpendicular vectors have a "small" angle. -/
theorem C60_right_angle_small : ∃ t : ℝ, 0 < t ∧ t < 1 ∧ ∃ v w : EuclideanSpace ℝ (Fin 2),
    InnerProductGeometry.angle v w = Real.pi / 2 ∧ isAngleSmall v w t = true := by
  have hPI : 0 < PI := by unfold PI; norm_num
  have hPI4 : PI < 4 := by unfold PI; norm_num
  have hpi := Real.pi_pos
  have hpi4 := Real.pi_le_four
  refine ⟨Real.pi * PI / 180, by positivity, ?_, EuclideanSpace.single 0 1, EuclideanSpace.single 1 1, ?_, ?_⟩
  · have : Real.pi * PI < 4 * 4 + 1 := by nlinarith
    linarith
  · rw [← InnerProductGeometry.inner_eq_zero_iff_angle_eq_pi_div_two]
    simp [EuclideanSpace.inner_single_left]
  · have hang : InnerProductGeometry.angle (EuclideanSpace.single (0 : Fin 2) (1 : ℝ)) (EuclideanSpace.single (1 : Fin 2) (1 : ℝ)) = Real.pi / 2 := by
      rw [← InnerProductGeometry.inner_eq_zero_iff_angle_eq_pi_div_two]
      simp [EuclideanSpace.inner_single_left]
    rw [C60_isAngleSmall_partial _ _ (by simp) (by simp), hang]
    have ht : Real.pi * PI / 180 ≠ 0 := by positivity
    rw [if_neg ht]
    have : Real.pi * PI / 180 / PI * 180 = Real.pi := by field_simp
    rw [this, Real.cos_pi, Real.arccos_neg_one]
    linarith

/-! ## C72 -/

lemma localMax_spec {ι : Type*} (velocity : List (ι → ℝ)) (owned : List ι) (m : ℝ) (hm : 0 ≤ m) :
    let r := owned.foldl (fun m i => if normSquare velocity i > m then normSquare velocity i else m) m
    m ≤ r ∧ (∀ i ∈ owned, normSquare velocity i ≤ r) ∧ (r = m ∨ ∃ i ∈ owned, r = normSquare velocity i) := by
  induction owned generalizing m with
  | nil => simp
  | cons i l ih =>
    simp only [List.foldl_cons]
    split_ifs with h
    · obtain ⟨h1, h2, h3⟩ := ih (normSquare velocity i) (le_trans hm h.le)
      refine ⟨le_trans h.le h1, ?_, ?_⟩
      · intro k hk
        rcases List.mem_cons.1 hk with rfl | hk
        · exact h1
        · exact h2 k hk
      · rcases h3 with h3 | ⟨k, hk, h3⟩
        · exact Or.inr ⟨i, by simp, h3⟩
        · exact Or.inr ⟨k, by simp [hk], h3⟩
    · obtain ⟨h1, h2, h3⟩ := ih m hm
      refine ⟨h1, ?_, ?_⟩
      · intro k hk
        rcases List.mem_cons.1 hk with rfl | hk
        · exact le_trans (not_lt.1 h) h1
        · exact h2 k hk
      · rcases h3 with h3 | ⟨k, hk, h3⟩
        · exact Or.inl h3
        · exact Or.inr ⟨k, by simp [hk], h3⟩

lemma normSquare_sum {ι : Type*} (velocity : List (ι → ℝ)) (i : ι) : normSquare velocity i = (velocity.map fun v => v i ^ 2).sum := by
  unfold normSquare
  have : ∀ (l : List (ι → ℝ)) (s : ℝ), l.foldl (fun s v => s + v i * v i) s = s + (l.map fun v => v i ^ 2).sum := by
    intro l
    induction l with
    | nil => intro s; simp
    | cons v l ih => intro s; simp [ih]; ring
  rw [this, zero_add]

/-- **C72**: the largest velocity is an upper bound of all nodal speeds and is attained (or 0 when everything is at rest or there are no
nodes), regardless of how the nodes are distributed over the processes. -/
theorem C72_maxVelocityNorm {ι : Type*} (velocity : List (ι → ℝ)) (processes : List (List ι)) (r : ℝ)
    (h : maxVelocityNorm velocity processes = some r) :
    (∀ p ∈ processes, ∀ i ∈ p, Real.sqrt (velocity.map fun v => v i ^ 2).sum ≤ r) ∧
      (r = 0 ∨ ∃ p ∈ processes, ∃ i ∈ p, r = Real.sqrt (velocity.map fun v => v i ^ 2).sum) := by
  unfold maxVelocityNorm at h
  split_ifs at h with hdim
  cases hmax : (processes.map (localMaxNormSquare velocity)).max? with
  | none => rw [hmax] at h; cases h
  | some m =>
    rw [hmax] at h
    have hr : r = Real.sqrt m := (Option.some.inj h).symm
    obtain ⟨hmem, hub⟩ := List.max?_eq_some_iff.1 hmax
    obtain ⟨p, hp, rfl⟩ := List.mem_map.1 hmem
    constructor
    · intro p' hp' i hi
      rw [hr, ← normSquare_sum]
      apply Real.sqrt_le_sqrt
      exact le_trans ((localMax_spec velocity p' 0 le_rfl).2.1 i hi) (hub _ (List.mem_map.2 ⟨p', hp', rfl⟩))
    · rcases (localMax_spec velocity p 0 le_rfl).2.2 with h3 | ⟨i, hi, h3⟩
      · left; rw [hr]; unfold localMaxNormSquare; rw [h3, Real.sqrt_zero]
      · right
        refine ⟨p, hp, i, hi, ?_⟩
        rw [hr, ← normSquare_sum]; unfold localMaxNormSquare; rw [h3]

/-- **C72**: the 2-norm is the root of the sum of the squares over all nodes of all processes. -/
theorem C72_velocity2Norm {ι : Type*} (velocity : List (ι → ℝ)) (processes : List (List ι)) (r : ℝ)
    (h : velocity2Norm velocity processes = some r) :
    r = Real.sqrt ((processes.flatten.map fun i => (velocity.map fun v => v i ^ 2).sum).sum) := by
  unfold velocity2Norm at h
  split_ifs at h
  rw [← Option.some.inj h]
  congr 1
  have hl : ∀ (l : List ι) (s : ℝ), l.foldl (fun s i => s + normSquare velocity i) s =
      s + (l.map fun i => (velocity.map fun v => v i ^ 2).sum).sum := by
    intro l
    induction l with
    | nil => intro s; simp
    | cons i l ih => intro s; rw [List.foldl_cons, ih, normSquare_sum]; simp; ring
  clear h
  induction processes with
  | nil => simp
  | cons p ps ih => rw [List.map_cons, List.sum_cons, ih, hl, zero_add, List.flatten_cons, List.map_append, List.sum_append]

/-- **C72**: two distributions of the same nodes over processes give the same largest velocity, … -/
theorem C72_max_distribution {ι : Type*} (velocity : List (ι → ℝ)) (P P' : List (List ι)) (hP : ∀ i, i ∈ P.flatten ↔ i ∈ P'.flatten)
    (r r' : ℝ) (h : maxVelocityNorm velocity P = some r) (h' : maxVelocityNorm velocity P' = some r') : r = r' := by
  have key : ∀ (P P' : List (List ι)) (r r' : ℝ), (∀ i, i ∈ P.flatten → i ∈ P'.flatten) → maxVelocityNorm velocity P = some r →
      maxVelocityNorm velocity P' = some r' → r ≤ r' := by
    intro P P' r r' hs h h'
    obtain ⟨hub', hatt'⟩ := C72_maxVelocityNorm velocity P' r' h'
    rcases (C72_maxVelocityNorm velocity P r h).2 with h0 | ⟨p, hp, i, hi, hr⟩
    · rw [h0]
      rcases hatt' with h1 | ⟨_, _, _, _, h1⟩
      · exact h1.ge
      · rw [h1]; exact Real.sqrt_nonneg _
    · obtain ⟨p', hp', hi'⟩ := List.mem_flatten.1 (hs i (List.mem_flatten.2 ⟨p, hp, hi⟩))
      rw [hr]; exact hub' p' hp' i hi'
  exact le_antisymm (key P P' r r' (fun i => (hP i).1) h h') (key P' P r' r (fun i => (hP i).2) h' h)

/-- … and the same 2-norm, if every node is owned by exactly one process. -/
theorem C72_2Norm_distribution {ι : Type*} (velocity : List (ι → ℝ)) (P P' : List (List ι)) (hP : P.flatten.Perm P'.flatten)
    (r r' : ℝ) (h : velocity2Norm velocity P = some r) (h' : velocity2Norm velocity P' = some r') : r = r' := by
  rw [C72_velocity2Norm velocity P r h, C72_velocity2Norm velocity P' r' h', (hP.map _).sum_eq]

/-- **C72**: both are defined in two and three dimensions on at least one process. -/
theorem C72_defined {ι : Type*} (velocity : List (ι → ℝ)) (hd : velocity.length = 2 ∨ velocity.length = 3) (P : List (List ι)) (hP : P ≠ []) :
    (∃ r, maxVelocityNorm velocity P = some r) ∧ ∃ r, velocity2Norm velocity P = some r := by
  have hdim : 1 < velocity.length ∧ velocity.length < 4 := by omega
  constructor
  · unfold maxVelocityNorm
    rw [if_pos hdim]
    cases hm : (P.map (localMaxNormSquare velocity)).max? with
    | none => rw [List.max?_eq_none_iff, List.map_eq_nil_iff] at hm; exact absurd hm hP
    | some m => exact ⟨_, rfl⟩
  · exact ⟨_, if_pos hdim⟩

example : ∃ r, maxVelocityNorm [![3, 0], ![4, (1 : ℝ)]] [[(0 : Fin 2)], [1]] = some r ∧ r = 5 := by
  refine ⟨_, rfl, ?_⟩
  norm_num [localMaxNormSquare, normSquare, List.max?]
  rw [show (25 : ℝ) = 5 ^ 2 by norm_num, Real.sqrt_sq (by norm_num)]

end MathUtil

/-! ## C61 -/

namespace SemiParallelMatrix

variable {ι : Type*} [DecidableEq ι]

omit [DecidableEq ι] in
/-- **C61**: `vmult` is the matrix-vector product. -/
theorem C61_vmult (A : SemiParallelMatrix ι) (src : List ℝ) (hs : src.length = A.M.length) :
    ∃ y, vmult A src = some y ∧ ∀ i, y i = ∑ j : Fin A.M.length, A.M[j] i * src[(j : ℕ)]'(by rw [hs]; exact j.2) := by
  refine ⟨_, if_pos hs, fun i => ?_⟩
  have hf : ∀ (l : List ((ι → ℝ) × ℝ)) (d : ι → ℝ), (l.foldl (fun dst p => dst + p.2 • p.1) d) i = d i + (l.map fun p => p.1 i * p.2).sum := by
    intro l
    induction l with
    | nil => intro d; simp
    | cons p l ih => intro d; rw [List.foldl_cons, ih]; simp; ring
  rw [hf, Pi.zero_apply, zero_add]
  have hlen : (List.map (fun p : (ι → ℝ) × ℝ => p.1 i * p.2) (A.M.zip src)).length = A.M.length := by simp [hs]
  rw [← Fin.sum_univ_getElem]
  refine Fintype.sum_equiv (finCongr hlen) _ _ fun k => ?_
  simp only [List.getElem_map, List.getElem_zip]
  rfl

/-- **C61**: entries and columns are stored where they are put, and nowhere else. -/
theorem C61_set (A A' : SemiParallelMatrix ι) (i : ι) (j : ℕ) (v : ℝ) (h : A.set i j v = some A') (i' : ι) (j' : ℕ) :
    A'.get i' j' = if i' = i ∧ j' = j then some v else A.get i' j' := by
  unfold set at h
  cases hc : A.M[j]? with
  | none => rw [hc] at h; cases h
  | some c =>
    rw [hc] at h
    have hA' : A' = ⟨A.M.set j (Function.update c i v)⟩ := (Option.some.inj h).symm
    have hj : j < A.M.length := (List.getElem?_eq_some_iff.1 hc).1
    subst hA'
    unfold get
    by_cases hjj : j' = j
    · subst hjj
      simp only [List.getElem?_set_self hj, hc, Option.map_some, Function.update_apply, and_true]
      split_ifs <;> rfl
    · simp [hjj, List.getElem?_set_ne (Ne.symm hjj)]

omit [DecidableEq ι] in
/-- **C61**: setting a column changes that column only. -/
theorem C61_setColumn (A A' : SemiParallelMatrix ι) (j : ℕ) (c : ι → ℝ) (h : A.setColumn j c = some A') (j' : ℕ) :
    A'.getColumn j' = if j' = j then some c else A.getColumn j' := by
  unfold setColumn at h
  split_ifs at h with hj
  rw [← Option.some.inj h]
  unfold getColumn
  by_cases hjj : j' = j
  · subst hjj; simp [hj]
  · simp [hjj, List.getElem?_set_ne (Ne.symm hjj)]

omit [DecidableEq ι] in
/-- **C61**: a fresh matrix is zero. -/
theorem C61_reinit (n : ℕ) (i : ι) (j : ℕ) : (reinit n : SemiParallelMatrix ι).get i j = if j < n then some 0 else none := by
  unfold get reinit
  by_cases h : j < n <;> simp [h]

example : ∃ A, (reinit 2 : SemiParallelMatrix (Fin 2)).set 0 1 5 = some A ∧ A.get 0 1 = some 5 ∧ A.get 1 1 = some 0 := by
  refine ⟨_, rfl, ?_, ?_⟩ <;> simp [get, reinit]

end SemiParallelMatrix

end NATriuM
