import Verif.Lemmas.FlowMeshes
import Mathlib.Tactic.FieldSimp

/-!
# Theorems about the meshes and boundaries of the flow problems
-/

namespace NATriuM
namespace FlowMeshes

open Problem

/-! ## C104 -/

/-- **C104** Whenever a problem in two dimensions can be constructed, its mesh and its boundaries fit together. -/
theorem C104_fits2 (p : Flow2) (m : BoxMesh 2) (rs : List Reg) (h : p.construct = .ok (m, rs)) : Fits m rs :=
  fits (flow2_plain (construct2_ok h).1) (flow2_good (construct2_ok h).2)

/-- **C104** (partial: not for the channel without periodicity) Whenever a problem in three dimensions can be constructed, its mesh and its
boundaries fit together. -/
theorem C104_fits3_partial (p : Flow3) (hp : ∀ reps, p ≠ .turbulentChannel reps false) (m : BoxMesh 3) (rs : List Reg)
    (h : p.construct = .ok (m, rs)) : Fits m rs :=
  fits (flow3_plain (construct3_ok h).1) (flow3_good (construct3_ok h).2 hp)

/-- **C104** The check of the library succeeds in these cases. -/
theorem C104_check {d : ℕ} (w : ℕ) (m : BoxMesh d) (rs : List Reg) (h : Fits m rs) (hw : ∀ i, (∃ f, m.AtBoundary f ∧ m.id f = i) → i < 2 ^ w) :
    checkBoundaryConditions w m.boundaryIds (history (registrations rs)) = true := by
  refine (C51_partial w _ (boundaryIds_nodup m) _ fun i hi => hw i ?_).2 fun i => ?_
  · rw [h.ids, registered_iff]; exact hi
  · rw [mem_boundaryIds, h.ids]

/-- **C104** The arguments for which the problems in two dimensions can be constructed. -/
theorem C104_accepted2 (p : Flow2) : (∃ m rs, p.construct = .ok (m, rs)) ↔ p.Valid := by
  have sub : ∀ reps : Fin 2 → ℕ, (∃ m, subdivided reps = .ok m) ↔ ∀ a, 0 < reps a := by
    intro reps
    unfold subdivided
    split_ifs with h
    · exact ⟨fun _ => h, fun _ => ⟨_, rfl⟩⟩
    · exact ⟨fun ⟨m, hm⟩ => absurd hm (by simp), fun h1 => absurd h1 h⟩
  have iff : (∃ m rs, p.construct = .ok (m, rs)) ↔ (∃ m, p.makeGrid = .ok m) ∧ ∃ rs, p.makeBoundaries = .ok rs := by
    constructor
    · rintro ⟨m, rs, h⟩
      exact ⟨⟨m, (construct2_ok h).1⟩, ⟨rs, (construct2_ok h).2⟩⟩
    · rintro ⟨⟨m, h1⟩, ⟨rs, h2⟩⟩
      exact ⟨m, rs, by simp only [Flow2.construct, h1, h2]⟩
  have two : ∀ n : ℕ, (∀ a : Fin 2, 0 < (![n, 1] : Fin 2 → ℕ) a) ↔ 0 < n := by
    intro n
    simp [Fin.forall_fin_two]
  have conv : ∀ x : ℚ, (∃ m, columns x = .ok m) ↔ 1 ≤ x := by
    intro x
    unfold columns toUnsigned
    split_ifs with h
    · constructor
      · rintro ⟨m, hm⟩; exact absurd hm (by simp)
      · intro h1; exact absurd h1 (by linarith)
    · dsimp only
      rw [sub, two, Nat.floor_pos]
  rw [iff]
  cases p <;> simp only [Flow2.makeGrid, Flow2.makeBoundaries, Flow2.Valid, Except.ok.injEq, exists_eq', and_true, sub, two, iff_true]
  · decide
  · decide
  · decide
  · rename_i per
    cases per <;> simp
  · rename_i r
    split_ifs with h
    · simp [h]
    · rw [conv]
      rcases lt_trichotomy r 0 with h1 | h1 | h1
      · have : 1 / r < 0 := by rw [one_div]; exact inv_lt_zero.2 h1
        constructor
        · intro h2; linarith
        · intro h2; linarith [h2.1]
      · exact absurd h1 h
      · rw [le_div_iff₀ h1, one_mul]
        exact ⟨fun h2 => ⟨h1, h2⟩, fun h2 => h2.2⟩
  · rename_i L hh r
    split_ifs with h
    · constructor
      · rintro ⟨m, hm⟩; exact absurd hm (by simp)
      · rintro ⟨h1, h2, _⟩
        rcases h with h | h
        · exact absurd h h1
        · exact absurd h h2
    · rw [not_or] at h
      rw [conv]
      exact ⟨fun h1 => ⟨h.1, h.2, h1⟩, fun h1 => h1.2.2⟩

/-- **C104** The arguments for which the problems in three dimensions can be constructed, apart from the channel without periodicity. -/
theorem C104_accepted3 (p : Flow3) (hp : ∀ reps, p ≠ .turbulentChannel reps false) : (∃ m rs, p.construct = .ok (m, rs)) ↔ p.Valid := by
  have sub : ∀ reps : Fin 3 → ℕ, (∃ m, subdivided reps = .ok m) ↔ ∀ a, 0 < reps a := by
    intro reps
    unfold subdivided
    split_ifs with h
    · exact ⟨fun _ => h, fun _ => ⟨_, rfl⟩⟩
    · exact ⟨fun ⟨m, hm⟩ => absurd hm (by simp), fun h1 => absurd h1 h⟩
  have iff : (∃ m rs, p.construct = .ok (m, rs)) ↔ (∃ m, p.makeGrid = .ok m) ∧ ∃ rs, p.makeBoundaries = .ok rs := by
    constructor
    · rintro ⟨m, rs, h⟩
      exact ⟨⟨m, (construct3_ok h).1⟩, ⟨rs, (construct3_ok h).2⟩⟩
    · rintro ⟨⟨m, h1⟩, ⟨rs, h2⟩⟩
      exact ⟨m, rs, by simp only [Flow3.construct, h1, h2]⟩
  rw [iff]
  cases p <;> simp only [Flow3.makeGrid, Flow3.makeBoundaries, Flow3.Valid, Except.ok.injEq, exists_eq', and_true, sub, iff_true]
  · decide
  · simp [Fin.forall_fin_succ]
  · simp [Fin.forall_fin_succ]
  · rename_i per
    cases per <;> simp [Fin.forall_fin_succ]
  · rename_i reps per
    cases per with
    | false => exact absurd rfl (hp reps)
    | true => simp

/-- **C104** fails: the channel without periodicity is constructed with a warning only, without any boundary condition. -/
theorem C104_channel_fails (reps : Fin 3 → ℕ) (hr : ∀ a, 0 < reps a) (w : ℕ) (hw : 3 ≤ w) :
    ∃ m, (Flow3.turbulentChannel reps false).construct = .ok (m, []) ∧ ¬ Fits m [] ∧
      checkBoundaryConditions w m.boundaryIds (history (registrations [])) = false := by
  have h1 : subdivided reps = .ok ⟨reps, fun a u => 2 * a + u.toNat⟩ := by rw [subdivided, if_pos hr]
  have hm := subdivided_plain h1
  refine ⟨_, by simp [Flow3.construct, Flow3.makeGrid, Flow3.makeBoundaries, h1]; rfl, ?_, ?_⟩
  · intro h
    obtain ⟨b, hb⟩ := (h.ids 0).1 ((exists_face_iff hm 0).2 (by norm_num))
    exact absurd hb (by simp [registrations, history, getBoundary, Registry.empty])
  · by_contra h
    rw [Bool.not_eq_false, C51_partial w _ (boundaryIds_nodup _) _ (by simp [registrations, named])] at h
    obtain ⟨b, hb⟩ := (h 0).1 ((mem_boundaryIds _ 0).2 ((exists_face_iff hm 0).2 (by norm_num)))
    exact absurd hb (by simp [registrations, history, getBoundary, Registry.empty])

/-- Non-vacuity: a channel of 3 × 2 × 4 cells, with periodic boundaries in the first and the third direction -/
example : ∃ m, (Flow3.turbulentChannel ![3, 2, 4] true).construct = .ok (m, [.periodic 0 1 0, .periodic 4 5 2, .other 2, .other 3]) ∧
    m.AtBoundary ⟨![2, 1, 3], 2, true⟩ ∧ ¬ m.AtBoundary ⟨![1, 1, 3], 0, true⟩ ∧
    checkBoundaryConditions 8 m.boundaryIds (history (registrations [.periodic 0 1 0, .periodic 4 5 2, .other 2, .other 3])) = true := by
  have h1 : (subdivided ![3, 2, 4] : Except MeshExc (BoxMesh 3)) = .ok ⟨![3, 2, 4], fun a u => 2 * a + u.toNat⟩ := by
    rw [subdivided, if_pos (by decide)]
  have h2 : (Flow3.turbulentChannel ![3, 2, 4] true).construct =
      .ok (⟨![3, 2, 4], fun a u => 2 * a + u.toNat⟩, [.periodic 0 1 0, .periodic 4 5 2, .other 2, .other 3]) := by
    simp only [Flow3.construct, Flow3.makeGrid, Flow3.makeBoundaries, h1, if_true]
  refine ⟨_, h2, by decide +kernel, by decide +kernel, C104_check 8 _ _ (C104_fits3_partial _ (by simp) _ _ h2) fun i hi => ?_⟩
  have := (exists_face_iff (flow3_plain (construct3_ok h2).1) i).1 hi
  omega

/-! ## C105 -/

/-- **C105** A face gets the id of a plane if its vertices are closer to it than the tolerance, and keeps its id otherwise. -/
theorem C105_plane {d : ℕ} (c : Fin d) (x : ℝ) (i : ℕ) (fs : List (Face d)) :
    (setIdsAtHyperplane c x i fs).length = fs.length ∧ ∀ k (h : k < fs.length) (h' : k < (setIdsAtHyperplane c x i fs).length),
      ((setIdsAtHyperplane c x i fs)[k]).vertices = fs[k].vertices ∧
      ((∀ v ∈ fs[k].vertices, |v c - x| < 1e-10) → ((setIdsAtHyperplane c x i fs)[k]).id = i) ∧
      ((∃ v ∈ fs[k].vertices, 1e-10 ≤ |v c - x|) → ((setIdsAtHyperplane c x i fs)[k]).id = fs[k].id) := by
  refine ⟨by simp [setIdsAtHyperplane], fun k h h' => ?_⟩
  have h1 : (setIdsAtHyperplane c x i fs)[k] = fs[k].atHyperplane c x i planeTol := by simp [setIdsAtHyperplane]
  obtain ⟨a, b, e⟩ := atHyperplane_id c x i planeTol fs[k]
  rw [h1]
  exact ⟨e, a, b⟩

/-- **C105** On each mesh whose faces at the boundary lie on the parts of the domain around the cylinder, these get the id of their part, and
the check of the boundary conditions succeeds. -/
theorem C105_cylinder (w : ℕ) (hw : 3 ≤ w) (fs : List (Face 2)) (h1 : ∀ f ∈ fs, ∃ p : CylinderPart, p.Contains f)
    (h2 : ∀ p : CylinderPart, ∃ f ∈ fs, p.Contains f) :
    (cylinderIds fs).map Face.vertices = fs.map Face.vertices ∧
    (∀ f ∈ cylinderIds fs, ∀ p : CylinderPart, p.Contains f → f.id = p.id) ∧
    checkBoundaryConditions w (idsOf ((cylinderIds fs).map Face.id)) (history (registrations cylinderBoundaries)) = true := by
  have congr : ∀ (f : Face 2) (p : CylinderPart), p.Contains (cylinderFace f) → p.Contains f := by
    intro f p h
    have hv := (cylinderFace_vertices f).symm
    cases p
    · exact ⟨onPlane_congr hv h.1, extended_congr hv h.2⟩
    · exact ⟨onPlane_congr hv h.1, extended_congr hv h.2⟩
    · exact ⟨onPlane_congr hv h.1, extended_congr hv h.2⟩
    · exact ⟨onPlane_congr hv h.1, extended_congr hv h.2⟩
    · simp only [CylinderPart.Contains] at h ⊢; rwa [hv]
  rw [cylinderIds_eq]
  refine ⟨?_, ?_, ?_⟩
  · rw [List.map_map]
    exact List.map_congr_left fun f _ => cylinderFace_vertices f
  · intro f hf p hp
    obtain ⟨g, _, rfl⟩ := List.mem_map.1 hf
    exact cylinderFace_id (congr g p hp)
  · refine check_idsOf ?_ fun i => ?_
    · have h8 : (2 : ℕ) ^ 3 ≤ 2 ^ w := Nat.pow_le_pow_right (by norm_num) hw
      intro i hi
      have : ∀ i ∈ named (registrations cylinderBoundaries), i < 8 := by decide
      exact lt_of_lt_of_le (this i hi) h8
    · have hn : i ∈ named (registrations cylinderBoundaries) ↔ ∃ p : CylinderPart, p.id = i := by
        have : named (registrations cylinderBoundaries) = [1, 2, 3, 4, 0] := by decide
        rw [this]
        constructor
        · intro h
          simp only [List.mem_cons, List.not_mem_nil, or_false] at h
          rcases h with rfl | rfl | rfl | rfl | rfl
          exacts [⟨.left, rfl⟩, ⟨.right, rfl⟩, ⟨.bottom, rfl⟩, ⟨.top, rfl⟩, ⟨.obstacle, rfl⟩]
        · rintro ⟨p, rfl⟩
          cases p <;> simp [CylinderPart.id]
      rw [hn]
      simp only [List.mem_map]
      constructor
      · rintro ⟨f, ⟨g, hg, rfl⟩, rfl⟩
        obtain ⟨p, hp⟩ := h1 g hg
        exact ⟨p, (cylinderFace_id hp).symm⟩
      · rintro ⟨p, rfl⟩
        obtain ⟨f, hf, hp⟩ := h2 p
        exact ⟨_, ⟨f, hf, rfl⟩, cylinderFace_id hp⟩

/-- Non-vacuity: the sides of the rectangle and a square inscribed into the circle -/
example : ∃ fs : List (Face 2), (∀ f ∈ fs, ∃ p : CylinderPart, p.Contains f) ∧ ∀ p : CylinderPart, ∃ f ∈ fs, p.Contains f := by
  have hl : CylinderPart.left.Contains ⟨[![-6, -15], ![-6, 15]], 0⟩ := by
    simp only [CylinderPart.Contains, OnPlane, Extended]; norm_num
  have hr : CylinderPart.right.Contains ⟨[![30, -15], ![30, 15]], 0⟩ := by
    simp only [CylinderPart.Contains, OnPlane, Extended]; norm_num
  have hb : CylinderPart.bottom.Contains ⟨[![-6, -15], ![30, -15]], 0⟩ := by
    simp only [CylinderPart.Contains, OnPlane, Extended]; norm_num
  have ht : CylinderPart.top.Contains ⟨[![-6, 15], ![30, 15]], 0⟩ := by
    simp only [CylinderPart.Contains, OnPlane, Extended]; norm_num
  have ho : CylinderPart.obstacle.Contains ⟨[![1, 0], ![0, 1]], 0⟩ := by
    simp only [CylinderPart.Contains]; simp
  refine ⟨[⟨[![-6, -15], ![-6, 15]], 0⟩, ⟨[![30, -15], ![30, 15]], 0⟩, ⟨[![-6, -15], ![30, -15]], 0⟩, ⟨[![-6, 15], ![30, 15]], 0⟩,
    ⟨[![1, 0], ![0, 1]], 0⟩], ?_, ?_⟩
  · intro f hf
    simp only [List.mem_cons, List.not_mem_nil, or_false] at hf
    rcases hf with rfl | rfl | rfl | rfl | rfl
    exacts [⟨_, hl⟩, ⟨_, hr⟩, ⟨_, hb⟩, ⟨_, ht⟩, ⟨_, ho⟩]
  · intro p
    cases p
    exacts [⟨_, by simp, hl⟩, ⟨_, by simp, hr⟩, ⟨_, by simp, hb⟩, ⟨_, by simp, ht⟩, ⟨_, by simp, ho⟩]

/-- **C105** On each mesh whose faces at the boundary lie on the parts of the domain around the sphere, these get the id of their part, and
the check of the boundary conditions succeeds. -/
theorem C105_sphere (w : ℕ) (hw : 3 ≤ w) (fs : List (Face 3)) (h1 : ∀ f ∈ fs, ∃ p : SpherePart, p.Contains f)
    (h2 : ∀ p : SpherePart, ∃ f ∈ fs, p.Contains f) :
    (sphereIds fs).map Face.vertices = fs.map Face.vertices ∧
    (∀ f ∈ sphereIds fs, ∀ p : SpherePart, p.Contains f → f.id = p.id) ∧
    checkBoundaryConditions w (idsOf ((sphereIds fs).map Face.id)) (history (registrations sphereBoundaries)) = true := by
  have congr : ∀ (f : Face 3) (p : SpherePart), p.Contains (sphereFace f) → p.Contains f := by
    intro f p h
    have hv := (sphereFace_vertices f).symm
    cases p
    case obstacle => simp only [SpherePart.Contains] at h ⊢; rwa [hv]
    all_goals exact ⟨onPlane_congr hv h.1, extended_congr hv h.2.1, extended_congr hv h.2.2⟩
  rw [sphereIds_eq]
  refine ⟨?_, ?_, ?_⟩
  · rw [List.map_map]
    exact List.map_congr_left fun f _ => sphereFace_vertices f
  · intro f hf p hp
    obtain ⟨g, _, rfl⟩ := List.mem_map.1 hf
    exact sphereFace_id (congr g p hp)
  · refine check_idsOf ?_ fun i => ?_
    · have h8 : (2 : ℕ) ^ 3 ≤ 2 ^ w := Nat.pow_le_pow_right (by norm_num) hw
      intro i hi
      have : ∀ i ∈ named (registrations sphereBoundaries), i < 8 := by decide
      exact lt_of_lt_of_le (this i hi) h8
    · have hn : i ∈ named (registrations sphereBoundaries) ↔ ∃ p : SpherePart, p.id = i := by
        have : named (registrations sphereBoundaries) = [2, 3, 4, 5, 6, 7, 1] := by decide
        rw [this]
        constructor
        · intro h
          simp only [List.mem_cons, List.not_mem_nil, or_false] at h
          rcases h with rfl | rfl | rfl | rfl | rfl | rfl | rfl
          exacts [⟨.inlet, rfl⟩, ⟨.outlet, rfl⟩, ⟨.back, rfl⟩, ⟨.front, rfl⟩, ⟨.bottom, rfl⟩, ⟨.top, rfl⟩, ⟨.obstacle, rfl⟩]
        · rintro ⟨p, rfl⟩
          cases p <;> simp [SpherePart.id]
      rw [hn]
      simp only [List.mem_map]
      constructor
      · rintro ⟨f, ⟨g, hg, rfl⟩, rfl⟩
        obtain ⟨p, hp⟩ := h1 g hg
        exact ⟨p, (sphereFace_id hp).symm⟩
      · rintro ⟨p, rfl⟩
        obtain ⟨f, hf, hp⟩ := h2 p
        exact ⟨_, ⟨f, hf, rfl⟩, sphereFace_id hp⟩

/-- Non-vacuity: a face on the inlet and a triangle on the sphere -/
example : SpherePart.inlet.Contains ⟨[![-2, -5, -5], ![-2, 5, -5], ![-2, -5, 5], ![-2, 5, 5]], 0⟩ ∧
    SpherePart.obstacle.Contains ⟨[![1 / 2, 0, 0], ![0, 1 / 2, 0], ![0, 0, 1 / 2]], 0⟩ := by
  constructor
  · refine ⟨?_, ⟨![-2, -5, -5], by simp, ![-2, 5, -5], by simp, ?_⟩, ⟨![-2, -5, -5], by simp, ![-2, -5, 5], by simp, ?_⟩⟩
    · intro v hv
      simp only [List.mem_cons, List.not_mem_nil, or_false] at hv
      rcases hv with rfl | rfl | rfl | rfl <;> rfl
    · show (-5 : ℝ) + 1e-9 < 5; norm_num
    · show (-5 : ℝ) + 1e-9 < 5; norm_num
  · refine ⟨by simp, fun v hv => ?_⟩
    simp only [List.mem_cons, List.not_mem_nil, or_false] at hv
    rcases hv with rfl | rfl | rfl
    · show (1 / 2 : ℝ) ^ 2 + 0 ^ 2 + 0 ^ 2 = 1 / 4; norm_num
    · show (0 : ℝ) ^ 2 + (1 / 2) ^ 2 + 0 ^ 2 = 1 / 4; norm_num
    · show (0 : ℝ) ^ 2 + 0 ^ 2 + (1 / 2) ^ 2 = 1 / 4; norm_num

/-- **C105** (partial: the outflow of the step gets an id, but no boundary condition, see below) The faces of the backward facing step get the ids
of wall, inflow and outflow, if the step is neither at the inflow nor at the outflow. -/
theorem C105_step_partial (LDomain LStep HDomain : ℝ) (hs : 1e-6 < LStep) (hd : LStep + 1e-6 < LDomain) (x : Fin 2 → ℝ)
    (hx : 1e-6 < x 1 ∧ x 1 < HDomain - 1e-6) :
    (∀ y : Fin 2 → ℝ, y 1 = 0 ∨ y 1 = HDomain ∨ y 0 = LStep → stepId LDomain LStep HDomain y 0 = 0) ∧
    (1e-6 ≤ x 0 → x 0 ≤ LDomain - 1e-6 → stepId LDomain LStep HDomain x 0 = 0) ∧
    (x 0 = 0 → stepId LDomain LStep HDomain x 0 = 1) ∧ (x 0 = LDomain → stepId LDomain LStep HDomain x 0 = 2) := by
  have hn : ¬ (|x 1| < 1e-6 ∨ |x 1 - HDomain| < 1e-6) := by
    rw [not_or, not_lt, not_lt]
    norm_num at hx ⊢
    refine ⟨le_abs.2 (Or.inl (by linarith [hx.1])), le_abs.2 (Or.inr (by linarith [hx.2]))⟩
  refine ⟨?_, ?_, ?_, ?_⟩
  · intro y hy
    unfold stepId
    rw [if_pos]
    rcases hy with h | h | h
    · left; left; rw [h]; norm_num
    · left; right; rw [h]; norm_num
    · right; rw [h]; norm_num
  · intro h0 h1
    unfold stepId
    split_ifs with a b c
    · rfl
    · rw [abs_lt] at b
      linarith [b.2]
    · rw [abs_lt] at c
      linarith [c.1]
    · rfl
  · intro h
    unfold stepId
    rw [if_neg, if_pos]
    · rw [h]; norm_num
    · rintro (h1 | h1)
      · exact hn h1
      · rw [h, abs_lt] at h1
        norm_num at h1 hs
        linarith [h1.1]
  · intro h
    unfold stepId
    rw [if_neg, if_neg, if_pos]
    · rw [h]; norm_num
    · rw [h, abs_lt]
      norm_num at hs hd ⊢
      intro _
      linarith
    · rintro (h1 | h1)
      · exact hn h1
      · rw [h, abs_lt] at h1
        norm_num at h1 hd
        linarith [h1.2]

/-- Non-vacuity -/
example : stepId 20 2 3 ![20, 1] 0 = 2 ∧ stepId 20 2 3 ![0, 2] 0 = 1 ∧ stepId 20 2 3 ![2, 1 / 2] 0 = 0 ∧ stepId 20 2 3 ![1, 1] 0 = 0 := by
  refine ⟨(C105_step_partial 20 2 3 (by norm_num) (by norm_num) ![20, 1] (by norm_num)).2.2.2 rfl,
    (C105_step_partial 20 2 3 (by norm_num) (by norm_num) ![0, 2] (by norm_num)).2.2.1 rfl,
    (C105_step_partial 20 2 3 (by norm_num) (by norm_num) ![0, 2] (by norm_num)).1 _ (Or.inr (Or.inr rfl)), ?_⟩
  unfold stepId
  norm_num

/-- **C105** fails: on each mesh of the backward facing step with an outflow, the check of the boundary conditions fails, since no boundary
condition is registered for the id that the outflow gets. -/
theorem C105_step_fails (w : ℕ) (hw : 1 ≤ w) (LDomain LStep HDomain : ℝ) (hs : 1e-6 < LStep) (hd : LStep + 1e-6 < LDomain)
    (centers : List (Fin 2 → ℝ)) (h : ∃ x ∈ centers, x 0 = LDomain ∧ 1e-6 < x 1 ∧ x 1 < HDomain - 1e-6) :
    checkBoundaryConditions w (idsOf (centers.map fun x => stepId LDomain LStep HDomain x 0)) (history (registrations stepBoundaries)) = false ∧
    getBoundary 2 (history (registrations stepBoundaries)) = .error .collection := by
  obtain ⟨x, hx, h0, h1⟩ := h
  have h2 : getBoundary 2 (history (registrations stepBoundaries)) = .error .collection := by decide
  refine ⟨?_, h2⟩
  by_contra hc
  rw [Bool.not_eq_false] at hc
  have hn : ∀ i ∈ named (registrations stepBoundaries), i < 2 ^ w := by
    have h8 : (2 : ℕ) ^ 1 ≤ 2 ^ w := Nat.pow_le_pow_right (by norm_num) hw
    intro i hi
    have : ∀ i ∈ named (registrations stepBoundaries), i < 2 := by decide
    exact lt_of_lt_of_le (this i hi) h8
  rw [C51_partial w _ (by unfold idsOf; exact Finset.sort_nodup _ _) _ hn] at hc
  obtain ⟨b, hb⟩ := (hc 2).1 (by
    unfold idsOf
    rw [Finset.mem_sort, List.mem_toFinset, List.mem_map]
    exact ⟨x, hx, (C105_step_partial LDomain LStep HDomain hs hd x h1).2.2.2 h0⟩)
  rw [h2] at hb
  exact absurd hb (by simp)

/-- Non-vacuity -/
example : ∃ x ∈ [(![20, 1] : Fin 2 → ℝ)], x 0 = 20 ∧ 1e-6 < x 1 ∧ x 1 < 3 - 1e-6 := ⟨![20, 1], by simp, by norm_num⟩

end FlowMeshes
end NATriuM
