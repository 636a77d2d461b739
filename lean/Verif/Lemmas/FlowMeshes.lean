import Verif.Spec.FlowMeshes
import Verif.Props.Problem
import Mathlib.Tactic.FinCases
import Mathlib.Tactic.Linarith
import Mathlib.Tactic.NormNum
import Mathlib.Tactic.Positivity

/-!
# Lemmas about the meshes and boundaries of the flow problems
-/

namespace NATriuM
namespace FlowMeshes

open Problem

variable {d : ℕ}

/-- The ids are those of `colorize`. -/
def Plain (m : BoxMesh d) : Prop := (∀ a, 0 < m.reps a) ∧ ∀ a u, m.colour a u = 2 * a + u.toNat

theorem subdivided_plain {reps : Fin d → ℕ} {m : BoxMesh d} (h : subdivided reps = .ok m) : Plain m := by
  unfold subdivided at h
  split_ifs at h with h1
  injection h with h
  subst h
  exact ⟨h1, fun _ _ => rfl⟩

theorem fourFaces_plain : Plain (singleCell fourFaces : BoxMesh 2) := by
  refine ⟨fun _ => Nat.one_pos, ?_⟩
  simp only [singleCell, fourFaces]
  decide +kernel

theorem sixFaces_plain : Plain (singleCell [(0, 0), (1, 1), (2, 2), (3, 3), (4, 4), (5, 5)] : BoxMesh 3) := by
  refine ⟨fun _ => Nat.one_pos, ?_⟩
  simp only [singleCell]
  decide +kernel

theorem id_eq {m : BoxMesh d} (hm : Plain m) (f : BoxFace d) : m.id f = 2 * f.axis + f.upper.toNat := hm.2 _ _

/-- A face on each side -/
theorem side_exists {m : BoxMesh d} (hm : Plain m) (a : Fin d) (u : Bool) : ∃ f, m.AtBoundary f ∧ f.axis = a ∧ f.upper = u := by
  refine ⟨⟨fun b => if b = a ∧ u then m.reps b - 1 else 0, a, u⟩, ⟨fun b => ?_, ?_⟩, rfl, rfl⟩
  · have := hm.1 b
    dsimp only
    split_ifs <;> omega
  · have := hm.1 a
    cases u <;> simp
    omega

theorem exists_face_iff {m : BoxMesh d} (hm : Plain m) (i : ℕ) : (∃ f, m.AtBoundary f ∧ m.id f = i) ↔ i < 2 * d := by
  constructor
  · rintro ⟨f, _, rfl⟩
    rw [id_eq hm]
    have h1 := f.axis.isLt
    have h2 := Bool.toNat_lt f.upper
    omega
  · intro h
    obtain ⟨f, h1, h2, h3⟩ := side_exists hm ⟨i / 2, by omega⟩ (decide (i % 2 = 1))
    refine ⟨f, h1, ?_⟩
    rw [id_eq hm, h2, h3]
    dsimp only
    by_cases hi : i % 2 = 1
    · rw [decide_eq_true hi, Bool.toNat_true]; omega
    · rw [decide_eq_false hi, Bool.toNat_false]; omega

theorem mem_boundaryIds (m : BoxMesh d) (i : ℕ) : i ∈ m.boundaryIds ↔ ∃ f, m.AtBoundary f ∧ m.id f = i := by
  unfold BoxMesh.boundaryIds
  rw [Finset.mem_sort, Finset.mem_image]
  constructor
  · rintro ⟨x, hx, rfl⟩
    exact ⟨⟨x.1, x.2.1, x.2.2⟩, (Finset.mem_filter.1 hx).2, rfl⟩
  · rintro ⟨f, hf, rfl⟩
    refine ⟨(f.cell, f.axis, f.upper), Finset.mem_filter.2 ⟨?_, hf⟩, rfl⟩
    simp only [Finset.mem_product, Fintype.mem_piFinset, Finset.mem_range, Finset.mem_univ, and_true]
    exact hf.1

theorem boundaryIds_nodup (m : BoxMesh d) : m.boundaryIds.Nodup := Finset.sort_nodup _ _

theorem opposite {m : BoxMesh d} (hm : Plain m) (dir : Fin d) : Opposite m (2 * dir) (2 * dir + 1) dir := by
  have hid : ∀ (f : BoxFace d) (u : Bool), m.id f = 2 * dir + u.toNat ↔ f.axis = dir ∧ f.upper = u := by
    intro f u
    rw [id_eq hm]
    have h1 := Bool.toNat_lt f.upper
    have h2 := Bool.toNat_lt u
    constructor
    · intro h
      have h3 : f.upper.toNat = u.toNat := by omega
      refine ⟨Fin.ext (by omega), ?_⟩
      revert h3
      generalize f.upper = w
      cases w <;> cases u <;> simp
    · rintro ⟨rfl, rfl⟩; rfl
  have hlow : ∀ f : BoxFace d, m.id f = 2 * dir ↔ f.axis = dir ∧ f.upper = false := fun f => hid f false
  have hup : ∀ f : BoxFace d, m.id f = 2 * dir + 1 ↔ f.axis = dir ∧ f.upper = true := fun f => hid f true
  have hpos := hm.1 dir
  refine ⟨fun f _ => hlow f, fun f _ => hup f, ?_, ?_⟩
  · intro f hf hfi
    obtain ⟨c, a, u⟩ := f
    obtain ⟨h1, h2⟩ := (hlow _).1 hfi
    dsimp only at h1 h2
    subst h1 h2
    refine ⟨⟨Function.update c a (m.reps a - 1), a, true⟩, ⟨⟨fun b => ?_, ?_⟩, (hup _).2 ⟨rfl, rfl⟩, fun b hb => ?_⟩, ?_⟩
    · by_cases hb : b = a
      · subst hb; simp; omega
      · simpa [Function.update_of_ne hb] using hf.1 b
    · simp; omega
    · simp [Function.update_of_ne hb]
    · rintro ⟨c', a', u'⟩ ⟨⟨h3, h4⟩, h5, h6⟩
      obtain ⟨h7, h8⟩ := (hup _).1 h5
      dsimp only at h3 h4 h6 h7 h8
      subst h7 h8
      simp only [if_true] at h4
      congr 1
      funext b
      by_cases hb : b = a'
      · subst hb; simp; omega
      · rw [Function.update_of_ne hb]; exact h6 b hb
  · intro f hf hfi
    obtain ⟨c, a, u⟩ := f
    obtain ⟨h1, h2⟩ := (hup _).1 hfi
    dsimp only at h1 h2
    subst h1 h2
    refine ⟨⟨Function.update c a 0, a, false⟩, ⟨⟨fun b => ?_, ?_⟩, (hlow _).2 ⟨rfl, rfl⟩, fun b hb => ?_⟩, ?_⟩
    · by_cases hb : b = a
      · subst hb; simp; omega
      · simpa [Function.update_of_ne hb] using hf.1 b
    · simp
    · simp [Function.update_of_ne hb]
    · rintro ⟨c', a', u'⟩ ⟨⟨h3, h4⟩, h5, h6⟩
      obtain ⟨h7, h8⟩ := (hlow _).1 h5
      dsimp only at h3 h4 h6 h7 h8
      subst h7 h8
      simp only [Bool.false_eq_true, if_false] at h4
      congr 1
      funext b
      by_cases hb : b = a'
      · subst hb; simp; omega
      · rw [Function.update_of_ne hb]; exact h6 b hb

/-! ## Registrations -/

theorem registered_iff (rs : List Registration) (i : ℕ) : (∃ b, getBoundary i (history rs) = .ok b) ↔ i ∈ named rs := by
  rw [← not_iff_not, ← (C45_unknown rs i).1]
  rcases h : getBoundary i (history rs) with ⟨⟨⟩⟩ | b <;> simp

theorem allFresh_of_nodup (rs : List Registration) (h : (named rs).Nodup) : AllFresh rs := by
  intro pre c post hrs
  subst hrs
  have h1 : named (pre ++ c :: post) = named pre ++ (c.wants.map Prod.fst ++ named post) := by simp [named]
  rw [h1, List.nodup_append] at h
  obtain ⟨_, h2, h3⟩ := h
  rw [List.nodup_append] at h2
  exact ⟨h2.1, fun i hi hp => h3 i hp i (List.mem_append_left _ hi) rfl⟩

/-- What there is to check of a list of boundaries for a box -/
def Good (d : ℕ) (rs : List Reg) : Prop :=
  (named (registrations rs)).Nodup ∧ (∀ i, i ∈ named (registrations rs) ↔ i < 2 * d) ∧
    ∀ i1 i2 dir, Reg.periodic i1 i2 dir ∈ rs → dir < d ∧ i1 = 2 * dir ∧ i2 = 2 * dir + 1

theorem fits {m : BoxMesh d} (hm : Plain m) {rs : List Reg} (h : Good d rs) : Fits m rs := by
  refine ⟨fun i => ?_, allFresh_of_nodup _ h.1, fun i1 i2 dir hr => ?_⟩
  · rw [exists_face_iff hm, registered_iff, h.2.1]
  · obtain ⟨h1, rfl, rfl⟩ := h.2.2 i1 i2 dir hr
    exact ⟨h1, opposite hm ⟨dir, h1⟩⟩

theorem good2 {rs : List Reg} (h1 : (named (registrations rs)).Nodup) (h2 : ∀ i ∈ named (registrations rs), i < 4)
    (h3 : (∀ i < 4, i ∈ named (registrations rs)))
    (h4 : ∀ r ∈ rs, r = .periodic 0 1 0 ∨ r = .periodic 2 3 1 ∨ ∃ i < 4, r = .other i) : Good 2 rs := by
  refine ⟨h1, fun i => ⟨h2 i, h3 i⟩, fun i1 i2 dir hr => ?_⟩
  rcases h4 _ hr with h | h | ⟨i, _, h⟩
  · injection h with a b c; subst a b c; simp
  · injection h with a b c; subst a b c; simp
  · exact absurd h (by simp)

theorem good3 {rs : List Reg} (h1 : (named (registrations rs)).Nodup) (h2 : ∀ i ∈ named (registrations rs), i < 6)
    (h3 : (∀ i < 6, i ∈ named (registrations rs)))
    (h4 : ∀ r ∈ rs, r = .periodic 0 1 0 ∨ r = .periodic 2 3 1 ∨ r = .periodic 4 5 2 ∨ ∃ i < 6, r = .other i) : Good 3 rs := by
  refine ⟨h1, fun i => ⟨h2 i, h3 i⟩, fun i1 i2 dir hr => ?_⟩
  rcases h4 _ hr with h | h | h | ⟨i, _, h⟩
  · injection h with a b c; subst a b c; simp
  · injection h with a b c; subst a b c; simp
  · injection h with a b c; subst a b c; simp
  · exact absurd h (by simp)

theorem flow2_plain {p : Flow2} {m : BoxMesh 2} (h : p.makeGrid = .ok m) : Plain m := by
  cases p <;> simp only [Flow2.makeGrid] at h <;>
    first
    | exact subdivided_plain h
    | (injection h with h; subst h; exact fourFaces_plain)
    | (split_ifs at h; unfold columns at h; split at h <;> first | exact subdivided_plain h | exact absurd h (by simp))

theorem flow3_plain {p : Flow3} {m : BoxMesh 3} (h : p.makeGrid = .ok m) : Plain m := by
  cases p <;> simp only [Flow3.makeGrid] at h <;>
    first
    | exact subdivided_plain h
    | (injection h with h; subst h; exact sixFaces_plain)

theorem flow2_good {p : Flow2} {rs : List Reg} (h : p.makeBoundaries = .ok rs) : Good 2 rs := by
  cases p <;> simp only [Flow2.makeBoundaries] at h <;>
    first
    | (injection h with h; subst h; exact good2 (by decide) (by decide) (by decide) (by decide))
    | (split_ifs at h; injection h with h; subst h; exact good2 (by decide) (by decide) (by decide) (by decide))

theorem flow3_good {p : Flow3} {rs : List Reg} (h : p.makeBoundaries = .ok rs) (hp : ∀ reps, p ≠ .turbulentChannel reps false) :
    Good 3 rs := by
  cases p with
  | turbulentChannel reps per =>
    cases per with
    | false => exact absurd rfl (hp reps)
    | true =>
      simp only [Flow3.makeBoundaries, if_true] at h
      injection h with h; subst h; exact good3 (by decide) (by decide) (by decide) (by decide)
  | _ =>
    simp only [Flow3.makeBoundaries] at h
    first
    | (injection h with h; subst h; exact good3 (by decide) (by decide) (by decide) (by decide))
    | (split_ifs at h; injection h with h; subst h; exact good3 (by decide) (by decide) (by decide) (by decide))

theorem construct2_ok {p : Flow2} {m : BoxMesh 2} {rs : List Reg} (h : p.construct = .ok (m, rs)) :
    p.makeGrid = .ok m ∧ p.makeBoundaries = .ok rs := by
  unfold Flow2.construct at h
  split at h
  · exact absurd h (by simp)
  · split at h
    · exact absurd h (by simp)
    · rename_i _ h1 _ _ h2
      injection h with h
      injection h with h3 h4
      subst h3 h4
      exact ⟨h1, h2⟩

theorem construct3_ok {p : Flow3} {m : BoxMesh 3} {rs : List Reg} (h : p.construct = .ok (m, rs)) :
    p.makeGrid = .ok m ∧ p.makeBoundaries = .ok rs := by
  unfold Flow3.construct at h
  split at h
  · exact absurd h (by simp)
  · split at h
    · exact absurd h (by simp)
    · rename_i _ h1 _ _ h2
      injection h with h
      injection h with h3 h4
      subst h3 h4
      exact ⟨h1, h2⟩

/-! ## Positions -/

theorem atHyperplane_id (c : Fin d) (x : ℝ) (i : ℕ) (tol : ℝ) (f : Face d) :
    ((∀ v ∈ f.vertices, |v c - x| < tol) → (f.atHyperplane c x i tol).id = i) ∧
    ((∃ v ∈ f.vertices, tol ≤ |v c - x|) → (f.atHyperplane c x i tol).id = f.id) ∧
    (f.atHyperplane c x i tol).vertices = f.vertices := by
  classical
  have key : (f.vertices.any fun v => decide (v c ≥ x + tol ∨ v c ≤ x - tol)) = true ↔ ∃ v ∈ f.vertices, tol ≤ |v c - x| := by
    rw [List.any_eq_true]
    refine exists_congr fun v => and_congr_right fun _ => ?_
    rw [decide_eq_true_eq, le_abs']
    constructor
    · rintro (h | h)
      · right; linarith
      · left; linarith
    · rintro (h | h)
      · right; linarith
      · left; linarith
  refine ⟨fun h => ?_, fun h => ?_, ?_⟩
  · unfold Face.atHyperplane
    rw [if_neg]
    intro hc
    obtain ⟨v, hv, h1⟩ := key.1 (by convert hc)
    exact absurd (h v hv) (not_lt.2 h1)
  · unfold Face.atHyperplane
    rw [if_pos]
    have := key.2 h
    convert this
  · unfold Face.atHyperplane
    split_ifs <;> rfl

theorem planeTol_pos : 0 < planeTol := by unfold planeTol; norm_num

theorem onPlane_id {c : Fin d} {x : ℝ} (i : ℕ) {f : Face d} (h : OnPlane c x f) : (f.atHyperplane c x i planeTol).id = i :=
  (atHyperplane_id c x i planeTol f).1 fun v hv => by rw [h v hv, sub_self, abs_zero]; exact planeTol_pos

theorem extended_id {c : Fin d} (x : ℝ) (i : ℕ) {f : Face d} (h : Extended c f) : (f.atHyperplane c x i planeTol).id = f.id := by
  refine (atHyperplane_id c x i planeTol f).2.1 ?_
  obtain ⟨v, hv, w, hw, h⟩ := h
  by_contra hc
  push Not at hc
  have h1 := hc v hv
  have h2 := hc w hw
  rw [abs_lt] at h1 h2
  have h3 : planeTol = 1e-10 := rfl
  rw [h3] at h1 h2
  norm_num at h h1 h2
  linarith [h1.1, h2.2]

theorem vertices_eq (c : Fin d) (x : ℝ) (i : ℕ) (f : Face d) : (f.atHyperplane c x i planeTol).vertices = f.vertices :=
  (atHyperplane_id c x i planeTol f).2.2

/-- A face with a vertex away from the plane keeps its id. -/
theorem away_id {c : Fin d} {x : ℝ} (i : ℕ) {f : Face d} (h : ∃ v ∈ f.vertices, 1 ≤ |v c - x|) :
    (f.atHyperplane c x i planeTol).id = f.id := by
  refine (atHyperplane_id c x i planeTol f).2.1 ?_
  obtain ⟨v, hv, h⟩ := h
  exact ⟨v, hv, le_trans (by unfold planeTol; norm_num) h⟩

/-! ## Obstacles -/

theorem innerCircle_keep {f : Face 2} (h : ∃ v ∈ f.vertices, 4 ≤ v 0 ^ 2 + v 1 ^ 2) : (f.innerCircle 1 0 1e-10).id = f.id := by
  unfold Face.innerCircle
  rw [if_pos]
  rw [List.any_eq_true]
  obtain ⟨v, hv, h⟩ := h
  refine ⟨v, hv, ?_⟩
  rw [decide_eq_true_eq, ge_iff_le]
  refine Real.le_sqrt_of_sq_le (le_trans ?_ h)
  norm_num

theorem innerCircle_set {f : Face 2} (h : ∀ v ∈ f.vertices, v 0 ^ 2 + v 1 ^ 2 = 1) : (f.innerCircle 1 0 1e-10).id = 0 := by
  unfold Face.innerCircle
  rw [if_neg, if_pos (le_refl _)]
  · rfl
  · rw [List.any_eq_true]
    rintro ⟨v, hv, h1⟩
    rw [decide_eq_true_eq, h v hv, Real.sqrt_one] at h1
    norm_num at h1

theorem innerCircle_vertices (f : Face 2) : (f.innerCircle 1 0 1e-10).vertices = f.vertices := by
  unfold Face.innerCircle
  split_ifs <;> rfl

theorem innerSphere_keep {f : Face 3} (h : ∃ v ∈ f.vertices, 4 ≤ v 0 ^ 2 + v 1 ^ 2 + v 2 ^ 2) : (f.innerSphere 1).id = f.id := by
  unfold Face.innerSphere
  rw [if_pos]
  rw [List.any_eq_true]
  obtain ⟨v, hv, h⟩ := h
  refine ⟨v, hv, ?_⟩
  rw [decide_eq_true_eq, gt_iff_lt, lt_abs]
  left
  norm_num
  linarith

theorem innerSphere_set {f : Face 3} (h : ∀ v ∈ f.vertices, v 0 ^ 2 + v 1 ^ 2 + v 2 ^ 2 = 1 / 4) : (f.innerSphere 1).id = 1 := by
  unfold Face.innerSphere
  rw [if_neg, if_pos (by norm_num)]
  · rfl
  · rw [List.any_eq_true]
    rintro ⟨v, hv, h1⟩
    rw [decide_eq_true_eq, h v hv] at h1
    norm_num at h1

theorem innerSphere_vertices (f : Face 3) : (f.innerSphere 1).vertices = f.vertices := by
  unfold Face.innerSphere
  split_ifs <;> rfl

/-- The composition of the loops for one face -/
noncomputable def cylinderFace (f : Face 2) : Face 2 :=
  Face.innerCircle 1 0 1e-10 (Face.atHyperplane 1 15 4 planeTol (Face.atHyperplane 1 (-15) 3 planeTol
    (Face.atHyperplane 0 30 2 planeTol (Face.atHyperplane 0 (-6) 1 planeTol f))))

theorem cylinderIds_eq (fs : List (Face 2)) : cylinderIds fs = fs.map cylinderFace := by
  unfold cylinderIds setIdsAtHyperplane
  simp only [List.map_map]
  rfl

/-- The composition of the loops for one face -/
noncomputable def sphereFace (f : Face 3) : Face 3 :=
  Face.innerSphere 1 (Face.atHyperplane 2 5 7 planeTol (Face.atHyperplane 2 (-5) 6 planeTol (Face.atHyperplane 1 5 5 planeTol
    (Face.atHyperplane 1 (-5) 4 planeTol (Face.atHyperplane 0 8 3 planeTol (Face.atHyperplane 0 (-2) 2 planeTol f))))))

theorem sphereIds_eq (fs : List (Face 3)) : sphereIds fs = fs.map sphereFace := by
  unfold sphereIds setIdsAtHyperplane
  simp only [List.map_map]
  rfl

theorem cylinderFace_vertices (f : Face 2) : (cylinderFace f).vertices = f.vertices := by
  simp only [cylinderFace, innerCircle_vertices, vertices_eq]

theorem sphereFace_vertices (f : Face 3) : (sphereFace f).vertices = f.vertices := by
  simp only [sphereFace, innerSphere_vertices, vertices_eq]

theorem extended_congr {c : Fin d} {f g : Face d} (hv : g.vertices = f.vertices) (h : Extended c f) : Extended c g := by
  unfold Extended at *; rwa [hv]

theorem onPlane_congr {c : Fin d} {x : ℝ} {f g : Face d} (hv : g.vertices = f.vertices) (h : OnPlane c x f) : OnPlane c x g := by
  unfold OnPlane at *; rwa [hv]

theorem extended_nonempty {c : Fin d} {f : Face d} (h : Extended c f) : ∃ v, v ∈ f.vertices := by
  obtain ⟨v, hv, _⟩ := h
  exact ⟨v, hv⟩

/-- A face on a plane is away from a parallel plane. -/
theorem onPlane_away {c : Fin d} {x y : ℝ} (i : ℕ) {f : Face d} (h : OnPlane c x f) (hne : ∃ v, v ∈ f.vertices) (hxy : 1 ≤ |x - y|) :
    (f.atHyperplane c y i planeTol).id = f.id := by
  obtain ⟨v, hv⟩ := hne
  exact away_id i ⟨v, hv, by rwa [h v hv]⟩

theorem cylinderFace_id {f : Face 2} {p : CylinderPart} (h : p.Contains f) : (cylinderFace f).id = p.id := by
  unfold cylinderFace
  cases p with
  | left =>
    obtain ⟨h1, h2⟩ := h
    obtain ⟨v, hv⟩ := extended_nonempty h2
    rw [innerCircle_keep, extended_id, extended_id, onPlane_away (x := -6), onPlane_id 1 h1]
    · rfl
    · exact onPlane_congr (by simp only [vertices_eq]) h1
    · simp only [vertices_eq]; exact ⟨v, hv⟩
    · norm_num
    · exact extended_congr (by simp only [vertices_eq]) h2
    · exact extended_congr (by simp only [vertices_eq]) h2
    · simp only [vertices_eq]
      exact ⟨v, hv, by rw [h1 v hv]; nlinarith [sq_nonneg (v 1)]⟩
  | right =>
    obtain ⟨h1, h2⟩ := h
    obtain ⟨v, hv⟩ := extended_nonempty h2
    rw [innerCircle_keep, extended_id, extended_id, onPlane_id 2]
    · rfl
    · exact onPlane_congr (by simp only [vertices_eq]) h1
    · exact extended_congr (by simp only [vertices_eq]) h2
    · exact extended_congr (by simp only [vertices_eq]) h2
    · simp only [vertices_eq]
      exact ⟨v, hv, by rw [h1 v hv]; nlinarith [sq_nonneg (v 1)]⟩
  | bottom =>
    obtain ⟨h1, h2⟩ := h
    obtain ⟨v, hv⟩ := extended_nonempty h2
    rw [innerCircle_keep, onPlane_away (x := -15), onPlane_id 3]
    · rfl
    · exact onPlane_congr (by simp only [vertices_eq]) h1
    · exact onPlane_congr (by simp only [vertices_eq]) h1
    · simp only [vertices_eq]; exact ⟨v, hv⟩
    · norm_num
    · simp only [vertices_eq]
      exact ⟨v, hv, by rw [h1 v hv]; nlinarith [sq_nonneg (v 0)]⟩
  | top =>
    obtain ⟨h1, h2⟩ := h
    obtain ⟨v, hv⟩ := extended_nonempty h2
    rw [innerCircle_keep, onPlane_id 4]
    · rfl
    · exact onPlane_congr (by simp only [vertices_eq]) h1
    · simp only [vertices_eq]
      exact ⟨v, hv, by rw [h1 v hv]; nlinarith [sq_nonneg (v 0)]⟩
  | obstacle =>
    rw [innerCircle_set]
    · rfl
    · simp only [vertices_eq]; exact h.2

theorem sphereFace_id {f : Face 3} {p : SpherePart} (h : p.Contains f) : (sphereFace f).id = p.id := by
  unfold sphereFace
  cases p with
  | inlet =>
    obtain ⟨h1, h2, h3⟩ := h
    obtain ⟨v, hv⟩ := extended_nonempty h2
    rw [innerSphere_keep, extended_id, extended_id, extended_id, extended_id, onPlane_away (x := -2), onPlane_id 2 h1]
    · rfl
    · exact onPlane_congr (by simp only [vertices_eq]) h1
    · simp only [vertices_eq]; exact ⟨v, hv⟩
    · norm_num
    · exact extended_congr (by simp only [vertices_eq]) h2
    · exact extended_congr (by simp only [vertices_eq]) h2
    · exact extended_congr (by simp only [vertices_eq]) h3
    · exact extended_congr (by simp only [vertices_eq]) h3
    · simp only [vertices_eq]
      exact ⟨v, hv, by rw [h1 v hv]; nlinarith [sq_nonneg (v 1), sq_nonneg (v 2)]⟩
  | outlet =>
    obtain ⟨h1, h2, h3⟩ := h
    obtain ⟨v, hv⟩ := extended_nonempty h2
    rw [innerSphere_keep, extended_id, extended_id, extended_id, extended_id, onPlane_id 3]
    · rfl
    · exact onPlane_congr (by simp only [vertices_eq]) h1
    · exact extended_congr (by simp only [vertices_eq]) h2
    · exact extended_congr (by simp only [vertices_eq]) h2
    · exact extended_congr (by simp only [vertices_eq]) h3
    · exact extended_congr (by simp only [vertices_eq]) h3
    · simp only [vertices_eq]
      exact ⟨v, hv, by rw [h1 v hv]; nlinarith [sq_nonneg (v 1), sq_nonneg (v 2)]⟩
  | back =>
    obtain ⟨h1, h2, h3⟩ := h
    obtain ⟨v, hv⟩ := extended_nonempty h2
    rw [innerSphere_keep, extended_id, extended_id, onPlane_away (x := -5), onPlane_id 4]
    · rfl
    · exact onPlane_congr (by simp only [vertices_eq]) h1
    · exact onPlane_congr (by simp only [vertices_eq]) h1
    · simp only [vertices_eq]; exact ⟨v, hv⟩
    · norm_num
    · exact extended_congr (by simp only [vertices_eq]) h3
    · exact extended_congr (by simp only [vertices_eq]) h3
    · simp only [vertices_eq]
      exact ⟨v, hv, by rw [h1 v hv]; nlinarith [sq_nonneg (v 0), sq_nonneg (v 2)]⟩
  | front =>
    obtain ⟨h1, h2, h3⟩ := h
    obtain ⟨v, hv⟩ := extended_nonempty h2
    rw [innerSphere_keep, extended_id, extended_id, onPlane_id 5]
    · rfl
    · exact onPlane_congr (by simp only [vertices_eq]) h1
    · exact extended_congr (by simp only [vertices_eq]) h3
    · exact extended_congr (by simp only [vertices_eq]) h3
    · simp only [vertices_eq]
      exact ⟨v, hv, by rw [h1 v hv]; nlinarith [sq_nonneg (v 0), sq_nonneg (v 2)]⟩
  | bottom =>
    obtain ⟨h1, h2, h3⟩ := h
    obtain ⟨v, hv⟩ := extended_nonempty h2
    rw [innerSphere_keep, onPlane_away (x := -5), onPlane_id 6]
    · rfl
    · exact onPlane_congr (by simp only [vertices_eq]) h1
    · exact onPlane_congr (by simp only [vertices_eq]) h1
    · simp only [vertices_eq]; exact ⟨v, hv⟩
    · norm_num
    · simp only [vertices_eq]
      exact ⟨v, hv, by rw [h1 v hv]; nlinarith [sq_nonneg (v 0), sq_nonneg (v 1)]⟩
  | top =>
    obtain ⟨h1, h2, h3⟩ := h
    obtain ⟨v, hv⟩ := extended_nonempty h2
    rw [innerSphere_keep, onPlane_id 7]
    · rfl
    · exact onPlane_congr (by simp only [vertices_eq]) h1
    · simp only [vertices_eq]
      exact ⟨v, hv, by rw [h1 v hv]; nlinarith [sq_nonneg (v 0), sq_nonneg (v 1)]⟩
  | obstacle =>
    rw [innerSphere_set]
    · rfl
    · simp only [vertices_eq]; exact h.2

/-- The check for a list of ids -/
theorem check_idsOf {w : ℕ} {ids : List ℕ} {rs : List Registration} (hw : ∀ i ∈ named rs, i < 2 ^ w) (h : ∀ i, i ∈ ids ↔ i ∈ named rs) :
    checkBoundaryConditions w (idsOf ids) (history rs) = true := by
  refine (C51_partial w _ (by unfold idsOf; exact Finset.sort_nodup _ _) rs hw).2 fun i => ?_
  rw [registered_iff, idsOf, Finset.mem_sort, List.mem_toFinset, h]

end FlowMeshes
end NATriuM
