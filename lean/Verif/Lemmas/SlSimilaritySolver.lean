import Verif.Lemmas.SlSimilarity
import Verif.Lemmas.SimilarityAdvection
import Verif.Model.BoundaryHit

/-!
# Lemmas: the parts of the semi-Lagrangian solver, and the lists of hits, in other units
-/

namespace NATriuM

open Finset

namespace SlSolver

variable {t : StencilType} {K : Type*} [Field K] [LinearOrder K] {m n N : ℕ} {C : Type*} {L V : K}

/-- all degrees of freedom in the new units -/
noncomputable def transformNodes (v : ℝ) (x : Fin N → Node ℝ t.D t.Q) : Fin N → Node ℝ t.D t.Q := fun y => { x y with u := fun a => v * (x y).u a }

theorem node_identity (v : ℝ) (x : Node ℝ t.D t.Q) : (StencilType.Symmetry.identity t).node v x = { x with u := fun a => v * x.u a } := by
  refine Node.ext rfl rfl ?_
  funext a
  show v * (1 * x.u a) = v * x.u a
  rw [one_mul]

theorem collisionConfig_identity (l v : ℝ) (cfg : CollisionConfig t.D) :
    (StencilType.Symmetry.identity t).collisionConfig l v cfg = { cfg with force := cfg.force.map fun F a => v * v / l * F a } := by
  unfold StencilType.Symmetry.collisionConfig
  have : (fun (F : Fin t.D → ℝ) a => v * v / l * (StencilType.Symmetry.identity t).vector F a) = fun F a => v * v / l * F a := by
    funext F a
    show v * v / l * (1 * F a) = _
    rw [one_mul]
  rw [this]

omit [LinearOrder K] in
theorem populations_transform (v : ℝ) (x : Fin N → Node ℝ t.D t.Q) : populations (transformNodes v x) = populations x := rfl

omit [LinearOrder K] in
theorem hits_transform (hL : L ≠ 0) (b : Fin (m + 2) → K) (s : Setup t K m n N C) (hk : s.toReal (L / V) ≠ 0) (time : ℝ)
    (old new : Walls.Store ℝ t.Q (Fin N)) :
    applyBoundaryConditions (transform L V b s) (s.toReal (L / V) * time) old new = applyBoundaryConditions s time old new := by
  unfold applyBoundaryConditions
  show ((s.assembly.hits.map fun h => (Paths.moveTracker L b h.1, h.2)).foldl _ new) = _
  rw [List.foldl_map]
  congr 1
  funext f hit
  show s.applyHit (s.toReal (L / V) * time / s.toReal (L / V)) (Paths.moveTrackerBack L b (Paths.moveTracker L b hit.1), hit.2) old f = _
  rw [Paths.moveTrackerBack_moveTracker hL, mul_div_cancel_left₀ _ hk]

theorem advect_transform (hL : L ≠ 0) (b : Fin (m + 2) → K) (s : Setup t K m n N C) (hk : s.toReal (L / V) ≠ 0) (v time : ℝ)
    (x : Fin N → Node ℝ t.D t.Q) :
    advect (transform L V b s) (s.toReal (L / V) * time) (transformNodes v x) = transformNodes v (advect s time x) := by
  unfold advect
  rw [populations_transform, hits_transform hL b s hk]
  rfl

theorem parts_correspond (hL : L ≠ 0) (hV : V ≠ 0) (b : Fin (m + 2) → K) (s : Setup t K m n N C) (hl : 0 < s.toReal L) (hv : 0 < s.toReal V)
    (hc : s.c ≠ 0) : Solver.Corresponds (parts s) (parts (transform L V b s)) (transformNodes (s.toReal V)) (fun u a y => s.toReal V * u a y)
      (s.toReal (L / V)) (s.toReal V) := by
  have hkd : s.toReal (L / V) = s.toReal L / s.toReal V := map_div₀ s.toReal L V
  have hk : s.toReal (L / V) ≠ 0 := by rw [hkd]; exact (div_pos hl hv).ne'
  refine ⟨rfl, fun _ time x => ?_, fun _ _ _ => rfl, fun x => rfl, fun x => ?_, fun i time x => ?_, fun _ => rfl, fun _ => rfl, ?_, fun v w y => ?_⟩
  · exact congrArg Except.ok (advect_transform hL b s hk _ time x)
  · have := StencilType.Symmetry.isothermalCollide_corresponds (ν := s.viscosity) (dt := s.dt) (StencilType.Symmetry.identity t) hl.ne' hv.ne' hc
      s.collision (fun _ tau relax h d d' feq f => ?_) false (List.finRange N) x
    · simp only [node_identity, collisionConfig_identity] at this
      rw [← hkd] at this
      exact this
    · cases t
      case D2Q9 => revert h; cases s.collision.mrtBasis <;> cases s.collision.relaxMode <;> intro h <;> cases h <;> rfl
      case D3Q19 =>
        obtain ⟨-, -, omega, -, rfl, -⟩ := mrt19_cases h
        rfl
      all_goals cases h
  · show (s.processors.map _).foldl _ _ = transformNodes (s.toReal V) (s.processors.foldl _ _)
    induction s.processors generalizing x with
    | nil => rfl
    | cons q l ih =>
      rw [List.map_cons, List.foldl_cons, List.foldl_cons, ← ih]
      congr 1
      funext y
      beta_reduce
      rw [node_identity, mul_div_cancel_left₀ _ hk]
      have hx : (fun y => (StencilType.Symmetry.identity t).nodeBack (s.toReal V) (transformNodes (s.toReal V) x y)) = x := by
        funext y
        rw [show transformNodes (s.toReal V) x y = (StencilType.Symmetry.identity t).node (s.toReal V) (x y) from (node_identity _ _).symm]
        exact SedgSolver.nodeBack_node hv.ne' (x y)
      rw [hx]
      rfl
  · funext a y
    exact mul_zero _
  · rw [mul_sum]
    exact sum_congr rfl fun a _ => by ring

end SlSolver

namespace Hits

variable {K : Type*} [Field K] [LinearOrder K] {d : ℕ} {α : Type*}

theorem pointComp_symm (l r : Fin d → K) : pointComp l r = pointComp r l := by
  unfold pointComp
  congr 2
  exact sum_congr rfl fun a _ => by ring

theorem tree_nil {β : Type*} {t : Tree β} (h : t.toList = []) : t = .leaf := by
  cases t with
  | leaf => rfl
  | node l x r => simp [Tree.toList] at h

theorem tree_single {β : Type*} {t : Tree β} {e : β} (h : t.toList = [e]) : t = .node .leaf e .leaf := by
  cases t with
  | leaf => cases h
  | node l x r =>
    simp only [Tree.toList] at h
    cases hl : l.toList with
    | nil =>
      rw [hl, List.nil_append, List.cons.injEq] at h
      rw [tree_nil hl, tree_nil h.2, h.1]
    | cons z zs =>
      rw [hl, List.cons_append, List.cons.injEq] at h
      exact absurd h.2 (by simp)

theorem add_first (shape : List (Entry K d α) → Tree (Entry K d α)) (hshape : ∀ l, (shape l).toList = l) (h : Hit K d α) :
    addToCell shape [] h = [⟨h.point, [h]⟩] := by
  unfold addToCell
  rw [tree_nil (hshape [])]
  rfl

theorem add_far (shape : List (Entry K d α) → Tree (Entry K d α)) (hshape : ∀ l, (shape l).toList = l) (h h' : Hit K d α)
    (hf : pointComp h.point h'.point = false) : addToCell shape [⟨h.point, [h]⟩] h' = [⟨h.point, [h, h']⟩] := by
  have hf' : pointComp h'.point h.point = false := (pointComp_symm _ _).trans hf
  unfold addToCell
  rw [tree_single (hshape _)]
  simp [find, Tree.descend, Tree.toList, hf, hf', push]

theorem add_near (shape : List (Entry K d α) → Tree (Entry K d α)) (hshape : ∀ l, (shape l).toList = l) (h h' : Hit K d α)
    (hf : pointComp h.point h'.point = true) : addToCell shape [⟨h.point, [h]⟩] h' = [⟨h'.point, [h']⟩, ⟨h.point, [h]⟩] := by
  have hf' : pointComp h'.point h.point = true := (pointComp_symm _ _).trans hf
  unfold addToCell
  rw [tree_single (hshape _)]
  simp [find, insert, Tree.descend, Tree.toList, hf, hf', push]

end Hits
end NATriuM
