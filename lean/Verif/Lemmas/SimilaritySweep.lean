import Verif.Lemmas.SimilarityCollision

/-!
# Lemmas: the collision step in other units and along other axes
-/

namespace NATriuM
namespace StencilType.Symmetry

open Finset

variable {t : StencilType} {y : t.Symmetry} {V : ℝ} {d d' : CollData ℝ t.D t.Q}

theorem density (f : Fin t.Q → ℝ) : calculateDensity (y.populations f) = calculateDensity f := by
  unfold calculateDensity
  rw [y.sum_perm (g := f) fun i => y.populations_perm f i]

/-- A global velocity -/
def globalU (y : t.Symmetry) (V : ℝ) (u : Fin t.D → ℝ) : Fin t.D → ℝ := fun a => V * y.vector u a

theorem Data.applyMacroscopicForces (h : y.Data V d d') (rho : ℝ) (u : Fin t.D → ℝ) :
    NATriuM.applyMacroscopicForces d' rho (y.globalU V u) = (NATriuM.applyMacroscopicForces d rho u).map (y.globalU V) := by
  unfold NATriuM.applyMacroscopicForces
  rw [h.forceType]
  cases d.forceType
  · rfl
  · refine congrArg Except.ok (funext fun j => ?_)
    have := h.force j
    simp only [globalU, vector]
    calc _ = V * (y.sign j * u (y.axes j)) + 1 / 2 * (d'.dt * d'.forces j) / rho := by ring
      _ = _ := by rw [this]; ring
  · rfl
  · rfl

theorem Data.shift (h : y.Data V d d') (hV : V ≠ 0) (k rho : ℝ) (u : Fin t.D → ℝ) (j : Fin t.D) :
    y.vector u j + k * d'.dt * d'.forces j / rho / d'.scaling = y.vector (fun j => u j + k * d.dt * d.forces j / rho / d.scaling) j := by
  have := h.force j
  simp only [vector, h.scaling]
  calc _ = y.sign j * u (y.axes j) + (k * (d'.dt * d'.forces j) / rho) / (V * d.scaling) := by ring
    _ = y.sign j * u (y.axes j) + (V * (k * (y.sign j * (d.dt * d.forces (y.axes j))) / rho)) / (V * d.scaling) := by rw [this]; ring
    _ = _ := by rw [mul_div_mul_left _ _ hV]; ring

theorem Data.applyForces (h : y.Data V d d') (hV : V ≠ 0) (m : Macro ℝ t.D) :
    NATriuM.applyForces d' (y.macro' m) = (NATriuM.applyForces d m).map y.macro' := by
  unfold NATriuM.applyForces
  rw [h.forceType]
  cases d.forceType
  · rfl
  · refine congrArg Except.ok ?_
    simp only [macro', Macro.mk.injEq, true_and, and_true]
    funext j
    rw [h.tau]
    exact h.shift hV _ _ _ j
  · rfl
  · rfl

theorem Data.postCollisionApplyForces (h : y.Data V d d') (hV : V ≠ 0) (eq : Equilibrium ℝ t.D t.Q)
    (he : ∀ m, eq d' (y.macro' m) = y.populations (eq d m)) (m : Macro ℝ t.D) (feq f : Fin t.Q → ℝ) (u : Fin t.D → ℝ) :
    NATriuM.postCollisionApplyForces eq d' (y.macro' m) (y.populations feq) (y.populations f) (y.globalU V u) =
      (NATriuM.postCollisionApplyForces eq d m feq f u).map fun x => (y.populations x.1, y.globalU V x.2) := by
  unfold NATriuM.postCollisionApplyForces
  rw [h.forceType]
  cases d.forceType
  · rfl
  · rfl
  · refine congrArg Except.ok (Prod.ext ?_ ?_)
    · funext i
      have : ({ y.macro' m with u := fun j => (y.macro' m).u j + d'.dt * d'.forces j / m.rho / d'.scaling } : Macro ℝ t.D) =
          y.macro' { m with u := fun j => m.u j + d.dt * d.forces j / m.rho / d.scaling } := by
        simp only [macro', Macro.mk.injEq, true_and, and_true]
        funext j
        have := h.shift hV 1 m.rho m.u j
        simpa only [one_mul] using this
      have e := congrFun (he { m with u := fun j => m.u j + d.dt * d.forces j / m.rho / d.scaling }) i
      rw [← this] at e
      exact congrArg (fun z => y.populations f i + (z - y.populations feq i)) e
    · funext j
      have := h.force j
      simp only [globalU, vector, macro']
      calc _ = V * (y.sign j * u (y.axes j)) + 1 / 2 * (d'.dt * d'.forces j) / m.rho := by ring
        _ = _ := by rw [this]; ring
  · rfl

theorem Data.node (h : y.Data V d d') (hV : V ≠ 0) (op : Operator ℝ t.D t.Q)
    (hv : ∀ f rho, op.velocity d' (y.populations f) rho = y.vector (op.velocity d f rho))
    (he : ∀ m, op.eq d' (y.macro' m) = y.populations (op.eq d m))
    (hr : ∀ feq f, op.relax d' (y.populations feq) (y.populations f) = y.populations (op.relax d feq f)) (hf ini : Bool) (x : Node ℝ t.D t.Q) :
    collideNode op d' hf ini (y.node V x) = (collideNode op d hf ini x).map (y.node V) := by
  have e0 : ∀ rho u, ({ rho := rho, u := y.vector u, T := 1 } : Macro ℝ t.D) = y.macro' { rho := rho, u := u, T := 1 } := fun _ _ => rfl
  have e1 : ∀ u : Fin t.D → ℝ, (fun j => y.globalU V u j / d'.scaling) = y.vector fun j => u j / d.scaling := by
    intro u
    funext j
    rw [h.scaling, globalU, vector, vector, mul_div_mul_left _ _ hV, mul_div_assoc]
  have e2 : ∀ u : Fin t.D → ℝ, (fun j => y.vector u j * d'.scaling) = y.globalU V fun j => u j * d.scaling := by
    intro u
    funext j
    rw [h.scaling, globalU, vector, vector]
    ring
  unfold collideNode
  rw [show (y.node V x).f = y.populations x.f from rfl, density, show (y.node V x).u = y.globalU V x.u from rfl]
  cases calculateDensity x.f with
  | error e => rfl
  | ok rho =>
    simp only [bind, Except.bind, pure, Except.pure, hv, e0, e1, e2]
    cases ini
    · simp only [Bool.false_eq_true, if_false]
      cases hf
      · simp only [Bool.false_eq_true, if_false, he, hr]
        rfl
      · simp only [if_true, h.applyMacroscopicForces, h.applyForces hV]
        cases NATriuM.applyMacroscopicForces d rho fun j => op.velocity d x.f rho j * d.scaling with
        | error e => rfl
        | ok ug =>
          simp only [Except.map]
          cases NATriuM.applyForces d { rho := rho, u := op.velocity d x.f rho, T := 1 } with
          | error e => rfl
          | ok m =>
            simp only [he, hr, h.postCollisionApplyForces hV op.eq he]
            cases NATriuM.postCollisionApplyForces op.eq d m (op.eq d m) (op.relax d (op.eq d m) x.f) ug with
            | error e => rfl
            | ok z => rfl
    · simp only [if_true]
      cases hf
      · simp only [Bool.false_eq_true, if_false, he, hr]
        rfl
      · simp only [if_true, he, hr, h.postCollisionApplyForces hV op.eq he]
        generalize NATriuM.postCollisionApplyForces op.eq d _ _ _ _ = z
        cases z with
        | error e => rfl
        | ok z => rfl

theorem sweep_fold {ι : Type*} [DecidableEq ι] {D Q : ℕ} {g : Node ℝ D Q → Node ℝ D Q} (hg : ∀ x, (g x).rho = x.rho)
    {step step' : Node ℝ D Q → Except CollError (Node ℝ D Q)} (h : ∀ x, step' (g x) = (step x).map g) (owned : List ι) (x : ι → Node ℝ D Q) (r : ℝ) :
    owned.foldlM (sweepStep step') { nodes := fun k => g (x k), density := r } =
      (owned.foldlM (sweepStep step) { nodes := x, density := r }).map fun s => { nodes := fun k => g (s.nodes k), density := s.density } := by
  induction owned generalizing x r with
  | nil => rfl
  | cons k ks ih =>
    rw [List.foldlM_cons, List.foldlM_cons]
    have e : sweepStep step' { nodes := fun k => g (x k), density := r } k =
        (sweepStep step { nodes := x, density := r } k).map fun s => { nodes := fun k => g (s.nodes k), density := s.density } := by
      unfold sweepStep
      simp only [h]
      cases step (x k) with
      | error e => rfl
      | ok z =>
        simp only [Except.map, hg]
        refine congrArg Except.ok ?_
        congr 1
        funext j
        by_cases hj : j = k
        · subst hj; simp
        · simp [Function.update_of_ne hj]
    rw [e]
    cases sweepStep step { nodes := x, density := r } k with
    | error e => rfl
    | ok s => exact ih s.nodes s.density

theorem sweep_all {ι : Type*} [DecidableEq ι] {D Q : ℕ} {op op' : Operator ℝ D Q} {d d' : CollData ℝ D Q} {hf ini : Bool} {g : Node ℝ D Q → Node ℝ D Q}
    (hg : ∀ x, (g x).rho = x.rho) (h : ∀ x, collideNode op' d' hf ini (g x) = (collideNode op d hf ini x).map g) (owned : List ι) (x : ι → Node ℝ D Q) :
    collideAll op' d' hf ini owned (fun k => g (x k)) = (collideAll op d hf ini owned x).map fun x k => g (x k) := by
  unfold collideAll
  rw [sweep_fold hg h]
  cases owned.foldlM (sweepStep (collideNode op d hf ini)) { nodes := x, density := 0 } with
  | error e => rfl
  | ok s =>
    simp only [Except.map, bind, Except.bind]
    split <;> rfl

end StencilType.Symmetry
end NATriuM
