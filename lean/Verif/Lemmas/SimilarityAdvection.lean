import Verif.Lemmas.SimilaritySolver

/-!
# Lemmas: advection and time integration in other units and along other axes
-/

namespace NATriuM
namespace SedgSolver

open Finset

variable {t : StencilType} {n nQ nf nq : ℕ} {C : Type*} {y : t.Symmetry} {L V : ℝ}

/-! ## The entries -/

/-- Entries times a number -/
def scaleEntry (k : ℝ) (x : Sedg.Entry ℝ n C) : Sedg.Entry ℝ n C := { x with value := k * x.value }

theorem rate_scale [DecidableEq C] (k : ℝ) (l : List (Sedg.Entry ℝ n C)) (u : C × Fin n → ℝ) (x : C × Fin n) :
    Sedg.rate (l.map (scaleEntry k)) u x = k * Sedg.rate l u x := by
  unfold Sedg.rate
  rw [List.filter_map, List.map_map]
  have : ((fun x_1 : Sedg.Entry ℝ n C => decide (x_1.row = x)) ∘ scaleEntry k) = fun x_1 => decide (x_1.row = x) := rfl
  rw [this]
  induction l.filter fun x_1 => decide (x_1.row = x) with
  | nil => simp
  | cons z l ih =>
    rw [List.map_cons, List.sum_cons, ih, List.map_cons, List.sum_cons]
    simp only [Function.comp, scaleEntry]
    ring

theorem vector_dot (v w : Fin t.D → ℝ) : ∑ a, y.vector v a * y.vector w a = ∑ a, v a * w a := by
  refine y.sum_axes fun a => ?_
  simp only [StencilType.Symmetry.vector]
  linear_combination (v (y.axes a) * w (y.axes a)) * y.sign_mul_self a

variable (m : Sedg.Mesh ℝ t.D n nQ nf nq C) (e : Fin t.D → ℝ)

theorem inverseMass_transform (c : C) (i : Fin n) : Sedg.inverseMass (transformMesh y L m) c i = Sedg.inverseMass m c i / L ^ t.D := by
  simp only [Sedg.inverseMass, Sedg.mass, transformMesh]
  rw [div_div]
  congr 1
  ring

theorem system_transform (c : C) (i j : Fin n) :
    Sedg.system (transformMesh y L m) (fun a => V * y.vector e a) c i j = V * L ^ t.D / L * Sedg.system m e c i j := by
  simp only [Sedg.system, Sedg.derivative, transformMesh]
  have h := vector_dot (y := y) (fun a => e a) (fun a => m.grad c j (m.toQ i) a)
  have e1 : ∀ a, -(V * y.vector e a) * (y.vector (m.grad c j (m.toQ i)) a / L * (m.value c i (m.toQ i) * (L ^ t.D * m.jxw c (m.toQ i)))) =
      -(V * L ^ t.D / L * (m.value c i (m.toQ i) * m.jxw c (m.toQ i))) * (y.vector e a * y.vector (m.grad c j (m.toQ i)) a) := fun a => by ring
  have e2 : ∀ a, -e a * (m.grad c j (m.toQ i) a * (m.value c i (m.toQ i) * m.jxw c (m.toQ i))) =
      -(m.value c i (m.toQ i) * m.jxw c (m.toQ i)) * (e a * m.grad c j (m.toQ i) a) := fun a => by ring
  simp only [e1, e2]
  rw [← mul_sum, ← mul_sum]
  have h' : ∑ a, y.vector e a * y.vector (m.grad c j (m.toQ i)) a = ∑ a, e a * m.grad c j (m.toQ i) a := h
  rw [h']
  ring

theorem stiffness_transform (hL : L ≠ 0) (c : C) :
    Sedg.stiffnessEntries (transformMesh y L m) (fun a => V * y.vector e a) c = (Sedg.stiffnessEntries m e c).map (scaleEntry (V / L)) := by
  unfold Sedg.stiffnessEntries
  rw [List.map_flatMap]
  congr 1
  funext j
  rw [List.map_map]
  congr 1
  funext k
  simp only [Function.comp, scaleEntry, system_transform, inverseMass_transform]
  congr 1
  have : L ^ t.D ≠ 0 := pow_ne_zero _ hL
  field_simp

theorem exn_transform (c : C) (f : Fin nf) (q : Fin nq) :
    Sedg.exn (transformMesh y L m) (fun a => V * y.vector e a) c f q = V * Sedg.exn m e c f q := by
  simp only [Sedg.exn, transformMesh]
  have h := vector_dot (y := y) (m.normal c f q) e
  have e1 : ∀ a, y.vector (m.normal c f q) a * (V * y.vector e a) = V * (y.vector (m.normal c f q) a * y.vector e a) := fun a => by ring
  simp only [e1]
  rw [← mul_sum, h]

theorem neg_mul_iff (hV : 0 < V) (x : ℝ) : V * x < 0 ↔ x < 0 := by
  constructor
  · intro h
    by_contra hx
    exact absurd (mul_nonneg hV.le (not_lt.mp hx)) (not_le.mpr h)
  · exact fun h => mul_neg_of_pos_of_neg hV h

theorem cellEntry_scale (central : Bool) (hV : 0 < V) (k p x : ℝ) : Sedg.cellEntry central (k * p) (V * x) = k * Sedg.cellEntry central p x := by
  unfold Sedg.cellEntry
  cases central
  · simp only [Bool.false_eq_true, if_false, neg_mul_iff hV]
    split <;> simp
  · simp only [if_true]; ring

theorem neighborEntry_scale (central : Bool) (hV : 0 < V) (k p x : ℝ) :
    Sedg.neighborEntry central (k * p) (V * x) = k * Sedg.neighborEntry central p x := by
  unfold Sedg.neighborEntry
  cases central
  · simp only [Bool.false_eq_true, if_false, neg_mul_iff hV]
    split <;> simp
  · simp only [if_true]; ring

theorem internalFace_transform (hL : L ≠ 0) (hV : 0 < V) (central : Bool) (c : C) (f : Fin nf) (c' : C) (f' : Fin nf) :
    Sedg.internalFaceEntries (transformMesh y L m) central (fun a => V * y.vector e a) c f c' f' =
      (Sedg.internalFaceEntries m central e c f c' f').map (scaleEntry (V / L)) := by
  unfold Sedg.internalFaceEntries
  rw [List.map_flatMap]
  congr 1
  funext q
  have hp : L ^ t.D ≠ 0 := pow_ne_zero _ hL
  have hj : (transformMesh y L m).faceJxw c f q * (V * Sedg.exn m e c f q) = (V * L ^ t.D / L) * (m.faceJxw c f q * Sedg.exn m e c f q) := by
    simp only [transformMesh]; ring
  simp only [exn_transform, hj, cellEntry_scale central hV, neighborEntry_scale central hV, inverseMass_transform, List.map_cons, List.map_nil, scaleEntry]
  have hd : ∀ f q, (transformMesh y L m).faceDof f q = m.faceDof f q := fun _ _ => rfl
  have hk : ∀ p i : ℝ, V * L ^ t.D / L * p * (i / L ^ t.D) = V / L * (p * i) := fun p i => by field_simp
  simp only [hd, hk]

theorem reassemble_transform (hL : L ≠ 0) (hV : 0 < V) (central : Bool) (cells : List C) :
    Sedg.reassemble (transformMesh y L m) central (fun a => V * y.vector e a) cells =
      (Sedg.reassemble m central e cells).map (scaleEntry (V / L)) := by
  unfold Sedg.reassemble
  rw [List.map_flatMap]
  congr 1
  funext c
  unfold Sedg.cellEntries
  rw [List.map_append, stiffness_transform m e hL]
  congr 1
  unfold Sedg.faceEntries
  rw [List.map_flatMap]
  congr 1
  funext f
  rw [show (transformMesh y L m).neighbor = m.neighbor from rfl]
  cases m.neighbor c f with
  | none => rfl
  | some z => exact internalFace_transform m e hL hV central c f z.1 z.2

/-! ## The walls -/

theorem wallEntries_transform (hV : 0 < V) (c : ℝ) (central : Bool) (jxw : ℝ) (nrm u : Fin t.D → ℝ) (i : Fin t.Q) :
    let a := Walls.faceEntries (t.stencil c) central jxw nrm u i
    let b := Walls.faceEntries (t.stencil (V * c)) central (L ^ t.D / L * jxw) (y.vector nrm) (fun a => V * y.vector u a) (y.perm i)
    b.own = V * L ^ t.D / L * a.own ∧ b.opposite = V * L ^ t.D / L * a.opposite ∧ b.vector = V * L ^ t.D / L * a.vector := by
  have hd : ∀ a, (t.stencil (V * c)).dir (y.perm i) a = V * y.vector ((t.stencil c).dir i) a := fun a => by
    rw [t.dir_scale, y.dir]; rfl
  have h1 : ∑ a, y.vector nrm a * (t.stencil (V * c)).dir (y.perm i) a = V * ∑ a, nrm a * (t.stencil c).dir i a := by
    simp only [hd]
    rw [← vector_dot (y := y) nrm, mul_sum]
    exact sum_congr rfl fun a _ => by ring
  have h2 : ∑ a, V * y.vector u a * (t.stencil (V * c)).dir (y.perm i) a = V * V * ∑ a, u a * (t.stencil c).dir i a := by
    simp only [hd]
    rw [← vector_dot (y := y) u, mul_sum]
    exact sum_congr rfl fun a _ => by ring
  have h3 : (t.stencil (V * c)).weight (y.perm i) = (t.stencil c).weight i := by
    rw [t.weight_scale (V * c) c, y.weight]
  have hVV : V * V ≠ 0 := mul_ne_zero hV.ne' hV.ne'
  have hq : ∀ p w x : ℝ, p * w * 1 * (V * V * x) / (V * V * (t.stencil c).cs2) = p * w * 1 * x / (t.stencil c).cs2 := by
    intro p w x
    rw [show p * w * 1 * (V * V * x) = V * V * (p * w * 1 * x) by ring, mul_div_mul_left _ _ hVV]
  simp only [Walls.faceEntries, h1, h2, h3, t.cs2_scale, hq]
  cases central
  · simp only [Bool.false_eq_true, if_false, neg_mul_iff hV]
    split
    · refine ⟨by ring, by ring, by ring⟩
    · simp
  · simp only [if_true]
    refine ⟨by ring, by ring, by ring⟩

variable [DecidableEq C] (s : Setup t n nQ nf nq C)

theorem wallSum_transform (hL : L ≠ 0) (entry : Walls.FaceEntries ℝ → ℝ)
    (he : ∀ jxw nrm u i, entry (Walls.faceEntries (t.stencil (V * s.c)) s.central (L ^ t.D / L * jxw) (y.vector nrm) (fun a => V * y.vector u a) (y.perm i)) =
      V * L ^ t.D / L * entry (Walls.faceEntries (t.stencil s.c) s.central jxw nrm u i)) (i : Fin t.Q) (x : C × Fin n) :
    wallSum (transform y L V s) entry (y.perm i) x = V / L * wallSum s entry i x := by
  have hp : L ^ t.D ≠ 0 := pow_ne_zero _ hL
  unfold wallSum
  rw [show (transform y L V s).cells = s.cells from rfl]
  by_cases hx : x.1 ∈ s.cells
  · rw [if_pos hx, if_pos hx, mul_sum]
    refine sum_congr rfl fun f _ => ?_
    rw [show (transform y L V s).mesh.neighbor = s.mesh.neighbor from rfl]
    by_cases hf : (s.mesh.neighbor x.1 f).isNone
    · rw [if_pos hf, if_pos hf, mul_sum]
      refine sum_congr rfl fun q _ => ?_
      rw [show (transform y L V s).mesh.faceDof = s.mesh.faceDof from rfl]
      by_cases hq : s.mesh.faceDof f q = x.2
      · rw [if_pos hq, if_pos hq]
        have := he (s.mesh.faceJxw x.1 f q) (s.mesh.normal x.1 f q) (s.wallVelocity x.1 f q) i
        have hm : Sedg.inverseMass (transform y L V s).mesh x.1 x.2 = Sedg.inverseMass s.mesh x.1 x.2 / L ^ t.D := inverseMass_transform s.mesh x.1 x.2
        rw [hm]
        refine (congrArg (· * (Sedg.inverseMass s.mesh x.1 x.2 / L ^ t.D)) this).trans ?_
        field_simp
      · rw [if_neg hq, if_neg hq, mul_zero]
    · rw [if_neg hf, if_neg hf, mul_zero]
  · rw [if_neg hx, if_neg hx, mul_zero]

theorem rest_iff (i : Fin t.Q) : (y.perm i).val = 0 ↔ i.val = 0 := y.rest i

theorem systemMatrix_transform (hL : L ≠ 0) (hV : 0 < V) (f : Block t n C) :
    systemMatrix (transform y L V s) (transformBlock y f) = (V / L) • transformBlock y (systemMatrix s f) := by
  refine (y.eq_populations (f := (V / L) • systemMatrix s f) fun i => ?_)
  funext x
  show matrixTimes (transform y L V s) (transformBlock y f) (y.perm i) x = V / L * matrixTimes s f i x
  have hf : ∀ i, transformBlock y f (y.perm i) = f i := fun i => y.populations_perm f i
  have hd : ((t.stencil (V * s.c)).dir (y.perm i)) = fun a => V * y.vector ((t.stencil s.c).dir i) a := by
    funext a
    rw [t.dir_scale, y.dir]; rfl
  have ho : (t.stencil (transform y L V s).c).opp (y.perm i) = y.perm ((t.stencil s.c).opp i) := by
    rw [t.opp_scale (transform y L V s).c s.c, y.opp]
  unfold matrixTimes
  rw [ho, hf, hf]
  by_cases hi : i.val = 0
  · rw [if_pos hi, if_pos ((y.rest i).mpr hi), mul_zero]
  · rw [if_neg hi, if_neg fun h => hi ((y.rest i).mp h)]
    rw [show Sedg.reassemble (transform y L V s).mesh (transform y L V s).central ((t.stencil (transform y L V s).c).dir (y.perm i))
      (transform y L V s).cells = Sedg.reassemble (transformMesh y L s.mesh) s.central (fun a => V * y.vector ((t.stencil s.c).dir i) a) s.cells from
        congrArg (fun d => Sedg.reassemble (transformMesh y L s.mesh) s.central d s.cells) hd]
    rw [reassemble_transform _ _ hL hV, rate_scale,
      wallSum_transform s hL _ (fun j nrm u i => (wallEntries_transform hV s.c s.central j nrm u i).1),
      wallSum_transform s hL _ (fun j nrm u i => (wallEntries_transform hV s.c s.central j nrm u i).2.1)]
    ring

theorem systemVector_transform (hL : L ≠ 0) (hV : 0 < V) :
    systemVector (transform y L V s) = (V / L) • transformBlock y (systemVector s) := by
  refine (y.eq_populations (f := (V / L) • systemVector s) fun i => ?_)
  funext x
  show systemVector (transform y L V s) (y.perm i) x = V / L * systemVector s i x
  unfold systemVector
  by_cases hi : i.val = 0
  · rw [if_pos hi, if_pos ((y.rest i).mpr hi), mul_zero]
  · rw [if_neg hi, if_neg fun h => hi ((y.rest i).mp h)]
    exact wallSum_transform s hL _ (fun j nrm u i => (wallEntries_transform hV s.c s.central j nrm u i).2.2) i x

end SedgSolver

/-! ## The integrators -/

namespace TimeIntegration

variable {E : Type*} [AddCommGroup E] [Module ℝ E]

theorem prologue_scale {k : ℝ} (hk : 0 < k) (stored dt : ℝ) :
    prologue (k * stored) (k * dt) = (prologue stored dt).map fun x => (k * x.1, k * x.2) := by
  unfold prologue
  have h0 : k * dt = 0 ↔ dt = 0 := by rw [mul_eq_zero, or_iff_right hk.ne']
  have h1 : k * dt = k * stored ↔ dt = stored := mul_right_inj' hk.ne'
  have h2 : 0 < k * dt ↔ 0 < dt := mul_pos_iff_of_pos_left hk
  simp only [ne_eq, h0, h1, h2]
  split
  · split <;> rfl
  · split <;> rfl

variable {A A' : E →ₗ[ℝ] E} {b b' : E} {P : E ≃ₗ[ℝ] E} {k : ℝ}

theorem stage_transform (hk : k ≠ 0) (hA : ∀ f, A' (P f) = k⁻¹ • P (A f)) (hb : b' = k⁻¹ • P b) (h : ℝ) (f : E) :
    (k * h) • (A' (P f) + b') = P (h • (A f + b)) := by
  rw [hA, hb, ← smul_add, smul_smul, mul_assoc, mul_comm h, ← mul_assoc, mul_inv_cancel₀ hk, one_mul, ← map_add, map_smul]

theorem rkStep_transform (hk : 0 < k) (hA : ∀ f, A' (P f) = k⁻¹ • P (A f)) (hb : b' = k⁻¹ • P b) (stored dt : ℝ) (f : E) :
    rkStep A' b' (k * stored) (P f) 0 (k * dt) =
      (rkStep A b stored f 0 dt).map fun r => { f := P r.f, t := k * r.t, timeStepSize := k * r.timeStepSize } := by
  unfold rkStep
  rw [prologue_scale hk]
  cases prologue stored dt with
  | error e => rfl
  | ok z =>
    obtain ⟨h, d⟩ := z
    simp only [Except.map]
    have h1 : rkFirst A' b' (k * h) (P f) = (P (rkFirst A b h f).1, P (rkFirst A b h f).2) := by
      unfold rkFirst
      simp only [stage_transform hk.ne' hA hb, map_add, map_smul]
    have h2 : ∀ (l : List (Fin 5)) (z : E × E),
        l.foldl (rkStage A' b' (k * h)) (P z.1, P z.2) = (P (l.foldl (rkStage A b h) z).1, P (l.foldl (rkStage A b h) z).2) := by
      intro l
      induction l with
      | nil => intro z; rfl
      | cons i l ih =>
        intro z
        rw [List.foldl_cons, List.foldl_cons, ← ih]
        congr 1
        unfold rkStage
        simp only [stage_transform hk.ne' hA hb, map_add, map_smul]
    rw [h1, h2]
    simp only [zero_add]

theorem thetaStep_transform (hk : 0 < k) (hA : ∀ f, A' (P f) = k⁻¹ • P (A f)) (hb : b' = k⁻¹ • P b)
    (solve : (E →ₗ[ℝ] E) → E → E → Option E) (θ stored dt : ℝ) (f : E) :
    thetaStep (fun M x rhs => (solve (P.symm.toLinearMap ∘ₗ M ∘ₗ P.toLinearMap) (P.symm x) (P.symm rhs)).map P) A' b' θ (k * stored) (P f) 0 (k * dt) =
      (thetaStep solve A b θ stored f 0 dt).map fun r => { f := P r.f, t := k * r.t, timeStepSize := k * r.timeStepSize } := by
  unfold thetaStep
  rw [prologue_scale hk]
  cases prologue stored dt with
  | error e => rfl
  | ok z =>
    obtain ⟨h, d⟩ := z
    simp only [Except.map]
    have hM : ∀ x, thetaMatrix A' θ (k * h) (P x) = P (thetaMatrix A θ h x) := by
      intro x
      simp only [thetaMatrix, LinearMap.add_apply, LinearMap.smul_apply, LinearMap.id_apply, hA, map_add, map_smul]
      rw [smul_smul (k * h), mul_assoc, mul_comm h, ← mul_assoc, mul_inv_cancel₀ hk.ne', one_mul]
    have h1 : P.symm.toLinearMap ∘ₗ thetaMatrix A' θ (k * h) ∘ₗ P.toLinearMap = thetaMatrix A θ h := by
      ext x
      simp only [LinearMap.comp_apply, LinearEquiv.coe_coe, hM, LinearEquiv.symm_apply_apply]
    have h2 : thetaRhs A' b' θ (k * h) (P f) = P (thetaRhs A b θ h f) := by
      unfold thetaRhs
      rw [hM, map_add]
      congr 1
      rw [LinearMap.smul_apply, LinearMap.smul_apply, ← smul_add, ← smul_add, add_comm, add_comm b]
      exact stage_transform hk.ne' hA hb h f
    rw [h1, h2, LinearEquiv.symm_apply_apply, LinearEquiv.symm_apply_apply]
    cases solve (thetaMatrix A θ h) f (thetaRhs A b θ h f) with
    | none => rfl
    | some x => simp only [Option.map_some, zero_add]

end TimeIntegration

/-! ## The parts of the solver -/

namespace SedgSolver

variable {t : StencilType} {n nQ nf nq : ℕ} {C : Type*} [DecidableEq C] {y : t.Symmetry} {L V : ℝ} (s : Setup t n nQ nf nq C)

/-- All degrees of freedom -/
def transformNodes (y : t.Symmetry) (V : ℝ) (x : C × Fin n → Node ℝ t.D t.Q) : C × Fin n → Node ℝ t.D t.Q := fun k => y.node V (x k)

/-- All velocities -/
def transformVelocities (y : t.Symmetry) (V : ℝ) (v : Fin t.D → C × Fin n → ℝ) : Fin t.D → C × Fin n → ℝ :=
  fun a k => V * y.vector (fun b => v b k) a

omit [DecidableEq C] in
theorem populations_transform (x : C × Fin n → Node ℝ t.D t.Q) : populations (transformNodes y V x) = transformBlock y (populations x) := rfl

omit [DecidableEq C] in
theorem setPopulations_transform (x : C × Fin n → Node ℝ t.D t.Q) (f : Block t n C) :
    setPopulations (transformNodes y V x) (transformBlock y f) = transformNodes y V (setPopulations x f) := rfl

theorem step_transform (hL : 0 < L) (hV : 0 < V) (dt : ℝ) (f : Block t n C) :
    step (transform y L V s) (L / V * dt) (transformBlock y f) =
      (step s dt f).map fun r => { f := transformBlock y r.f, t := L / V * r.t, timeStepSize := L / V * r.timeStepSize } := by
  have hk : 0 < L / V := div_pos hL hV
  have hA : ∀ f, systemMatrix (transform y L V s) (transformBlock y f) = (L / V)⁻¹ • transformBlock y (systemMatrix s f) := fun f => by
    rw [inv_div]; exact systemMatrix_transform s hL.ne' hV f
  have hb : systemVector (transform y L V s) = (L / V)⁻¹ • transformBlock y (systemVector s) := by
    rw [inv_div]; exact systemVector_transform s hL.ne' hV
  unfold step
  rw [show (transform y L V s).integrator = transformIntegrator y s.integrator from rfl]
  cases s.integrator with
  | rungeKutta5 => exact TimeIntegration.rkStep_transform hk hA hb dt dt f
  | theta θ solve => exact TimeIntegration.thetaStep_transform hk hA hb solve θ dt dt f

theorem integrate_transform (hL : 0 < L) (hV : 0 < V) (dt : ℝ) (x : C × Fin n → Node ℝ t.D t.Q) :
    integrate (transform y L V s) (L / V * dt) (transformNodes y V x) = (integrate s dt x).map fun r => (transformNodes y V r.1, L / V * r.2) := by
  unfold integrate
  rw [populations_transform, step_transform s hL hV]
  cases step s dt (populations x) with
  | error e => rfl
  | ok r => rfl

theorem nodeBack_node (hV : V ≠ 0) (x : Node ℝ t.D t.Q) : y.nodeBack V (y.node V x) = x := by
  refine Node.ext ?_ rfl ?_
  · funext i
    exact congrArg x.f (y.perm.symm_apply_apply i)
  · funext a
    show y.sign (y.axes.symm a) * (V * (y.sign (y.axes.symm a) * x.u (y.axes (y.axes.symm a)))) / V = x.u a
    rw [y.axes.apply_symm_apply]
    have := y.sign_mul_self (y.axes.symm a)
    field_simp
    linear_combination x.u a * this

theorem parts_correspond (hL : 0 < L) (hV : 0 < V) (hc : s.c ≠ 0) (hr : y.RelaxationSymmetric s.collision) :
    Solver.Corresponds (parts s) (parts (transform y L V s)) (transformNodes y V) (transformVelocities y V) (L / V) V where
  scheme := rfl
  advect _ _ _ := rfl
  integrate _ dt x := integrate_transform s hL hV dt x
  applyFilter x := rfl
  collide x := by
    show collide _ _ = (collide _ _).map _
    unfold collide
    have := StencilType.Symmetry.isothermalCollide_corresponds (ν := s.viscosity) (dt := s.dt) y hL.ne' hV.ne' hc s.collision hr false (owned s) x
    rw [show isothermalCollide t (transform y L V s).c (transform y L V s).viscosity (transform y L V s).dt (transform y L V s).collision false
      (owned (transform y L V s)) (transformNodes y V x) = _ from this]
    cases isothermalCollide t s.c s.viscosity s.dt s.collision false (owned s) x with
    | error e => rfl
    | ok x => rfl
  processors i time x := by
    show (s.processors.map _).foldl _ _ = transformNodes y V (s.processors.foldl _ _)
    have hk : L / V ≠ 0 := (div_pos hL hV).ne'
    induction s.processors generalizing x with
    | nil => rfl
    | cons q l ih =>
      rw [List.map_cons, List.foldl_cons, List.foldl_cons, ← ih]
      congr 1
      funext k
      show y.node V (q i (L / V * time / (L / V)) (fun k => y.nodeBack V (y.node V (x k))) k) = y.node V (q i time x k)
      rw [mul_div_cancel_left₀ _ hk]
      simp only [nodeBack_node hV.ne']
  rho x := rfl
  u x := rfl
  zero := by
    funext a k
    simp [transformVelocities, StencilType.Symmetry.vector]
  distance v w k := by
    rw [Finset.mul_sum]
    refine y.sum_axes (g := fun a => V * V * ((v a k - w a k) * (v a k - w a k))) fun a => ?_
    simp only [transformVelocities, StencilType.Symmetry.vector]
    linear_combination (V * V * (v (y.axes a) k - w (y.axes a) k) ^ 2) * y.sign_mul_self a

end SedgSolver
end NATriuM
