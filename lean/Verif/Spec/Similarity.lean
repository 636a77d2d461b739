import Verif.Model.SedgSolver

/-!
# Specification: the same simulation in other units and along other axes
-/

namespace NATriuM

/-- A symmetry of a lattice: axes are exchanged and reflected, new component `a` is `sign a` times old component `axes a`; direction `i` becomes
direction `perm i`. -/
structure StencilType.Symmetry (t : StencilType) where
  axes : Equiv.Perm (Fin t.D)
  sign : Fin t.D → ℝ
  perm : Equiv.Perm (Fin t.Q)
  sign_eq (a : Fin t.D) : sign a = 1 ∨ sign a = -1
  dir (c : ℝ) (i : Fin t.Q) (a : Fin t.D) : (t.stencil c).dir (perm i) a = sign a * (t.stencil c).dir i (axes a)
  weight (c : ℝ) (i : Fin t.Q) : (t.stencil c).weight (perm i) = (t.stencil c).weight i
  opp (c : ℝ) (i : Fin t.Q) : (t.stencil c).opp (perm i) = perm ((t.stencil c).opp i)
  rest (i : Fin t.Q) : (perm i).val = 0 ↔ i.val = 0

namespace StencilType.Symmetry

variable {t : StencilType}

/-- Nothing is exchanged. -/
def identity (t : StencilType) : t.Symmetry where
  axes := 1
  sign _ := 1
  perm := 1
  sign_eq _ := Or.inl rfl
  dir _ _ _ := by simp
  weight _ _ := rfl
  opp _ _ := rfl
  rest _ := Iff.rfl

/-- A vector with respect to the new axes -/
def vector (y : t.Symmetry) (v : Fin t.D → ℝ) : Fin t.D → ℝ := fun a => y.sign a * v (y.axes a)

/-- Distributions with respect to the new axes -/
def populations (y : t.Symmetry) {β : Type*} (f : Fin t.Q → β) : Fin t.Q → β := fun i => f (y.perm.symm i)

/-- A node with respect to the new axes and with velocities in units in which they are `V` times as large -/
def node (y : t.Symmetry) (V : ℝ) (x : Node ℝ t.D t.Q) : Node ℝ t.D t.Q where
  f := y.populations x.f
  rho := x.rho
  u a := V * y.vector x.u a

/-- The way back -/
noncomputable def nodeBack (y : t.Symmetry) (V : ℝ) (x : Node ℝ t.D t.Q) : Node ℝ t.D t.Q where
  f i := x.f (y.perm i)
  rho := x.rho
  u a := y.sign (y.axes.symm a) * x.u (y.axes.symm a) / V

/-- The relaxation with multiple relaxation times has the symmetry `y`. -/
def MrtSymmetric (y : t.Symmetry) (basis : MRTBasis) (mode : RelaxMode) : Prop :=
  ∀ tau relax, t.mrtRelaxation basis mode tau = .ok relax →
    ∀ d d' feq f, relax d' (y.populations feq) (y.populations f) = y.populations (relax d feq f)

/-- The relaxation that is configured has the symmetry `y`. -/
def RelaxationSymmetric (y : t.Symmetry) (cfg : CollisionConfig t.D) : Prop :=
  cfg.scheme = .mrtStandard → y.MrtSymmetric cfg.mrtBasis cfg.relaxMode

end StencilType.Symmetry

namespace SedgSolver

section

variable {t : StencilType} {n nQ nf nq : ℕ} {C : Type*}

/-- The mesh with respect to the new axes, with lengths `L` times as large -/
noncomputable def transformMesh (y : t.Symmetry) (L : ℝ) (m : Sedg.Mesh ℝ t.D n nQ nf nq C) : Sedg.Mesh ℝ t.D n nQ nf nq C :=
  { m with
    grad := fun c j q a => y.vector (m.grad c j q) a / L
    jxw := fun c q => L ^ t.D * m.jxw c q
    faceJxw := fun c f q => L ^ t.D / L * m.faceJxw c f q
    normal := fun c f q => y.vector (m.normal c f q) }

/-- The block vector with respect to the new axes, as a linear equivalence -/
def transformBlock (y : t.Symmetry) : Block t n C ≃ₗ[ℝ] Block t n C where
  toFun f := y.populations f
  invFun f := fun i => f (y.perm i)
  map_add' _ _ := rfl
  map_smul' _ _ := rfl
  left_inv f := by funext i; exact congrArg f (y.perm.symm_apply_apply i)
  right_inv f := by funext i; exact congrArg f (y.perm.apply_symm_apply i)

/-- The integrator for block vectors with respect to the new axes: the linear solver of the theta method does the same to the renumbered equations. -/
def transformIntegrator (y : t.Symmetry) : Integrator (Block t n C) → Integrator (Block t n C)
  | .rungeKutta5 => .rungeKutta5
  | .theta θ solve => .theta θ fun M x rhs =>
      (solve ((transformBlock y).symm.toLinearMap ∘ₗ M ∘ₗ (transformBlock y).toLinearMap) ((transformBlock y).symm x) ((transformBlock y).symm rhs)).map
        (transformBlock y)

/-- The same simulation with respect to the new axes, in units in which lengths are `L` times and velocities `V` times as large: times are `L / V`
times, viscosities `L V` times and forces (accelerations times density) `V² / L` times as large.  Data processors do the same in the new units. -/
noncomputable def transform (y : t.Symmetry) (L V : ℝ) (s : Setup t n nQ nf nq C) : Setup t n nQ nf nq C where
  c := V * s.c
  mesh := transformMesh y L s.mesh
  cells := s.cells
  central := s.central
  wallVelocity c f q a := V * y.vector (s.wallVelocity c f q) a
  viscosity := L * V * s.viscosity
  dt := L / V * s.dt
  collision := { s.collision with force := s.collision.force.map fun F a => V * V / L * y.vector F a }
  integrator := transformIntegrator y s.integrator
  toModes := s.toModes
  fromModes := s.fromModes
  factor := s.factor
  processors := s.processors.map fun q i time x k => y.node V (q i (time / (L / V)) (fun k => y.nodeBack V (x k)) k)

/-- A snapshot of the simulation in the new units -/
noncomputable def transformSnapshot (y : t.Symmetry) (L V : ℝ) (x : Solver.Snapshot (C × Fin n → Node ℝ t.D t.Q)) :
    Solver.Snapshot (C × Fin n → Node ℝ t.D t.Q) where
  x k := y.node V (x.x k)
  time := L / V * x.time
  dt := L / V * x.dt

/-- What is written, in the new units -/
noncomputable def transformEvent (y : t.Symmetry) (L V : ℝ) :
    Solver.Event (C × Fin n → Node ℝ t.D t.Q) → Solver.Event (C × Fin n → Node ℝ t.D t.Q)
  | .grid i => .grid i
  | .solution i x => .solution i (transformSnapshot y L V x)
  | .tableLine i x => .tableLine i (transformSnapshot y L V x)
  | .checkpoint i x => .checkpoint i (transformSnapshot y L V x)
  | .errorLine i x => .errorLine i (transformSnapshot y L V x)

end

/-- The parameters of the loop in the new units -/
noncomputable def transformConfig (L V : ℝ) (cfg : Solver.RunConfig) : Solver.RunConfig :=
  { cfg with
    simulationEndTime := L / V * cfg.simulationEndTime
    convergenceThreshold := V * cfg.convergenceThreshold }

/-- What a user sees of a run: the number of steps, the state at the end, and what was written -/
def outcome {σ ι : Type*} {D : ℕ} (st : Solver.RunState σ ι D) : ℕ × Solver.Snapshot σ × List (Solver.Event σ) := (st.i, st.snap, st.log)

end SedgSolver
end NATriuM
