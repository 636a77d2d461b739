import Verif.Spec.Similarity

/-!
# Specification: the same simulation with other numbers for cells, degrees of freedom, points and faces

Another number of processes, another refinement history or another version of the mesh library numbers cells, degrees of freedom, quadrature points and
faces in another way.
-/

namespace NATriuM
namespace SedgSolver

variable {t : StencilType} {n nQ nf nq : ℕ} {C : Type*}

/-- Block vectors with other numbers for the degrees of freedom -/
def renumberBlock (r : Equiv.Perm (C × Fin n)) : Block t n C ≃ₗ[ℝ] Block t n C where
  toFun f := fun i k => f i (r.symm k)
  invFun f := fun i k => f i (r k)
  map_add' _ _ := rfl
  map_smul' _ _ := rfl
  left_inv f := by funext i k; exact congrArg (f i) (r.symm_apply_apply k)
  right_inv f := by funext i k; exact congrArg (f i) (r.apply_symm_apply k)

/-- The linear solver of the theta method does the same to the renumbered equations. -/
def renumberIntegrator (r : Equiv.Perm (C × Fin n)) : Integrator (Block t n C) → Integrator (Block t n C)
  | .rungeKutta5 => .rungeKutta5
  | .theta θ solve => .theta θ fun M x rhs =>
      (solve ((renumberBlock r).symm.toLinearMap ∘ₗ M ∘ₗ (renumberBlock r).toLinearMap) ((renumberBlock r).symm x) ((renumberBlock r).symm rhs)).map
        (renumberBlock r)

/-- `s'` is `s` with other numbers: `cell` for the cells (in any order), `dof` for the degrees of freedom of a cell, `point` for its quadrature
points, `face` for its faces and `facePoint` for the quadrature points of the faces. -/
structure Renumbering (s s' : Setup t n nQ nf nq C) where
  cell : Equiv.Perm C
  dof : Equiv.Perm (Fin n)
  point : Equiv.Perm (Fin nQ)
  face : Equiv.Perm (Fin nf)
  facePoint : Fin nf → Equiv.Perm (Fin nq)
  cells : s'.cells.Perm (s.cells.map cell)
  value : ∀ c i q, s'.mesh.value (cell c) (dof i) (point q) = s.mesh.value c i q
  grad : ∀ c i q a, s'.mesh.grad (cell c) (dof i) (point q) a = s.mesh.grad c i q a
  jxw : ∀ c q, s'.mesh.jxw (cell c) (point q) = s.mesh.jxw c q
  toQ : ∀ i, s'.mesh.toQ (dof i) = point (s.mesh.toQ i)
  faceDof : ∀ f q, s'.mesh.faceDof (face f) (facePoint f q) = dof (s.mesh.faceDof f q)
  faceJxw : ∀ c f q, s'.mesh.faceJxw (cell c) (face f) (facePoint f q) = s.mesh.faceJxw c f q
  normal : ∀ c f q a, s'.mesh.normal (cell c) (face f) (facePoint f q) a = s.mesh.normal c f q a
  neighbor : ∀ c f, s'.mesh.neighbor (cell c) (face f) = (s.mesh.neighbor c f).map fun z => (cell z.1, face z.2)
  /-- points of neighbouring faces keep belonging together -/
  neighborPoint : ∀ c f c' f', s.mesh.neighbor c f = some (c', f') → facePoint f' = facePoint f
  wallVelocity : ∀ c f q a, s'.wallVelocity (cell c) (face f) (facePoint f q) a = s.wallVelocity c f q a
  /-- the filter is the same linear map of the values in a cell -/
  filter : ∀ i j, ∑ k, s'.fromModes (dof i) k * (s'.factor k * s'.toModes k (dof j)) = ∑ k, s.fromModes i k * (s.factor k * s.toModes k j)
  integrator : s'.integrator = renumberIntegrator (Equiv.prodCongr cell dof) s.integrator
  processors : s'.processors = s.processors.map fun q i time x k =>
    q i time (fun k => x (Equiv.prodCongr cell dof k)) ((Equiv.prodCongr cell dof).symm k)
  c : s'.c = s.c
  central : s'.central = s.central
  viscosity : s'.viscosity = s.viscosity
  dt : s'.dt = s.dt
  collision : s'.collision = s.collision

namespace Renumbering

variable {s s' : Setup t n nQ nf nq C} (r : Renumbering s s')

/-- The new numbers of all degrees of freedom -/
def dofs : Equiv.Perm (C × Fin n) := Equiv.prodCongr r.cell r.dof

/-- Values in all degrees of freedom, by the new numbers -/
def nodes {X : Type*} (x : C × Fin n → X) : C × Fin n → X := fun k => x (r.dofs.symm k)

/-- A snapshot by the new numbers -/
def snapshot (x : Solver.Snapshot (C × Fin n → Node ℝ t.D t.Q)) : Solver.Snapshot (C × Fin n → Node ℝ t.D t.Q) := { x with x := r.nodes x.x }

/-- What is written, by the new numbers -/
def event : Solver.Event (C × Fin n → Node ℝ t.D t.Q) → Solver.Event (C × Fin n → Node ℝ t.D t.Q)
  | .grid i => .grid i
  | .solution i x => .solution i (r.snapshot x)
  | .tableLine i x => .tableLine i (r.snapshot x)
  | .checkpoint i x => .checkpoint i (r.snapshot x)
  | .errorLine i x => .errorLine i (r.snapshot x)

end Renumbering

/-- The simulation `s` has the symmetry `y` of the lattice: seen along the other axes it is the same but for the numbers – the domain and its mesh are
symmetric, and so are the velocities of the walls and the force. -/
abbrev SymmetricSetup (y : t.Symmetry) (s : Setup t n nQ nf nq C) := Renumbering (transform y 1 1 s) s

/-- The state is symmetric: the state at the mirror image of a point is the mirror image of the state. -/
def SymmetricState {y : t.Symmetry} {s : Setup t n nQ nf nq C} (r : SymmetricSetup y s) (x : C × Fin n → Node ℝ t.D t.Q) : Prop :=
  ∀ k, x (r.dofs k) = y.node 1 (x k)

/-- What is written is symmetric. -/
def SymmetricEvent {y : t.Symmetry} {s : Setup t n nQ nf nq C} (r : SymmetricSetup y s) : Solver.Event (C × Fin n → Node ℝ t.D t.Q) → Prop
  | .grid _ => True
  | .solution _ x => SymmetricState r x.x
  | .tableLine _ x => SymmetricState r x.x
  | .checkpoint _ x => SymmetricState r x.x
  | .errorLine _ x => SymmetricState r x.x

end SedgSolver
end NATriuM
