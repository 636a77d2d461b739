import Verif.Lemmas.SedgSolver
import Verif.Props.Stabilizer
import Mathlib.Tactic.FinCases
import Mathlib.Tactic.NormNum

/-!
# Properties C109, C110, C111: whole runs of the discontinuous Galerkin solver

`Solver.run cfg (parts s) start s0` is a complete run of the solver `s`.  `Solver.runTrajectory cfg (parts s) start s0 k` is the state after `k` steps.
-/

namespace NATriuM
namespace SedgSolver

open Solver

variable {t : StencilType} {n nQ nf nq : ℕ} {C : Type*} [DecidableEq C] [Fintype C] {s : Setup t n nQ nf nq C} {cfg : RunConfig} {start : ℕ}
  {s0 : Snapshot (C × Fin n → Node ℝ t.D t.Q)}

/-! ## C109 -/

/-- **C109** The mass of the fluid is the same after every step of a run and at its end as at its beginning: for every mesh, every finite element,
every exact stencil, every collision scheme, every viscosity and time step, both integrators, with and without walls, with and without force. -/
theorem C109_mass (hs : Sound s) (ht : t.exact = true) (hcen : s.central = false) (hw : WallsTangential s)
    (hforce : s.collision.force = none ∨ s.collision.forceType = .exactDifference) (hex : SolvesExactly s)
    (hfil : cfg.isFiltering = true → FilterKeepsMean s)
    (hproc : ∀ q ∈ s.processors, ∀ i time x, totalMass s (q i time x) = totalMass s x) :
    (∀ k snap, runTrajectory cfg (parts s) start s0 k = .ok snap → totalMass s snap.x = totalMass s s0.x) ∧
    ∀ st, run cfg (parts s) start s0 = .ok st → totalMass s st.snap.x = totalMass s s0.x := by
  have key : ∀ k snap, runTrajectory cfg (parts s) start s0 k = .ok snap → totalMass s snap.x = totalMass s s0.x := by
    refine trajectory_invariant (fun _ x => totalMass s x = totalMass s s0.x) rfl ?_ ?_ ?_ ?_ rfl
    · intro _ _ dt x x' dt' hx h
      obtain ⟨hA, hb⟩ := functional_walls hs ht hcen hw
      rw [← hx, totalMass_eq, totalMass_eq]
      exact integrate_keeps hex _ hA hb h
    · intro hF _ x hx
      rw [← hx]
      show totalMass s (applyFilter s x) = _
      rw [totalMass_eq, totalMass_eq]
      exact filter_functional hs (hfil hF) _ x
    · intro _ x x' hx h
      rw [← hx]
      have h' := collide_ok h
      have hm : ∀ y, Spec.mass (x' y).f = Spec.mass (x y).f := fun y => by
        cases hF : s.collision.force with
        | none => exact (step_conserves t s.collision ht hs.scaling hF (owned_nodup hs) h' y).1
        | some F =>
          have hft : s.collision.forceType = .exactDifference := hforce.resolve_left (by rw [hF]; simp)
          exact (C16_exactDifference t s.collision ht hs.scaling hF hft (owned_nodup hs) h' (mem_owned hs y)).1
      unfold totalMass
      simp only [hm]
    · intro q hq _ i time x hx
      rw [hproc q hq]; exact hx
  exact ⟨key, fun st h => key _ _ (run_ok h).2.1⟩

/-- **C109** Without walls and without force, so is the momentum. -/
theorem C109_momentum (hs : Sound s) (ht : t.exact = true) (hcen : s.central = false) (hw : NoWalls s)
    (hforce : s.collision.force = none) (hex : SolvesExactly s) (hfil : cfg.isFiltering = true → FilterKeepsMean s) (a : Fin t.D)
    (hproc : ∀ q ∈ s.processors, ∀ i time x, totalMomentum s (q i time x) a = totalMomentum s x a) :
    (∀ k snap, runTrajectory cfg (parts s) start s0 k = .ok snap → totalMomentum s snap.x a = totalMomentum s s0.x a) ∧
    ∀ st, run cfg (parts s) start s0 = .ok st → totalMomentum s st.snap.x a = totalMomentum s s0.x a := by
  have key : ∀ k snap, runTrajectory cfg (parts s) start s0 k = .ok snap → totalMomentum s snap.x a = totalMomentum s s0.x a := by
    refine trajectory_invariant (fun _ x => totalMomentum s x a = totalMomentum s s0.x a) rfl ?_ ?_ ?_ ?_ rfl
    · intro _ _ dt x x' dt' hx h
      obtain ⟨hA, hb⟩ := functional_nowalls hs ht hcen hw fun i => (t.stencil s.c).dir i a
      rw [← hx, totalMomentum_eq, totalMomentum_eq]
      exact integrate_keeps hex _ hA hb h
    · intro hF _ x hx
      rw [← hx]
      show totalMomentum s (applyFilter s x) a = _
      rw [totalMomentum_eq, totalMomentum_eq]
      exact filter_functional hs (hfil hF) _ x
    · intro _ x x' hx h
      rw [← hx]
      have hm : ∀ y, Spec.momentum (t.stencil s.c).dir (x' y).f a = Spec.momentum (t.stencil s.c).dir (x y).f a := fun y =>
        (step_conserves t s.collision ht hs.scaling hforce (owned_nodup hs) (collide_ok h) y).2 a
      unfold totalMomentum
      simp only [hm]
    · intro q hq _ i time x hx
      rw [hproc q hq]; exact hx
  exact ⟨key, fun st h => key _ _ (run_ok h).2.1⟩

/-- **C109** The stabilisers meet the condition on data processors. -/
theorem C109_stabiliser (s : Setup t n nQ nf nq C) (withE : Bool) (i : ℕ) (time : ℝ) (x : C × Fin n → Node ℝ t.D t.Q) :
    totalMass s (stabiliser s withE i time x) = totalMass s x ∧
    ∀ a, totalMomentum s (stabiliser s withE i time x) a = totalMomentum s x a := by
  have h := fun y => Stabilizer.C22_mass_momentum t withE (owned s) (fun y => (x y).f) s.c y
  constructor
  · show integral s.mesh (fun y => Spec.mass (Stabilizer.apply t withE (owned s) (fun y => (x y).f) y)) = _
    simp only [(h _).1]
    rfl
  · intro a
    show integral s.mesh (fun y => Spec.momentum _ (Stabilizer.apply t withE (owned s) (fun y => (x y).f) y) a) = _
    simp only [(h _).2 a]
    rfl

/-! ## C110 -/

/-- **C110** A uniform flow – at rest in a closed box, or moving in a domain without walls, or moving with the walls – stays as it is: after every
step all populations, densities and velocities are those of the uniform flow.  (Walls impose the velocity for density one: a wall velocity `u` goes
with a fluid of density `ρ` that moves at `u / ρ`.) -/
theorem C110_uniform_partial (hs : Sound s) (ht : t.exact = true) (hcen : s.central = false) (hforce : s.collision.force = none) (hst : StopsAtSolution s)
    {ec : EquilibriumClass} (hec : configuredEquilibrium s.collision.eq = some ec) (rho : ℝ) (v : Fin t.D → ℝ)
    (hw : ∀ c g q, s.mesh.neighbor c g = none → s.wallVelocity c g q = rho • v ∧ (ec = .bgk ∨ v = 0))
    (hfil : cfg.isFiltering = true → ∀ r : ℝ, Smoothing.filterCell s.toModes s.fromModes s.factor (fun _ => r) = fun _ => r)
    (hproc : ∀ q ∈ s.processors, ∀ i time x, (∀ y : C × Fin n, x y = ⟨uniform s ec rho v, rho, v⟩) → q i time x = x)
    (h0 : ∀ y, (s0.x y).f = uniform s ec rho v) :
    (∀ k snap, runTrajectory cfg (parts s) start s0 k = .ok snap → ∀ y, snap.x y = ⟨uniform s ec rho v, rho, v⟩) ∧
    ∀ st, run cfg (parts s) start s0 = .ok st → ∀ y, st.snap.x y = ⟨uniform s ec rho v, rho, v⟩ := by
  have key : ∀ k snap, runTrajectory cfg (parts s) start s0 k = .ok snap → ∀ y, snap.x y = ⟨uniform s ec rho v, rho, v⟩ := by
    intro k snap hk
    have := trajectory_invariant (cfg := cfg) (p := parts s) (start := start) (s0 := s0) (fun k x => (∀ y, (x y).f = uniform s ec rho v) ∧
      (0 < k → ∀ y, x y = ⟨uniform s ec rho v, rho, v⟩)) rfl ?_ ?_ ?_ ?_ ⟨h0, fun h => absurd h (lt_irrefl _)⟩ k snap hk
    · exact this.2 (Nat.succ_pos k)
    · intro _ _ dt x x' dt' hx h
      have hsteady := uniform_steady hs ht hcen rho v hw (populations x) fun i y => congrFun (hx.1 y) i
      rw [integrate_steady hst h hsteady]
      exact hx
    · intro hF k x hx
      have : ∀ y, ((applyFilter s x) y).f = uniform s ec rho v := fun y => by
        funext i
        have h1 := congrFun (applyFilter_cell hs x i y.1) y.2
        have h2 : (fun k => populations x i (y.1, k)) = fun _ => uniform s ec rho v i := funext fun k => congrFun (hx.1 (y.1, k)) i
        rw [h2, hfil hF] at h1
        exact h1
      refine ⟨this, fun hk y => ?_⟩
      have h1 := hx.2 hk y
      have h2 : ((applyFilter s x) y).rho = (x y).rho ∧ ((applyFilter s x) y).u = (x y).u := ⟨rfl, rfl⟩
      refine Node.ext (this y) ?_ ?_
      · exact h2.1.trans (by rw [h1])
      · exact h2.2.trans (by rw [h1])
    · intro k x x' hx h
      have : ∀ y, x' y = ⟨uniform s ec rho v, rho, v⟩ := fun y => by
        have := C15_equilibrium_fixed t s.collision ht hs.scaling hforce (owned_nodup hs) (collide_ok h) (mem_owned hs y) hec rho v (hx.1 y)
        exact Node.ext (this.1.trans (hx.1 y)) this.2.1 this.2.2
      exact ⟨fun y => by rw [this y], fun _ => this⟩
    · intro q hq k i time x hx
      rw [hproc q hq i time x (hx.2 (Nat.succ_pos k))]
      exact hx
  exact ⟨key, fun st h => key _ _ (run_ok h).2.1⟩

/-- **C110** Such a run is never aborted: every step succeeds, with the Runge-Kutta integrator as with the theta method, if the configuration is supported
and the density is above the threshold of the collision. -/
theorem C110_completes_partial (hs : Sound s) (ht : t.exact = true) (hcen : s.central = false) (hforce : s.collision.force = none)
    (hst : StopsAtSolution s) {ec : EquilibriumClass} (hec : configuredEquilibrium s.collision.eq = some ec) (rho : ℝ) (v : Fin t.D → ℝ)
    (hw : ∀ c g q, s.mesh.neighbor c g = none → s.wallVelocity c g q = rho • v ∧ (ec = .bgk ∨ v = 0))
    (hfil : cfg.isFiltering = true → ∀ r : ℝ, Smoothing.filterCell s.toModes s.fromModes s.factor (fun _ => r) = fun _ => r)
    (hproc : ∀ q ∈ s.processors, ∀ i time x, (∀ y : C × Fin n, x y = ⟨uniform s ec rho v, rho, v⟩) → q i time x = x)
    (h0 : ∀ y, (s0.x y).f = uniform s ec rho v) (hdt : 0 < s0.dt) {r : Row} {relax : Relaxation ℝ t.D t.Q} (hne : owned s ≠ [])
    (hr : (isoSelection t.D).1.find? (·.applies { stencil := t, scheme := s.collision.scheme, eq := s.collision.eq }) = some r)
    (hx : t.relaxation s.collision.mrtBasis s.collision.relaxMode (collisionData t s.c s.viscosity s.dt s.collision).tau r.collisionType = .ok relax)
    (hrho : 1 / 10 ^ 10 < rho) : ∃ st, run cfg (parts s) start s0 = .ok st ∧ ∀ y, st.snap.x y = ⟨uniform s ec rho v, rho, v⟩ := by
  have hall := C110_uniform_partial (cfg := cfg) (start := start) hs ht hcen hforce hst hec rho v hw hfil hproc h0
  have hcol : ∀ x : C × Fin n → Node ℝ t.D t.Q, (∀ y, (x y).f = uniform s ec rho v) → ∃ x', collide s x = .ok x' := by
    intro x hxf
    obtain ⟨x', hx'⟩ := step_succeeds t s.collision (c := s.c) (viscosity := s.viscosity) (dt := s.dt) (nodes := x) hforce (owned_nodup hs) hne hr hx
      (fun j _ => by
        rw [hxf j]
        have : Spec.mass (uniform s ec rho v) = rho := (t.conservative (viscosity := s.viscosity) (dt := s.dt) s.collision ht hs.scaling ec).mass _
        rw [this]; exact hrho)
    exact ⟨x', by rw [collide, hx']⟩
  have hok : ∀ k, ∃ snap, runTrajectory cfg (parts s) start s0 k = .ok snap ∧ 0 < snap.dt := by
    intro k
    induction k with
    | zero =>
      obtain ⟨x', hx'⟩ := hcol s0.x h0
      refine ⟨{ s0 with x := x' }, ?_, hdt⟩
      have hp : (parts s).collide s0.x = .ok x' := hx'
      simp only [runTrajectory, Spec.trajectory, Solver.collide, hp]
    | succ k ih =>
      obtain ⟨snap, hk, hd⟩ := ih
      have hu := hall.1 k snap hk
      simp only [runTrajectory, Spec.trajectory] at hk ⊢
      rw [hk]
      simp only [advance]
      have hsteady := uniform_steady hs ht hcen rho v hw (populations snap.x) fun i y => by
        show (snap.x y).f i = _
        rw [hu y]
      have hi : ∃ x', (parts s).integrate (start + (k + 1) - start) snap.dt snap.x = .ok (x', snap.dt) := by
        show ∃ x', integrate s snap.dt snap.x = .ok (x', snap.dt)
        exact integrate_steady_ok hst hd hsteady
      obtain ⟨x', hi⟩ := hi
      have hxx : x' = snap.x := integrate_steady hst (dt := snap.dt) hi hsteady
      have hstream : Solver.stream (parts s) (start + (k + 1) - start) snap = .ok { x := x', time := snap.time + snap.dt, dt := snap.dt } := by
        unfold Solver.stream
        rw [show (parts s).scheme = .sedg from rfl]
        simp only [hi]
        rw [if_pos hd]
      rw [hstream]
      simp only
      have hff : ∀ y, ((Solver.filter cfg (parts s) (start + (k + 1)) { x := x', time := snap.time + snap.dt, dt := snap.dt }).x y).f
          = uniform s ec rho v := by
        intro y
        unfold Solver.filter
        split
        · next hif =>
          have hF : cfg.isFiltering = true := by simp at hif; exact hif.1
          show ((applyFilter s x') y).f = _
          funext i
          have h1 := congrFun (applyFilter_cell hs x' i y.1) y.2
          have h2 : (fun k => populations x' i (y.1, k)) = fun _ => uniform s ec rho v i := funext fun k => by
            show (x' (y.1, k)).f i = _
            rw [hxx, hu]
          rw [h2, hfil hF] at h1
          exact h1
        · show (x' y).f = _
          rw [hxx, hu]
      obtain ⟨x2, hx2⟩ := hcol _ hff
      have hp : (parts s).collide (Solver.filter cfg (parts s) (start + (k + 1)) { x := x', time := snap.time + snap.dt, dt := snap.dt }).x = .ok x2 := hx2
      simp only [Solver.collide, hp]
      refine ⟨_, rfl, ?_⟩
      show 0 < (Solver.filter cfg (parts s) (start + (k + 1)) { x := x', time := snap.time + snap.dt, dt := snap.dt }).dt
      unfold Solver.filter
      split <;> exact hd
  cases h : run cfg (parts s) start s0 with
  | ok st => exact ⟨st, rfl, hall.2 st h⟩
  | error e =>
    obtain ⟨k, -, -, hk, -⟩ := run_error h
    obtain ⟨snap, hs', -⟩ := hok (k - start)
    rw [hs'] at hk
    cases hk

/-! ## C111 -/

/-- **C111** With exact-difference forcing and without walls, the momentum after `k` steps is the initial one plus `(k + 1) dt F` times the volume:
there is one collision before the first step. -/
theorem C111_momentum_partial (hs : Sound s) (ht : t.exact = true) (hcen : s.central = false) (hw : NoWalls s) {F : Fin t.D → ℝ}
    (hforce : s.collision.force = some F) (hft : s.collision.forceType = .exactDifference) (hex : SolvesExactly s)
    (hfil : cfg.isFiltering = true → FilterKeepsMean s) (a : Fin t.D)
    (hproc : ∀ q ∈ s.processors, ∀ i time x, totalMomentum s (q i time x) a = totalMomentum s x a) :
    (∀ k snap, runTrajectory cfg (parts s) start s0 k = .ok snap →
      totalMomentum s snap.x a = totalMomentum s s0.x a + ((k : ℝ) + 1) * (s.dt * F a) * volume s) ∧
    ∀ st, run cfg (parts s) start s0 = .ok st →
      totalMomentum s st.snap.x a = totalMomentum s s0.x a + (((st.i - start : ℕ) : ℝ) + 1) * (s.dt * F a) * volume s := by
  have key : ∀ k snap, runTrajectory cfg (parts s) start s0 k = .ok snap →
      totalMomentum s snap.x a = totalMomentum s s0.x a + ((k : ℝ) + 1) * (s.dt * F a) * volume s := by
    intro k snap hk
    have := trajectory_invariant (cfg := cfg) (p := parts s) (start := start) (s0 := s0)
      (fun k x => totalMomentum s x a = totalMomentum s s0.x a + (k : ℝ) * (s.dt * F a) * volume s) rfl ?_ ?_ ?_ ?_ (by simp) k snap hk
    · simpa using this
    · intro k _ dt x x' dt' hx h
      obtain ⟨hA, hb⟩ := functional_nowalls hs ht hcen hw fun i => (t.stencil s.c).dir i a
      rw [← hx, totalMomentum_eq, totalMomentum_eq]
      exact integrate_keeps hex _ hA hb h
    · intro hF k x hx
      rw [← hx]
      show totalMomentum s (applyFilter s x) a = _
      rw [totalMomentum_eq, totalMomentum_eq]
      exact filter_functional hs (hfil hF) _ x
    · intro k x x' hx h
      have hm : ∀ y, Spec.momentum (t.stencil s.c).dir (x' y).f a = Spec.momentum (t.stencil s.c).dir (x y).f a + s.dt * F a := fun y => by
        have := (C16_exactDifference t s.collision ht hs.scaling hforce hft (owned_nodup hs) (collide_ok h) (mem_owned hs y)).2.1 a
        rwa [one_mul] at this
      have : totalMomentum s x' a = totalMomentum s x a + (s.dt * F a) * volume s := by
        unfold totalMomentum volume integral
        simp only [hm, mul_add, mul_one, Finset.sum_add_distrib, ← Finset.sum_mul]
        rw [mul_comm (s.dt * F a)]
      rw [this, hx]
      push_cast
      ring
    · intro q hq k i time x hx
      rw [hproc q hq]; exact hx
  exact ⟨key, fun st h => key _ _ (run_ok h).2.1⟩

/-! ## A channel -/

namespace Sample

/-- Two unit squares side by side, bilinear shape functions, quadrature in the corners; periodic in x, walls below and above (if `walls`), else periodic
in y -/
noncomputable def mesh (walls : Bool) : Sedg.Mesh ℝ 2 4 4 4 2 (Fin 2) where
  value _ i q := if i = q then 1 else 0
  grad _ j q k :=
    let sx := if j.val % 2 = 1 then 1 else -1
    let sy := if j.val / 2 = 1 then 1 else -1
    if k = 0 then (if j.val / 2 = q.val / 2 then sx else 0) else (if j.val % 2 = q.val % 2 then sy else 0)
  jxw _ _ := 1 / 4
  toQ i := i
  faceDof f q := ![![0, 2], ![1, 3], ![0, 1], ![2, 3]] f q
  faceJxw _ _ _ := 1 / 2
  normal _ f _ := ![![-1, 0], ![1, 0], ![0, -1], ![0, 1]] f
  neighbor c f := ![some (c + 1, 1), some (c + 1, 0), if walls then none else some (c, 3), if walls then none else some (c, 2)] f

/-- A solver on it with MRT collision, Runge-Kutta integration and lid velocity (1/10, 0) on both walls -/
noncomputable def plain (walls : Bool) (force : Option (Fin 2 → ℝ)) : Setup .D2Q9 4 4 4 2 (Fin 2) where
  c := 2
  mesh := mesh walls
  cells := [0, 1]
  central := false
  wallVelocity _ _ _ := ![1 / 10, 0]
  viscosity := 1 / 100
  dt := 1 / 50
  collision := { sampleConfig 2 .mrtStandard .bgk .lallemandD2Q9 with forceType := .exactDifference, force := force }
  integrator := .rungeKutta5
  toModes := 1
  fromModes := 1
  factor _ := 1
  processors := []

/-- … and with the stabiliser -/
noncomputable def setup (walls : Bool) (force : Option (Fin 2 → ℝ)) : Setup .D2Q9 4 4 4 2 (Fin 2) :=
  { plain walls force with processors := [stabiliser (plain walls force) false] }

theorem gradients (walls : Bool) : (mesh walls).GradientsCancel := fun c q k => by
  fin_cases q <;> fin_cases k <;> simp [mesh, Fin.sum_univ_four]

theorem divergence (walls : Bool) : (mesh walls).Divergence := fun c j k => by
  fin_cases j <;> fin_cases k <;> simp [mesh, Fin.sum_univ_four, Fin.sum_univ_two] <;> norm_num

theorem matching (walls : Bool) : (mesh walls).Matching := fun c f c' f' h => by
  cases walls <;> fin_cases c <;> fin_cases f <;> simp [mesh] at h ⊢ <;> obtain ⟨rfl, rfl⟩ := h <;>
    simp [Fin.forall_fin_two]

theorem sound (walls : Bool) (force : Option (Fin 2 → ℝ)) : Sound (setup walls force) where
  nodal := fun c i => by simp [setup, plain, mesh]
  gradients := gradients walls
  divergence := divergence walls
  matching := matching walls
  mass := fun c i => by simp [Sedg.mass, setup, plain, mesh]
  nodup := by simp [setup, plain]
  complete := fun c => by fin_cases c <;> simp [setup, plain]
  scaling := by simp [setup, plain]

theorem tangential : WallsTangential (setup true none) := fun c f q h => by
  show ∑ a : Fin 2, (mesh true).normal c f q a * (![1 / 10, 0] : Fin 2 → ℝ) a = 0
  fin_cases f <;> simp [setup, plain, mesh, Fin.sum_univ_two] at h ⊢

theorem noWalls (force : Option (Fin 2 → ℝ)) : NoWalls (setup false force) := fun c f => by
  fin_cases f <;> simp [setup, plain, mesh]

theorem solves (walls : Bool) (force : Option (Fin 2 → ℝ)) : SolvesExactly (setup walls force) := fun θ solve h => by simp [setup, plain] at h

theorem soundPlain (walls : Bool) (force : Option (Fin 2 → ℝ)) : Sound (plain walls force) :=
  let h := sound walls force
  ⟨h.nodal, h.gradients, h.divergence, h.matching, h.mass, h.nodup, h.complete, h.scaling⟩

/-- A run of 250 steps -/
def config : RunConfig where
  numberOfTimeSteps := 250
  simulationEndTime := 1000
  convergenceThreshold := 0
  switchOutputOff := false
  solutionInterval := 10
  tableInterval := 10
  checkpointInterval := 100
  isFiltering := false
  filterInterval := 1
  solutionInterval_pos := by decide
  tableInterval_pos := by decide
  checkpointInterval_pos := by decide
  filterInterval_pos := by decide

/-- The flow that moves with the walls -/
noncomputable def flow : Snapshot (Fin 2 × Fin 4 → Node ℝ 2 9) where
  x _ := { f := uniform (plain true none) .bgk 1 ![1 / 10, 0], rho := 0, u := 0 }
  time := 0
  dt := 1 / 50

/-- The channel with walls: the run is completed, … -/
theorem completed : ∃ st, run config (parts (plain true none)) 0 flow = .ok st ∧
    ∀ y, st.snap.x y = ⟨uniform (plain true none) .bgk 1 ![1 / 10, 0], 1, ![1 / 10, 0]⟩ := by
  refine C110_completes_partial (soundPlain true none) rfl rfl rfl (fun _ _ h => by cases h) (ec := .bgk) rfl 1 ![1 / 10, 0] ?_ ?_ ?_ (fun _ => rfl) ?_
    (r := ⟨2, 9, .D2Q9, .mrtStandard, .bgk, .mrt, .bgk⟩) ?_ (by decide) rfl (by norm_num)
  · intro c g q _
    exact ⟨(one_smul ℝ _).symm, .inl rfl⟩
  · intro h; cases h
  · intro q hq; cases hq
  · show (0 : ℝ) < 1 / 50; norm_num
  · simp [owned, plain]

/-- … and the theorem on the mass applies to it; … -/
example : ∀ st, run config (parts (plain true none)) 0 flow = .ok st → totalMass (plain true none) st.snap.x = totalMass (plain true none) flow.x :=
  (C109_mass (soundPlain true none) rfl rfl tangential (.inl rfl) (solves true none) (fun h => by cases h) (fun q hq => by cases hq)).2

/-- … with the stabiliser as well, and for the periodic domain and the momentum; … -/
example (s0 : Snapshot (Fin 2 × Fin 4 → Node ℝ 2 9)) (st) (h : run config (parts (setup true none)) 0 s0 = .ok st) :
    totalMass (setup true none) st.snap.x = totalMass (setup true none) s0.x :=
  (C109_mass (sound true none) rfl rfl tangential (.inl rfl) (solves true none) (fun h => by cases h) (fun q hq i time x => by
    rw [List.mem_singleton.1 hq]
    exact (C109_stabiliser (plain true none) false i time x).1)).2 st h

example (s0 : Snapshot (Fin 2 × Fin 4 → Node ℝ 2 9)) (st) (h : run config (parts (setup false none)) 0 s0 = .ok st) :
    totalMomentum (setup false none) st.snap.x (0 : Fin 2) = totalMomentum (setup false none) s0.x (0 : Fin 2) :=
  (C109_momentum (sound false none) rfl rfl (noWalls none) rfl (solves false none) (fun h => by cases h) (0 : Fin 2) (fun q hq i time x => by
    rw [List.mem_singleton.1 hq]
    exact (C109_stabiliser (plain false none) false i time x).2 (0 : Fin 2))).2 st h

/-- … with a force, the first collision succeeds, and 250 steps bring the momentum of 251. -/
example : ∃ snap, runTrajectory config (parts (plain false (some ![1, 0]))) 0 flow 0 = .ok snap := by
  have hs := soundPlain false (some ![1, 0])
  obtain ⟨x', hx'⟩ := forced_step_succeeds .D2Q9 (plain false (some ![1, 0])).collision (c := 2) (viscosity := 1 / 100) (dt := 1 / 50)
    (nodes := flow.x) rfl (.inr rfl) (owned_nodup hs) (by simp [owned, plain]) (r := ⟨2, 9, .D2Q9, .mrtStandard, .bgk, .mrt, .bgk⟩) (by decide) rfl
    (fun j _ => by
      have : Spec.mass (uniform (plain true none) .bgk 1 ![1 / 10, 0]) = 1 :=
        (StencilType.D2Q9.conservative (viscosity := (plain true none).viscosity) (dt := (plain true none).dt) (plain true none).collision rfl
          (soundPlain true none).scaling .bgk).mass _
      show 1 / 10 ^ 10 < Spec.mass (uniform (plain true none) .bgk 1 ![1 / 10, 0])
      rw [this]; norm_num)
  refine ⟨{ flow with x := x' }, ?_⟩
  have hp : (parts (plain false (some ![1, 0]))).collide flow.x = .ok x' := by
    simp only [parts, SedgSolver.collide]
    have hx : isothermalCollide StencilType.D2Q9 (plain false (some ![1, 0])).c (plain false (some ![1, 0])).viscosity
        (plain false (some ![1, 0])).dt (plain false (some ![1, 0])).collision false (owned (plain false (some ![1, 0]))) flow.x = .ok x' := hx'
    rw [hx]
  simp only [runTrajectory, Spec.trajectory, Solver.collide, hp]

example (s0 : Snapshot (Fin 2 × Fin 4 → Node ℝ 2 9)) (st) (h : run config (parts (plain false (some ![1, 0]))) 0 s0 = .ok st) :
    totalMomentum (plain false (some ![1, 0])) st.snap.x (0 : Fin 2) = totalMomentum (plain false (some ![1, 0])) s0.x (0 : Fin 2)
      + (((st.i - 0 : ℕ) : ℝ) + 1) * (1 / 50 * 1) * volume (plain false (some ![1, 0])) :=
  (C111_momentum_partial (soundPlain false (some ![1, 0])) rfl rfl (noWalls (some ![1, 0])) rfl rfl (solves false (some ![1, 0])) (fun h => by cases h) (0 : Fin 2)
    (fun q hq => by cases hq)).2 st h

end Sample

end SedgSolver
end NATriuM
