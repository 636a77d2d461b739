import Verif.Lemmas.SlSolver
import Verif.Props.PathTracking
import Verif.Props.Stabilizer
import Mathlib.Tactic.FinCases
import Mathlib.Tactic.NormNum

/-!
# Properties C113, C114: whole runs of the semi-Lagrangian solver

`Solver.run cfg (parts s) start s0` is a complete run of the solver `s`.  `Solver.runTrajectory cfg (parts s) start s0 k` is the state after `k` steps.
-/

namespace NATriuM
namespace SlSolver

open Solver

variable {t : StencilType} {K : Type*} [Field K] [LinearOrder K] [IsStrictOrderedRing K] {m n N : ℕ} {C : Type*} {s : Setup t K m n N C}
  {cfg : RunConfig} {start : ℕ} {s0 : Snapshot (Fin N → Node ℝ t.D t.Q)}

/-! ## C113 -/

/-- What is uniform stays uniform in a step. -/
theorem uniform_advance (hs : Sound s) (hsm : NoSmallWeights s) (hw : WallsAtRest s) (ht : t.exact = true) (hforce : s.collision.force = none)
    {ec : EquilibriumClass} (hec : configuredEquilibrium s.collision.eq = some ec) (rho : ℝ) (v : Fin t.D → ℝ)
    (hv : v = 0 ∨ s.mesh.NoBounceBack ∧ s.mesh.NoDoNothing) :
    (∀ time x, (∀ y, (x y).f = uniform s ec rho v) → advect s time x = x) ∧
    ∀ x x', (∀ y, (x y).f = uniform s ec rho v) → collide s x = .ok x' → ∀ y, x' y = ⟨uniform s ec rho v, rho, v⟩ := by
  refine ⟨fun time x hx => advect_uniform hs hsm hw hv time x hx, fun x x' hx h y => ?_⟩
  have := C15_equilibrium_fixed t s.collision ht hs.scaling hforce (List.nodup_finRange N) h (List.mem_finRange y) hec rho v (hx y)
  exact Node.ext (this.1.trans (hx y)) this.2.1 this.2.2

/-- **C113** A uniform flow – at rest between walls, or moving in a domain without walls – stays as it is: after every step all populations, densities
and velocities are those of the uniform flow.  This holds for every mesh, every finite element and every time step. -/
theorem C113_uniform (hs : Sound s) (hsm : NoSmallWeights s) (hw : WallsAtRest s) (ht : t.exact = true) (hforce : s.collision.force = none)
    {ec : EquilibriumClass} (hec : configuredEquilibrium s.collision.eq = some ec) (rho : ℝ) (v : Fin t.D → ℝ)
    (hv : v = 0 ∨ s.mesh.NoBounceBack ∧ s.mesh.NoDoNothing)
    (hfil : cfg.isFiltering = true → ∀ r : ℝ, Smoothing.filterCell s.toModes s.fromModes s.factor (fun _ => r) = fun _ => r)
    (hproc : ∀ q ∈ s.processors, ∀ i time x, (∀ y : Fin N, x y = ⟨uniform s ec rho v, rho, v⟩) → q i time x = x)
    (h0 : ∀ y, (s0.x y).f = uniform s ec rho v) :
    (∀ k snap, runTrajectory cfg (parts s) start s0 k = .ok snap → ∀ y, snap.x y = ⟨uniform s ec rho v, rho, v⟩) ∧
    ∀ st, run cfg (parts s) start s0 = .ok st → ∀ y, st.snap.x y = ⟨uniform s ec rho v, rho, v⟩ := by
  obtain ⟨hadv, hcol⟩ := uniform_advance hs hsm hw ht hforce hec rho v hv
  have key : ∀ k snap, runTrajectory cfg (parts s) start s0 k = .ok snap → ∀ y, snap.x y = ⟨uniform s ec rho v, rho, v⟩ := by
    intro k snap hk
    have := trajectory_invariant_sl (cfg := cfg) (p := parts s) (start := start) (s0 := s0) (fun k x => (∀ y, (x y).f = uniform s ec rho v) ∧
      (0 < k → ∀ y, x y = ⟨uniform s ec rho v, rho, v⟩)) rfl ?_ ?_ ?_ ?_ ⟨h0, fun h => absurd h (lt_irrefl _)⟩ k snap hk
    · exact this.2 (Nat.succ_pos k)
    · intro _ _ time x x' hx h
      change Except.ok (advect s time x) = _ at h
      rw [hadv time x hx.1] at h
      cases h
      exact hx
    · intro hF k x hx
      show _ ∧ _
      rw [show (parts s).applyFilter x = applyFilter s x from rfl, applyFilter_uniform _ (hfil hF) x hx.1]
      exact hx
    · intro k x x' hx h
      have := hcol x x' hx.1 h
      exact ⟨fun y => by rw [this y], fun _ => this⟩
    · intro q hq k i time x hx
      rw [hproc q hq i time x (hx.2 (Nat.succ_pos k))]
      exact hx
  exact ⟨key, fun st h => key _ _ (run_ok h).2.1⟩

/-- **C113** Such a run is never aborted: every step succeeds, if the configuration is supported and the density is above the threshold of the
collision. -/
theorem C113_completes (hs : Sound s) (hsm : NoSmallWeights s) (hw : WallsAtRest s) (ht : t.exact = true) (hforce : s.collision.force = none)
    {ec : EquilibriumClass} (hec : configuredEquilibrium s.collision.eq = some ec) (rho : ℝ) (v : Fin t.D → ℝ)
    (hv : v = 0 ∨ s.mesh.NoBounceBack ∧ s.mesh.NoDoNothing)
    (hfil : cfg.isFiltering = true → ∀ r : ℝ, Smoothing.filterCell s.toModes s.fromModes s.factor (fun _ => r) = fun _ => r)
    (hproc : ∀ q ∈ s.processors, ∀ i time x, (∀ y : Fin N, x y = ⟨uniform s ec rho v, rho, v⟩) → q i time x = x)
    (h0 : ∀ y, (s0.x y).f = uniform s ec rho v) {r : Row} {relax : Relaxation ℝ t.D t.Q} (hne : 0 < N)
    (hr : (isoSelection t.D).1.find? (·.applies { stencil := t, scheme := s.collision.scheme, eq := s.collision.eq }) = some r)
    (hx : t.relaxation s.collision.mrtBasis s.collision.relaxMode (collisionData t s.c s.viscosity s.dt s.collision).tau r.collisionType = .ok relax)
    (hrho : 1 / 10 ^ 10 < rho) : ∃ st, run cfg (parts s) start s0 = .ok st ∧ ∀ y, st.snap.x y = ⟨uniform s ec rho v, rho, v⟩ := by
  obtain ⟨hadv, hcol⟩ := uniform_advance hs hsm hw ht hforce hec rho v hv
  have hcol' : ∀ x : Fin N → Node ℝ t.D t.Q, (∀ y, (x y).f = uniform s ec rho v) →
      ∃ x', collide s x = .ok x' ∧ ∀ y, x' y = ⟨uniform s ec rho v, rho, v⟩ := by
    intro x hxf
    obtain ⟨x', hx'⟩ := step_succeeds t s.collision (c := s.c) (viscosity := s.viscosity) (dt := s.dt) (nodes := x) hforce (List.nodup_finRange N)
      (by rw [Ne, List.finRange_eq_nil_iff]; exact hne.ne') hr hx
      (fun j _ => by
        rw [hxf j]
        have : Spec.mass (uniform s ec rho v) = rho := (t.conservative (viscosity := s.viscosity) (dt := s.dt) s.collision ht hs.scaling ec).mass _
        rw [this]; exact hrho)
    exact ⟨x', hx', hcol x x' hxf hx'⟩
  refine run_completes (fun snap : Snapshot (Fin N → Node ℝ t.D t.Q) => ∀ y, snap.x y = ⟨uniform s ec rho v, rho, v⟩) ?_ ?_
  · obtain ⟨x', hx', hu⟩ := hcol' s0.x h0
    refine ⟨{ s0 with x := x' }, ?_, hu⟩
    have hp : (parts s).collide s0.x = .ok x' := hx'
    simp only [Solver.collide, hp]
  · intro i snap hsnap
    have hf : ∀ y, (snap.x y).f = uniform s ec rho v := fun y => by rw [hsnap y]
    have hst : Solver.stream (parts s) (i - start) snap = .ok { snap with time := snap.time + snap.dt } := by
      have ha : (parts s).advect (i - start) snap.time snap.x = .ok snap.x := congrArg Except.ok (hadv snap.time snap.x hf)
      unfold Solver.stream
      rw [show (parts s).scheme = .semiLagrangian from rfl]
      simp only [ha]
    have hfi : Solver.filter cfg (parts s) i { snap with time := snap.time + snap.dt } = { snap with time := snap.time + snap.dt } := by
      unfold Solver.filter
      split
      · next hif =>
        have hF : cfg.isFiltering = true := by simp at hif; exact hif.1
        rw [show (parts s).applyFilter snap.x = snap.x from applyFilter_uniform _ (hfil hF) snap.x hf]
      · rfl
    obtain ⟨x', hx', hu⟩ := hcol' snap.x hf
    have hp : (parts s).collide snap.x = .ok x' := hx'
    refine ⟨applyProcessors (parts s) i { snap with time := snap.time + snap.dt, x := x' }, ?_, ?_⟩
    · simp only [advance, hst, hfi, Solver.collide, hp]
    · have : ∀ l : List _, (∀ q ∈ l, q ∈ s.processors) → l.foldl (fun x proc => proc i (snap.time + snap.dt) x) x' = x' := by
        intro l
        induction l with
        | nil => intro _; rfl
        | cons q l ih =>
          intro hl
          rw [List.foldl_cons, hproc q (hl q List.mem_cons_self) _ _ _ hu]
          exact ih fun q hq => hl q (List.mem_cons_of_mem _ hq)
      show ∀ y, (s.processors.foldl (fun x proc => proc i (snap.time + snap.dt) x) x') y = _
      rw [this _ fun _ h => h]
      exact hu

omit [LinearOrder K] [IsStrictOrderedRing K] in
/-- **C113** Velocity boundaries with velocity zero are walls at rest. -/
theorem C113_walls (points : Paths.Tracker K (m + 2) C × ℕ → Walls.HitPoint ℝ t.D) (eps : Paths.Tracker K (m + 2) C × ℕ → ℝ)
    (h : s.applyHit = wallHit s.c (fun _ _ => 0) points eps) : WallsAtRest s := by
  intro hit _ time old new
  rw [h]
  unfold wallHit
  split_ifs
  · unfold Walls.velocityWall
    have : Walls.toAdd (t.stencil s.c) (Walls.evaluatedVelocity (fun _ _ => 0) (points hit) (eps hit) time) ⟨hit.1.direction, ‹_›⟩ = 0 := by
      simp [Walls.toAdd, Walls.evaluatedVelocity]
    rw [this, add_zero]
    funext i y
    simp only [Walls.Store.set]
    split_ifs with hiy
    · rw [← hiy.1, ← hiy.2]
    · rfl
  · rfl
  · rfl

/-! ## C114 -/

section

variable {P : Type*} [Fintype P] [DecidableEq P] {node : Fin N → P} {σ : Equiv.Perm (Fin t.Q × P)} {ω : Fin N → ℝ}

omit [IsStrictOrderedRing K] in
/-- What a run does to a functional of the populations, if a collision adds a constant -/
theorem functional_run (hn : Function.Surjective node) (hm : Moves s node σ) (hω : ∀ x, share node ω (σ x).2 = share node ω x.2)
    (hw : WallsAtRest s) (w : Fin t.Q → ℝ) (hww : ∀ x, w (σ x).1 = w x.1) (d : ℝ) (hfil : cfg.isFiltering = true → FilterKeeps s node ω)
    (hcol : ∀ x x', collide s x = .ok x' → functional ω w (populations x') = functional ω w (populations x) + d)
    (hproc : ∀ q ∈ s.processors, ∀ i time x, Consistent node x →
      functional ω w (populations (q i time x)) = functional ω w (populations x) ∧ Consistent node (q i time x))
    (h0 : Consistent node s0.x) (k : ℕ) (snap) (hk : runTrajectory cfg (parts s) start s0 k = .ok snap) :
    functional ω w (populations snap.x) = functional ω w (populations s0.x) + ((k : ℝ) + 1) * d := by
  have := trajectory_invariant_sl (cfg := cfg) (p := parts s) (start := start) (s0 := s0)
    (fun k x => Consistent node x ∧ functional ω w (populations x) = functional ω w (populations s0.x) + (k : ℝ) * d) rfl ?_ ?_ ?_ ?_
    ⟨h0, by simp⟩ k snap hk
  · simpa using this.2
  · rintro k j time x x' ⟨hc, hx⟩ h
    change Except.ok (advect s time x) = _ at h
    cases h
    have := functional_moves hn hm ω w hω hww (populations x) fun i y z hyz => congrFun (hc y z hyz) i
    unfold advect
    rw [applyBoundaryConditions_rest hw]
    refine ⟨fun y z hyz => funext fun i => this.2 i y z hyz, ?_⟩
    rw [← hx]
    exact this.1
  · rintro hF k x ⟨hc, hx⟩
    have := functional_filter ω w (hfil hF) x hc
    exact ⟨this.2, this.1.trans hx⟩
  · rintro k x x' ⟨hc, hx⟩ h
    refine ⟨collide_consistent hc h, ?_⟩
    rw [hcol x x' h, hx]
    push_cast
    ring
  · rintro q hq k i time x ⟨hc, hx⟩
    have := hproc q hq i time x hc
    exact ⟨this.2, this.1.trans hx⟩

omit [IsStrictOrderedRing K] in
/-- **C114** If the time step moves populations from node to node (as in a lattice Boltzmann method on a regular lattice), the mass of the fluid is the
same after every step of a run and at its end as at its beginning: for every collision scheme, viscosity and force. -/
theorem C114_mass_partial (hs : Sound s) (ht : t.exact = true) (hn : Function.Surjective node) (hm : Moves s node σ)
    (hω : ∀ x, share node ω (σ x).2 = share node ω x.2) (hw : WallsAtRest s)
    (hforce : s.collision.force = none ∨ s.collision.forceType = .exactDifference) (hfil : cfg.isFiltering = true → FilterKeeps s node ω)
    (hproc : ∀ q ∈ s.processors, ∀ i time x, Consistent node x → totalMass ω (q i time x) = totalMass ω x ∧ Consistent node (q i time x))
    (h0 : Consistent node s0.x) :
    (∀ k snap, runTrajectory cfg (parts s) start s0 k = .ok snap → totalMass ω snap.x = totalMass ω s0.x) ∧
    ∀ st, run cfg (parts s) start s0 = .ok st → totalMass ω st.snap.x = totalMass ω s0.x := by
  have key : ∀ k snap, runTrajectory cfg (parts s) start s0 k = .ok snap → totalMass ω snap.x = totalMass ω s0.x := by
    intro k snap hk
    have := functional_run hn hm hω hw (fun _ => 1) (fun _ => rfl) 0 hfil ?_ ?_ h0 k snap hk
    · rw [totalMass_eq, totalMass_eq, this]; simp
    · intro x x' h
      rw [add_zero, ← totalMass_eq, ← totalMass_eq]
      have hm : ∀ y, Spec.mass (x' y).f = Spec.mass (x y).f := fun y => by
        cases hF : s.collision.force with
        | none => exact (step_conserves t s.collision ht hs.scaling hF (List.nodup_finRange N) h y).1
        | some F =>
          have hft : s.collision.forceType = .exactDifference := hforce.resolve_left (by rw [hF]; simp)
          exact (C16_exactDifference t s.collision ht hs.scaling hF hft (List.nodup_finRange N) h (List.mem_finRange y)).1
      unfold totalMass
      simp only [hm]
    · intro q hq i time x hx
      rw [← totalMass_eq, ← totalMass_eq]
      exact hproc q hq i time x hx
  exact ⟨key, fun st h => key _ _ (run_ok h).2.1⟩

omit [IsStrictOrderedRing K] in
/-- **C114** If moreover the populations keep their directions, so is the momentum, without force; … -/
theorem C114_momentum_partial (hs : Sound s) (ht : t.exact = true) (hn : Function.Surjective node) (hm : Moves s node σ)
    (hω : ∀ x, share node ω (σ x).2 = share node ω x.2) (hσ : ∀ x, (σ x).1 = x.1) (hw : WallsAtRest s)
    (hforce : s.collision.force = none) (hfil : cfg.isFiltering = true → FilterKeeps s node ω) (a : Fin t.D)
    (hproc : ∀ q ∈ s.processors, ∀ i time x, Consistent node x →
      totalMomentum s ω (q i time x) a = totalMomentum s ω x a ∧ Consistent node (q i time x))
    (h0 : Consistent node s0.x) :
    (∀ k snap, runTrajectory cfg (parts s) start s0 k = .ok snap → totalMomentum s ω snap.x a = totalMomentum s ω s0.x a) ∧
    ∀ st, run cfg (parts s) start s0 = .ok st → totalMomentum s ω st.snap.x a = totalMomentum s ω s0.x a := by
  have key : ∀ k snap, runTrajectory cfg (parts s) start s0 k = .ok snap → totalMomentum s ω snap.x a = totalMomentum s ω s0.x a := by
    intro k snap hk
    have := functional_run hn hm hω hw (fun i => (t.stencil s.c).dir i a) (fun x => by rw [hσ]) 0 hfil ?_ ?_ h0 k snap hk
    · rw [totalMomentum_eq, totalMomentum_eq, this]; simp
    · intro x x' h
      rw [add_zero, ← totalMomentum_eq, ← totalMomentum_eq]
      have hm : ∀ y, Spec.momentum (t.stencil s.c).dir (x' y).f a = Spec.momentum (t.stencil s.c).dir (x y).f a := fun y =>
        (step_conserves t s.collision ht hs.scaling hforce (List.nodup_finRange N) h y).2 a
      unfold totalMomentum
      simp only [hm]
    · intro q hq i time x hx
      rw [← totalMomentum_eq, ← totalMomentum_eq]
      exact hproc q hq i time x hx
  exact ⟨key, fun st h => key _ _ (run_ok h).2.1⟩

omit [IsStrictOrderedRing K] in
/-- **C114** … with exact-difference forcing, the momentum after `k` steps is the initial one plus `(k + 1) dt F` times the volume: there is one
collision before the first step. -/
theorem C114_force_partial (hs : Sound s) (ht : t.exact = true) (hn : Function.Surjective node) (hm : Moves s node σ)
    (hω : ∀ x, share node ω (σ x).2 = share node ω x.2) (hσ : ∀ x, (σ x).1 = x.1) (hw : WallsAtRest s) {F : Fin t.D → ℝ}
    (hforce : s.collision.force = some F) (hft : s.collision.forceType = .exactDifference) (hfil : cfg.isFiltering = true → FilterKeeps s node ω)
    (a : Fin t.D) (hproc : ∀ q ∈ s.processors, ∀ i time x, Consistent node x →
      totalMomentum s ω (q i time x) a = totalMomentum s ω x a ∧ Consistent node (q i time x))
    (h0 : Consistent node s0.x) :
    (∀ k snap, runTrajectory cfg (parts s) start s0 k = .ok snap →
      totalMomentum s ω snap.x a = totalMomentum s ω s0.x a + ((k : ℝ) + 1) * (s.dt * F a * ∑ y, ω y)) ∧
    ∀ st, run cfg (parts s) start s0 = .ok st →
      totalMomentum s ω st.snap.x a = totalMomentum s ω s0.x a + (((st.i - start : ℕ) : ℝ) + 1) * (s.dt * F a * ∑ y, ω y) := by
  have key : ∀ k snap, runTrajectory cfg (parts s) start s0 k = .ok snap →
      totalMomentum s ω snap.x a = totalMomentum s ω s0.x a + ((k : ℝ) + 1) * (s.dt * F a * ∑ y, ω y) := by
    intro k snap hk
    have := functional_run hn hm hω hw (fun i => (t.stencil s.c).dir i a) (fun x => by rw [hσ]) (s.dt * F a * ∑ y, ω y) hfil ?_ ?_ h0 k snap hk
    · rw [totalMomentum_eq, totalMomentum_eq, this]
    · intro x x' h
      rw [← totalMomentum_eq, ← totalMomentum_eq]
      have hm : ∀ y, Spec.momentum (t.stencil s.c).dir (x' y).f a = Spec.momentum (t.stencil s.c).dir (x y).f a + s.dt * F a := fun y => by
        have := (C16_exactDifference t s.collision ht hs.scaling hforce hft (List.nodup_finRange N) h (List.mem_finRange y)).2.1 a
        rwa [one_mul] at this
      unfold totalMomentum integral
      simp only [hm, mul_add, Finset.sum_add_distrib, ← Finset.sum_mul]
      rw [mul_comm (s.dt * F a)]
    · intro q hq i time x hx
      rw [← totalMomentum_eq, ← totalMomentum_eq]
      exact hproc q hq i time x hx
  exact ⟨key, fun st h => key _ _ (run_ok h).2.1⟩

end

/-! ## A square -/

namespace Sample

/-- The polynomials of degree `r` (1 or 2) that are one at `k / r` and zero at the other such points -/
def lagrange (r k : ℕ) (x : ℚ) : ℚ :=
  if r = 1 then (if k = 0 then 1 - x else x)
  else if k = 0 then 2 * (x - 1 / 2) * (x - 1) else if k = 1 then 4 * x * (1 - x) else 2 * x * (x - 1 / 2)

/-- Four square cells, `[0, 2] x [0, 2]`, with a continuous element of degree `r`; periodic in the second direction -/
def mesh (r : ℕ) (left right : Fin 2 → Paths.BoundaryKind ℚ 2 (Fin 2 × Fin 2)) : Paths.Mesh ℚ 0 (Fin 2 × Fin 2) :=
  { Paths.Sample.mesh left right with
    dofs := fun c => (List.range ((r + 1) * (r + 1))).map fun k => (2 * r + 1) * (r * c.2.val + k / (r + 1)) + (r * c.1.val + k % (r + 1))
    supportPoint := fun c k => ![(c.1.val : ℚ) + (k % (r + 1) : ℕ) / r, (c.2.val : ℚ) + (k / (r + 1) : ℕ) / r]
    shape := fun k h => lagrange r (k % (r + 1)) (h 0) * lagrange r (k / (r + 1)) (h 1) }

def periodic (r : ℕ) : Paths.Mesh ℚ 0 (Fin 2 × Fin 2) :=
  mesh r (fun r => .periodic (fun p a => p a + ![2, 0] a) (1, r)) (fun r => .periodic (fun p a => p a + ![-2, 0] a) (0, r))

def walls (r : ℕ) : Paths.Mesh ℚ 0 (Fin 2 × Fin 2) := mesh r (fun _ => .bounceBack) (fun _ => .bounceBack)

/-- The square root of squares; for twice a square, `7/5` times the root of the square.  (Only ratios of lengths in the same direction are used.) -/
def root (x : ℚ) : ℚ := if Rat.sqrt x * Rat.sqrt x = x then Rat.sqrt x else 7 / 5 * Rat.sqrt (x / 2)

/-- The directions of D2Q9 -/
def paths (dt : ℚ) : Paths.Setup ℚ 2 where
  Q := 9
  e b := [![0, 0], ![1, 0], ![0, 1], ![-1, 0], ![0, -1], ![1, 1], ![-1, 1], ![-1, -1], ![1, -1]].getD b ![0, 0]
  opp b := [0, 3, 4, 1, 2, 7, 8, 5, 6].getD b 0
  dt := dt
  sqrt := root

/-- What is assembled -/
def assembly (M : Paths.Mesh ℚ 0 (Fin 2 × Fin 2)) (dt : ℚ) : Paths.Assembly ℚ 2 (Fin 2 × Fin 2) :=
  match Paths.fillSparseObject M (paths dt) none with
  | .ok as => as
  | .error _ => ⟨[], [], []⟩

/-- A solver with MRT collision and walls at rest -/
noncomputable def solver (r : ℕ) (M : Paths.Mesh ℚ 0 (Fin 2 × Fin 2)) (dt : ℚ) (force : Option (Fin 2 → ℝ)) :
    Setup .D2Q9 ℚ 0 ((r + 1) * (r + 1)) ((2 * r + 1) * (2 * r + 1)) (Fin 2 × Fin 2) where
  c := 1
  toReal := Rat.castHom ℝ
  mesh := M
  paths := paths dt
  assembly := assembly M dt
  applyHit := wallHit (t := .D2Q9) 1 (fun _ _ => 0) (fun _ => ⟨0, id⟩) (fun _ => 0)
  dof c k := ⟨((2 * r + 1) * (r * c.2.val + k.val / (r + 1)) + (r * c.1.val + k.val % (r + 1))) % ((2 * r + 1) * (2 * r + 1)),
    Nat.mod_lt _ (by positivity)⟩
  viscosity := 1 / 100
  dt := dt
  collision := { sampleConfig 2 .mrtStandard .bgk .lallemandD2Q9 with forceType := .exactDifference, force := force }
  toModes := 1
  fromModes := 1
  factor _ := 1
  processors := []

theorem kinds (r : ℕ) (left right : Fin 2 → Paths.BoundaryKind ℚ 2 (Fin 2 × Fin 2)) (hl : ∀ a, left a ≠ .other) (hr : ∀ a, right a ≠ .other)
    (c : Fin 2 × Fin 2) (f id : ℕ) : (mesh r left right).face c f ≠ .boundary id .other := by
  intro h
  change (Paths.Sample.mesh left right).face c f = _ at h
  match f, h with
  | 0, h =>
    simp only [Paths.Sample.mesh] at h
    split_ifs at h
    · simp only [Paths.FaceKind.boundary.injEq] at h; exact hl _ h.2
  | 1, h =>
    simp only [Paths.Sample.mesh] at h
    split_ifs at h
    · simp only [Paths.FaceKind.boundary.injEq] at h; exact hr _ h.2
  | 2, h =>
    simp only [Paths.Sample.mesh] at h
    split_ifs at h
    · cases h
  | n + 3, h =>
    simp only [Paths.Sample.mesh] at h
    split_ifs at h
    · cases h

theorem directions (dt : ℚ) (i : Fin 9) (a : Fin 2) : (((paths dt).e i a : ℚ) : ℝ) = D2Q9.dir (1 : ℝ) i a := by
  rw [D2Q9_dir_one]
  congr 1
  fin_cases i <;> fin_cases a <;> rfl

theorem assembled {M : Paths.Mesh ℚ 0 (Fin 2 × Fin 2)} {dt : ℚ} (h : (Paths.fillSparseObject M (paths dt) none).isOk = true) :
    Paths.fillSparseObject M (paths dt) none = .ok (assembly M dt) := by
  unfold assembly
  cases hf : Paths.fillSparseObject M (paths dt) none with
  | ok as => rfl
  | error e => rw [hf] at h; cases h

theorem unity1 (left right) : (mesh 1 left right).PartitionOfUnity := by
  intro c h _
  show ∑ k ∈ Finset.range ((List.range 4).map _).length, _ = _
  rw [List.length_map, List.length_range]
  simp [Finset.sum_range_succ, mesh, lagrange]
  ring

theorem unity2 (left right) : (mesh 2 left right).PartitionOfUnity := by
  intro c h _
  show ∑ k ∈ Finset.range ((List.range 9).map _).length, _ = _
  rw [List.length_map, List.length_range]
  simp [Finset.sum_range_succ, mesh, lagrange]
  ring

theorem sound (r : ℕ) (M : Paths.Mesh ℚ 0 (Fin 2 × Fin 2)) (dt : ℚ) (force : Option (Fin 2 → ℝ))
    (h1 : (Paths.fillSparseObject M (paths dt) none).isOk = true)
    (h2 : ∀ y : Fin ((2 * r + 1) * (2 * r + 1)), M.owned y = true ∧ ∃ cell ∈ M.cells, y.val ∈ M.dofs cell)
    (h3 : ∀ cell, ∀ j ∈ M.dofs cell, j < (2 * r + 1) * (2 * r + 1)) (h4 : M.PartitionOfUnity) (h5 : ∀ c f id, M.face c f ≠ .boundary id .other) :
    Sound (solver r M dt force) where
  assembled := assembled h1
  everywhere := h2
  inside := fun cell j h => h3 cell j h
  unity := h4
  embedding := fun a b h => by show ((a : ℚ) : ℝ) < (b : ℝ); exact_mod_cast h
  dimension := rfl
  number := rfl
  directions := fun i a => directions dt i a
  step := rfl
  opposite := fun i h => by
    change Fin 9 at i
    show (paths dt).opp i = (D2Q9.stencil (1 : ℝ)).opp i ∧ 0 < (paths dt).opp i
    fin_cases i <;> first | exact absurd h (lt_irrefl _) | exact ⟨rfl, Nat.succ_pos _⟩
  kinds := h5
  scaling := by simp [solver]

/-- A check that no weight is left out -/
def weightsCheck (M : Paths.Mesh ℚ 0 (Fin 2 × Fin 2)) (ps : Paths.Setup ℚ 2) : Bool :=
  M.cells.all fun cell => (List.range (M.dofs cell).length).all fun k => (List.range ps.Q).all fun alpha =>
    match Paths.Sample.follow M ps 8 (Paths.newPath ps cell (M.supportPoint cell k) ((M.dofs cell).getD k 0) alpha) with
    | some (.found p) => (match Paths.unitDeparture M p with
      | .ok x => (List.range (M.dofs p.currentCell).length).all fun l => decide (M.shape l x = 0 ∨ 1 / 10 ^ 10 ≤ |M.shape l x|)
      | .error _ => true)
    | some _ => true
    | none => false

theorem noSmallWeights (r : ℕ) (M : Paths.Mesh ℚ 0 (Fin 2 × Fin 2)) (dt : ℚ) (force : Option (Fin 2 → ℝ)) (h : weightsCheck M (paths dt) = true) :
    NoSmallWeights (solver r M dt force) := by
  rintro i alpha path p x h0 hQ ⟨cell, k, hc, hk, rfl⟩ hfol hx l hl
  change alpha < (paths dt).Q at hQ
  change Paths.Follows M (paths dt) _ _ at hfol
  change cell ∈ M.cells at hc
  change (M.dofs cell)[k]? = some i at hk
  change Paths.unitDeparture M p = .ok x at hx
  change l < (M.dofs p.currentCell).length at hl
  show M.shape l x = 0 ∨ 1 / 10 ^ 10 ≤ |M.shape l x|
  unfold weightsCheck at h
  have hkl : k < (M.dofs cell).length := by
    by_contra hc
    rw [List.getElem?_eq_none (not_lt.1 hc)] at hk
    cases hk
  have h := List.all_eq_true.1 (List.all_eq_true.1 (List.all_eq_true.1 h cell hc) k (List.mem_range.2 hkl)) alpha (List.mem_range.2 hQ)
  rw [List.getD_eq_getElem?_getD, hk, Option.getD_some] at h
  cases hf : Paths.Sample.follow M (paths dt) 8 (Paths.newPath (paths dt) cell (M.supportPoint cell k) i alpha) with
  | none => rw [hf] at h; cases h
  | some e =>
    have he := (Paths.Sample.follow_sound _ _ _ _ _ hf).unique hfol
    subst he
    rw [hf] at h
    simp only [hx] at h
    exact of_decide_eq_true (List.all_eq_true.1 h l (List.mem_range.2 hl))

/-- Quadratic elements and a quarter of a cell per step, periodic … -/
theorem sound_periodic : Sound (solver 2 (periodic 2) (1 / 4) none) :=
  sound 2 _ _ _ (by decide +kernel) (by decide +kernel) (by decide +kernel) (unity2 _ _) (kinds 2 _ _ (by intro a h; cases h) (by intro a h; cases h))

/-- … or linear elements with walls -/
theorem sound_walls : Sound (solver 1 (walls 1) (1 / 4) none) :=
  sound 1 _ _ _ (by decide +kernel) (by decide +kernel) (by decide +kernel) (unity1 _ _) (kinds 1 _ _ (by intro a h; cases h) (by intro a h; cases h))

theorem rest (r M dt force) : WallsAtRest (solver r M dt force) := C113_walls (fun _ => ⟨0, id⟩) (fun _ => 0) rfl

/-- A run of 250 steps -/
def config : RunConfig where
  numberOfTimeSteps := 250
  simulationEndTime := 1000
  convergenceThreshold := 0
  switchOutputOff := false
  solutionInterval := 10
  tableInterval := 10
  checkpointInterval := 100
  isFiltering := true
  filterInterval := 1
  solutionInterval_pos := by decide
  tableInterval_pos := by decide
  checkpointInterval_pos := by decide
  filterInterval_pos := by decide

theorem filtered (r M dt force) (a : ℝ) :
    Smoothing.filterCell (solver r M dt force).toModes (solver r M dt force).fromModes (solver r M dt force).factor (fun _ => a) = fun _ => a := by
  funext k
  simp [Smoothing.filterCell, solver]

/-- The moving flow in the periodic square -/
noncomputable def flow : Snapshot (Fin 25 → Node ℝ 2 9) where
  x _ := { f := uniform (solver 2 (periodic 2) (1 / 4) none) .bgk 1 ![1 / 10, 1 / 20], rho := 0, u := 0 }
  time := 0
  dt := 1 / 4

/-- `C113_completes`, `C113_uniform`: the flow moves on, … -/
theorem completed : ∃ st, run config (parts (solver 2 (periodic 2) (1 / 4) none)) 0 flow = .ok st ∧
    ∀ y, st.snap.x y = ⟨uniform (solver 2 (periodic 2) (1 / 4) none) .bgk 1 ![1 / 10, 1 / 20], 1, ![1 / 10, 1 / 20]⟩ := by
  refine C113_completes sound_periodic (noSmallWeights _ _ _ _ (by decide +kernel)) (rest _ _ _ _) rfl rfl (ec := .bgk) rfl 1 ![1 / 10, 1 / 20]
    (.inr ⟨Paths.Sample.periodic_noBounceBack, Paths.Sample.periodic_noDoNothing⟩) (fun _ => filtered _ _ _ _) (fun q hq => by cases hq) (fun _ => rfl)
    (r := ⟨2, 9, .D2Q9, .mrtStandard, .bgk, .mrt, .bgk⟩) (by norm_num) (by decide) rfl (by norm_num)

/-- … and stays at rest between walls. -/
example : ∃ st, run config (parts (solver 1 (walls 1) (1 / 4) none)) 0
      ⟨fun _ => ⟨uniform (solver 1 (walls 1) (1 / 4) none) .bgk 1 0, 0, 0⟩, 0, 1 / 4⟩ = .ok st ∧
    ∀ y, st.snap.x y = ⟨uniform (solver 1 (walls 1) (1 / 4) none) .bgk 1 0, 1, 0⟩ := by
  refine C113_completes sound_walls (noSmallWeights _ _ _ _ (by decide +kernel)) (rest _ _ _ _) rfl rfl (ec := .bgk) rfl 1 0
    (.inl rfl) (fun _ => filtered _ _ _ _) (fun q hq => by cases hq) (fun _ => rfl)
    (r := ⟨2, 9, .D2Q9, .mrtStandard, .bgk, .mrt, .bgk⟩) (by norm_num) (by decide) rfl (by norm_num)

/-- The points of the periodic square for linear elements; degrees of freedom are numbered row by row, and the last column is the first one, the last
row the first one. -/
def node (y : Fin 9) : Fin 2 × Fin 2 := (Fin.ofNat 2 (y.val % 3), Fin.ofNat 2 (y.val / 3))

/-- One cell in each direction of the stencil -/
def move (x : Fin 9 × (Fin 2 × Fin 2)) : Fin 9 × (Fin 2 × Fin 2) :=
  (x.1, x.2.1 + ([0, 1, 0, 1, 0, 1, 1, 1, 1].getD x.1.val 0 : Fin 2), x.2.2 + ([0, 0, 1, 0, 1, 1, 1, 1, 1].getD x.1.val 0 : Fin 2))

/-- (There are two cells in each direction.) -/
def moves : Equiv.Perm (Fin 9 × (Fin 2 × Fin 2)) := ⟨move, move, by decide +kernel, by decide +kernel⟩

/-- The integrals of the shape functions -/
def weight (y : Fin 9) : ℚ := (if y.val % 3 = 1 then 1 else 1 / 2) * (if y.val / 3 = 1 then 1 else 1 / 2)

noncomputable def volumes (y : Fin 9) : ℝ := (weight y : ℝ)

theorem share_one (p : Fin 2 × Fin 2) : share node volumes p = 1 := by
  have h : ∀ p, ∑ y with node y = p, weight y = 1 := by decide +kernel
  unfold share volumes
  exact_mod_cast congrArg (Rat.cast : ℚ → ℝ) (h p)

theorem sound_lattice (force) : Sound (solver 1 (periodic 1) 1 force) :=
  sound 1 _ _ _ (by decide +kernel) (by decide +kernel) (by decide +kernel) (unity1 _ _) (kinds 1 _ _ (by intro a h; cases h) (by intro a h; cases h))

deriving instance DecidableEq for Paths.Entry

/-- Direction (less one), row and column of the entries for the time step of one cell -/
def table : List (ℕ × ℕ × ℕ) :=
  [(0, 0, 1), (1, 0, 3), (2, 0, 1), (3, 0, 3), (4, 0, 4), (5, 0, 4), (6, 0, 4), (7, 0, 4), (0, 1, 0), (1, 1, 4), (2, 1, 2), (3, 1, 4), (4, 1,
    3), (5, 1, 5), (6, 1, 5), (7, 1, 3), (0, 3, 4), (1, 3, 0), (2, 3, 4), (3, 3, 6), (4, 3, 1), (5, 3, 1), (6, 3, 7), (7, 3, 7), (0, 4, 3), (1,
    4, 1), (2, 4, 5), (3, 4, 7), (4, 4, 0), (5, 4, 2), (6, 4, 8), (7, 4, 6), (0, 2, 1), (1, 2, 5), (2, 2, 1), (3, 2, 5), (4, 2, 4), (5, 2, 4),
    (6, 2, 4), (7, 2, 4), (0, 5, 4), (1, 5, 2), (2, 5, 4), (3, 5, 8), (4, 5, 1), (5, 5, 1), (6, 5, 7), (7, 5, 7), (0, 6, 7), (1, 6, 3), (2, 6,
    7), (3, 6, 3), (4, 6, 4), (5, 6, 4), (6, 6, 4), (7, 6, 4), (0, 7, 6), (1, 7, 4), (2, 7, 8), (3, 7, 4), (4, 7, 3), (5, 7, 5), (6, 7, 5), (7,
    7, 3), (0, 8, 7), (1, 8, 5), (2, 8, 7), (3, 8, 5), (4, 8, 4), (5, 8, 4), (6, 8, 4), (7, 8, 4)]

theorem entries_eq : (assembly (periodic 1) 1).entries = table.map fun x => ⟨x.1, x.1, x.2.1, x.2.2, 1⟩ := by decide +kernel

theorem lattice_moves (force) : Moves (solver 1 (periodic 1) 1 force) node moves := by
  have h : ∀ i y : Fin 9, 0 < i.val → ∃ z : Fin 9, node z = (moves (i, node y)).2 ∧
      ((assembly (periodic 1) 1).entries.filter fun x => x.blockRow = i.val - 1 ∧ x.row = y.val) = [⟨i.val - 1, i.val - 1, y.val, z.val, 1⟩] := by
    rw [entries_eq]
    decide +kernel
  intro i y
  change Fin 9 at i
  change Fin 9 at y
  by_cases hi : i.val = 0
  · refine ⟨y, ?_, fun g => ?_⟩
    · have : i = 0 := Fin.ext hi
      subst this
      revert y
      decide
    · rw [hi]
      show g 0 y = g i y
      rw [hi]
  · obtain ⟨z, hz, hf⟩ := h i y (Nat.pos_of_ne_zero hi)
    refine ⟨z, hz, fun g => ?_⟩
    obtain ⟨a, ha⟩ := Nat.exists_eq_succ_of_ne_zero hi
    rw [ha] at hf ⊢
    simp only [Nat.succ_eq_add_one, Nat.add_sub_cancel] at hf
    show (((assembly (periodic 1) 1).entries.filter fun x => x.blockRow = a ∧ x.row = y.val).map fun x => x.value * g (x.blockColumn + 1) x.column).sum =
      g i z
    rw [hf, ha]
    simp

/-- `C114_mass_partial`, `C114_momentum_partial`, `C114_force_partial`: the square is a regular lattice for the time step of one cell, … -/
example (s0 : Snapshot (Fin 9 → Node ℝ 2 9)) (h0 : Consistent (t := .D2Q9) node s0.x) (st)
    (h : run { config with isFiltering := false } (parts (solver 1 (periodic 1) 1 none)) 0 s0 = .ok st) :
    totalMass (t := .D2Q9) volumes st.snap.x = totalMass (t := .D2Q9) volumes s0.x :=
  (C114_mass_partial (sound_lattice none) rfl (by decide +kernel) (lattice_moves none) (fun x => by rw [share_one, share_one]) (rest _ _ _ _) (.inl rfl)
    (fun h => by cases h) (fun q hq => by cases hq) h0).2 st h

example (s0 : Snapshot (Fin 9 → Node ℝ 2 9)) (h0 : Consistent (t := .D2Q9) node s0.x) (st)
    (h : run { config with isFiltering := false } (parts (solver 1 (periodic 1) 1 none)) 0 s0 = .ok st) :
    totalMomentum (solver 1 (periodic 1) 1 none) volumes st.snap.x (0 : Fin 2) = totalMomentum (solver 1 (periodic 1) 1 none) volumes s0.x (0 : Fin 2) :=
  (C114_momentum_partial (sound_lattice none) rfl (by decide +kernel) (lattice_moves none) (fun x => by rw [share_one, share_one]) (fun x => rfl) (rest _ _ _ _)
    rfl (fun h => by cases h) (0 : Fin 2) (fun q hq => by cases hq) h0).2 st h

example (s0 : Snapshot (Fin 9 → Node ℝ 2 9)) (h0 : Consistent (t := .D2Q9) node s0.x) (st)
    (h : run { config with isFiltering := false } (parts (solver 1 (periodic 1) 1 (some ![1, 0]))) 0 s0 = .ok st) :
    totalMomentum (solver 1 (periodic 1) 1 (some ![1, 0])) volumes st.snap.x (0 : Fin 2) =
      totalMomentum (solver 1 (periodic 1) 1 (some ![1, 0])) volumes s0.x (0 : Fin 2) + (((st.i - 0 : ℕ) : ℝ) + 1) * ((1 : ℚ) * 1 * ∑ y, volumes y) :=
  (C114_force_partial (sound_lattice (some ![1, 0])) rfl (by decide +kernel) (lattice_moves (some ![1, 0])) (fun x => by rw [share_one, share_one])
    (fun x => rfl) (rest _ _ _ _) rfl rfl (fun h => by cases h) (0 : Fin 2) (fun q hq => by cases hq) h0).2 st h

/-- … and there are runs from data that are not uniform: the first collision succeeds. -/
example : ∃ snap, runTrajectory config (parts (solver 1 (periodic 1) 1 none)) 0
    ⟨fun y => ⟨fun i => 1 + (if node y = (0, 0) then 1 else 0) * (i.val : ℝ), 0, 0⟩, 0, 1⟩ 0 = .ok snap := by
  obtain ⟨x', hx'⟩ := step_succeeds .D2Q9 (solver 1 (periodic 1) 1 none).collision (c := 1) (viscosity := 1 / 100) (dt := ((1 : ℚ) : ℝ))
    (owned := List.finRange 9) (nodes := fun y => ⟨fun i => 1 + (if node y = (0, 0) then 1 else 0) * (i.val : ℝ), 0, 0⟩) rfl (List.nodup_finRange 9)
    (by decide) (r := ⟨2, 9, .D2Q9, .mrtStandard, .bgk, .mrt, .bgk⟩) (by decide) rfl (fun j _ => by
      have h : ∀ i : Fin 9, (0 : ℝ) ≤ (if node j = (0, 0) then 1 else 0) * (i.val : ℝ) := fun i => by positivity
      have h9 : (9 : ℝ) ≤ Spec.mass fun i : Fin 9 => 1 + (if node j = (0, 0) then 1 else 0) * (i.val : ℝ) := by
        unfold Spec.mass
        rw [Finset.sum_add_distrib]
        simpa using Finset.sum_nonneg fun i _ => h i
      exact lt_of_lt_of_le (by norm_num) h9)
  refine ⟨⟨x', 0, 1⟩, ?_⟩
  have hp : (parts (solver 1 (periodic 1) 1 none)).collide
      (fun y => ⟨fun i => 1 + (if node y = (0, 0) then 1 else 0) * (i.val : ℝ), 0, 0⟩) = .ok x' := hx'
  simp only [runTrajectory, Spec.trajectory, Solver.collide, hp]

/-- The integrals of the quadratic shape functions -/
def weight2 (y : Fin 25) : ℚ :=
  let w : ℕ → ℚ := fun k => [1 / 6, 2 / 3, 1 / 3, 2 / 3, 1 / 6].getD k 0
  w (y.val % 5) * w (y.val / 5)

/-- **C114** (finding) For other time steps the interpolation does not conserve mass, not even with equal cells and without walls: with quadratic
elements and a quarter of a cell per step, what is in direction 1 in the middle of the cells grows from 4/3 to 3/2.  (The populations at periodic
boundaries are the same on both sides.) -/
theorem C114_interpolation_fails : ∃ g : ℕ → ℕ → ℚ, (∀ b k l, k < 5 → l < 5 → g b (5 * k) = g b (5 * k + 4) ∧ g b l = g b (l + 20)) ∧
    ∑ y : Fin 25, weight2 y * g 1 y = 4 / 3 * 2 ∧
    ∑ y : Fin 25, weight2 y * Paths.stream (assembly (periodic 2) (1 / 4)).entries g 1 y = 3 / 2 * 2 := by
  refine ⟨fun _ y => if y % 5 % 2 = 1 then 1 else 0, fun _ k l _ _ => ⟨?_, ?_⟩, by decide +kernel, by decide +kernel⟩
  · simp only; congr 2; omega
  · simp only; congr 2; omega

/-- **C114** (finding) With nodes on walls, streaming does not conserve mass even if it moves populations from node to node: what hits the wall arrives
twice, and what is on the wall is lost. -/
theorem C114_walls_fails : ∃ g : ℕ → ℕ → ℚ, ∑ b : Fin 9, ∑ y : Fin 9, weight y * g b y = 1 / 2 ∧
    ∑ b : Fin 9, ∑ y : Fin 9, weight y * Paths.stream (assembly (walls 1) 1).entries g b y = 0 := by
  refine ⟨fun b y => if b = 1 ∧ y = 5 then 1 else 0, by decide +kernel, by decide +kernel⟩

end Sample

end SlSolver
end NATriuM
