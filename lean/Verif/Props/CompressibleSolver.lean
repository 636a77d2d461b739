import Verif.Lemmas.CompressibleSolver
import Verif.Props.SedgSolver

/-!
# Properties C117 and C118: whole runs of the compressible solver

`Solver.compressibleRun cfg (parts s) start s0` is a complete run of the solver `s` with the discontinuous Galerkin method.
`Solver.compressibleTrajectory cfg (parts s) start s0 k` is the state after `k` steps.
-/

namespace NATriuM
namespace CompressibleSolver

open Solver

variable {t : StencilType} {n nQ nf nq : ℕ} {C : Type*} [DecidableEq C] [Fintype C] {s : Setup t n nQ nf nq C} {cfg : RunConfig} {start : ℕ}
  {s0 : Snapshot (C × Fin n → GNode t.D t.Q)} {x0 : C × Fin n → GNode t.D t.Q}

omit [Fintype C] in
theorem begins_eq (hb : Begins s start s0.x x0) {x} (h : (if start ≤ 1 then (parts s).initializeDistributions s0.x else .ok s0.x) = .ok x) :
    x = x0 := by
  unfold Begins at hb
  split at h
  · next hs =>
    rw [if_pos hs] at hb
    have h' : initializeDistributions s s0.x = .ok x := h
    rw [hb] at h'
    cases h'; rfl
  · next hs =>
    rw [if_neg hs] at hb
    cases h; exact hb.symm

/-! ## C117 -/

/-- **C117** The mass of the fluid is the same after every step of a compressible run and at its end as after the initialisation: for every mesh,
finite element, exact stencil, both equilibria, all gases, both integrators, walls that move along themselves or not at all, no force or an
exact-difference force. -/
theorem C117_mass (hs : SedgSolver.Sound s.core) (ht : t.exact = true) (hcen : s.core.central = false) (hw : SedgSolver.WallsTangential s.core)
    (hforce : s.core.collision.force = none ∨ s.core.collision.forceType = .exactDifference) (hex : SedgSolver.SolvesExactly s.core)
    (hfil : cfg.isFiltering = true → SedgSolver.FilterKeepsMean s.core)
    (hproc : ∀ q ∈ s.processors, ∀ i time x, totalMass s (q i time x) = totalMass s x) (hb : Begins s start s0.x x0) :
    (∀ k snap, compressibleTrajectory cfg (parts s) start s0 k = .ok snap → totalMass s snap.x = totalMass s x0) ∧
    ∀ st, compressibleRun cfg (parts s) start s0 = .ok st → totalMass s st.snap.x = totalMass s x0 := by
  have key : ∀ k snap, compressibleTrajectory cfg (parts s) start s0 k = .ok snap → totalMass s snap.x = totalMass s x0 := by
    refine compressible_invariant (fun _ x => totalMass s x = totalMass s x0) rfl ?_ ?_ ?_ (fun _ _ h => h) ?_ ?_ ?_
    · intro _ _ dt x x' dt' hx h
      obtain ⟨hA, hb⟩ := SedgSolver.functional_walls hs ht hcen hw
      obtain ⟨r, hr, rfl, -⟩ := integrate_ok h
      rw [← hx, totalMass_eq, totalMass_eq]
      exact SedgSolver.step_keeps hex _ hA hb hr
    · intro _ _ dt x x' hx h
      obtain ⟨r, hr, rfl⟩ := gStream_ok h
      exact hx
    · intro hF _ x hx
      rw [← hx]
      show totalMass s (applyFilter s x) = _
      rw [totalMass_eq, totalMass_eq]
      exact filter_functional hs (hfil hF) _ (flow x)
    · intro _ x x' hx h
      rw [← hx]
      have h' := collide_ok h
      have hm : ∀ y, Spec.mass (x' y).f = Spec.mass (x y).f := fun y => by
        cases hF : s.core.collision.force with
        | none => exact (comp_mass_momentum s.core.collision ht hs.scaling hF (SedgSolver.owned_nodup hs) h' y).1
        | some F =>
          have hft : s.core.collision.forceType = .exactDifference := hforce.resolve_left (by rw [hF]; simp)
          exact (C70_exactDifference_partial t s.core.collision ht hs.scaling hF hft (SedgSolver.owned_nodup hs) h' (SedgSolver.mem_owned hs y)).1
      unfold totalMass
      simp only [hm]
    · intro q hq _ i time x hx
      rw [hproc q hq]; exact hx
    · intro x h
      rw [begins_eq hb h]
  exact ⟨key, fun st h => key _ _ (compressibleRun_ok h).2.1⟩

/-- **C117** Without walls and without force, so is the momentum; with an exact-difference force it grows by `dt F` times the volume in every
collision, of which there is one before the first step. -/
theorem C117_momentum (hs : SedgSolver.Sound s.core) (ht : t.exact = true) (hcen : s.core.central = false) (hw : SedgSolver.NoWalls s.core)
    {F : Fin t.D → ℝ} (hforce : s.core.collision.force = none ∧ F = 0 ∨ s.core.collision.force = some F ∧ s.core.collision.forceType = .exactDifference)
    (hex : SedgSolver.SolvesExactly s.core) (hfil : cfg.isFiltering = true → SedgSolver.FilterKeepsMean s.core) (a : Fin t.D)
    (hproc : ∀ q ∈ s.processors, ∀ i time x, totalMomentum s (q i time x) a = totalMomentum s x a) (hb : Begins s start s0.x x0) :
    (∀ k snap, compressibleTrajectory cfg (parts s) start s0 k = .ok snap →
      totalMomentum s snap.x a = totalMomentum s x0 a + ((k : ℝ) + 1) * (s.core.dt * F a) * SedgSolver.volume s.core) ∧
    ∀ st, compressibleRun cfg (parts s) start s0 = .ok st →
      totalMomentum s st.snap.x a = totalMomentum s x0 a + (((st.i - start : ℕ) : ℝ) + 1) * (s.core.dt * F a) * SedgSolver.volume s.core := by
  have key : ∀ k snap, compressibleTrajectory cfg (parts s) start s0 k = .ok snap →
      totalMomentum s snap.x a = totalMomentum s x0 a + ((k : ℝ) + 1) * (s.core.dt * F a) * SedgSolver.volume s.core := by
    intro k snap hk
    have := compressible_invariant (cfg := cfg) (p := parts s) (start := start) (s0 := s0)
      (fun k x => totalMomentum s x a = totalMomentum s x0 a + (k : ℝ) * (s.core.dt * F a) * SedgSolver.volume s.core) rfl ?_ ?_ ?_ (fun _ _ h => h)
      ?_ ?_ ?_ k snap hk
    · simpa using this
    · intro _ _ dt x x' dt' hx h
      obtain ⟨hA, hb⟩ := SedgSolver.functional_nowalls hs ht hcen hw fun i => (t.stencil s.core.c).dir i a
      obtain ⟨r, hr, rfl, -⟩ := integrate_ok h
      rw [← hx, totalMomentum_eq, totalMomentum_eq]
      exact SedgSolver.step_keeps hex _ hA hb hr
    · intro _ _ dt x x' hx h
      obtain ⟨r, hr, rfl⟩ := gStream_ok h
      exact hx
    · intro hF _ x hx
      rw [← hx]
      show totalMomentum s (applyFilter s x) a = _
      rw [totalMomentum_eq, totalMomentum_eq]
      exact filter_functional hs (hfil hF) _ (flow x)
    · intro k x x' hx h
      have h' := collide_ok h
      have hm : ∀ y, Spec.momentum (t.stencil s.core.c).dir (x' y).f a = Spec.momentum (t.stencil s.core.c).dir (x y).f a + s.core.dt * F a := fun y => by
        rcases hforce with ⟨hF, hF0⟩ | ⟨hF, hft⟩
        · rw [(comp_mass_momentum s.core.collision ht hs.scaling hF (SedgSolver.owned_nodup hs) h' y).2 a, hF0]
          simp
        · exact (C70_exactDifference_partial t s.core.collision ht hs.scaling hF hft (SedgSolver.owned_nodup hs) h' (SedgSolver.mem_owned hs y)).2 a
      have : totalMomentum s x' a = totalMomentum s x a + (s.core.dt * F a) * SedgSolver.volume s.core := by
        unfold totalMomentum SedgSolver.volume SedgSolver.integral
        simp only [hm, mul_add, mul_one, Finset.sum_add_distrib, ← Finset.sum_mul]
        rw [mul_comm (s.core.dt * F a)]
      rw [this, hx]
      push_cast
      ring
    · intro q hq _ i time x hx
      rw [hproc q hq]; exact hx
    · intro x h
      rw [begins_eq hb h]
      simp
  exact ⟨key, fun st h => key _ _ (compressibleRun_ok h).2.1⟩

/-- **C117** With the quartic equilibrium, on a stencil that is isotropic to sixth order, without force and with walls at rest (or none), so is the
energy, although density, velocity and temperature are computed from two distributions that are streamed one after the other.  Walls at rest let
no energy through: they are adiabatic. -/
theorem C117_energy (hs : SedgSolver.Sound s.core) (ht : t.exact = true) (h6 : Sixth t s.core.c) (hg : s.gas.gamma ≠ 1)
    (he : s.core.collision.eq = .quartic) (hcen : s.core.central = false) (hw : SedgSolver.WallsAtRest s.core)
    (hforce : s.core.collision.force = none) (hex : SedgSolver.SolvesExactly s.core)
    (hfil : cfg.isFiltering = true → SedgSolver.FilterKeepsMean s.core)
    (hproc : ∀ q ∈ s.processors, ∀ i time x, totalEnergy s (q i time x) = totalEnergy s x) (hb : Begins s start s0.x x0) :
    (∀ k snap, compressibleTrajectory cfg (parts s) start s0 k = .ok snap → totalEnergy s snap.x = totalEnergy s x0) ∧
    ∀ st, compressibleRun cfg (parts s) start s0 = .ok st → totalEnergy s st.snap.x = totalEnergy s x0 := by
  have key : ∀ k snap, compressibleTrajectory cfg (parts s) start s0 k = .ok snap → totalEnergy s snap.x = totalEnergy s x0 := by
    refine compressible_invariant (fun _ x => totalEnergy s x = totalEnergy s x0) rfl ?_ ?_ ?_ (fun _ _ h => h) ?_ ?_ ?_
    · intro _ _ dt x x' dt' hx h
      obtain ⟨hA, hb⟩ := SedgSolver.functional_symmetric hs ht hcen hw (speed2 t s.core.c) fun i => speed2_opp i s.core.c
      obtain ⟨r, hr, rfl, -⟩ := integrate_ok h
      have h1 := SedgSolver.step_keeps hex _ hA hb hr
      have h2 : flow (setFlow x r.f) = r.f := rfl
      have h3 : energy (setFlow x r.f) = energy x := rfl
      rw [← hx, totalEnergy_eq, totalEnergy_eq, h2, h3, h1]
    · intro _ _ dt x x' hx h
      obtain ⟨hA, hb⟩ := SedgSolver.functional_symmetric hs ht hcen hw (fun _ => 1) fun _ => rfl
      obtain ⟨r, hr, rfl⟩ := gStream_ok h
      have h1 := SedgSolver.step_keeps hex _ hA hb hr
      have h2 : energy (setEnergy x r.f) = r.f := rfl
      have h3 : flow (setEnergy x r.f) = flow x := rfl
      rw [← hx, totalEnergy_eq, totalEnergy_eq, h2, h3, h1]
    · intro hF _ x hx
      rw [← hx]
      show totalEnergy s (applyFilter s x) = _
      have h2 : flow (applyFilter s x) = filterBlock s (flow x) := rfl
      have h3 : energy (applyFilter s x) = filterBlock s (energy x) := rfl
      rw [totalEnergy_eq, totalEnergy_eq, h2, h3, filter_functional hs (hfil hF), filter_functional hs (hfil hF)]
    · intro _ x x' hx h
      rw [← hx]
      have hm := fun y => (C19_compressible_conserves t s.core.collision ht h6 hs.scaling hg he hforce (SedgSolver.owned_nodup hs) (collide_ok h) y).2.2
      unfold totalEnergy
      simp only [hm]
    · intro q hq _ i time x hx
      rw [hproc q hq]; exact hx
    · intro x h
      rw [begins_eq hb h]
  exact ⟨key, fun st h => key _ _ (compressibleRun_ok h).2.1⟩

/-- **C117** After an initialisation with the scheme EQUILIBRIUM, the conserved values are those of the initial fields. -/
theorem C117_initial (hs : SedgSolver.Sound s.core) (ht : t.exact = true) (h6 : Sixth t s.core.c) (hg : s.gas.gamma ≠ 1) (hstart : start ≤ 1)
    (hsc : s.scheme = .equilibrium) {x : C × Fin n → GNode t.D t.Q} (hrho : ∀ y, (x y).rho ≠ 0) (hb : Begins s start x x0) :
    totalMass s x0 = SedgSolver.integral s.core.mesh (fun y => (x y).rho) ∧
    (∀ a, totalMomentum s x0 a = SedgSolver.integral s.core.mesh fun y => (x y).rho * (x y).u a) ∧
    totalEnergy s x0 = SedgSolver.integral s.core.mesh fun y =>
      (x y).rho * (∑ a, (x y).u a ^ 2) / (t.stencil s.core.c).cs2 + 2 * (x y).rho * (x y).T / (s.gas.gamma - 1) := by
  have hx0 : x0 = toEquilibrium s x := by
    unfold Begins at hb
    rw [if_pos hstart, initializeDistributions, hsc] at hb
    cases hb; rfl
  have hn : ∀ y, (x0 y).f = (Init.initialNode t s.core.c s.gas.gamma (x y).rho (x y).u (x y).T).f ∧
      (x0 y).g = (Init.initialNode t s.core.c s.gas.gamma (x y).rho (x y).u (x y).T).g := fun y => by
    rw [hx0]
    simp only [toEquilibrium, if_pos (SedgSolver.mem_owned hs y)]
    exact ⟨rfl, rfl⟩
  have h1 := fun y => Init.C108_fields t (gamma := s.gas.gamma) ht hs.scaling (x y).rho (x y).u (x y).T
  refine ⟨?_, fun a => ?_, ?_⟩
  · unfold totalMass
    simp only [(hn _).1, (h1 _).1]
  · unfold totalMomentum
    simp only [(hn _).1, (h1 _).2 a]
  · unfold totalEnergy
    congr 1
    funext y
    have h2 := Init.C108_temperature t (gamma := s.gas.gamma) ht h6 hs.scaling hg (hrho y) (x y).u (x y).T
    unfold nodeTemperature at h2
    simp only [(h1 y).1, (h1 y).2] at h2
    rw [(hn y).1, (hn y).2]
    have hr := hrho y
    have hg' := sub_ne_zero.mpr hg
    have hcs := t.cs2_ne ht hs.scaling
    have h3 : ∑ a, ((x y).rho * (x y).u a) ^ 2 = (x y).rho ^ 2 * ∑ a, (x y).u a ^ 2 := by
      rw [Finset.mul_sum]; exact Finset.sum_congr rfl fun a _ => by ring
    rw [h3] at h2
    generalize Spec.totalEnergy (t.stencil s.core.c).dir (t.stencil s.core.c).cs2
      (Init.initialNode t s.core.c s.gas.gamma (x y).rho (x y).u (x y).T).f
      (Init.initialNode t s.core.c s.gas.gamma (x y).rho (x y).u (x y).T).g = E at h2 ⊢
    generalize ∑ a, (x y).u a ^ 2 = U at h2 ⊢
    field_simp at h2 ⊢
    linear_combination h2

/-! ## C118 -/

omit [Fintype C] in
theorem uniform_rates (hs : SedgSolver.Sound s.core) (hcen : s.core.central = false) {rho T : ℝ} {v : Fin t.D → ℝ}
    (hw : SedgSolver.NoWalls s.core ∨ SedgSolver.WallsAtRest s.core ∧ v = 0) {x : C × Fin n → GNode t.D t.Q}
    (hx : ∀ y, (x y).f = (Init.compressibleNode (t.stencil s.core.c) s.gas.gamma rho v T).1 ∧
      (x y).g = (Init.compressibleNode (t.stencil s.core.c) s.gas.gamma rho v T).2) :
    SedgSolver.systemMatrix s.core (flow x) + SedgSolver.systemVector s.core = 0 ∧
    SedgSolver.systemMatrix s.core (energy x) + SedgSolver.systemVector s.core = 0 := by
  constructor
  · refine SedgSolver.uniform_steady' hs hcen _ (hw.imp id fun h => ⟨h.1, fun i => ?_⟩) (flow x) fun i y => congrFun (hx y).1 i
    rw [h.2]; exact (rest_opposite t s.core.c s.gas.gamma rho T i).1
  · refine SedgSolver.uniform_steady' hs hcen _ (hw.imp id fun h => ⟨h.1, fun i => ?_⟩) (energy x) fun i y => congrFun (hx y).2 i
    rw [h.2]; exact (rest_opposite t s.core.c s.gas.gamma rho T i).2

/-- The initialisation of uniform fields gives a uniform state. -/
theorem initial_uniform (hs : SedgSolver.Sound s.core) (ht : t.exact = true) (h6 : Sixth t s.core.c) (hg : s.gas.gamma ≠ 1)
    (he : s.core.collision.eq = .quartic) (hcen : s.core.central = false) (hforce : s.core.collision.force = none) (hst : SedgSolver.StopsAtSolution s.core)
    {rho T : ℝ} {v : Fin t.D → ℝ} (hw : SedgSolver.NoWalls s.core ∨ SedgSolver.WallsAtRest s.core ∧ v = 0) {x : C × Fin n → GNode t.D t.Q}
    (hx : ∀ y, (x y).rho = rho ∧ (x y).u = v ∧ (x y).T = T) (h : initializeDistributions s x = .ok x0) : Uniform s rho v T x0 := by
  have heq : Uniform s rho v T (toEquilibrium s x) := fun y => by
    obtain ⟨h1, h2, h3⟩ := hx y
    simp [toEquilibrium, if_pos (SedgSolver.mem_owned hs y), h1, h2, h3]
  have hsweep : ∀ x x', Uniform s rho v T x → sweep s x = .ok x' → Uniform s rho v T x' := by
    intro x x' hu hsw
    unfold sweep at hsw
    cases hi : integrate s s.core.dt x with
    | error e => rw [hi] at hsw; cases hsw
    | ok r =>
      obtain ⟨x1, d⟩ := r
      obtain ⟨r, hr, rfl, -⟩ := integrate_ok hi
      have hsame : setFlow x r.f = x := by
        rw [SedgSolver.step_steady hst hr (uniform_rates hs hcen hw fun y => ⟨(hu y).1, (hu y).2.1⟩).1]
        rfl
      rw [hi] at hsw
      simp only [hsame] at hsw
      cases hcl : collide s true x with
      | error e => rw [hcl] at hsw; cases hsw
      | ok x2 =>
        rw [hcl] at hsw
        cases hsw
        intro y
        have hcu := collide_uniform s.core.collision ht h6 hs.scaling hg he hforce (SedgSolver.owned_nodup hs) (SedgSolver.mem_owned hs)
          (rho := rho) (T := T) (v := v) (fun y => ⟨(hu y).1, (hu y).2.1⟩) (fun _ y => (hu y).2.2.2.1) (collide_ok hcl) y
        obtain ⟨u1, u2, u3, u4, u5⟩ := hu y
        exact ⟨hcu.1.trans u1, hcu.2.1.trans u2, u3, u4, u5⟩
  unfold initializeDistributions at h
  cases hsc : s.scheme with
  | equilibrium =>
    rw [hsc] at h
    cases h; exact heq
  | compressibleIterative =>
    rw [hsc] at h
    simp only at h
    have key : ∀ m c x r, m = s.iterations - c → Uniform s rho v T x → compressibleIterate (sweep s) s.iterations c x = .ok r → Uniform s rho v T r.1 := by
      intro m
      induction m with
      | zero =>
        intro c x r hm hu h
        rw [compressibleIterate, if_neg (by omega)] at h
        cases h; exact hu
      | succ m ih =>
        intro c x r hm hu h
        rw [compressibleIterate, if_pos (by omega)] at h
        cases hsx : sweep s x with
        | error e => rw [hsx] at h; cases h
        | ok x' =>
          rw [hsx] at h
          exact ih (c + 1) x' r (by omega) (hsweep _ _ hu hsx) h
    cases hit : compressibleIterate (sweep s) s.iterations 0 (toEquilibrium s x) with
    | error e => rw [hit] at h; cases h
    | ok r =>
      rw [hit] at h
      cases h
      exact key _ 0 _ r rfl heq hit
  | iterative => rw [hsc] at h; cases h
  | gradients => rw [hsc] at h; cases h

/-- **C118** A uniform gas – at rest in a box, or moving in a domain without walls – stays as it is: after every step both distributions, the density,
the velocity and the temperature are the initial ones everywhere.  For all meshes, gases, viscosities, Prandtl numbers and time steps, both
integrators, both initialisation schemes and restarts. -/
theorem C118_uniform_partial (hs : SedgSolver.Sound s.core) (ht : t.exact = true) (h6 : Sixth t s.core.c) (hg : s.gas.gamma ≠ 1)
    (he : s.core.collision.eq = .quartic) (hcen : s.core.central = false) (hforce : s.core.collision.force = none) (hst : SedgSolver.StopsAtSolution s.core)
    {rho T : ℝ} {v : Fin t.D → ℝ} (hw : SedgSolver.NoWalls s.core ∨ SedgSolver.WallsAtRest s.core ∧ v = 0)
    (hfil : cfg.isFiltering = true → ∀ r : ℝ, Smoothing.filterCell s.core.toModes s.core.fromModes s.core.factor (fun _ => r) = fun _ => r)
    (hproc : ∀ q ∈ s.processors, ∀ i time x, Uniform s rho v T x → Uniform s rho v T (q i time x))
    (h0 : if start ≤ 1 then ∀ y, (s0.x y).rho = rho ∧ (s0.x y).u = v ∧ (s0.x y).T = T else Uniform s rho v T s0.x) :
    (∀ k snap, compressibleTrajectory cfg (parts s) start s0 k = .ok snap → Uniform s rho v T snap.x) ∧
    ∀ st, compressibleRun cfg (parts s) start s0 = .ok st → Uniform s rho v T st.snap.x := by
  have key : ∀ k snap, compressibleTrajectory cfg (parts s) start s0 k = .ok snap → Uniform s rho v T snap.x := by
    refine compressible_invariant (fun _ x => Uniform s rho v T x) rfl ?_ ?_ ?_ (fun _ _ h => h) ?_ ?_ ?_
    · intro _ _ dt x x' dt' hx h
      obtain ⟨r, hr, rfl, -⟩ := integrate_ok h
      rw [SedgSolver.step_steady hst hr (uniform_rates hs hcen hw fun y => ⟨(hx y).1, (hx y).2.1⟩).1]
      exact hx
    · intro _ _ dt x x' hx h
      obtain ⟨r, hr, rfl⟩ := gStream_ok h
      rw [SedgSolver.step_steady hst hr (uniform_rates hs hcen hw fun y => ⟨(hx y).1, (hx y).2.1⟩).2]
      exact hx
    · intro hF _ x hx y
      obtain ⟨u1, u2, u3, u4, u5⟩ := hx y
      refine ⟨funext fun i => ?_, funext fun i => ?_, u3, u4, u5⟩
      · exact filter_uniform hs (hfil hF) _ (flow x) (fun i y => congrFun (hx y).1 i) i y
      · exact filter_uniform hs (hfil hF) _ (energy x) (fun i y => congrFun (hx y).2.1 i) i y
    · intro _ x x' hx h y
      have hcu := collide_uniform s.core.collision ht h6 hs.scaling hg he hforce (SedgSolver.owned_nodup hs) (SedgSolver.mem_owned hs)
        (rho := rho) (T := T) (v := v) (fun y => ⟨(hx y).1, (hx y).2.1⟩) (fun h => by cases h) (collide_ok h) y
      exact ⟨hcu.1.trans (hx y).1, hcu.2.1.trans (hx y).2.1, hcu.2.2.1, hcu.2.2.2.1, hcu.2.2.2.2⟩
    · intro q hq _ i time x hx
      exact hproc q hq i time x hx
    · intro x h
      split at h
      · next hle =>
        rw [if_pos hle] at h0
        exact initial_uniform hs ht h6 hg he hcen hforce hst hw h0 h
      · next hle =>
        rw [if_neg hle] at h0
        cases h; exact h0
  exact ⟨key, fun st h => key _ _ (compressibleRun_ok h).2.1⟩

/-- **C118** Such a run is never aborted, with the Runge-Kutta integrator as with the theta method. -/
theorem C118_completes_partial (hs : SedgSolver.Sound s.core) (ht : t.exact = true) (h6 : Sixth t s.core.c) (hg : s.gas.gamma ≠ 1)
    (he : s.core.collision.eq = .quartic) (hcen : s.core.central = false) (hforce : s.core.collision.force = none)
    (hst : SedgSolver.StopsAtSolution s.core) {rho T : ℝ} {v : Fin t.D → ℝ} (hw : SedgSolver.NoWalls s.core ∨ SedgSolver.WallsAtRest s.core ∧ v = 0)
    (hfil : cfg.isFiltering = true → ∀ r : ℝ, Smoothing.filterCell s.core.toModes s.core.fromModes s.core.factor (fun _ => r) = fun _ => r)
    (hproc : ∀ q ∈ s.processors, ∀ i time x, Uniform s rho v T x → Uniform s rho v T (q i time x))
    (h0 : if start ≤ 1 then (∀ y, (s0.x y).rho = rho ∧ (s0.x y).u = v ∧ (s0.x y).T = T) ∧ s.scheme = .equilibrium else Uniform s rho v T s0.x)
    (hdt : 0 < s0.dt) (hne : SedgSolver.owned s.core ≠ []) (hrho : 1 / 10 ^ 10 < rho)
    (hr : ∃ r, (compSelection t.D).1.find? (·.applies { stencil := t, scheme := s.core.collision.scheme, eq := s.core.collision.eq }) = some r) :
    ∃ st, compressibleRun cfg (parts s) start s0 = .ok st ∧ Uniform s rho v T st.snap.x := by
  have hcol : ∀ x, Uniform s rho v T x → ∃ x', (parts s).collide x = .ok x' ∧ Uniform s rho v T x' := by
    intro x hx
    obtain ⟨x', hx'⟩ := collide_succeeds (c := s.core.c) (viscosity := s.core.viscosity) (dt := s.core.dt) (cc := s.gas) (ini := false) (T := T) (v := v) (x := x)
      s.core.collision ht hs.scaling he hforce hr (SedgSolver.owned_nodup hs) hne hrho (fun y => ⟨(hx y).1, (hx y).2.1⟩) (fun h => by cases h)
    refine ⟨x', by show collide s false x = _; rw [collide, hx'], fun y => ?_⟩
    have hcu := collide_uniform s.core.collision ht h6 hs.scaling hg he hforce (SedgSolver.owned_nodup hs) (SedgSolver.mem_owned hs)
      (rho := rho) (T := T) (v := v) (fun y => ⟨(hx y).1, (hx y).2.1⟩) (fun h => by cases h) hx' y
    exact ⟨hcu.1.trans (hx y).1, hcu.2.1.trans (hx y).2.1, hcu.2.2.1, hcu.2.2.2.1, hcu.2.2.2.2⟩
  have hstep : ∀ dt f, 0 < dt → SedgSolver.systemMatrix s.core f + SedgSolver.systemVector s.core = 0 →
      ∃ r, SedgSolver.step s.core dt f = .ok r ∧ r.f = f ∧ r.t = dt := by
    intro dt f hd hf
    have hpro : TimeIntegration.prologue dt dt = .ok (dt, dt) := by
      simp [TimeIntegration.prologue, hd.ne']
    have : ∃ r, SedgSolver.step s.core dt f = .ok r ∧ r.t = dt := by
      cases hI : s.core.integrator with
      | rungeKutta5 =>
        simp only [SedgSolver.step, hI, TimeIntegration.rkStep, hpro, zero_add]
        exact ⟨_, rfl, rfl⟩
      | theta θ solve =>
        have hres : TimeIntegration.thetaMatrix (SedgSolver.systemMatrix s.core) θ dt f
            = TimeIntegration.thetaRhs (SedgSolver.systemMatrix s.core) (SedgSolver.systemVector s.core) θ dt f := by
          rw [TimeIntegration.thetaRhs, LinearMap.smul_apply, ← smul_add, add_comm (SedgSolver.systemVector s.core), hf, smul_zero, zero_add]
        simp only [SedgSolver.step, hI, TimeIntegration.thetaStep, hpro, hst θ solve hI _ _ _ hres, zero_add]
        exact ⟨_, rfl, rfl⟩
    obtain ⟨r, hr, ht⟩ := this
    exact ⟨r, hr, SedgSolver.step_steady hst hr hf, ht⟩
  obtain ⟨x0, hx0, hu0⟩ : ∃ x0, (if start ≤ 1 then (parts s).initializeDistributions s0.x else .ok s0.x) = .ok x0 ∧ Uniform s rho v T x0 := by
    by_cases hle : start ≤ 1
    · rw [if_pos hle] at h0 ⊢
      have hi : (parts s).initializeDistributions s0.x = .ok (toEquilibrium s s0.x) := by
        show initializeDistributions s s0.x = _
        rw [initializeDistributions, h0.2]
      exact ⟨_, hi, initial_uniform hs ht h6 hg he hcen hforce hst hw h0.1 hi⟩
    · rw [if_neg hle] at h0 ⊢
      exact ⟨_, rfl, h0⟩
  suffices h : ∃ st, compressibleRun cfg (parts s) start s0 = .ok st ∧ Uniform s rho v T st.snap.x ∧ 0 < st.snap.dt by
    obtain ⟨st, h1, h2, -⟩ := h
    exact ⟨st, h1, h2⟩
  refine compressibleRun_completes (cfg := cfg) (p := parts s) (start := start) (s0 := s0) (fun snap => Uniform s rho v T snap.x ∧ 0 < snap.dt) ?_ ?_
  · obtain ⟨x1, hx1, hu1⟩ := hcol x0 hu0
    refine ⟨{ s0 with x := x1 }, ?_, hu1, hdt⟩
    simp only [compressibleTrajectory, Spec.trajectory, hx0, Solver.collide, hx1]
  · intro i snap ⟨hu, hd⟩
    obtain ⟨ra, hra, hfa, hta⟩ := hstep snap.dt (flow snap.x) hd (uniform_rates hs hcen hw fun y => ⟨(hu y).1, (hu y).2.1⟩).1
    have hint' : (parts s).integrate (i - start) snap.dt snap.x = .ok (snap.x, snap.dt) := by
      show integrate s snap.dt snap.x = _
      rw [integrate, hra]
      simp only [hfa, hta]
      rfl
    have hstream : Solver.stream (parts s).toParts (i - start) snap = .ok { x := snap.x, time := snap.time + snap.dt, dt := snap.dt } := by
      unfold Solver.stream
      rw [show (parts s).toParts.scheme = .sedg from rfl]
      simp only [hint']
      rw [if_pos hd]
    obtain ⟨rb, hrb, hfb, -⟩ := hstep snap.dt (energy snap.x) hd (uniform_rates hs hcen hw fun y => ⟨(hu y).1, (hu y).2.1⟩).2
    have hgs : (parts s).gStream (snap.time + snap.dt) snap.dt snap.x = .ok snap.x := by
      show gStream s snap.dt snap.x = _
      rw [gStream, hrb]
      simp only [hfb]
      rfl
    have huf : Uniform s rho v T (Solver.filter cfg (parts s).toParts i { x := snap.x, time := snap.time + snap.dt, dt := snap.dt }).x ∧
        0 < (Solver.filter cfg (parts s).toParts i { x := snap.x, time := snap.time + snap.dt, dt := snap.dt }).dt := by
      unfold Solver.filter
      split
      · next hif =>
        have hF : cfg.isFiltering = true := by simp at hif; exact hif.1
        refine ⟨fun y => ?_, hd⟩
        obtain ⟨u1, u2, u3, u4, u5⟩ := hu y
        refine ⟨funext fun i => ?_, funext fun i => ?_, u3, u4, u5⟩
        · exact filter_uniform hs (hfil hF) _ (flow snap.x) (fun i y => congrFun (hu y).1 i) i y
        · exact filter_uniform hs (hfil hF) _ (energy snap.x) (fun i y => congrFun (hu y).2.1 i) i y
      · exact ⟨hu, hd⟩
    obtain ⟨x2, hx2, hu2⟩ := hcol _ huf.1
    have hadv : compressibleAdvance cfg (parts s) start i snap = .ok (Solver.applyProcessors (parts s).toParts i
        { Solver.filter cfg (parts s).toParts i { x := snap.x, time := snap.time + snap.dt, dt := snap.dt } with x := x2 }) := by
      simp only [compressibleAdvance, hstream, hgs]
      have hx2' : (parts s).collide ((parts s).statistics
          (Solver.filter cfg (parts s).toParts i { x := snap.x, time := snap.time + snap.dt, dt := snap.dt }).x) = .ok x2 := hx2
      simp only [Solver.collide, hx2']
    refine ⟨_, hadv, ?_, huf.2⟩
    show Uniform s rho v T (s.processors.foldl (fun x proc => proc i
      (Solver.filter cfg (parts s).toParts i { x := snap.x, time := snap.time + snap.dt, dt := snap.dt }).time x) x2)
    have : ∀ (l : List (ℕ → ℝ → (C × Fin n → GNode t.D t.Q) → C × Fin n → GNode t.D t.Q)), (∀ q ∈ l, q ∈ s.processors) → ∀ time x, Uniform s rho v T x →
        Uniform s rho v T (l.foldl (fun x proc => proc i time x) x) := by
      intro l
      induction l with
      | nil => intro _ _ x hx; exact hx
      | cons q l ih =>
        intro hl time x hx
        exact ih (fun q' hq' => hl q' (List.mem_cons_of_mem _ hq')) _ _ (hproc q (hl q List.mem_cons_self) i time x hx)
    exact this _ (fun _ h => h) _ _ hu2

omit [Fintype C] in
/-- **C118 fails** for walls that move: `gStream` adds the wall terms made for `f` to the equation of `g`.  Where `g` is `κ` times `f` (a gas of uniform
temperature, `κ = T (2 cv - D)`), the change of `g` is not `κ` times that of `f`, unless `κ = 1`, in every direction in which a wall moves. -/
theorem C118_moving_walls_fails {kappa : ℝ} (hk : kappa ≠ 1) (f : SedgSolver.Block t n C) {i : Fin t.Q} {y : C × Fin n}
    (hb : SedgSolver.systemVector s.core i y ≠ 0) :
    (SedgSolver.systemMatrix s.core (kappa • f) + SedgSolver.systemVector s.core) i y
      ≠ kappa * (SedgSolver.systemMatrix s.core f + SedgSolver.systemVector s.core) i y := by
  rw [map_smul]
  intro h
  simp only [Pi.add_apply, Pi.smul_apply, smul_eq_mul] at h
  have h1 : (1 - kappa) * SedgSolver.systemVector s.core i y = 0 := by linear_combination h
  rcases mul_eq_zero.mp h1 with h2 | h2
  · exact hk (by linarith)
  · exact hb h2

/-! ## A box of air -/

namespace Sample

/-- Two unit squares with walls at rest (or without walls), D2Q25H, air -/
noncomputable def setup (walls : Bool) (lid : Fin 2 → ℝ) (force : Option (Fin 2 → ℝ)) : Setup .D2Q25H 4 4 4 2 (Fin 2) where
  core :=
    { c := 2
      mesh := SedgSolver.Sample.mesh walls
      cells := [0, 1]
      central := false
      wallVelocity := fun _ _ _ => lid
      viscosity := 1 / 100
      dt := 1 / 50
      collision := { sampleCompCfg with forceType := .exactDifference, force := force }
      integrator := .rungeKutta5
      toModes := 1
      fromModes := 1
      factor := fun _ => 1
      processors := [] }
  gas := sampleComp
  scheme := .equilibrium
  iterations := 0
  processors := []

theorem sound (walls : Bool) (lid : Fin 2 → ℝ) (force : Option (Fin 2 → ℝ)) : SedgSolver.Sound (setup walls lid force).core where
  nodal := fun c i => by simp [setup, SedgSolver.Sample.mesh]
  gradients := SedgSolver.Sample.gradients walls
  divergence := SedgSolver.Sample.divergence walls
  matching := SedgSolver.Sample.matching walls
  mass := fun c i => by simp [Sedg.mass, setup, SedgSolver.Sample.mesh]
  nodup := by simp [setup]
  complete := fun c => by fin_cases c <;> simp [setup]
  scaling := by simp [setup]

theorem solves (walls : Bool) (lid : Fin 2 → ℝ) (force : Option (Fin 2 → ℝ)) : SedgSolver.SolvesExactly (setup walls lid force).core :=
  fun θ solve h => by simp [setup] at h

theorem atRest (walls : Bool) (force : Option (Fin 2 → ℝ)) : SedgSolver.WallsAtRest (setup walls 0 force).core := fun _ _ _ _ => rfl

theorem noWalls (lid : Fin 2 → ℝ) (force : Option (Fin 2 → ℝ)) : SedgSolver.NoWalls (setup false lid force).core := fun c f => by
  fin_cases f <;> simp [setup, SedgSolver.Sample.mesh]

/-- Air at rest -/
noncomputable def air : Snapshot (Fin 2 × Fin 4 → GNode 2 25) where
  x _ := { f := 0, g := 0, rho := 1, u := 0, T := 12 / 10, shock := 0 }
  time := 0
  dt := 1 / 50

/-- The run in the box with walls is completed, and the air stays as it is. -/
theorem completed : ∃ st, compressibleRun SedgSolver.Sample.config (parts (setup true 0 none)) 0 air = .ok st ∧
    Uniform (setup true 0 none) 1 (0 : Fin 2 → ℝ) (12 / 10) st.snap.x := by
  refine C118_completes_partial (sound true 0 none) rfl (C03_isotropy6_D2Q25H 2) (by norm_num [setup, sampleComp]) rfl rfl rfl (fun _ _ h => by cases h)
    (.inr ⟨atRest true none, rfl⟩) (fun h => by cases h) (fun q hq => by cases hq) ?_ ?_ ?_ (by norm_num) ⟨_, rfl⟩
  · rw [if_pos (by norm_num)]
    exact ⟨fun _ => ⟨rfl, rfl, rfl⟩, rfl⟩
  · show (0 : ℝ) < 1 / 50; norm_num
  · simp [SedgSolver.owned, setup]

theorem begins (walls : Bool) (lid : Fin 2 → ℝ) (force : Option (Fin 2 → ℝ)) (x : Fin 2 × Fin 4 → GNode 2 25) :
    Begins (setup walls lid force) 0 x (toEquilibrium (setup walls lid force) x) := by
  unfold Begins
  rw [if_pos (by norm_num)]
  rfl

/-- Mass and energy of any gas in the box, … -/
example (s0 : Snapshot (Fin 2 × Fin 4 → GNode 2 25)) (st)
    (h : compressibleRun SedgSolver.Sample.config (parts (setup true 0 none)) 0 s0 = .ok st) :
    totalMass (setup true 0 none) st.snap.x = totalMass (setup true 0 none) (toEquilibrium (setup true 0 none) s0.x) ∧
    totalEnergy (setup true 0 none) st.snap.x = totalEnergy (setup true 0 none) (toEquilibrium (setup true 0 none) s0.x) :=
  ⟨(C117_mass (sound true 0 none) rfl rfl (fun c f q _ => Finset.sum_eq_zero fun a _ => mul_zero _) (.inl rfl) (solves true 0 none) (fun h => by cases h)
      (fun q hq => by cases hq) (begins true 0 none s0.x)).2 st h,
    (C117_energy (sound true 0 none) rfl (C03_isotropy6_D2Q25H 2) (by norm_num [setup, sampleComp]) rfl rfl (atRest true none) rfl (solves true 0 none)
      (fun h => by cases h) (fun q hq => by cases hq) (begins true 0 none s0.x)).2 st h⟩

/-- … the momentum under a force without walls, … -/
example (s0 : Snapshot (Fin 2 × Fin 4 → GNode 2 25)) (st)
    (h : compressibleRun SedgSolver.Sample.config (parts (setup false 0 (some ![1, 0]))) 0 s0 = .ok st) :
    totalMomentum (setup false 0 (some ![1, 0])) st.snap.x (0 : Fin 2) =
      totalMomentum (setup false 0 (some ![1, 0])) (toEquilibrium (setup false 0 (some ![1, 0])) s0.x) (0 : Fin 2)
        + (((st.i - 0 : ℕ) : ℝ) + 1) * (1 / 50 * 1) * SedgSolver.volume (setup false 0 (some ![1, 0])).core :=
  (C117_momentum (F := ![1, 0]) (sound false 0 _) rfl rfl (noWalls 0 _) (.inr ⟨rfl, rfl⟩) (solves false 0 _) (fun h => by cases h) (0 : Fin 2)
    (fun q hq => by cases hq) (begins false 0 _ s0.x)).2 st h

/-- … and the initial values of air at rest. -/
example : totalMass (setup true 0 none) (toEquilibrium (setup true 0 none) air.x) = SedgSolver.integral (setup true 0 none).core.mesh fun _ => (1 : ℝ) :=
  (C117_initial (s := setup true 0 none) (start := 0) (x := air.x) (sound true 0 none) rfl (C03_isotropy6_D2Q25H 2) (by norm_num [setup, sampleComp])
    (by norm_num) rfl (fun _ => one_ne_zero) (begins true 0 none air.x)).1

/-- A wall that moves to the right does act on the direction (1, 1) in the channel of C109. -/
theorem lid_acts : SedgSolver.systemVector (SedgSolver.Sample.plain true none) (⟨5, by decide⟩ : Fin StencilType.D2Q9.Q) (0, 0) ≠ 0 := by
  have hs := SedgSolver.Sample.soundPlain true none
  have h1 : SedgSolver.systemVector (SedgSolver.Sample.plain true none) (⟨5, by decide⟩ : Fin StencilType.D2Q9.Q) (0, 0)
      = SedgSolver.wallRate (SedgSolver.Sample.plain true none) (fun _ _ => 0) ⟨5, by decide⟩ (0, 0) := by
    simp [SedgSolver.systemVector, SedgSolver.wallRate]
  rw [h1, SedgSolver.wallRate_eq hs]
  simp only [show (SedgSolver.Sample.plain true none).central = false from rfl, Walls.C46_dg_upwind]
  rw [Fin.sum_univ_four]
  simp only [Fin.sum_univ_two]
  simp [SedgSolver.Sample.plain, SedgSolver.Sample.mesh, Sedg.inverseMass, Sedg.mass]
  have hd : ∀ u : Fin 2 → ℝ, Spec.dot (D := 2) u ((D2Q9.stencil (2 : ℝ)).dir 5) = u 0 * 2 + u 1 * 2 := fun u => by
    simp [Spec.dot, Fin.sum_univ_two, D2Q9.stencil, D2Q9.dir]
  refine ⟨?_, ?_, ⟨?_, ?_⟩, ?_⟩
  · show Spec.dot (D := 2) ![0, -1] ((D2Q9.stencil (2 : ℝ)).dir 5) < 0
    rw [hd]; norm_num
  · show Spec.dot (D := 2) ![0, -1] ((D2Q9.stencil (2 : ℝ)).dir 5) ≠ 0
    rw [hd]; norm_num
  · show (1 / 36 : ℝ) ≠ 0
    norm_num
  · show Spec.dot (D := 2) ![10⁻¹, 0] ((D2Q9.stencil (2 : ℝ)).dir 5) ≠ 0
    rw [hd]; norm_num
  · show (D2Q9.stencil (2 : ℝ)).cs2 ≠ 0
    norm_num [D2Q9.stencil]

example (f : SedgSolver.Block StencilType.D2Q9 4 (Fin 2)) :
    let s : Setup .D2Q9 4 4 4 2 (Fin 2) := ⟨SedgSolver.Sample.plain true none, sampleComp, .equilibrium, 0, []⟩
    (SedgSolver.systemMatrix s.core ((3 : ℝ) • f) + SedgSolver.systemVector s.core) (⟨5, by decide⟩ : Fin StencilType.D2Q9.Q) (0, 0)
      ≠ 3 * (SedgSolver.systemMatrix s.core f + SedgSolver.systemVector s.core) (⟨5, by decide⟩ : Fin StencilType.D2Q9.Q) (0, 0) :=
  C118_moving_walls_fails (s := ⟨SedgSolver.Sample.plain true none, sampleComp, .equilibrium, 0, []⟩) (by norm_num) f lid_acts

end Sample

end CompressibleSolver
end NATriuM
