import Verif.Lemmas.MassTolerance

/-!
# Property C145: how well whole runs with iterative linear solvers keep mass and momentum
-/

namespace NATriuM
namespace SedgSolver

open Solver

variable {t : StencilType} {n nQ nf nq : ℕ} {C : Type*} [DecidableEq C] [Fintype C] {s : Setup t n nQ nf nq C} {cfg : RunConfig} {start : ℕ}
  {s0 : Snapshot (C × Fin n → Node ℝ t.D t.Q)}

/-- **C145** With a linear solver that stops at residuals of at most `ε`, which may depend on the right side of the system, the mass of the fluid after `k`
steps of a run, with the states `y 0`, …, `y k`, differs from the initial one by at most `√(Q V)` times the sum of the tolerances, where `Q` is the number of
directions and `V` the volume: for every mesh, finite element, exact stencil, collision scheme, with and without walls and force. -/
theorem C145_mass (hs : Sound s) (ht : t.exact = true) (hcen : s.central = false) (hp : PositiveWeights s) (hw : WallsTangential s)
    (hforce : s.collision.force = none ∨ s.collision.forceType = .exactDifference) {θ : ℝ} {solve} (hint : s.integrator = .theta θ solve)
    {ε : Block t n C → ℝ} (hε : SolvesWithin s (fun _ => 1) ε) (hfil : cfg.isFiltering = true → FilterKeepsMean s)
    (hproc : ∀ q ∈ s.processors, ∀ i time x, totalMass s (q i time x) = totalMass s x) (k : ℕ) {y : ℕ → Snapshot (C × Fin n → Node ℝ t.D t.Q)}
    (hy : ∀ j ≤ k, runTrajectory cfg (parts s) start s0 j = .ok (y j)) :
    |totalMass s (y k).x - totalMass s s0.x| ≤ Real.sqrt (t.Q * volume s) *
      ∑ j ∈ Finset.range k, ε (TimeIntegration.thetaRhs (systemMatrix s) (systemVector s) θ (y j).dt (populations (y j).x)) := by
  obtain ⟨hA, hb⟩ := functional_walls hs ht hcen hw
  have := trajectory_nearly_keeps hp hint hε hA hb (totalMass s) totalMass_eq ?_ ?_ hproc k hy
  · simpa only [one_pow, Finset.sum_const, Finset.card_univ, Fintype.card_fin, nsmul_eq_mul, mul_one] using this
  · intro hF x
    rw [totalMass_eq, totalMass_eq]
    exact filter_functional hs (hfil hF) _ x
  · intro x x' h
    have h' := collide_ok h
    have hm : ∀ y, Spec.mass (x' y).f = Spec.mass (x y).f := fun y => by
      cases hF : s.collision.force with
      | none => exact (step_conserves t s.collision ht hs.scaling hF (owned_nodup hs) h' y).1
      | some F =>
        have hft : s.collision.forceType = .exactDifference := hforce.resolve_left (by rw [hF]; simp)
        exact (C16_exactDifference t s.collision ht hs.scaling hF hft (owned_nodup hs) h' (mem_owned hs y)).1
    unfold totalMass
    simp only [hm]

/-- **C145** Without walls and without force, the momentum differs by at most `√(V Σ_i e_ia²)` times the sum of the tolerances. -/
theorem C145_momentum (hs : Sound s) (ht : t.exact = true) (hcen : s.central = false) (hp : PositiveWeights s) (hw : NoWalls s)
    (hforce : s.collision.force = none) {θ : ℝ} {solve} (hint : s.integrator = .theta θ solve) {ε : Block t n C → ℝ}
    (hε : SolvesWithin s (fun _ => 1) ε) (hfil : cfg.isFiltering = true → FilterKeepsMean s) (a : Fin t.D)
    (hproc : ∀ q ∈ s.processors, ∀ i time x, totalMomentum s (q i time x) a = totalMomentum s x a) (k : ℕ)
    {y : ℕ → Snapshot (C × Fin n → Node ℝ t.D t.Q)} (hy : ∀ j ≤ k, runTrajectory cfg (parts s) start s0 j = .ok (y j)) :
    |totalMomentum s (y k).x a - totalMomentum s s0.x a| ≤ Real.sqrt ((∑ i, (t.stencil s.c).dir i a ^ 2) * volume s) *
      ∑ j ∈ Finset.range k, ε (TimeIntegration.thetaRhs (systemMatrix s) (systemVector s) θ (y j).dt (populations (y j).x)) := by
  obtain ⟨hA, hb⟩ := functional_nowalls hs ht hcen hw fun i => (t.stencil s.c).dir i a
  refine trajectory_nearly_keeps hp hint hε hA hb (fun x => totalMomentum s x a) (fun x => totalMomentum_eq x a) ?_ ?_ hproc k hy
  · intro hF x
    rw [totalMomentum_eq, totalMomentum_eq]
    exact filter_functional hs (hfil hF) _ x
  · intro x x' h
    have hm : ∀ y, Spec.momentum (t.stencil s.c).dir (x' y).f a = Spec.momentum (t.stencil s.c).dir (x y).f a := fun y =>
      (step_conserves t s.collision ht hs.scaling hforce (owned_nodup hs) (collide_ok h) y).2 a
    unfold totalMomentum
    simp only [hm]

/-- **C145** With a fixed tolerance: at most `k ε √(Q V)` after `k` steps -/
theorem C145_tolerance (hs : Sound s) (ht : t.exact = true) (hcen : s.central = false) (hp : PositiveWeights s) (hw : WallsTangential s)
    (hforce : s.collision.force = none ∨ s.collision.forceType = .exactDifference) {θ : ℝ} {solve} (hint : s.integrator = .theta θ solve) {ε : ℝ}
    (hε : SolvesWithin s (fun _ => 1) fun _ => ε) (hfil : cfg.isFiltering = true → FilterKeepsMean s)
    (hproc : ∀ q ∈ s.processors, ∀ i time x, totalMass s (q i time x) = totalMass s x) (k : ℕ) {snap}
    (h : runTrajectory cfg (parts s) start s0 k = .ok snap) : |totalMass s snap.x - totalMass s s0.x| ≤ k * ε * Real.sqrt (t.Q * volume s) := by
  have hall : ∀ j ≤ k, ∃ y, runTrajectory cfg (parts s) start s0 j = .ok y := by
    have : ∀ i j, j + i = k → ∃ y, runTrajectory cfg (parts s) start s0 j = .ok y := by
      intro i
      induction i with
      | zero => intro j hj; exact ⟨snap, by rw [← h, ← hj]; rfl⟩
      | succ i ih =>
        intro j hj
        obtain ⟨y, hy⟩ := ih (j + 1) (by omega)
        simp only [runTrajectory, Spec.trajectory] at hy ⊢
        cases hk : Spec.trajectory (Solver.collide (parts s) s0) (advance cfg (parts s) start) start j with
        | error e => rw [hk] at hy; cases hy
        | ok y' => exact ⟨y', rfl⟩
    exact fun j hj => this (k - j) j (by omega)
  have hy : ∀ j, ∃ y, j ≤ k → runTrajectory cfg (parts s) start s0 j = .ok y := fun j => by
    by_cases hj : j ≤ k
    · obtain ⟨y, hy⟩ := hall j hj
      exact ⟨y, fun _ => hy⟩
    · exact ⟨snap, fun h => absurd h hj⟩
  choose y hy using hy
  have he : snap = y k := by
    have := h.symm.trans (hy k le_rfl)
    cases this
    rfl
  have := C145_mass hs ht hcen hp hw hforce hint hε hfil hproc k hy
  rw [← he, Finset.sum_const, Finset.card_range, nsmul_eq_mul] at this
  rwa [mul_comm _ (Real.sqrt _)]

/-! ## A channel -/

namespace Sample

/-- The solver returns a first guess that is a solution, … -/
theorem lazy_stops {u : Fin 2 → ℝ} {ε : ℝ} (hε : 0 ≤ ε) : StopsAtSolution (lazy u ε) := by
  intro θ solve h M x rhs hM
  cases h
  have h0 : size (implicit true u (1 / 2)) (fun _ => 1) (M x - rhs) ≤ ε := by
    rw [sub_eq_zero.2 hM, size_zero]
    exact hε
  exact if_pos h0

/-- … so that there is a completed run with the theta method: the uniform flow along the walls (`C110_completes_partial`). -/
theorem lazy_completed {ε : ℝ} (hε : 0 ≤ ε) : ∃ st, run config (parts (lazy ![1 / 10, 0] ε)) 0 flow = .ok st := by
  obtain ⟨st, h, -⟩ := C110_completes_partial (s := lazy ![1 / 10, 0] ε) (cfg := config) (start := 0) (s0 := flow) (lazy_sound _ ε) rfl rfl rfl
    (lazy_stops hε) (ec := .bgk) rfl 1 ![1 / 10, 0] (fun c g q _ => ⟨(one_smul ℝ _).symm, .inl rfl⟩) (fun h => by cases h) (fun q hq => by cases hq)
    (fun _ => rfl) (show (0 : ℝ) < 1 / 50 by norm_num) (r := ⟨2, 9, .D2Q9, .mrtStandard, .bgk, .mrt, .bgk⟩)
    (by simp [owned, lazy, implicit, plain]) (show (isoSelection 2).1.find? (·.applies { stencil := .D2Q9, scheme := .mrtStandard, eq := .bgk }) = _ by decide) rfl (by norm_num)
  exact ⟨st, h⟩

/-- The channel between moving walls with the solver that keeps good first guesses -/
example (s0 : Snapshot (Fin 2 × Fin 4 → Node ℝ 2 9)) {ε : ℝ} (hε : 0 ≤ ε) (k : ℕ) (snap)
    (h : runTrajectory config (parts (lazy ![1 / 10, 0] ε)) 0 s0 k = .ok snap) :
    |totalMass (lazy ![1 / 10, 0] ε) snap.x - totalMass (lazy ![1 / 10, 0] ε) s0.x| ≤ k * ε * Real.sqrt (9 * volume (lazy ![1 / 10, 0] ε)) :=
  C145_tolerance (lazy_sound _ ε) rfl rfl (lazy_positive _ ε) tangential (.inl rfl) rfl (lazy_solves _ hε) (fun h => by cases h) (fun q hq => by cases hq) k h

end Sample
end SedgSolver
end NATriuM
