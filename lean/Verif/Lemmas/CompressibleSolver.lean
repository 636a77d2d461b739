import Verif.Spec.CompressibleSolver
import Verif.Lemmas.SedgSolver
import Verif.Props.Compressible
import Verif.Props.Initialisation

/-!
# Lemmas on whole runs of the compressible solver
-/

namespace NATriuM

namespace Solver

variable {σ ε ι : Type*} {D : ℕ} {cfg : RunConfig} {p : CompressibleParts σ ε ι D} {start : ℕ} {s0 : Snapshot σ}

/-- What all parts keep, a run keeps; `k` counts the collisions. -/
theorem compressible_invariant (J : ℕ → σ → Prop) (hsc : p.scheme = .sedg)
    (hi : ∀ k j dt x x' dt', J k x → p.integrate j dt x = .ok (x', dt') → J k x')
    (hg : ∀ k time dt x x', J k x → p.gStream time dt x = .ok x' → J k x')
    (hf : cfg.isFiltering = true → ∀ k x, J k x → J k (p.applyFilter x))
    (hst : ∀ k x, J k x → J k (p.statistics x))
    (hc : ∀ k x x', J k x → p.collide x = .ok x' → J (k + 1) x')
    (hp : ∀ q ∈ p.processors, ∀ k i time x, J (k + 1) x → J (k + 1) (q i time x))
    (h0 : ∀ x, (if start ≤ 1 then p.initializeDistributions s0.x else .ok s0.x) = .ok x → J 0 x) :
    ∀ k s, compressibleTrajectory cfg p start s0 k = .ok s → J (k + 1) s.x := by
  have hcol : ∀ k s s', J k s.x → collide p.toParts s = .ok s' → J (k + 1) s'.x := by
    intro k s s' hJ h
    unfold collide at h
    cases hx : p.collide s.x with
    | error e => rw [hx] at h; cases h
    | ok x => rw [hx] at h; cases h; exact hc k _ _ hJ hx
  have hproc : ∀ k i (s : Snapshot σ), J (k + 1) s.x → J (k + 1) (applyProcessors p.toParts i s).x := by
    intro k i s hJ
    show J (k + 1) (p.processors.foldl (fun x proc => proc i s.time x) s.x)
    have : ∀ (l : List (ℕ → ℝ → σ → σ)), (∀ q ∈ l, q ∈ p.processors) → ∀ x, J (k + 1) x → J (k + 1) (l.foldl (fun x proc => proc i s.time x) x) := by
      intro l
      induction l with
      | nil => intro _ x hx; exact hx
      | cons q l ih =>
        intro hl x hx
        exact ih (fun q' hq' => hl q' (List.mem_cons_of_mem _ hq')) _ (hp q (hl q List.mem_cons_self) k i s.time x hx)
    exact this _ (fun _ h => h) _ hJ
  have hstr : ∀ k j (s s' : Snapshot σ), J k s.x → stream p.toParts j s = .ok s' → J k s'.x := by
    intro k j s s' hJ hs
    unfold stream at hs
    rw [hsc] at hs
    simp only at hs
    cases hx : p.integrate j s.dt s.x with
    | error e => rw [hx] at hs; cases hs
    | ok r =>
      obtain ⟨x, d⟩ := r
      rw [hx] at hs
      simp only at hs
      split at hs
      · cases hs; exact hi _ _ _ _ _ _ hJ hx
      · cases hs
  intro k
  induction k with
  | zero =>
    intro s h
    simp only [compressibleTrajectory, Spec.trajectory] at h
    cases hx : (if start ≤ 1 then p.initializeDistributions s0.x else .ok s0.x) with
    | error e => rw [hx] at h; cases h
    | ok x =>
      rw [hx] at h
      exact hcol 0 { s0 with x := x } s (h0 x hx) h
  | succ k ih =>
    intro s h'
    unfold compressibleTrajectory at h' ih
    rw [Spec.trajectory] at h'
    generalize hT : Spec.trajectory _ _ start k = T at h' ih
    cases hk : T with
    | error e => rw [hk] at h'; cases h'
    | ok s1 =>
      rw [hk] at h'
      have hJ := ih s1 hk
      simp only [compressibleAdvance] at h'
      cases hs : stream p.toParts (start + (k + 1) - start) s1 with
      | error e => rw [hs] at h'; cases h'
      | ok s2 =>
        rw [hs] at h'
        have hJ2 : J (k + 1) s2.x := hstr _ _ _ _ hJ hs
        simp only at h'
        cases hgs : p.gStream s2.time s2.dt s2.x with
        | error e => rw [hgs] at h'; cases h'
        | ok x3 =>
          rw [hgs] at h'
          have hJ3 := hg _ _ _ _ _ hJ2 hgs
          have hJ4 : J (k + 1) (filter cfg p.toParts (start + (k + 1)) { s2 with x := x3 }).x := by
            unfold filter
            split
            · next hif => exact hf (by simp at hif; exact hif.1) _ _ hJ3
            · exact hJ3
          simp only at h'
          cases hx : collide p.toParts { filter cfg p.toParts (start + (k + 1)) { s2 with x := x3 } with
              x := p.statistics (filter cfg p.toParts (start + (k + 1)) { s2 with x := x3 }).x } with
          | error e => rw [hx] at h'; cases h'
          | ok s3 =>
            rw [hx] at h'
            cases h'
            exact hproc _ _ _ (hcol _ _ _ (hst _ _ hJ4) hx)

/-- A run fails only with the error of an update. -/
theorem compressibleRun_error [Fintype ι] {e : RunError ε} (h : compressibleRun cfg p start s0 = .error e) :
    ∃ k, compressibleTrajectory cfg p start s0 k = .error e := by
  unfold compressibleRun at h
  cases hi : (if start ≤ 1 then p.initializeDistributions s0.x else .ok s0.x) with
  | error e' =>
    rw [hi] at h
    cases h
    refine ⟨0, ?_⟩
    simp only [compressibleTrajectory, Spec.trajectory, hi]
  | ok x =>
    rw [hi] at h
    simp only at h
    cases hc : collide p.toParts { s0 with x := x } with
    | error e' =>
      rw [hc] at h
      cases h
      refine ⟨0, ?_⟩
      simp only [compressibleTrajectory, Spec.trajectory, hi, hc]
    | ok s =>
      rw [hc] at h
      simp only at h
      have hl := loop_spec (cfg := cfg) (p := p.toParts) (start := start) (out := compressibleOutput cfg start)
        (upd := compressibleAdvance cfg p start)
        (init := match (if start ≤ 1 then p.initializeDistributions s0.x else .ok s0.x) with
          | .error e => .error (.part e)
          | .ok x => collide p.toParts { s0 with x := x })
        _ { i := start, snap := s, res := Residuals.init, log := [] } rfl le_rfl
        (by simp only [Nat.sub_self]; rw [Spec.trajectory, hi]; exact hc) (resInv_start _) (fun j h h' => by simp only at h'; omega)
        (by simp [logUpTo])
      cases hloop : loop cfg p.toParts start (compressibleOutput cfg start) (compressibleAdvance cfg p start)
          { i := start, snap := s, res := Residuals.init, log := [] } with
      | ok st => rw [hloop] at h; cases h
      | error e' =>
        rw [hloop] at h
        cases h
        obtain ⟨k, h1, h2, h3, h4⟩ := hl.2 e hloop
        exact ⟨k - start, h3⟩

/-- A run is completed if nothing fails on the data it meets. -/
theorem compressibleRun_completes [Fintype ι] (J : Snapshot σ → Prop) (h0 : ∃ s, compressibleTrajectory cfg p start s0 0 = .ok s ∧ J s)
    (hs : ∀ i s, J s → ∃ s', compressibleAdvance cfg p start i s = .ok s' ∧ J s') :
    ∃ st, compressibleRun cfg p start s0 = .ok st ∧ J st.snap := by
  have hok : ∀ k, ∃ s, compressibleTrajectory cfg p start s0 k = .ok s ∧ J s := by
    intro k
    induction k with
    | zero => exact h0
    | succ k ih =>
      obtain ⟨s, hk, hJ⟩ := ih
      obtain ⟨s', hs', hJ'⟩ := hs (start + (k + 1)) s hJ
      refine ⟨s', ?_, hJ'⟩
      simp only [compressibleTrajectory, Spec.trajectory] at hk ⊢
      rw [hk]
      exact hs'
  cases h : compressibleRun cfg p start s0 with
  | ok st =>
    obtain ⟨s, hk, hJ⟩ := hok (st.i - start)
    rw [(compressibleRun_ok h).2.1] at hk
    cases hk
    exact ⟨st, rfl, hJ⟩
  | error e =>
    obtain ⟨k, hk⟩ := compressibleRun_error h
    obtain ⟨s, hs', -⟩ := hok k
    rw [hs'] at hk
    cases hk

end Solver

namespace SedgSolver

variable {t : StencilType} {n nQ nf nq : ℕ} {C : Type*} [DecidableEq C] [Fintype C] {s : Setup t n nQ nf nq C}

/-- With walls at rest, every sum with weights that are the same for opposite directions is constant. -/
theorem functional_symmetric (hs : Sound s) (ht : t.exact = true) (hcen : s.central = false) (hw : WallsAtRest s) (w : Fin t.Q → ℝ)
    (hsym : ∀ i, w ((t.stencil s.c).opp i) = w i) :
    (∀ f, functional s w (systemMatrix s f) = 0) ∧ functional s w (systemVector s) = 0 := by
  have ho := C01_opposite t s.c
  have h : ∀ f, functional s w (systemMatrix s f + systemVector s) = 0 := fun f => by
    show ∑ i, w i * integral s.mesh ((systemMatrix s f + systemVector s) i) = 0
    simp only [integral_rate hs ht hcen, Finset.mul_sum]
    rw [Finset.sum_comm]
    refine Finset.sum_eq_zero fun c _ => ?_
    rw [Finset.sum_comm]
    refine Finset.sum_eq_zero fun g _ => ?_
    cases hg : s.mesh.neighbor c g with
    | some y => simp
    | none =>
      simp only [Option.isNone_none, if_true, Finset.mul_sum]
      rw [Finset.sum_comm]
      refine Finset.sum_eq_zero fun q _ => ?_
      have e1 : ∀ i, w i * wallBalance s f i c g q
          = (if Spec.dot (s.mesh.normal c g q) ((t.stencil s.c).dir i) < 0 then
              -(w i * (s.mesh.faceJxw c g q * Spec.dot (s.mesh.normal c g q) ((t.stencil s.c).dir i) * f ((t.stencil s.c).opp i) (c, s.mesh.faceDof g q))) else 0)
            - (if Spec.dot (s.mesh.normal c g q) ((t.stencil s.c).dir i) < 0 then 0
              else w i * (s.mesh.faceJxw c g q * Spec.dot (s.mesh.normal c g q) ((t.stencil s.c).dir i) * f i (c, s.mesh.faceDof g q))) := fun i => by
        unfold wallBalance
        rw [Walls.C46_dg_upwind, hw c g q hg]
        have : Spec.dot (0 : Fin t.D → ℝ) ((t.stencil s.c).dir i) = 0 := by simp [Spec.dot]
        rw [this]
        split <;> ring
      simp only [e1, Finset.sum_sub_distrib]
      rw [sub_eq_zero, ← Walls.sum_opp ho]
      refine Finset.sum_congr rfl fun i _ => ?_
      have : Spec.dot (s.mesh.normal c g q) ((t.stencil s.c).dir ((t.stencil s.c).opp i)) = -Spec.dot (s.mesh.normal c g q) ((t.stencil s.c).dir i) :=
        Walls.dot_opp ho _ i
      rw [this, ho.involutive, hsym]
      rcases lt_trichotomy (Spec.dot (s.mesh.normal c g q) ((t.stencil s.c).dir i)) 0 with hl | he | hgt
      · rw [if_neg (by simpa using hl.le), if_pos hl]
      · rw [he]; simp
      · rw [if_pos (by simpa using hgt), if_neg (not_lt.mpr hgt.le)]; ring
  have h0 := h 0
  rw [map_zero, zero_add] at h0
  exact ⟨fun f => by have := h f; rwa [map_add, h0, add_zero] at this, h0⟩

/-- Distributions as a state of the isothermal solver -/
def asState (f : Block t n C) : C × Fin n → Node ℝ t.D t.Q := fun y => ⟨fun i => f i y, 0, 0⟩

theorem step_keeps (hex : SolvesExactly s) (w : Fin t.Q → ℝ) (hA : ∀ f, functional s w (systemMatrix s f) = 0)
    (hb : functional s w (systemVector s) = 0) {dt : ℝ} {f : Block t n C} {r} (h : step s dt f = .ok r) :
    functional s w r.f = functional s w f := by
  have h1 : integrate s dt (asState f) = .ok (setPopulations (asState f) r.f, r.t) := by
    have h2 : step s dt (populations (asState f)) = .ok r := h
    rw [integrate, h2]
  have h2 := integrate_keeps hex w hA hb h1
  rw [populations_set] at h2
  exact h2

omit [Fintype C] in
theorem step_steady (hst : StopsAtSolution s) {dt : ℝ} {f : Block t n C} {r} (h : step s dt f = .ok r)
    (hx : systemMatrix s f + systemVector s = 0) : r.f = f := by
  have h1 : integrate s dt (asState f) = .ok (setPopulations (asState f) r.f, r.t) := by
    have h2 : step s dt (populations (asState f)) = .ok r := h
    rw [integrate, h2]
  have h2 := integrate_steady hst h1 hx
  exact congrArg populations h2

omit [Fintype C] in
/-- A uniform distribution does not change by streaming, if there are no walls, or if the walls are at rest and the distribution is the same for opposite
directions. -/
theorem uniform_steady' (hs : Sound s) (hcen : s.central = false) (U : Fin t.Q → ℝ)
    (hw : NoWalls s ∨ WallsAtRest s ∧ ∀ i, U ((t.stencil s.c).opp i) = U i) (f : Block t n C)
    (hf : ∀ i y, f i y = U i) : systemMatrix s f + systemVector s = 0 := by
  funext i x
  show matrixTimes s f i x + systemVector s i x = 0
  by_cases hi : i.val = 0
  · simp [matrixTimes, systemVector, hi]
  obtain ⟨c, k⟩ := x
  have h1 : matrixTimes s f i (c, k) + systemVector s i (c, k) =
      Sedg.rate (Sedg.reassemble s.mesh s.central ((t.stencil s.c).dir i) s.cells) (f i) (c, k) + wallRate s f i (c, k) := by
    simp only [matrixTimes, systemVector, hi, if_false, wallRate]
    ring
  have hfi : f i = fun _ => U i := funext (hf i)
  rw [h1, hcen, hfi, Sedg.C56_uniform_partial s.mesh hs.gradients _ s.cells hs.nodup c (hs.complete c), zero_add, wallRate_eq hs, hcen]
  refine Finset.sum_eq_zero fun g _ => ?_
  cases hg : s.mesh.neighbor c g with
  | some y => simp
  | none =>
    rcases hw with hw | ⟨hw, hU⟩
    · have := hw c g
      rw [hg] at this
      cases this
    simp only [Option.isNone_none, if_true]
    refine Finset.sum_eq_zero fun q _ => ?_
    split
    swap
    · rfl
    rw [Walls.C46_dg_upwind, hw c g q hg]
    split
    swap
    · rfl
    simp only [hf, hU]
    simp [Spec.dot]

end SedgSolver

namespace CompressibleSolver

variable {t : StencilType} {n nQ nf nq : ℕ} {C : Type*} [DecidableEq C] [Fintype C] {s : Setup t n nQ nf nq C}

omit [DecidableEq C] in
theorem totalMass_eq (x : C × Fin n → GNode t.D t.Q) : totalMass s x = SedgSolver.functional s.core (fun _ => 1) (flow x) := by
  have := SedgSolver.integral_sum Finset.univ s.core.mesh (flow x) fun _ => 1
  simp only [mul_one] at this
  exact this

omit [DecidableEq C] in
theorem totalMomentum_eq (x : C × Fin n → GNode t.D t.Q) (a : Fin t.D) :
    totalMomentum s x a = SedgSolver.functional s.core (fun i => (t.stencil s.core.c).dir i a) (flow x) :=
  SedgSolver.integral_sum Finset.univ s.core.mesh (flow x) fun i => (t.stencil s.core.c).dir i a

/-- The weight of a direction in the energy -/
noncomputable def speed2 (t : StencilType) (c : ℝ) (i : Fin t.Q) : ℝ := (∑ a, (t.stencil c).dir i a * (t.stencil c).dir i a) / (t.stencil c).cs2

omit [DecidableEq C] in
theorem totalEnergy_eq (x : C × Fin n → GNode t.D t.Q) : totalEnergy s x =
    SedgSolver.functional s.core (speed2 t s.core.c) (flow x) + SedgSolver.functional s.core (fun _ => 1) (energy x) := by
  have h1 := SedgSolver.integral_sum Finset.univ s.core.mesh (flow x) (speed2 t s.core.c)
  have h2 := SedgSolver.integral_sum Finset.univ s.core.mesh (energy x) fun _ => 1
  have h3 : totalEnergy s x = SedgSolver.integral s.core.mesh (fun y => ∑ i, flow x i y * speed2 t s.core.c i)
      + SedgSolver.integral s.core.mesh (fun y => ∑ i, energy x i y * 1) := by
    simp only [totalEnergy, SedgSolver.integral, ← Finset.sum_add_distrib, ← mul_add]
    refine Finset.sum_congr rfl fun c _ => Finset.sum_congr rfl fun k _ => ?_
    congr 1
    unfold Spec.totalEnergy
    refine Finset.sum_congr rfl fun i _ => ?_
    simp only [flow, energy, speed2]
    ring
  rw [h3, h1, h2]
  rfl

theorem speed2_opp (i : Fin t.Q) (c : ℝ) : speed2 t c ((t.stencil c).opp i) = speed2 t c i := by
  unfold speed2
  congr 1
  refine Finset.sum_congr rfl fun a _ => ?_
  rw [(C01_opposite t c).reverses]
  ring

/-- The filter on a block keeps the integrals. -/
theorem filter_functional (hs : SedgSolver.Sound s.core) (hk : SedgSolver.FilterKeepsMean s.core) (w : Fin t.Q → ℝ) (f : SedgSolver.Block t n C) :
    SedgSolver.functional s.core w (filterBlock s f) = SedgSolver.functional s.core w f :=
  SedgSolver.filter_functional hs hk w (SedgSolver.asState f)

omit [Fintype C] in
theorem filter_uniform (hs : SedgSolver.Sound s.core)
    (hfil : ∀ r : ℝ, Smoothing.filterCell s.core.toModes s.core.fromModes s.core.factor (fun _ => r) = fun _ => r) (U : Fin t.Q → ℝ)
    (f : SedgSolver.Block t n C) (hf : ∀ i y, f i y = U i) (i y) : filterBlock s f i y = U i := by
  have h1 := congrFun (SedgSolver.applyFilter_cell hs (SedgSolver.asState f) i y.1) y.2
  have h2 : (fun k => SedgSolver.populations (SedgSolver.asState f) i (y.1, k)) = fun _ => U i := funext fun k => hf i (y.1, k)
  rw [h2, hfil] at h1
  exact h1

omit [Fintype C] in
theorem collide_ok {ini : Bool} {x x' : C × Fin n → GNode t.D t.Q} (h : collide s ini x = .ok x') :
    compressibleCollide t s.core.c s.core.viscosity s.core.dt s.core.collision s.gas ini (SedgSolver.owned s.core) x = .ok x' := by
  unfold collide at h
  cases hx : compressibleCollide t s.core.c s.core.viscosity s.core.dt s.core.collision s.gas ini (SedgSolver.owned s.core) x with
  | error e => rw [hx] at h; cases h
  | ok y => rw [hx] at h; cases h; rfl

omit [Fintype C] in
theorem integrate_ok {dt dt' : ℝ} {x x' : C × Fin n → GNode t.D t.Q} (h : integrate s dt x = .ok (x', dt')) :
    ∃ r, SedgSolver.step s.core dt (flow x) = .ok r ∧ x' = setFlow x r.f ∧ dt' = r.t := by
  unfold integrate at h
  cases hx : SedgSolver.step s.core dt (flow x) with
  | error e => rw [hx] at h; cases h
  | ok r => rw [hx] at h; cases h; exact ⟨r, rfl, rfl, rfl⟩

omit [Fintype C] in
theorem gStream_ok {dt : ℝ} {x x' : C × Fin n → GNode t.D t.Q} (h : gStream s dt x = .ok x') :
    ∃ r, SedgSolver.step s.core dt (energy x) = .ok r ∧ x' = setEnergy x r.f := by
  unfold gStream at h
  cases hx : SedgSolver.step s.core dt (energy x) with
  | error e => rw [hx] at h; cases h
  | ok r => rw [hx] at h; cases h; exact ⟨r, rfl, rfl⟩

/-- In equilibrium at rest, opposite directions have the same populations. -/
theorem rest_opposite (t : StencilType) (c gamma rho T : ℝ) (i : Fin t.Q) :
    (Init.compressibleNode (t.stencil c) gamma rho 0 T).1 ((t.stencil c).opp i) = (Init.compressibleNode (t.stencil c) gamma rho 0 T).1 i ∧
    (Init.compressibleNode (t.stencil c) gamma rho 0 T).2 ((t.stencil c).opp i) = (Init.compressibleNode (t.stencil c) gamma rho 0 T).2 i := by
  have ho := C01_opposite t c
  have h : (Init.compressibleNode (t.stencil c) gamma rho 0 T).1 ((t.stencil c).opp i) = (Init.compressibleNode (t.stencil c) gamma rho 0 T).1 i := by
    simp only [Init.compressibleNode, Init.calcQuarticEquilibrium, ho.reverses, ho.same_weight, Pi.zero_apply, zero_div, mul_zero, zero_mul, neg_zero,
      add_zero, zero_add, Finset.sum_const_zero]
    congr 1
    refine Finset.sum_congr rfl fun a _ => Finset.sum_congr rfl fun b _ => ?_
    congr 1
    · ring
    · refine Finset.sum_congr rfl fun c' _ => Finset.sum_congr rfl fun d _ => ?_
      ring
  refine ⟨h, ?_⟩
  show (Init.compressibleNode (t.stencil c) gamma rho 0 T).1 ((t.stencil c).opp i) * T * _ = (Init.compressibleNode (t.stencil c) gamma rho 0 T).1 i * T * _
  rw [h]

section Collision

variable {ι : Type*} [DecidableEq ι] {c viscosity dt : ℝ} (cfg : CollisionConfig t.D) {cc : CompressibleConfig} {owned : List ι}

/-- What a node holds besides its distributions has no influence on a collision in the main loop. -/
theorem node_congr (eq : Equilibrium ℝ t.D t.Q) (d : CollData ℝ t.D t.Q) {x y : GNode t.D t.Q} (hf : x.f = y.f) (hg : x.g = y.g)
    (hd : ¬ Spec.mass x.f < 1 / 10 ^ 10) :
    collideNodeG t.velocity eq cc d false false x = collideNodeG t.velocity eq cc d false false y := by
  have hm : macroG t.velocity cc d x = macroG t.velocity cc d y := by simp only [macroG, hf, hg]
  rw [collideNodeG_free _ _ _ _ _ hd, collideNodeG_free _ _ _ _ _ (by rw [← hf]; exact hd), hm, hf, hg]

theorem node_initial_eq (eq : Equilibrium ℝ t.D t.Q) (d : CollData ℝ t.D t.Q) {x : GNode t.D t.Q} (hd : ¬ Spec.mass x.f < 1 / 10 ^ 10) :
    collideNodeG t.velocity eq cc d false true x = .ok
      { f := (relaxWithG cc eq d { macroG t.velocity cc d x with u := fun j => x.u j / d.scaling } x.f x.g).1,
        g := (relaxWithG cc eq d { macroG t.velocity cc d x with u := fun j => x.u j / d.scaling } x.f x.g).2.1,
        rho := Spec.mass x.f, u := x.u, T := (macroG t.velocity cc d x).T,
        shock := (relaxWithG cc eq d { macroG t.velocity cc d x with u := fun j => x.u j / d.scaling } x.f x.g).2.2 } := by
  unfold collideNodeG
  rw [calculateDensity_ok.mpr ⟨hd, rfl⟩]; rfl

/-- A collision in the iterative initialisation is one of the main loop if the velocity is the given one. -/
theorem node_initial (eq : Equilibrium ℝ t.D t.Q) (d : CollData ℝ t.D t.Q) (hs : d.scaling ≠ 0) {x : GNode t.D t.Q}
    (hd : ¬ Spec.mass x.f < 1 / 10 ^ 10) (hu : ∀ a, t.velocity d x.f (Spec.mass x.f) a * d.scaling = x.u a) :
    collideNodeG t.velocity eq cc d false true x = collideNodeG t.velocity eq cc d false false x := by
  have h1 : (fun a => x.u a / d.scaling) = t.velocity d x.f (Spec.mass x.f) := funext fun a => by rw [← hu]; field_simp
  have h2 : (fun a => t.velocity d x.f (Spec.mass x.f) a * d.scaling) = x.u := funext hu
  rw [collideNodeG_free _ _ _ _ _ hd, node_initial_eq _ _ hd, h1, h2]
  rfl

/-- Mass and momentum of every node are the same after a collision, with both equilibria. -/
theorem comp_mass_momentum (ht : t.exact = true) (hc : c ≠ 0) (hf : cfg.force = none) (hn : owned.Nodup) {x x' : ι → GNode t.D t.Q}
    (h : compressibleCollide t c viscosity dt cfg cc false owned x = .ok x') (j : ι) :
    Spec.mass (x' j).f = Spec.mass (x j).f ∧ ∀ a, Spec.momentum (t.stencil c).dir (x' j).f a = Spec.momentum (t.stencil c).dir (x j).f a := by
  obtain ⟨-, -, -, -, hother, -⟩ := (compressibleCollide_ok t cfg cc false owned hn x x').mp h
  by_cases hj : j ∈ owned
  swap
  · rw [hother j hj]; exact ⟨rfl, fun _ => rfl⟩
  obtain ⟨ec, hec, hd, hj'⟩ := comp_node t cfg hn h hj
  rw [hf] at hj'
  simp only [Option.isSome_none] at hj'
  rw [collideNodeG_free _ _ _ _ _ hd, Except.ok.injEq] at hj'
  have h4 := (t.data_iso5 (viscosity := viscosity) (dt := dt) cfg ht hc).toIso4
  have hcons := t.conservative (viscosity := viscosity) (dt := dt) cfg ht hc ec
  have hms := momentum_scale (t.data_e (viscosity := viscosity) (dt := dt) cfg) hc
  rw [← hj']
  refine ⟨?_, fun a => ?_⟩
  · rw [relaxWithG_mass h4 hcons cc]
    simp only [macroG]; ring
  · rw [hms, hms, relaxWithG_momentum h4 hcons cc]
    have := velocity_rho (viscosity := viscosity) (dt := dt) t cfg hc (x j) hd a
    simp only [macroG]
    rw [← this]; ring

/-- All nodes in the same equilibrium state: the collision, in the main loop or in the initialisation, changes nothing. -/
theorem collide_uniform (ht : t.exact = true) (h6 : Sixth t c) (hc : c ≠ 0) (hg : cc.gamma ≠ 1) (he : cfg.eq = .quartic) (hf : cfg.force = none)
    (hn : owned.Nodup) (hall : ∀ j, j ∈ owned) {rho T : ℝ} {v : Fin t.D → ℝ} {ini : Bool} {x x' : ι → GNode t.D t.Q}
    (hx : ∀ y, (x y).f = (Init.compressibleNode (t.stencil c) cc.gamma rho v T).1 ∧ (x y).g = (Init.compressibleNode (t.stencil c) cc.gamma rho v T).2)
    (hu : ini = true → ∀ y, (x y).u = v) (h : compressibleCollide t c viscosity dt cfg cc ini owned x = .ok x') (y : ι) :
    (x' y).f = (x y).f ∧ (x' y).g = (x y).g ∧ (x' y).rho = rho ∧ (x' y).u = v ∧ (x' y).T = T := by
  have h0 : compressibleCollide t c viscosity dt cfg cc false owned (fun _ => Init.initialNode t c cc.gamma rho v T) = .ok x' := by
    obtain ⟨ec, hec, hr, h1, -, j, h2, h3⟩ := (compressibleCollide_ok t cfg cc ini owned hn x x').mp h
    refine (compressibleCollide_ok t cfg cc false owned hn _ x').mpr ⟨ec, hec, hr, fun j hj => ?_, fun j hj => absurd (hall j) hj, j, h2, ?_⟩
    · rw [← h1 j hj, hf]
      have hm : Spec.mass (x j).f = rho := by rw [(hx j).1]; exact (Init.C108_fields t (gamma := cc.gamma) ht hc rho v T).1
      have hd := (collideNodeG_rho _ _ _ _ _ _ _ _ (h1 j hj)).2
      have hrho : rho ≠ 0 := by
        have := (dens_pos hd).ne'
        rwa [hm] at this
      cases ini with
      | false => exact node_congr _ _ (hx j).1.symm (hx j).2.symm (by rw [show Spec.mass (Init.initialNode t c cc.gamma rho v T).f = rho from (Init.C108_fields t ht hc rho v T).1, ← hm]; exact hd)
      | true =>
        have hsc : (collisionData t c viscosity dt cfg).scaling = c := by simp only [collisionData, CollData.mk', StencilType.scaling_eq]
        rw [Option.isSome_none, node_initial _ _ (by rw [hsc]; exact hc) hd fun a => ?_]
        · exact node_congr _ _ (hx j).1.symm (hx j).2.symm (by rw [show Spec.mass (Init.initialNode t c cc.gamma rho v T).f = rho from (Init.C108_fields t ht hc rho v T).1, ← hm]; exact hd)
        · rw [hsc, hu rfl j]
          have h4 := velocity_rho (c := c) (viscosity := viscosity) (dt := dt) t cfg hc (x j) hd a
          have h5 := momentum_scale (t.data_e (viscosity := viscosity) (dt := dt) cfg) hc (x j).f a
          have h6 : Spec.momentum (t.stencil c).dir (x j).f a = rho * v a := by
            rw [(hx j).1]; exact (Init.C108_fields t (gamma := cc.gamma) ht hc rho v T).2 a
          rw [h6, h4, hm] at h5
          rw [hm]
          have h7 : rho * (v a - c * t.velocity (collisionData t c viscosity dt cfg) (x j).f rho a) = 0 := by linear_combination h5
          have := (mul_eq_zero.mp h7).resolve_left hrho
          linarith
    · rw [(hx j).1] at h3; exact h3
  obtain ⟨a1, a2, a3, a4, a5⟩ := Init.C108_first_collision t ht h6 hc cfg (cc := cc) hg he hf hn (rho := fun _ => rho) (T := fun _ => T)
    (u := fun a _ => v a) h0 (hall y)
  exact ⟨by rw [a1, (hx y).1]; rfl, by rw [a2, (hx y).2]; rfl, a3, funext a4, a5⟩

/-- … and it succeeds. -/
theorem collide_succeeds (ht : t.exact = true) (hc : c ≠ 0) (he : cfg.eq = .quartic) (hf : cfg.force = none)
    (hr : ∃ r, (compSelection t.D).1.find? (·.applies { stencil := t, scheme := cfg.scheme, eq := cfg.eq }) = some r)
    (hn : owned.Nodup) (hne : owned ≠ []) {rho T : ℝ} (hrho : 1 / 10 ^ 10 < rho) {v : Fin t.D → ℝ} {ini : Bool} {x : ι → GNode t.D t.Q}
    (hx : ∀ y, (x y).f = (Init.compressibleNode (t.stencil c) cc.gamma rho v T).1 ∧ (x y).g = (Init.compressibleNode (t.stencil c) cc.gamma rho v T).2)
    (hu : ini = true → ∀ y, (x y).u = v) : ∃ x', compressibleCollide t c viscosity dt cfg cc ini owned x = .ok x' := by
  have hm : ∀ y, Spec.mass (x y).f = rho := fun y => by rw [(hx y).1]; exact (Init.C108_fields t (gamma := cc.gamma) ht hc rho v T).1
  obtain ⟨x', hx'⟩ := comp_step_succeeds t cfg (c := c) (viscosity := viscosity) (dt := dt) (cc := cc) (nodes := x) (ec := .quartic) (.inr ⟨he, rfl⟩) hr hf hn
    hne fun j _ => by rw [hm]; exact hrho
  cases ini with
  | false => exact ⟨x', hx'⟩
  | true =>
    obtain ⟨ec, hec, hr, h1, h2, h3⟩ := (compressibleCollide_ok t cfg cc false owned hn x x').mp hx'
    refine ⟨x', (compressibleCollide_ok t cfg cc true owned hn x x').mpr ⟨ec, hec, hr, fun j hj => ?_, h2, h3⟩⟩
    rw [← h1 j hj, hf]
    have hd := (collideNodeG_rho _ _ _ _ _ _ _ _ (h1 j hj)).2
    have hsc : (collisionData t c viscosity dt cfg).scaling = c := by simp only [collisionData, CollData.mk', StencilType.scaling_eq]
    refine node_initial _ _ (by rw [hsc]; exact hc) hd fun a => ?_
    rw [hsc, hu rfl j]
    have h4 := velocity_rho (c := c) (viscosity := viscosity) (dt := dt) t cfg hc (x j) hd a
    have h5 := momentum_scale (t.data_e (viscosity := viscosity) (dt := dt) cfg) hc (x j).f a
    have h6 : Spec.momentum (t.stencil c).dir (x j).f a = rho * v a := by
      rw [(hx j).1]; exact (Init.C108_fields t (gamma := cc.gamma) ht hc rho v T).2 a
    rw [h6, h4, hm] at h5
    rw [hm]
    have h7 : rho * (v a - c * t.velocity (collisionData t c viscosity dt cfg) (x j).f rho a) = 0 := by linear_combination h5
    have h8 : rho ≠ 0 := fun h => by rw [h] at hrho; norm_num at hrho
    have := (mul_eq_zero.mp h7).resolve_left h8
    linarith

end Collision

end CompressibleSolver
end NATriuM
