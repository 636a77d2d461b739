import Verif.Spec.SedgSolver
import Verif.Props.CollisionMRT
import Verif.Props.Sedg
import Verif.Props.SolverLoop
import Verif.Props.Smoothing
import Verif.Props.TimeIntegration
import Verif.Props.Walls
import Verif.Props.LegacyBGK

/-!
# Lemmas on whole runs of the discontinuous Galerkin solver
-/

namespace NATriuM

namespace Solver

variable {σ ε ι : Type*} {D : ℕ} {cfg : RunConfig} {p : Parts σ ε ι D} {start : ℕ} {s0 : Snapshot σ}

/-- What holds of the data after `k` collisions, if the parts keep it and every collision counts. -/
theorem trajectory_invariant' (J : ℕ → σ → Prop) (hi : ∀ k j s s', J k s.x → stream p j s = .ok s' → J k s'.x)
    (hf : cfg.isFiltering = true → ∀ k x, J k x → J k (p.applyFilter x))
    (hc : ∀ k x x', J k x → p.collide x = .ok x' → J (k + 1) x')
    (hp : ∀ q ∈ p.processors, ∀ k i time x, J (k + 1) x → J (k + 1) (q i time x)) (h0 : J 0 s0.x) :
    ∀ k s, runTrajectory cfg p start s0 k = .ok s → J (k + 1) s.x := by
  have hcol : ∀ k s s', J k s.x → collide p s = .ok s' → J (k + 1) s'.x := by
    intro k s s' hJ h
    unfold collide at h
    cases hx : p.collide s.x with
    | error e => rw [hx] at h; cases h
    | ok x => rw [hx] at h; cases h; exact hc k _ _ hJ hx
  have hproc : ∀ k i (s : Snapshot σ), J (k + 1) s.x → J (k + 1) (applyProcessors p i s).x := by
    intro k i s hJ
    show J (k + 1) (p.processors.foldl (fun x proc => proc i s.time x) s.x)
    have : ∀ (l : List (ℕ → ℝ → σ → σ)), (∀ q ∈ l, q ∈ p.processors) → ∀ x, J (k + 1) x → J (k + 1) (l.foldl (fun x proc => proc i s.time x) x) := by
      intro l
      induction l with
      | nil => intro _ x hx; exact hx
      | cons q l ih =>
        intro hl x hx
        exact ih (fun q' hq' => hl q' (List.mem_cons_of_mem _ hq')) _ (hp q (hl q List.mem_cons_self) k i s.time x hx)
    exact this _ (fun _ h => h) _ hJ
  intro k
  induction k with
  | zero => intro s h; exact hcol 0 s0 s h0 h
  | succ k ih =>
    intro s h'
    simp only [runTrajectory, Spec.trajectory] at h'
    cases hk : Spec.trajectory (collide p s0) (advance cfg p start) start k with
    | error e => rw [hk] at h'; cases h'
    | ok s1 =>
      rw [hk] at h'
      have hJ := ih s1 hk
      simp only [advance] at h'
      cases hs : stream p (start + (k + 1) - start) s1 with
      | error e => rw [hs] at h'; cases h'
      | ok s2 =>
        rw [hs] at h'
        have hJ2 : J (k + 1) s2.x := hi _ _ _ _ hJ hs
        have hJ3 : J (k + 1) (filter cfg p (start + (k + 1)) s2).x := by
          unfold filter
          split
          · next hif => exact hf (by simp at hif; exact hif.1) _ _ hJ2
          · exact hJ2
        simp only at h'
        cases hx : collide p (filter cfg p (start + (k + 1)) s2) with
        | error e => rw [hx] at h'; cases h'
        | ok s3 =>
          rw [hx] at h'
          cases h'
          exact hproc _ _ _ (hcol _ _ _ hJ3 hx)

/-- The same for the time integrators -/
theorem trajectory_invariant (J : ℕ → σ → Prop) (hsc : p.scheme = .sedg)
    (hi : ∀ k j dt x x' dt', J k x → p.integrate j dt x = .ok (x', dt') → J k x')
    (hf : cfg.isFiltering = true → ∀ k x, J k x → J k (p.applyFilter x))
    (hc : ∀ k x x', J k x → p.collide x = .ok x' → J (k + 1) x')
    (hp : ∀ q ∈ p.processors, ∀ k i time x, J (k + 1) x → J (k + 1) (q i time x)) (h0 : J 0 s0.x) :
    ∀ k s, runTrajectory cfg p start s0 k = .ok s → J (k + 1) s.x := by
  refine trajectory_invariant' J (fun k j s s' hJ hs => ?_) hf hc hp h0
  unfold stream at hs
  rw [hsc] at hs
  simp only at hs
  cases hx : p.integrate j s.dt s.x with
  | error e => rw [hx] at hs; cases hs
  | ok r =>
    obtain ⟨x, d⟩ := r
    rw [hx] at hs
    simp only at hs
    split at hs
    · cases hs; exact hi _ _ _ _ _ _ hJ hx
    · cases hs

/-- The same for semi-Lagrangian streaming -/
theorem trajectory_invariant_sl (J : ℕ → σ → Prop) (hsc : p.scheme = .semiLagrangian)
    (hi : ∀ k j time x x', J k x → p.advect j time x = .ok x' → J k x')
    (hf : cfg.isFiltering = true → ∀ k x, J k x → J k (p.applyFilter x))
    (hc : ∀ k x x', J k x → p.collide x = .ok x' → J (k + 1) x')
    (hp : ∀ q ∈ p.processors, ∀ k i time x, J (k + 1) x → J (k + 1) (q i time x)) (h0 : J 0 s0.x) :
    ∀ k s, runTrajectory cfg p start s0 k = .ok s → J (k + 1) s.x := by
  refine trajectory_invariant' J (fun k j s s' hJ hs => ?_) hf hc hp h0
  unfold stream at hs
  rw [hsc] at hs
  simp only at hs
  cases hx : p.advect j s.time s.x with
  | error e => rw [hx] at hs; cases hs
  | ok x =>
    rw [hx] at hs
    cases hs
    exact hi _ _ _ _ _ hJ hx

/-- A run is completed if nothing fails on the data it meets. -/
theorem run_completes [Fintype ι] (J : Snapshot σ → Prop) (h0 : ∃ s, collide p s0 = .ok s ∧ J s)
    (hs : ∀ i s, J s → ∃ s', advance cfg p start i s = .ok s' ∧ J s') : ∃ st, run cfg p start s0 = .ok st ∧ J st.snap := by
  have hok : ∀ k, ∃ s, runTrajectory cfg p start s0 k = .ok s ∧ J s := by
    intro k
    induction k with
    | zero => exact h0
    | succ k ih =>
      obtain ⟨s, hk, hJ⟩ := ih
      obtain ⟨s', hs', hJ'⟩ := hs (start + (k + 1)) s hJ
      refine ⟨s', ?_, hJ'⟩
      simp only [runTrajectory, Spec.trajectory] at hk ⊢
      rw [hk]
      exact hs'
  cases h : run cfg p start s0 with
  | ok st =>
    obtain ⟨s, hk, hJ⟩ := hok (st.i - start)
    rw [(run_ok h).2.1] at hk
    cases hk
    exact ⟨st, rfl, hJ⟩
  | error e =>
    obtain ⟨k, -, -, hk, -⟩ := run_error h
    obtain ⟨s, hs', -⟩ := hok (k - start)
    rw [hs'] at hk
    cases hk

end Solver

namespace SedgSolver

open Finset

variable {t : StencilType} {n nQ nf nq : ℕ} {C : Type*} [DecidableEq C] [Fintype C] {s : Setup t n nQ nf nq C}

/-- A weighted sum over the directions of the integrals, as a linear map -/
noncomputable def functional (s : Setup t n nQ nf nq C) (w : Fin t.Q → ℝ) : Block t n C →ₗ[ℝ] ℝ where
  toFun f := ∑ i, w i * integral s.mesh (f i)
  map_add' f g := by
    simp only [integral, Pi.add_apply, mul_add, Finset.sum_add_distrib]
  map_smul' a f := by
    simp only [integral, Pi.smul_apply, smul_eq_mul, RingHom.id_apply, Finset.mul_sum]
    refine Finset.sum_congr rfl fun i _ => Finset.sum_congr rfl fun c _ => Finset.sum_congr rfl fun k _ => ?_
    ring

omit [DecidableEq C] in
theorem integral_sum {ι : Type*} (S : Finset ι) (m : Sedg.Mesh ℝ t.D n nQ nf nq C) (g : ι → C × Fin n → ℝ) (w : ι → ℝ) :
    integral m (fun y => ∑ i ∈ S, g i y * w i) = ∑ i ∈ S, w i * integral m (g i) := by
  simp only [integral, Finset.mul_sum]
  rw [Finset.sum_comm' (t' := Finset.univ) (s' := fun _ => S) (by simp)]
  refine Finset.sum_congr rfl fun c _ => ?_
  rw [Finset.sum_comm]
  refine Finset.sum_congr rfl fun k _ => Finset.sum_congr rfl fun i _ => ?_
  ring

omit [DecidableEq C] in
theorem totalMass_eq (x : C × Fin n → Node ℝ t.D t.Q) : totalMass s x = functional s (fun _ => 1) (populations x) := by
  have := integral_sum Finset.univ s.mesh (populations x) fun _ => 1
  simp only [mul_one] at this
  exact this

omit [DecidableEq C] in
theorem totalMomentum_eq (x : C × Fin n → Node ℝ t.D t.Q) (a : Fin t.D) :
    totalMomentum s x a = functional s (fun i => (t.stencil s.c).dir i a) (populations x) :=
  integral_sum Finset.univ s.mesh (populations x) fun i => (t.stencil s.c).dir i a

omit [DecidableEq C] in
theorem integral_congr_cells (m : Sedg.Mesh ℝ t.D n nQ nf nq C) {g h : C × Fin n → ℝ}
    (e : ∀ c, ∑ k, Sedg.mass m c k * g (c, k) = ∑ k, Sedg.mass m c k * h (c, k)) : integral m g = integral m h :=
  Finset.sum_congr rfl fun c _ => e c

/-! ### Streaming -/

/-- What the walls add to the rates of change, written out -/
noncomputable def wallRate (s : Setup t n nQ nf nq C) (f : Block t n C) (i : Fin t.Q) (x : C × Fin n) : ℝ :=
  wallSum s Walls.FaceEntries.own i x * f i x + wallSum s Walls.FaceEntries.opposite i x * f ((t.stencil s.c).opp i) x
    + wallSum s Walls.FaceEntries.vector i x

omit [Fintype C] in
theorem wallRate_eq (hs : Sound s) (f : Block t n C) (i : Fin t.Q) (c : C) (k : Fin n) :
    wallRate s f i (c, k) = ∑ g, if (s.mesh.neighbor c g).isNone then
      ∑ q, if s.mesh.faceDof g q = k then
        Walls.faceRate (t.stencil s.c) s.central (s.mesh.faceJxw c g q) (Sedg.inverseMass s.mesh c k) (s.mesh.normal c g q)
          (s.wallVelocity c g q) (fun j => f j (c, k)) i
      else 0 else 0 := by
  unfold wallRate wallSum
  simp only [if_pos (hs.complete c), Finset.sum_mul, ← Finset.sum_add_distrib]
  refine Finset.sum_congr rfl fun g _ => ?_
  by_cases hg : (s.mesh.neighbor c g).isNone
  · simp only [hg, if_true, Finset.sum_mul, ← Finset.sum_add_distrib]
    refine Finset.sum_congr rfl fun q _ => ?_
    by_cases hq : s.mesh.faceDof g q = k
    · simp only [hq, if_true, Walls.faceRate]
    · simp only [hq, if_false]; ring
  · simp only [hg]; simp

omit [Fintype C] in
theorem faceRate_mass (S : Stencil ℝ t.D t.Q) (central : Bool) (jxw minv : ℝ) (nn u : Fin t.D → ℝ) (f : Fin t.Q → ℝ) (i : Fin t.Q) (m : ℝ)
    (h : m * minv = 1) : m * Walls.faceRate S central jxw minv nn u f i = Walls.faceRate S central jxw 1 nn u f i := by
  unfold Walls.faceRate
  simp only
  linear_combination ((Walls.faceEntries S central jxw nn u i).own * f i + (Walls.faceEntries S central jxw nn u i).opposite * f (S.opp i)
    + (Walls.faceEntries S central jxw nn u i).vector) * h

omit [Fintype C] in
theorem sum_wallRate (hs : Sound s) (f : Block t n C) (i : Fin t.Q) (c : C) :
    ∑ k, Sedg.mass s.mesh c k * wallRate s f i (c, k) = ∑ g, if (s.mesh.neighbor c g).isNone then
      ∑ q, Walls.faceRate (t.stencil s.c) s.central (s.mesh.faceJxw c g q) 1 (s.mesh.normal c g q) (s.wallVelocity c g q)
        (fun j => f j (c, s.mesh.faceDof g q)) i else 0 := by
  simp only [wallRate_eq hs, Finset.mul_sum]
  rw [Finset.sum_comm]
  refine Finset.sum_congr rfl fun g _ => ?_
  by_cases hg : (s.mesh.neighbor c g).isNone
  · simp only [hg, if_true, Finset.mul_sum]
    rw [Finset.sum_comm]
    refine Finset.sum_congr rfl fun q _ => ?_
    rw [Finset.sum_eq_single (s.mesh.faceDof g q)]
    · rw [if_pos rfl, faceRate_mass]
      exact mul_one_div_cancel (hs.mass _ _)
    · intro k _ hk
      rw [if_neg (Ne.symm hk), mul_zero]
    · intro h; exact absurd (Finset.mem_univ _) h
  · simp only [hg]; simp

/-- The neighbour on the other side of a face; the face itself at walls -/
def across (m : Sedg.Mesh ℝ t.D n nQ nf nq C) (x : C × Fin nf) : C × Fin nf := (m.neighbor x.1 x.2).getD x

omit [Fintype C] in
/-- Change of the amount of one population in a cell: by the fluxes to the neighbours, and by what happens at the walls -/
theorem cell_balance (hs : Sound s) (hcen : s.central = false) (f : Block t n C) (i : Fin t.Q) (c : C) :
    ∑ k, Sedg.mass s.mesh c k *
      (Sedg.rate (Sedg.reassemble s.mesh s.central ((t.stencil s.c).dir i) s.cells) (f i) (c, k) + wallRate s f i (c, k)) =
    ∑ g, if (s.mesh.neighbor c g).isNone then
      ∑ q, (Walls.faceRate (t.stencil s.c) false (s.mesh.faceJxw c g q) 1 (s.mesh.normal c g q) (s.wallVelocity c g q)
          (fun j => f j (c, s.mesh.faceDof g q)) i
        - s.mesh.faceJxw c g q * Spec.dot (s.mesh.normal c g q) ((t.stencil s.c).dir i) * f i (c, s.mesh.faceDof g q))
      else - ∑ q, Sedg.upwindFlux s.mesh ((t.stencil s.c).dir i) (f i) c g (across s.mesh (c, g)).1 (across s.mesh (c, g)).2 q := by
  simp only [mul_add, Finset.sum_add_distrib]
  rw [sum_wallRate hs, Sedg.sum_rate_cell s.mesh s.central _ s.cells hs.nodup c (hs.complete c),
    Sedg.stiffness_mass s.mesh hs.nodal hs.divergence hs.mass, Sedg.faceSum, ← Finset.sum_neg_distrib, ← Finset.sum_add_distrib,
    ← Finset.sum_add_distrib, hcen]
  refine Finset.sum_congr rfl fun g _ => ?_
  cases hg : s.mesh.neighbor c g with
  | none =>
    simp only [Option.isNone_none, if_true, add_zero, Finset.sum_sub_distrib]
    rw [add_comm, sub_eq_add_neg]
    rfl
  | some y =>
    simp only [Option.isNone_some, Bool.false_eq_true, if_false, add_zero, across, hg, Option.getD_some]
    rw [← Finset.sum_neg_distrib, ← Finset.sum_neg_distrib, ← Finset.sum_add_distrib]
    refine Finset.sum_congr rfl fun q _ => ?_
    have hM := hs.mass c (s.mesh.faceDof g q)
    rw [Sedg.inverseMass, mul_one_div_cancel hM, one_mul, Sedg.cellEntry, Sedg.neighborEntry, Sedg.upwindFlux]
    simp only [Bool.false_eq_true, if_false]
    show _ = - (s.mesh.faceJxw c g q * Sedg.exn s.mesh _ c g q * if Sedg.exn s.mesh _ c g q < 0 then _ else _)
    split_ifs <;> ring

/-- The fluxes between neighbours cancel. -/
theorem fluxes_cancel (hs : Sound s) (e : Fin t.D → ℝ) (u : C × Fin n → ℝ) :
    ∑ c, ∑ g, (if (s.mesh.neighbor c g).isNone then 0
      else - ∑ q, Sedg.upwindFlux s.mesh e u c g (across s.mesh (c, g)).1 (across s.mesh (c, g)).2 q) = 0 := by
  rw [← Fintype.sum_prod_type' (f := fun c g => if (s.mesh.neighbor c g).isNone then (0 : ℝ)
    else - ∑ q, Sedg.upwindFlux s.mesh e u c g (across s.mesh (c, g)).1 (across s.mesh (c, g)).2 q)]
  have hinv : ∀ x, across s.mesh (across s.mesh x) = x := fun x => by
    unfold across
    cases hx : s.mesh.neighbor x.1 x.2 with
    | none => simp [hx]
    | some y => simp [(hs.matching x.1 x.2 y.1 y.2 hx).1]
  have h2 := Sedg.sum_pairs (across s.mesh) hinv fun x : C × Fin nf => if (s.mesh.neighbor x.1 x.2).isNone then (0 : ℝ)
    else - ∑ q, Sedg.upwindFlux s.mesh e u x.1 x.2 (across s.mesh x).1 (across s.mesh x).2 q
  rw [Finset.sum_eq_zero (s := Finset.univ) (f := fun x : C × Fin nf => _ + _)] at h2
  · exact (mul_eq_zero.1 h2).resolve_left two_ne_zero
  · intro x _
    rw [hinv x]
    cases hx : s.mesh.neighbor x.1 x.2 with
    | none =>
      have : across s.mesh x = x := by simp [across, hx]
      rw [this, hx]; simp
    | some y =>
      have hy : across s.mesh x = y := by simp [across, hx]
      have hb := (hs.matching x.1 x.2 y.1 y.2 hx).1
      rw [hy, hb]
      simp only [Option.isNone_some, Bool.false_eq_true, if_false]
      rw [Finset.sum_congr rfl fun q _ => Sedg.upwindFlux_opposite s.mesh hs.matching e u x.1 y.1 x.2 y.2 hx q, Finset.sum_neg_distrib]
      ring

/-- What one population loses or gains at a wall point, together with the outflow -/
noncomputable def wallBalance (s : Setup t n nQ nf nq C) (f : Block t n C) (i : Fin t.Q) (c : C) (g : Fin nf) (q : Fin nq) : ℝ :=
  Walls.faceRate (t.stencil s.c) false (s.mesh.faceJxw c g q) 1 (s.mesh.normal c g q) (s.wallVelocity c g q)
      (fun j => f j (c, s.mesh.faceDof g q)) i
    - s.mesh.faceJxw c g q * Spec.dot (s.mesh.normal c g q) ((t.stencil s.c).dir i) * f i (c, s.mesh.faceDof g q)

/-- The amount of one population changes at the walls only. -/
theorem integral_rate (hs : Sound s) (ht : t.exact = true) (hcen : s.central = false) (f : Block t n C) (i : Fin t.Q) :
    integral s.mesh ((systemMatrix s f + systemVector s) i) =
      ∑ c, ∑ g, if (s.mesh.neighbor c g).isNone then ∑ q, wallBalance s f i c g q else 0 := by
  by_cases hi : i.val = 0
  · have h0 : (systemMatrix s f + systemVector s) i = 0 := by
      funext x
      show matrixTimes s f i x + systemVector s i x = 0
      simp [matrixTimes, systemVector, hi]
    rw [h0]
    have hd : ∀ v : Fin t.D → ℝ, Spec.dot v ((t.stencil s.c).dir i) = 0 := fun v => by
      simp [Spec.dot, Legacy.dir_zero t ht s.c i hi]
    have hw : ∀ c g q, wallBalance s f i c g q = 0 := fun c g q => by
      rw [wallBalance, Walls.C46_dg_upwind, hd, if_neg (lt_irrefl _)]; ring
    simp [integral, hw]
  · have h1 : ∀ x, (systemMatrix s f + systemVector s) i x =
        Sedg.rate (Sedg.reassemble s.mesh s.central ((t.stencil s.c).dir i) s.cells) (f i) x + wallRate s f i x := fun x => by
      show matrixTimes s f i x + systemVector s i x = _
      simp only [matrixTimes, systemVector, hi, if_false, wallRate]
      ring
    unfold integral
    simp only [h1, cell_balance hs hcen]
    have h2 := fluxes_cancel hs ((t.stencil s.c).dir i) (f i)
    refine sub_eq_zero.1 (Eq.trans ?_ h2)
    simp only [← Finset.sum_sub_distrib]
    refine Finset.sum_congr rfl fun c _ => Finset.sum_congr rfl fun g _ => ?_
    split_ifs
    · exact sub_self _
    · rw [sub_zero]

/-- Without walls, the total amount of every population is constant. -/
theorem functional_nowalls (hs : Sound s) (ht : t.exact = true) (hcen : s.central = false) (hw : NoWalls s) (w : Fin t.Q → ℝ) :
    (∀ f, functional s w (systemMatrix s f) = 0) ∧ functional s w (systemVector s) = 0 := by
  have h : ∀ f, functional s w (systemMatrix s f + systemVector s) = 0 := fun f => by
    show ∑ i, w i * integral s.mesh ((systemMatrix s f + systemVector s) i) = 0
    refine Finset.sum_eq_zero fun i _ => ?_
    rw [integral_rate hs ht hcen, Finset.sum_eq_zero, mul_zero]
    intro c _
    refine Finset.sum_eq_zero fun g _ => ?_
    rw [if_neg]
    simpa using Option.isSome_iff_ne_none.1 (hw c g)
  have h0 := h 0
  rw [map_zero, zero_add] at h0
  exact ⟨fun f => by have := h f; rwa [map_add, h0, add_zero] at this, h0⟩

/-- With walls that move along themselves, the total mass is constant. -/
theorem functional_walls (hs : Sound s) (ht : t.exact = true) (hcen : s.central = false) (hw : WallsTangential s) :
    (∀ f, functional s (fun _ => 1) (systemMatrix s f) = 0) ∧ functional s (fun _ => 1) (systemVector s) = 0 := by
  have h : ∀ f, functional s (fun _ => 1) (systemMatrix s f + systemVector s) = 0 := fun f => by
    show ∑ i, 1 * integral s.mesh ((systemMatrix s f + systemVector s) i) = 0
    simp only [one_mul, integral_rate hs ht hcen]
    rw [Finset.sum_comm]
    refine Finset.sum_eq_zero fun c _ => ?_
    rw [Finset.sum_comm]
    refine Finset.sum_eq_zero fun g _ => ?_
    cases hg : s.mesh.neighbor c g with
    | some y => simp
    | none =>
      simp only [Option.isNone_none, if_true]
      rw [Finset.sum_comm]
      refine Finset.sum_eq_zero fun q _ => ?_
      unfold wallBalance
      rw [Walls.C46_dg_mass (t.stencil s.c) (C01_opposite t s.c) (C03_isotropy t ht s.c).toIso4.toIso2 (t.cs2_ne ht hs.scaling)]
      have := hw c g q hg
      rw [show Spec.dot (s.mesh.normal c g q) (s.wallVelocity c g q) = 0 from this]
      simp
  have h0 := h 0
  rw [map_zero, zero_add] at h0
  exact ⟨fun f => by have := h f; rwa [map_add, h0, add_zero] at this, h0⟩

omit [Fintype C] [DecidableEq C] in
theorem populations_set (x : C × Fin n → Node ℝ t.D t.Q) (f : Block t n C) : populations (setPopulations x f) = f := rfl

/-- Conserved functionals of the populations are kept by the streaming step. -/
theorem integrate_keeps (hex : SolvesExactly s) (w : Fin t.Q → ℝ) (hA : ∀ f, functional s w (systemMatrix s f) = 0)
    (hb : functional s w (systemVector s) = 0) {dt dt' : ℝ} {x x' : C × Fin n → Node ℝ t.D t.Q} (h : integrate s dt x = .ok (x', dt')) :
    functional s w (populations x') = functional s w (populations x) := by
  unfold integrate at h
  cases hstep : step s dt (populations x) with
  | error e => rw [hstep] at h; cases h
  | ok r =>
    rw [hstep] at h
    cases h
    rw [populations_set]
    unfold step at hstep
    cases hI : s.integrator with
    | rungeKutta5 =>
      rw [hI] at hstep
      exact TimeIntegration.C71_rungeKutta _ _ _ _ _ _ r hstep _ hA hb
    | theta θ solve =>
      rw [hI] at hstep
      exact TimeIntegration.C71_theta solve (hex θ solve hI) _ _ _ _ _ _ _ r hstep _ hA hb

omit [Fintype C] in
/-- A state without change is kept by the streaming step. -/
theorem integrate_steady (hst : StopsAtSolution s) {dt dt' : ℝ} {x x' : C × Fin n → Node ℝ t.D t.Q}
    (h : integrate s dt x = .ok (x', dt')) (hx : systemMatrix s (populations x) + systemVector s = 0) : x' = x := by
  unfold integrate at h
  cases hstep : step s dt (populations x) with
  | error e => rw [hstep] at h; cases h
  | ok r =>
    rw [hstep] at h
    cases h
    have hr : r.f = populations x := by
      unfold step at hstep
      cases hI : s.integrator with
      | rungeKutta5 =>
        rw [hI] at hstep
        exact TimeIntegration.C23_steady _ _ _ _ _ _ r hstep hx
      | theta θ solve =>
        rw [hI] at hstep
        exact TimeIntegration.C24_steady solve (hst θ solve hI) _ _ _ _ _ _ _ r hstep hx
    rw [hr]
    rfl

omit [Fintype C] in
/-- The streaming step of a state without change succeeds. -/
theorem integrate_steady_ok (hst : StopsAtSolution s) {dt : ℝ} (hd : 0 < dt) {x : C × Fin n → Node ℝ t.D t.Q}
    (hx : systemMatrix s (populations x) + systemVector s = 0) : ∃ x', integrate s dt x = .ok (x', dt) := by
  have hpro : TimeIntegration.prologue dt dt = .ok (dt, dt) := by
    simp [TimeIntegration.prologue, hd.ne']
  cases hI : s.integrator with
  | rungeKutta5 =>
    simp only [integrate, step, hI, TimeIntegration.rkStep, hpro, zero_add]
    exact ⟨_, rfl⟩
  | theta θ solve =>
    have hres : TimeIntegration.thetaMatrix (systemMatrix s) θ dt (populations x)
        = TimeIntegration.thetaRhs (systemMatrix s) (systemVector s) θ dt (populations x) := by
      rw [TimeIntegration.thetaRhs, LinearMap.smul_apply, ← smul_add, add_comm (systemVector s), hx, smul_zero, zero_add]
    simp only [integrate, step, hI, TimeIntegration.thetaStep, hpro, hst θ solve hI _ _ _ hres, zero_add]
    exact ⟨_, rfl⟩

omit [Fintype C] in
/-- The step size never changes. -/
theorem fixedStep (s : Setup t n nQ nf nq C) (hdt : ∀ dt x x' dt', integrate s dt x = .ok (x', dt') → dt ≠ 0) :
    Solver.FixedStep (parts s) := by
  refine Or.inr fun k dt x x' dt' h => ?_
  have h' : integrate s dt x = .ok (x', dt') := h
  have h0 := hdt dt x x' dt' h'
  unfold integrate at h'
  cases hstep : step s dt (populations x) with
  | error e => rw [hstep] at h'; cases h'
  | ok r =>
    rw [hstep] at h'
    cases h'
    unfold step at hstep
    have hp : TimeIntegration.prologue dt dt = .ok (dt, dt) := by
      simp [TimeIntegration.prologue, h0]
    cases hI : s.integrator with
    | rungeKutta5 =>
      rw [hI] at hstep
      simp only [TimeIntegration.rkStep, hp] at hstep
      cases hstep; simp
    | theta θ solve =>
      rw [hI] at hstep
      simp only [TimeIntegration.thetaStep, hp] at hstep
      split at hstep
      · cases hstep
      · cases hstep; simp

/-! ### Filtering -/

omit [Fintype C] in
theorem applyFilter_cell (hs : Sound s) (x : C × Fin n → Node ℝ t.D t.Q) (i : Fin t.Q) (c : C) :
    (fun k => populations (applyFilter s x) i (c, k)) = Smoothing.filterCell s.toModes s.fromModes s.factor fun k => populations x i (c, k) :=
  (Smoothing.C57_mesh_partial s.toModes s.fromModes s.factor (fun c k => (c, k)) (fun _ _ _ _ h => by simpa using h) s.cells hs.nodup
    (populations x i)).1 c (hs.complete c)

theorem filter_functional (hs : Sound s) (hk : FilterKeepsMean s) (w : Fin t.Q → ℝ) (x : C × Fin n → Node ℝ t.D t.Q) :
    functional s w (populations (applyFilter s x)) = functional s w (populations x) := by
  show ∑ i, w i * integral s.mesh (populations (applyFilter s x) i) = ∑ i, w i * integral s.mesh (populations x i)
  refine Finset.sum_congr rfl fun i _ => ?_
  congr 1
  refine integral_congr_cells s.mesh fun c => ?_
  rw [← hk c fun k => populations x i (c, k), ← applyFilter_cell hs x i c]

omit [Fintype C] in
omit [DecidableEq C] in
/-- The filter keeps the integrals if the modes are spanned by the shape functions, the zeroth mode has factor one, the other modes have mean zero
in the quadrature of each cell, and `projections` made the matrices. -/
theorem filter_keeps (s : Setup t n nQ nf nq C) {X : Type*} (shape mode : Fin n → X → ℝ) (hA : Smoothing.SpannedBy shape mode) (w : Fin nQ → ℝ)
    (pt : Fin nQ → X) (hTF : Smoothing.projections w (fun i q => shape i (pt q)) (fun k q => mode k (pt q)) = some (s.toModes, s.fromModes))
    (node : Fin n → X) (hnode : ∀ i k, shape i (node k) = if i = k then 1 else 0)
    (hmean : ∀ c (l : Fin n), l.val ≠ 0 → ∑ k, Sedg.mass s.mesh c k * mode l (node k) = 0)
    (h0 : ∀ k : Fin n, (k : ℕ) = 0 → s.factor k = 1) : FilterKeepsMean s := by
  intro c u
  let M : (X → ℝ) →ₗ[ℝ] ℝ :=
    { toFun := fun g => ∑ k, Sedg.mass s.mesh c k * g (node k)
      map_add' := fun g h => by simp [mul_add, Finset.sum_add_distrib]
      map_smul' := fun a g => by
        simp only [Pi.smul_apply, smul_eq_mul, RingHom.id_apply, Finset.mul_sum]
        exact Finset.sum_congr rfl fun k _ => by ring }
  have hM := Smoothing.C57_mean shape mode hA w pt hTF s.factor u M (fun l hl => hmean c l hl) h0
  have hf : ∀ v k, Smoothing.field shape v (node k) = v k := fun v k => by
    simp [Smoothing.field, hnode]
  have e : ∀ v, M (Smoothing.field shape v) = ∑ k, Sedg.mass s.mesh c k * v k := fun v => by
    show ∑ k, Sedg.mass s.mesh c k * Smoothing.field shape v (node k) = _
    simp only [hf]
  rwa [e, e] at hM

/-! ### Collision -/

omit [Fintype C] in
omit [DecidableEq C] in
theorem owned_nodup (hs : Sound s) : (owned s).Nodup := by
  unfold owned
  rw [List.nodup_flatMap]
  refine ⟨fun c _ => (List.nodup_finRange n).map fun a b h => by simpa using h, ?_⟩
  refine hs.nodup.imp ?_
  intro a b hab y hy hy'
  simp only [List.mem_map] at hy hy'
  obtain ⟨k, _, rfl⟩ := hy
  obtain ⟨k', _, h⟩ := hy'
  exact hab (by simpa using (congrArg Prod.fst h).symm)

omit [Fintype C] in
omit [DecidableEq C] in
theorem mem_owned (hs : Sound s) (y : C × Fin n) : y ∈ owned s := by
  unfold owned
  rw [List.mem_flatMap]
  exact ⟨y.1, hs.complete y.1, List.mem_map.2 ⟨y.2, List.mem_finRange _, rfl⟩⟩

omit [Fintype C] in
theorem collide_ok {x x' : C × Fin n → Node ℝ t.D t.Q} (h : collide s x = .ok x') :
    isothermalCollide t s.c s.viscosity s.dt s.collision false (owned s) x = .ok x' := by
  unfold collide at h
  cases hx : isothermalCollide t s.c s.viscosity s.dt s.collision false (owned s) x with
  | error e => rw [hx] at h; cases h
  | ok y => rw [hx] at h; cases h; rfl

/-! ### Uniform states -/

/-- The equilibrium of a fluid at rest -/
theorem equilibrium_rest (t : StencilType) (ec : EquilibriumClass) {c viscosity dt : ℝ} (hc : c ≠ 0) (cfg : CollisionConfig t.D) (rho : ℝ) (i : Fin t.Q) :
    t.equilibrium ec (collisionData t c viscosity dt cfg) { rho := rho, u := fun _ => 0, T := 1 } i = (t.stencil c).weight i * rho := by
  cases ec with
  | bgk =>
    rw [t.bgk_eq cfg hc]
    simp [bgkEquilibrium, collisionData, CollData.mk']
  | quartic =>
    cases t <;> simp [StencilType.equilibrium, quarticEquilibrium2, quarticEquilibrium3, quarticBase, collisionData, CollData.mk']

/-- The equilibria of opposite directions -/
theorem equilibrium_opposite (t : StencilType) (ht : t.exact = true) {c viscosity dt : ℝ} (hc : c ≠ 0) (cfg : CollisionConfig t.D) (rho : ℝ)
    (v : Fin t.D → ℝ) (i : Fin t.Q) :
    bgkEquilibrium (collisionData t c viscosity dt cfg) { rho := rho, u := fun a => v a / c, T := 1 } i
      - bgkEquilibrium (collisionData t c viscosity dt cfg) { rho := rho, u := fun a => v a / c, T := 1 } ((t.stencil c).opp i)
      = 2 * (t.stencil c).weight i * rho * Spec.dot v ((t.stencil c).dir i) / (t.stencil c).cs2 := by
  have ho := C01_opposite t c
  have h2 := t.cs2_ne ht hc
  have hue : ∀ j, ∑ a, v a / c * (collisionData t c viscosity dt cfg).e j a / (collisionData t c viscosity dt cfg).cs2
      = Spec.dot v ((t.stencil c).dir j) / (t.stencil c).cs2 := fun j => by
    rw [Spec.dot, Finset.sum_div]
    refine Finset.sum_congr rfl fun a _ => ?_
    rw [StencilType.data_e]
    simp only [collisionData, CollData.mk', t.scaling_eq]
    field_simp
  have hopp : Spec.dot v ((t.stencil c).dir ((t.stencil c).opp i)) = - Spec.dot v ((t.stencil c).dir i) := by
    simp only [Spec.dot, ho.reverses, mul_neg, Finset.sum_neg_distrib]
  have hw : ∀ j, (collisionData t c viscosity dt cfg).weight j = (t.stencil c).weight j := fun j => rfl
  simp only [bgkEquilibrium, hue, hopp, hw, ho.same_weight]
  field_simp
  ring

/-- The uniform state of density `rho` and velocity `v`, as populations -/
noncomputable def uniform (s : Setup t n nQ nf nq C) (ec : EquilibriumClass) (rho : ℝ) (v : Fin t.D → ℝ) : Fin t.Q → ℝ :=
  t.equilibrium ec (collisionData t s.c s.viscosity s.dt s.collision) { rho := rho, u := fun a => v a / s.c, T := 1 }

omit [Fintype C] in
/-- A uniform state that fits the walls does not change by streaming. -/
theorem uniform_steady (hs : Sound s) (ht : t.exact = true) (hcen : s.central = false) {ec : EquilibriumClass} (rho : ℝ) (v : Fin t.D → ℝ)
    (hw : ∀ c g q, s.mesh.neighbor c g = none → s.wallVelocity c g q = rho • v ∧ (ec = .bgk ∨ v = 0)) (f : Block t n C)
    (hf : ∀ i y, f i y = uniform s ec rho v i) : systemMatrix s f + systemVector s = 0 := by
  funext i x
  show matrixTimes s f i x + systemVector s i x = 0
  by_cases hi : i.val = 0
  · simp [matrixTimes, systemVector, hi]
  obtain ⟨c, k⟩ := x
  have h1 : matrixTimes s f i (c, k) + systemVector s i (c, k) =
      Sedg.rate (Sedg.reassemble s.mesh s.central ((t.stencil s.c).dir i) s.cells) (f i) (c, k) + wallRate s f i (c, k) := by
    simp only [matrixTimes, systemVector, hi, if_false, wallRate]
    ring
  have hfi : f i = fun _ => uniform s ec rho v i := funext (hf i)
  rw [h1, hcen, hfi, Sedg.C56_uniform_partial s.mesh hs.gradients _ s.cells hs.nodup c (hs.complete c), zero_add, wallRate_eq hs, hcen]
  refine Finset.sum_eq_zero fun g _ => ?_
  cases hg : s.mesh.neighbor c g with
  | some y => simp
  | none =>
    simp only [Option.isNone_none, if_true]
    refine Finset.sum_eq_zero fun q _ => ?_
    split
    swap
    · rfl
    rw [Walls.C46_dg_upwind]
    split
    swap
    · rfl
    obtain ⟨hu, hv⟩ := hw c g q hg
    have hdot : Spec.dot (s.wallVelocity c g q) ((t.stencil s.c).dir i) = rho * Spec.dot v ((t.stencil s.c).dir i) := by
      rw [hu]
      simp only [Spec.dot, Pi.smul_apply, smul_eq_mul, Finset.mul_sum, mul_assoc]
    have hdiff : uniform s ec rho v i - uniform s ec rho v ((t.stencil s.c).opp i)
        = 2 * (t.stencil s.c).weight i * rho * Spec.dot v ((t.stencil s.c).dir i) / (t.stencil s.c).cs2 := by
      rcases hv with rfl | rfl
      · unfold uniform
        rw [t.bgk_eq s.collision hs.scaling]
        exact equilibrium_opposite t ht hs.scaling s.collision rho v i
      · have : ∀ j, uniform s ec rho 0 j = (t.stencil s.c).weight j * rho := fun j => by
          have := equilibrium_rest t ec (viscosity := s.viscosity) (dt := s.dt) hs.scaling s.collision rho j
          rw [← this]
          simp [uniform]
        rw [this, this, (C01_opposite t s.c).same_weight]
        simp [Spec.dot]
    simp only [hf, hdot]
    have : uniform s ec rho v i - (uniform s ec rho v ((t.stencil s.c).opp i)
        + 2 * (t.stencil s.c).weight i * (rho * Spec.dot v ((t.stencil s.c).dir i)) / (t.stencil s.c).cs2) = 0 := by
      rw [← sub_sub, hdiff]; ring
    rw [this, mul_zero]

end SedgSolver
end NATriuM
