import Verif.Spec.Renumbering
import Verif.Lemmas.SimilarityAdvection
import Verif.Lemmas.Smoothing
import Verif.Lemmas.Sweep
import Verif.Lemmas.CollisionStencil
import Mathlib.Data.List.Perm.Basic
import Mathlib.Data.List.FinRange

/-!
# Lemmas: other numbers for cells, degrees of freedom, points and faces
-/

namespace NATriuM

/-! ## Runs of two solvers -/

namespace Solver

variable {σ ε ι : Type*} {D : ℕ}

/-- The parts of the two solvers correspond to each other as far as they succeed. -/
structure Agrees (p p' : Parts σ ε ι D) (F : σ → σ) (G : (Fin D → ι → ℝ) → Fin D → ι → ℝ) [Fintype ι] : Prop where
  scheme : p.scheme = .sedg
  scheme' : p'.scheme = .sedg
  integrate (j : ℕ) (dt : ℝ) (x : σ) : p'.integrate j dt (F x) = (p.integrate j dt x).map fun r => (F r.1, r.2)
  applyFilter (x : σ) : p'.applyFilter (F x) = F (p.applyFilter x)
  collide (x x1 x2 : σ) : p.collide x = .ok x1 → p'.collide (F x) = .ok x2 → x2 = F x1
  processors (i : ℕ) (time : ℝ) (x : σ) :
    p'.processors.foldl (fun x proc => proc i time x) (F x) = F (p.processors.foldl (fun x proc => proc i time x) x)
  u (x : σ) : p'.u (F x) = G (p.u x)
  zero : G 0 = 0
  distance (v w : Fin D → ι → ℝ) :
    ‖fun y => ∑ a, (G v a y - G w a y) * (G v a y - G w a y)‖ = ‖fun y => ∑ a, (v a y - w a y) * (v a y - w a y)‖

variable [Fintype ι] {p p' : Parts σ ε ι D} {F : σ → σ} {G : (Fin D → ι → ℝ) → Fin D → ι → ℝ}

/-- Both succeed: then the results are related. -/
def IfBoth {E α β : Type*} (R : α → β → Prop) : Except E α → Except E β → Prop
  | .ok a, .ok b => R a b
  | _, _ => True

theorem Agrees.advance (h : Agrees p p' F G) (cfg : RunConfig) (start i : ℕ) (s : Snapshot σ) :
    IfBoth (fun a b => b = mapSnapshot F 1 a) (Solver.advance cfg p start i s) (Solver.advance cfg p' start i (mapSnapshot F 1 s)) := by
  have hstream : Solver.stream p' (i - start) (mapSnapshot F 1 s) = (Solver.stream p (i - start) s).map (mapSnapshot F 1) := by
    unfold Solver.stream
    rw [h.scheme, h.scheme']
    simp only [mapSnapshot, one_mul]
    rw [h.integrate]
    cases p.integrate (i - start) s.dt s.x with
    | error e => rfl
    | ok r =>
      obtain ⟨x, d⟩ := r
      simp only [Except.map]
      split <;> simp only [mapSnapshot, one_mul]
  unfold Solver.advance
  rw [hstream]
  cases Solver.stream p (i - start) s with
  | error e => trivial
  | ok s1 =>
    simp only [Except.map]
    have hf : Solver.filter cfg p' i (mapSnapshot F 1 s1) = mapSnapshot F 1 (Solver.filter cfg p i s1) := by
      unfold Solver.filter
      split
      · simp only [mapSnapshot, h.applyFilter]
      · rfl
    rw [hf]
    unfold Solver.collide
    cases hx : p.collide (Solver.filter cfg p i s1).x with
    | error e => trivial
    | ok x1 =>
      cases hx' : p'.collide (mapSnapshot F 1 (Solver.filter cfg p i s1)).x with
      | error e => trivial
      | ok x2 =>
        have := h.collide _ _ _ hx hx'
        subst this
        show applyProcessors p' i _ = mapSnapshot F 1 (applyProcessors p i _)
        unfold applyProcessors
        simp only [mapSnapshot, one_mul]
        rw [h.processors]

theorem Agrees.stop (h : Agrees p p' F G) (cfg : RunConfig) (start i : ℕ) (s : Snapshot σ) (r r' : Residuals ι D)
    (hr : r'.tmpVelocity = G r.tmpVelocity ∧ r'.velocity = r.velocity) :
    (stopConditionMet cfg p' start i (mapSnapshot F 1 s) r').1 = (stopConditionMet cfg p start i s r).1 ∧
      (stopConditionMet cfg p' start i (mapSnapshot F 1 s) r').2.tmpVelocity = G (stopConditionMet cfg p start i s r).2.tmpVelocity ∧
      (stopConditionMet cfg p' start i (mapSnapshot F 1 s) r').2.velocity = (stopConditionMet cfg p start i s r).2.velocity := by
  have ht : (mapSnapshot F 1 s).time = s.time := one_mul _
  have hres : (calculateResiduals start i (p'.rho (F s.x)) (p'.u (F s.x)) r').tmpVelocity =
      G (calculateResiduals start i (p.rho s.x) (p.u s.x) r).tmpVelocity ∧
      (calculateResiduals start i (p'.rho (F s.x)) (p'.u (F s.x)) r').velocity = (calculateResiduals start i (p.rho s.x) (p.u s.x) r).velocity := by
    unfold calculateResiduals
    split
    · refine ⟨h.u _, ?_⟩
      simp only [hr.1, h.u, h.distance]
    · exact ⟨h.u _, hr.2⟩
  unfold stopConditionMet
  rw [ht]
  by_cases h1 : cfg.numberOfTimeSteps ≤ i
  · rw [if_pos h1, if_pos h1]; exact ⟨rfl, hr⟩
  · simp only [if_neg h1]
    by_cases h2 : cfg.simulationEndTime ≤ s.time
    · rw [if_pos h2, if_pos h2]; exact ⟨rfl, hr⟩
    · simp only [if_neg h2]
      by_cases h3 : i % 100 = 0
      · simp only [if_pos h3]
        refine ⟨?_, hres⟩
        exact congrArg (fun v => decide (v < cfg.convergenceThreshold)) hres.2
      · simp only [if_neg h3]; exact ⟨trivial, hr⟩

/-- States of the two runs between two passes of the loop -/
structure StateAgrees (F : σ → σ) (G : (Fin D → ι → ℝ) → Fin D → ι → ℝ) (st st' : RunState σ ι D) : Prop where
  i : st'.i = st.i
  snap : st'.snap = mapSnapshot F 1 st.snap
  log : st'.log = st.log.map (mapEvent F 1)
  res : st'.res.tmpVelocity = G st.res.tmpVelocity ∧ st'.res.velocity = st.res.velocity

theorem Agrees.loop (h : Agrees p p' F G) (cfg : RunConfig) (start : ℕ) (m : ℕ) : ∀ (st st' : RunState σ ι D), cfg.numberOfTimeSteps - st.i = m →
    StateAgrees F G st st' →
    IfBoth (StateAgrees F G) (Solver.loop cfg p start (output cfg start) (Solver.advance cfg p start) st)
      (Solver.loop cfg p' start (output cfg start) (Solver.advance cfg p' start) st') := by
  induction m using Nat.strong_induction_on with
  | _ m ih =>
    intro st st' hm hst
    obtain ⟨i0, s, r, log⟩ := st
    obtain ⟨i, s', r', log'⟩ := st'
    obtain ⟨hi, hs, hlog, hr⟩ := hst
    simp only at hi hs hlog hr hm
    subst hi hs hlog
    obtain ⟨hb, hr2⟩ := h.stop cfg start i s r r' hr
    rw [Solver.loop, Solver.loop]
    simp only
    by_cases hstop : (stopConditionMet cfg p start i s r).1 = true
    · rw [dif_pos hstop, dif_pos (hb.trans hstop)]
      exact ⟨rfl, rfl, rfl, hr2⟩
    · rw [dif_neg hstop, dif_neg (by rw [hb]; exact hstop)]
      have ha := h.advance cfg start (i + 1) s
      revert ha
      cases Solver.advance cfg p start (i + 1) s with
      | error e => intro _; trivial
      | ok s1 =>
        cases Solver.advance cfg p' start (i + 1) (mapSnapshot F 1 s) with
        | error e =>
          intro _
          simp only
          generalize Solver.loop cfg p start (output cfg start) (Solver.advance cfg p start) _ = z
          cases z <;> exact True.intro
        | ok s2 =>
          intro ha
          have ha : s2 = mapSnapshot F 1 s1 := ha
          subst ha
          have hlt := lt_of_not_stop hstop
          refine ih (cfg.numberOfTimeSteps - (i + 1)) (by omega) _ _ rfl ⟨rfl, rfl, ?_, hr2⟩
          simp only [List.map_append]
          rw [mapEvent_output F 1 cfg cfg rfl rfl rfl rfl]

theorem Agrees.run (h : Agrees p p' F G) (cfg : RunConfig) (start : ℕ) (s : Snapshot σ) :
    IfBoth (StateAgrees F G) (Solver.run cfg p start s) (Solver.run cfg p' start (mapSnapshot F 1 s)) := by
  unfold Solver.run Solver.collide
  cases hx : p.collide s.x with
  | error e => trivial
  | ok x1 =>
    cases hx' : p'.collide (mapSnapshot F 1 s).x with
    | error e =>
      simp only
      generalize Solver.loop cfg p start (output cfg start) (Solver.advance cfg p start) _ = z
      cases z <;> trivial
    | ok x2 =>
      have := h.collide _ _ _ hx hx'
      subst this
      simp only
      have hl := h.loop cfg start _ { i := start, snap := { s with x := x1 }, res := Residuals.init, log := [] }
        { i := start, snap := { mapSnapshot F 1 s with x := F x1 }, res := Residuals.init, log := [] } rfl ⟨rfl, rfl, rfl, ⟨h.zero.symm, rfl⟩⟩
      revert hl
      generalize Solver.loop cfg p start (output cfg start) (Solver.advance cfg p start) _ = z
      generalize Solver.loop cfg p' start (output cfg start) (Solver.advance cfg p' start) _ = z'
      cases z with
      | error e => intro _; trivial
      | ok a =>
        cases z' with
        | error e => intro _; trivial
        | ok b =>
          intro hl
          refine ⟨hl.i, hl.snap, ?_, hl.res⟩
          simp only [hl.log, hl.i, hl.snap, List.map_append]
          rw [mapEvent_output F 1 cfg cfg rfl rfl rfl rfl]

end Solver

/-! ## The advection operator -/

namespace SedgSolver

open Finset

variable {t : StencilType} {n nQ nf nq : ℕ} {C : Type*} {s s' : Setup t n nQ nf nq C}

theorem flatMap_finRange_perm {m : ℕ} {β : Type*} (σ : Equiv.Perm (Fin m)) {F F' : Fin m → List β} (h : ∀ i, (F' (σ i)).Perm (F i)) :
    ((List.finRange m).flatMap F').Perm ((List.finRange m).flatMap F) := by
  refine (σ.map_finRange_perm.symm.flatMap_right F').trans ?_
  rw [List.flatMap_map]
  exact List.Perm.flatMap_left _ fun i _ => h i

/-- An entry by the new numbers -/
def moveEntry (r : Equiv.Perm (C × Fin n)) (x : Sedg.Entry ℝ n C) : Sedg.Entry ℝ n C := { row := r x.row, column := r x.column, value := x.value }

theorem rate_move [DecidableEq C] (r : Equiv.Perm (C × Fin n)) {l l' : List (Sedg.Entry ℝ n C)} (h : l'.Perm (l.map (moveEntry r)))
    (u : C × Fin n → ℝ) (x : C × Fin n) : Sedg.rate l' (fun k => u (r.symm k)) (r x) = Sedg.rate l u x := by
  unfold Sedg.rate
  rw [((h.filter _).map _).sum_eq, List.filter_map, List.map_map]
  have h1 : ((fun z : Sedg.Entry ℝ n C => decide (z.row = r x)) ∘ moveEntry r) = fun z => decide (z.row = x) := by
    funext z
    simp [moveEntry]
  have h2 : ((fun z : Sedg.Entry ℝ n C => z.value * u (r.symm z.column)) ∘ moveEntry r) = fun z => z.value * u z.column := by
    funext z
    simp [moveEntry]
  rw [h1, h2]

namespace Renumbering

variable (r : Renumbering s s')

theorem dofs_apply (c : C) (i : Fin n) : r.dofs (c, i) = (r.cell c, r.dof i) := rfl

theorem mass (c : C) (i : Fin n) : Sedg.mass s'.mesh (r.cell c) (r.dof i) = Sedg.mass s.mesh c i := by
  simp only [Sedg.mass, r.toQ, r.value, r.jxw]

theorem inverseMass (c : C) (i : Fin n) : Sedg.inverseMass s'.mesh (r.cell c) (r.dof i) = Sedg.inverseMass s.mesh c i := by
  simp only [Sedg.inverseMass, r.mass]

theorem system (e : Fin t.D → ℝ) (c : C) (i j : Fin n) : Sedg.system s'.mesh e (r.cell c) (r.dof i) (r.dof j) = Sedg.system s.mesh e c i j := by
  simp only [Sedg.system, Sedg.derivative, r.toQ, r.value, r.jxw, r.grad]

theorem exn (e : Fin t.D → ℝ) (c : C) (f : Fin nf) (q : Fin nq) :
    Sedg.exn s'.mesh e (r.cell c) (r.face f) (r.facePoint f q) = Sedg.exn s.mesh e c f q := by
  simp only [Sedg.exn, r.normal]

theorem stiffness (e : Fin t.D → ℝ) (c : C) :
    (Sedg.stiffnessEntries s'.mesh e (r.cell c)).Perm ((Sedg.stiffnessEntries s.mesh e c).map (moveEntry r.dofs)) := by
  unfold Sedg.stiffnessEntries
  rw [List.map_flatMap]
  refine flatMap_finRange_perm r.dof fun i => ?_
  refine (r.dof.map_finRange_perm.symm.map _).trans ?_
  rw [List.map_map, List.map_map]
  refine List.Perm.of_eq (List.map_congr_left fun j _ => ?_)
  simp only [Function.comp, moveEntry, r.dofs_apply, r.system, r.inverseMass]

theorem internalFace (e : Fin t.D → ℝ) (c : C) (f : Fin nf) (c' : C) (f' : Fin nf) (hq : r.facePoint f' = r.facePoint f) :
    (Sedg.internalFaceEntries s'.mesh s'.central e (r.cell c) (r.face f) (r.cell c') (r.face f')).Perm
      ((Sedg.internalFaceEntries s.mesh s.central e c f c' f').map (moveEntry r.dofs)) := by
  unfold Sedg.internalFaceEntries
  rw [List.map_flatMap]
  refine flatMap_finRange_perm (r.facePoint f) fun q => List.Perm.of_eq ?_
  have h' : s'.mesh.faceDof (r.face f') (r.facePoint f q) = r.dof (s.mesh.faceDof f' q) := by rw [← hq]; exact r.faceDof f' q
  simp only [r.exn, r.faceDof, h', r.faceJxw, r.inverseMass, r.central, List.map_cons, List.map_nil, moveEntry, r.dofs_apply]

theorem reassemble (e : Fin t.D → ℝ) :
    (Sedg.reassemble s'.mesh s'.central e s'.cells).Perm ((Sedg.reassemble s.mesh s.central e s.cells).map (moveEntry r.dofs)) := by
  unfold Sedg.reassemble
  refine (r.cells.flatMap_right _).trans ?_
  rw [List.flatMap_map, List.map_flatMap]
  refine List.Perm.flatMap_left _ fun c _ => ?_
  unfold Sedg.cellEntries
  rw [List.map_append]
  refine (r.stiffness e c).append ?_
  unfold Sedg.faceEntries
  rw [List.map_flatMap]
  refine flatMap_finRange_perm r.face fun f => ?_
  rw [r.neighbor]
  cases h : s.mesh.neighbor c f with
  | none => exact List.Perm.refl _
  | some z => exact r.internalFace e c f z.1 z.2 (r.neighborPoint c f z.1 z.2 h)

variable [DecidableEq C]

theorem wallSum (entry : Walls.FaceEntries ℝ → ℝ) (i : Fin t.Q) (x : C × Fin n) : SedgSolver.wallSum s' entry i (r.dofs x) = SedgSolver.wallSum s entry i x := by
  obtain ⟨c, k⟩ := x
  unfold SedgSolver.wallSum
  have hc : (r.dofs (c, k)).1 ∈ s'.cells ↔ c ∈ s.cells := by
    rw [r.dofs_apply, r.cells.mem_iff]
    simp
  by_cases h : c ∈ s.cells
  · rw [if_pos h, if_pos (hc.mpr h)]
    rw [← Equiv.sum_comp r.face]
    refine sum_congr rfl fun f _ => ?_
    have hN : (s'.mesh.neighbor (r.dofs (c, k)).1 (r.face f)).isNone = (s.mesh.neighbor c f).isNone := by
      rw [r.dofs_apply, r.neighbor, Option.isNone_map]
    by_cases hf : (s.mesh.neighbor c f).isNone
    · rw [if_pos hf, if_pos (hN.trans hf), ← Equiv.sum_comp (r.facePoint f)]
      refine sum_congr rfl fun q _ => ?_
      rw [r.dofs_apply]
      simp only
      rw [r.faceDof]
      by_cases hq : s.mesh.faceDof f q = k
      · have hn : s'.mesh.normal (r.cell c) (r.face f) (r.facePoint f q) = s.mesh.normal c f q := funext fun a => r.normal c f q a
        have hw : s'.wallVelocity (r.cell c) (r.face f) (r.facePoint f q) = s.wallVelocity c f q := funext fun a => r.wallVelocity c f q a
        rw [if_pos hq, if_pos (congrArg r.dof hq), r.c, r.central, r.faceJxw, hn, hw, r.inverseMass]
      · rw [if_neg hq, if_neg fun h => hq (r.dof.injective h)]
    · rw [if_neg hf, if_neg fun h => hf (hN.symm.trans h)]
  · rw [if_neg h, if_neg fun h' => h (hc.mp h')]

theorem systemMatrix (f : Block t n C) : SedgSolver.systemMatrix s' (renumberBlock r.dofs f) = renumberBlock r.dofs (SedgSolver.systemMatrix s f) := by
  funext i x
  obtain ⟨x, rfl⟩ := r.dofs.surjective x
  show matrixTimes s' (renumberBlock r.dofs f) i (r.dofs x) = matrixTimes s f i (r.dofs.symm (r.dofs x))
  rw [Equiv.symm_apply_apply]
  have hf : ∀ i, renumberBlock r.dofs f i (r.dofs x) = f i x := fun i => congrArg (f i) (r.dofs.symm_apply_apply x)
  unfold matrixTimes
  rw [hf, hf, r.wallSum, r.wallSum, r.c]
  by_cases hi : i.val = 0
  · rw [if_pos hi, if_pos hi]
  · rw [if_neg hi, if_neg hi]
    congr 1
    exact rate_move r.dofs (r.reassemble ((t.stencil s.c).dir i)) (f i) x

theorem systemVector : SedgSolver.systemVector s' = renumberBlock r.dofs (SedgSolver.systemVector s) := by
  funext i x
  obtain ⟨x, rfl⟩ := r.dofs.surjective x
  show SedgSolver.systemVector s' i (r.dofs x) = SedgSolver.systemVector s i (r.dofs.symm (r.dofs x))
  rw [Equiv.symm_apply_apply]
  unfold SedgSolver.systemVector
  rw [r.wallSum]

theorem integrate (dt : ℝ) (x : C × Fin n → Node ℝ t.D t.Q) :
    SedgSolver.integrate s' dt (r.nodes x) = (SedgSolver.integrate s dt x).map fun z => (r.nodes z.1, z.2) := by
  have hA : ∀ f, SedgSolver.systemMatrix s' (renumberBlock r.dofs f) = (1 : ℝ)⁻¹ • renumberBlock r.dofs (SedgSolver.systemMatrix s f) := fun f => by
    rw [inv_one, one_smul]; exact r.systemMatrix f
  have hb : SedgSolver.systemVector s' = (1 : ℝ)⁻¹ • renumberBlock r.dofs (SedgSolver.systemVector s) := by
    rw [inv_one, one_smul]; exact r.systemVector
  have hstep : SedgSolver.step s' dt (populations (r.nodes x)) =
      (SedgSolver.step s dt (populations x)).map fun z => { f := renumberBlock r.dofs z.f, t := z.t, timeStepSize := z.timeStepSize } := by
    have hp : populations (r.nodes x) = renumberBlock r.dofs (populations x) := rfl
    unfold SedgSolver.step
    rw [r.integrator, hp]
    cases s.integrator with
    | rungeKutta5 =>
      have := TimeIntegration.rkStep_transform one_pos hA hb dt dt (populations x)
      simp only [one_mul] at this
      exact this
    | theta θ solve =>
      have := TimeIntegration.thetaStep_transform one_pos hA hb solve θ dt dt (populations x)
      simp only [one_mul] at this
      exact this
  unfold SedgSolver.integrate
  rw [hstep]
  cases SedgSolver.step s dt (populations x) with
  | error e => rfl
  | ok z => rfl

/-! ## Filter and collision -/

include r in
omit [DecidableEq C] in
theorem nodup (hn : s.cells.Nodup) : s'.cells.Nodup := (List.Perm.nodup_iff r.cells).mpr (hn.map r.cell.injective)

theorem applyFilter (hn : s.cells.Nodup) (x : C × Fin n → Node ℝ t.D t.Q) : SedgSolver.applyFilter s' (r.nodes x) = r.nodes (SedgSolver.applyFilter s x) := by
  have key : ∀ (u : C × Fin n → ℝ) (k : C × Fin n),
      Smoothing.applyFilter s'.toModes s'.fromModes s'.factor (fun c k => (c, k)) s'.cells (r.nodes u) (r.dofs k) =
        Smoothing.applyFilter s.toModes s.fromModes s.factor (fun c k => (c, k)) s.cells u k := by
    intro u k
    obtain ⟨c, i⟩ := k
    have hc : r.cell c ∈ s'.cells ↔ c ∈ s.cells := by rw [r.cells.mem_iff]; simp
    by_cases h : c ∈ s.cells
    · have e1 := Smoothing.applyFilter_own s'.toModes s'.fromModes s'.factor (fun c k => (c, k)) (fun _ _ _ _ h => by simpa using h) s'.cells
        (r.nodup hn) (r.nodes u) (r.cell c) (hc.mpr h) (r.dof i)
      have e2 := Smoothing.applyFilter_own s.toModes s.fromModes s.factor (fun c k => (c, k)) (fun _ _ _ _ h => by simpa using h) s.cells
        hn u c h i
      refine e1.trans (Eq.trans ?_ e2.symm)
      have hfc : ∀ (S : Setup t n nQ nf nq C) (v : Fin n → ℝ) (i : Fin n), Smoothing.filterCell S.toModes S.fromModes S.factor v i =
          ∑ j, (∑ k, S.fromModes i k * (S.factor k * S.toModes k j)) * v j := by
        intro S v i
        unfold Smoothing.filterCell
        simp only [Matrix.mulVec, dotProduct, mul_sum, sum_mul]
        rw [sum_comm]
        exact sum_congr rfl fun j _ => sum_congr rfl fun k _ => by ring
      rw [hfc, hfc, ← Equiv.sum_comp r.dof]
      refine sum_congr rfl fun j _ => ?_
      rw [r.filter]
      congr 1
      exact congrArg u (r.dofs.symm_apply_apply (c, j))
    · rw [Smoothing.applyFilter_other _ _ _ _ _ _ _ fun c' h' i' he => h (hc.mp (by have : c' = r.cell c := congrArg Prod.fst he; exact this ▸ h')),
        Smoothing.applyFilter_other _ _ _ _ _ _ _ fun c' h' i' he => h (by have : c' = c := congrArg Prod.fst he; exact this ▸ h')]
      exact congrArg u (r.dofs.symm_apply_apply (c, i))
  unfold SedgSolver.applyFilter
  funext k
  obtain ⟨k, rfl⟩ := r.dofs.surjective k
  have hk : r.dofs.symm (r.dofs k) = k := r.dofs.symm_apply_apply k
  refine Node.ext ?_ ?_ ?_
  · funext i
    show Smoothing.applyFilter s'.toModes s'.fromModes s'.factor (fun c k => (c, k)) s'.cells (r.nodes (populations x i)) (r.dofs k) =
      Smoothing.applyFilter s.toModes s.fromModes s.factor (fun c k => (c, k)) s.cells (populations x i) (r.dofs.symm (r.dofs k))
    rw [hk]
    exact key (populations x i) k
  · rfl
  · rfl

omit [DecidableEq C] in
theorem mem_owned (S : Setup t n nQ nf nq C) (k : C × Fin n) : k ∈ owned S ↔ k.1 ∈ S.cells := by
  unfold owned
  simp only [List.mem_flatMap, List.mem_map, List.mem_finRange, true_and]
  constructor
  · rintro ⟨c, hc, i, rfl⟩; exact hc
  · intro h; exact ⟨k.1, h, k.2, rfl⟩

omit [DecidableEq C] in
theorem nodup_owned {S : Setup t n nQ nf nq C} (hn : S.cells.Nodup) : (owned S).Nodup := by
  unfold owned
  rw [List.nodup_flatMap]
  refine ⟨fun c _ => (List.nodup_finRange n).map fun a b h => (Prod.ext_iff.mp h).2, ?_⟩
  refine hn.imp fun {a b} hab => ?_
  rw [Function.onFun, List.disjoint_left]
  intro z hz hz'
  simp only [List.mem_map, List.mem_finRange, true_and] at hz hz'
  obtain ⟨_, rfl⟩ := hz
  obtain ⟨_, h⟩ := hz'
  exact hab (Prod.ext_iff.mp h).1.symm

theorem collide (hn : s.cells.Nodup) (x x1 x2 : C × Fin n → Node ℝ t.D t.Q) (h1 : SedgSolver.collide s x = .ok x1)
    (h2 : SedgSolver.collide s' (r.nodes x) = .ok x2) : x2 = r.nodes x1 := by
  have e1 : isothermalCollide t s.c s.viscosity s.dt s.collision false (owned s) x = .ok x1 := by
    unfold SedgSolver.collide at h1
    split at h1
    · cases h1
    · next h => cases h1; exact h
  have e2 : isothermalCollide t s.c s.viscosity s.dt s.collision false (owned s') (r.nodes x) = .ok x2 := by
    unfold SedgSolver.collide at h2
    rw [r.c, r.viscosity, r.dt, r.collision] at h2
    split at h2
    · cases h2
    · next h => cases h2; exact h
  obtain ⟨w, relax, hw, hrelax, hin, hout, -⟩ := (isothermalCollide_ok t s.collision false _ (nodup_owned hn) x x1).mp e1
  obtain ⟨w', relax', hw', hrelax', hin', hout', -⟩ := (isothermalCollide_ok t s.collision false _ (nodup_owned (r.nodup hn)) (r.nodes x) x2).mp e2
  rw [hw] at hw'
  cases hw'
  rw [hrelax] at hrelax'
  cases hrelax'
  funext k
  obtain ⟨k, rfl⟩ := r.dofs.surjective k
  have hk : ∀ z : C × Fin n → Node ℝ t.D t.Q, r.nodes z (r.dofs k) = z k := fun z => congrArg z (r.dofs.symm_apply_apply k)
  rw [hk]
  have hm : r.dofs k ∈ owned s' ↔ k ∈ owned s := by
    rw [mem_owned, mem_owned, r.cells.mem_iff]
    show r.cell k.1 ∈ _ ↔ _
    simp
  by_cases h : k ∈ owned s
  · have a := hin k h
    have b := hin' _ (hm.mpr h)
    rw [hk, a] at b
    exact (Except.ok.inj b).symm
  · rw [hout k h, hout' _ fun h' => h (hm.mp h'), hk]

theorem agrees [Fintype C] (hn : s.cells.Nodup) :
    Solver.Agrees (parts s) (parts s') r.nodes (fun v a => r.nodes (v a)) where
  scheme := rfl
  scheme' := rfl
  integrate _ dt x := r.integrate dt x
  applyFilter x := r.applyFilter hn x
  collide x x1 x2 h1 h2 := r.collide hn x x1 x2 h1 h2
  processors i time x := by
    show s'.processors.foldl _ _ = r.nodes (s.processors.foldl _ _)
    rw [r.processors]
    induction s.processors generalizing x with
    | nil => rfl
    | cons q l ih =>
      rw [List.map_cons, List.foldl_cons, List.foldl_cons, ← ih]
      congr 1
      funext k
      show q i time (fun k => x (r.dofs.symm (r.dofs k))) (r.dofs.symm k) = q i time x (r.dofs.symm k)
      simp only [Equiv.symm_apply_apply]
  u x := rfl
  zero := rfl
  distance v w := by
    have key : ∀ g : C × Fin n → ℝ, ‖fun y => g (r.dofs.symm y)‖ = ‖g‖ := by
      intro g
      refine le_antisymm ((pi_norm_le_iff_of_nonneg (norm_nonneg _)).mpr fun k => norm_le_pi_norm g _) ((pi_norm_le_iff_of_nonneg (norm_nonneg _)).mpr fun k => ?_)
      have := norm_le_pi_norm (fun y => g (r.dofs.symm y)) (r.dofs k)
      rwa [Equiv.symm_apply_apply] at this
    exact key fun y => ∑ a, (v a y - w a y) * (v a y - w a y)

end Renumbering
end SedgSolver
end NATriuM
