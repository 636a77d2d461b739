import Verif.Spec.Similarity
import Verif.Props.SolverLoop
import Mathlib.Tactic.Linarith
import Mathlib.Tactic.Positivity
import Mathlib.Tactic.FieldSimp

/-!
# Lemmas: runs of two solvers whose parts correspond to each other
-/

namespace NATriuM
namespace Solver

variable {σ ε ι : Type*} {D : ℕ}

/-- Data transformed by `F`, times multiplied by `k` -/
def mapSnapshot (F : σ → σ) (k : ℝ) (s : Snapshot σ) : Snapshot σ := { x := F s.x, time := k * s.time, dt := k * s.dt }

def mapEvent (F : σ → σ) (k : ℝ) : Event σ → Event σ
  | .grid i => .grid i
  | .solution i x => .solution i (mapSnapshot F k x)
  | .tableLine i x => .tableLine i (mapSnapshot F k x)
  | .checkpoint i x => .checkpoint i (mapSnapshot F k x)
  | .errorLine i x => .errorLine i (mapSnapshot F k x)

/-- The parts of the two solvers correspond to each other: `F` for the data, `G` for the velocities, times `k`, velocities `V`. -/
structure Corresponds (p p' : Parts σ ε ι D) (F : σ → σ) (G : (Fin D → ι → ℝ) → Fin D → ι → ℝ) (k V : ℝ) : Prop where
  scheme : p'.scheme = p.scheme
  advect (j : ℕ) (time : ℝ) (x : σ) : p'.advect j (k * time) (F x) = (p.advect j time x).map F
  integrate (j : ℕ) (dt : ℝ) (x : σ) : p'.integrate j (k * dt) (F x) = (p.integrate j dt x).map fun r => (F r.1, k * r.2)
  applyFilter (x : σ) : p'.applyFilter (F x) = F (p.applyFilter x)
  collide (x : σ) : p'.collide (F x) = (p.collide x).map F
  processors (i : ℕ) (time : ℝ) (x : σ) :
    p'.processors.foldl (fun x proc => proc i (k * time) x) (F x) = F (p.processors.foldl (fun x proc => proc i time x) x)
  rho (x : σ) : p'.rho (F x) = p.rho x
  u (x : σ) : p'.u (F x) = G (p.u x)
  zero : G 0 = 0
  distance (v w : Fin D → ι → ℝ) (y : ι) : ∑ a, (G v a y - G w a y) * (G v a y - G w a y) = V * V * ∑ a, (v a y - w a y) * (v a y - w a y)

variable {p p' : Parts σ ε ι D} {F : σ → σ} {G : (Fin D → ι → ℝ) → Fin D → ι → ℝ} {k V : ℝ}

theorem Corresponds.stream (h : Corresponds p p' F G k V) (hk : 0 < k) (j : ℕ) (s : Snapshot σ) :
    Solver.stream p' j (mapSnapshot F k s) = (Solver.stream p j s).map (mapSnapshot F k) := by
  unfold Solver.stream
  rw [h.scheme]
  cases p.scheme with
  | semiLagrangian =>
    simp only
    have ha := h.advect j s.time s.x
    simp only [mapSnapshot]
    rw [ha]
    cases p.advect j s.time s.x with
    | error e => rfl
    | ok x => simp only [Except.map, mul_add, mapSnapshot]
  | sedg =>
    simp only
    have hi := h.integrate j s.dt s.x
    simp only [mapSnapshot]
    rw [hi]
    cases p.integrate j s.dt s.x with
    | error e => rfl
    | ok r =>
      obtain ⟨x, d⟩ := r
      simp only [Except.map]
      by_cases hd : 0 < d
      · rw [if_pos hd, if_pos (mul_pos hk hd)]
        simp only [mul_add, mapSnapshot]
      · rw [if_neg hd, if_neg fun h => hd (pos_of_mul_pos_of_pos_left' hk h)]
where
  pos_of_mul_pos_of_pos_left' {k d : ℝ} (hk : 0 < k) (h : 0 < k * d) : 0 < d := (mul_pos_iff_of_pos_left hk).mp h

theorem Corresponds.filter (h : Corresponds p p' F G k V) (cfg cfg' : RunConfig) (h1 : cfg'.isFiltering = cfg.isFiltering)
    (h2 : cfg'.filterInterval = cfg.filterInterval) (i : ℕ) (s : Snapshot σ) :
    Solver.filter cfg' p' i (mapSnapshot F k s) = mapSnapshot F k (Solver.filter cfg p i s) := by
  unfold Solver.filter
  rw [h1, h2]
  split
  · simp only [mapSnapshot, h.applyFilter]
  · rfl

theorem Corresponds.collideSnapshot (h : Corresponds p p' F G k V) (s : Snapshot σ) :
    Solver.collide p' (mapSnapshot F k s) = (Solver.collide p s).map (mapSnapshot F k) := by
  unfold Solver.collide
  rw [show (mapSnapshot F k s).x = F s.x from rfl, h.collide]
  cases p.collide s.x <;> rfl

theorem Corresponds.advance (h : Corresponds p p' F G k V) (hk : 0 < k) (cfg cfg' : RunConfig) (h1 : cfg'.isFiltering = cfg.isFiltering)
    (h2 : cfg'.filterInterval = cfg.filterInterval) (start i : ℕ) (s : Snapshot σ) :
    Solver.advance cfg' p' start i (mapSnapshot F k s) = (Solver.advance cfg p start i s).map (mapSnapshot F k) := by
  unfold Solver.advance
  rw [h.stream hk]
  cases Solver.stream p (i - start) s with
  | error e => rfl
  | ok s1 =>
    simp only [Except.map]
    rw [h.filter cfg cfg' h1 h2, h.collideSnapshot]
    cases Solver.collide p (Solver.filter cfg p i s1) with
    | error e => rfl
    | ok s2 =>
      simp only [Except.map]
      congr 1
      unfold applyProcessors
      simp only [mapSnapshot]
      rw [h.processors]

theorem mapEvent_output (F : σ → σ) (k : ℝ) (cfg cfg' : RunConfig) (h1 : cfg'.switchOutputOff = cfg.switchOutputOff)
    (h2 : cfg'.solutionInterval = cfg.solutionInterval) (h3 : cfg'.tableInterval = cfg.tableInterval)
    (h4 : cfg'.checkpointInterval = cfg.checkpointInterval) (start i : ℕ) (b : Bool) (s : Snapshot σ) :
    output cfg' start i b (mapSnapshot F k s) = (output cfg start i b s).map (mapEvent F k) := by
  unfold output
  rw [h1, h2, h3, h4]
  split
  · rfl
  · simp only [List.map_append]
    congr 1
    · congr 1
      · congr 1
        · split <;> rfl
        · split <;> rfl
      · split <;> rfl
    · split <;> rfl

/-- The loop parameters of the two runs -/
structure ConfigCorresponds (cfg cfg' : RunConfig) (k V : ℝ) : Prop where
  steps : cfg'.numberOfTimeSteps = cfg.numberOfTimeSteps
  endTime : cfg'.simulationEndTime = k * cfg.simulationEndTime
  threshold : cfg'.convergenceThreshold = V * cfg.convergenceThreshold
  small : cfg.convergenceThreshold ≤ 1
  small' : cfg'.convergenceThreshold ≤ 1
  switchOutputOff : cfg'.switchOutputOff = cfg.switchOutputOff
  solutionInterval : cfg'.solutionInterval = cfg.solutionInterval
  tableInterval : cfg'.tableInterval = cfg.tableInterval
  checkpointInterval : cfg'.checkpointInterval = cfg.checkpointInterval
  isFiltering : cfg'.isFiltering = cfg.isFiltering
  filterInterval : cfg'.filterInterval = cfg.filterInterval

/-- The residuals correspond, or are the initial ones. -/
structure ResCorresponds (G : (Fin D → ι → ℝ) → Fin D → ι → ℝ) (V : ℝ) (r r' : Residuals ι D) : Prop where
  tmp : r'.tmpVelocity = G r.tmpVelocity
  velocity : r'.velocity = V * r.velocity ∨ (r.velocity = 1 ∧ r'.velocity = 1)

theorem norm_scale [Fintype ι] {a : ℝ} (ha : 0 ≤ a) (f : ι → ℝ) : ‖fun n => a * f n‖ = a * ‖f‖ := by
  have : (fun n => a * f n) = a • f := rfl
  rw [this, norm_smul, Real.norm_of_nonneg ha]

theorem Corresponds.residuals [Fintype ι] (h : Corresponds p p' F G k V) (hV : 0 < V) (start i : ℕ) (x : σ) (r r' : Residuals ι D)
    (hr : ResCorresponds G V r r') :
    ResCorresponds G V (calculateResiduals start i (p.rho x) (p.u x) r) (calculateResiduals start i (p'.rho (F x)) (p'.u (F x)) r') := by
  unfold calculateResiduals
  split
  · refine ⟨h.u x, Or.inl ?_⟩
    simp only [hr.tmp, h.u, h.distance]
    rw [norm_scale (by positivity), Real.sqrt_mul (by positivity), Real.sqrt_mul_self hV.le]
  · exact ⟨h.u x, hr.velocity⟩

theorem Corresponds.stop [Fintype ι] (h : Corresponds p p' F G k V) (hk : 0 < k) (hV : 0 < V) {cfg cfg' : RunConfig}
    (hc : ConfigCorresponds cfg cfg' k V) (start i : ℕ) (s : Snapshot σ) (r r' : Residuals ι D) (hr : ResCorresponds G V r r') :
    (stopConditionMet cfg' p' start i (mapSnapshot F k s) r').1 = (stopConditionMet cfg p start i s r).1 ∧
      ResCorresponds G V (stopConditionMet cfg p start i s r).2 (stopConditionMet cfg' p' start i (mapSnapshot F k s) r').2 := by
  unfold stopConditionMet
  rw [hc.steps, hc.endTime]
  by_cases h1 : cfg.numberOfTimeSteps ≤ i
  · rw [if_pos h1, if_pos h1]; exact ⟨rfl, hr⟩
  · simp only [if_neg h1]
    have h2' : k * cfg.simulationEndTime ≤ (mapSnapshot F k s).time ↔ cfg.simulationEndTime ≤ s.time := by
      show k * cfg.simulationEndTime ≤ k * s.time ↔ _
      exact mul_le_mul_iff_right₀ hk
    by_cases h2 : cfg.simulationEndTime ≤ s.time
    · rw [if_pos h2, if_pos (h2'.2 h2)]; exact ⟨rfl, hr⟩
    · rw [if_neg h2, if_neg (mt h2'.1 h2)]
      by_cases h3 : i % 100 = 0
      · simp only [if_pos h3]
        have hn := h.residuals hV start i s.x r r' hr
        refine ⟨?_, hn⟩
        have hiff : (calculateResiduals start i (p'.rho (F s.x)) (p'.u (F s.x)) r').velocity < cfg'.convergenceThreshold ↔
            (calculateResiduals start i (p.rho s.x) (p.u s.x) r).velocity < cfg.convergenceThreshold := by
          rcases hn.velocity with hv | ⟨hv, hv'⟩
          · rw [hv, hc.threshold]
            exact mul_lt_mul_iff_right₀ hV
          · rw [hv, hv']
            exact ⟨fun h => absurd h (not_lt.2 hc.small'), fun h => absurd h (not_lt.2 hc.small)⟩
        exact decide_eq_decide.2 hiff
      · simp only [if_neg h3]; exact ⟨trivial, hr⟩

/-- States of the two runs between two passes of the loop -/
structure StateCorresponds (F : σ → σ) (G : (Fin D → ι → ℝ) → Fin D → ι → ℝ) (k V : ℝ) (st st' : RunState σ ι D) : Prop where
  i : st'.i = st.i
  snap : st'.snap = mapSnapshot F k st.snap
  log : st'.log = st.log.map (mapEvent F k)
  res : ResCorresponds G V st.res st'.res

/-- Both runs end normally in states that correspond, or with the same error. -/
def Both (R : RunState σ ι D → RunState σ ι D → Prop) {E : Type*} : Except E (RunState σ ι D) → Except E (RunState σ ι D) → Prop
  | .ok a, .ok b => R a b
  | .error e, .error e' => e' = e
  | _, _ => False

theorem Corresponds.loop [Fintype ι] (h : Corresponds p p' F G k V) (hk : 0 < k) (hV : 0 < V) {cfg cfg' : RunConfig}
    (hc : ConfigCorresponds cfg cfg' k V) (start : ℕ) (m : ℕ) : ∀ (st st' : RunState σ ι D), cfg.numberOfTimeSteps - st.i = m →
    StateCorresponds F G k V st st' →
    Both (StateCorresponds F G k V) (Solver.loop cfg p start (output cfg start) (Solver.advance cfg p start) st)
      (Solver.loop cfg' p' start (output cfg' start) (Solver.advance cfg' p' start) st') := by
  induction m using Nat.strong_induction_on with
  | _ m ih =>
    intro st st' hm hst
    obtain ⟨i0, s, r, log⟩ := st
    obtain ⟨i, s', r', log'⟩ := st'
    obtain ⟨hi, hs, hlog, hr⟩ := hst
    simp only at hi hs hlog hr hm
    subst hi hs hlog
    obtain ⟨hb, hr2⟩ := h.stop hk hV hc start i s r r' hr
    rw [Solver.loop, Solver.loop]
    simp only
    by_cases hstop : (stopConditionMet cfg p start i s r).1 = true
    · rw [dif_pos hstop, dif_pos (hb.trans hstop)]
      exact ⟨rfl, rfl, rfl, hr2⟩
    · rw [dif_neg hstop, dif_neg (by rw [hb]; exact hstop), h.advance hk cfg cfg' hc.isFiltering hc.filterInterval]
      cases Solver.advance cfg p start (i + 1) s with
      | error e => exact rfl
      | ok s1 =>
        simp only [Except.map]
        have hlt := lt_of_not_stop hstop
        refine ih (cfg.numberOfTimeSteps - (i + 1)) (by omega) _ _ rfl ⟨rfl, rfl, ?_, hr2⟩
        simp only [List.map_append]
        rw [mapEvent_output F k cfg cfg' hc.switchOutputOff hc.solutionInterval hc.tableInterval hc.checkpointInterval]

theorem Corresponds.run [Fintype ι] (h : Corresponds p p' F G k V) (hk : 0 < k) (hV : 0 < V) {cfg cfg' : RunConfig}
    (hc : ConfigCorresponds cfg cfg' k V) (start : ℕ) (s : Snapshot σ) :
    Both (StateCorresponds F G k V) (Solver.run cfg p start s) (Solver.run cfg' p' start (mapSnapshot F k s)) := by
  unfold Solver.run
  rw [h.collideSnapshot]
  cases Solver.collide p s with
  | error e => exact rfl
  | ok s1 =>
    simp only [Except.map]
    have hl := h.loop hk hV hc start _ { i := start, snap := s1, res := Residuals.init, log := [] }
      { i := start, snap := mapSnapshot F k s1, res := Residuals.init, log := [] } rfl ⟨rfl, rfl, rfl, ⟨h.zero.symm, Or.inr ⟨rfl, rfl⟩⟩⟩
    revert hl
    cases Solver.loop cfg p start (output cfg start) (Solver.advance cfg p start) { i := start, snap := s1, res := Residuals.init, log := [] } with
    | error e =>
      cases Solver.loop cfg' p' start (output cfg' start) (Solver.advance cfg' p' start)
        { i := start, snap := mapSnapshot F k s1, res := Residuals.init, log := [] } with
      | error e' => exact fun h => h
      | ok b => exact fun h => h
    | ok a =>
      cases Solver.loop cfg' p' start (output cfg' start) (Solver.advance cfg' p' start)
        { i := start, snap := mapSnapshot F k s1, res := Residuals.init, log := [] } with
      | error e' => exact fun h => h
      | ok b =>
        intro hl
        refine ⟨hl.i, hl.snap, ?_, hl.res⟩
        simp only [hl.log, hl.i, hl.snap, List.map_append]
        rw [mapEvent_output F k cfg cfg' hc.switchOutputOff hc.solutionInterval hc.tableInterval hc.checkpointInterval]

theorem collide_time {σ ε ι : Type*} {D : ℕ} {p : Parts σ ε ι D} {s s' : Snapshot σ} (h : collide p s = .ok s') : s'.time = s.time := by
  unfold collide at h
  split at h
  · cases h
  · cases h; rfl

/-- The loop does not go back. -/
theorem loop_le {σ ε ι E : Type*} {D : ℕ} [Fintype ι] {cfg : RunConfig} {p : Parts σ ε ι D} {start : ℕ}
    {out : ℕ → Bool → Snapshot σ → List (Event σ)} {upd : ℕ → Snapshot σ → Except E (Snapshot σ)} {st st' : RunState σ ι D}
    (h : loop cfg p start out upd st = .ok st') : st.i ≤ st'.i := by
  generalize hn : cfg.numberOfTimeSteps - st.i = n
  induction n generalizing st with
  | zero =>
    rw [loop] at h
    split at h
    · cases h; exact le_rfl
    · next hs =>
      have := lt_of_not_stop hs
      omega
  | succ n ih =>
    rw [loop] at h
    split at h
    · cases h; exact le_rfl
    · split at h
      · cases h
      · exact le_trans (Nat.le_succ _) (ih h (by show cfg.numberOfTimeSteps - (st.i + 1) = n; omega))

end Solver
end NATriuM
