import Verif.Lemmas.SolverLoop
import Mathlib.Tactic.FieldSimp
import Mathlib.Tactic.NormNum

/-!
# The time loop: C27, C28, C29, C62, C68
-/

namespace NATriuM
namespace Solver

open Spec

variable {σ ε ι : Type*} {D : ℕ}

/-- The data after `k` steps of a run of the incompressible solver from iteration `start` with data `s0`: one collision, then `k`
times stream, filter, collide, data processors. -/
noncomputable def runTrajectory (cfg : RunConfig) (p : Parts σ ε ι D) (start : ℕ) (s0 : Snapshot σ) :
    ℕ → Except (RunError ε) (Snapshot σ) :=
  trajectory (collide p s0) (advance cfg p start) start

/-- The same for the compressible solver. -/
noncomputable def compressibleTrajectory (cfg : RunConfig) (p : CompressibleParts σ ε ι D) (start : ℕ) (s0 : Snapshot σ) :
    ℕ → Except (RunError ε) (Snapshot σ) :=
  trajectory
    (match (if start ≤ 1 then p.initializeDistributions s0.x else .ok s0.x) with
      | .error e => .error (.part e)
      | .ok x => collide p.toParts { s0 with x := x })
    (compressibleAdvance cfg p start) start

section Run

variable [Fintype ι] {cfg : RunConfig} {p : Parts σ ε ι D} {start : ℕ} {s0 : Snapshot σ}

theorem run_ok {st : RunState σ ι D} (h : run cfg p start s0 = .ok st) :
    start ≤ st.i ∧ runTrajectory cfg p start s0 (st.i - start) = .ok st.snap ∧
    Stops cfg.stopRule Snapshot.time (vel p) start (runTrajectory cfg p start s0) st.i ∧
    (∀ j, start ≤ j → j < st.i → ¬Stops cfg.stopRule Snapshot.time (vel p) start (runTrajectory cfg p start s0) j) ∧
    st.log = logUpTo start (runTrajectory cfg p start s0) (output cfg start) st.i ++ output cfg start st.i true st.snap ∧
    (100 ∣ st.i → st.i < cfg.numberOfTimeSteps → st.snap.time < cfg.simulationEndTime →
      ResidualAt (vel p) start (runTrajectory cfg p start s0) st.i st.res.velocity) := by
  unfold run at h
  cases hc : collide p s0 with
  | error e => rw [hc] at h; cases h
  | ok s =>
    rw [hc] at h
    simp only at h
    have hl := loop_spec (cfg := cfg) (p := p) (start := start) (out := output cfg start) (upd := advance cfg p start)
      (init := collide p s0) _ { i := start, snap := s, res := Residuals.init, log := [] } rfl le_rfl
      (by simp only [Nat.sub_self]; exact hc) (resInv_start _) (fun j h h' => by simp only at h'; omega)
      (by simp [logUpTo])
    cases hloop : loop cfg p start (output cfg start) (advance cfg p start)
        { i := start, snap := s, res := Residuals.init, log := [] } with
    | error e => rw [hloop] at h; cases h
    | ok st' =>
      rw [hloop] at h
      cases h
      obtain ⟨h1, h2, h3, h4, h5, h6⟩ := hl.1 st' hloop
      exact ⟨h1, h2, h3, h4, by rw [h5]; rfl, h6⟩

theorem run_error {e : RunError ε} (h : run cfg p start s0 = .error e) :
    ∃ k, start ≤ k ∧ k ≤ max start cfg.numberOfTimeSteps ∧ runTrajectory cfg p start s0 (k - start) = .error e ∧
      ∀ j, start ≤ j → j < k → ¬Stops cfg.stopRule Snapshot.time (vel p) start (runTrajectory cfg p start s0) j := by
  unfold run at h
  cases hc : collide p s0 with
  | error e' =>
    rw [hc] at h
    cases h
    exact ⟨start, le_rfl, le_max_left _ _, by simp only [Nat.sub_self]; exact hc, fun j h h' => by omega⟩
  | ok s =>
    rw [hc] at h
    simp only at h
    have hl := loop_spec (cfg := cfg) (p := p) (start := start) (out := output cfg start) (upd := advance cfg p start)
      (init := collide p s0) _ { i := start, snap := s, res := Residuals.init, log := [] } rfl le_rfl
      (by simp only [Nat.sub_self]; exact hc) (resInv_start _) (fun j h h' => by simp only at h'; omega)
      (by simp [logUpTo])
    cases hloop : loop cfg p start (output cfg start) (advance cfg p start)
        { i := start, snap := s, res := Residuals.init, log := [] } with
    | ok st => rw [hloop] at h; cases h
    | error e' =>
      rw [hloop] at h
      cases h
      obtain ⟨k, h1, h2, h3, h4⟩ := hl.2 e hloop
      exact ⟨k, by simp only at h1; omega, le_max_of_le_right h2, h3, h4⟩

/-- **C28**: a completed run ends at the least iteration at which one of the stop conditions holds, with the data of that iteration. -/
theorem C28_run_stops_first {st : RunState σ ι D} (h : run cfg p start s0 = .ok st) :
    IsLeast {n | start ≤ n ∧ Stops cfg.stopRule Snapshot.time (vel p) start (runTrajectory cfg p start s0) n} st.i ∧
    runTrajectory cfg p start s0 (st.i - start) = .ok st.snap := by
  obtain ⟨h1, h2, h3, h4, -⟩ := run_ok h
  refine ⟨⟨⟨h1, h3⟩, fun n hn => ?_⟩, h2⟩
  by_contra hlt
  exact h4 n hn.1 (not_le.1 hlt) hn.2

/-- **C28**: every run whose updates succeed up to the first stop is completed there: the loop neither misses a stop nor runs on
for ever. -/
theorem C28_run_completes {n : ℕ}
    (hn : IsLeast {n | start ≤ n ∧ Stops cfg.stopRule Snapshot.time (vel p) start (runTrajectory cfg p start s0) n} n)
    (hok : ∀ k, start + k ≤ n → ∃ s, runTrajectory cfg p start s0 k = .ok s) :
    ∃ st, run cfg p start s0 = .ok st ∧ st.i = n := by
  cases h : run cfg p start s0 with
  | ok st => exact ⟨st, rfl, (C28_run_stops_first h).1.unique hn⟩
  | error e =>
    exfalso
    obtain ⟨k, h1, _, h3, h4⟩ := run_error h
    have hk : k ≤ n := by
      by_contra hlt
      exact h4 n hn.1.1 (not_le.1 hlt) hn.1.2
    obtain ⟨s, hs⟩ := hok (k - start) (by omega)
    rw [h3] at hs
    cases hs

/-- **C28**: a run fails only with the error of an update that comes before every stop. -/
theorem C28_run_fails_only_before_stop {e : RunError ε} (h : run cfg p start s0 = .error e) :
    ∃ k, runTrajectory cfg p start s0 k = .error e ∧
      ∀ j, start ≤ j → j < start + k → ¬Stops cfg.stopRule Snapshot.time (vel p) start (runTrajectory cfg p start s0) j := by
  obtain ⟨k, h1, _, h3, h4⟩ := run_error h
  exact ⟨k - start, h3, fun j hj hk => h4 j hj (by omega)⟩

end Run

section Steps

variable {cfg : RunConfig} {p : Parts σ ε ι D} {start : ℕ} {s0 : Snapshot σ}

/-- The step size never changes: always so for the semi-Lagrangian scheme, and for the other scheme if the time integrator returns
the step size it was called with. -/
def FixedStep (p : Parts σ ε ι D) : Prop :=
  p.scheme = .semiLagrangian ∨ ∀ k dt x x' dt', p.integrate k dt x = .ok (x', dt') → dt' = dt

theorem stream_clock (hp : FixedStep p) {k : ℕ} {s s' : Snapshot σ} (h : stream p k s = .ok s') :
    s'.time = s.time + s.dt ∧ s'.dt = s.dt := by
  unfold stream at h
  cases hs : p.scheme with
  | semiLagrangian =>
    rw [hs] at h
    simp only at h
    cases ha : p.advect k s.time s.x with
    | error e => rw [ha] at h; cases h
    | ok x => rw [ha] at h; cases h; exact ⟨rfl, rfl⟩
  | sedg =>
    rw [hs] at h
    simp only at h
    cases ha : p.integrate k s.dt s.x with
    | error e => rw [ha] at h; cases h
    | ok r =>
      obtain ⟨x, dt'⟩ := r
      rw [ha] at h
      simp only at h
      have : dt' = s.dt := by
        rcases hp with hp | hp
        · rw [hs] at hp; cases hp
        · exact hp _ _ _ _ _ ha
      split at h
      · cases h; simp [this]
      · cases h

theorem collide_clock {s s' : Snapshot σ} (h : collide p s = .ok s') : s'.time = s.time ∧ s'.dt = s.dt := by
  unfold collide at h
  cases hc : p.collide s.x with
  | error e => rw [hc] at h; cases h
  | ok x => rw [hc] at h; cases h; exact ⟨rfl, rfl⟩

theorem filter_clock {i : ℕ} (s : Snapshot σ) : (filter cfg p i s).time = s.time ∧ (filter cfg p i s).dt = s.dt := by
  unfold filter; split <;> exact ⟨rfl, rfl⟩

theorem advance_clock (hp : FixedStep p) {i : ℕ} {s s' : Snapshot σ} (h : advance cfg p start i s = .ok s') :
    s'.time = s.time + s.dt ∧ s'.dt = s.dt := by
  unfold advance at h
  cases h1 : stream p (i - start) s with
  | error e => rw [h1] at h; cases h
  | ok s1 =>
    rw [h1] at h
    simp only at h
    cases h2 : collide p (filter cfg p i s1) with
    | error e => rw [h2] at h; cases h
    | ok s2 =>
      rw [h2] at h
      cases h
      have a := stream_clock hp h1
      have b := collide_clock h2
      have c := filter_clock (cfg := cfg) (p := p) (i := i) s1
      exact ⟨by rw [← a.1, ← c.1, ← b.1]; rfl, by rw [← a.2, ← c.2, ← b.2]; rfl⟩

theorem trajectory_clock (hp : FixedStep p) (k : ℕ) : ∀ {s : Snapshot σ}, runTrajectory cfg p start s0 k = .ok s →
    s.time = s0.time + k * s0.dt ∧ s.dt = s0.dt := by
  induction k with
  | zero =>
    intro s h
    have := collide_clock (p := p) (s := s0) (s' := s) h
    simpa using this
  | succ k ih =>
    intro s h
    unfold runTrajectory trajectory at h
    cases hk : trajectory (collide p s0) (advance cfg p start) start k with
    | error e => rw [hk] at h; cases h
    | ok s1 =>
      rw [hk] at h
      have a := ih hk
      have b := advance_clock hp h
      refine ⟨?_, b.2.trans a.2⟩
      rw [b.1, a.1, a.2]; push_cast; ring

/-- Without any assumption on the time integrator: the clock advances by the step size that is in force after the step. -/
theorem stream_clock_any {k : ℕ} {s s' : Snapshot σ} (h : stream p k s = .ok s') : s'.time = s.time + s'.dt := by
  unfold stream at h
  cases hs : p.scheme with
  | semiLagrangian =>
    rw [hs] at h
    simp only at h
    cases ha : p.advect k s.time s.x with
    | error e => rw [ha] at h; cases h
    | ok x => rw [ha] at h; cases h; rfl
  | sedg =>
    rw [hs] at h
    simp only at h
    cases ha : p.integrate k s.dt s.x with
    | error e => rw [ha] at h; cases h
    | ok r =>
      rw [ha] at h
      simp only at h
      split at h
      · cases h; rfl
      · cases h

theorem advance_clock_any {i : ℕ} {s s' : Snapshot σ} (h : advance cfg p start i s = .ok s') : s'.time = s.time + s'.dt := by
  unfold advance at h
  cases h1 : stream p (i - start) s with
  | error e => rw [h1] at h; cases h
  | ok s1 =>
    rw [h1] at h
    simp only at h
    cases h2 : collide p (filter cfg p i s1) with
    | error e => rw [h2] at h; cases h
    | ok s2 =>
      rw [h2] at h
      cases h
      have a := stream_clock_any h1
      have b := collide_clock h2
      have c := filter_clock (cfg := cfg) (p := p) (i := i) s1
      show s2.time = s.time + s2.dt
      rw [b.1, b.2, c.1, c.2, a]

/-- **C27** for adaptive step sizes: the clock is the start time plus the sum of the step sizes of all steps made. -/
theorem C27_clock_adaptive (k : ℕ) : ∀ {s : Snapshot σ}, runTrajectory cfg p start s0 k = .ok s →
    ∃ δ : ℕ → ℝ, (∀ j ≤ k, ∃ s', runTrajectory cfg p start s0 j = .ok s' ∧ s'.dt = δ j) ∧
      s.time = s0.time + ∑ j ∈ Finset.range k, δ (j + 1) := by
  induction k with
  | zero =>
    intro s h
    refine ⟨fun _ => s.dt, fun j hj => ⟨s, by rwa [Nat.le_zero.1 hj], rfl⟩, ?_⟩
    simpa using (collide_clock (p := p) (s := s0) (s' := s) h).1
  | succ k ih =>
    intro s h
    have h' := h
    unfold runTrajectory trajectory at h
    cases hk : trajectory (collide p s0) (advance cfg p start) start k with
    | error e => rw [hk] at h; cases h
    | ok s1 =>
      rw [hk] at h
      obtain ⟨δ, h1, h2⟩ := ih hk
      have b := advance_clock_any h
      refine ⟨Function.update δ (k + 1) s.dt, fun j hj => ?_, ?_⟩
      · rcases Nat.lt_or_eq_of_le hj with hlt | rfl
        · rw [Function.update_of_ne (by omega)]
          exact h1 j (by omega)
        · exact ⟨s, h', by rw [Function.update_self]⟩
      · rw [b, h2, Finset.sum_range_succ, Function.update_self, add_assoc]
        congr 2
        exact Finset.sum_congr rfl fun j hj => by rw [Function.update_of_ne (by have := Finset.mem_range.1 hj; omega)]

/-- A quantity that streaming increases by one and that nothing else touches: a counter of the streaming steps. -/
structure CountsStreams (p : Parts σ ε ι D) (c : σ → ℕ) : Prop where
  advect : ∀ k t x x', p.advect k t x = .ok x' → c x' = c x + 1
  integrate : ∀ k dt x r, p.integrate k dt x = .ok r → c r.1 = c x + 1
  applyFilter : ∀ x, c (p.applyFilter x) = c x
  collide : ∀ x x', p.collide x = .ok x' → c x' = c x
  processors : ∀ f ∈ p.processors, ∀ i t x, c (f i t x) = c x

theorem collide_count {c : σ → ℕ} (hc : CountsStreams p c) {s s' : Snapshot σ} (h : collide p s = .ok s') : c s'.x = c s.x := by
  unfold collide at h
  cases h1 : p.collide s.x with
  | error e => rw [h1] at h; cases h
  | ok x => rw [h1] at h; cases h; exact hc.collide _ _ h1

theorem stream_count {c : σ → ℕ} (hc : CountsStreams p c) {k : ℕ} {s s' : Snapshot σ} (h : stream p k s = .ok s') :
    c s'.x = c s.x + 1 := by
  unfold stream at h
  cases hs : p.scheme with
  | semiLagrangian =>
    rw [hs] at h
    simp only at h
    cases ha : p.advect k s.time s.x with
    | error e => rw [ha] at h; cases h
    | ok x => rw [ha] at h; cases h; exact hc.advect _ _ _ _ ha
  | sedg =>
    rw [hs] at h
    simp only at h
    cases ha : p.integrate k s.dt s.x with
    | error e => rw [ha] at h; cases h
    | ok r =>
      rw [ha] at h
      simp only at h
      split at h
      · cases h; exact hc.integrate _ _ _ _ ha
      · cases h

theorem processors_count {c : σ → ℕ} (hc : CountsStreams p c) (i : ℕ) (s : Snapshot σ) :
    c (applyProcessors p i s).x = c s.x := by
  have : ∀ l : List (ℕ → ℝ → σ → σ), (∀ f ∈ l, ∀ i t x, c (f i t x) = c x) → ∀ x,
      c (l.foldl (fun x proc => proc i s.time x) x) = c x := by
    intro l
    induction l with
    | nil => intro _ x; rfl
    | cons f l ih =>
      intro h x
      rw [List.foldl_cons, ih (fun g hg => h g (by simp [hg])), h f (by simp)]
  exact this _ hc.processors _

theorem trajectory_count {c : σ → ℕ} (hc : CountsStreams p c) (k : ℕ) : ∀ {s : Snapshot σ},
    runTrajectory cfg p start s0 k = .ok s → c s.x = c s0.x + k := by
  induction k with
  | zero => exact fun {s} h => collide_count hc h
  | succ k ih =>
    intro s h
    unfold runTrajectory trajectory at h
    cases hk : trajectory (collide p s0) (advance cfg p start) start k with
    | error e => rw [hk] at h; cases h
    | ok s1 =>
      rw [hk] at h
      have a := ih hk
      simp only at h
      unfold advance at h
      cases h1 : stream p (start + (k + 1) - start) s1 with
      | error e => rw [h1] at h; cases h
      | ok s2 =>
        rw [h1] at h
        simp only at h
        cases h2 : collide p (filter cfg p (start + (k + 1)) s2) with
        | error e => rw [h2] at h; cases h
        | ok s3 =>
          rw [h2] at h
          cases h
          rw [processors_count hc, collide_count hc h2]
          have : c (filter cfg p (start + (k + 1)) s2).x = c s2.x := by
            unfold filter; split
            · exact hc.applyFilter _
            · rfl
          rw [this, stream_count hc h1, a]; omega

variable [Fintype ι]

/-- **C27**: the clock after a completed run is the start time plus the number of steps times the step size, whatever stopped it; and
the number of streaming steps equals the number of iterations. -/
theorem C27_clock_and_steps {st : RunState σ ι D} (h : run cfg p start s0 = .ok st) :
    start ≤ st.i ∧ (FixedStep p → st.snap.time = s0.time + ((st.i - start : ℕ) : ℝ) * s0.dt ∧ st.snap.dt = s0.dt) ∧
    ∀ c, CountsStreams p c → c st.snap.x = c s0.x + (st.i - start) := by
  obtain ⟨h1, h2, -⟩ := run_ok h
  exact ⟨h1, fun hp => trajectory_clock hp _ h2, fun c hc => trajectory_count hc _ h2⟩

/-- **C27**: if neither the end time nor convergence stops it, a run with limit `N` from iteration `i0` performs exactly `max 0 (N - i0)`
streaming steps and its clock advances by as many step sizes. -/
theorem C27_run_steps {st : RunState σ ι D} (h : run cfg p start s0 = .ok st)
    (htime : ∀ k s, runTrajectory cfg p start s0 k = .ok s → s.time < cfg.simulationEndTime)
    (hconv : ∀ n r, ResidualAt (vel p) start (runTrajectory cfg p start s0) n r → cfg.convergenceThreshold ≤ r) :
    st.i = max start cfg.numberOfTimeSteps ∧
    (∀ c, CountsStreams p c → c st.snap.x = c s0.x + (cfg.numberOfTimeSteps - start)) ∧
    (FixedStep p → st.snap.time = s0.time + ((cfg.numberOfTimeSteps - start : ℕ) : ℝ) * s0.dt) := by
  obtain ⟨h1, h2, h3, h4, -⟩ := run_ok h
  have key : ∀ n, Stops cfg.stopRule Snapshot.time (vel p) start (runTrajectory cfg p start s0) n ↔ cfg.numberOfTimeSteps ≤ n := by
    intro n
    constructor
    · rintro (h | ⟨s, hs, h⟩ | ⟨_, r, hr, h⟩)
      · exact h
      · exact absurd (htime _ _ hs) (not_lt.2 h)
      · exact absurd (hconv _ _ hr) (not_le.2 h)
    · exact fun h => Or.inl h
  have hi : st.i = max start cfg.numberOfTimeSteps := by
    have a := (key _).1 h3
    by_contra hne
    have : max start cfg.numberOfTimeSteps < st.i := lt_of_le_of_ne (max_le h1 a) (Ne.symm hne)
    exact h4 _ (le_max_left _ _) this ((key _).2 (le_max_right _ _))
  have hk : st.i - start = cfg.numberOfTimeSteps - start := by omega
  obtain ⟨-, hc, hn⟩ := C27_clock_and_steps h
  exact ⟨hi, fun c h => by rw [hn c h, hk], fun h => by rw [(hc h).1, hk]⟩

end Steps

section Output

variable [Fintype ι] {cfg : RunConfig} {p : Parts σ ε ι D} {start : ℕ} {s0 : Snapshot σ}

theorem mem_logUpTo {E : Type*} {T : ℕ → Except E (Snapshot σ)} {out : ℕ → Bool → Snapshot σ → List (Event σ)} {n : ℕ} {e : Event σ} :
    e ∈ logUpTo start T out n ↔ ∃ j, start ≤ j ∧ j < n ∧ ∃ s, T (j - start) = .ok s ∧ e ∈ out j false s := by
  unfold logUpTo
  simp only [List.mem_flatMap, List.mem_range'_1, eventsAt]
  constructor
  · rintro ⟨j, hj, he⟩
    cases hT : T (j - start) with
    | error e' => rw [hT] at he; simp at he
    | ok s => rw [hT] at he; exact ⟨j, hj.1, by omega, s, hT, he⟩
  · rintro ⟨j, h1, h2, s, hs, he⟩
    exact ⟨j, by omega, by rw [hs]; exact he⟩

omit [Fintype ι] in
theorem trajectory_prefix {E S : Type*} {init : Except E S} {upd : ℕ → S → Except E S} (k m : ℕ) :
    ∀ {s : S}, trajectory init upd start (k + m) = .ok s → ∃ s', trajectory init upd start k = .ok s' := by
  induction m with
  | zero => exact fun {s} h => ⟨s, h⟩
  | succ m ih =>
    intro s h
    rw [← Nat.add_assoc, trajectory] at h
    cases hk : trajectory init upd start (k + m) with
    | error e => rw [hk] at h; cases h
    | ok s' => exact ih hk

/-- Every iteration of a completed run has data. -/
theorem run_data {st : RunState σ ι D} (h : run cfg p start s0 = .ok st) {j : ℕ} (hj : j ≤ st.i) :
    ∃ s, runTrajectory cfg p start s0 (j - start) = .ok s := by
  obtain ⟨-, h1, -⟩ := run_ok h
  exact trajectory_prefix (j - start) (st.i - start - (j - start)) (by rw [← h1]; unfold runTrajectory; congr 1; omega)

theorem mem_log {st : RunState σ ι D} (h : run cfg p start s0 = .ok st) {e : Event σ} :
    e ∈ st.log ↔ ∃ j s, start ≤ j ∧ j ≤ st.i ∧ runTrajectory cfg p start s0 (j - start) = .ok s ∧
      e ∈ output cfg start j (decide (j = st.i)) s := by
  obtain ⟨h0, h1, -, -, h5, -⟩ := run_ok h
  rw [h5, List.mem_append, mem_logUpTo]
  constructor
  · rintro (⟨j, a, b, s, hs, he⟩ | he)
    · exact ⟨j, s, a, b.le, hs, by rw [decide_eq_false (by omega)]; exact he⟩
    · exact ⟨st.i, st.snap, h0, le_rfl, h1, by rw [decide_eq_true rfl]; exact he⟩
  · rintro ⟨j, s, a, b, hs, he⟩
    rcases Nat.lt_or_eq_of_le b with hlt | rfl
    · rw [decide_eq_false (by omega)] at he
      exact Or.inl ⟨j, a, hlt, s, hs, he⟩
    · rw [decide_eq_true rfl] at he
      rw [h1] at hs
      cases hs
      exact Or.inr he

/-- The solution files: written at the multiples of the interval (unless it exceeds 10^8) and at the final iteration. -/
theorem C29_solution_partial {st : RunState σ ι D} (h : run cfg p start s0 = .ok st) (j : ℕ) (s : Snapshot σ) :
    Event.solution j s ∈ st.log ↔ cfg.switchOutputOff = false ∧ start ≤ j ∧ j ≤ st.i ∧
      ((cfg.solutionInterval ∣ j ∧ cfg.solutionInterval ≤ 10 ^ 8) ∨ j = st.i) ∧
      runTrajectory cfg p start s0 (j - start) = .ok s := by
  rw [mem_log h]
  constructor
  · rintro ⟨j', s', a, b, hs, he⟩
    unfold output at he
    cases hoff : cfg.switchOutputOff with
    | true => simp [hoff] at he
    | false =>
      simp only [hoff, Bool.false_eq_true, if_false, List.mem_append, List.mem_ite_nil_right, List.mem_singleton, reduceCtorEq,
        and_false, false_or, or_false, decide_eq_true_eq, Event.solution.injEq] at he
      obtain ⟨hc, rfl, rfl⟩ := he
      exact ⟨rfl, a, b, by rwa [← Nat.dvd_iff_mod_eq_zero] at hc, hs⟩
  · rintro ⟨hoff, a, b, hc, hs⟩
    refine ⟨j, s, a, b, hs, ?_⟩
    unfold output
    simp only [hoff, Bool.false_eq_true, if_false, List.mem_append, List.mem_ite_nil_right, List.mem_singleton, reduceCtorEq,
        and_false, false_or, or_false, decide_eq_true_eq, and_true]
    rwa [← Nat.dvd_iff_mod_eq_zero]

/-- The table: one line at every multiple of the interval, and nothing extra at the final iteration. -/
theorem C29_table_partial {st : RunState σ ι D} (h : run cfg p start s0 = .ok st) (j : ℕ) (s : Snapshot σ) :
    Event.tableLine j s ∈ st.log ↔ cfg.switchOutputOff = false ∧ start ≤ j ∧ j ≤ st.i ∧ cfg.tableInterval ∣ j ∧
      runTrajectory cfg p start s0 (j - start) = .ok s := by
  rw [mem_log h]
  constructor
  · rintro ⟨j', s', a, b, hs, he⟩
    unfold output at he
    cases hoff : cfg.switchOutputOff with
    | true => simp [hoff] at he
    | false =>
      simp only [hoff, Bool.false_eq_true, if_false, List.mem_append, List.mem_ite_nil_right, List.mem_singleton, reduceCtorEq,
        and_false, false_or, or_false, decide_eq_true_eq, Event.tableLine.injEq] at he
      obtain ⟨hc, rfl, rfl⟩ := he
      exact ⟨rfl, a, b, by rwa [← Nat.dvd_iff_mod_eq_zero] at hc, hs⟩
  · rintro ⟨hoff, a, b, hc, hs⟩
    refine ⟨j, s, a, b, hs, ?_⟩
    unfold output
    simp only [hoff, Bool.false_eq_true, if_false, List.mem_append, List.mem_ite_nil_right, List.mem_singleton, reduceCtorEq,
        and_false, false_or, or_false, decide_eq_true_eq, and_true]
    rwa [← Nat.dvd_iff_mod_eq_zero]

/-- The checkpoints: at the multiples of the interval and at the final iteration, but never at the start iteration, and none at all
if the interval exceeds 10^8. -/
theorem C29_checkpoint_partial {st : RunState σ ι D} (h : run cfg p start s0 = .ok st) (j : ℕ) (s : Snapshot σ) :
    Event.checkpoint j s ∈ st.log ↔ cfg.switchOutputOff = false ∧ start < j ∧ j ≤ st.i ∧ cfg.checkpointInterval ≤ 10 ^ 8 ∧
      (cfg.checkpointInterval ∣ j ∨ j = st.i) ∧ runTrajectory cfg p start s0 (j - start) = .ok s := by
  rw [mem_log h]
  constructor
  · rintro ⟨j', s', a, b, hs, he⟩
    unfold output at he
    cases hoff : cfg.switchOutputOff with
    | true => simp [hoff] at he
    | false =>
      simp only [hoff, Bool.false_eq_true, if_false, List.mem_append, List.mem_ite_nil_right, List.mem_singleton, reduceCtorEq,
        and_false, false_or, or_false, decide_eq_true_eq, Event.checkpoint.injEq] at he
      obtain ⟨⟨hc, hcp, hne⟩, rfl, rfl⟩ := he
      exact ⟨rfl, lt_of_le_of_ne a hne, b, hcp, by rwa [← Nat.dvd_iff_mod_eq_zero] at hc, hs⟩
  · rintro ⟨hoff, a, b, hcp, hc, hs⟩
    refine ⟨j, s, a.le, b, hs, ?_⟩
    unfold output
    simp only [hoff, Bool.false_eq_true, if_false, List.mem_append, List.mem_ite_nil_right, List.mem_singleton, reduceCtorEq,
        and_false, false_or, or_false, decide_eq_true_eq, and_true]
    exact ⟨by rwa [← Nat.dvd_iff_mod_eq_zero], hcp, a.ne⟩

/-- With output switched off nothing is written. -/
theorem C29_output_off {st : RunState σ ι D} (h : run cfg p start s0 = .ok st) (hoff : cfg.switchOutputOff = true) : st.log = [] := by
  rw [List.eq_nil_iff_forall_not_mem]
  intro e he
  obtain ⟨j, s, -, -, -, h⟩ := (mem_log h).1 he
  simp [output, hoff] at h

/-- What kind of file an event is, and of which iteration. -/
def Event.key : Event σ → ℕ × ℕ
  | .grid i => (0, i)
  | .solution i _ => (1, i)
  | .tableLine i _ => (2, i)
  | .checkpoint i _ => (3, i)
  | .errorLine i _ => (4, i)

omit [Fintype ι] in
theorem output_keys (cfg : RunConfig) (start j : ℕ) (b : Bool) (s : Snapshot σ) :
    ((output cfg start j b s).map Event.key).Nodup ∧ ∀ e ∈ output cfg start j b s, e.key.2 = j := by
  unfold output
  constructor
  · split_ifs <;> simp [Event.key]
  · split_ifs <;> simp [Event.key]

/-- Nothing is written twice. -/
theorem C29_once {st : RunState σ ι D} (h : run cfg p start s0 = .ok st) : (st.log.map Event.key).Nodup := by
  obtain ⟨h0, h1, -, -, h5, -⟩ := run_ok h
  rw [h5, List.map_append, List.nodup_append']
  refine ⟨?_, (output_keys _ _ _ _ _).1, ?_⟩
  · unfold logUpTo
    rw [List.map_flatMap, List.nodup_flatMap]
    constructor
    · intro j _
      unfold eventsAt
      cases hT : runTrajectory cfg p start s0 (j - start) with
      | ok s => exact (output_keys _ _ _ _ _).1
      | error e => simp
    · have hnd : List.Pairwise (fun a b => a ≠ b) (List.range' start (st.i - start)) := List.nodup_range'
      refine hnd.imp ?_
      · intro a b hab k hka hkb
        apply hab
        have key : ∀ j, k ∈ List.map Event.key (eventsAt start (runTrajectory cfg p start s0) (output cfg start) j) → k.2 = j := by
          intro j hj
          unfold eventsAt at hj
          cases hT : runTrajectory cfg p start s0 (j - start) with
          | ok s =>
            rw [hT] at hj
            obtain ⟨e, he, rfl⟩ := List.mem_map.1 hj
            exact (output_keys _ _ _ _ _).2 e he
          | error e => rw [hT] at hj; simp at hj
        exact (key a hka).symm.trans (key b hkb)
  · intro k hk hk'
    obtain ⟨e, he, rfl⟩ := List.mem_map.1 hk
    obtain ⟨e', he', hee⟩ := List.mem_map.1 hk'
    obtain ⟨j, -, hj, s, -, hes⟩ := mem_logUpTo.1 he
    have a := (output_keys _ _ _ _ _).2 e hes
    have b := (output_keys _ _ _ _ _).2 e' he'
    rw [hee] at b
    omega

end Output

section Compressible

variable [Fintype ι] {cfg : RunConfig} {p : CompressibleParts σ ε ι D} {start : ℕ} {s0 : Snapshot σ}

theorem compressibleRun_ok {st : RunState σ ι D} (h : compressibleRun cfg p start s0 = .ok st) :
    start ≤ st.i ∧ compressibleTrajectory cfg p start s0 (st.i - start) = .ok st.snap ∧
    Stops cfg.stopRule Snapshot.time (vel p.toParts) start (compressibleTrajectory cfg p start s0) st.i ∧
    (∀ j, start ≤ j → j < st.i →
      ¬Stops cfg.stopRule Snapshot.time (vel p.toParts) start (compressibleTrajectory cfg p start s0) j) ∧
    st.log = logUpTo start (compressibleTrajectory cfg p start s0) (compressibleOutput cfg start) st.i ++
      compressibleOutput cfg start st.i true st.snap := by
  unfold compressibleRun at h
  cases hi : (if start ≤ 1 then p.initializeDistributions s0.x else .ok s0.x) with
  | error e => rw [hi] at h; cases h
  | ok x =>
    rw [hi] at h
    simp only at h
    cases hc : collide p.toParts { s0 with x := x } with
    | error e => rw [hc] at h; cases h
    | ok s =>
      rw [hc] at h
      simp only at h
      have hl := loop_spec (cfg := cfg) (p := p.toParts) (start := start) (out := compressibleOutput cfg start)
        (upd := compressibleAdvance cfg p start)
        (init := match (if start ≤ 1 then p.initializeDistributions s0.x else .ok s0.x) with
          | .error e => .error (.part e)
          | .ok x => collide p.toParts { s0 with x := x })
        _ { i := start, snap := s, res := Residuals.init, log := [] } rfl le_rfl
        (by simp only [Nat.sub_self]; rw [trajectory, hi]; exact hc) (resInv_start _) (fun j h h' => by simp only at h'; omega)
        (by simp [logUpTo])
      cases hloop : loop cfg p.toParts start (compressibleOutput cfg start) (compressibleAdvance cfg p start)
          { i := start, snap := s, res := Residuals.init, log := [] } with
      | error e => rw [hloop] at h; cases h
      | ok st' =>
        rw [hloop] at h
        cases h
        obtain ⟨h1, h2, h3, h4, h5, h6⟩ := hl.1 st' hloop
        exact ⟨h1, h2, h3, h4, by rw [h5]; rfl⟩

/-- **C28** for the compressible solver. -/
theorem C28_compressibleRun_stops_first {st : RunState σ ι D} (h : compressibleRun cfg p start s0 = .ok st) :
    IsLeast {n | start ≤ n ∧ Stops cfg.stopRule Snapshot.time (vel p.toParts) start (compressibleTrajectory cfg p start s0) n} st.i ∧
    compressibleTrajectory cfg p start s0 (st.i - start) = .ok st.snap := by
  obtain ⟨h1, h2, h3, h4, -⟩ := compressibleRun_ok h
  refine ⟨⟨⟨h1, h3⟩, fun n hn => ?_⟩, h2⟩
  by_contra hlt
  exact h4 n hn.1 (not_le.1 hlt) hn.2

/-- Counterexample to the last part of C29 for the compressible solver: a run that makes at least one step writes a checkpoint at its
end although output is switched off (any checkpoint interval up to 10^8). -/
theorem C29_compressible_output_off_fails {st : RunState σ ι D} (h : compressibleRun cfg p start s0 = .ok st)
    (hstep : start < st.i) (hcp : cfg.checkpointInterval ≤ 10 ^ 8) :
    Event.checkpoint st.i st.snap ∈ st.log := by
  obtain ⟨-, -, -, -, h5⟩ := compressibleRun_ok h
  rw [h5]
  refine List.mem_append_right _ ?_
  unfold compressibleOutput
  refine List.mem_append_right _ ?_
  simpa [hstep.ne] using hcp

end Compressible

section Residual

variable [Fintype ι] {cfg : RunConfig} {p : Parts σ ε ι D} {start : ℕ} {s0 : Snapshot σ}

/-- The residual behind a stop by convergence is the largest change of velocity over the last *hundred* iterations, or the initial
value 1 if the run has not yet made 100 iterations.  Missing for C62: the documentation of the convergence threshold speaks of 10
iterations, and the initial value 1 is not huge; see `C62_ten_iterations_fails` and `C62_sentinel_fails`. -/
theorem C62_residual_partial {st : RunState σ ι D} (h : run cfg p start s0 = .ok st) (hlim : st.i < cfg.numberOfTimeSteps)
    (htime : st.snap.time < cfg.simulationEndTime) :
    100 ∣ st.i ∧ st.res.velocity < cfg.convergenceThreshold ∧
    ((st.i < start + 100 ∧ st.res.velocity = 1) ∨
      (start + 100 ≤ st.i ∧ ∃ s, runTrajectory cfg p start s0 (st.i - 100 - start) = .ok s ∧
        IsMaxChange (p.u s.x) (p.u st.snap.x) st.res.velocity)) := by
  obtain ⟨h1, h2, h3, -, -, h6⟩ := run_ok h
  have hs : 100 ∣ st.i ∧ ∃ r, ResidualAt (vel p) start (runTrajectory cfg p start s0) st.i r ∧ r < cfg.convergenceThreshold := by
    rcases h3 with h | ⟨s, hs, h⟩ | h
    · exact absurd hlim (not_lt.2 h)
    · rw [h2] at hs; cases hs; exact absurd htime (not_lt.2 h)
    · exact h
  obtain ⟨hd, r, hr, hlt⟩ := hs
  have hres := h6 hd hlim htime
  have hrr : r = st.res.velocity := by
    rcases hr with ⟨a, rfl⟩ | ⟨a, s, s', hs, hs', hm⟩ <;> rcases hres with ⟨b, hb⟩ | ⟨b, t, t', ht, ht', hm'⟩
    · exact hb.symm
    · omega
    · omega
    · rw [hs] at ht; rw [hs'] at ht'
      cases ht; cases ht'
      exact hm.unique hm'
  refine ⟨hd, hrr ▸ hlt, ?_⟩
  rcases hres with h | ⟨a, s, s', hs, hs', hm⟩
  · exact Or.inl h
  · rw [h2] at hs'
    cases hs'
    exact Or.inr ⟨a, s, hs, hm⟩

/-- With a threshold of at most 1, convergence cannot stop a run before its 100th iteration. -/
theorem C62_not_early {st : RunState σ ι D} (h : run cfg p start s0 = .ok st) (hlim : st.i < cfg.numberOfTimeSteps)
    (htime : st.snap.time < cfg.simulationEndTime) (hthr : cfg.convergenceThreshold ≤ 1) : start + 100 ≤ st.i := by
  obtain ⟨-, hlt, ⟨-, h1⟩ | ⟨h, -⟩⟩ := C62_residual_partial h hlim htime
  · rw [h1] at hlt; exact absurd hthr (not_le.2 hlt)
  · exact h

/-- Counterexample to C62: with a threshold above 1 every run from iteration 0 that has something to do stops at once. -/
theorem C62_sentinel_fails (hthr : 1 < cfg.convergenceThreshold) {st : RunState σ ι D} (h : run cfg p 0 s0 = .ok st) : st.i = 0 := by
  obtain ⟨-, -, -, h4, -⟩ := run_ok h
  by_contra hne
  exact h4 0 le_rfl (Nat.pos_of_ne_zero hne) (Or.inr (Or.inr ⟨dvd_zero _, 1, Or.inl ⟨by norm_num, rfl⟩, hthr⟩))

end Residual

section Demo

/-- A small solver used for the examples: one node, two velocity components; streaming counts the steps and the first step sets the
first velocity component to 1. -/
def demo : Parts (ℕ × ℝ) Empty (Fin 1) 2 where
  scheme := .semiLagrangian
  advect := fun k _ x => .ok (x.1 + 1, if k ≤ 1 then x.2 + 1 else x.2)
  integrate := fun _ dt x => .ok ((x.1 + 1, x.2), dt)
  applyFilter := id
  collide := .ok
  processors := []
  rho := fun _ _ => 1
  u := fun x a _ => if a = 0 then x.2 else 0

/-- Its configuration. -/
def demoCfg (N table : ℕ) (thr : ℝ) (htable : 0 < table) : RunConfig where
  numberOfTimeSteps := N
  simulationEndTime := 1000
  convergenceThreshold := thr
  switchOutputOff := false
  solutionInterval := 3
  tableInterval := table
  checkpointInterval := 2
  isFiltering := false
  filterInterval := 1
  solutionInterval_pos := by norm_num
  tableInterval_pos := htable
  checkpointInterval_pos := by norm_num
  filterInterval_pos := by norm_num

/-- Its initial data. -/
def demoStart : Snapshot (ℕ × ℝ) := ⟨(0, 0), 0, 1⟩

theorem demo_trajectory (N table : ℕ) (thr : ℝ) (htable : 0 < table) (k : ℕ) :
    runTrajectory (demoCfg N table thr htable) demo 0 demoStart k = .ok ⟨(k, if k = 0 then 0 else 1), k, 1⟩ := by
  induction k with
  | zero => simp [runTrajectory, trajectory, collide, demo, demoStart]
  | succ k ih =>
    unfold runTrajectory trajectory
    unfold runTrajectory at ih
    rw [ih]
    simp only [advance, stream, demo, filter, demoCfg, Bool.false_and, Bool.false_eq_true, if_false, collide, applyProcessors,
      List.foldl_nil]
    cases k with
    | zero => simp
    | succ k => simp

theorem demo_run (N table : ℕ) (thr : ℝ) (htable : 0 < table) :
    ∃ st, run (demoCfg N table thr htable) demo 0 demoStart = .ok st := by
  cases h : run (demoCfg N table thr htable) demo 0 demoStart with
  | ok st => exact ⟨st, rfl⟩
  | error e =>
    obtain ⟨k, -, -, hk, -⟩ := run_error h
    rw [demo_trajectory] at hk
    cases hk

/-- With threshold 0 and at most 1000 steps the run makes all of them. -/
theorem demo_run_all (N table : ℕ) (htable : 0 < table) (hN : N ≤ 999) :
    ∃ st, run (demoCfg N table 0 htable) demo 0 demoStart = .ok st ∧ st.i = N ∧ st.snap.x.1 = N ∧ st.snap.time = N := by
  obtain ⟨st, h⟩ := demo_run N table 0 htable
  refine ⟨st, h, ?_⟩
  have hpos : ∀ n r, ResidualAt (vel demo) 0 (runTrajectory (demoCfg N table 0 htable) demo 0 demoStart) n r → 0 ≤ r := by
    rintro n r (⟨-, rfl⟩ | ⟨-, s, s', -, -, hm⟩)
    · norm_num
    · exact hm.1.1
  obtain ⟨h1, h2, h3, h4, -⟩ := run_ok h
  have hle : st.i ≤ N := by
    by_contra hlt
    exact h4 N (Nat.zero_le _) (not_le.1 hlt) (Or.inl le_rfl)
  have hge : N ≤ st.i := by
    rcases h3 with h | ⟨s, hs, hh⟩ | ⟨-, r, hr, hh⟩
    · exact h
    · rw [demo_trajectory] at hs
      cases hs
      have h1 : (1000 : ℝ) ≤ ((st.i - 0 : ℕ) : ℝ) := hh
      have h2 : (1000 : ℕ) ≤ st.i - 0 := by exact_mod_cast h1
      omega
    · exact absurd (hpos _ _ hr) (not_le.2 hh)
  have hi : st.i = N := le_antisymm hle hge
  rw [demo_trajectory] at h2
  cases hsnap : st.snap with
  | mk x t dt =>
    rw [hsnap] at h2
    cases h2
    simp [hi]

/-- Non-vacuity of C27 and C28: the demo run makes seven steps, and its counter counts them. -/
example : ∃ st, run (demoCfg 7 2 0 (by norm_num)) demo 0 demoStart = .ok st ∧ st.i = 7 ∧ st.snap.x.1 = 7 ∧ st.snap.time = 7 := by
  simpa using demo_run_all 7 2 (by norm_num) (by norm_num)

/-- A solver whose time integrator doubles the step size: the clock is 0 + 2 + 4 after two steps. -/
example : ∃ s, runTrajectory (demoCfg 7 2 0 (by norm_num)) { demo with scheme := .sedg, integrate := fun _ dt x => .ok (x, 2 * dt) } 0 demoStart 2 = .ok s ∧
    s.time = 6 := by
  refine ⟨⟨(0, 0), 6, 4⟩, ?_, rfl⟩
  simp [runTrajectory, trajectory, collide, advance, stream, filter, applyProcessors, demo, demoStart, demoCfg]
  norm_num

example : CountsStreams demo Prod.fst where
  advect := fun k t x x' h => by cases h; rfl
  integrate := fun k dt x r h => by cases h; rfl
  applyFilter := fun _ => rfl
  collide := fun x x' h => by cases h; rfl
  processors := fun f hf => by cases hf

/-- The compressible variant of the demo solver, and a configuration with output switched off. -/
def demoC : CompressibleParts (ℕ × ℝ) Empty (Fin 1) 2 :=
  { demo with gStream := fun _ _ x => .ok x, statistics := id, initializeDistributions := .ok }

/-- Non-vacuity of `C29_compressible_output_off_fails`. -/
example : ∃ st, compressibleRun { demoCfg 1 2 0 (by norm_num) with switchOutputOff := true } demoC 0 demoStart = .ok st ∧ st.i = 1 ∧
    Event.checkpoint st.i st.snap ∈ st.log := by
  have h : ∃ st, compressibleRun { demoCfg 1 2 0 (by norm_num) with switchOutputOff := true } demoC 0 demoStart = .ok st ∧ st.i = 1 := by
    simp only [compressibleRun, demoC, demo, demoStart, collide, if_true, Nat.zero_le]
    rw [loop]
    rw [dif_neg (by norm_num [stopConditionMet, demoCfg, calculateResiduals, Residuals.init])]
    simp only [compressibleAdvance, stream, collide, filter, demoCfg, applyProcessors]
    rw [loop]
    rw [dif_pos (by simp [stopConditionMet])]
    exact ⟨_, rfl, rfl⟩
  obtain ⟨st, h, hi⟩ := h
  exact ⟨st, h, hi, C29_compressible_output_off_fails h (by omega) (by simp [demoCfg])⟩

/-- Counterexample to C29: a run of seven steps with table interval 2 writes no table line for its final iteration. -/
theorem C29_table_final_fails : ∃ (st : RunState (ℕ × ℝ) (Fin 1) 2),
    run (demoCfg 7 2 0 (by norm_num)) demo 0 demoStart = .ok st ∧ st.i = 7 ∧ (∀ s, Event.tableLine 7 s ∉ st.log) ∧
    (∃ s, Event.solution 7 s ∈ st.log) ∧ (∃ s, Event.checkpoint 7 s ∈ st.log) ∧ (∃ s, Event.tableLine 6 s ∈ st.log) := by
  obtain ⟨st, h, hi, -⟩ := demo_run_all 7 2 (by norm_num) (by norm_num)
  refine ⟨st, h, hi, fun s hs => ?_, ⟨_, (C29_solution_partial h 7 _).2 ⟨rfl, by norm_num, hi.ge, Or.inr hi.symm, demo_trajectory _ _ _ _ _⟩⟩,
    ⟨_, (C29_checkpoint_partial h 7 _).2 ⟨rfl, by norm_num, hi.ge, by simp [demoCfg], Or.inr hi.symm, demo_trajectory _ _ _ _ _⟩⟩,
    ⟨_, (C29_table_partial h 6 _).2 ⟨rfl, by norm_num, by omega, by simp [demoCfg], demo_trajectory _ _ _ _ _⟩⟩⟩
  have : (demoCfg 7 2 0 (by norm_num)).tableInterval ∣ 7 := ((C29_table_partial h 7 s).1 hs).2.2.2.1
  simp [demoCfg] at this

/-- Counterexample to C62: at iteration 100 of the demo run the velocity has not changed at all over the last 10 iterations (nor over
the last 99), yet the run with threshold 1/2 does not stop there; it stops at iteration 200. -/
theorem C62_ten_iterations_fails : ∃ (st : RunState (ℕ × ℝ) (Fin 1) 2) (s s' : Snapshot (ℕ × ℝ)),
    run (demoCfg 500 2 (1 / 2) (by norm_num)) demo 0 demoStart = .ok st ∧
    runTrajectory (demoCfg 500 2 (1 / 2) (by norm_num)) demo 0 demoStart 90 = .ok s ∧
    runTrajectory (demoCfg 500 2 (1 / 2) (by norm_num)) demo 0 demoStart 100 = .ok s' ∧
    IsMaxChange (demo.u s.x) (demo.u s'.x) 0 ∧ st.i = 200 := by
  obtain ⟨st, h⟩ := demo_run 500 2 (1 / 2) (by norm_num)
  refine ⟨st, _, _, h, demo_trajectory _ _ _ _ 90, demo_trajectory _ _ _ _ 100, ⟨⟨le_rfl, fun n => ?_⟩, fun b hb => hb.1⟩, ?_⟩
  · simp [demo]
  obtain ⟨h1, h2, h3, h4, -⟩ := run_ok h
  have hch : ∀ a b : ℕ, a ≠ 0 → b ≠ 0 → IsMaxChange (demo.u (a, if a = 0 then (0 : ℝ) else 1)) (demo.u (b, if b = 0 then (0 : ℝ) else 1)) 0 := by
    intro a b ha hb
    refine ⟨⟨le_rfl, fun n => ?_⟩, fun b hb => hb.1⟩
    simp [demo, ha, hb]
  have hle : st.i ≤ 200 := by
    by_contra hlt
    refine h4 200 (Nat.zero_le _) (not_le.1 hlt) (Or.inr (Or.inr ⟨by norm_num, 0, Or.inr ⟨by norm_num, _, _, demo_trajectory _ _ _ _ _,
      demo_trajectory _ _ _ _ _, hch _ _ (by norm_num) (by norm_num)⟩, ?_⟩))
    simp [RunConfig.stopRule, demoCfg]
  rcases h3 with h | ⟨s, hs, hh⟩ | ⟨hd, r, hr, hh⟩
  · exact absurd (le_trans h hle) (by simp [RunConfig.stopRule, demoCfg])
  · rw [demo_trajectory] at hs
    cases hs
    have h1 : (1000 : ℝ) ≤ ((st.i - 0 : ℕ) : ℝ) := hh
    have h2 : (1000 : ℕ) ≤ st.i - 0 := by exact_mod_cast h1
    omega
  · have hhr : r < 1 / 2 := hh
    have hi : st.i = 0 ∨ st.i = 100 ∨ st.i = 200 := by
      obtain ⟨m, hm⟩ := hd
      have : m ≤ 2 := by omega
      interval_cases m <;> omega
    have hr1 : st.i ≠ 200 → r = 1 := by
      intro hne
      rcases hr with ⟨-, rfl⟩ | ⟨h100, s, s', hs, hs', hm⟩
      · rfl
      · have hi : st.i = 100 := by omega
        rw [hi, demo_trajectory] at hs hs'
        cases hs; cases hs'
        refine hm.unique ⟨⟨by norm_num, fun n => ?_⟩, fun b hb => ?_⟩
        · simp [demo, vel]
        · simpa [demo, vel] using hb.2 0
    by_contra hne
    rw [hr1 hne] at hhr
    norm_num at hhr

end Demo

section Initialisation

theorem iterate_count (sweep : σ → Except ε (σ × ℝ)) (limit : ℕ) (tol : ℝ) (n : ℕ) : ∀ (c : ℕ) (r : ℝ) (x : σ) {y : σ} {m : ℕ},
    n = limit + 1 - c → iterate sweep limit tol c r x = .ok (y, m) → c ≤ m ∧ m ≤ max c (limit + 1) := by
  induction n with
  | zero =>
    intro c r x y m hn h
    rw [iterate] at h
    split at h
    · rw [if_pos (by omega)] at h
      cases h; exact ⟨le_rfl, le_max_left _ _⟩
    · cases h; exact ⟨le_rfl, le_max_left _ _⟩
  | succ n ih =>
    intro c r x y m hn h
    rw [iterate] at h
    split at h
    · rw [if_neg (by omega)] at h
      cases hs : sweep x with
      | error e => rw [hs] at h; cases h
      | ok q =>
        obtain ⟨x', r'⟩ := q
        rw [hs] at h
        obtain ⟨a, b⟩ := ih (c + 1) r' x' (by omega) h
        exact ⟨by omega, by omega⟩
    · cases h; exact ⟨le_rfl, le_max_left _ _⟩

/-- The iterative initialisation always stops, after at most one pass more than the configured maximum (the test is `>` instead of
`>=`).  Missing for C68: exactly that one pass, see `C68_limit_fails`. -/
theorem C68_iterations_partial (sweep : σ → Except ε (σ × ℝ)) (limit : ℕ) (tol : ℝ) (x : σ) {y : σ} {m : ℕ}
    (h : iterativeInitialization sweep limit tol x = .ok (y, m)) : m ≤ limit + 1 := by
  have := (iterate_count sweep limit tol _ 0 1000000000 x rfl h).2
  omega

theorem iterate_never (limit : ℕ) (tol : ℝ) (htol : tol < 1) (n : ℕ) : ∀ (c : ℕ) (r : ℝ) (x : ℕ), 1 ≤ r → n = limit + 1 - c → c ≤ limit + 1 →
    iterate (ε := Empty) (fun x => .ok (x + 1, 1)) limit tol c r x = .ok (x + (limit + 1 - c), limit + 1) := by
  induction n with
  | zero =>
    intro c r x hr hn hc
    rw [iterate, if_pos (lt_of_lt_of_le htol hr), if_pos (by omega)]
    have : c = limit + 1 := by omega
    simp [this]
  | succ n ih =>
    intro c r x hr hn hc
    rw [iterate, if_pos (lt_of_lt_of_le htol hr), if_neg (by omega)]
    simp only
    rw [ih (c + 1) 1 (x + 1) le_rfl (by omega) (by omega)]
    congr 2
    omega

/-- Counterexample to C68: a sweep that does not converge is performed `limit + 1` times, for every limit. -/
theorem C68_limit_fails (limit : ℕ) (tol : ℝ) (htol : tol < 1) :
    iterativeInitialization (ε := Empty) (fun x : ℕ => .ok (x + 1, 1)) limit tol 0 = .ok (limit + 1, limit + 1) := by
  have := iterate_never limit tol htol _ 0 1000000000 0 (by norm_num) rfl (by omega)
  simpa [iterativeInitialization] using this

/-- **C68** for the compressible solver: exactly the configured number of passes. -/
theorem C68_compressible (sweep : σ → Except ε σ) (limit : ℕ) {x y : σ} {m : ℕ}
    (h : compressibleIterate sweep limit 0 x = .ok (y, m)) : m = limit := by
  have key : ∀ n c x, n = limit - c → c ≤ limit → compressibleIterate sweep limit c x = .ok (y, m) → m = limit := by
    intro n
    induction n with
    | zero =>
      intro c x hn hc h
      rw [compressibleIterate, if_neg (by omega)] at h
      cases h; omega
    | succ n ih =>
      intro c x hn hc h
      rw [compressibleIterate, if_pos (by omega)] at h
      cases hs : sweep x with
      | error e => rw [hs] at h; cases h
      | ok x' => rw [hs] at h; exact ih (c + 1) x' (by omega) (by omega) h
  exact key _ 0 x rfl (Nat.zero_le _) h

example : compressibleIterate (ε := Empty) (fun x : ℕ => .ok (x + 2)) 2 0 1 = .ok (5, 2) := by
  rw [compressibleIterate]; simp
  rw [compressibleIterate]; simp
  rw [compressibleIterate]; simp

end Initialisation

end Solver
end NATriuM
